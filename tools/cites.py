#!/usr/bin/env python3
"""Check the citations in the model: every `file.rs:a-b` must exist in /repo and, where the citation is followed by backquoted
identifiers, at least one of these must occur in the cited lines."""
import re,glob,os,sys
files={}
for r,_,fs in os.walk('/repo'):
    if '/.git' in r or '/target' in r: continue
    for f in fs:
        if f.endswith(('.rs','.toml','.md')): files.setdefault(f,[]).append(os.path.join(r,f))
def find(path,doc):
    c=[p for p in files.get(os.path.basename(path),[]) if p.endswith('/'+path)]
    return c
bad=0;n=0
for lf in sorted(glob.glob('/verif/lean/Verif/**/*.lean',recursive=True)):
    s=open(lf).read()
    hdr=s[:1500]
    for m in re.finditer(r'([A-Za-z_0-9/.{},]*?[A-Za-z_0-9]+\.(?:rs|toml|md)):((?:\d+(?:-\d+)?)(?:, ?\d+(?:-\d+)?)*)([^\n]*)',s):
        path,rs,rest=m.group(1).lstrip('/'),m.group(2),m.group(3)
        cands=find(path,hdr)
        ln=s[:m.start()].count('\n')+1
        n+=1
        if not cands: print(f'{lf[18:]}:{ln}: no file {path}'); bad+=1; continue
        rngs=[(int(x.split('-')[0]),int(x.split('-')[-1])) for x in re.split(', ?',rs)]
        ids=re.findall(r'`([^`]+)`',re.split(r'[A-Za-z_]+\.rs:',rest)[0])
        words=[w for i in ids for w in re.findall(r'[A-Za-z_]\w{2,}',i)]
        ok=False;why=''
        for c in cands:
            L=open(c).read().split('\n')
            if any(b>len(L) for a,b in rngs): why='beyond end'; continue
            txt='\n'.join('\n'.join(L[a-1:b]) for a,b in rngs)
            if not words or any(re.search(r'\b'+re.escape(w)+r'\b',txt) for w in words): ok=True
            else: why='none of '+','.join(words[:5])
        if not ok: print(f'{lf[18:]}:{ln}: {path}:{rs} {why}'); bad+=1
print(n,'citations',bad,'bad')
