#!/usr/bin/env python3
"""Mutation runner. usage: mutate.py MUTANTS.json [OUT.jsonl]
Copies /verif/lean to /tmp/mut/lean once, then for each mutant {def, file, old, new, edit, claim} edits the model there, runs `lake build`
and records which theorems no longer prove (by error position) and which modules were not reached because a dependency failed."""
import json,re,subprocess,sys,os,glob
root='/tmp/mut/lean'
muts=json.load(open(sys.argv[1]))
out=sys.argv[2] if len(sys.argv)>2 else '/tmp/mut/out.jsonl'
def enclosing(path,line):
    name=None
    for i,l in enumerate(open(path).read().split('\n'),1):
        if i>line: break
        m=re.match(r'\s*(?:@\[.*?\]\s*)?(?:private |noncomputable |protected )*(theorem|lemma|def|instance|example|abbrev)\s*(\S*)',l)
        if m: name=m.group(2) if m.group(1)!='example' and m.group(2) not in('',':','(') else m.group(1)
    return name
done=set()
if os.path.exists(out):
    for l in open(out):
        done.add(json.loads(l)['edit'])
for m in muts:
    if m['edit'] in done: continue
    p=os.path.join(root,'Verif',m['file'])
    src=open(p).read()
    if src.count(m['old'])<1:
        print('NOT FOUND',m['edit']); continue
    k=m.get('nth',0)
    parts=src.split(m['old'])
    new=m['old'].join(parts[:k+1])+m['new']+m['old'].join(parts[k+1:])
    open(p,'w').write(new)
    try:
        r=subprocess.run(['lake','build'],cwd=root,capture_output=True,text=True,timeout=2400)
        o=r.stdout+r.stderr
    finally:
        open(p,'w').write(src)
    fails=[]
    for mm in re.finditer(r'error: (Verif/\S+\.lean):(\d+):\d+',o):
        n=enclosing(os.path.join(root,mm.group(1)),int(mm.group(2)))
        f=f"{mm.group(1)[6:-5]}:{n}"
        if f not in fails: fails.append(f)
    failed_mods=sorted(set(re.findall(r'^- (Verif\.\S+)',o,re.M)))
    rec=dict(definition=m['def'],edit=m['edit'],claim=m['claim'],props=m.get('props',[]),failed=fails,ok=(r.returncode==0))
    with open(out,'a') as fh: fh.write(json.dumps(rec)+'\n')
    print(json.dumps(rec)[:400],flush=True)
