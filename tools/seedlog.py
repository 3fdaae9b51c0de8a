#!/usr/bin/env python3
"""usage: seedlog.py OUT.jsonl...  Turn results of mutate.py into seeded/LOG.jsonl lines (appending those not yet there)."""
import json,sys,glob,re,os
log='/verif/seeded/LOG.jsonl'
have={json.loads(l)['edit'] for l in open(log) if l.strip()}
imports={}
for p in glob.glob('/verif/lean/Verif/**/*.lean',recursive=True):
    n=p[len('/verif/lean/Verif/'):-5]
    imports[n]=[m.replace('.','/') for m in re.findall(r'^import Verif\.(\S+)',open(p).read(),re.M)]
def dependents(mod):
    out=set(); todo=[mod]
    while todo:
        m=todo.pop()
        for n,i in imports.items():
            if m in i and n not in out: out.add(n); todo.append(n)
    return out
def thms(mod):
    p=f'/verif/lean/Verif/{mod}.lean'
    return re.findall(r'^theorem (C\d\d_\w+)',open(p).read(),re.M) if os.path.exists(p) else []
with open(log,'a') as fh:
    for f in sys.argv[1:]:
        for l in open(f):
            r=json.loads(l)
            if r['edit'] in have or r['claim'].startswith('none'): continue
            have.add(r['edit'])
            via=[]
            for x in r['failed']:
                for d in sorted(dependents(x.split(':')[0])):
                    if d.startswith('Props/') and d[6:] in r['props']: via+=thms(d)
            fh.write(json.dumps(dict(definition=r['definition'],edit=r['edit'],claim_broken=r['claim'],
              theorems_failed=r['failed'], claim_theorems_unprovable_because_of_failed_lemmas=sorted(set(via)),
              survived=r['ok'], theorems_tightened=r.get('tightened',[])))+'\n')
