#!/usr/bin/env python3
"""Writes AXIOMS.md: the axioms each claimed theorem depends on, as reported by `#print axioms`."""
import json,subprocess,os,re,collections
root=os.path.join(os.path.dirname(os.path.abspath(__file__)),"..")
m=json.load(open(os.path.join(root,"MANIFEST.json")))
ths=[(c["property"],t) for c in m["claims"] for t in c["theorems"]]
src="import Verif\n"+"".join(f"#print axioms {t}\n" for _,t in ths)
f="/tmp/Axioms.lean"; open(f,"w").write(src)
o=subprocess.run(["lake","env","lean",f],cwd=os.path.join(root,"lean"),capture_output=True,text=True).stdout
o=re.sub(r"\n\s+"," ",o)
ax={}
for line in o.splitlines():
    a=re.match(r".*'(\S+)' depends on axioms: \[(.*)\]",line)
    b=re.match(r".*'(\S+)' does not depend on any axioms",line)
    if a: ax[a[1]]=a[2]
    elif b: ax[b[1]]="none"
with open(os.path.join(root,"AXIOMS.md"),"w") as g:
    g.write("# Axioms of the claimed theorems\n\nGenerated by tools/axioms.py from `#print axioms`.\n\n| property | theorem | axioms |\n|---|---|---|\n")
    for p,t in ths: g.write(f"| {p} | {t} | {ax.get(t,'MISSING')} |\n")
print(len(ths),collections.Counter(ax.get(t,'MISSING') for _,t in ths))
