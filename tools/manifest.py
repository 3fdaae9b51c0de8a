#!/usr/bin/env python3
"""Regenerates MANIFEST.json: theorem names are collected from lean/Verif/Props (prefix Cnn_), statuses/notes from tools/notes.json."""
import json, re, glob, os
root = os.path.dirname(os.path.dirname(os.path.abspath(__file__)))
notes = json.load(open(f"{root}/tools/notes.json"))
thms = {}
for p in sorted(glob.glob(f"{root}/lean/Verif/Props/**/*.lean", recursive=True)):
    ns = []
    for line in open(p):
        m = re.match(r"namespace\s+(\S+)", line)
        if m: ns.append(m.group(1))
        m = re.match(r"end\s+(\S+)", line)
        if m and ns and ns[-1] == m.group(1): ns.pop()
        m = re.match(r"(?:@\[[^\]]*\]\s*)?theorem\s+(C\d\d)_(\S+)", line)
        if m: thms.setdefault(m.group(1), []).append(".".join(ns + [f"{m.group(1)}_{m.group(2)}"]))
claims = []
for l in open(f"{root}/properties.jsonl"):
    pid = json.loads(l)["id"]
    n = notes.get(pid, {})
    if pid not in thms: 
        print("no theorems yet:", pid)
        continue
    st = n.get("status") or ("partial" if any("_partial" in t for t in thms[pid]) else "proved")
    claims.append({"property": pid, "status": st, "theorems": thms[pid], "note": n.get("note", "")})
json.dump({"claims": claims}, open(f"{root}/MANIFEST.json", "w"), indent=1)
print(len(claims), "claims", sum(len(c["theorems"]) for c in claims), "theorems")
