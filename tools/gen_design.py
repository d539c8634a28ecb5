#!/usr/bin/env python3
"""DESIGN.md = tools/design_head.md + one entry per property (statement, status, modules, theorems with their docstrings)."""
import re,glob,json,os
root=os.path.dirname(os.path.dirname(os.path.abspath(__file__)))
docs={};where={};imp={}
for f in glob.glob(root+"/lean/Verif/Props/**/*.lean",recursive=True):
    s=open(f).read(); mod=f[len(root)+6:-5].replace("/",".")
    imp[mod]=[]
    for m in re.finditer(r"^import (Verif\.Model\.\S+)",s,re.M): imp[mod].append(m.group(1)[12:])
    for m in re.finditer(r"(?:/--((?:(?!-/).)*)-/\s*)?(?:@\[[^\]]*\]\s*)?theorem (C\d+_[\w']+)",s,re.S):
        docs[m.group(2)]=" ".join((m.group(1) or "").split()); where[m.group(2)]=mod
M={c["property"]:c for c in json.load(open(root+"/MANIFEST.json"))["claims"]}
out=[open(root+"/tools/design_head.md").read()]
for l in open(root+"/properties.jsonl"):
    p=json.loads(l); c=M.get(p["id"])
    out.append(f"### {p['id']} {p['title']} — {c['status'] if c else 'not modelled'}\n\n{p['statement']}\n\nOver: {p['quantifier']}.\n")
    if not c: continue
    mods=sorted({where[t.split('.')[-1]] for t in c["theorems"]})
    out.append("In "+", ".join(f"`{m}`" for m in mods)+".\n")
    for t in c["theorems"]:
        t=t.split(".")[-1]; d=re.sub(r"^C\d+(?:, C\d+)*\s*(?:\(([^)]*)\))?[:,]?\s*",lambda m:(m.group(1)+": ") if m.group(1) else "",docs[t])
        out.append(f"* `{t}` — {d}" if d else f"* `{t}`")
    if c.get("note") and c["status"]=="proved": out.append("\nLimit: "+c["note"])
    out.append("")
open(root+"/DESIGN.md","w").write("\n".join(out)+"\n")
