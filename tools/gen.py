#!/usr/bin/env python3
"""Regenerates lean/Verif.lean (imports), MANIFEST.json (claims from theorem names Cnn_...) and a
scratch file that prints the axioms of every property theorem."""
import re,glob,json,os,sys
root=os.path.dirname(os.path.dirname(os.path.abspath(__file__)))
os.chdir(root+"/lean")
mods=sorted(f[:-5].replace("/",".") for f in glob.glob("Verif/**/*.lean",recursive=True))
open("Verif.lean","w").write("".join(f"import {m}\n" for m in mods))
thms={}
order=[]
for f in sorted(glob.glob("Verif/Props/**/*.lean",recursive=True)):
    ns=[]
    for line in open(f):
        m=re.match(r"namespace (\S+)",line)
        if m: ns.append(m.group(1)); continue
        m=re.match(r"end (\S+)",line)
        if m and ns and m.group(1)==ns[-1]: ns.pop(); continue
        m=re.match(r"(?:@\[[^\]]*\]\s*)?(?:private |protected )?theorem (C\d+)_(\S+)",line)
        if m:
            full=".".join(ns+[m.group(1)+"_"+m.group(2)])
            thms.setdefault(m.group(1),[]).append(full)
docs={}
for f in glob.glob("Verif/Props/**/*.lean",recursive=True):
    s=open(f).read()
    for m in re.finditer(r"/--((?:(?!-/).)*)-/\s*(?:@\[[^\]]*\]\s*)?theorem (C\d+_[\w']+)",s,re.S):
        docs[m.group(2)]=" ".join(m.group(1).split())
notes=json.load(open(root+"/tools/notes.json"))
props=[json.loads(l) for l in open(root+"/properties.jsonl") if l.strip()]
claims=[]
def auto(t,st):
    if st=="proved": return ""
    return " ".join(x.split(".")[-1]+": "+docs.get(x.split(".")[-1],"") for x in t if x.endswith(("_partial","_violated")))
for p in props:
    i=p["id"]
    t=thms.get(i,[])
    n=notes.get(i,{})
    if not t: continue
    st=n.get("status") or ("partial" if any(x.endswith(("_partial","_violated")) for x in t) else "proved")
    claims.append({"property":i,"status":st,"theorems":t,"note":n.get("note") or auto(t,st)})
json.dump({"claims":claims},open(root+"/MANIFEST.json","w"),indent=1,ensure_ascii=False)
open("/tmp/axioms.lean","w").write("import Verif\n"+"".join(f"#print axioms {x}\n" for v in thms.values() for x in v))
print(len(props),"properties;",len(claims),"with theorems;",sum(len(v) for v in thms.values()),"theorems;",len(mods),"modules")
print("missing:",[p["id"] for p in props if p["id"] not in thms])
