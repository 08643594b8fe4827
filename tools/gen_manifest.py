#!/usr/bin/env python3
"""Collects the property theorems (names Cnn_*) from lean/Verif/Props and writes MANIFEST.json.
A property counts as partial if one of its theorems carries the suffix _partial."""
import json, os, re, glob
root=os.path.join(os.path.dirname(os.path.abspath(__file__)),"..")
notes=json.load(open(os.path.join(root,"tools","notes.json")))
props=[json.loads(l) for l in open(os.path.join(root,"properties.jsonl"))]
thms={}
for f in sorted(glob.glob(os.path.join(root,"lean","Verif","Props","*.lean"))):
    stack=[]
    for line in open(f):
        m=re.match(r"(namespace|section|mutual|end)\b\s*(\S*)\s*$",line)
        if m:
            if m.group(1)=="end":
                if stack: stack.pop()
            else: stack.append(m.group(2) if m.group(1)=="namespace" else "")
            continue
        m=re.match(r"(?:private |protected )?theorem (C(\d\d+)_\w+)",line)
        if m: thms.setdefault("C"+m.group(2),[]).append(".".join([x for x in stack if x]+[m.group(1)]))
claims=[]
for p in props:
    i=p["id"]; t=thms.get(i,[])
    n=notes.get(i,{})
    status=n.get("status") or ("partial" if (not t or any(x.endswith("_partial") for x in t)) else "proved")
    claims.append(dict(property=i,status=status,theorems=t,note=n.get("note","")))
with open(os.path.join(root,"MANIFEST.json"),"w") as f:
    json.dump({"claims":[c for c in claims if c["theorems"] or c["status"]=="not_applicable"]},f,indent=1)
    f.write("\n")
for c in claims: print(c["property"],c["status"],len(c["theorems"]))
