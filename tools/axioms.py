#!/usr/bin/env python3
"""Writes AXIOMS.md: for every theorem named in MANIFEST.json the axioms it depends on (as printed by Lean).
Needs a finished build in lean/."""
import json, os, re, subprocess, tempfile
root=os.path.join(os.path.dirname(os.path.abspath(__file__)),"..")
names=[t for c in json.load(open(os.path.join(root,"MANIFEST.json")))["claims"] for t in c["theorems"]]
with tempfile.NamedTemporaryFile("w",suffix=".lean",delete=False) as f:
    f.write("import Verif\n"+"".join("#print axioms %s\n"%n for n in names))
out=subprocess.run(["lake","env","lean",f.name],cwd=os.path.join(root,"lean"),capture_output=True,text=True)
os.remove(f.name)
text=out.stdout.replace("\n "," ")
ax={}
for m in re.finditer(r"'(\S+)' (?:depends on axioms: \[([^\]]*)\]|does not depend on any axioms)",text):
    ax[m.group(1)]=", ".join(sorted((m.group(2) or "").replace("\n"," ").split(", "))) if m.group(2) else "none"
missing=[n for n in names if n not in ax]
groups={}
for n in names:
    if n in ax: groups.setdefault(ax[n],[]).append(n)
with open(os.path.join(root,"AXIOMS.md"),"w") as f:
    f.write("# Axioms of the property theorems\n\nGenerated by tools/axioms.py from the output of `#print axioms`.\n")
    for a in sorted(groups):
        f.write("\n## %s\n\n%s\n"%(a,"\n".join("* `%s`"%n for n in groups[a])))
print({a:len(g) for a,g in groups.items()},"missing:",missing, out.stderr[:500])
