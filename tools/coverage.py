#!/usr/bin/env python3
"""Which lines of /repo are cited by the model, and which code lines are not: a check of DESIGN.md's list of unmodelled parts.
Usage: coverage.py [repo]"""
import glob, os, re, sys
root=os.path.join(os.path.dirname(os.path.abspath(__file__)),"..")
repo=sys.argv[1] if len(sys.argv)>1 else "/repo"
cited={}
for f in glob.glob(os.path.join(root,"lean","Verif","Model","*.lean")):
    text=open(f).read()
    for m in re.finditer(r"((?:inc/midi|src)/\w+\.(?:h|cpp))((?:[\s,]+(?:and\s+)?\d+(?:-\d+)?)+)",text):
        for r in re.finditer(r"(\d+)(?:-(\d+))?",m.group(2)):
            a=int(r.group(1)); b=int(r.group(2) or a)
            cited.setdefault(m.group(1),set()).update(range(a,b+1))
for f in sorted(glob.glob(os.path.join(repo,"inc/midi/*.h"))+glob.glob(os.path.join(repo,"src/*.cpp"))):
    rel=os.path.relpath(f,repo); c=cited.get(rel,set())
    lines=open(f,encoding="utf8").read().split("\n")
    un=[]
    for i,l in enumerate(lines,1):
        s=l.strip()
        if i in c or not s or s.startswith("//") or s in "{}" or s in ("};","public:","private:","protected:","#else","#endif"): continue
        un.append((i,l))
    print(f"== {rel}: {len(c)} lines cited, {len(un)} code lines not")
    if len(sys.argv)>2:
        for i,l in un: print(f"{i:5} {l}")
