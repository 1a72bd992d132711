#!/usr/bin/env python3
"""Check the source citations in the Lean comments.

* every `file.py:a-b` range cited lies inside the file;
* every definition of a model module has a doc comment that cites a source range (or says which
  cited definition it belongs to);
* prints, for each python function of /repo, the Lean modules that cite lines inside it.
"""
import ast, glob, os, re, sys
REPO, LEAN = "/repo", "/verif/lean/Verif"
MODEL = ["Prim","Geom","TT2d","Bicycle","NTrailer","Acc","Rollout","Env","Planner","Demo","Cache","Guidance",
         "Projection","Config","Timing","Stat","Wiring","Tuner","Bench","Render","Video","Harness","Comparison"]
py = {}
for p in glob.glob(REPO + "/**/*.py", recursive=True):
    py.setdefault(os.path.basename(p), []).append(p)
lines = {p: len(open(p).read().split("\n")) for ps in py.values() for p in ps}
cites = {}   # path -> set of (line, module)
bad = 0
CITE = re.compile(r"([\w/]+\.py):(\d+(?:-\d+)?(?:,\s*\d+(?:-\d+)?)*)")
for f in sorted(glob.glob(LEAN + "/*.lean")):
    m = os.path.basename(f)[:-5]
    s = open(f).read()
    for c in CITE.finditer(s):
        name, rng = c.group(1), c.group(2)
        ps = [p for p in py.get(os.path.basename(name), []) if p.endswith("/" + name)]
        if not ps:
            print("BAD file", m, c.group(0)); bad += 1; continue
        if len(ps) > 1:
            ps = [p for p in ps if "/envs/" in p or "/planners/" in p] or ps
        p = ps[0]
        for r in re.split(r",\s*", rng):
            a, _, b = r.partition("-")
            a, b = int(a), int(b or a)
            if not (1 <= a <= b <= lines[p]):
                print("BAD range", m, c.group(0), lines[p]); bad += 1
            for k in range(a, b + 1):
                cites.setdefault(p, {}).setdefault(k, set()).add(m)
    if m in MODEL:
        for d in re.finditer(r"^(?:noncomputable )?(?:def|abbrev|structure|inductive)\s+(\S+)", s, re.M):
            before = s[:d.start()].rstrip()
            before = re.sub(r"(?:@\[[^\]]*\]|open Classical in|noncomputable)\s*$", "", before).rstrip()
            if not before.endswith("-/"):
                print("NO DOC", m, d.group(1)); bad += 1; continue
            doc = before[before.rfind("/--"):]
            if not re.search(r"\.py|lines? \d|:\d", doc):
                print("NO CITE", m, d.group(1), "::", doc[:90].replace("\n", " ")); bad += 1
if "-v" in sys.argv:
    for p in sorted(lines):
        t = ast.parse(open(p).read())
        for n in ast.walk(t):
            if isinstance(n, (ast.FunctionDef, ast.ClassDef)):
                if isinstance(n, ast.ClassDef): continue
                ms = sorted(set().union(*[cites.get(p, {}).get(k, set()) for k in range(n.lineno, n.end_lineno + 1)]) & set(MODEL))
                print(f"{p[len(REPO)+1:]}:{n.lineno}-{n.end_lineno} {n.name}: {', '.join(ms) or '-'}")
print("problems:", bad)
