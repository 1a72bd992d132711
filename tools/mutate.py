#!/usr/bin/env python3
"""Mutation tests of the theorems (see ../seeded/LOG.jsonl).

usage: mutate.py MUTANTS.json [first [last]]

Each mutant is {"id", "file", "old", "new", "claim", "why", "expect": [property ids]}, and optionally
"also": [{"file", "old", "new"}] for the same change in other files.  The tree is
copied to /tmp/scratch, the edit applied to the model file, and every dependent module compiled.
A proof that no longer compiles is stubbed in the scratch copy so that later modules still
elaborate; at the end the manifest theorems that depend on a stub are reported: these are the
theorems that fail on the mutant, directly or through a lemma.

With MUT_FAST=1 the modules that lead to the theorems of the expected properties are compiled
first, and the run stops there if one of these theorems fails itself (not only through a lemma).
"""
import json, os, re, shutil, subprocess, sys
from concurrent.futures import ThreadPoolExecutor

SRC = os.environ.get("MUT_SRC", "/verif/lean")  # a built tree; use a snapshot while editing
TMP = os.environ.get("MUT_TMP", "/tmp/scratch")
ENV = dict(os.environ)
STUB = "so" + "rry"

def sh(cmd, cwd, timeout=1800):
    return subprocess.run(cmd, cwd=cwd, shell=True, capture_output=True, text=True, timeout=timeout, env=ENV)

def modules():
    return sorted(re.findall(r"^import Verif\.(\w+)", open(SRC + "/Verif.lean").read(), re.M))

def imports(m):
    return re.findall(r"^import Verif\.(\w+)", open(f"{SRC}/Verif/{m}.lean").read(), re.M)

DECL = re.compile(r"^(?:@\[[^\]]*\]\s*)?(?:private |protected |noncomputable )*(theorem|lemma|example|def|abbrev|structure|instance|inductive|class)\b\s*(\S*)")

def stub(lines, lineno):
    """Stub the proof of the declaration containing lineno (1-based). Returns name or None."""
    i = lineno - 1
    while i >= 0 and not DECL.match(lines[i]):
        i -= 1
    if i < 0:
        return None
    m = DECL.match(lines[i])
    if m.group(1) not in ("theorem", "lemma", "example"):
        return None
    j = i + 1
    while j < len(lines) and not (DECL.match(lines[j]) or re.match(r"^(/--|/-!|end\b|namespace\b|open\b|section\b|variable\b|set_option\b|@\[|local\b|omit\b)", lines[j])):
        j += 1
    text = "\n".join(lines[i:j])
    depth, k, pos = 0, 0, None
    lets = 0
    while k < len(text):
        c = text[k]
        if c in "([{⟨": depth += 1
        elif c in ")]}⟩": depth -= 1
        elif depth == 0 and re.match(r"\blet\b", text[k:]) and not text[k-1].isalnum(): lets += 1
        elif depth == 0 and text.startswith(":=", k):
            if lets: lets -= 1
            else:
                pos = k
                break
        k += 1
    arm = re.search(r"\n  \| ", text)
    if arm and (pos is None or arm.start() < pos):
        pos = arm.start()
    if pos is None:
        return None
    name = m.group(2) if m.group(1) != "example" else f"example@{i+1}"
    new = text[:pos] + " := by " + STUB
    n_old = j - i
    newl = new.split("\n")
    newl += [""] * (n_old - len(newl))
    lines[i:j] = newl
    return name

def compile_mod(m):
    path = f"Verif/{m}.lean"
    failed = []
    for _ in range(12):
        r = sh(f"lean -M 9000 -o .lake/build/lib/lean/Verif/{m}.olean {path}", TMP)
        errs = re.findall(rf"^{re.escape(path)}:(\d+):\d+: error", r.stdout + r.stderr, re.M)
        if r.returncode == 0 and not errs:
            return failed, None
        if not errs:
            return failed, (r.stdout + r.stderr)[-500:]
        lines = open(f"{TMP}/{path}").read().split("\n")
        done = set()
        bad = None
        for e in errs:
            n = stub(lines, int(e))
            if n is None:
                # maybe already stubbed in this pass
                i = int(e) - 1
                while i >= 0 and not DECL.match(lines[i]): i -= 1
                bad = f"{m}:{e}: {lines[i] if i >= 0 else '?'}"
                continue
            if n not in done:
                done.add(n)
        new = [n for n in done if n not in failed]
        failed += new
        if not new:
            return failed, bad or (r.stdout)[-500:]
        open(f"{TMP}/{path}", "w").write("\n".join(lines))
    return failed, "too many passes"

def compile_phase(todo, imp, done, failed, problems):
    todo = set(todo)
    with ThreadPoolExecutor(int(os.environ.get("MUT_JOBS", "3"))) as ex:
        running = {}
        while todo or running:
            for m in sorted(todo):
                if all(i in done for i in imp[m]):
                    running[ex.submit(compile_mod, m)] = m
                    todo.discard(m)
            from concurrent.futures import wait, FIRST_COMPLETED
            if not running:
                break
            d, _ = wait(list(running), return_when=FIRST_COMPLETED)
            for f in d:
                m = running.pop(f)
                fl, pr = f.result()
                if fl: failed[m] = fl
                if pr:
                    problems[m] = pr
                else:
                    done.add(m)

def run(mut):
    sh(f"rm -rf {TMP} && cp -a {SRC} {TMP}", "/")
    p = f"{TMP}/Verif/{mut['file']}"
    s = open(p).read()
    if s.count(mut["old"]) != 1:
        return {"error": f"pattern occurs {s.count(mut['old'])} times"}
    open(p, "w").write(s.replace(mut["old"], mut["new"]))
    roots = {mut["file"][:-5]}
    for e in mut.get("also", []):  # further edits of the same mutant
        p = f"{TMP}/Verif/{e['file']}"
        s = open(p).read()
        if s.count(e["old"]) != 1:
            return {"error": f"pattern in {e['file']} occurs {s.count(e['old'])} times"}
        open(p, "w").write(s.replace(e["old"], e["new"]))
        roots.add(e["file"][:-5])
    mods = modules()
    imp = {m: imports(m) for m in mods}
    dep = set(roots)
    ch = True
    while ch:
        ch = False
        for m in mods:
            if m not in dep and any(i in dep for i in imp[m]):
                dep.add(m); ch = True
    failed, problems = {}, {}
    done = set(m for m in mods if m not in dep)
    if os.environ.get("MUT_FAST"):
        src = {m: open(f"{SRC}/Verif/{m}.lean").read() for m in dep}
        want = {m for m in dep if any(re.search(rf"^theorem {e}_", src[m], re.M) for e in mut.get("expect", []))}
        stack = list(want)
        while stack:
            for i in imp[stack.pop()]:
                if i in dep and i not in want:
                    want.add(i); stack.append(i)
        phases = [want, dep - want]
    else:
        phases = [dep]
    partial_run = False
    for phase in phases:
        compile_phase(phase, imp, done, failed, problems)
        direct = {n[:3] for l in failed.values() for n in l}
        if len(phases) == 2 and phase is phases[0] and direct & set(mut.get("expect", [])):
            partial_run = True
            break
    man = json.load(open("/verif/MANIFEST.json"))
    ths = [t for c in man["claims"] for t in c["theorems"]]
    test = f"{TMP}/Verif_axioms_probe.lean"
    built = [m for m in mods if m in done]
    with open(test, "w") as f:
        for m in built: f.write(f"import Verif.{m}\n")
        for t in ths: f.write(f"#print axioms {t}\n")
    r = sh(f"lean {test}", TMP)
    out = r.stdout + r.stderr
    hit, missing = [], []
    for t in ths:
        m = re.search(rf"'{re.escape(t)}' depends on axioms: \[([^\]]*)\]", out)
        if m:
            if STUB + "Ax" in m.group(1): hit.append(t.replace("Mbd.", ""))
        elif not re.search(rf"'{re.escape(t)}' does not depend", out):
            missing.append(t.replace("Mbd.", ""))
    return {"direct": failed, "problems": problems, "failed": hit,
            "unbuilt": [] if partial_run else missing, "stopped_early": partial_run}

if __name__ == "__main__":
    ENV["LEAN_PATH"] = sh("lake env printenv LEAN_PATH", SRC).stdout.strip().replace(SRC, TMP)
    muts = json.load(open(sys.argv[1]))
    out = sys.argv[1].replace(".json", ".out.jsonl")
    lo = int(sys.argv[2]) if len(sys.argv) > 2 else 0
    hi = int(sys.argv[3]) if len(sys.argv) > 3 else len(muts)
    for mut in muts[lo:hi]:
        res = run(mut)
        res["id"] = mut["id"]
        hitprops = {t[:3] for t in res.get("failed", [])}
        res["expected_hit"] = {e: e in hitprops for e in mut.get("expect", [])}
        with open(out, "a") as f:
            f.write(json.dumps(res) + "\n")
        print(json.dumps({k: res.get(k) for k in ("id", "error", "problems", "failed", "unbuilt", "expected_hit", "stopped_early")}), flush=True)
