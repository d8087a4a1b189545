"""Applies wrong-program edits to a scratch copy of the Lean project and records what stops proving.

usage: mutate.py BATCH.json [CORES]
Each edit of the batch is an object with keys file, definition, old, new, edit, breaks, props.
Results are appended to /tmp/mut/results.jsonl. deps.txt (theorem -> constants used) is made by Deps.lean.
"""
import json, os, re, shutil, subprocess, sys, time

SRC, WORK, OUT = os.environ.get("MUTSRC", "/verif/lean"), os.environ.get("MUTWORK", "/tmp/mut/work"), "/tmp/mut/results.jsonl"
DECL = re.compile(r"^(?:@\[[^\]]*\]\s*)?(?:private |protected |noncomputable )*(theorem|lemma|def|abbrev|example|instance|structure|inductive)\s*([^\s:({\[]*)")

def sh(cmd, **kw):
    return subprocess.run(cmd, shell=True, capture_output=True, text=True, **kw)

def enclosing(path, line):
    lines = open(os.path.join(WORK, path)).read().split("\n")
    for i in range(min(line, len(lines)) - 1, -1, -1):
        m = DECL.match(lines[i])
        if m:
            return (m.group(1), m.group(2).split(".")[-1] if m.group(1) != "example" else f"example@{path}:{i+1}")
    return ("?", f"{path}:{line}")

def main():
    batch = json.load(open(sys.argv[1]))
    cores = sys.argv[2] if len(sys.argv) > 2 else "0,1"
    done = set()
    if os.path.exists(OUT):
        done = {(r["file"], r["old"], r["new"]) for r in map(json.loads, open(OUT))}
    deps = {}
    for l in open("/tmp/mut/deps.txt"):
        w = l.split()
        deps[w[0].split(".")[-1]] = {x.split(".")[-1] for x in w}
    for m in batch:
        if (m["file"], m["old"], m["new"]) in done:
            continue
        sh(f"rm -rf {WORK}; cp -a {SRC} {WORK}")
        p = os.path.join(WORK, m["file"])
        s = open(p).read()
        if s.count(m["old"]) != m.get("count", 1):
            print("BAD EDIT", m["definition"], s.count(m["old"]))
            continue
        open(p, "w").write(s.replace(m["old"], m["new"]))
        t = time.time()
        r = sh(f"taskset -c {cores} lake build", cwd=WORK)
        txt = r.stdout + r.stderr
        fails = set()
        for path, line in re.findall(r"error: (Verif/[\w/]+\.lean):(\d+):\d+", txt):
            fails.add(enclosing(path, int(line)))
        names = {n for k, n in fails if k != "example"}
        claims = sorted(c for c, d in deps.items() if c in names or d & names)
        res = dict(m, ok=(r.returncode == 0), failed_decls=sorted(n for _, n in fails), failed_claims=claims,
                   seconds=round(time.time() - t))
        if r.returncode and not fails:
            res["raw"] = txt[-1500:]
        open(OUT, "a").write(json.dumps(res) + "\n")
        hit = any(c.split("_")[0] in m["props"] for c in claims)
        print(("KILLED " if hit else "SURVIVED") , m["definition"], "|", m["edit"], "|", res["failed_decls"][:4], claims[:8], res["seconds"], flush=True)

main()
