#!/usr/bin/env python3
"""Mutation runner: mut.py muts.py  -- applies each mutation to a scratch copy of /verif/lean, rebuilds, and appends a
JSON line to /verif/seeded/LOG.jsonl.  muts.py defines M = [(file, definition, edit-text, claim, [(old,new),...]), ...]
where an item may be (old,new) in `file` or (otherfile,old,new)."""
import sys, os, subprocess, json, re, shutil, time
TARGETS = []
SCR = os.environ.get("SCR", "/tmp/scratch"); V = SCR + "/lean/Verif/"
def sync():
    os.makedirs(SCR, exist_ok=True)
    subprocess.run(["rm", "-rf", SCR + "/lean"], check=True)
    # the last commit (the working tree may be half edited) with the compiled files of the working tree
    subprocess.run("git -C /verif archive HEAD lean | tar -x -C %s && cp -a /verif/lean/.lake %s/lean/" % (SCR, SCR), shell=True, check=True)
def enclosing(path, line):
    ls = open(path).read().split("\n")
    for i in range(min(line, len(ls)) - 1, -1, -1):
        m = re.match(r"\s*(?:private |protected |@\[[^\]]*\] )*(theorem|lemma|def|abbrev|instance|example)\s*([^\s:({\[]*)", ls[i])
        if m: return m.group(2) if m.group(2) and m.group(1) != "example" else "example@%d" % (i + 1)
    return "?"
def run(mut, log):
    f, d, edit, claim, reps = mut
    saved = {}
    try:
        for r in reps:
            g, o, n = (f, r[0], r[1]) if len(r) == 2 else r
            p = V + g
            t = open(p).read()
            saved.setdefault(p, t)
            if t.count(o) != 1:
                print("BADMUT", d, edit, "count", t.count(o)); return
            open(p, "w").write(t.replace(o, n))
        t0 = time.time()
        out = subprocess.run(["lake", "build"] + TARGETS, cwd=SCR + "/lean", capture_output=True, text=True)
        out = out.stdout + out.stderr
        failed = {}
        for m in re.finditer(r"^error: (\S+?\.lean):(\d+):\d+", out, re.M):
            p = SCR + "/lean/" + m.group(1)
            failed.setdefault(m.group(1).replace("Verif/", "", 1), set()).add(enclosing(p, int(m.group(2))))
        fl = ["%s: %s" % (k, ", ".join(sorted(v))) for k, v in failed.items()]
        rec = {"definition": f + " " + d, "edit": edit, "claim": claim, "failed": fl, "tightened": []}
        if not fl and "build failed" in out: fl = ["build failed without a located error (out of memory or time)"]
        rec["failed"] = fl
        rec["outcome"] = "killed" if fl else "SURVIVED"
        with open(log, "a") as h: h.write(json.dumps(rec, ensure_ascii=False) + "\n")
        print(rec["outcome"], d, "|", edit, "|", "; ".join(fl)[:300], "|", int(time.time() - t0), "s", flush=True)
    finally:
        for p, t in saved.items(): open(p, "w").write(t)
if __name__ == "__main__":
    ns = {}
    exec(open(sys.argv[1]).read(), ns)
    log = sys.argv[2] if len(sys.argv) > 2 else "/verif/seeded/LOG.jsonl"
    TARGETS = ns.get("TARGETS", [])
    sync()
    for m in ns["M"]: run(m, log)
