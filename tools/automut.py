#!/usr/bin/env python3
"""Automatic mutations: automut.py N file...   Applies up to N random small edits to the definitions of each model file (in a
scratch copy), rebuilds every module that depends on it, and writes one line per edit. Killed and surviving edits are appended to
the log given by LOGF (default /tmp/mut/auto.jsonl); edits that do not compile are not logged."""
import sys, os, subprocess, json, re, random, time
sys.path.insert(0, "/verif/tools")
import mut
V = mut.V; SCR = mut.SCR
LOGF = os.environ.get("LOGF", "/tmp/mut/auto.jsonl")
random.seed(int(os.environ.get("SEED", "1")))
def dependents(f):
    root = SCR + "/lean/Verif/"
    imp = {}
    for d, _, fs in os.walk(root):
        for x in fs:
            if x.endswith(".lean"):
                p = os.path.join(d, x); m = "Verif." + os.path.relpath(p, root)[:-5].replace("/", ".")
                imp[m] = re.findall(r"^import (Verif\.\S+)", open(p).read(), re.M)
    me = "Verif." + f[:-5].replace("/", ".")
    seen = {me}; ch = True
    while ch:
        ch = False
        for m, l in imp.items():
            if m not in seen and any(i in seen for i in l): seen.add(m); ch = True
    seen.discard("Verif"); return sorted(seen)
SUBS = [(r" < ", " ≤ "), (r" ≤ ", " < "), (r" > ", " ≥ "), (r" ≥ ", " > "), (r" && ", " || "), (r" \|\| ", " && "), (r" ∧ ", " ∨ "), (r" ∨ ", " ∧ "),
  (r" \+ 1\b", ""), (r" - 1\b", ""), (r"\btrue\b", "false"), (r"\bfalse\b", "true"), (r"\bif (?!h :)([^\n]*?) then", "if True then"),
  (r"\bif (?!h :)([^\n]*?) then", "if False then"), (r" ≠ ", " = "), (r"(?<=[^:]) = (?=[^>])", " ≠ "), (r"!(?=[a-z(])", ""),
  (r", [a-zA-Z']+ := [^,{}⟨⟩\n]*(?=,| \})", ""), (r"(?<=with )[a-zA-Z']+ := [^,{}⟨⟩\n]*, ", ""), (r"\n\s+[a-zA-Z']+ := [^,{}⟨⟩\n]*(?=\n\s+[a-zA-Z']+ := )", ""),
  (r"(\w+) :: ", ""), (r" \+\+ \[[^\]\n]*\]", ""), (r"\b0\b", "1"), (r"\b1\b", "2")]
def sites(t):
    # blank comments
    b = re.sub(r"/-.*?-/", lambda m: re.sub(r"[^\n]", "\0", m.group(0)), t, flags=re.S)
    b = re.sub(r"--[^\n]*", lambda m: "\0" * len(m.group(0)), b)
    end = re.search(r"/-! ?#* ?(Spec|What|Runs)", t)
    end = end.start() if end else len(t)
    out = []
    decls = [(m.start(), m.group(1), m.group(2)) for m in re.finditer(r"^(?:@\[[^\]]*\] )?(?:private |noncomputable )?(def|structure|inductive|theorem|lemma|example|instance|abbrev|end|namespace|open|import)\b ?([^\s:({\[]*)", b, re.M)]
    for i, (s, k, n) in enumerate(decls):
        if k != "def" or s >= end: continue
        e = decls[i + 1][0] if i + 1 < len(decls) else len(b)
        body = b[s:e]
        h = body.find(":=")
        hb = re.search(r"\n  \|", body)
        st = min([x for x in [h, hb.start() if hb else -1] if x >= 0] or [0])
        if re.search(r": Prop\b", body[:st + 1] if st else body[:200]): continue
        for pat, rep in SUBS:
            for m in re.finditer(pat, body):
                if m.start() < st + 2: continue
                if "\0" in m.group(0): continue
                out.append((n, s + m.start(), s + m.end(), rep))
    return out
def main():
    N = int(sys.argv[1])
    mut.sync()
    for f in sys.argv[2:]:
        p = V + f; t = open(p).read()
        deps = dependents(f)
        ss = sites(t); random.shuffle(ss)
        done = 0
        seen = {}
        for (n, a, z, rep) in ss:
            if done >= N: break
            if seen.get(n, 0) >= 3: continue
            new = t[:a] + rep + t[z:]
            if new == t: continue
            ls = t.rfind("\n", 0, a) + 1; le = t.find("\n", z)
            edit = "`%s` -> `%s`" % (" ".join(t[ls:le].split()), " ".join((t[ls:a] + rep + t[z:le]).split()))
            open(p, "w").write(new)
            t0 = time.time()
            try:
                r = subprocess.run(["timeout", "600", "lake", "build"] + deps, cwd=SCR + "/lean", capture_output=True, text=True)
                o = r.stdout + r.stderr
            finally:
                pass
            failed = {}; invalid = False
            for m in re.finditer(r"^error: (\S+?\.lean):(\d+):\d+", o, re.M):
                q = SCR + "/lean/" + m.group(1)
                g = m.group(1).replace("Verif/", "", 1)
                e = mut.enclosing(q, int(m.group(2)))
                if g == f and e == n: invalid = True
                failed.setdefault(g, set()).add(e)
            open(p, "w").write(t)
            if invalid: continue
            done += 1; seen[n] = seen.get(n, 0) + 1
            fl = ["%s: %s" % (k, ", ".join(sorted(v))) for k, v in failed.items()]
            if not fl and r.returncode != 0: fl = ["build failed without a located error (out of memory or time)"]
            rec = {"definition": f + " " + n, "edit": edit, "claim": "automatic edit", "failed": fl, "tightened": [], "outcome": "killed" if fl else "SURVIVED"}
            with open(LOGF, "a") as h: h.write(json.dumps(rec, ensure_ascii=False) + "\n")
            print(rec["outcome"], f, n, "|", edit[:300], "|", "; ".join(fl)[:120], "|", int(time.time() - t0), "s", flush=True)
main()
