#!/usr/bin/env python3
"""Seeded wrong programs. Usage: seed.py mutants.json out.jsonl [scratch directory [source]]

Copies /verif/lean to a scratch directory, and for each mutant edits one definition of the model, rebuilds,
replaces the proofs that fail by `sorry` (in the scratch copy only) until everything downstream has been tried, and
lists the theorems that failed and the claims that are no longer proved. A mutant with "rounds" stops after so many builds; the claims
that are no longer proved are then those that use a theorem that failed (from the uses in EDGES, made in the unchanged copy).
Never writes in /verif/lean."""
import json, os, re, shutil, subprocess, sys

SRC = sys.argv[4] if len(sys.argv) > 4 else "/verif/lean"
muts = json.load(open(sys.argv[1]))
out = sys.argv[2]
work = sys.argv[3] if len(sys.argv) > 3 else "/tmp/seed/work"
START = re.compile(r"^(?:@\[[^\]]*\]\s*)?(?:private |protected |noncomputable )*(theorem|lemma|example|def|instance|abbrev|structure|inductive|class)\b\s*(\S*)")
STOP = re.compile(r"^(?:@\[|private |protected |noncomputable |theorem|lemma|example|def|instance|abbrev|structure|inductive|class|/-|end\b|section|namespace|mutual|variable|open|set_option)")

EDGES = os.environ.get("EDGES", "/tmp/seed/edges.txt")

def dependants(failed):
    """manifest theorems that use one of the failed ones"""
    if not os.path.exists(EDGES):
        return []
    uses = dict((l.split("\t")[0], l.strip("\n").split("\t")[1].split()) for l in open(EDGES))
    rev = {}
    for a, bs in uses.items():
        for b in bs:
            rev.setdefault(b, []).append(a)
    seen, todo = set(), [c for c in uses for f in failed if c.endswith("." + f)]
    while todo:
        x = todo.pop()
        if x not in seen:
            seen.add(x)
            todo += rev.get(x, [])
    return [t for _, t in manifest() if t in seen or "RT." + t in seen]

def manifest():
    m = json.load(open("/verif/MANIFEST.json"))
    return [(c["property"], t) for c in m["claims"] for t in c["theorems"]]

def fresh():
    if os.path.exists(work):
        shutil.rmtree(work)
    subprocess.run(["cp", "-a", SRC, work], check=True)
    root = os.path.join(work, "Verif.lean")
    text = open(root).read().replace("import Verif.Audit\n", "")  # it refuses sorry
    open(root, "w").write(text)

def enclosing(lines, ln):
    i = min(ln - 1, len(lines) - 1)
    while i >= 0:
        m = START.match(lines[i])
        if m:
            return i, m.group(1), m.group(2)
        i -= 1
    return None

def strip_proof(path, ln):
    """replace the proof of the declaration at line ln by sorry; returns its name"""
    lines = open(path).read().split("\n")
    e = enclosing(lines, ln)
    if not e:
        return None
    i, kind, name = e
    if kind not in ("theorem", "lemma", "example"):
        return ("bad", kind, name)
    j = i + 1
    while j < len(lines) and not STOP.match(lines[j]):
        j += 1
    text = "\n".join(lines[i:j])
    depth = 0
    pos = None
    for k, ch in enumerate(text):
        if ch in "([{⟨":
            depth += 1
        elif ch in ")]}⟩":
            depth -= 1
        elif depth == 0 and text.startswith(":=", k):
            pos = k
            break
        elif depth == 0 and text.startswith("\n  | ", k):
            pos = k
            break
    if pos is None:
        return ("bad", kind, name)
    new = text[:pos].rstrip() + " := sorry\n"
    if new.strip() == text.strip():
        return ("again", kind, name)
    lines[i:j] = new.split("\n")
    open(path, "w").write("\n".join(lines))
    label = name if kind != "example" else "example %s:%d" % (os.path.basename(path), i + 1)
    return ("ok", kind, label)

def build():
    p = subprocess.run(["nice", "lake", "build"], cwd=work, capture_output=True, text=True)
    errs = re.findall(r"^error: (Verif/\S+\.lean):(\d+):(\d+): (.*)$", p.stdout + p.stderr, re.M)
    return p.returncode == 0, errs, p.stdout + p.stderr

def run(mut):
    fresh()
    path = os.path.join(work, "Verif", mut["file"])
    s = open(path).read()
    if s.count(mut["old"]) != 1:
        return dict(mut, result="edit does not apply (%d occurrences)" % s.count(mut["old"]))
    open(path, "w").write(s.replace(mut["old"], mut["new"]))
    failed, stuck = [], None
    limit = mut.get("rounds", 25)
    for _ in range(limit):
        ok, errs, log = build()
        if ok:
            break
        if not errs:
            stuck = log[-400:]
            break
        byfile = {}
        for f, l, c, msg in errs:
            byfile.setdefault(f, set()).add(int(l))
        progress = False
        for f, ls in byfile.items():
            fp = os.path.join(work, f)
            # from the last line to the first, so that positions stay right; one declaration once
            seen = set()
            for l in sorted(ls, reverse=True):
                lines = open(fp).read().split("\n")
                e = enclosing(lines, l)
                if e is None or e[0] in seen:
                    continue
                seen.add(e[0])
                r = strip_proof(fp, l)
                if r and r[0] == "ok":
                    progress = True
                    failed.append(r[2])
                else:
                    stuck = "%s:%d %s" % (f, l, r)
        if not progress:
            break
    else:
        if limit == 25:
            stuck = "too many rounds"
        else:
            return dict(mut, failed=failed, claims_broken=dependants(failed), stuck=None)
    names = manifest()
    broken = []
    if ok:
        open(os.path.join(work, "Ax.lean"), "w").write("import Verif\nnamespace RT\n" + "".join("#print axioms %s\n" % t for _, t in names))
        p = subprocess.run(["lake", "env", "lean", "Ax.lean"], cwd=work, capture_output=True, text=True)
        for t, m in re.findall(r"^'(\S+)' (does not depend|depends on axioms: \[[^\]]*\])", p.stdout, re.M):
            if "sorryAx" in m:
                broken.append(t)
    return dict(mut, failed=failed, claims_broken=broken, stuck=None if ok else stuck)

for mut in muts:
    r = run(mut)
    with open(out, "a") as f:
        f.write(json.dumps(r) + "\n")
    print(mut.get("definition"), len(r.get("failed", [])), len(r.get("claims_broken", [])), r.get("stuck"), r.get("result"), flush=True)
