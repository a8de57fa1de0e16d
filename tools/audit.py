#!/usr/bin/env python3
"""Writes lean/Verif/Audit.lean: the axioms of every theorem of MANIFEST.json, checked at each build."""
import json, re, subprocess
names = [t for c in json.load(open("/verif/MANIFEST.json"))["claims"] for t in c["theorems"]]
imports = "".join(l for l in open("/verif/lean/Verif.lean") if "Audit" not in l)
open("/tmp/Ax.lean", "w").write(imports + "".join("#print axioms %s\n" % t for t in names))
p = subprocess.run(["lake", "env", "lean", "/tmp/Ax.lean"], cwd="/verif/lean", capture_output=True, text=True)
got = {}
for t, m in re.findall(r"^'(\S+)' (does not depend on any axioms|depends on axioms: \[[^\]]*\])", p.stdout, re.M):
    got[t] = re.sub(r"\s+", " ", m)
allowed = {"propext", "Classical.choice", "Quot.sound"}
out = imports + """
/-! # The axioms of the theorems

Written by `tools/audit.py`. The build fails if a theorem of the manifest depends on another axiom than those written here. -/

"""
for t in names:
    m = got[t]
    a = set(re.findall(r"[\w.]+", m.split("[")[1])) if "[" in m else set()
    assert a <= allowed, (t, a)
    out += "/-- info: '%s' %s -/\n#guard_msgs (whitespace := lax) in\n#print axioms %s\n" % (t, m, t)
open("/verif/lean/Verif/Audit.lean", "w").write(out)
print(len(names), "theorems")
