#!/usr/bin/env python3
"""Rewrites sections 4 and 5 of DESIGN.md from MANIFEST.json, properties.jsonl and the comments of the theorems."""
import json, re, glob
man = json.load(open("/verif/MANIFEST.json"))["claims"]
props = {}
for l in open("/verif/properties.jsonl"):
    p = json.loads(l); props[p["id"]] = p
docs = {}
where = {}
for f in glob.glob("/verif/lean/Verif/Props/*.lean"):
    s = open(f).read()
    for m in re.finditer(r"/--((?:(?!-/).)*)-/\s*(?:@\[[^\]]*\]\s*)?(?:omit [^\n]* in\s*)?(?:set_option [^\n]* in\s*)*theorem\s+(\S+)", s, re.S):
        docs[m.group(2)] = re.sub(r"\s+", " ", m.group(1)).strip()
    for m in re.finditer(r"^theorem\s+(\S+)", s, re.M):
        where[m.group(1)] = "Props/" + f.split("/")[-1]
four = "| id | property | status | where | note |\n| --- | --- | --- | --- | --- |\n"
for c in man:
    files = sorted({where.get(t.split(".")[-1], "?") for t in c["theorems"]})
    four += "| %s | %s | %s | %s | %s |\n" % (c["property"], props[c["property"]]["title"], c["status"], ", ".join(files), c.get("note", "").replace("|", "\\|"))
five = ""
for c in man:
    bad = [t for t in c["theorems"] if "violated" in t]
    if bad:
        five += "* **%s %s.**\n" % (c["property"], props[c["property"]]["title"])
        for t in bad:
            five += "  - `%s`: %s\n" % (t, re.sub(r"\*\*C\d+\*\*\s*", "", re.sub(r"\*\*C\d+\.\*\*\s*", "", docs.get(t.split(".")[-1], ""))))
s = open("/verif/DESIGN.md").read()
i, j = s.index("<!-- properties -->"), s.index("<!-- end properties -->")
s = s[:i] + "<!-- properties -->\n" + four + s[j:]
i, j = s.index("<!-- discrepancies -->"), s.index("<!-- end discrepancies -->")
s = s[:i] + "<!-- discrepancies -->\n" + five + s[j:]
open("/verif/DESIGN.md", "w").write(s)
missing = [t for c in man for t in c["theorems"] if t.split(".")[-1] not in docs]
print("theorems without comment:", missing)
