#!/usr/bin/env python3
"""Adds results of seed.py to seeded/LOG.jsonl. Usage: log.py results.jsonl [last property to trust in claims_broken]"""
import json, sys
lim = sys.argv[2] if len(sys.argv) > 2 else "C99"
path = "/verif/seeded/LOG.jsonl"
have = {(json.loads(l)["definition"], json.loads(l)["edit"]) for l in open(path)}
n = 0
with open(path, "a") as f:
    for l in open(sys.argv[1]):
        r = json.loads(l)
        if "result" in r or r.get("stuck") or (r["definition"], r["edit"]) in have:
            continue
        claims = [t for t in r["claims_broken"] if t.split(".")[-1][:3] < lim]
        if not r["failed"]:
            print("SURVIVOR", r["definition"], r["edit"])
            continue
        f.write(json.dumps({"definition": r["definition"], "file": r["file"], "edit": r["edit"], "replaced": r["old"], "by": r["new"],
            "breaks": r["claim"], "theorems_failed": r["failed"], "claims_no_longer_proved": claims,
            "theorems_tightened": r.get("tightened", [])}, ensure_ascii=False) + "\n")
        n += 1
print(n, "added")
