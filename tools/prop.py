#!/usr/bin/env python3
"""prop.py: read JSON objects (one per line) on stdin and add or replace them in properties.jsonl by id."""
import json, os, sys
root = os.path.dirname(os.path.dirname(os.path.abspath(__file__)))
path = os.path.join(root, "properties.jsonl")
ps = {json.loads(l)["id"]: json.loads(l) for l in open(path) if l.strip()}
for l in sys.stdin:
    if l.strip():
        o = json.loads(l)
        ps[o["id"]] = {**ps.get(o["id"], {}), **o}
with open(path, "w") as f:
    for k in sorted(ps, key=lambda s: int(s[1:])):
        o = ps[k]
        f.write(json.dumps({k2: o[k2] for k2 in ("id", "title", "statement", "quantifier", "why_tests_cant", "anchors")}, ensure_ascii=False) + "\n")
