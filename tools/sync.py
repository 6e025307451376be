#!/usr/bin/env python3
"""Regenerate lean/Verif.lean (imports of every module) and MANIFEST.json.

Property theorems are the theorems named C<nn>_... in lean/Verif/Props. Status and note of each
property come from tools/notes.json; a property without an entry there is left out."""
import json, os, re
root = os.path.dirname(os.path.dirname(os.path.abspath(__file__)))
mods = []
for d, _, fs in os.walk(os.path.join(root, "lean", "Verif")):
    for f in fs:
        if f.endswith(".lean"):
            rel = os.path.relpath(os.path.join(d, f), os.path.join(root, "lean"))
            mods.append(rel[:-5].replace(os.sep, "."))
mods.sort()
open(os.path.join(root, "lean", "Verif.lean"), "w").write("".join(f"import {m}\n" for m in mods))
thms = {}
for m in mods:
    if not m.startswith("Verif.Props."):
        continue
    src = open(os.path.join(root, "lean", m.replace(".", os.sep) + ".lean")).read()
    # drop block comments so that names quoted in them are not picked up
    src = re.sub(r"/-.*?-/", "", src, flags=re.S)
    for t in re.findall(r"^theorem\s+((C\d\d+)_[\w'.]+)", src, flags=re.M):
        thms.setdefault(t[1], []).append("MGL." + t[0])
notes = json.load(open(os.path.join(root, "tools", "notes.json")))
props = [json.loads(l)["id"] for l in open(os.path.join(root, "properties.jsonl")) if l.strip()]
claims = []
for p in props:
    if p in notes:
        n = notes[p]
        claims.append({"property": p, "status": n["status"], "theorems": thms.get(p, []), "note": n["note"]})
    elif p in thms:
        print("no note for", p)
for p in thms:
    if p not in props:
        print("theorem for unknown property", p)
json.dump({"claims": claims}, open(os.path.join(root, "MANIFEST.json"), "w"), indent=1, ensure_ascii=False)
print(len(mods), "modules,", len(claims), "claims,", sum(len(v) for v in thms.values()), "theorems; missing:",
      [p for p in props if p not in notes])
