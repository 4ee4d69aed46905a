#!/usr/bin/env python3
"""Rebuilds MANIFEST.json from the theorem names (C<nn>_...) found in lean/Verif/Props and from
the notes in tools/notes.json (property id -> {"status": ..., "note": ...})."""
import json, os, re
root = os.path.dirname(os.path.dirname(os.path.abspath(__file__)))
ids = [json.loads(l)["id"] for l in open(os.path.join(root, "properties.jsonl")) if l.strip()]
thms = {i: [] for i in ids}
for d, _, fs in sorted(os.walk(os.path.join(root, "lean/Verif/Props"))):
    for f in sorted(fs):
        ns = []
        for line in open(os.path.join(d, f)):
            m = re.match(r"namespace (\S+)", line)
            if m: ns.append(m.group(1))
            m = re.match(r"end (\S+)", line)
            if m and ns and ns[-1] == m.group(1): ns.pop()
            m = re.match(r"(?:protected )?theorem (C\d+_\S+)", line)
            if m: thms.setdefault(m.group(1).split("_")[0], []).append(".".join(ns + [m.group(1)]))
notes = json.load(open(os.path.join(root, "tools/notes.json")))
claims = []
for i in thms:
    n = notes.get(i, {})
    status = n.get("status") or ("partial" if (not thms[i] or any(t.endswith("_partial") for t in thms[i])) else "proved")
    note = n.get("note", "" if thms[i] else "Not proved yet.")
    claims.append({"property": i, "status": status, "theorems": thms[i], "note": note})
json.dump({"claims": claims}, open(os.path.join(root, "MANIFEST.json"), "w"), indent=1, ensure_ascii=False)
from collections import Counter
print(Counter(c["status"] for c in claims), [c["property"] for c in claims if not c["theorems"]])
