#!/usr/bin/env python3
"""Generate MANIFEST.json: theorems named Cnn_* under lean/Verif/Props, with status and note below."""
import json, re, glob, os
root = os.path.dirname(os.path.dirname(os.path.abspath(__file__)))
notes = json.load(open(os.path.join(root, "tools/notes.json")))
thms = {}
for f in sorted(glob.glob(root + "/lean/Verif/Props/*.lean")):
    ns = []
    for line in open(f):
        m = re.match(r"namespace (\S+)", line)
        if m: ns.append(m.group(1))
        m = re.match(r"end (\S+)", line)
        if m and ns and ns[-1] == m.group(1): ns.pop()
        m = re.match(r"theorem ((?:\S+\.)?(C\d\d+)_\S+)", line)
        if m: thms.setdefault(m.group(2), []).append(".".join(ns + [m.group(1)]))
claims = []
for l in open(root + "/properties.jsonl"):
    p = json.loads(l)["id"]
    n = notes.get(p, {})
    if p not in thms: print("no theorem for", p)
    st = n.get("status", "proved" if p in thms else "partial")
    note = n.get("note", "" if p in thms else "not proved yet")
    claims.append({"property": p, "status": st, "theorems": thms.get(p, []), "note": note})
for p in thms:
    if p not in [c["property"] for c in claims]: print("theorem without property", p)
json.dump({"claims": claims}, open(root + "/MANIFEST.json", "w"), indent=1, ensure_ascii=False)
