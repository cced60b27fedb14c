#!/usr/bin/env python3
"""Regenerate MANIFEST.json: collect the theorems named Cnn_... from lean/Verif/Props and combine them
with the statuses and notes in tools/notes.json."""
import glob, json, os, re

root = os.path.dirname(os.path.dirname(os.path.abspath(__file__)))
thms = {}
for path in sorted(glob.glob(root + "/lean/Verif/Props/*.lean")):
    for m in re.finditer(r"^theorem (C\d\d)(\w*)", open(path).read(), re.M):
        thms.setdefault(m.group(1), []).append("Svd." + m.group(1) + m.group(2))
notes = json.load(open(root + "/tools/notes.json"))
claims = []
for line in open(root + "/properties.jsonl"):
    pid = json.loads(line)["id"]
    if pid not in thms and pid not in notes:
        print("no theorem yet:", pid)
        continue
    n = notes.get(pid, {})
    names = thms.get(pid, [])
    partial = any(t.endswith("_partial") for t in names)
    status = n.get("status", "partial" if partial else "proved")
    claims.append({"property": pid, "status": status, "theorems": names, "note": n.get("note", "")})
    if "note" not in n:
        print("no note:", pid)
json.dump({"claims": claims}, open(root + "/MANIFEST.json", "w"), indent=1, ensure_ascii=False)
open(root + "/MANIFEST.json", "a").write("\n")
