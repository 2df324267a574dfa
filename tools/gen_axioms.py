#!/usr/bin/env python3
"""Writes /verif/AXIOMS.md: the axioms of every theorem named in MANIFEST.json, as Lean reports them. Needs a finished build."""
import json, os, re, subprocess, tempfile
root = os.path.join(os.path.dirname(os.path.abspath(__file__)), "..")
names = [t for c in json.load(open(os.path.join(root, "MANIFEST.json")))["claims"] for t in c["theorems"]]
with tempfile.NamedTemporaryFile("w", suffix=".lean", delete=False) as f:
    f.write("import Verif\n" + "".join("#print axioms " + n + "\n" for n in names))
out = subprocess.run(["lake", "env", "lean", f.name], cwd=os.path.join(root, "lean"), capture_output=True, text=True).stdout
os.unlink(f.name)
axioms = {}
for m in re.finditer(r"'([^']*(?:'[^' ]*)*)' (does not depend on any axioms|depends on axioms: \[([^\]]*)\])", out):
    axioms[m.group(1)] = " ".join((m.group(3) or "none").split())
with open(os.path.join(root, "AXIOMS.md"), "w") as f:
    f.write("# Axioms of the theorems\n\nGenerated by tools/gen_axioms.py from `#print axioms`.\n\n| theorem | axioms |\n|---|---|\n")
    for n in names: f.write("| %s | %s |\n" % (n, axioms[n]))
print(len(names), sorted(set(axioms.values())))
