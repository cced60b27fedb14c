#!/usr/bin/env python3
"""Regenerate AXIOMS.md: the axioms each theorem of MANIFEST.json depends on, as printed by Lean."""
import json, os, re, subprocess, tempfile

root = os.path.dirname(os.path.dirname(os.path.abspath(__file__)))
names = [t for c in json.load(open(root + "/MANIFEST.json"))["claims"] for t in c["theorems"]]
with tempfile.NamedTemporaryFile("w", suffix=".lean", delete=False) as f:
    f.write("import Verif\n" + "".join(f"#print axioms {n}\n" for n in names))
out = subprocess.run(["lake", "env", "lean", f.name], cwd=root + "/lean", capture_output=True, text=True)
text = re.sub(r"\s+", " ", out.stdout)
found = {}
for m in re.finditer(r"'(Svd[^']*'?)' (does not depend on any axioms|depends on axioms: \[([^\]]*)\])", text):
    found[m.group(1)] = m.group(3) or "none"
groups = {}
for n in names:
    groups.setdefault(found[n], []).append(n)
with open(root + "/AXIOMS.md", "w") as f:
    f.write("# Axioms of the property theorems\n\nOutput of `#print axioms`, grouped (`tools/axioms.py`).\n")
    for a in sorted(groups, key=len):
        f.write(f"\n## {a}\n\n" + "".join(f"* {n}\n" for n in groups[a]))
