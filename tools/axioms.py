#!/usr/bin/env python3
"""Writes AXIOMS.md: the axioms each theorem of MANIFEST.json depends on, as printed by Lean."""
import json, os, re, subprocess, tempfile
here = os.path.dirname(os.path.abspath(__file__))
root = os.path.join(here, "..")
claims = json.load(open(os.path.join(root, "MANIFEST.json")))["claims"]
names = sorted({t for c in claims for t in c["theorems"]})
with tempfile.NamedTemporaryFile("w", suffix=".lean", delete=False) as f:
    f.write("import Verif\n" + "".join(f"#print axioms {n}\n" for n in names))
out = subprocess.run(["lake", "env", "lean", f.name], cwd=os.path.join(root, "lean"),
                     capture_output=True, text=True, check=True).stdout
rows = []
for line in out.splitlines():
    m = re.match(r"'(.*)' depends on axioms: \[(.*)\]", line)
    if m:
        rows.append((m[1], m[2]))
        continue
    m = re.match(r"'(.*)' does not depend on any axioms", line)
    rows.append((m[1], "none"))
assert len(rows) == len(names)
with open(os.path.join(root, "AXIOMS.md"), "w") as f:
    f.write("# Axioms of each theorem\n\nPrinted by `#print axioms`; regenerate with `tools/axioms.py`.\n\n"
            "| Theorem | Axioms |\n|---|---|\n")
    for n, a in rows:
        f.write(f"| `{n}` | {a} |\n")
