#!/usr/bin/env python3
"""Writes AXIOMS.md: the axioms each theorem of MANIFEST.json depends on, as Lean prints them. Needs a finished `lake build`."""
import json, os, re, subprocess, tempfile
root = os.path.join(os.path.dirname(os.path.abspath(__file__)), "..")
claims = json.load(open(os.path.join(root, "MANIFEST.json")))["claims"]
names = sorted({t for c in claims for t in c["theorems"]})
with tempfile.NamedTemporaryFile("w", suffix=".lean", delete=False) as f:
    f.write(open(os.path.join(root, "lean", "Verif.lean")).read() + "\n" + "\n".join(f"#print axioms {t}" for t in names))
out = subprocess.run(["lake", "env", "lean", f.name], cwd=os.path.join(root, "lean"), capture_output=True, text=True).stdout
os.unlink(f.name)
rows = []
for t in names:
    m = re.search(r"'%s' (?:depends on axioms:\s*\[([^\]]*)\]|(does not depend on any axioms))" % re.escape(t), out)
    assert m, t
    rows.append(f"| `{t}` | {'none' if m.group(2) else ', '.join(m.group(1).split(', ')).replace(chr(10), ' ')} |\n")
with open(os.path.join(root, "AXIOMS.md"), "w") as g:
    g.write("# Axioms of the theorems in MANIFEST.json\n\nGenerated by `tools/gen_axioms.py` from `#print axioms`.\n\n| theorem | axioms |\n|---|---|\n")
    g.write("".join(rows))
print(len(names))
