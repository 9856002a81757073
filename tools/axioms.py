#!/usr/bin/env python3
"""Writes AXIOMS.md: the axioms of every theorem named in MANIFEST.json, as printed by Lean. Run after `lake build`."""
import json, re, subprocess, tempfile, os
root = os.path.dirname(os.path.dirname(os.path.abspath(__file__)))
names = [t for c in json.load(open(f"{root}/MANIFEST.json"))["claims"] for t in c["theorems"]]
with tempfile.NamedTemporaryFile("w", suffix=".lean", delete=False) as f:
    f.write("import Verif\n" + "".join(f"#print axioms {n}\n" for n in names))
out = subprocess.run(["lake", "env", "lean", f.name], cwd=f"{root}/lean", capture_output=True, text=True).stdout
os.unlink(f.name)
found = {}
for m in re.finditer(r"'([^']+)' depends on axioms: \[([^\]]*)\]", out):
    found[m.group(1)] = ", ".join(m.group(2).split(", ")).replace("\n", "").replace("  ", " ")
for m in re.finditer(r"'([^']+)' does not depend on any axioms", out):
    found[m.group(1)] = "none"
groups = {}
for n in names:
    groups.setdefault(" ".join(found.get(n, "MISSING").split()), []).append(n.replace("M68k.Props.", ""))
with open(f"{root}/AXIOMS.md", "w") as f:
    f.write("# Axioms of the property theorems\n\nWritten by `tools/axioms.py` from Lean's `#print axioms`. All names are in `M68k.Props`.\n")
    for a, ts in sorted(groups.items()):
        f.write(f"\n## {a}\n\n{len(ts)} theorems: " + ", ".join(ts) + "\n")
print({a: len(t) for a, t in groups.items()})
