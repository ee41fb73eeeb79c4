"""Regenerates MANIFEST.json from the theorem names in lean/Verif/Props and the notes in tools/notes.json."""
import glob
import json
import os
import re

root = os.path.dirname(os.path.dirname(os.path.abspath(__file__)))
notes = json.load(open(f"{root}/tools/notes.json"))
ids = [json.loads(line)["id"] for line in open(f"{root}/properties.jsonl") if line.strip()]
thms = {i: [] for i in ids}
for path in sorted(glob.glob(f"{root}/lean/Verif/Props/*.lean")):
    for m in re.finditer(r"^theorem ((C\d+)_\w+)", open(path, encoding="utf8").read(), re.M):
        thms[m.group(2)].append("Props." + m.group(1))
claims = []
for i in ids:
    note = notes.get(i, "")
    if not thms[i]:
        if note.startswith("N/A"):
            claims.append({"property": i, "status": "not_applicable", "theorems": [], "note": note})
        continue
    partial = any(t.endswith(("_partial", "_violated")) for t in thms[i])
    claims.append({"property": i, "status": "partial" if partial else "proved", "theorems": thms[i], "note": note})
    if partial and not note:
        print("no note for partial claim", i)
json.dump({"claims": claims}, open(f"{root}/MANIFEST.json", "w"), indent=1)
missing = [i for i in ids if not thms[i] and not notes.get(i, "").startswith("N/A")]
print(len(claims), "claims,", sum(c["status"] == "proved" for c in claims), "proved; missing:", missing[:10])
if missing:
    raise SystemExit(1)
