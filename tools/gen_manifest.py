#!/usr/bin/env python3
"""Writes MANIFEST.json: the theorems of property Cnn are those named Cnn_* in lean/Verif/Props."""
import json, re, glob, os
ROOT = os.path.dirname(os.path.dirname(os.path.abspath(__file__)))
NOTES = {}
PARTIAL = set()
exec(open(os.path.join(ROOT, "tools", "manifest_notes.py")).read())
thm = {}
for f in sorted(glob.glob(os.path.join(ROOT, "lean/Verif/Props/**/*.lean"), recursive=True)):
    for m in re.finditer(r"^theorem ((C\d\d\d?)_\w+)", open(f).read(), re.M):
        thm.setdefault(m.group(2), []).append("Verif." + m.group(1))
claims = []
for line in open(os.path.join(ROOT, "properties.jsonl")):
    pid = json.loads(line)["id"]
    names = thm.pop(pid, [])
    if not names:
        status = "not_applicable" if pid in NOTES else None
        if status is None:
            claims.append({"property": pid, "status": "partial", "theorems": [], "note": "not yet proved"})
            continue
    status = "partial" if pid in PARTIAL else "proved"
    claims.append({"property": pid, "status": status, "theorems": names, "note": NOTES.get(pid, "")})
assert not thm, thm
json.dump({"claims": claims}, open(os.path.join(ROOT, "MANIFEST.json"), "w"), indent=1)
print({s: sum(c["status"] == s for c in claims) for s in ("proved", "partial", "not_applicable")},
      [c["property"] for c in claims if not c["theorems"]])
