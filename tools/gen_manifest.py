#!/usr/bin/env python3
"""Collect the property theorems (Cnn_*) of lean/Verif/Props/*.lean into MANIFEST.json."""
import json, re, pathlib
root = pathlib.Path(__file__).resolve().parent.parent
PARTIAL = {}
NOTES = {}
try:
    exec((root / "tools" / "manifest_notes.py").read_text())
except FileNotFoundError:
    pass
found = {}
for f in sorted((root / "lean/Verif/Props").glob("*.lean")):
    for m in re.finditer(r"^theorem (C(\d\d)_\w+)", f.read_text(), re.M):
        found.setdefault("C" + m.group(2), []).append("BM.Props." + m.group(1))
claims = []
for line in (root / "properties.jsonl").read_text().splitlines():
    p = json.loads(line)["id"]
    ths = found.get(p, [])
    if not ths:
        print("no theorem yet:", p)
        continue
    st = "partial" if p in PARTIAL or any(t.endswith("_partial") for t in ths) else "proved"
    claims.append({"property": p, "status": st, "theorems": ths, "note": NOTES.get(p, PARTIAL.get(p, ""))})
out = "{\"claims\": [\n" + ",\n".join(" " + json.dumps(c) for c in claims) + "\n]}\n"
(root / "MANIFEST.json").write_text(out)
mods = sorted("Verif.Props." + f.stem for f in (root / "lean/Verif/Props").glob("*.lean"))
(root / "lean/Verif.lean").write_text("".join(f"import {m}\n" for m in mods))
