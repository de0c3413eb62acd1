#!/usr/bin/env python3
"""Regenerate MANIFEST.json and lean/Verif.lean from the Lean sources and tools/status.json."""
import json, re, pathlib
root = pathlib.Path(__file__).resolve().parent.parent
lean = root / "lean"
thms = {}
for f in sorted((lean / "Verif" / "Props").glob("*.lean")):
    for m in re.finditer(r"^theorem ((C\d+)_[\w']+)", f.read_text(), re.M):
        thms.setdefault(m.group(2), []).append(m.group(1))
status = json.loads((root / "tools" / "status.json").read_text())
claims = []
for line in (root / "properties.jsonl").read_text().splitlines():
    cid = json.loads(line)["id"]
    st = status.get(cid)
    if st is None or cid not in thms:
        continue
    claims.append({"property": cid, "status": st[0], "theorems": thms[cid], "note": st[1]})
(root / "MANIFEST.json").write_text(json.dumps({"claims": claims}, indent=1, ensure_ascii=False) + "\n")
mods = sorted(str(p.relative_to(lean))[:-5].replace("/", ".") for p in (lean / "Verif").rglob("*.lean"))
(lean / "Verif.lean").write_text("".join(f"import {m}\n" for m in mods))
print(len(claims), "claims,", sum(len(c["theorems"]) for c in claims), "theorems; unlisted:", sorted(set(thms) - {c["property"] for c in claims}))
