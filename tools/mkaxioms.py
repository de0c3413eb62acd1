#!/usr/bin/env python3
"""Write AXIOMS.txt: the axioms each theorem of MANIFEST.json depends on (run after `lake build`)."""
import json, pathlib, re, subprocess, tempfile
root = pathlib.Path(__file__).resolve().parent.parent
names = [t for c in json.loads((root / "MANIFEST.json").read_text())["claims"] for t in c["theorems"]]
with tempfile.NamedTemporaryFile("w", suffix=".lean", delete=False) as f:
    f.write("import Verif\n" + "".join(f"#print axioms {n}\n" for n in names))
out = subprocess.run(["lake", "env", "lean", f.name], cwd=root / "lean", capture_output=True, text=True).stdout
lines = re.findall(r"'(\S+)' (?:depends on axioms: \[([^\]]*)\]|does not depend on any axioms)", out)
assert len(lines) == len(names), (len(lines), len(names), out[-500:])
(root / "AXIOMS.txt").write_text("".join(f"{n}: {' '.join(a.split()) or 'none'}\n" for n, a in lines))
print(len(lines), sorted({x for _, a in lines for x in re.split(r"[,\s]+", a) if x}))
