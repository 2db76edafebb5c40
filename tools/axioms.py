#!/usr/bin/env python3
"""Ask Lean for the axioms of every theorem in MANIFEST.json and write tools/axioms.json (run after a build)."""
import json, os, re, subprocess, tempfile
ROOT = os.path.dirname(os.path.dirname(os.path.abspath(__file__)))
ths = sorted({t for c in json.load(open(os.path.join(ROOT, "MANIFEST.json")))["claims"] for t in c["theorems"]})
with tempfile.NamedTemporaryFile("w", suffix=".lean", delete=False) as f:
    f.write("import Verif\n" + "".join(f"#print axioms {t}\n" for t in ths))
out = subprocess.run(["lake", "env", "lean", f.name], cwd=os.path.join(ROOT, "lean"), capture_output=True, text=True).stdout
os.unlink(f.name)
out = re.sub(r"\n\s+", " ", out)
d = {}
for l in out.split("\n"):
    m = re.match(r"'(.*)' depends on axioms: \[(.*)\]", l)
    if m: d[m[1]] = m[2].split(", ")
    m = re.match(r"'(.*)' does not depend", l)
    if m: d[m[1]] = []
missing = [t for t in ths if t not in d]
assert not missing, missing
json.dump(d, open(os.path.join(ROOT, "tools", "axioms.json"), "w"), indent=0, sort_keys=True)
print(len(d), "theorems", sorted({", ".join(v) for v in d.values()}))
