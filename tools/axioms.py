#!/usr/bin/env python3
"""Writes tools/axioms.json: the axioms each theorem of MANIFEST.json depends on (needs a finished lake build)."""
import json, subprocess, re
R = "/verif"
ths = sorted({t for c in json.load(open(R + "/MANIFEST.json"))["claims"] for t in c["theorems"]})
src = "import Verif\n" + "".join(f"#print axioms {t}\n" for t in ths)
open("/tmp/ax.lean", "w").write(src)
o = subprocess.run(["lake", "env", "lean", "/tmp/ax.lean"], cwd=R + "/lean", capture_output=True, text=True).stdout
o = re.sub(r"\n +", " ", o)
res = {}
S = {"propext": "P", "Classical.choice": "C", "Quot.sound": "Q"}
for m in re.finditer(r"'([^']+)' (?:depends on axioms: \[([^\]]*)\]|does not depend)", o):
    res[m.group(1)] = [S.get(a.strip(), a.strip()) for a in (m.group(2) or "").split(",") if a.strip()]
assert set(res) == set(ths), set(ths) - set(res)
json.dump(res, open(R + "/tools/axioms.json", "w"), indent=0, sort_keys=True)
from collections import Counter
print(Counter(" ".join(v) for v in res.values()))
