#!/usr/bin/env python3
"""Regenerates MANIFEST.json from the theorem names in lean/Verif and the notes below."""
import json, os, re, glob
root = os.path.join(os.path.dirname(os.path.abspath(__file__)), "..")
thms = {}
for f in sorted(glob.glob(os.path.join(root, "lean/Verif/**/*.lean"), recursive=True)):
    for m in re.finditer(r"^theorem (C\d\d\d?_\w+)", open(f).read(), re.M):
        thms.setdefault(m.group(1).split("_")[0], []).append("Gov1." + m.group(1))
notes = json.load(open(os.path.join(root, "tools/notes.json")))
claims = []
for line in open(os.path.join(root, "properties.jsonl")):
    pid = json.loads(line)["id"]
    n = notes.get(pid, {})
    ts = thms.get(pid, [])
    if not ts and n.get("status") != "not_applicable":
        continue
    auto = "partial" if any(t.endswith(("_partial", "_refuted")) for t in ts) else "proved"
    claims.append({"property": pid, "status": n.get("status", auto), "theorems": ts, "note": n.get("note", "")})
json.dump({"claims": claims}, open(os.path.join(root, "MANIFEST.json"), "w"), indent=1, ensure_ascii=False)
print(len(claims), "claims", {s: sum(c["status"] == s for c in claims) for s in ("proved", "partial", "not_applicable")})
