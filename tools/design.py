#!/usr/bin/env python3
"""Regenerates DESIGN.md from design_head.md, plans.txt, notes.json, properties.jsonl, MANIFEST.json, axioms.json."""
import json, os
R = "/verif"
plans = {}
for l in open(R + "/tools/plans.txt"):
    k, _, t = l.strip().partition(" ")
    if k: plans[k] = t
notes = json.load(open(R + "/tools/notes.json"))
man = {c["property"]: c for c in json.load(open(R + "/MANIFEST.json"))["claims"]}
out = [open(R + "/tools/design_head.md").read().rstrip(), "", "## Plan and outcome per property", ""]
for l in open(R + "/properties.jsonl"):
    p = json.loads(l); i = p["id"]; c = man.get(i)
    out.append(f"* **{i} {p['title']}** — {plans.get(i, '')}" + (f" Outcome: {c['status']}." if c else " Outcome: not modelled yet.")
               + (f" {c['note']}" if c and c.get("note") else ""))
out += ["", "## Axioms per theorem", "",
  "Computed by `tools/axioms.py` (`collectAxioms` on every theorem listed in MANIFEST.json); `P` = propext, `C` = Classical.choice, `Q` = Quot.sound.", ""]
ap = R + "/tools/axioms.json"
if os.path.exists(ap):
    ax = json.load(open(ap)); groups = {}
    for t, a in ax.items(): groups.setdefault(" ".join(a) or "none", []).append(t.replace("Gov1.", ""))
    for g in sorted(groups): out.append(f"* {g}: " + ", ".join(sorted(groups[g])))
open(R + "/DESIGN.md", "w").write("\n".join(out) + "\n")
missing = [json.loads(l)["id"] for l in open(R + "/properties.jsonl") if json.loads(l)["id"] not in plans]
print("no plan:", missing)
