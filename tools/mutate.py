#!/usr/bin/env python3
"""Mutation testing: apply one edit to the model in a scratch copy, rebuild, record what fails.
usage: mutate.py muts.json   (list of {file, def, old, new, edit, claim})"""
import json, os, re, subprocess, sys
SRC, MUT = "/verif/lean", "/tmp/mut/lean"
LOG = "/verif/seeded/LOG.jsonl"
muts = json.load(open(sys.argv[1]))
def sync():
    subprocess.run("rm -rf %s && mkdir -p %s && cp -a %s/. %s/" % (MUT, MUT, SRC, MUT), shell=True, check=True)
def enclosing(path, line):
    ls = open(path).read().split("\n")
    for i in range(min(line, len(ls)) - 1, -1, -1):
        m = re.match(r"(?:@\[[^\]]*\]\s*)?(?:protected |private |noncomputable )*(theorem|def|example|instance|structure|lemma)\s*(\S*)", ls[i])
        if m:
            return (m.group(2) if m.group(1) != "example" else "example near " + str(i + 1))
    return "?"
sync()
for m in muts:
    p = f"{MUT}/Verif/{m['file']}"
    s = open(p).read()
    if s.count(m["old"]) != m.get("count", 1):
        print("SKIP (count %d)" % s.count(m["old"]), m["def"], m["edit"]); continue
    open(p, "w").write(s.replace(m["old"], m["new"]))
    r = subprocess.run(["lake", "build"], cwd=MUT, capture_output=True, text=True)
    out = r.stdout + r.stderr
    failed = []
    for mm in re.finditer(r"error: (Verif/\S+\.lean):(\d+):\d+", out):
        d = enclosing(f"{MUT}/{mm.group(1)}", int(mm.group(2)))
        if d not in failed: failed.append(d)
    bad = re.findall(r"^- (Verif\S*)", out, re.M)
    open(p, "w").write(s)
    rec = {"definition": m["def"], "file": "Verif/" + m["file"], "edit": m["edit"], "claim_broken": m["claim"],
           "theorems_failed": failed, "modules_failed": bad, "theorems_tightened": m.get("tightened", [])}
    print("SURVIVED" if r.returncode == 0 else "killed", m["def"], "|", m["edit"], "|", failed[:6], bad)
    sys.stdout.flush()
    if r.returncode != 0 or m.get("log_survivor"):
        if m.get("note"): rec["note"] = m["note"]
        open(LOG, "a").write(json.dumps(rec, ensure_ascii=False) + "\n")
