"""Usage: add.py < entries.  Each entry: python tuple lines appended to props.py, plus notes."""
import sys, json, os
d = os.path.dirname(os.path.abspath(__file__))
src = sys.stdin.read()
body, _, notes = src.partition("=====\n")
f = os.path.join(d, "props.py"); s = open(f).read()
i = s.rindex("open(os.path.join(os.path.dirname(__file__)")
open(f, "w").write(s[:i] + body.rstrip("\n") + "\n" + s[i:])
if notes.strip():
    g = os.path.join(d, "notes.json"); n = json.load(open(g))
    for l in notes.strip().splitlines():
        k, v = l.split(" ", 1); n[k] = {"note": v}
    json.dump(n, open(g, "w"), indent=1, ensure_ascii=False)
