import re,glob,collections
d=collections.defaultdict(set)
for f in glob.glob('/verif/lean/Verif/**/*.lean',recursive=True):
    ns=[]
    for l in open(f):
        m=re.match(r'\s*namespace (\S+)',l)
        if m: ns.append(m[1]); continue
        m=re.match(r'\s*end (\S+)',l)
        if m and ns and ns[-1]==m[1]: ns.pop(); continue
        m=re.match(r'(?:@\[[^\]]*\] *)?(?:noncomputable )?(?:def|theorem|structure|inductive|abbrev|class|lemma) (\S+)',l)
        if m: d['.'.join(ns+[m[1]])].add(f)
for k,v in d.items():
    if len(v)>1: print(k,sorted(v))
