"""Generate Verif/Model/ScanTables.lean (scan tables of coeffs.go)."""
import sys,textwrap; sys.path.insert(0,'/verif/tools')
from gotab import *
T=parse_tables('/repo/internal/tilegroup/coeffs.go')
o='''/-! # Scan tables of internal/tilegroup/coeffs.go (generated by tools/genscan.py) -/
set_option maxRecDepth 16000
namespace Gov1

'''
for n,(t,a,b,ty) in T.items():
    if '_Scan_' not in n: continue
    nm=n[0].lower()+n[1:].replace('_','')
    o+=f"/-- internal/tilegroup/coeffs.go:{a}-{b} `{n}`. -/\ndef {nm} : List Nat :=\n"+"\n".join(textwrap.wrap("["+", ".join(t)+"]",110,initial_indent='  ',subsequent_indent='   '))+"\n\n"
t,a,b,ty=T['COEFF_BASE_CTX_OFFSET']
o+=f"/-- internal/tilegroup/coeffs.go:{a}-{b} `COEFF_BASE_CTX_OFFSET`. -/\ndef coeffBaseCtxOffset : List (List (List Nat)) := [\n"+",\n".join("  ["+", ".join("["+", ".join(r)+"]" for r in x)+"]" for x in t)+"]\n\n"
o+="end Gov1\n"
open('/verif/lean/Verif/Model/ScanTables.lean','w').write(o)
