"""Generate Verif/Model/QuantMatrix.lean (Quantizer_Matrix, packed) and Verif/Model/QuantTables.lean."""
import sys; sys.path.insert(0,'/verif/tools')
from gotab import *
T=parse_tables('/repo/internal/tilegroup/quantizer.go')
m,a,b,ty=T['Quantizer_Matrix']
o='''/-! # Quantizer matrices of internal/tilegroup/quantizer.go (generated by tools/genquant.py)

Each table of 3344 entries (all below 256) is packed into one number, entry `k` in byte `k` counted from
the least significant. -/
namespace Gov1

'''
for l in range(15):
    for p in range(2):
        v=[int(x) for x in m[l][p]]; assert len(v)==3344 and max(v)<256
        n=sum(x<<(8*i) for i,x in enumerate(v))
        o+=f"/-- internal/tilegroup/quantizer.go:{a}-{b} `Quantizer_Matrix[{l}][{p}]`, packed. -/\ndef qm{l}_{p} : Nat := 0x{n:x}\n\n"
o+=f"/-- internal/tilegroup/quantizer.go:{a}-{b} `Quantizer_Matrix`, packed. -/\ndef quantizerMatrix : List (List Nat) := [\n"+",\n".join(f"  [qm{l}_0, qm{l}_1]" for l in range(15))+"]\n\nend Gov1\n"
open('/verif/lean/Verif/Model/QuantMatrix.lean','w').write(o)
T=parse_tables('/repo/internal/tilegroup/reconstruct.go')
o='''/-! # Quantizer lookup tables of internal/tilegroup/reconstruct.go (generated by tools/genquant.py) -/
set_option maxRecDepth 8000
namespace Gov1

'''
import textwrap
for n,nm in (('Dc_Qlookup','dcQlookup'),('Ac_Qlookup','acQlookup'),('Qm_Offset','qmOffset')):
    t,a,b,ty=T[n]
    if n=='Qm_Offset':
        o+=f"/-- internal/tilegroup/reconstruct.go:{a}-{b} `{n}`. -/\ndef {nm} : List Nat := [{', '.join(t)}]\n\n"
    else:
        o+=f"/-- internal/tilegroup/reconstruct.go:{a}-{b} `{n}`. -/\ndef {nm} : List (List Int) := [\n"+",\n".join("\n".join(textwrap.wrap("["+", ".join(x)+"]",100,initial_indent='  ',subsequent_indent='   ')) for x in t)+"]\n\n"
o+="end Gov1\n"
open('/verif/lean/Verif/Model/QuantTables.lean','w').write(o)
