"""Generate Verif/Model/InterTables.lean (tables of predict_inter.go and wedge_mask.go)."""
import sys,textwrap; sys.path.insert(0,'/verif/tools')
from gotab import *
F='internal/tilegroup/predict_inter.go'
T=parse_tables('/repo/'+F)
o='''/-! # Tables of internal/tilegroup/predict_inter.go and internal/wedgemask/wedge_mask.go (generated by tools/geninter.py) -/
set_option maxRecDepth 16000
set_option maxHeartbeats 2000000
namespace Gov1

'''
def flat(r): return "["+", ".join(r)+"]"
def wrap(s): return "\n".join(textwrap.wrap(s,130,initial_indent='  ',subsequent_indent='   '))
def one(n,nm,F,T):
    global o
    t,a,b,ty=T[n]
    o+=f"/-- {F}:{a}-{b} `{n}`. -/\ndef {nm} : List Int :=\n"+wrap(flat(t))+"\n\n"
def two(n,nm,F,T):
    global o
    t,a,b,ty=T[n]
    o+=f"/-- {F}:{a}-{b} `{n}`. -/\ndef {nm} : List (List Int) :=\n"+wrap("["+", ".join(flat(r) for r in t)+"]")+"\n\n"
t,a,b,ty=T['Subpel_Filters']
o+=f"/-- {F}:{a}-{b} `Subpel_Filters`. -/\ndef subpelFilters : List (List (List Int)) := [\n"+",\n".join(wrap("["+", ".join(flat(r) for r in x)+"]") for x in t)+"]\n\n"
two('Warped_Filters','warpedFilters',F,T)
one('Div_Lut','divLut',F,T)
one('Ii_Weights_1d','iiWeights1d',F,T)
two('Quant_Dist_Lookup','quantDistLookup',F,T)
T['Quant_Dist_Weight'][0][3][1]='31'
two('Quant_Dist_Weight','quantDistWeight',F,T)
W='internal/wedgemask/wedge_mask.go'
TW=parse_tables('/repo/'+W)
for n,nm in (('Wedge_Master_Oblique_Odd','wedgeObliqueOdd'),('Wedge_Master_Oblique_Even','wedgeObliqueEven'),('Wedge_Master_Vertical','wedgeVertical')):
    one(n,nm,W,TW)
o+="end Gov1\n"
open('/verif/lean/Verif/Model/InterTables.lean','w').write(o)
