"""Generate Verif/Model/CdfLayout.lean: shapes of the tile contexts, from the wiring and the default tables."""
import sys,re; sys.path.insert(0,'/verif/tools')
from gotab import *
T=parse_tables('/repo/internal/uncompressedheader/cdf.go')
def camel(n):
    n=n.replace('DFEAULT','DEFAULT')
    ps=n.split('_')
    if n[0]=='D' and n[1].islower(): ps=['default','Alt']+ps[1:]
    return ps[0].lower()+''.join(p.capitalize() for p in ps[1:])
lines=open('/repo/internal/uncompressedheader/cdf.go').read().split('\n')
inst={}
multi=set()
for i,l in enumerate(lines[:136],1):
    m=re.search(r'state\.(\w+)((?:\[[^\]]*\])*)\s*=\s*(D\w+)',l)
    if m:
        inst[m.group(1)]=m.group(3)
        if m.group(2): multi.add(m.group(1)); print(l)
tg=open('/repo/internal/tilegroup/tile_group.go').read()
i=tg.index('func (t *TileGroup) initSymbol'); j=tg.index('8.2.4 Exit process')
tile=re.findall(r'state\.(Tile\w+)\s*=\s*(?:state\.|uncompressedheader\.)(\w+)',tg[i:j])
out=[]
for a,b in tile:
    d=inst.get(b,b)
    nm=a[4:-3]
    if d not in T: print('skip',nm,d); continue
    t,_,_,_=T[d]
    coef=T[d][1]>=2399
    x=t[0] if coef else t
    dims=[]
    while isinstance(x[0],list): dims.append(len(x)); x=x[0]
    lens={len(l) for _,l in leaves(t)}
    print(nm,d,dims,lens,'MULTI' if b in multi else '')
    out.append((nm,dims,len(x)-1,d,coef))
pre={'MvJoint':[2],'MvClass':[2],'MvClass0Bit':[2,2],'MvFr':[2],'MvClass0Fr':[2],'MvClass0Hp':[2,2],'MvSign':[2,2],'MvBit':[2,2],'MvHp':[2,2],'DeltaLFMulti':[4]}
bad={'DEFAULT_SEGMENT_ID_PREDICTED_CDF','DEFAULT_SKIP_MODE_CDF'}
o='''import Verif.Model.CdfWiring
import Verif.Model.Rd
/-!
# Shapes of the tile contexts (generated by tools/genlayout.py)

The contexts of a tile are references to the default tables (internal/tilegroup/tile_group.go:480-579,
internal/uncompressedheader/cdf.go:9-135).  `cdfTabs` lists the tables with their outer dimensions and number
of symbols; `cdfNames` the fields `state.Tile<name>Cdf`, the dimensions along which all elements refer to the
same table, and the table.  The two tables that always panic (see C43) and the nil context (see C61) have no
entry, so that reading them is a fault.
-/
namespace Gov1

/-- The outer dimensions of a table: a box, or a table of three dimensions whose part `[i][j]` has
`inner[i][j]` rows. -/
inductive Dims where
  | box (ds : List Nat)
  | ragged (inner : List (List Nat))
  deriving DecidableEq

/-- A table of contexts: Go name, outer dimensions, number of symbols, rows in index order. -/
structure Tab where
  name : String
  dims : Dims
  count : Nat
  rows : List (List Nat)

/-- internal/uncompressedheader/cdf.go:345-13305, the default tables in use; the coefficient tables are those
of quantizer class `k` (cdf.go:107-135). -/
def cdfTabs (k : Fin 4) : List Tab := [
'''
seen=set(); L=[]
for nm,dims,n,d,coef in out:
    if d in bad or d in seen: continue
    seen.add(d)
    rows=camel(d) if not coef else f"match k with | 0 => {camel(d)}0 | 1 => {camel(d)}1 | 2 => {camel(d)}2 | 3 => {camel(d)}3"
    dd=f".box {dims}"
    if d=='DEFAULT_COEFF_BASE_CDF':
        t=T[d][0]
        assert all([len(y) for y in x]==[42,42] for q in range(3) for x in t[q])
        dd="match k with | 3 => .ragged "+str([[len(y) for y in x] for x in t[3]])+f" | _ => .box {dims}"
    L.append(f'  ⟨"{d}", {dd}, {n}, {rows}⟩')
o+=",\n".join(L)+"]\n\n"
o+="/-- internal/tilegroup/tile_group.go:480-579 with cdf.go:9-135 and internal/state/state.go:135-143, 164: the\nfields, their aliased dimensions, the table. -/\ndef cdfNames : List (String × List Nat × String) := [\n"
o+=",\n".join(f'  ("{nm}", {pre.get(nm,[])}, "{d}")' for nm,dims,n,d,coef in out if d not in bad)+"]\n"
o+='''
/-- Position in row-major order of an element of an array, `none` if an index is out of range. -/
def ravel : List Nat → List Int → Option Nat
  | [], [] => some 0
  | d :: ds, i :: is =>
    if 0 ≤ i ∧ i < d then (ravel ds is).map (fun k => i.toNat * ds.prod + k) else none
  | [], _ :: _ => none
  | _ :: _, [] => none

/-- Position in the rows of one part of a ragged table: column `j`, row `c`. -/
def ragRow : List Nat → Int → Int → Option Nat
  | [], _, _ => none
  | n :: ns, j, c =>
    if j = 0 then (if 0 ≤ c ∧ c < n then some c.toNat else none) else (ragRow ns (j - 1) c).map (fun k => n + k)

/-- Position in a ragged table. -/
def rag : List (List Nat) → Int → Int → Int → Option Nat
  | [], _, _, _ => none
  | r :: rs, i, j, c => if i = 0 then ragRow r j c else (rag rs (i - 1) j c).map (fun k => r.sum + k)

/-- Number of rows of a table. -/
def Dims.size : Dims → Nat
  | .box ds => ds.prod
  | .ragged l => (l.map List.sum).sum

/-- Position of an element of a table. -/
def Dims.ravel : Dims → List Int → Option Nat
  | .box ds, is => Gov1.ravel ds is
  | .ragged l, is =>
    match is with
    | [i, j, c] => rag l i j c
    | _ => none

/-- Check and drop the indices of the aliased dimensions. -/
def stripPre : List Nat → List Int → Option (List Int)
  | [], is => some is
  | d :: ds, i :: is => if 0 ≤ i ∧ i < d then stripPre ds is else none
  | _ :: _, [] => none

/-- The table of that name and the number of rows before it. -/
def locate (t : String) : List Tab → Option (Nat × Tab)
  | [] => none
  | x :: xs => if x.name = t then some (0, x) else (locate t xs).map (fun r => (x.rows.length + r.1, r.2))

/-- The field `state.Tile<t>Cdf`. -/
def findName (t : String) : List (String × List Nat × String) → Option (List Nat × String)
  | [] => none
  | x :: xs => if x.1 = t then some x.2 else findName t xs

/-- Position and number of symbols of `state.Tile<t>Cdf[idx...]`. -/
def cdfFind (k : Fin 4) (t : String) (idx : List Int) : Option (Nat × Nat) :=
  match findName t cdfNames with
  | none => none
  | some (pre, d) =>
    match stripPre pre idx with
    | none => none
    | some is =>
      match locate d (cdfTabs k) with
      | none => none
      | some (b, x) => (x.dims.ravel is).map (fun r => (b + r, x.count))

/-- The layout of the contexts of a tile. -/
def cdfLayout (k : Fin 4) : Layout :=
  ⟨fun t idx => (cdfFind k t idx).map (·.1), fun t idx => (cdfFind k t idx).map (·.2)⟩

/-- The contexts of a tile of a frame without primary reference frame: the default tables. -/
def cdfStore (k : Fin 4) : List (List Int) := (cdfTabs k).flatMap (fun x => x.rows.map (fun l => l.map Int.ofNat))

end Gov1
'''
open('/verif/lean/Verif/Model/CdfLayout.lean','w').write(o)
