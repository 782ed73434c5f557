"""Generate Verif/Model/CdfTables*.lean from internal/uncompressedheader/cdf.go (read as text)."""
import sys,re; sys.path.insert(0,'/verif/tools')
from gotab import *
T=parse_tables('/repo/internal/uncompressedheader/cdf.go')
def camel(n):
    n=n.replace('DFEAULT','DEFAULT')
    ps=n.split('_')
    if n[0]=='D' and n[1].islower(): ps=['default','Alt']+ps[1:]
    return ps[0].lower()+''.join(p.capitalize() for p in ps[1:])
groups={'A':[], 'B':[], 'C':[], 'D':[]}
def rows(t):
    L=[[eval(x) for x in l] for _,l in leaves(t)]
    return ",\n".join("  ["+", ".join(map(str,l))+"]" for l in L)
def rng(a,b): return f"internal/uncompressedheader/cdf.go:{a}-{b}"
entries=[]
for n,(t,a,b,ty) in T.items():
    dims=[]
    x=t
    while isinstance(x[0],list): dims.append(len(x)); x=x[0]
    if a<2399:
        s=f"/-- {rng(a,b)} `{n}` ({ty}int, leaves in index order; outer dimensions {dims}). -/\n"
        s+=f"def {camel(n)} : List (List Nat) := [\n{rows(t)}]\n"
        groups['A'].append(s); entries.append((n,camel(n)))
    else:
        g='B' if a<7995 else ('C' if 'BASE' in n else 'D')
        assert len(t)==4
        for q in range(4):
            s=f"/-- {rng(a,b)} `{n}[{q}]` ({ty}int, leaves in index order; outer dimensions {dims}). -/\n"
            s+=f"def {camel(n)}{q} : List (List Nat) := [\n{rows(t[q])}]\n"
            groups[g].append(s); entries.append((f"{n}[{q}]",camel(n)+str(q)))
for nm,g in groups.items():
    o="/-! # Default CDF tables of internal/uncompressedheader/cdf.go (generated by tools/gencdf.py)\n\nNested Go slices are flattened to the list of their innermost slices, in index order. -/\nset_option maxRecDepth 8000\nnamespace Gov1\n\n"
    o+="\n".join(g)+"\nend Gov1\n"
    open(f'/verif/lean/Verif/Model/CdfTables{nm}.lean','w').write(o)
# wiring
cdf=open('/repo/internal/uncompressedheader/cdf.go').read()
lines=cdf.split('\n')
inst=[]
for i,l in enumerate(lines[:136],1):
    m=re.search(r'state\.(\w+)(?:\[[^\]]*\])*\s*=\s*(D\w+)',l)
    if m: inst.append((m.group(1),m.group(2)))
tg=open('/repo/internal/tilegroup/tile_group.go').read()
i=tg.index('func (t *TileGroup) initSymbol'); j=tg.index('8.2.4 Exit process')
tile=re.findall(r'state\.(Tile\w+)\s*=\s*(?:state\.|uncompressedheader\.)(\w+)',tg[i:j])
o="""import Verif.Model.CdfTablesA
import Verif.Model.CdfTablesB
import Verif.Model.CdfTablesC
import Verif.Model.CdfTablesD
/-! # How contexts are wired to the default tables (generated by tools/gencdf.py) -/
namespace Gov1

/-- All default tables of internal/uncompressedheader/cdf.go:345-13305, with their Go names (the
coefficient tables split by quantizer class). -/
def defaultTables : List (String × List (List Nat)) := [
"""
o+=",\n".join(f'  ("{a}", {b})' for a,b in entries)+"]\n\n"
o+="/-- internal/uncompressedheader/cdf.go:9-135 `initNonCoeffCdfs`, `initCoeffCdfs`: the state field\nassigned and the global table it is made to refer to (coefficient tables are indexed by quantizer class). -/\ndef frameWiring : List (String × String) := [\n"
o+=",\n".join(f'  ("{a}", "{b}")' for a,b in inst)+"]\n\n"
o+="/-- internal/tilegroup/tile_group.go:480-579 (`initSymbol`): the tile context assigned and the frame\ncontext (or global table) it is made to refer to. -/\ndef tileWiring : List (String × String) := [\n"
o+=",\n".join(f'  ("{a}", "{b}")' for a,b in tile)+"]\n\nend Gov1\n"
open('/verif/lean/Verif/Model/CdfWiring.lean','w').write(o)
