import Verif.Model.InterTables
import Verif.Model.UncompressedHeader
import Verif.Model.Util
import Verif.Model.Grid

/-!
# The weights of compound prediction by distance (internal/tilegroup/predict_inter.go:697-730)
-/

namespace Gov1

/-- predict_inter.go:713-726: the loop over the first three pairs, `break` on the first that matches. -/
def distIndex (d0 d1 : Int) (order : Nat) : Nat → Nat → Res Nat
  | 0, i => pure i
  | fuel + 1, i => do
    let c0 ← gget quantDistWeight i order
    let c1 ← gget quantDistWeight i ((1 : Int) - order)
    if order ≠ 0 then
      if d0 * c0 > d1 * c1 then pure i else distIndex d0 d1 order fuel (i + 1)
    else
      if d0 * c0 < d1 * c1 then pure i else distIndex d0 d1 order fuel (i + 1)

/-- predict_inter.go:704-729: `(FwdWeight, BckWeight)` from the slice `dist`. -/
def distSelect (dist : List Int) : Res (Int × Int) := do
  let d0 ← goGet dist 1
  let d1 ← goGet dist 0
  let order := if d0 ≤ d1 then 1 else 0
  let i ← (if d0 = 0 ∨ d1 = 0 then pure 3 else distIndex d0 d1 order 3 0)
  let f ← gget quantDistLookup i order
  let b ← gget quantDistLookup i ((1 : Int) - order)
  pure (f, b)

/-- predict_inter.go:701-702: one distance; `hints` is `uh.OrderHints`, `ref` the reference frame of the block. -/
def distOf (eoh : Bool) (bits : Nat) (hints : List Int) (cur ref : Int) : Res Int := do
  let h ← goGet hints ref
  let d ← getRelativeDist eoh bits h cur
  pure (clip3 0 31 (if d ≥ 0 then d else -d))

/-- predict_inter.go:700-703: the loop that stores the distances; `dist` is the slice declared on line 699. -/
def distFill (eoh : Bool) (bits : Nat) (hints : List Int) (cur : Int) (refs : List Int) (dist : List Int) : Res (List Int) :=
  forN (fun l dist => do
    let ref ← goGet refs l
    let d ← distOf eoh bits hints cur ref
    goSet dist l d) 2 0 dist

/-- predict_inter.go:698-730 `distanceWeightsProcess`: line 699 declares `var dist []int`, a nil slice. -/
def distanceWeights (eoh : Bool) (bits : Nat) (hints : List Int) (cur : Int) (refs : List Int) : Res (Int × Int) := do
  let dist ← distFill eoh bits hints cur refs []
  distSelect dist

end Gov1
