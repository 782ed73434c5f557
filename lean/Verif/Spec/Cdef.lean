import Mathlib.Algebra.BigOperators.Group.Finset.Basic
import Mathlib.Algebra.BigOperators.Ring.Finset
import Mathlib.Data.Finset.Prod
/-! # Small specification of the constrained directional enhancement filter (AV1 specification 7.15) -/
namespace Gov1.Spec

/-! ## Direction search (7.15.2) -/

/-- The pixels of an 8x8 block. -/
abbrev block8 : Finset (Nat × Nat) := Finset.range 8 ×ˢ Finset.range 8

/-- The 8x8 block is cut into parallel lines in each of eight directions; this is the number of the line through the
pixel in row `i` and column `j`. -/
def cdefLine (d i j : Nat) : Nat :=
  match d with
  | 0 => i + j
  | 1 => i + j / 2
  | 2 => i
  | 3 => 3 + i - j / 2
  | 4 => 7 + i - j
  | 5 => 3 + j - i / 2
  | 6 => j
  | _ => i / 2 + j

/-- The pixels of line `k` of direction `d`. -/
def cdefLinePixels (d k : Nat) : Finset (Nat × Nat) := block8.filter (fun q => cdefLine d q.1 q.2 = k)

/-- The cost of a direction: the squares of the sums over its lines, each divided by the length of the line (times 840,
which all lengths divide). -/
def cdefCost (px : Nat → Nat → Int) (d : Nat) : Int :=
  ∑ k ∈ Finset.range 15,
    (((840 / (cdefLinePixels d k).card : Nat)) : Int) * (∑ q ∈ cdefLinePixels d k, px q.1 q.2) ^ 2

/-- `d` is the direction the specification selects: the first one of largest cost. -/
def CdefDirIs (px : Nat → Nat → Int) (d : Nat) : Prop :=
  d < 8 ∧ (∀ e, e < 8 → cdefCost px e ≤ cdefCost px d) ∧ ∀ e, e < d → cdefCost px e < cdefCost px d

/-- The block is constant along direction `d`. -/
def AlongDir (px : Nat → Nat → Int) (d : Nat) : Prop :=
  ∀ i j i' j', i < 8 → j < 8 → i' < 8 → j' < 8 → cdefLine d i j = cdefLine d i' j' → px i j = px i' j'

/-! ## The filter (7.15.3) -/

/-- Largest `n` with `2 ^ n ≤ t`. -/
def log2 (t : Int) : Int := (Nat.log2 t.toNat : Nat)

/-- The constraint: a difference is passed on up to the strength, less what it exceeds it by (scaled by the damping). -/
def cdefConstrain (diff strength damping : Int) : Int :=
  if strength = 0 then 0
  else diff.sign * max 0 (min (diff.natAbs : Int) (strength - (diff.natAbs : Int) / 2 ^ (damping - log2 strength).toNat))

/-- Offsets `(rows, columns)` of the two pixels on one side of a pixel, in direction `d`. -/
def cdefOffset (d : Nat) (k : Nat) : Int × Int :=
  match d, k with
  | 0, 0 => (-1, 1) | 0, _ => (-2, 2)
  | 1, 0 => (0, 1)  | 1, _ => (-1, 2)
  | 2, 0 => (0, 1)  | 2, _ => (0, 2)
  | 3, 0 => (0, 1)  | 3, _ => (1, 2)
  | 4, 0 => (1, 1)  | 4, _ => (2, 2)
  | 5, 0 => (1, 0)  | 5, _ => (2, 1)
  | 6, 0 => (1, 0)  | 6, _ => (2, 0)
  | _, 0 => (1, 0)  | _, _ => (2, -1)

/-- A pixel the filter looks at: its offset, its weight, and whether it is on the primary direction. -/
structure CdefTap where
  off : Int × Int
  weight : Int
  primary : Bool

/-- The pixels the filter looks at: along the direction with weights `w.1` (near) and `w.2` (far), and along the two
directions at 45 degrees to it with weights 2 and 1. -/
def cdefTaps (w : Int × Int) (dir : Nat) : List CdefTap :=
  [(0, -1), (0, 1), (1, -1), (1, 1)].flatMap (fun (ks : Nat × Int) =>
    let at' (d : Nat) : Int × Int := (ks.2 * (cdefOffset d ks.1).1, ks.2 * (cdefOffset d ks.1).2)
    [{ off := at' dir, weight := if ks.1 = 0 then w.1 else w.2, primary := true },
     { off := at' ((dir + 6) % 8), weight := if ks.1 = 0 then 2 else 1, primary := false },
     { off := at' ((dir + 2) % 8), weight := if ks.1 = 0 then 2 else 1, primary := false }])

/-- The filtered value of a pixel `x`; `px off` is the pixel at an offset from it, if available: the weighted sum of the
constrained differences, divided by 16 and rounded, is added, and the result kept between the least and the greatest of
the pixels looked at. -/
def cdefPixel (w : Int × Int) (pri sec damping : Int) (dir : Nat) (x : Int) (px : Int × Int → Option Int) : Int :=
  let taps := (cdefTaps w dir).filterMap (fun t => (px t.off).map (fun v => (t, v)))
  let sum := (taps.map (fun tv => tv.1.weight * cdefConstrain (tv.2 - x) (if tv.1.primary then pri else sec) damping)).sum
  let vals := taps.map (·.2)
  max (vals.foldl min x) (min (vals.foldl max x) (x + sum.sign * (((sum.natAbs : Int) + 8) / 16)))

/-- The weights along the direction: by the parity of the strength of 8-bit content. -/
def cdefWeights (bitDepth : Nat) (pri : Int) : Int × Int := if pri / 2 ^ (bitDepth - 8) % 2 = 0 then (4, 2) else (3, 3)

/-! ## The block (7.15.1) -/

/-- The primary strength for luma depends on the variance of the block. -/
def cdefLumaStrength (pri var : Int) : Int :=
  if var = 0 then 0 else (pri * (4 + if var < 64 then 0 else min 12 (log2 (var / 64))) + 8) / 16

/-- The direction for chroma: that of luma, squeezed if only one dimension is subsampled. -/
def cdefUvDir (subX subY d : Nat) : Nat :=
  if subX = subY then d
  else if subX = 0 then [1, 2, 2, 2, 3, 4, 6, 0].getD d 0 else [7, 0, 2, 4, 5, 6, 6, 6].getD d 0

/-- What the filter is called with. -/
structure CdefCall where
  pri : Int
  sec : Int
  damping : Int
  dir : Nat

/-- The call for a plane of a block whose luma has direction `d` and variance `var`. -/
def cdefCall (bitDepth plane subX subY : Nat) (yPri ySec uvPri uvSec damping : Int) (d : Nat) (var : Int) : CdefCall :=
  let s : Int := 2 ^ (bitDepth - 8)
  if plane = 0 then
    { pri := cdefLumaStrength (yPri * s) var, sec := ySec * s, damping := damping + (bitDepth - 8 : Nat), dir := if yPri = 0 then 0 else d }
  else
    { pri := uvPri * s, sec := uvSec * s, damping := damping + (bitDepth - 8 : Nat) - 1
      dir := if uvPri = 0 then 0 else cdefUvDir subX subY d }

end Gov1.Spec
