import Verif.Spec.Coeffs
import Verif.Spec.Math
/-!
# Mode info

Written from AV1 5.11.5-5.11.9, 5.11.11, 5.11.35-5.11.45 and 8.3.2, independently of the decoder.
-/
namespace Gov1.Spec

/-! ## Deltas of the quantizer index and the loop filter -/

/-- The replies that code the size of a delta: below 3 one symbol; otherwise the escape 3 and `a - 1 = 2^n + x` as `n - 1` in three
bits and `x` in `n` bits. -/
def deltaAbsCode (a : Nat) : List Nat :=
  if a < 3 then [a] else 3 :: (bitsMsb 3 (Nat.log2 (a - 1) - 1) ++ bitsMsb (Nat.log2 (a - 1)) (a - 1 - 2 ^ Nat.log2 (a - 1)))

/-- The replies that code a delta: its size and, unless it is 0, its sign. -/
def deltaCode (d : Int) : List Nat := deltaAbsCode d.natAbs ++ (if d = 0 then [] else [if d < 0 then 1 else 0])

/-- A value moved by `d` steps of `2^res` and kept within bounds. -/
def moved (lo hi cur d : Int) (res : Nat) : Int := if d = 0 then cur else max lo (min hi (cur + d * 2 ^ res))

/-! ## Segment ids -/

/-- The predicted segment id from the ids above, left and above-left (`none`: not available). -/
def segPred : Option Int → Option Int → Option Int → Int
  | none, none, _ => 0
  | none, some l, _ => l
  | some u, none, _ => u
  | some u, some l, ul => if ul = some u then u else l

/-- The context: 2 if all three ids agree, 1 if two of them do, 0 otherwise or if one is missing. -/
def segCtx : Option Int → Option Int → Option Int → Nat
  | some u, some l, some ul => if u = l ∧ l = ul then 2 else if u = l ∨ l = ul ∨ u = ul then 1 else 0
  | _, _, _ => 0

/-- The segment id that symbol `s` codes. -/
def segIdOf (s : Nat) (pred : Int) (last : Nat) : Int := max 0 (min (last : Int) (negDeinterleave (s : Int) pred ((last : Int) + 1)))

/-! ## Prediction modes -/

/-- The class of an intra mode: `DC, SMOOTH, PAETH` / `V, SMOOTH_V` / `H, SMOOTH_H` / `D45, D67` / `D135, D113, D157, D203`. -/
def modeClass (m : Nat) : Nat :=
  if m = 1 ∨ m = 10 then 1 else if m = 2 ∨ m = 11 then 2 else if m = 3 ∨ m = 8 then 3
  else if 4 ≤ m ∧ m ≤ 7 then 4 else 0

/-- Chroma from luma is possible in blocks up to 32x32, in lossless blocks only if the chroma block is 4x4. -/
def cflPossible (w h subX subY : Nat) (lossless : Bool) : Bool :=
  if lossless then decide (max 4 (w / 2 ^ subX) = 4 ∧ max 4 (h / 2 ^ subY) = 4) else decide (w ≤ 32 ∧ h ≤ 32)

/-- Signs of the alphas: 0 zero, 1 negative, 2 positive. -/
def cflSign (a : Int) : Nat := if a = 0 then 0 else if a < 0 then 1 else 2

/-- The replies that code the alphas `(u, v)`, not both 0: the pair of signs, then the sizes less one. -/
def cflCode (u v : Int) : List Nat :=
  (cflSign u * 3 + cflSign v - 1) :: ((if u = 0 then [] else [u.natAbs - 1]) ++ (if v = 0 then [] else [v.natAbs - 1]))

/-! ## Availability -/

/-- Unit `(y, x)` belongs to the tile. -/
def inTile (rowStart rowEnd colStart colEnd : Nat) (y x : Int) : Prop := rowStart ≤ y ∧ y < rowEnd ∧ colStart ≤ x ∧ x < colEnd

/-- Chroma samples are coded with the block that holds the last luma unit of their area: an odd row if rows are subsampled, an odd
column if columns are. -/
def ownsChroma (r c bh4 bw4 subX subY : Nat) : Prop :=
  ∃ y x, r ≤ y ∧ y < r + bh4 ∧ c ≤ x ∧ x < c + bw4 ∧ (subY = 1 → y % 2 = 1) ∧ (subX = 1 → x % 2 = 1)

/-- The first luma row (column) of the chroma area that the block's chroma samples belong to. -/
def chromaStart (r sub : Nat) : Nat := if sub = 1 then r / 2 * 2 else r

end Gov1.Spec
