import Verif.Spec.Scan
import Verif.Spec.Coeffs
/-!
# Specification of the contexts of the coefficient symbols (AV1 8.3.2)

A context is a function of the neighbours of the block (entries of the arrays of levels and of signs above and to the
left) or of the coefficients already decoded around a position.  Written from the text of AV1 without the tables of the
decoder: the offsets of the base contexts are given by the rule that generates AV1's table.
-/
namespace Gov1.Spec

/-- The entries of a context array next to the block that are inside the picture: `n` from position `p` on, before `lim`. -/
def nextTo (ctx : List Int) (p lim n : Nat) : List Int :=
  ((List.range n).filter (fun k => p + k < lim)).map (fun k => ctx.getD (p + k) 0)

/-- The size of a picture in 4x4 units of a plane (`mi` units of luma, `sub` 1 if subsampled). -/
def unitsOf (mi sub plane : Nat) : Nat := if plane = 0 then mi else (mi + sub) / 2 ^ sub

/-- How busy a side is: empty, weak (levels up to 3), strong. -/
def busy (l : List Int) : Nat := if ∀ v ∈ l, v = 0 then 0 else if ∀ v ∈ l, v ≤ 3 then 1 else 2

/-- Whether a luma block has coefficients: 0 if the transform covers the block, else by the two sides. -/
def zeroCtxLuma (covers : Bool) (above left : List Int) : Nat :=
  if covers then 0
  else match min (busy above) (busy left), max (busy above) (busy left) with
    | 0, 0 => 1
    | 0, 1 => 2
    | 0, _ => 3
    | 1, 1 => 4
    | 1, _ => 5
    | _, _ => 6

/-- Whether a chroma block has coefficients: by the number of sides with any level or sign, and whether the block is larger
than the transform. -/
def zeroCtxChroma (larger : Bool) (above left : List Int) : Nat :=
  (if larger then 10 else 7) + (if ∃ v ∈ above, v ≠ 0 then 1 else 0) + (if ∃ v ∈ left, v ≠ 0 then 1 else 0)

/-- The sign of the first coefficient: by the majority of the signs next to the block (1 negative, 2 positive). -/
def signCtx (l : List Int) : Nat :=
  if l.count 1 = l.count 2 then 0 else if l.count 2 < l.count 1 then 1 else 2

/-- The class of a transform type. -/
inductive TxCls | twoD | horiz | vert
  deriving DecidableEq

/-- The class of each transform type. -/
def txCls (ty : Nat) : TxCls := if vertical ty then .vert else if horizontal ty then .horiz else .twoD

/-- The five positions (rows down, columns right) looked at for a base level. -/
def baseNeighbours : TxCls → List (Nat × Nat)
  | .twoD => [(0, 1), (1, 0), (1, 1), (0, 2), (2, 0)]
  | .horiz => [(0, 1), (1, 0), (0, 2), (0, 3), (0, 4)]
  | .vert => [(0, 1), (1, 0), (2, 0), (3, 0), (4, 0)]

/-- The three positions looked at for a larger level. -/
def brNeighbours : TxCls → List (Nat × Nat)
  | .twoD => [(0, 1), (1, 0), (1, 1)]
  | .horiz => [(0, 1), (1, 0), (0, 2)]
  | .vert => [(0, 1), (1, 0), (2, 0)]

/-- The sum of the magnitudes, each capped, of the coefficients at the given positions inside a `w` by `h` block. -/
def magnitude (q : Nat → Nat → Int) (w h row col cap : Nat) (l : List (Nat × Nat)) : Nat :=
  (l.map (fun d => if row + d.1 < h ∧ col + d.2 < w then min (q (row + d.1) (col + d.2)).natAbs cap else 0)).sum

/-- The offset of the base context of a position in a `w` by `h` transform. -/
def baseOffset (w h row col : Nat) : Nat :=
  if row = 0 ∧ col = 0 then 0
  else if w < h ∧ row < 2 then 11
  else if h < w ∧ col < 2 then 16
  else if row + col < 2 then 1
  else if row + col < 4 then 6
  else 21

/-- The context of a base level at (`row`, `col`); `cw`, `ch` is the coded area. -/
def baseCtx (cls : TxCls) (w h cw ch : Nat) (q : Nat → Nat → Int) (row col : Nat) : Nat :=
  let m := min ((magnitude q cw ch row col 3 (baseNeighbours cls) + 1) / 2) 4
  match cls with
  | .twoD => if row = 0 ∧ col = 0 then 0 else m + baseOffset w h row col
  | .horiz => m + 26 + 5 * min col 2
  | .vert => m + 26 + 5 * min row 2

/-- The context of the base level of the last coefficient, the `c`-th of a coded area of `n` positions. -/
def lastCtx (n c : Nat) : Nat := if c = 0 then 0 else if c ≤ n / 8 then 1 else if c ≤ n / 4 then 2 else 3

/-- The context of the increments of a level. -/
def brCtx (cls : TxCls) (cw ch : Nat) (q : Nat → Nat → Int) (row col : Nat) : Nat :=
  let m := min ((magnitude q cw ch row col 15 (brNeighbours cls) + 1) / 2) 6
  let near : Bool := match cls with
    | .twoD => row < 2 && col < 2
    | .horiz => col == 0
    | .vert => row == 0
  m + (if row = 0 ∧ col = 0 then 0 else if near then 7 else 14)

/-- The class of sizes of the coefficient arrays: 0 for 4x4 to 4 for 64x64, in between by the rounded mean. -/
def sizeClass (w h : Nat) : Nat := (Nat.log2 w + Nat.log2 h - 3) / 2

end Gov1.Spec
