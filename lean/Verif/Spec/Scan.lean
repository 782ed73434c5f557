import Verif.Go
/-!
# Specification of coefficient scans

Independent of the tables: a scan of a `w` by `h` block lists every position `row * w + col` exactly once.
The three orders of AV1 are given by the key that must strictly increase along the scan; a strictly sorted
listing of all positions is unique, so the key determines the scan.
-/
namespace Gov1.Spec

/-- Width and height of the coded area of each transform size (sides of 64 are coded as 32), in the order
4x4, 8x8, 16x16, 32x32, 64x64, 4x8, 8x4, 8x16, 16x8, 16x32, 32x16, 32x64, 64x32, 4x16, 16x4, 8x32, 32x8,
16x64, 64x16. -/
def codedArea : List (Nat × Nat) :=
  [(4, 4), (8, 8), (16, 16), (32, 32), (32, 32), (4, 8), (8, 4), (8, 16), (16, 8), (16, 32), (32, 16),
   (32, 32), (32, 32), (4, 16), (16, 4), (8, 32), (32, 8), (16, 32), (32, 16)]

/-- A transform type that applies its transform to columns only (vertical): V_DCT, V_ADST, V_FLIPADST. -/
def vertical (ty : Nat) : Bool := ty == 10 || ty == 12 || ty == 14
/-- A transform type that applies its transform to rows only (horizontal): H_DCT, H_ADST, H_FLIPADST. -/
def horizontal (ty : Nat) : Bool := ty == 11 || ty == 13 || ty == 15

/-- Every position of the block is listed exactly once. -/
def IsScan (w h : Nat) (scan : List Nat) : Prop := scan.Perm (List.range (w * h))

/-- The positions come in increasing order of `key`. -/
def Ordered (key : Nat → Nat) (scan : List Nat) : Prop := scan.Pairwise (fun p q => key p < key q)

/-- Row by row. -/
def rowKey (_w p : Nat) : Nat := p
/-- Column by column (`h` rows). -/
def colKey (w h p : Nat) : Nat := p % w * h + p / w
/-- Along the antidiagonals; on each of them by `col` where `byCol`, else by row. -/
def diagKey (w h : Nat) (byCol : Nat → Bool) (p : Nat) : Nat :=
  (p / w + p % w) * (w + h) + (if byCol (p / w + p % w) then p % w else p / w)

/-- The default order of AV1: antidiagonal by antidiagonal; in a tall block each is walked from its upper
right end down, in a wide block from its lower left end up, in a square block alternately. -/
def defaultKey (w h p : Nat) : Nat :=
  diagKey w h (fun d => if w < h then false else if h < w then true else d % 2 == 0) p

end Gov1.Spec
