import Mathlib.Data.List.Sort
/-!
# Palette colours, after AV1 5.11.50
-/
namespace Gov1.Spec

/-- How much a colour counts at a pixel, given the colours of its neighbours to the left, above left and above, where those exist: 2 for the neighbour to the left, 1 above left, `k` above. -/
def palScore (k : Int) (l al a : Option Nat) (v : Nat) : Int := (if l = some v then 2 else 0) + (if al = some v then 1 else 0) + (if a = some v then k else 0)

/-- The colours by decreasing score; those of equal score in their own order. -/
def palOrder (k : Int) (n : Nat) (l al a : Option Nat) : List Nat := (List.range n).insertionSort fun x y => palScore k l al a y ≤ palScore k l al a x

/-- The context hash: the best score, plus twice the second and the third. -/
def palHash (k : Int) (n : Nat) (l al a : Option Nat) : Int := (List.zipWith (· * ·) ((palOrder k n l al a).map (palScore k l al a)) [1, 2, 2]).sum

/-- The neighbours of a pixel in a picture. -/
def palLeft (f : Nat → Nat → Nat) (r c : Nat) : Option Nat := if 0 < c then some (f r (c - 1)) else none
def palAboveLeft (f : Nat → Nat → Nat) (r c : Nat) : Option Nat := if 0 < r ∧ 0 < c then some (f (r - 1) (c - 1)) else none
def palAbove (f : Nat → Nat → Nat) (r c : Nat) : Option Nat := if 0 < r then some (f (r - 1) c) else none

end Gov1.Spec
