/-! # Specification vocabulary for tilings -/
namespace Gov1.Spec

/-- The boundaries divide `0 .. total` into non-empty consecutive intervals, each at most `maxWidth`
wide: they start at 0, strictly increase, and end at `total`. -/
structure Divides (bounds : List Nat) (total maxWidth : Nat) : Prop where
  first : bounds.head? = some 0
  last : bounds.getLast? = some total
  increasing : bounds.Pairwise (· < ·)
  width : ∀ i, i + 1 < bounds.length → bounds.getD (i + 1) 0 ≤ bounds.getD i 0 + maxWidth

/-- `x` lies in the `k`-th interval. -/
def InTile (bounds : List Nat) (k x : Nat) : Prop :=
  k + 1 < bounds.length ∧ bounds.getD k 0 ≤ x ∧ x < bounds.getD (k + 1) 0

/-- Number of blocks of `2^k` units needed to cover `n` units. -/
def blocks (n k : Nat) : Nat := (n + 2 ^ k - 1) / 2 ^ k

end Gov1.Spec
