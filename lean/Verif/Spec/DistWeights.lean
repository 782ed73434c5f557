import Mathlib.Data.Int.Notation

/-!
# Compound prediction by distance, as AV1 has it (7.11.3.15)
Two references; the one nearer in time gets the larger share of sixteen.
-/

namespace Gov1.Spec

/-- The share, in sixteenths, of the nearer of two references at the distances `near ≤ far`: 9 if the far one is less
than 3/2 as far, 11 below 5/2, 12 below 7/2, and otherwise 13; 13 also if the near one is at the same time as the frame. -/
def nearShare (near far : Int) : Int :=
  if near = 0 then 13
  else if 2 * far < 3 * near then 9
  else if 2 * far < 5 * near then 11
  else if 2 * far < 7 * near then 12
  else 13

/-- The weights of the first and of the second reference, at distances `a` and `b`; on a tie the second one counts as nearer. -/
def distWeights (a b : Int) : Int × Int :=
  if b ≤ a then (16 - nearShare b a, nearShare b a) else (nearShare a b, 16 - nearShare a b)

end Gov1.Spec
