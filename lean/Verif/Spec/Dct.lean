import Mathlib.Analysis.SpecialFunctions.Trigonometric.Basic
import Mathlib.Algebra.BigOperators.Intervals
/-!
# The one-dimensional transforms as real-valued functions

The textbook inverse DCT and inverse (flipped-free) ADST on `2^n` points, with AV1's scaling, and the bit reversal.
-/
namespace Gov1.Spec
open Real Finset

/-- Inverse DCT of `X 0 .. X (2^n - 1)` at position `k`. -/
noncomputable def idct (n : Nat) (X : Nat → ℝ) (k : Nat) : ℝ :=
  X 0 * √(1 / 2) + ∑ j ∈ Ico 1 (2 ^ n), X j * cos (π * (2 * k + 1) * j / 2 ^ (n + 1))

/-- Inverse ADST of `X 0 .. X (2^n - 1)` at position `k`. -/
noncomputable def iadst (n : Nat) (X : Nat → ℝ) (k : Nat) : ℝ :=
  ∑ j ∈ range (2 ^ n), X j * sin (π * (2 * k + 1) * (2 * j + 1) / 2 ^ (n + 2))

/-- The `n`-bit number with the bits of `x` in reverse order. -/
def bitRev (n x : Nat) : Nat := ∑ i ∈ range n, if x.testBit i then 2 ^ (n - 1 - i) else 0

end Gov1.Spec
