import Verif.Go
/-! # Small mathematical specifications for the helpers of internal/util -/
namespace Gov1.Spec

/-- Reference recentring (inverse of AV1 `inverse_recenter`): values near `r` get the small codes
`0, 1, 2, …` alternating above (even) and below (odd), values above `2r` are kept. -/
def recenter (r x : Int) : Int :=
  if x > 2 * r then x else if x ≥ r then 2 * (x - r) else 2 * (r - x) - 1

/-- AV1 specification 5.11.9 `neg_deinterleave`. -/
def negDeinterleave (diff ref max : Int) : Int :=
  if ref = 0 then diff
  else if ref ≥ max - 1 then max - diff - 1
  else if 2 * ref < max then
    if diff ≤ 2 * ref then
      if diff % 2 = 1 then ref + (diff + 1) / 2 else ref - diff / 2
    else diff
  else
    if diff ≤ 2 * (max - ref - 1) then
      if diff % 2 = 1 then ref + (diff + 1) / 2 else ref - diff / 2
    else max - (diff + 1)

/-- Bit reversal of the `n` low bits: bit `i` of the result is bit `n-1-i` of `x`. -/
def IsReversal (n x y : Nat) : Prop := y < 2 ^ n ∧ ∀ i, i < n → y.testBit i = x.testBit (n - 1 - i)

/-- `y` is `x / 2^n` rounded to the nearest integer, ties upwards: `|2^n y - x|` is at most half of
`2^n`, the lower half being open. -/
def RoundsUpHalf (x : Int) (n : Nat) (y : Int) : Prop :=
  2 * (2 ^ n * y) ≤ 2 * x + 2 ^ n ∧ 2 * x + 2 ^ n < 2 * (2 ^ n * (y + 1))

end Gov1.Spec
