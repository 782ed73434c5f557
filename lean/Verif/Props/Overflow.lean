import Verif.Lemmas.CoeffRoundtrip
/-!
# C97: Exp-Golomb numbers beyond 64 bits

The decoder puts no limit on the length of an Exp-Golomb number, but its integers have 64 bits.
-/
namespace Gov1
open Spec

/-- coeffs.go:168-173 in machine arithmetic: `x := 1`, `x = (x << 1) | bit` for every bit, `x + COEFF_BASE_RANGE + NUM_BASE_LEVELS`. -/
def Spec.golomb64 (bits : List Nat) : BitVec 64 := bits.foldl (fun (x : BitVec 64) b => (x <<< 1) ||| BitVec.ofNat 64 b) 1#64 + 12#64 + 2#64

/-- The number itself. -/
def Spec.golombValue (bits : List Nat) : Nat := bits.foldl (fun x b => 2 * x + b) 1

theorem or_bit (x : BitVec 64) {b : Nat} (hb : b < 2) : (x <<< 1) ||| BitVec.ofNat 64 b = BitVec.ofNat 64 (2 * x.toNat + b) := by
  have : b = 0 ∨ b = 1 := by omega
  rcases this with rfl | rfl
  · apply BitVec.eq_of_toNat_eq
    simp [BitVec.toNat_shiftLeft, Nat.shiftLeft_eq, Nat.mul_comm]
  · apply BitVec.eq_of_toNat_eq
    rw [BitVec.toNat_or, BitVec.toNat_shiftLeft, Nat.shiftLeft_eq]
    simp only [BitVec.toNat_ofNat]
    have h : x.toNat * 2 ^ 1 % 2 ^ 64 = 2 * (x.toNat % 2 ^ 63) := by omega
    rw [h, show 1 % 2 ^ 64 = 1 from rfl, Nat.mul_comm 2 (x.toNat % 2 ^ 63)]
    have := Nat.two_pow_add_eq_or_of_lt (i := 1) (b := 1) (by omega) (x.toNat % 2 ^ 63)
    rw [show (2 : Nat) ^ 1 * (x.toNat % 2 ^ 63) = x.toNat % 2 ^ 63 * 2 by omega] at this
    rw [← this]
    omega

theorem golomb_fold (bits : List Nat) (hb : ∀ b ∈ bits, b < 2) (y : Nat) :
    bits.foldl (fun (x : BitVec 64) b => (x <<< 1) ||| BitVec.ofNat 64 b) (BitVec.ofNat 64 y) = BitVec.ofNat 64 (bits.foldl (fun x b => 2 * x + b) y) := by
  induction bits generalizing y with
  | nil => rfl
  | cons b l ih =>
    rw [List.foldl_cons, List.foldl_cons, or_bit _ (hb b (by simp)), ← ih (fun c hc => hb c (by simp [hc]))]
    congr 1
    apply BitVec.eq_of_toNat_eq
    simp only [BitVec.toNat_ofNat]
    omega

theorem wrap64_toInt (n : Nat) : (BitVec.ofNat 64 n).toInt = wrap64 n := by
  rw [BitVec.toInt_eq_toNat_cond, BitVec.toNat_ofNat]
  unfold wrap64
  split <;> omega

theorem golombData_bits (L : Layout) (bits : List Nat) (hb : ∀ b ∈ bits, b < 2) (y : Nat) : (golombData bits.length y).Says L bits (bits.foldl (fun x b => 2 * x + b) y) := by
  induction bits generalizing y with
  | nil => exact Rd.Says.ret _
  | cons b l ih =>
    have h := ih (fun c hc => hb c (by simp [hc])) (2 * y + b)
    show (golombData (l.length + 1) y).Says L (b :: l) _
    unfold golombData
    exact Rd.Says.bind (m := [b]) (Rd.Says.lit1 (hb b (by simp))) h

/-- C97, numbers that do not fit: after a length of `k` the decoder reads `k - 1` bits, whatever `k`, and the level it computes is what 64-bit machine arithmetic, step by step, makes of them: the exact
number plus 14, wrapped. -/
theorem C97_overflow (L : Layout) (bits : List Nat) (hb : ∀ b ∈ bits, b < 2) :
    (golombData bits.length 1).Says L bits (golombValue bits) ∧ (golomb64 bits).toInt = wrap64 ((golombValue bits : Int) + 12 + 2) := by
  refine ⟨golombData_bits L bits hb 1, ?_⟩
  unfold golomb64 golombValue
  rw [show (1#64) = BitVec.ofNat 64 1 from rfl, golomb_fold bits hb 1, ← BitVec.ofNat_add, ← BitVec.ofNat_add, wrap64_toInt]
  push_cast
  rfl

/-- The low sixteen bits, which are all that is kept of a level, do not depend on the wrapping. -/
theorem C97_overflow_harmless (bits : List Nat) (hb : ∀ b ∈ bits, b < 2) : and16 (golomb64 bits).toInt = (golombValue bits + 14 : Nat) % 65536 := by
  rw [(C97_overflow (cdfLayout 0) bits hb).2, and16_wrap64]
  unfold and16
  push_cast
  omega

/-- C97 is false for long numbers: a level of 2^63 or more is taken for a negative one, so that a first coefficient that is coded with 63 bits counts as having no sign in the contexts of the next blocks. -/
theorem C97_overflow_refuted : ∃ bits : List Nat, (∀ b ∈ bits, b < 2) ∧ 0 < golombValue bits ∧ (golomb64 bits).toInt < 0 := by
  refine ⟨List.replicate 63 0, by decide, by decide, ?_⟩
  rw [(C97_overflow (cdfLayout 0) _ (by decide)).2]
  decide

end Gov1
