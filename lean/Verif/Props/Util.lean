import Verif.Model.Util
import Verif.Spec.Math
import Verif.Lemmas.Descriptors
/-!
# C09–C15: arithmetic helpers (internal/util/util.go)
-/
namespace Gov1

/-! ## C09 logarithms -/

/-- C09: `FloorLog2(x)` is the `k` with `2^k ≤ x < 2^(k+1)`, for every `x ≥ 1`. -/
theorem C09_floorLog2_exact (x : Int) (hx : 1 ≤ x) :
    ∃ k : Nat, floorLog2Int x = .ok (k : Int) ∧ 2 ^ k ≤ x ∧ x < 2 ^ (k + 1) := by
  obtain ⟨n, rfl⟩ : ∃ n : Nat, x = n := ⟨x.toNat, by omega⟩
  refine ⟨Nat.log2 n, ?_, ?_, ?_⟩
  · unfold floorLog2Int
    rw [if_neg (by omega)]
    simp only [Int.toNat_natCast]
    rw [floorLog2_eq n (by omega)]
  · have := Nat.log2_self_le (n := n) (by omega)
    exact_mod_cast this
  · have := Nat.lt_log2_self (n := n)
    exact_mod_cast this

/-- C09: on `0` the result is `-1`; on a negative argument the call does not return. -/
theorem C09_floorLog2_edge : floorLog2Int 0 = .ok (-1) ∧ ∀ x, x < 0 → floorLog2Int x = .error .hang :=
  ⟨by simp [floorLog2Int, floorLog2, shiftsToZero], fun x h => by simp [floorLog2Int, h]⟩

theorem doubleLoop_spec (cur target k : Nat) (hc : 0 < cur) :
    ∃ d, doubleLoop cur target k = k + d ∧ target ≤ cur * 2 ^ d ∧
      ∀ j, j < d → cur * 2 ^ j < target := by
  fun_induction doubleLoop cur target k with
  | case1 cur k h ih =>
    obtain ⟨d, h1, h2, h3⟩ := ih (by omega)
    refine ⟨d + 1, by omega, ?_, ?_⟩
    · rw [Nat.pow_succ, Nat.mul_comm (2 ^ d), ← Nat.mul_assoc, Nat.mul_comm cur]; exact h2
    · intro j hj
      cases j with
      | zero => simpa using h.2
      | succ j =>
        have := h3 j (by omega)
        rw [Nat.pow_succ, Nat.mul_comm (2 ^ j), ← Nat.mul_assoc, Nat.mul_comm cur]; exact this
  | case2 cur k h => exact ⟨0, rfl, by simp; omega, by intro j hj; omega⟩

/-- C09: `TileLog2(b, t)` terminates for every `b ≥ 1` and returns the least `k` with `b·2^k ≥ t`. -/
theorem C09_tileLog2_least (b t : Int) (hb : 1 ≤ b) :
    ∃ k : Nat, tileLog2 b t = .ok k ∧ t ≤ b * 2 ^ k ∧ ∀ j : Nat, t ≤ b * 2 ^ j → k ≤ j := by
  unfold tileLog2
  by_cases hbt : b < t
  · rw [if_pos hbt, if_neg (by omega)]
    obtain ⟨d, h1, h2, h3⟩ := doubleLoop_spec b.toNat t.toNat 0 (by omega)
    have cast : ∀ j : Nat, ((b.toNat * 2 ^ j : Nat) : Int) = b * 2 ^ j := by
      intro j
      have : ((b.toNat : Nat) : Int) = b := Int.toNat_of_nonneg (by omega)
      rw [Int.natCast_mul, this]; norm_cast
    refine ⟨d, by rw [h1, Nat.zero_add], ?_, ?_⟩
    · rw [← cast]; omega
    · intro j hj
      rcases Nat.lt_or_ge j d with h | h
      · have := h3 j h
        rw [← cast] at hj; omega
      · exact h
  · exact ⟨0, by rw [if_neg hbt], by simp; omega, by intros; omega⟩

/-- C09: `CeilLog2(x)` is the least `k` with `2^k ≥ x`. -/
theorem C09_ceilLog2_least (x : Int) :
    x ≤ 2 ^ ceilLog2 x ∧ ∀ j : Nat, x ≤ 2 ^ j → ceilLog2 x ≤ j := by
  unfold ceilLog2
  by_cases hx : x < 2
  · rw [if_pos hx]; exact ⟨by simp; omega, by intros; omega⟩
  · rw [if_neg hx]
    obtain ⟨d, h1, h2, h3⟩ := doubleLoop_spec 2 x.toNat 1 (by omega)
    rw [h1]
    have e : ∀ j : Nat, 2 * 2 ^ j = 2 ^ (1 + j) := by
      intro j; rw [Nat.pow_add]
    have cast : ∀ j : Nat, ((2 ^ j : Nat) : Int) = 2 ^ j := by intro j; norm_cast
    refine ⟨by rw [← cast, ← e]; omega, ?_⟩
    intro j hj
    rcases Nat.lt_or_ge j (1 + d) with h | h
    · cases j with
      | zero => simp at hj; omega
      | succ j =>
        have := h3 j (by omega)
        rw [← cast, Nat.add_comm j 1, ← e] at hj; omega
    · exact h

example : tileLog2 3 40 = .ok 4 := by
  simp [tileLog2, doubleLoop]

/-! ## C10 rounding -/

/-- C10: `Round2(x, n)` rounds `x / 2^n` to nearest, halves up. -/
theorem C10_round2_nearest (x : Int) (n : Nat) : Spec.RoundsUpHalf x n (round2 x n) := by
  unfold round2 Spec.RoundsUpHalf
  cases n with
  | zero => simp; omega
  | succ k =>
    have hp : (0 : Int) < 2 ^ (k + 1) := Int.pow_pos (by decide)
    have e1 : (2 : Int) ^ (k + 1) = 2 * 2 ^ k := by rw [Int.pow_succ, Int.mul_comm]
    have e2 : ((1 <<< k : Nat) : Int) = 2 ^ k := by rw [Nat.one_shiftLeft]; norm_cast
    simp only [Nat.add_sub_cancel, if_neg (Nat.succ_ne_zero k), e2, Int.shiftRight_eq_div_pow]
    have hn : ((2 ^ (k + 1) : Nat) : Int) = 2 ^ (k + 1) := by norm_cast
    rw [hn]
    have h1 := Int.mul_ediv_self_le (x := x + 2 ^ k) (k := 2 ^ (k + 1)) (by omega)
    have h2 := Int.lt_mul_ediv_self_add (x := x + 2 ^ k) (k := 2 ^ (k + 1)) hp
    rw [Int.mul_add]
    generalize 2 ^ (k + 1) * ((x + 2 ^ k) / 2 ^ (k + 1)) = q at *
    omega

/-- C10: rounding to nearest is unique, so the theorem above determines `Round2`. -/
theorem C10_round2_unique (x : Int) (n : Nat) (y z : Int) (hy : Spec.RoundsUpHalf x n y)
    (hz : Spec.RoundsUpHalf x n z) : y = z := by
  unfold Spec.RoundsUpHalf at *
  have hp : (0 : Int) < 2 ^ n := Int.pow_pos (by decide)
  have a : (2 : Int) ^ n * y < 2 ^ n * (z + 1) := by omega
  have b : (2 : Int) ^ n * z < 2 ^ n * (y + 1) := by omega
  have := Int.lt_of_mul_lt_mul_left a (by omega)
  have := Int.lt_of_mul_lt_mul_left b (by omega)
  omega

/-- C10, full statement for the signed helper: it is odd and rounds `|x|`. -/
def C10_round2Signed_statement : Prop :=
  ∀ (x : Int) (n : Nat), round2Signed x n = if x ≥ 0 then round2 x n else -(round2 (-x) n)

/-- C10 is false of the code for the signed helper: `Round2Signed(8, 1)` is `1`, not `4`. -/
theorem C10_round2Signed_refuted : ¬ C10_round2Signed_statement := by
  intro h
  have := h 8 1
  simp [round2Signed, round2, Int.shiftRight_eq_div_pow] at this

/-- C10, what holds: on negative arguments the signed helper rounds the magnitude; on all
non-negative arguments its value does not depend on the argument. -/
theorem C10_round2Signed_partial (x : Int) (n : Nat) :
    (x < 0 → round2Signed x n = -(round2 (-x) n)) ∧ (0 ≤ x → round2Signed x n = round2 2 n) := by
  unfold round2Signed
  constructor
  · intro h; rw [if_neg (by omega)]
  · intro h; rw [if_pos (by omega)]

example : Spec.RoundsUpHalf 13 3 2 ∧ Spec.RoundsUpHalf (-12) 3 (-1) := by
  constructor <;> constructor <;> decide

/-! ## C11 clipping -/

/-- C11: for `lo ≤ hi`, `Clip3(lo, hi, x)` lies in `[lo, hi]`, is `x` when `x` does, and no point of
the interval is closer to `x`. -/
theorem C11_clip3_nearest (lo hi x : Int) (h : lo ≤ hi) :
    lo ≤ clip3 lo hi x ∧ clip3 lo hi x ≤ hi ∧
    ∀ y, lo ≤ y → y ≤ hi → (clip3 lo hi x - x).natAbs ≤ (y - x).natAbs := by
  unfold clip3
  refine ⟨?_, ?_, ?_⟩
  · repeat' split
    all_goals omega
  · repeat' split
    all_goals omega
  · intro y h1 h2
    repeat' split
    all_goals omega

/-- C11: an interval point is left alone. -/
theorem C11_clip3_id (lo hi x : Int) (h1 : lo ≤ x) (h2 : x ≤ hi) : clip3 lo hi x = x := by
  unfold clip3; rw [if_neg (by omega), if_neg (by omega)]

/-- C11, full statement for `Clip1`. -/
def C11_clip1_statement : Prop :=
  ∀ (x : Int) (bitDepth : Nat), 1 ≤ bitDepth → clip1 x bitDepth = clip3 0 (2 ^ bitDepth - 1) x

/-- C11 is false of the code for `Clip1`: `Clip1(200, 8)` is `2`. -/
theorem C11_clip1_refuted : ¬ C11_clip1_statement := by
  intro h
  have := h 200 8 (by decide)
  revert this
  decide

/-- C11, what holds: `Clip1` ignores the pixel and always returns `2` for bit depths above 1 — in
the pixel range, but not the clamped pixel. -/
theorem C11_clip1_partial (x : Int) (bitDepth : Nat) (h : 2 ≤ bitDepth) :
    clip1 x bitDepth = 2 ∧ 0 ≤ clip1 x bitDepth ∧ clip1 x bitDepth ≤ 2 ^ bitDepth - 1 := by
  have h2 : (2 : Int) ≤ 2 ^ (bitDepth - 1) := by
    have : (2 : Nat) ^ 1 ≤ 2 ^ (bitDepth - 1) := Nat.pow_le_pow_right (by decide) (by omega)
    exact_mod_cast this
  have h4 : (4 : Int) ≤ 2 ^ bitDepth := by
    have : (2 : Nat) ^ 2 ≤ 2 ^ bitDepth := Nat.pow_le_pow_right (by decide) (by omega)
    exact_mod_cast this
  have : clip1 x bitDepth = 2 := by
    unfold clip1 clip3
    rw [if_neg (by omega : ¬ bitDepth = 0), if_neg (by decide), if_neg (by omega)]
  rw [this]; omega

example : clip3 0 255 300 = 255 ∧ clip3 0 255 (-4) = 0 ∧ clip3 0 255 77 = 77 := by decide

/-! ## C12 recentring -/

/-- C12: `InverseRecenter(r, ·)` undoes the reference recentring on the non-negative integers. -/
theorem C12_inverseRecenter_roundtrip (r x : Int) (_hr : 0 ≤ r) (hx : 0 ≤ x) :
    inverseRecenter r (Spec.recenter r x) = x ∧ 0 ≤ Spec.recenter r x := by
  unfold inverseRecenter Spec.recenter
  simp only [Int.shiftRight_eq_div_pow]
  repeat' split
  all_goals first | omega | (simp; omega)

/-- C12: and conversely, every code is the recentring of the value it decodes to; the value is
non-negative.  With the round trip this makes the decoder a bijection. -/
theorem C12_recenter_inverse (r v : Int) (hr : 0 ≤ r) (hv : 0 ≤ v) :
    Spec.recenter r (inverseRecenter r v) = v ∧ 0 ≤ inverseRecenter r v := by
  unfold inverseRecenter Spec.recenter
  simp only [Int.shiftRight_eq_div_pow]
  repeat' split
  all_goals first | omega | (simp at *; omega)

/-- C12: decoding stays within a bound that is symmetric enough around the reference: if `r ≤ n/2`
style clipping holds (`v < n`, `2r < n`), so does the result. -/
theorem C12_inverseRecenter_range (r v n : Int) (hr : 0 ≤ r) (hv : 0 ≤ v) (hvn : v < n)
    (hrn : 2 * r < n) : 0 ≤ inverseRecenter r v ∧ inverseRecenter r v < n := by
  unfold inverseRecenter
  simp only [Int.shiftRight_eq_div_pow]
  repeat' split
  all_goals first | omega | (simp at *; omega)

example : inverseRecenter 5 3 = 3 ∧ Spec.recenter 5 3 = 3 ∧ inverseRecenter 5 4 = 7 := by decide

/-! ## C13 segment id deinterleaving -/

/-- C13 (first half): for every `ref < max` the map `diff ↦ NegDeinterleave(diff, ref, max)` sends
`[0, max)` into itself injectively — so distinct codes mean distinct segment ids. -/
theorem C13_negDeinterleave_injective (ref max d e : Int) (_hr : 0 ≤ ref) (hrm : ref < max)
    (hd : 0 ≤ d ∧ d < max) (he : 0 ≤ e ∧ e < max)
    (h : negDeinterleave d ref max = negDeinterleave e ref max) : d = e := by
  unfold negDeinterleave at h
  simp only [Int.shiftRight_eq_div_pow, Nat.pow_one] at h
  by_cases h1 : ref = 1
  · subst h1
    simp only [not_true, if_false] at h
    repeat' split at h
    all_goals omega
  · simpa [h1] using h

/-- C13 (first half): the range. -/
theorem C13_negDeinterleave_range (ref max d : Int) (_hr : 0 ≤ ref) (hrm : ref < max)
    (hd : 0 ≤ d ∧ d < max) : 0 ≤ negDeinterleave d ref max ∧ negDeinterleave d ref max < max := by
  unfold negDeinterleave
  simp only [Int.shiftRight_eq_div_pow, Nat.pow_one]
  by_cases h1 : ref = 1
  · subst h1
    simp only [not_true, if_false]
    repeat' split
    all_goals omega
  · simpa [h1] using hd

/-- C13 (second half), full statement: the code agrees with the AV1 mapping. -/
def C13_negDeinterleave_statement : Prop :=
  ∀ ref max d : Int, 0 ≤ ref → ref < max → 0 ≤ d → d < max →
    negDeinterleave d ref max = Spec.negDeinterleave d ref max

/-- C13 is false of the code: with `ref = 4, max = 8` the code `0` must mean segment 4, but decodes
to segment 0. -/
theorem C13_negDeinterleave_refuted : ¬ C13_negDeinterleave_statement := by
  intro h
  have := h 4 8 0 (by decide) (by decide) (by decide) (by decide)
  revert this; decide

/-- C13, what holds: agreement with AV1 for the predicted ids 0 and 1. -/
theorem C13_negDeinterleave_partial (ref max d : Int) (h01 : ref = 0 ∨ ref = 1) (hrm : ref < max)
    (_hd : 0 ≤ d ∧ d < max) : negDeinterleave d ref max = Spec.negDeinterleave d ref max := by
  unfold negDeinterleave Spec.negDeinterleave
  simp only [Int.shiftRight_eq_div_pow, Nat.pow_one]
  rcases h01 with rfl | rfl
  · simp
  · simp only [not_true, if_false]
    repeat' split
    all_goals omega

example : negDeinterleave 1 1 8 = 2 ∧ negDeinterleave 2 1 8 = 0 := by decide

/-! ## C14 sorting -/

theorem insertInt_perm (x : Int) (l : List Int) : (insertInt x l).Perm (x :: l) := by
  induction l with
  | nil => exact List.Perm.refl _
  | cons y ys ih =>
    unfold insertInt
    split
    · exact List.Perm.refl _
    · exact (ih.cons y).trans (List.Perm.swap x y ys)

theorem sortInts_perm (l : List Int) : (sortInts l).Perm l := by
  induction l with
  | nil => exact List.Perm.refl _
  | cons x xs ih => exact (insertInt_perm x _).trans (ih.cons x)

theorem insertInt_sorted (x : Int) (l : List Int) (h : l.Pairwise (· ≤ ·)) :
    (insertInt x l).Pairwise (· ≤ ·) := by
  induction l with
  | nil => simp [insertInt]
  | cons y ys ih =>
    unfold insertInt
    rw [List.pairwise_cons] at h
    split
    · rename_i hxy
      rw [List.pairwise_cons]
      refine ⟨?_, List.pairwise_cons.mpr h⟩
      intro z hz
      rcases List.mem_cons.mp hz with rfl | hz
      · exact hxy
      · have := h.1 z hz; omega
    · rename_i hxy
      rw [List.pairwise_cons]
      refine ⟨?_, ih h.2⟩
      intro z hz
      rcases List.mem_cons.mp ((insertInt_perm x ys).mem_iff.mp hz) with rfl | hz
      · omega
      · exact h.1 z hz

theorem sortInts_sorted (l : List Int) : (sortInts l).Pairwise (· ≤ ·) := by
  induction l with
  | nil => exact List.Pairwise.nil
  | cons x xs ih => exact insertInt_sorted x _ ih

/-- C14: `Sort(arr, i1, i2)` with in-range indices keeps everything outside `i1..i2` and replaces the
segment by a sorted permutation of itself. -/
theorem C14_sort_segment (arr : List Int) (i1 i2 : Nat) (h1 : i1 ≤ i2) (h2 : i2 < arr.length) :
    ∃ seg, sortSeg arr i1 i2 = .ok (arr.take i1 ++ seg ++ arr.drop (i2 + 1)) ∧
      seg.Perm ((arr.drop i1).take (i2 + 1 - i1)) ∧ seg.Pairwise (· ≤ ·) := by
  unfold sortSeg
  rw [if_neg (by omega)]
  have e1 : ((i1 : Int)).toNat = i1 := by omega
  have e2 : ((i2 : Int) + 1 - (i1 : Int)).toNat = i2 + 1 - i1 := by omega
  have e3 : i1 + (i2 + 1 - i1) = i2 + 1 := by omega
  simp only [e1, e2, e3]
  exact ⟨_, rfl, sortInts_perm _, sortInts_sorted _⟩

/-- C14: out-of-range indices panic. -/
theorem C14_sort_out_of_range (arr : List Int) (i1 i2 : Int) (h : (arr.length : Int) ≤ i2) :
    sortSeg arr i1 i2 = .error .index := by
  unfold sortSeg
  rw [if_pos (by omega)]

example : sortSeg [9, 5, 7, 3, 1] 1 3 = .ok [9, 3, 5, 7, 1] := by decide +kernel

/-! ## C15 trigonometry and bit reversal -/

/-- C15, full statement for `Cos128`: total, with cosine's half-period symmetry. -/
def C15_cos128_statement : Prop :=
  ∀ a : Int, ∃ c, cos128 a = .ok c ∧ cos128 (a + 128) = .ok (-c)

/-- C15 is false of the code: `Cos128(128)` panics. -/
theorem C15_cos128_refuted : ¬ C15_cos128_statement := by
  intro h
  obtain ⟨c, -, h2⟩ := h 0
  have : cos128 (0 + 128) = .error .index := by decide
  rw [this] at h2; cases h2

/-- C15, what holds: `Cos128` returns exactly on angles whose residue mod 256 is at most 64, and there
it is non-negative, at most 4096; on every other angle (191 of 256 residues) it panics. -/
theorem C15_cos128_partial (a : Int) :
    (a % 256 ≤ 64 → ∃ c, cos128 a = .ok c ∧ 0 ≤ c ∧ c ≤ 4096) ∧
    (64 < a % 256 → cos128 a = .error .index) := by
  have h0 : 0 ≤ a % 256 := Int.emod_nonneg _ (by decide)
  unfold cos128
  simp only
  rw [if_pos (Or.inl h0)]
  constructor
  · intro h
    obtain ⟨n, hn⟩ : ∃ n : Nat, a % 256 = n := ⟨(a % 256).toNat, by omega⟩
    rw [hn] at h ⊢
    have hb : n < 65 := by omega
    have key : ∀ n : Nat, n < 65 → ∃ c, goGet cos128Lookup (n : Int) = .ok c ∧ 0 ≤ c ∧ c ≤ 4096 := by
      have hall : ∀ c ∈ cos128Lookup, 0 ≤ c ∧ c ≤ 4096 := by decide +kernel
      intro n hn
      have hl : n < cos128Lookup.length := by simpa [cos128Lookup] using hn
      refine ⟨cos128Lookup[n], ?_, hall _ (List.getElem_mem _)⟩
      unfold goGet
      rw [if_neg (by omega), Int.toNat_natCast, List.getElem?_eq_getElem hl]
    exact key n hb
  · intro h
    unfold goGet
    have : cos128Lookup.length ≤ (a % 256).toNat := by
      have : cos128Lookup.length = 65 := rfl
      omega
    rw [if_neg (by omega), List.getElem?_eq_none this]

/-- C15, full statement for `Brev`. -/
def C15_brev_statement : Prop := ∀ n x : Nat, x < 2 ^ n → Spec.IsReversal n x (brev n x)

theorem brevLoop_eq (n x k i t : Nat) (h : i + k = n) :
    brevLoop n x k i t = t + ((x >>> 1) % 2) * (2 ^ k - 1) := by
  induction k generalizing i t with
  | zero => simp [brevLoop]
  | succ k ih =>
    have e : n - 1 - i = k := by omega
    have hp : 0 < 2 ^ k := Nat.two_pow_pos k
    rw [brevLoop, ih (i + 1) _ (by omega), Nat.shiftLeft_eq, e, Nat.add_assoc, ← Nat.mul_add,
      Nat.pow_succ]
    congr 2; omega

/-- C15: what `Brev` computes: bit 1 of `x` in all `n` positions. -/
theorem C15_brev_value (n x : Nat) : brev n x = if x.testBit 1 then 2 ^ n - 1 else 0 := by
  rw [brev, brevLoop_eq n x n 0 0 (by omega), shift_mod_two]
  cases x.testBit 1 <;> simp

/-- C15 is false of the code: `Brev(2, 1)` is `0` instead of `2`. -/
theorem C15_brev_refuted : ¬ C15_brev_statement := by
  intro h
  have := (h 2 1 (by decide)).2 1 (by decide)
  revert this; decide

/-- C15, what holds: `Brev(n, x)` is the reversal of `x` exactly when all `n` low bits of `x` equal
its bit 1. -/
theorem C15_brev_partial (n x : Nat) :
    Spec.IsReversal n x (brev n x) ↔ ∀ i, i < n → x.testBit i = x.testBit 1 := by
  rw [C15_brev_value]
  have hp := Nat.two_pow_pos n
  constructor
  · rintro ⟨-, h⟩ i hi
    have := h (n - 1 - i) (by omega)
    have e : n - 1 - (n - 1 - i) = i := by omega
    rw [e] at this
    rw [← this]
    split
    · rename_i h1; rw [h1, Nat.testBit_two_pow_sub_one]; simp; omega
    · rename_i h1; simp at h1; rw [h1]; simp
  · intro h
    refine ⟨by split <;> omega, ?_⟩
    intro i hi
    rw [h (n - 1 - i) (by omega)]
    split
    · rename_i h1; rw [h1, Nat.testBit_two_pow_sub_one]; simp; omega
    · rename_i h1; simp at h1; rw [h1]; simp

example : brev 3 7 = 7 ∧ brev 3 1 = 0 := by decide

end Gov1
