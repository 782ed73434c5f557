import Verif.Spec.Symbol
import Verif.Lemmas.Ensures
import Mathlib.Tactic.Ring
import Mathlib.Tactic.SplitIfs
import Mathlib.Tactic.Linarith
import Mathlib.Tactic.NormNum
import Mathlib.Tactic.Positivity
/-! # Helper lemmas about the symbol decoder (no property is stated here) -/
namespace Gov1
open Spec

theorem ishr (x : Int) (n : Nat) : x >>> n = x / 2 ^ n := by
  rw [Int.shiftRight_eq_div_pow]; norm_cast

theorem ishl (x : Int) (n : Nat) : x <<< n = x * 2 ^ n := by
  rw [Int.shiftLeft_eq]

theorem goGet_nat {α : Type} (xs : List α) (i : Nat) (h : i < xs.length) :
    goGet xs (i : Int) = .ok xs[i] := by
  unfold goGet
  rw [if_neg (by omega)]
  simp [h]

theorem getD_lt {α : Type} (xs : List α) (i : Nat) (d : α) (h : i < xs.length) :
    xs.getD i d = xs[i] := by simp [List.getD, h]

/-- What the symbol search finds: the first symbol whose lower end is at most `V`. -/
theorem symLoop_eq (R V : Int) (cdf : List Int) (k : Nat) (prev : Int)
    (hk : k < symbols cdf) (hlast : lowEnd R cdf (symbols cdf - 1) ≤ V)
    (hprev : prev = highEnd R cdf k) (hV : V < prev) :
    ∃ s, k ≤ s ∧ s < symbols cdf ∧ lowEnd R cdf s ≤ V ∧ V < highEnd R cdf s ∧
      symLoop R V (symbols cdf) (cdf.drop k) k prev
        = .ok (s, highEnd R cdf s, lowEnd R cdf s) := by
  induction h : symbols cdf - k generalizing k prev with
  | zero => omega
  | succ m ih =>
    have hlen : k < cdf.length := by simp only [symbols] at hk; omega
    have hcur : ((R >>> (8 : Nat)) * ((((1 <<< 15 : Nat) : Int) - cdf[k]) >>> (6 : Nat))) >>> (1 : Nat)
        + 4 * ((symbols cdf : Int) - k - 1) = lowEnd R cdf k := by
      have e15 : ((1 <<< 15 : Nat) : Int) = 2 ^ 15 := rfl
      simp only [ishr, lowEnd, getD_lt cdf k 0 hlen, e15]
      norm_num
    rw [List.drop_eq_getElem_cons hlen]
    unfold symLoop
    simp only [hcur]
    by_cases hc : lowEnd R cdf k ≤ V
    · rw [if_pos hc]
      exact ⟨k, le_refl _, hk, hc, hprev ▸ hV, by rw [hprev]⟩
    · rw [if_neg hc]
      have hk' : k + 1 < symbols cdf := by
        rcases Nat.lt_or_ge (k + 1) (symbols cdf) with h1 | h1
        · exact h1
        · have : k = symbols cdf - 1 := by omega
          rw [this] at hc; exact absurd hlast hc
      obtain ⟨s, h1, h2⟩ := ih (k + 1) (lowEnd R cdf k) hk' (by simp [highEnd]) (by omega) (by omega)
      exact ⟨s, by omega, h2⟩

/-- Zero extension and reading. -/
theorem padded_read (tl rest : List Bool) (b : Nat) (s : BitStream) (h : unread s = tl ++ rest) :
    F (min b tl.length) s = .ok (bitsVal (tl.take b), s.advance (min b tl.length)) := by
  have h' : unread s = tl.take b ++ (tl.drop b ++ rest) := by
    rw [← List.append_assoc, List.take_append_drop, h]
  have := F_append h'
  rwa [List.length_take] at this

theorem bitsVal_replicate (n : Nat) : bitsVal (List.replicate n false) = 0 := by
  induction n with
  | zero => rfl
  | succ n ih => simp [List.replicate_succ, bitsVal, ih]

theorem padBits_length (tl : List Bool) (b : Nat) : (padBits tl b).length = b := by
  simp [padBits]

theorem padBits_val (tl : List Bool) (b : Nat) :
    bitsVal (padBits tl b) = bitsVal (tl.take b) <<< (b - min b tl.length) := by
  rw [padBits, List.take_append, bitsVal_append, Nat.shiftLeft_eq, List.take_replicate,
    bitsVal_replicate]
  simp only [List.length_replicate, Nat.add_zero]
  congr 2
  omega

theorem padBits_add (tl : List Bool) (m n : Nat) :
    padBits tl (m + n) = padBits tl m ++ padBits (tl.drop m) n := by
  simp only [padBits]
  apply List.ext_getElem?
  intro i
  simp only [List.getElem?_take, List.getElem?_append, List.length_append, List.length_take,
    List.length_replicate, List.getElem?_drop, List.length_drop, List.getElem?_replicate]
  have e : min m (tl.length + m) = m := by omega
  rw [e]
  have e2 : m ≤ i → tl[m + (i - m)]? = tl[i]? := fun h => by congr 1; omega
  split_ifs <;> first | rfl | omega | (rw [e2 (by omega)])

theorem xor_low (p v b : Nat) (hp : p < 2 ^ b) :
    p ^^^ (((v + 1) <<< b) - 1) = v * 2 ^ b + (2 ^ b - 1 - p) := by
  have e : ((v + 1) <<< b) - 1 = v <<< b + (2 ^ b - 1) := by
    rw [Nat.shiftLeft_eq, Nat.shiftLeft_eq, Nat.add_mul]
    have := Nat.two_pow_pos b
    omega
  rw [e, ← Nat.shiftLeft_eq]
  have hlt : 2 ^ b - 1 - p < 2 ^ b := by have := Nat.two_pow_pos b; omega
  have hlt2 : 2 ^ b - 1 < 2 ^ b := by have := Nat.two_pow_pos b; omega
  apply Nat.eq_of_testBit_eq
  intro i
  rw [Nat.testBit_xor, Nat.shiftLeft_add_eq_or_of_lt hlt2, Nat.shiftLeft_add_eq_or_of_lt hlt,
    Nat.testBit_or, Nat.testBit_or, Nat.testBit_shiftLeft, Nat.testBit_two_pow_sub_one]
  by_cases hi : i < b
  · have hge : ¬ i ≥ b := by omega
    simp only [hge, decide_false, Bool.false_and, Bool.false_or, hi, decide_true]
    have := Nat.testBit_two_pow_sub_succ hp i
    rw [Nat.sub_sub, Nat.add_comm 1 p, this]
    simp [hi]
  · have hge : i ≥ b := by omega
    rw [Nat.testBit_lt_two_pow (lt_of_lt_of_le hp (Nat.pow_le_pow_right (by omega) hge)),
      Nat.testBit_lt_two_pow (lt_of_lt_of_le hlt (Nat.pow_le_pow_right (by omega) hge))]
    simp [hi]

/-! ## adaptation -/

theorem adaptLoop_eq (rate s : Nat) (k i : Nat) (tmp : Int) (cs : List Int)
    (htmp : tmp = if s < i then 2 ^ 15 else 0) (hk : k ≤ cs.length)
    (hc : ∀ j, j < k → 0 ≤ cs.getD j 0 ∧ cs.getD j 0 ≤ 2 ^ 15) :
    adaptLoop rate s k i tmp cs = cs.mapIdx fun j c =>
      if j < k then (if i + j < s then c - c / 2 ^ rate else c + (2 ^ 15 - c) / 2 ^ rate) else c := by
  induction k generalizing i tmp cs with
  | zero =>
    have : (cs.mapIdx fun _ c => c) = cs := by
      apply List.ext_getElem? ; intro j; simp
    cases cs with
    | nil => simp [adaptLoop]
    | cons c cs => unfold adaptLoop; simp only [Nat.not_lt_zero, if_false]; exact this.symm
  | succ k ih =>
    cases cs with
    | nil => simp [adaptLoop]
    | cons c cs =>
      unfold adaptLoop
      rw [List.mapIdx_cons]
      have h0 := hc 0 (by omega)
      simp at h0
      dsimp only
      refine congrArg₂ List.cons ?_ ?_
      · simp only [ishr, Nat.add_zero]
        rw [if_pos (show 0 < k + 1 by omega)]
        have e15 : ((1 <<< 15 : Nat) : Int) = 2 ^ 15 := rfl
        have hle : ¬ ((2 : Int) ^ 15 < c) := by omega
        rcases Nat.lt_trichotomy i s with h | h | h
        · rw [if_neg (show ¬ i = s by omega), htmp, if_neg (show ¬ s < i by omega), if_pos h]
          split
          · simp
          · have : c = 0 := by omega
            subst this; simp
        · rw [if_pos h, e15, if_neg hle, if_neg (show ¬ i < s by omega)]
        · rw [if_neg (show ¬ i = s by omega), htmp, if_pos h, if_neg hle,
            if_neg (show ¬ i < s by omega)]
      · rw [ih]
        · apply List.ext_getElem?
          intro j
          simp only [List.getElem?_mapIdx, Nat.add_lt_add_iff_right]
          congr 2
          funext c
          rw [show i + 1 + j = i + (j + 1) by omega]
        · have e15 : ((1 <<< 15 : Nat) : Int) = 2 ^ 15 := rfl
          rw [e15, htmp]
          by_cases h : i = s
          · rw [if_pos h, if_pos (by omega)]
          · rw [if_neg h]; congr 1; simp; omega
        · simpa using hk
        · intro j hj
          have := hc (j + 1) (by omega)
          simpa using this

theorem Spec.ValidCdf.entry {cdf : List Int} (h : ValidCdf cdf) {i : Nat} (hi : i < symbols cdf) :
    1 ≤ cdf.getD i 0 ∧ cdf.getD i 0 ≤ 2 ^ 15 := by
  have hl := h.len
  simp only [symbols] at hi
  have h1 := h.mono 0 i (by omega) (by omega)
  have h2 := h.mono i (cdf.length - 2) (by omega) (by omega)
  rw [h.last] at h2
  exact ⟨le_trans h.first h1, h2⟩

theorem adaptCdf_eq {cdf : List Int} (h : ValidCdf cdf) (s : Nat) :
    adaptCdf s cdf = .ok (adapted cdf s) := by
  have hl := h.len
  have hN : cdf.length - 1 < cdf.length := by omega
  unfold adaptCdf
  have hlg : floorLog2Int ((cdf.length - 1 : Nat) : Int) = .ok (Nat.log2 (symbols cdf) : Int) := by
    rw [floorLog2Int, if_neg (by omega)]
    simp only [Int.toNat_natCast]
    rw [floorLog2_eq _ (by omega)]
    rfl
  simp only [goGet_nat cdf _ hN, hlg, bind, Except.bind]
  have hrate : (3 + intOf (cdf[cdf.length - 1] > 15) + intOf (cdf[cdf.length - 1] > 31)
      + minI (Nat.log2 (symbols cdf) : Int) 2).toNat = adaptRate cdf := by
    simp only [adaptRate, symbols, getD_lt cdf _ 0 hN, intOf, minI, decide_eq_true_eq]
    split_ifs <;> omega
  rw [hrate]
  have := adaptLoop_eq (adaptRate cdf) s (cdf.length - 1 - 1) 0 0 cdf (by simp) (by omega)
    (fun j hj => by have := h.entry (i := j) (by simp only [symbols]; omega); omega)
  rw [this, goSet, if_neg (by omega)]
  simp only [Int.toNat_natCast, List.length_mapIdx, if_pos hN]
  congr 1
  apply List.ext_getElem?
  intro j
  simp only [List.getElem?_set, List.length_mapIdx, adapted, List.getElem?_mapIdx]
  have hsy : symbols cdf = cdf.length - 1 := rfl
  by_cases hj : cdf.length - 1 = j
  · subst hj
    rw [if_pos rfl, if_pos hN]
    simp only [List.getElem?_eq_getElem hN, Option.map_some]
    rw [if_neg (by omega), if_pos hsy.symm]
    simp only [intOf, decide_eq_true_eq]
    split <;> simp
  · rw [if_neg hj]
    congr 1
    funext c
    simp only [Nat.zero_add]
    have hj1 : (j < cdf.length - 1 - 1) = (j + 1 < symbols cdf) := by
      apply propext; omega
    simp only [hj1, if_neg (show ¬ j = symbols cdf by omega)]

@[simp] theorem adapted_length (cdf : List Int) (s : Nat) : (adapted cdf s).length = cdf.length := by
  simp [adapted]

theorem adapted_getD (cdf : List Int) (s i : Nat) (hi : i < cdf.length) :
    (adapted cdf s).getD i 0 =
    if i + 1 < symbols cdf then
      if i < s then cdf.getD i 0 - cdf.getD i 0 / 2 ^ adaptRate cdf
      else cdf.getD i 0 + (2 ^ 15 - cdf.getD i 0) / 2 ^ adaptRate cdf
    else if i = symbols cdf then (if cdf.getD i 0 < 32 then cdf.getD i 0 + 1 else cdf.getD i 0)
    else cdf.getD i 0 := by
  simp [adapted, List.getD, hi]

theorem div_le_self' (c : Int) (r : Nat) (h : 0 ≤ c) : 0 ≤ c / 2 ^ r ∧ c / 2 ^ r ≤ c :=
  ⟨Int.ediv_nonneg h (by positivity), Int.ediv_le_self _ h⟩

theorem decay_mono (a b : Int) (r : Nat) (h : a ≤ b) : a - a / 2 ^ r ≤ b - b / 2 ^ r := by
  have hp : (0 : Int) < 2 ^ r := by positivity
  have h1 := Int.emod_add_mul_ediv a (2 ^ r)
  have h2 := Int.emod_add_mul_ediv b (2 ^ r)
  have h3 := Int.emod_lt_of_pos a hp
  have h4 := Int.emod_nonneg b (ne_of_gt hp)
  have h5 := Int.ediv_le_ediv hp h
  by_cases h6 : a / 2 ^ r = b / 2 ^ r
  · omega
  · have h7 : b / 2 ^ r - a / 2 ^ r ≤ b - a := by
      have h8 : b / 2 ^ r ≤ (a + (b - a) * 2 ^ r) / 2 ^ r := by
        apply Int.ediv_le_ediv hp
        nlinarith
      rw [Int.add_mul_ediv_right _ _ (ne_of_gt hp)] at h8
      omega
    omega

theorem grow_mono (a b : Int) (r : Nat) (h : a ≤ b) :
    a + (2 ^ 15 - a) / 2 ^ r ≤ b + (2 ^ 15 - b) / 2 ^ r := by
  have := decay_mono (2 ^ 15 - b) (2 ^ 15 - a) r (by omega)
  omega

theorem adapted_valid {cdf : List Int} (h : ValidCdf cdf) (s : Nat) : ValidCdf (adapted cdf s) := by
  have hl := h.len
  have hsym : symbols cdf = cdf.length - 1 := rfl
  have hent := fun i hi => h.entry (i := i) hi
  have hr : 2 ≤ (2 : Int) ^ adaptRate cdf := by
    have : (2 : Int) ^ 1 ≤ 2 ^ adaptRate cdf := by
      apply pow_le_pow_right₀ (by norm_num)
      simp only [adaptRate]; omega
    simpa using this
  refine ⟨by simpa using hl, ?_, ?_, ?_, ?_⟩
  · rw [adapted_getD _ _ _ (by omega)]
    have he := hent 0 (by omega)
    split
    · split
      · have h1 : cdf.getD 0 0 / 2 ^ adaptRate cdf < cdf.getD 0 0 :=
          Int.ediv_lt_self_of_pos_of_ne_one (by omega) (by omega) 
        omega
      · have := div_le_self' (2 ^ 15 - cdf.getD 0 0) (adaptRate cdf) (by omega)
        omega
    · rw [if_neg (by omega)]; exact he.1
  · intro i j hij hj
    rw [adapted_length] at hj
    rw [adapted_getD _ _ i (by omega), adapted_getD _ _ j (by omega)]
    have hm := h.mono i j hij hj
    have hi1 := hent i (by omega)
    have hj1 := hent j (by omega)
    by_cases hj2 : j + 1 < symbols cdf
    · rw [if_pos (by omega : i + 1 < symbols cdf), if_pos hj2]
      by_cases h1 : i < s
      · rw [if_pos h1]
        by_cases h2 : j < s
        · rw [if_pos h2]; exact decay_mono _ _ _ hm
        · rw [if_neg h2]
          have := div_le_self' (cdf.getD i 0) (adaptRate cdf) (by omega)
          have := div_le_self' (2 ^ 15 - cdf.getD j 0) (adaptRate cdf) (by omega)
          omega
      · rw [if_neg h1, if_neg (by omega)]; exact grow_mono _ _ _ hm
    · rw [if_neg hj2, if_neg (by omega : ¬ j = symbols cdf)]
      have hjl : j = cdf.length - 2 := by omega
      have := h.last
      rw [← hjl] at this
      by_cases hi2 : i + 1 < symbols cdf
      · rw [if_pos hi2]
        have := div_le_self' (cdf.getD i 0) (adaptRate cdf) (by omega)
        have := div_le_self' (2 ^ 15 - cdf.getD i 0) (adaptRate cdf) (by omega)
        split <;> omega
      · rw [if_neg hi2, if_neg (by omega)]; exact hm
  · rw [adapted_length, adapted_getD _ _ _ (by omega), if_neg (by omega), if_neg (by omega)]
    exact h.last
  · rw [adapted_length, adapted_getD _ _ _ (by omega), if_neg (by omega), if_pos (by omega)]
    have := h.cnt
    split <;> omega

/-! ## one symbol -/

theorem lowEnd_last (R : Int) {cdf : List Int} (h : ValidCdf cdf) :
    lowEnd R cdf (symbols cdf - 1) = 0 := by
  have hl := h.len
  have hlast := h.last
  have e : symbols cdf - 1 = cdf.length - 2 := by simp only [symbols]; omega
  rw [lowEnd, e, hlast]
  simp only [symbols]
  have : ((cdf.length - 1 : Nat) : Int) - ((cdf.length - 2 : Nat) : Int) - 1 = 0 := by omega
  rw [this]; simp

theorem lowEnd_mono (R : Int) {cdf : List Int} (h : ValidCdf cdf) (hR : 0 ≤ R) {i j : Nat}
    (hij : i < j) (hj : j < symbols cdf) : lowEnd R cdf j + 4 ≤ lowEnd R cdf i := by
  have hm := h.mono i j (by omega) (by simp only [symbols] at hj; omega)
  have h1 : (2 ^ 15 - cdf.getD j 0) / 64 ≤ (2 ^ 15 - cdf.getD i 0) / 64 :=
    Int.ediv_le_ediv (by norm_num) (by omega)
  have h2 : R / 256 * ((2 ^ 15 - cdf.getD j 0) / 64) ≤ R / 256 * ((2 ^ 15 - cdf.getD i 0) / 64) :=
    mul_le_mul_of_nonneg_left h1 (by omega)
  simp only [lowEnd]
  omega

theorem lowEnd_nonneg (R : Int) {cdf : List Int} (h : ValidCdf cdf) (hR : 0 ≤ R) {i : Nat}
    (hi : i < symbols cdf) : 0 ≤ lowEnd R cdf i := by
  have h0 := lowEnd_last R h
  rcases Nat.lt_or_ge i (symbols cdf - 1) with h1 | h1
  · have := lowEnd_mono R h hR h1 (by omega); omega
  · have : i = symbols cdf - 1 := by omega
    rw [this, h0]

theorem lowEnd_lt_range (R : Int) {cdf : List Int} (h : ValidCdf cdf) (hR : 2 ^ 15 ≤ R) {i : Nat}
    (hi : i < symbols cdf) : lowEnd R cdf i < R := by
  have h0 : lowEnd R cdf 0 < R := by
    have he := h.entry (i := 0) (by omega)
    have hl := h.len
    have h1 : (2 ^ 15 - cdf.getD 0 0) / 64 ≤ 511 := by omega
    have h2 : R / 256 * ((2 ^ 15 - cdf.getD 0 0) / 64) ≤ R / 256 * 511 :=
      mul_le_mul_of_nonneg_left h1 (by omega)
    simp only [lowEnd, symbols]
    omega
  rcases Nat.eq_zero_or_pos i with h1 | h1
  · rw [h1]; exact h0
  · have := lowEnd_mono R h (by omega) h1 hi
    omega

theorem low_lt_high (R : Int) {cdf : List Int} (h : ValidCdf cdf) (hR : 2 ^ 15 ≤ R) {i : Nat}
    (hi : i < symbols cdf) : lowEnd R cdf i < highEnd R cdf i := by
  unfold highEnd
  split
  · exact lowEnd_lt_range R h hR hi
  · have := lowEnd_mono R h (by omega) (show i - 1 < i by omega) hi
    omega

theorem high_le_range (R : Int) {cdf : List Int} (h : ValidCdf cdf) (hR : 2 ^ 15 ≤ R) {i : Nat}
    (hi : i < symbols cdf) : highEnd R cdf i ≤ R := by
  unfold highEnd
  split
  · exact le_refl _
  · exact le_of_lt (lowEnd_lt_range R h hR (by omega))

/-- Only one symbol's sub-interval contains `V`. -/
theorem symbol_unique (R V : Int) {cdf : List Int} (h : ValidCdf cdf) (hR : 0 ≤ R) {i j : Nat}
    (hi : i < symbols cdf) (hj : j < symbols cdf)
    (h1 : lowEnd R cdf i ≤ V) (h2 : V < highEnd R cdf i)
    (h3 : lowEnd R cdf j ≤ V) (h4 : V < highEnd R cdf j) : i = j := by
  by_contra hne
  rcases Nat.lt_or_gt_of_ne hne with hlt | hlt
  · simp only [highEnd] at h4
    rw [if_neg (by omega)] at h4
    rcases Nat.eq_or_lt_of_le (show i ≤ j - 1 by omega) with e | e
    · rw [e] at h1; omega
    · have := lowEnd_mono R h hR e (by omega); omega
  · simp only [highEnd] at h2
    rw [if_neg (by omega)] at h2
    rcases Nat.eq_or_lt_of_le (show j ≤ i - 1 by omega) with e | e
    · rw [e] at h3; omega
    · have := lowEnd_mono R h hR e (by omega); omega

/-- Renormalisation: shifting a width in `(0, 2^16)` by `15 - log2` puts it in `[2^15, 2^16)`. -/
theorem renorm {w : Int} (h0 : 0 < w) (h1 : w < 2 ^ 16) :
    2 ^ 15 ≤ w * 2 ^ (15 - Nat.log2 w.toNat) ∧ w * 2 ^ (15 - Nat.log2 w.toNat) < 2 ^ 16 ∧
    Nat.log2 w.toNat ≤ 15 := by
  obtain ⟨n, rfl⟩ : ∃ n : Nat, w = n := ⟨w.toNat, by omega⟩
  simp only [Int.toNat_natCast]
  have hn : n ≠ 0 := by omega
  have hl : n.log2 ≤ 15 := by
    have : n.log2 < 16 := (Nat.log2_lt hn).mpr (by exact_mod_cast h1)
    omega
  have h2 : 2 ^ n.log2 ≤ n := Nat.log2_self_le hn
  have h3 : n < 2 ^ (n.log2 + 1) := Nat.lt_log2_self
  refine ⟨?_, ?_, hl⟩
  · have : 2 ^ n.log2 * 2 ^ (15 - n.log2) ≤ n * 2 ^ (15 - n.log2) := Nat.mul_le_mul_right _ h2
    rw [← Nat.pow_add, show n.log2 + (15 - n.log2) = 15 by omega] at this
    exact_mod_cast this
  · have : n * 2 ^ (15 - n.log2) < 2 ^ (n.log2 + 1) * 2 ^ (15 - n.log2) :=
      Nat.mul_lt_mul_of_pos_right h3 (Nat.two_pow_pos _)
    rw [← Nat.pow_add, show n.log2 + 1 + (15 - n.log2) = 16 by omega] at this
    exact_mod_cast this

/-- Decoder state invariant. -/
def SymInv (st : Sym) : Prop :=
  2 ^ 15 ≤ st.range ∧ st.range < 2 ^ 16 ∧ 0 ≤ st.value ∧ st.value < st.range

/-- The state after a symbol with the given interval, when the next tile bits are `tl`. -/
def symNext (st : Sym) (lo hi : Int) (tl : List Bool) : Sym :=
  let b := 15 - Nat.log2 (hi - lo).toNat
  { range := (hi - lo) * 2 ^ b
    value := (st.value - lo) * 2 ^ b + (2 ^ b - 1 - bitsVal (padBits tl b))
    maxBits := st.maxBits - b }

theorem symNext_inv {st : Sym} {lo hi : Int} (tl : List Bool) (h1 : lo ≤ st.value)
    (h2 : st.value < hi) (h3 : hi - lo < 2 ^ 16) : SymInv (symNext st lo hi tl) := by
  have hr := renorm (w := hi - lo) (by omega) h3
  have hb := bitsVal_lt (padBits tl (15 - Nat.log2 (hi - lo).toNat))
  rw [padBits_length] at hb
  simp only [SymInv, symNext]
  generalize 15 - Nat.log2 (hi - lo).toNat = b at *
  have hb' : (bitsVal (padBits tl b) : Int) < 2 ^ b := by exact_mod_cast hb
  have hp : (0 : Int) < 2 ^ b := by positivity
  have h4 : 0 ≤ (st.value - lo) * 2 ^ b := mul_nonneg (by omega) (by omega)
  have h5 : (st.value - lo + 1) * 2 ^ b ≤ (hi - lo) * 2 ^ b :=
    mul_le_mul_of_nonneg_right (by omega) (by omega)
  rw [add_mul] at h5
  refine ⟨hr.1, hr.2.1, by omega, by omega⟩

/-- The read part of `readSymbol`: everything is determined by the search result. -/
theorem readSymbol_aux (disable : Bool) {cdf : List Int} {st : Sym} (h : ValidCdf cdf)
    (hi : SymInv st) :
    ∃ s, s < symbols cdf ∧ lowEnd st.range cdf s ≤ st.value ∧ st.value < highEnd st.range cdf s ∧
      ∀ bs, readSymbol disable cdf st bs =
        match F (min (15 - Nat.log2 (highEnd st.range cdf s - lowEnd st.range cdf s).toNat)
            st.maxBits.toNat) bs with
        | .error e => .error e
        | .ok (v, bs') =>
          let lo := lowEnd st.range cdf s
          let w := highEnd st.range cdf s - lo
          let b := 15 - Nat.log2 w.toNat
          .ok ((s, (if disable then cdf else adapted cdf s),
            { range := w * 2 ^ b
              value := ((v <<< (b - min b st.maxBits.toNat) ^^^
                ((((st.value - lo).toNat + 1) <<< b) - 1) : Nat) : Int)
              maxBits := st.maxBits - b }), bs') := by
  have hl := h.len
  have hN : 0 < symbols cdf := by simp only [symbols]; omega
  have hlast0 := lowEnd_last st.range h
  obtain ⟨hr1, hr2, hv1, hv2⟩ := hi
  obtain ⟨s, -, hs, hlo, hhi, hloop⟩ := symLoop_eq st.range st.value cdf 0 st.range hN
    (by rw [hlast0]; exact hv1) (by simp [highEnd]) hv2
  refine ⟨s, hs, hlo, hhi, ?_⟩
  intro bs
  have hle := high_le_range st.range h hr1 hs
  have hlon := lowEnd_nonneg st.range h (by omega) hs
  generalize hlo' : lowEnd st.range cdf s = lo at *
  generalize hhi' : highEnd st.range cdf s = hi at *
  have hre := renorm (w := hi - lo) (by omega) (by omega)
  have hget : goGet cdf ((cdf.length : Int) - 1 - 1) = .ok ((1 <<< 15 : Nat) : Int) := by
    have e : (cdf.length : Int) - 1 - 1 = ((cdf.length - 2 : Nat) : Int) := by omega
    rw [e, goGet_nat _ _ (by omega)]
    have := h.last
    rw [getD_lt _ _ _ (by omega)] at this
    rw [this]; rfl
  have hlg : floorLog2Int (hi - lo) = .ok (Nat.log2 (hi - lo).toNat : Int) := by
    rw [floorLog2Int, if_neg (by omega), floorLog2_eq _ (by omega)]
  have hsymN : ((cdf.length : Int) - 1).toNat = symbols cdf := by simp only [symbols]; omega
  unfold readSymbol
  have hN1 : ¬ ((cdf.length : Int) - 1 < 1) := by omega
  simp only [hN1, if_false, hget, BM.lift_ok, BM.pure_bind, ne_eq, not_true_eq_false, hsymN]
  rw [List.drop_zero] at hloop
  rw [hloop]
  simp only [BM.lift_ok, BM.pure_bind, hlg]
  have hb : ¬ ((15 : Int) - (Nat.log2 (hi - lo).toNat : Int) < 0) := by omega
  simp only [hb, if_false]
  have eb : (15 - ((Nat.log2 (hi - lo).toNat : Nat) : Int)).toNat = 15 - Nat.log2 (hi - lo).toNat := by
    omega
  have eb' : (15 : Int) - ((Nat.log2 (hi - lo).toNat : Nat) : Int)
      = ((15 - Nat.log2 (hi - lo).toNat : Nat) : Int) := by omega
  rw [eb, eb']
  generalize 15 - Nat.log2 (hi - lo).toNat = b
  have emin : (minI (b : Int) (maxI 0 st.maxBits)).toNat = min b st.maxBits.toNat := by
    simp only [minI, maxI]; split <;> split <;> omega
  have emin2 : ((b : Int) - minI (b : Int) (maxI 0 st.maxBits)).toNat = b - min b st.maxBits.toNat := by
    simp only [minI, maxI]; split <;> split <;> omega
  rw [emin, emin2, BM.bind_apply]
  cases F (min b st.maxBits.toNat) bs with
  | error e => rfl
  | ok p =>
    obtain ⟨v, bs'⟩ := p
    dsimp only
    rw [adaptCdf_eq h, ishl]
    cases disable <;> rfl

/-- `readSymbol` when the bits left in the tile are known. -/
theorem readSymbol_ok (disable : Bool) {cdf : List Int} {st : Sym} (h : ValidCdf cdf)
    (hi : SymInv st) {bs : BitStream} {tl rest : List Bool} (hbs : unread bs = tl ++ rest)
    (htl : tl.length = st.maxBits.toNat) :
    ∃ s, s < symbols cdf ∧ lowEnd st.range cdf s ≤ st.value ∧ st.value < highEnd st.range cdf s ∧
      readSymbol disable cdf st bs =
        .ok ((s, (if disable then cdf else adapted cdf s),
          symNext st (lowEnd st.range cdf s) (highEnd st.range cdf s) tl),
          bs.advance (min (15 - Nat.log2 (highEnd st.range cdf s - lowEnd st.range cdf s).toNat)
            tl.length)) := by
  obtain ⟨s, hs, hlo, hhi, heq⟩ := readSymbol_aux disable h hi
  refine ⟨s, hs, hlo, hhi, ?_⟩
  rw [heq bs, ← htl, padded_read tl rest _ bs hbs]
  dsimp only
  congr 2
  simp only [symNext, Prod.mk.injEq, true_and, Sym.mk.injEq, and_true]
  generalize hb : 15 - Nat.log2 (highEnd st.range cdf s - lowEnd st.range cdf s).toNat = b
  have hlt := bitsVal_lt (padBits tl b)
  rw [padBits_length] at hlt
  rw [← padBits_val, xor_low _ _ _ hlt]
  push_cast
  rw [Int.toNat_of_nonneg (by omega), Nat.sub_sub, Nat.cast_sub (by omega)]
  push_cast
  ring

end Gov1
