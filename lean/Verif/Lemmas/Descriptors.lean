import Verif.Lemmas.BitStream
import Verif.Lemmas.Streaming
/-! # Helper lemmas for the descriptor properties -/
namespace Gov1

theorem and_two_pow_ne_zero (v k : Nat) : ((v &&& 2 ^ k) != 0) = v.testBit k := by
  have h : (v &&& 2 ^ k) = (v.testBit k).toNat * 2 ^ k := by
    apply Nat.eq_of_testBit_eq
    intro i
    rw [Nat.testBit_and, Nat.testBit_two_pow]
    by_cases hik : k = i
    · subst hik; cases v.testBit k <;> simp
    · cases v.testBit k <;> simp [hik]
  rw [h]
  have := Nat.two_pow_pos k
  cases v.testBit k <;> simp

theorem testBit_top {v k : Nat} (h : v < 2 ^ (k + 1)) : v.testBit k = decide (2 ^ k ≤ v) := by
  rw [Nat.testBit_eq_decide_div_mod_eq]
  rw [Nat.pow_succ] at h
  by_cases hk : 2 ^ k ≤ v
  · have : v / 2 ^ k = 1 := by
      apply Nat.div_eq_of_lt_le <;> omega
    simp [this, hk]
  · have : v / 2 ^ k = 0 := Nat.div_eq_of_lt (by omega)
    simp [this, hk]

theorem suSignMask_succ (k : Nat) : suSignMask (k + 1) = 2 ^ k := by
  simp [suSignMask, Nat.shiftLeft_eq]

theorem su_of_F {n v : Nat} {s s' : BitStream} (h : F (n + 1) s = .ok (v, s')) (hv : v < 2 ^ (n + 1)) :
    su (n + 1) s = .ok ((if 2 ^ n ≤ v then (v : Int) - 2 ^ (n + 1) else v), s') := by
  rw [su, BM.bind_ok h, suSignMask_succ, and_two_pow_ne_zero, testBit_top hv]
  by_cases hk : 2 ^ n ≤ v
  · simp [hk, Int.pow_succ, Int.mul_comm]
  · simp [hk]

theorem encNs_length (n v : Nat) (_hn : 0 < n) :
    (encNs n v).length = if v < 2 ^ (Nat.log2 n + 1) - n then Nat.log2 n else Nat.log2 n + 1 := by
  simp only [encNs]; split <;> simp

theorem ns_eq (n : Nat) (hn : 0 < n) (s : BitStream) :
    ns n s = (F (Nat.log2 n) >>= fun v =>
      if v < 2 ^ (Nat.log2 n + 1) - n then pure (v : Int)
      else F 1 >>= fun e => pure ((2 * v : Nat) - ((2 ^ (Nat.log2 n + 1) - n : Nat) : Int) + e)) s := by
  have hlt : n < 2 ^ (Nat.log2 n + 1) := Nat.lt_log2_self
  have h0 : floorLog2Int (n : Int) = .ok (Nat.log2 n : Int) := by
    unfold floorLog2Int
    rw [if_neg (by omega)]
    simp [floorLog2_eq n hn]
  unfold ns
  rw [h0]
  simp only [BM.lift_ok, BM.pure_bind]
  have hw : ((Nat.log2 n : Int) + 1).toNat = Nat.log2 n + 1 := by omega
  rw [hw, Nat.add_sub_cancel, Nat.one_shiftLeft]
  rw [BM.bind_apply, BM.bind_apply]
  congr 1
  funext v s'
  have hm : ((2 ^ (Nat.log2 n + 1) : Nat) : Int) - (n : Int) = ((2 ^ (Nat.log2 n + 1) - n : Nat) : Int) := by
    omega
  rw [hm]
  by_cases hv : v < 2 ^ (Nat.log2 n + 1) - n
  · rw [if_pos (by exact_mod_cast hv), if_pos hv]
  · rw [if_neg (by exact_mod_cast hv), if_neg hv]
    simp only [Nat.shiftLeft_eq, Nat.pow_one, Nat.mul_comm]

theorem trailingBits_eq (nb : Int) (s : BitStream) :
    trailingBits nb s = if 1 + (nb - 1).toNat ≤ (unread s).length
      then .ok ((), s.advance (1 + (nb - 1).toNat)) else .error .index := by
  unfold trailingBits
  rw [BM.bind_apply, F_eq]
  by_cases h1 : 1 ≤ (unread s).length
  · rw [if_pos h1]
    dsimp only
    rw [BM.bind_apply, F_eq, unread_advance, List.length_drop]
    by_cases h2 : (nb - 1).toNat ≤ (unread s).length - 1
    · rw [if_pos h2, if_pos (by omega)]; simp
    · rw [if_neg h2, if_neg (by omega)]
  · rw [if_neg h1, if_neg (by omega)]

theorem and_7 (x : Nat) : x &&& 7 = x % 8 := Nat.and_two_pow_sub_one_eq_mod x 3

theorem byteAlignLoop_eq (k : Nat) (s : BitStream) (d : Nat) (hd : (s.pos + d) % 8 = 0) (hd8 : d < 8)
    (hk : d < k) :
    byteAlignLoop k s = if d ≤ (unread s).length then .ok ((), s.advance d) else .error .index := by
  induction k generalizing s d with
  | zero => omega
  | succ k ih =>
    unfold byteAlignLoop
    rw [BM.getPos_bind, and_7]
    cases d with
    | zero => simp at hd; simp [hd]
    | succ d =>
      have : s.pos % 8 ≠ 0 := by omega
      rw [if_pos (by simpa using this), BM.bind_apply, F_eq]
      by_cases h1 : 1 ≤ (unread s).length
      · rw [if_pos h1]
        dsimp only
        rw [ih (s.advance 1) d (by simp; omega) (by omega) (by omega)]
        rw [unread_advance, List.length_drop]
        by_cases h2 : d ≤ (unread s).length - 1
        · rw [if_pos h2, if_pos (by omega), advance_advance, Nat.add_comm]
        · rw [if_neg h2, if_neg (by omega)]
      · rw [if_neg h1, if_neg (by omega)]

theorem zeros_split (l : List Bool) :
    (∃ k rest, l = List.replicate k false ++ true :: rest) ∨ l = List.replicate l.length false := by
  induction l with
  | nil => right; rfl
  | cons b l ih =>
    cases b with
    | true => left; exact ⟨0, l, rfl⟩
    | false =>
      rcases ih with ⟨k, rest, h⟩ | h
      · left; exact ⟨k + 1, rest, by rw [h]; simp [List.replicate_succ]⟩
      · right; rw [List.length_cons, List.replicate_succ, ← h]

theorem lebLoop_bound (k i value : Nat) (s s' : BitStream) (v : Nat) (hval : value < 2 ^ (i * 7))
    (h : lebLoop k i value s = .ok (v, s')) :
    v < 2 ^ ((i + k) * 7) ∧ s'.pos ≤ s.pos + 8 * k ∧ s'.pos = s.pos + 8 * (s'.leb - s.leb) ∧
      s.leb ≤ s'.leb := by
  induction k generalizing i value s with
  | zero =>
    simp [lebLoop] at h
    obtain ⟨rfl, rfl⟩ := h
    simpa using hval
  | succ k ih =>
    rw [lebLoop] at h
    obtain ⟨b, s1, h1, h2⟩ := BM.bind_eq_ok.mp h
    rw [F_eq] at h1
    split at h1
    · cases h1
      simp only [BM.getLeb_bind, setLeb_bind] at h2
      rw [and_7f, or_shift_eq_add _ _ _ hval] at h2
      generalize bitsVal ((unread s).take 8) = b at h2
      have e3 : 2 ^ ((i + 1) * 7) = 128 * 2 ^ (i * 7) := by
        rw [Nat.add_mul, Nat.pow_add, Nat.mul_comm]
      have hval' : value + b % 128 * 2 ^ (i * 7) < 2 ^ ((i + 1) * 7) := by
        rw [e3]
        have h1 : b % 128 * 2 ^ (i * 7) ≤ 127 * 2 ^ (i * 7) := Nat.mul_le_mul_right _ (by omega)
        omega
      split at h2
      · obtain ⟨g1, g2, g3, g4⟩ := ih _ _ _ hval' h2
        simp at g2 g3 g4
        refine ⟨?_, by omega, by omega, by omega⟩
        have : i + (k + 1) = i + 1 + k := by omega
        rw [this]; exact g1
      · simp at h2
        obtain ⟨rfl, rfl⟩ := h2
        refine ⟨?_, by simp; omega, by simp, by simp⟩
        refine Nat.lt_of_lt_of_le hval' (Nat.pow_le_pow_right (by decide) ?_)
        apply Nat.mul_le_mul_right; omega
    · cases h1

theorem lebLoop_leb_le (k i value : Nat) (s s' : BitStream) (v : Nat)
    (h : lebLoop k i value s = .ok (v, s')) : s'.leb ≤ s.leb + k := by
  induction k generalizing i value s with
  | zero => simp [lebLoop] at h; obtain ⟨-, rfl⟩ := h; simp
  | succ k ih =>
    rw [lebLoop] at h
    obtain ⟨b, s1, h1, h2⟩ := BM.bind_eq_ok.mp h
    rw [F_eq] at h1
    split at h1
    · cases h1
      simp only [BM.getLeb_bind, setLeb_bind] at h2
      split at h2
      · have := ih _ _ _ h2; simp at this; omega
      · simp at h2; obtain ⟨-, rfl⟩ := h2; simp
    · cases h1

theorem uvlc_fuel (s : BitStream) (k : Nat) (rest : List Bool)
    (h : unread s = List.replicate k false ++ true :: rest) : k < 8 * s.data.length + 1 := by
  have h1 := unread_length s
  rw [h] at h1; simp at h1; omega

end Gov1
