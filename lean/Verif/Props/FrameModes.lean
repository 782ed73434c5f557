import Verif.Spec.FrameHeader
import Verif.Lemmas.MapBM
import Verif.Model.FrameHeader
import Verif.Props.Util
import Mathlib.Tactic.Ring
/-! # C34, C35, C36, C70: skip mode, sub-exponential codes, film grain, order hint distance -/
namespace Gov1
open Spec

/-! ## C70: relative distance -/

/-- C70: with order hints enabled the relative distance is the signed distance of the two hints: it is
congruent to their difference modulo `2^bits` and lies in the window `[-2^(bits-1), 2^(bits-1))`. -/
theorem C70_relative_distance (bits : Nat) (hb : 1 ≤ bits) (a b : Int) :
    ∃ d, getRelativeDist true bits a b = .ok d ∧ IsRelDist bits a b d := by
  unfold getRelativeDist
  rw [if_neg (by simp), if_neg (by omega)]
  refine ⟨_, rfl, ?_⟩
  obtain ⟨k, rfl⟩ : ∃ k, bits = k + 1 := ⟨bits - 1, by omega⟩
  rw [Nat.add_sub_cancel]
  unfold IsRelDist
  rw [Nat.add_sub_cancel, Int.pow_succ]
  generalize hm : (2 : Int) ^ k = m
  have hpos : 0 < m := by rw [← hm]; exact Int.pow_pos (by omega)
  generalize a - b = x
  have e1 := Int.emod_add_mul_ediv x m
  have e2 := Int.emod_nonneg x (by omega : m ≠ 0)
  have e3 := Int.emod_lt_of_pos x hpos
  have e4 : x / m % 2 = 0 ∨ x / m % 2 = 1 := by omega
  have e5 := Int.emod_add_mul_ediv (x / m) 2
  refine ⟨⟨-(x / m / 2) - x / m % 2, ?_⟩, ?_, ?_⟩
  · have : m * (x / m) = m * (x / m % 2) + m * 2 * (x / m / 2) := by
      rw [Int.mul_assoc, ← Int.mul_add, e5]
    rw [Int.mul_sub, Int.mul_neg]
    have h7 : m * 2 * (x / m % 2) = m * (x / m % 2) + m * (x / m % 2) := by ring
    omega
  · rcases e4 with h | h <;> rw [h] <;> omega
  · rcases e4 with h | h <;> rw [h] <;> omega

/-- The distance is determined by that. -/
theorem C70_distance_unique (bits : Nat) (hb : 1 ≤ bits) (a b d e : Int) (hd : IsRelDist bits a b d)
    (he : IsRelDist bits a b e) : d = e := by
  obtain ⟨k, rfl⟩ : ∃ k, bits = k + 1 := ⟨bits - 1, by omega⟩
  obtain ⟨⟨x, h1⟩, h2, h3⟩ := hd
  obtain ⟨⟨y, h4⟩, h5, h6⟩ := he
  rw [Nat.add_sub_cancel] at h2 h3 h5 h6
  rw [Int.pow_succ] at h1 h4
  generalize (2 : Int) ^ k = m at *
  have h7 : d - e = m * 2 * (x - y) := by rw [Int.mul_sub]; omega
  have h8 : x - y = 0 := by
    rcases Int.lt_trichotomy (x - y) 0 with h | h | h
    · have : m * 2 * (x - y) ≤ m * 2 * (-1) := Int.mul_le_mul_of_nonneg_left (by omega) (by omega)
      omega
    · exact h
    · have : m * 2 * 1 ≤ m * 2 * (x - y) := Int.mul_le_mul_of_nonneg_left (by omega) (by omega)
      omega
  rw [h8] at h7; omega

example : getRelativeDist true 4 1 15 = .ok 2 ∧ getRelativeDist true 4 15 1 = .ok (-2) := by decide

/-- The sign bias claim: order hint `hint` is reported as being after the current frame iff it is. -/
def C70_sign_bias_statement : Prop :=
  ∀ (sh : SeqHeader) (roh : List Nat) (oh : Nat) (acc r : List Nat × List Bool) (idx : Nat),
    sh.enableOrderHint = true → 1 ≤ sh.orderHintBits →
    orderHintStep sh roh oh acc idx = .ok r →
    (r.2.getD 2 false = true ↔ Before sh.orderHintBits oh (roh.getD idx 0))

theorem orderHintStep_bias (sh : SeqHeader) (roh : List Nat) (oh : Nat) (acc : List Nat × List Bool)
    (hb : ∀ x ∈ acc.2, x = false) (idx : Nat) (r : List Nat × List Bool)
    (h : orderHintStep sh roh oh acc idx = .ok r) : ∀ x ∈ r.2, x = false := by
  unfold orderHintStep at h
  simp only [bind, Except.bind, pure, Except.pure] at h
  split at h
  · cases h
  split at h
  · cases h
  unfold getRelativeDist at h
  simp only [Bool.not_false, if_true] at h
  unfold goSet at h
  split at h
  · cases h
  rename_i _ heq
  split at heq
  · cases heq
  split at heq
  · cases heq
    cases h
    intro x hx
    rcases List.mem_or_eq_of_mem_set hx with h | h
    · exact hb x h
    · rw [h]; simp
  · cases heq

/-- C70 is false of the frame header: `EnableOrderHint` of the header is never assigned, so every
distance the header uses is 0 and no reference is ever reported to be after the current frame. -/
theorem C70_sign_bias_refuted : ¬ C70_sign_bias_statement := by
  intro h
  have := h { enableOrderHint := true, orderHintBits := 4 } [9, 0, 0, 0, 0, 0, 0, 0] 5
    (List.replicate 8 0, [false, false, false]) _ 0 rfl (by decide) rfl
  have h2 : Before 4 ((5 : Nat) : Int) ((9 : Nat) : Int) := ⟨-4, ⟨⟨0, by decide⟩, by decide, by decide⟩, by decide⟩
  exact absurd (this.mpr h2) (by decide)

/-- C70, what is true: the sign biases stay false whatever the reference hints. -/
theorem C70_sign_bias_partial (sh : SeqHeader) (roh : List Nat) (oh : Nat) (refs : List Nat)
    (acc : List Nat × List Bool) (hb : ∀ x ∈ acc.2, x = false) (r : List Nat × List Bool)
    (h : refs.foldlM (orderHintStep sh roh oh) acc = .ok r) : ∀ x ∈ r.2, x = false := by
  induction refs generalizing acc with
  | nil => cases h; exact hb
  | cons i refs ih =>
    rw [List.foldlM_cons] at h
    cases h1 : orderHintStep sh roh oh acc i with
    | error e => rw [h1] at h; cases h
    | ok p =>
      rw [h1] at h
      exact ih p (orderHintStep_bias sh roh oh acc hb i p h1) h

/-! ## C34: skip mode -/

theorem skipModeAllowed_false (bits : Nat) (fi rs : Bool) (oh : Int) (hints : List Int) :
    skipModeAllowed false bits fi rs oh hints = .ok false := by
  unfold skipModeAllowed
  split
  · rfl
  · have hs : ∀ (l : List (Nat × Int)) (s : SkipScan), l.foldlM (skipScanStep false bits oh) s = .ok s := by
      intro l
      induction l with
      | nil => intro s; rfl
      | cons x l ih =>
        intro s
        rw [List.foldlM_cons]
        have : skipScanStep false bits oh s x = .ok s := rfl
        rw [this]; exact ih s
    simp only [hs, bind, Except.bind]
    rfl

/-- C34: in every header the code parses (its `EnableOrderHint` field is never set) skip mode is never
offered: no bit is read and the flag is 0.  In particular it is offered only if AV1 allows it. -/
theorem C34_skip_mode_never (bits : Nat) (fi rs : Bool) (oh : Int) (hints : List Int) (s : BitStream) :
    skipModeParams false bits fi rs oh hints s = .ok (0, s) := by
  unfold skipModeParams
  rw [skipModeAllowed_false]
  rfl

/-- C34: with the field set the function would not offer it either. -/
theorem C34_skip_mode_enabled (bits : Nat) (fi rs : Bool) (oh : Int) (hints : List Int) (s : BitStream) :
    skipModeParams true bits fi rs oh hints s = .ok (0, s) := by
  unfold skipModeParams skipModeAllowed
  rw [if_pos (by simp)]
  rfl

/-- The other direction: where AV1 allows skip mode, its flag is read. -/
def C34_offered_statement : Prop :=
  ∀ (eoh fi rs : Bool) (bits : Nat) (oh : Int) (hints : List Int) (s : BitStream) (b : Bool) (rest : List Bool),
    SkipAllowed eoh fi rs bits oh hints → unread s = bit b ++ rest →
    skipModeParams eoh bits fi rs oh hints s = .ok (b.toNat, s.advance 1)

/-- C34 is false in the other direction: the condition is negated (`ReferenceSelect || EnableOrderHint`
where AV1 has `!reference_select || !enable_order_hint`). -/
theorem C34_offered_refuted : ¬ C34_offered_statement := by
  intro h
  have h1 := h true false true 4 5 [4, 6] ⟨[128], 0, 0⟩ true (List.replicate 7 false)
    ⟨rfl, rfl, rfl, 4, by simp, ⟨-1, ⟨⟨0, by decide⟩, by decide, by decide⟩, by decide⟩,
      Or.inl ⟨6, by simp, ⟨-1, ⟨⟨0, by decide⟩, by decide, by decide⟩, by decide⟩⟩⟩ rfl
  rw [C34_skip_mode_enabled] at h1
  cases h1

/-! ## C35: sub-exponential codes -/

theorem bucket_b2 (i : Nat) : (if i ≠ 0 then 3 + i - 1 else 3) = bucketBits i := by
  by_cases h : i = 0 <;> simp [bucketBits, h]

theorem bucket_lt (i : Nat) : bucketBits i < 2 ^ bucketBits i := Nat.lt_two_pow_self

theorem subexpLoop_good (n fuel i mk : Nat) (h : mk < n) (hf : n ≤ fuel + mk) :
    Good (subexpLoop n fuel i mk) (fuel + n) (fun v => (mk : Int) ≤ v ∧ v < n) := by
  induction fuel generalizing i mk with
  | zero => omega
  | succ fuel ih =>
    unfold subexpLoop
    rw [bucket_b2]; dsimp only; rw [Nat.one_shiftLeft]
    have hlt := bucket_lt i
    refine Good.ite (fun hc => ?_) fun hc => ?_
    · rw [show (n : Int) - (mk : Nat) = ((n - mk : Nat) : Int) by omega]
      have hlog : Nat.log2 (n - mk) < n - mk := (Nat.log2_lt (by omega)).mpr Nat.lt_two_pow_self
      refine Good.bind' (Nat.log2 (n - mk) + 1) 0 (Good.ns (n - mk) (by omega)) (fun v hv => ?_) (by omega)
      exact Good.pure (a := v + (mk : Int)) (by omega) _
    · refine Good.bind' 1 (fuel + n) Good.flag (fun m _ => ?_) (by omega)
      have hpos := Nat.two_pow_pos (bucketBits i)
      refine Good.ite (fun _ => ?_) fun _ => ?_
      · exact (ih (i + 1) (mk + 2 ^ bucketBits i) (by omega) (by omega)).mono (Nat.le_refl _)
          fun v hv => by omega
      · refine Good.bind' (bucketBits i) 0 (Good.F _) (fun v hv => ?_) (by omega)
        exact Good.pure (a := ((v + mk : Nat) : Int)) (by omega) _

/-- C35: the sub-exponential decoder returns on every stream with `2n` bits left, and whatever the bits
the value is in `[0, n)`. -/
theorem C35_subexp_range (n : Nat) (hn : 1 ≤ n) (s : BitStream) :
    (2 * n ≤ (unread s).length → ∃ v s', decodeSubexp n s = .ok (v, s')) ∧
    ∀ v s', decodeSubexp n s = .ok (v, s') → 0 ≤ v ∧ v < n := by
  have hG := subexpLoop_good n n 0 0 (by omega) (by omega)
  unfold decodeSubexp
  rw [Int.toNat_natCast]
  refine ⟨fun h => ?_, fun v s' h => by simpa using hG.2 s v s' h⟩
  obtain ⟨v, k, _, h2, _⟩ := hG.1 s (by omega)
  exact ⟨v, _, h2⟩

theorem subexpLoop_terminates (n fuel i mk : Nat) (h : mk < n) (hf : n ≤ fuel + mk) :
    Terminates (subexpLoop n fuel i mk) := by
  induction fuel generalizing i mk with
  | zero => omega
  | succ fuel ih =>
    unfold subexpLoop
    rw [bucket_b2]; dsimp only; rw [Nat.one_shiftLeft]
    have hpos := Nat.two_pow_pos (bucketBits i)
    split
    · refine Terminates.bind ?_ fun _ => Terminates.pure _
      rw [show (n : Int) - (mk : Nat) = ((n - mk : Nat) : Int) by omega]
      intro s hs
      rw [ns_eq _ (by omega)] at hs
      exact Terminates.bind (Terminates.F _) (fun _ => Terminates.ite (Terminates.pure _)
        (Terminates.bind (Terminates.F _) fun _ => Terminates.pure _)) s hs
    · refine Terminates.bind Terminates.flag fun m => ?_
      split
      · exact ih _ _ (by omega) (by omega)
      · exact Terminates.bind (Terminates.F _) fun _ => Terminates.pure _

/-- C35: and it terminates on every bit string, however short. -/
theorem C35_subexp_terminates (n : Nat) (hn : 1 ≤ n) (s : BitStream) :
    decodeSubexp n s ≠ .error .hang := by
  unfold decodeSubexp
  rw [Int.toNat_natCast]
  exact subexpLoop_terminates n n 0 0 (by omega) (by omega) s

theorem subexpLoop_reads (n fuel i mk v : Nat) (hv : v < n) (hm : mk ≤ v) (hf : n ≤ fuel + mk) :
    Reads (subexpLoop n fuel i mk) (encSubexpFrom n i mk v) v := by
  induction fuel generalizing i mk with
  | zero => omega
  | succ fuel ih =>
    unfold subexpLoop encSubexpFrom
    rw [bucket_b2]; dsimp only; rw [Nat.one_shiftLeft]
    have hpos := Nat.two_pow_pos (bucketBits i)
    by_cases hc : n ≤ mk + 3 * 2 ^ bucketBits i
    · rw [if_pos (by omega), if_pos hc]
      rw [show (n : Int) - (mk : Nat) = ((n - mk : Nat) : Int) by omega]
      have h1 : Reads (ns ((n - mk : Nat) : Int)) (encNs (n - mk) (v - mk)) ((v - mk : Nat) : Int) :=
        fun s rest hs => C03_ns_roundtrip (n - mk) (v - mk) (by omega) s rest hs
      have h2 := Reads.bindLast (f := fun x : Int => x + mk) h1
      rwa [show ((v - mk : Nat) : Int) + mk = v by omega] at h2
    · rw [if_neg (by omega), if_neg hc]
      by_cases hb : mk + 2 ^ bucketBits i ≤ v
      · rw [if_pos hb]
        refine Reads.bind (Reads.flag true) ?_
        rw [if_pos rfl]
        exact ih _ _ hb (by omega)
      · rw [if_neg hb]
        refine Reads.bind (Reads.flag false) ?_
        rw [if_neg (by decide)]
        have h2 := Reads.bindLast (f := fun x : Nat => ((x + mk : Nat) : Int))
          (Reads.F (n := bucketBits i) (v := v - mk) (by omega))
        rwa [show ((v - mk + mk : Nat) : Int) = v by omega] at h2

theorem subexp_reads (n v : Nat) (hv : v < n) : Reads (decodeSubexp n) (encSubexp n v) v := by
  unfold decodeSubexp encSubexp
  rw [Int.toNat_natCast]
  exact subexpLoop_reads n n 0 0 v hv (by omega) (by omega)

/-- C35: the decoder inverts the reference encoder for every value below the bound. -/
theorem C35_subexp_roundtrip (n v : Nat) (hv : v < n) (s : BitStream) (rest : List Bool)
    (h : unread s = encSubexp n v ++ rest) :
    decodeSubexp n s = .ok ((v : Int), s.advance (encSubexp n v).length) := subexp_reads n v hv s rest h

/-- C35: with a prediction `r` the value is in `[0, n)` whatever the bits. -/
theorem C35_withRef_range (n r : Nat) (hr : r < n) (s : BitStream) (v : Int) (s' : BitStream)
    (h : decodeSignedSubexpWithRef n r s = .ok (v, s')) : 0 ≤ v ∧ v < n := by
  unfold decodeSignedSubexpWithRef at h
  obtain ⟨x, s1, h1, h2⟩ := BM.bind_eq_ok.mp h
  have hx := (C35_subexp_range n (by omega) s).2 x s1 h1
  have hd := Int.shiftRight_eq_div_pow
  split at h2
  · cases h2
    unfold inverseRecenter
    simp only [Int.shiftRight_eq_div_pow]
    repeat' split
    all_goals omega
  · cases h2
    unfold inverseRecenter
    simp only [Int.shiftRight_eq_div_pow]
    repeat' split
    all_goals omega

/-- C35: and the decoder inverts the reference encoder with prediction. -/
theorem C35_withRef_roundtrip (n r v : Nat) (hr : r < n) (hv : v < n) (s : BitStream) (rest : List Bool)
    (h : unread s = encSubexpRef n r v ++ rest) :
    decodeSignedSubexpWithRef n r s = .ok ((v : Int), s.advance (encSubexpRef n r v).length) := by
  refine (?_ : Reads (decodeSignedSubexpWithRef n r) _ _) s rest h
  unfold decodeSignedSubexpWithRef encSubexpRef
  by_cases hc : 2 * r ≤ n
  · rw [if_pos hc]
    have h12 := C12_inverseRecenter_roundtrip r v (by omega) (by omega)
    have hlt : (recenter r v).toNat < n := by unfold recenter; repeat' split
                                              all_goals omega
    refine Reads.congr (Reads.bind (b2 := []) (subexp_reads n _ hlt) ?_) (List.append_nil _)
    rw [if_pos (by omega), Int.toNat_of_nonneg h12.2, h12.1]
    exact Reads.pure _
  · rw [if_neg hc]
    have h12 := C12_inverseRecenter_roundtrip (n - 1 - r) (n - 1 - v) (by omega) (by omega)
    have hlt : (recenter (n - 1 - r) (n - 1 - v)).toNat < n := by unfold recenter; repeat' split
                                                                  all_goals omega
    refine Reads.congr (Reads.bind (b2 := []) (subexp_reads n _ hlt) ?_) (List.append_nil _)
    rw [if_neg (by omega), Int.toNat_of_nonneg h12.2, h12.1]
    rw [show (n : Int) - 1 - (n - 1 - v) = v by omega]
    exact Reads.pure _

example : encSubexp 100 20 = [true, true, false, false, true, false, false] := by decide +kernel
example : (decodeSignedSubexpWithRef 100 60 ⟨[0xC8, 0], 0, 0⟩).map (fun p => (p.1, p.2.pos)) =
    .ok (50, 7) := by decide +kernel

end Gov1
