import Verif.Model.Mv
import Verif.Spec.Mv
import Verif.Props.ModeInfo
import Verif.Props.IntraInfo
/-!
# C57, C130-C133: motion vector arithmetic
-/
namespace Gov1
open Spec

/-! ## Reading a difference -/

theorem or3 (d : Nat) {fr hp : Nat} (hf : fr < 4) (hh : hp < 2) : (d <<< 3) ||| (fr <<< 1) ||| hp = 8 * d + 2 * fr + hp := by
  have h1 : fr <<< 1 ||| hp = fr <<< 1 + hp := (Nat.shiftLeft_add_eq_or_of_lt (by omega) fr).symm
  have h2 : fr <<< 1 = 2 * fr := by rw [Nat.shiftLeft_eq]; omega
  rw [Nat.or_assoc, h1, h2, ← Nat.shiftLeft_add_eq_or_of_lt (by omega) d, Nat.shiftLeft_eq]
  omega

/-- What the decoder makes of the whole pixels within a class. -/
def mvSeen (x : Nat) : Nat := if x = 0 then 0 else 2

theorem two_or_two (d : Nat) : d ||| 2 ||| 2 = d ||| 2 := by rw [Nat.or_assoc]; rfl

theorem mvBits_says (k : Fin 4) {ctx comp : Int} (hc : 0 ≤ ctx ∧ ctx < 2) (hk : 0 ≤ comp ∧ comp < 2) (n : Nat) : ∀ (i d x : Nat), i + n ≤ 10 →
    (mvBits ctx comp n i d).Says (cdfLayout k) (bitsLsb n x) (d ||| mvSeen (x % 2 ^ n)) := by
  have info : ∀ k, cdfInfo k "MvBit" = some ([2, 2], .box [10], 2) := by decide +kernel
  induction n with
  | zero =>
    intro i d x _
    rw [Nat.pow_zero, Nat.mod_one]
    show (Rd.ret d).Says _ [] _
    simpa [mvSeen] using Rd.Says.ret d
  | succ n ih =>
    intro i d x hi
    have hcnt : (cdfLayout k).count "MvBit" [ctx, comp, (i : Int)] = some 2 := by
      rw [count_eq k (info k)]
      have : (i : Int) < 10 := by omega
      simp [stripPre, ravel, Dims.ravel, hc, hk, this]
    have := Rd.Says.bind (f := fun b => mvBits ctx comp n (i + 1) (d ||| (b <<< 1))) (Rd.Says.read hcnt (Nat.mod_lt x (by decide : 2 > 0)))
      (ih (i + 1) (d ||| ((x % 2) <<< 1)) (x / 2) (by omega))
    have e : d ||| ((x % 2) <<< 1) ||| mvSeen (x / 2 % 2 ^ n) = d ||| mvSeen (x % 2 ^ (n + 1)) := by
      have hm : x % 2 ^ (n + 1) = x % 2 + 2 * (x / 2 % 2 ^ n) := by rw [Nat.pow_succ', Nat.mod_mul]
      rw [hm, Nat.or_assoc]
      congr 1
      unfold mvSeen
      rcases Nat.mod_two_eq_zero_or_one x with h | h <;> rw [h]
      · by_cases h' : x / 2 % 2 ^ n = 0
        · rw [h']; rfl
        · rw [if_neg h', if_neg (by omega)]; rfl
      · by_cases h' : x / 2 % 2 ^ n = 0
        · rw [h']; rfl
        · rw [if_neg h', if_neg (by omega)]; rfl
    rw [e] at this
    exact this

theorem mvFr_says (k : Fin 4) (h : MvHdr) {t : String} {idx : List Int} (hc : (cdfLayout k).count t idx = some 4) {z : Nat}
    (hz : h.forceInteger = true → z = 3) (hz4 : z < 4) : (mvFr h t idx).Says (cdfLayout k) (if h.forceInteger then [] else [z]) z := by
  unfold mvFr
  split
  · rename_i hf; rw [hz hf]; exact Rd.Says.ret 3
  · exact Rd.Says.read hc hz4

theorem mvHp_says (k : Fin 4) (h : MvHdr) {t : String} {idx : List Int} (hc : (cdfLayout k).count t idx = some 2) {z : Nat}
    (hz : h.highPrecision = false → z = 1) (hz2 : z < 2) : (mvHp h t idx).Says (cdfLayout k) (if h.highPrecision then [z] else []) z := by
  unfold mvHp
  split
  · exact Rd.Says.read hc hz2
  · rename_i hf; rw [hz (by simpa using hf)]; exact Rd.Says.ret 1

theorem mvClass_facts {v : Int} (h1 : 16 < v.natAbs) (h2 : v.natAbs ≤ 2 ^ 14) :
    1 ≤ mvClass v ∧ mvClass v ≤ 10 ∧ 2 ^ (mvClass v + 3) ≤ v.natAbs - 1 ∧ v.natAbs - 1 < 2 ^ (mvClass v + 4) ∧ mvOffset v < 2 ^ mvClass v := by
  obtain ⟨l1, l2⟩ := log2_bounds (x := v.natAbs - 1) (by omega)
  have hlo : 4 ≤ Nat.log2 (v.natAbs - 1) := by
    rcases Nat.lt_or_ge (Nat.log2 (v.natAbs - 1)) 4 with h | h
    · have := Nat.pow_le_pow_right (n := 2) (by decide) (show Nat.log2 (v.natAbs - 1) + 1 ≤ 4 by omega)
      omega
    · exact h
  have hhi : Nat.log2 (v.natAbs - 1) ≤ 13 := by
    rcases Nat.lt_or_ge 13 (Nat.log2 (v.natAbs - 1)) with h | h
    · have := Nat.pow_le_pow_right (n := 2) (by decide) (show 14 ≤ Nat.log2 (v.natAbs - 1) by omega)
      omega
    · exact h
  have hc : mvClass v + 3 = Nat.log2 (v.natAbs - 1) := by unfold mvClass; rw [if_neg (by omega)]; omega
  rw [show mvClass v + 4 = Nat.log2 (v.natAbs - 1) + 1 by omega, hc]
  refine ⟨by omega, by omega, l1, l2, ?_⟩
  unfold mvOffset
  rw [if_neg (by omega), hc]
  have hp : 2 ^ Nat.log2 (v.natAbs - 1) = 8 * 2 ^ mvClass v := by rw [← hc, Nat.pow_add]; omega
  rw [Nat.pow_succ] at l2
  omega

/-- The size that the decoder returns for a component. -/
def mvSize (v : Int) : Nat :=
  if v.natAbs ≤ 16 then v.natAbs else 2 ^ (mvClass v + 3) + 8 * mvSeen (mvOffset v) + (v.natAbs - 1) % 8 + 1

theorem mvSize_eq_iff {v : Int} (h2 : v.natAbs ≤ 2 ^ 14) : mvSize v = v.natAbs ↔ v.natAbs ≤ 16 ∨ mvOffset v = 0 ∨ mvOffset v = 2 := by
  unfold mvSize
  split
  · rename_i h; simp [h]
  · rename_i h
    obtain ⟨c1, c2, c3, c4, c5⟩ := mvClass_facts (v := v) (by omega) h2
    have ho : mvOffset v = (v.natAbs - 1 - 2 ^ (mvClass v + 3)) / 8 := by unfold mvOffset; rw [if_neg h]
    have hp : 2 ^ (mvClass v + 3) = 8 * 2 ^ mvClass v := by rw [Nat.pow_add]; omega
    unfold mvSeen
    split <;> omega

theorem mv_counts (k : Fin 4) {ctx comp : Int} (hc : 0 ≤ ctx ∧ ctx < 2) (hk : 0 ≤ comp ∧ comp < 2) :
    (cdfLayout k).count "MvSign" [ctx, comp] = some 2 ∧ (cdfLayout k).count "MvClass" [ctx, comp] = some 11 ∧
    (cdfLayout k).count "MvClass0Bit" [ctx, comp] = some 2 ∧ (cdfLayout k).count "MvClass0Hp" [ctx, comp] = some 2 ∧
    (cdfLayout k).count "MvFr" [ctx, comp] = some 4 ∧ (cdfLayout k).count "MvHp" [ctx, comp] = some 2 ∧
    (∀ b : Nat, b < 2 → (cdfLayout k).count "MvClass0Fr" [ctx, comp, (b : Int)] = some 4) ∧
    (∀ b : Nat, b < 10 → (cdfLayout k).count "MvBit" [ctx, comp, (b : Int)] = some 2) ∧
    (cdfLayout k).count "MvJoint" [ctx] = some 4 := by
  have i : ∀ k, cdfInfo k "MvSign" = some ([2, 2], .box [], 2) ∧ cdfInfo k "MvClass" = some ([2], .box [2], 11) ∧
      cdfInfo k "MvClass0Bit" = some ([2, 2], .box [], 2) ∧ cdfInfo k "MvClass0Hp" = some ([2, 2], .box [], 2) ∧
      cdfInfo k "MvFr" = some ([2], .box [2], 4) := by decide +kernel
  have j : ∀ k, cdfInfo k "MvHp" = some ([2, 2], .box [], 2) ∧
      cdfInfo k "MvClass0Fr" = some ([2], .box [2, 2], 4) ∧ cdfInfo k "MvBit" = some ([2, 2], .box [10], 2) ∧
      cdfInfo k "MvJoint" = some ([2], .box [], 4) := by decide +kernel
  obtain ⟨i1, i2, i3, i4, i5⟩ := i k
  obtain ⟨i6, i7, i8, i9⟩ := j k
  refine ⟨?_, ?_, ?_, ?_, ?_, ?_, fun b hb => ?_, fun b hb => ?_, ?_⟩
  · rw [count_eq k i1]; simp [stripPre, ravel, Dims.ravel, hc, hk]
  · rw [count_eq k i2]; simp [stripPre, ravel, Dims.ravel, hc, hk]
  · rw [count_eq k i3]; simp [stripPre, ravel, Dims.ravel, hc, hk]
  · rw [count_eq k i4]; simp [stripPre, ravel, Dims.ravel, hc, hk]
  · rw [count_eq k i5]; simp [stripPre, ravel, Dims.ravel, hc, hk]
  · rw [count_eq k i6]; simp [stripPre, ravel, Dims.ravel, hc, hk]
  · rw [count_eq k i7]
    have : (b : Int) < 2 := by omega
    simp [stripPre, ravel, Dims.ravel, hc, hk, this]
  · rw [count_eq k i8]
    have : (b : Int) < 10 := by omega
    simp [stripPre, ravel, Dims.ravel, hc, hk, this]
  · rw [count_eq k i9]; simp [stripPre, ravel, Dims.ravel, hc]

/-- On AV1's code of a component the decoder returns its sign and `mvSize`. -/
theorem readMvComponent_says (k : Fin 4) (h : MvHdr) {ctx comp : Int} (hc : 0 ≤ ctx ∧ ctx < 2) (hk : 0 ≤ comp ∧ comp < 2) {v : Int}
    (hv : mvCodable h.forceInteger h.highPrecision v) :
    (readMvComponent h ctx comp).Says (cdfLayout k) (mvCompCode h.forceInteger h.highPrecision v) (if v < 0 then -(mvSize v : Int) else (mvSize v : Int)) := by
  obtain ⟨s1, s2, s3, s4, s5, s6, s7, -, -⟩ := mv_counts k hc hk
  obtain ⟨h0, h14, heven, height⟩ := hv
  have hz1 : h.highPrecision = false → (v.natAbs - 1) % 2 = 1 := fun e => by have := heven e; omega
  have hz3 : h.forceInteger = true → (v.natAbs - 1) % 8 / 2 = 3 := fun e => by have := height e; omega
  unfold readMvComponent mvCompCode
  refine Rd.Says.bind (m := [if v < 0 then 1 else 0]) (Rd.Says.read s1 (by split <;> decide)) ?_
  refine Rd.Says.bind (m := [mvClass v]) (Rd.Says.read s2 ?_) ?_
  · by_cases hs : v.natAbs ≤ 16
    · unfold mvClass; rw [if_pos hs]; decide
    · have := (mvClass_facts (v := v) (by omega) h14).2.1; omega
  have hm : (readMvMag h ctx comp (mvClass v)).Says (cdfLayout k) ((if v.natAbs ≤ 16 then [mvOffset v] else bitsLsb (mvClass v) (mvOffset v)) ++
    ((if h.forceInteger then [] else [(v.natAbs - 1) % 8 / 2]) ++ (if h.highPrecision then [(v.natAbs - 1) % 2] else []))) (mvSize v) := by
    by_cases hs : v.natAbs ≤ 16
    · have hcl : mvClass v = 0 := by unfold mvClass; rw [if_pos hs]
      have hof : mvOffset v = (v.natAbs - 1) / 8 := by unfold mvOffset; rw [if_pos hs]
      unfold readMvMag
      rw [if_pos hcl, if_pos hs]
      refine Rd.Says.bind (m := [mvOffset v]) (Rd.Says.read s3 (by omega)) ?_
      refine Rd.Says.bind (mvFr_says k h (s7 _ (by omega)) hz3 (by omega)) ?_
      have := Rd.Says.bind (f := fun hp => (pure (((mvOffset v <<< 3) ||| (((v.natAbs - 1) % 8 / 2) <<< 1) ||| hp) + 1) : Rd Nat))
        (mvHp_says k h s4 hz1 (by omega)) (m' := []) (Rd.Says.ret _)
      rw [List.append_nil, or3 _ (by omega) (by omega)] at this
      have e : 8 * mvOffset v + 2 * ((v.natAbs - 1) % 8 / 2) + (v.natAbs - 1) % 2 + 1 = mvSize v := by
        unfold mvSize; rw [if_pos hs]; omega
      rw [e] at this
      exact this
    · obtain ⟨c1, c2, c3, c4, c5⟩ := mvClass_facts (v := v) (by omega) h14
      unfold readMvMag
      rw [if_neg (show ¬ mvClass v = 0 by omega), if_neg hs]
      refine Rd.Says.bind (mvBits_says k hc hk (mvClass v) 0 0 (mvOffset v) (by omega)) ?_
      refine Rd.Says.bind (mvFr_says k h s5 hz3 (by omega)) ?_
      rw [Nat.mod_eq_of_lt c5, Nat.zero_or]
      have := Rd.Says.bind (f := fun hp => (pure ((2 <<< (mvClass v + 2)) + (((mvSeen (mvOffset v) <<< 3) ||| (((v.natAbs - 1) % 8 / 2) <<< 1) ||| hp) + 1)) : Rd Nat))
        (mvHp_says k h s6 hz1 (by omega)) (m' := []) (Rd.Says.ret _)
      rw [List.append_nil, or3 _ (by omega) (by omega)] at this
      have e : 2 <<< (mvClass v + 2) + (8 * mvSeen (mvOffset v) + 2 * ((v.natAbs - 1) % 8 / 2) + (v.natAbs - 1) % 2 + 1) = mvSize v := by
        unfold mvSize
        rw [if_neg hs, Nat.shiftLeft_eq, ← Nat.pow_succ']
        show 2 ^ (mvClass v + 3) + _ = _
        omega
      rw [e] at this
      exact this
  have := Rd.Says.bind (f := fun (mag : Nat) => (pure (if (if v < 0 then 1 else 0) ≠ 0 then -(mag : Int) else (mag : Int)) : Rd Int)) hm (m' := []) (Rd.Says.ret _)
  rw [List.append_nil] at this
  by_cases hn : v < 0
  · simp only [hn, if_true] at this ⊢; exact this
  · simp only [hn, if_false] at this ⊢; exact this

/-- **C57, what holds (short differences).**  On AV1's code of a component of up to 2 pixels the decoder returns exactly that component. -/
theorem C57_short_partial (k : Fin 4) (h : MvHdr) {ctx comp : Int} (hc : 0 ≤ ctx ∧ ctx < 2) (hk : 0 ≤ comp ∧ comp < 2) {v : Int}
    (hv : mvCodable h.forceInteger h.highPrecision v) (hs : v.natAbs ≤ 16 ∨ mvOffset v = 0 ∨ mvOffset v = 2) :
    (readMvComponent h ctx comp).Says (cdfLayout k) (mvCompCode h.forceInteger h.highPrecision v) v := by
  have := readMvComponent_says k h hc hk hv
  rw [(mvSize_eq_iff hv.2.1).mpr hs] at this
  have e : (if v < 0 then -(v.natAbs : Int) else (v.natAbs : Int)) = v := by split <;> omega
  rwa [e] at this

/-- **C57, refuted (long differences).**  Of longer components the decoder keeps only whether any of the bits of whole pixels is set: on
AV1's code of a component of more than 2 pixels whose whole pixels within its class are neither 0 nor 2 it returns another component. -/
theorem C57_long_refuted (k : Fin 4) (h : MvHdr) {ctx comp : Int} (hc : 0 ≤ ctx ∧ ctx < 2) (hk : 0 ≤ comp ∧ comp < 2) {v : Int}
    (hv : mvCodable h.forceInteger h.highPrecision v) (hl : 16 < v.natAbs) (h0 : mvOffset v ≠ 0) (h2 : mvOffset v ≠ 2) :
    ∃ v', v' ≠ v ∧ (readMvComponent h ctx comp).Says (cdfLayout k) (mvCompCode h.forceInteger h.highPrecision v) v' := by
  refine ⟨_, fun e => ?_, readMvComponent_says k h hc hk hv⟩
  have : ¬ mvSize v = v.natAbs := fun e' => by
    rcases (mvSize_eq_iff hv.2.1).mp e' with h | h | h
    · omega
    · exact h0 h
    · exact h2 h
  apply this
  split at e <;> omega

/-- 26 pixels: code, and the 18 pixels the decoder reads. -/
example : mvCodable false true 208 ∧ mvOffset 208 = 9 ∧ mvCompCode false true 208 = [0, 4, 1, 0, 0, 1, 3, 1] ∧
    ((readMvComponent { highPrecision := true } 0 1).run (cdfLayout 2) [0, 4, 1, 0, 0, 1, 3, 1, 7]).toOption = some (152, [7]) := by
  refine ⟨⟨by decide, by decide, fun h => (by cases h), fun h => (by cases h)⟩, ?_⟩
  decide +kernel

/-- **C57, what holds (vectors).**  On AV1's code of a difference of up to 2 pixels per component the decoder adds exactly that difference
to the prediction. -/
theorem C57_vector_partial (k : Fin 4) (h : MvHdr) (intrabc : Bool) (pred d : Int × Int)
    (h1 : d.1 ≠ 0 → mvCodable h.forceInteger h.highPrecision d.1) (h2 : d.2 ≠ 0 → mvCodable h.forceInteger h.highPrecision d.2)
    (s1 : d.1.natAbs ≤ 16) (s2 : d.2.natAbs ≤ 16) :
    (readMv h intrabc pred).Says (cdfLayout k) (mvCode h.forceInteger h.highPrecision d) (pred.1 + d.1, pred.2 + d.2) := by
  have hc : (0 : Int) ≤ (if intrabc then 1 else 0) ∧ (if intrabc then (1 : Int) else 0) < 2 := by cases intrabc <;> decide
  have part : ∀ (on : Bool) (comp x : Int), (0 ≤ comp ∧ comp < 2) → (on = true ↔ x ≠ 0) → (x ≠ 0 → mvCodable h.forceInteger h.highPrecision x) → x.natAbs ≤ 16 →
      (mvDiffPart on h (if intrabc then 1 else 0) comp).Says (cdfLayout k) (if x ≠ 0 then mvCompCode h.forceInteger h.highPrecision x else []) x := by
    intro on comp x hk hon hx hs
    unfold mvDiffPart
    by_cases hx0 : x ≠ 0
    · rw [if_pos (hon.mpr hx0), if_pos hx0]
      exact C57_short_partial k h hc hk (hx hx0) (Or.inl hs)
    · have : ¬ on = true := fun h' => hx0 (hon.mp h')
      rw [if_neg this, if_neg hx0, show x = 0 by omega]
      exact Rd.Says.ret 0
  unfold readMv mvCode
  dsimp only
  refine Rd.Says.bind (m := [(if d.1 ≠ 0 then 2 else 0) + (if d.2 ≠ 0 then 1 else 0)])
    (Rd.Says.read (mv_counts k hc (comp := 0) (by decide)).2.2.2.2.2.2.2.2 (by split <;> split <;> decide)) ?_
  refine Rd.Says.bind (part _ 0 d.1 (by decide) ?_ h1 s1) ?_
  · by_cases a : d.1 = 0 <;> by_cases b : d.2 = 0 <;> simp [a, b]
  have := Rd.Says.bind (f := fun c => (pure (pred.1 + d.1, pred.2 + c) : Rd MVec)) (part
    (((if d.1 ≠ 0 then 2 else 0) + (if d.2 ≠ 0 then 1 else 0)) == 1 || ((if d.1 ≠ 0 then 2 else 0) + (if d.2 ≠ 0 then 1 else 0)) == 3) 1 d.2 (by decide) ?_ h2 s2) (m' := []) (Rd.Says.ret _)
  · rw [List.append_nil] at this
    exact this
  · by_cases a : d.1 = 0 <;> by_cases b : d.2 = 0 <;> simp [a, b]

example : mvCode false false (-6, 16) = [3, 1, 0, 0, 2, 0, 0, 1, 3] := by decide +kernel

theorem mvBits_wlp {L : Layout} (hL : ∀ c d i, L.count "MvBit" [c, d, i] = some 2 ∨ L.count "MvBit" [c, d, i] = none) {ctx comp : Int} (n : Nat) :
    ∀ (i d : Nat), d = 0 ∨ d = 2 → (mvBits ctx comp n i d).Wlp L (fun r => r = 0 ∨ r = 2) := by
  induction n with
  | zero => intro i d hd; exact hd
  | succ n ih =>
    intro i d hd m hm s hs
    refine ih (i + 1) _ ?_
    have hs2 : s < 2 := by
      rcases hL ctx comp i with h | h
      · rw [h] at hm; cases hm; exact hs
      · rw [h] at hm; cases hm
    have : s = 0 ∨ s = 1 := by omega
    rcases hd with rfl | rfl <;> rcases this with rfl | rfl <;> decide

/-- **C57, refuted (which differences exist).**  Whatever the replies are, the decoder never returns a component of more than 2 pixels whose
whole pixels within its class are neither 0 nor 2. -/
theorem C57_unreachable_refuted (k : Fin 4) (h : MvHdr) (ctx comp : Int) {v : Int} (hl : 16 < v.natAbs) (h0 : mvOffset v ≠ 0)
    (h2 : mvOffset v ≠ 2) (msg rest : List Nat) : (readMvComponent h ctx comp).run (cdfLayout k) msg ≠ .ok (v, rest) := by
  have hcount : ∀ (t : String) (pre : List Nat) (ds : Dims) (n : Nat), cdfInfo k t = some (pre, ds, n) → ∀ idx, (cdfLayout k).count t idx = some n ∨ (cdfLayout k).count t idx = none := by
    intro t pre ds n hi idx
    rw [count_eq k hi]
    cases stripPre pre idx with
    | none => exact Or.inr rfl
    | some is =>
      cases hr : ds.ravel is with
      | none => right; simp [hr]
      | some _ => left; simp [hr]
  have i : ∀ k, cdfInfo k "MvClass0Bit" = some ([2, 2], .box [], 2) ∧ cdfInfo k "MvClass0Hp" = some ([2, 2], .box [], 2) ∧
      cdfInfo k "MvFr" = some ([2], .box [2], 4) ∧ cdfInfo k "MvHp" = some ([2, 2], .box [], 2) ∧
      cdfInfo k "MvClass0Fr" = some ([2], .box [2, 2], 4) ∧ cdfInfo k "MvBit" = some ([2, 2], .box [10], 2) := by decide +kernel
  obtain ⟨i3, i4, i5, i6, i7, i8⟩ := i k
  have lt : ∀ {t : String} {idx : List Int} {n m : Nat}, ((cdfLayout k).count t idx = some n ∨ (cdfLayout k).count t idx = none) → (cdfLayout k).count t idx = some m → m = n := by
    intro t idx n m hn hm
    rcases hn with h | h <;> rw [h] at hm <;> cases hm
    rfl
  have hfr : ∀ t idx, ((cdfLayout k).count t idx = some 4 ∨ (cdfLayout k).count t idx = none) → (mvFr h t idx).Wlp (cdfLayout k) (fun r => r < 4) := by
    intro t idx hn
    unfold mvFr
    split
    · exact (by decide : 3 < 4)
    · intro m hm s hs
      have := lt hn hm
      show s < 4
      omega
  have hhp : ∀ t idx, ((cdfLayout k).count t idx = some 2 ∨ (cdfLayout k).count t idx = none) → (mvHp h t idx).Wlp (cdfLayout k) (fun r => r < 2) := by
    intro t idx hn
    unfold mvHp
    split
    · intro m hm s hs
      have := lt hn hm
      show s < 2
      omega
    · exact (by decide : 1 < 2)
  have w : (readMvComponent h ctx comp).Wlp (cdfLayout k) (fun r => r.natAbs ≤ 16 ∨ ∃ c d z, 1 ≤ c ∧ (d = 0 ∨ d = 2) ∧ z < 8 ∧ r.natAbs = 2 ^ (c + 3) + 8 * d + z + 1) := by
    unfold readMvComponent
    refine wlp_skip _ fun sign => wlp_skip _ fun cls => ?_
    have wm : (readMvMag h ctx comp cls).Wlp (cdfLayout k) (fun r => r ≤ 16 ∨ ∃ c d z, 1 ≤ c ∧ (d = 0 ∨ d = 2) ∧ z < 8 ∧ r = 2 ^ (c + 3) + 8 * d + z + 1) := by
      unfold readMvMag
      split
      · intro m hm b hb
        have hb2 := lt (hcount _ _ _ _ i3 _) hm
        show ((mvFr h "MvClass0Fr" [ctx, comp, (b : Int)]) >>= fun fr => mvHp h "MvClass0Hp" [ctx, comp] >>= fun hp =>
          (pure (((b <<< 3) ||| (fr <<< 1) ||| hp) + 1) : Rd Nat)).Wlp _ _
        refine Rd.Wlp.bind ((hfr _ _ (hcount _ _ _ _ i7 _)).mono fun fr hf => ?_)
        refine Rd.Wlp.bind ((hhp _ _ (hcount _ _ _ _ i4 _)).mono fun hp hh => ?_)
        left
        rw [or3 _ hf hh]
        omega
      · refine Rd.Wlp.bind ((mvBits_wlp (fun c d i => hcount _ _ _ _ i8 _) cls 0 0 (Or.inl rfl)).mono fun d hd => ?_)
        refine Rd.Wlp.bind ((hfr _ _ (hcount _ _ _ _ i5 _)).mono fun fr hf => ?_)
        refine Rd.Wlp.bind ((hhp _ _ (hcount _ _ _ _ i6 _)).mono fun hp hh => ?_)
        right
        refine ⟨cls, d, 2 * fr + hp, by omega, hd, by omega, ?_⟩
        rw [or3 _ hf hh, Nat.shiftLeft_eq, ← Nat.pow_succ']
        show 2 ^ (cls + 3) + _ = _
        omega
    refine Rd.Wlp.bind (wm.mono fun mag hmag => ?_)
    have e : (if sign ≠ 0 then -(mag : Int) else (mag : Int)).natAbs = mag := by split <;> omega
    show (if sign ≠ 0 then -(mag : Int) else (mag : Int)).natAbs ≤ 16 ∨ _
    rw [e]
    exact hmag
  intro e
  rcases w.of_run e with hw | ⟨c, d, z, hc1, hd, hz, hv⟩
  · omega
  · -- the class of such a size is `c`, its offset is `d`
    by_cases hc2 : d = 2 ∧ c = 1
    · -- class 1 has no offset 2: the size is the least of class 2
      obtain ⟨rfl, rfl⟩ := hc2
      have hsz : v.natAbs - 1 = 32 + z := by omega
      have hlog : Nat.log2 (v.natAbs - 1) = 5 := by
        rw [hsz]
        interval_cases z <;> decide
      have : mvOffset v = 0 := by
        unfold mvOffset mvClass
        rw [if_neg (by omega), if_neg (by omega), hlog, hsz]
        show (32 + z - 2 ^ 5) / 8 = 0
        omega
      exact h0 this
    · have hsz : v.natAbs - 1 = 2 ^ (c + 3) + 8 * d + z := by omega
      have hpc : 2 ^ (c + 3) = 8 * 2 ^ c := by rw [Nat.pow_add]; omega
      have hdc : d < 2 ^ c := by
        rcases hd with rfl | rfl
        · exact Nat.two_pow_pos c
        · have : 2 ≤ c := by omega
          have := Nat.pow_le_pow_right (n := 2) (by decide) this
          omega
      have hlog : Nat.log2 (v.natAbs - 1) = c + 3 := by
        have h16 : 2 ^ (c + 3 + 1) = 16 * 2 ^ c := by rw [show c + 3 + 1 = c + 4 by omega, Nat.pow_add]; omega
        rw [Nat.log2_eq_iff (by omega), h16]
        omega
      have : mvOffset v = d := by
        unfold mvOffset mvClass
        rw [if_neg (by omega), if_neg (by omega), hlog, show c + 3 - 3 + 3 = c + 3 by omega]
        omega
      rcases hd with rfl | rfl
      · exact h0 this
      · exact h2 this

/-! ## Clamping -/

/-- **C57 (clamping).**  The clamped component keeps the block at most `border` outside the frame, and a component that does so already is
not changed.  The borders of the decoder (`128 + 8` times the size of the block) meet the hypothesis. -/
theorem C57_clamp (total pos n4 : Nat) (border mv : Int) (hb : 32 * (n4 : Int) ≤ 32 * total + 2 * border) :
    -border ≤ 32 * (pos : Int) + clampMv total pos n4 border mv ∧ 32 * ((pos : Int) + n4) + clampMv total pos n4 border mv ≤ 32 * total + border ∧
    (-border ≤ 32 * (pos : Int) + mv → 32 * ((pos : Int) + n4) + mv ≤ 32 * total + border → clampMv total pos n4 border mv = mv) := by
  unfold clampMv
  rw [clip3_eq _ _ _ (by omega)]
  omega

example : (32 * ((16 : Nat) : Int) ≤ 32 * (90 : Nat) + 2 * (128 + 64 * 8)) ∧ clampMv 90 80 16 (128 + 64 * 8) 2000 = 448 := by decide

/-! ## C130: precision -/

/-- **C130.**  With high precision a vector is not changed; with whole pixels each component is rounded to a multiple of 8, otherwise to
an even number, in each case to the nearest one and towards 0 where two are equally near. -/
theorem C130_precision (h : MvHdr) (mv : Int × Int) :
    (h.highPrecision = true → lowerPrecision h mv = mv) ∧
    (h.highPrecision = false → h.forceInteger = true → roundsTo 8 mv.1 (lowerPrecision h mv).1 ∧ roundsTo 8 mv.2 (lowerPrecision h mv).2) ∧
    (h.highPrecision = false → h.forceInteger = false → roundsTo 2 mv.1 (lowerPrecision h mv).1 ∧ roundsTo 2 mv.2 (lowerPrecision h mv).2) := by
  have k8 : h.forceInteger = true → ∀ v, roundsTo 8 v (lowerComp h v) := by
    intro hf v
    unfold lowerComp roundsTo
    rw [if_pos hf]
    dsimp only
    rw [Nat.shiftRight_eq_div_pow]
    split <;> omega
  have k2 : h.forceInteger = false → ∀ v, roundsTo 2 v (lowerComp h v) := by
    intro hf v
    unfold lowerComp roundsTo
    rw [if_neg (by rw [hf]; decide)]
    split
    · split <;> omega
    · omega
  refine ⟨fun hp => ?_, fun hp hf => ?_, fun hp hf => ?_⟩
  · unfold lowerPrecision; rw [if_pos hp]
  · unfold lowerPrecision; rw [if_neg (by rw [hp]; decide)]; exact ⟨k8 hf _, k8 hf _⟩
  · unfold lowerPrecision; rw [if_neg (by rw [hp]; decide)]; exact ⟨k2 hf _, k2 hf _⟩

/-- The rounding is unique. -/
theorem roundsTo_unique {n : Nat} (hn : n = 2 ∨ n = 8) {v r r' : Int} (h : roundsTo n v r) (h' : roundsTo n v r') : r = r' := by
  obtain ⟨⟨a, ha⟩, b, c, d, e⟩ := h
  obtain ⟨⟨a', ha'⟩, b', c', d', e'⟩ := h'
  rcases hn with rfl | rfl <;> omega

/-- **C130 (idempotence).**  Lowering the precision twice is lowering it once. -/
theorem C130_idempotent (h : MvHdr) (mv : Int × Int) : lowerPrecision h (lowerPrecision h mv) = lowerPrecision h mv := by
  cases hp : h.highPrecision
  · cases hf : h.forceInteger
    · have h1 := (C130_precision h mv).2.2 hp hf
      have h2 := (C130_precision h (lowerPrecision h mv)).2.2 hp hf
      have s : ∀ v r, roundsTo 2 v r → roundsTo 2 r r := by unfold roundsTo; intro v r h'; omega
      exact Prod.ext (roundsTo_unique (Or.inl rfl) h2.1 (s _ _ h1.1)) (roundsTo_unique (Or.inl rfl) h2.2 (s _ _ h1.2))
    · have h1 := (C130_precision h mv).2.1 hp hf
      have h2 := (C130_precision h (lowerPrecision h mv)).2.1 hp hf
      have s : ∀ v r, roundsTo 8 v r → roundsTo 8 r r := by unfold roundsTo; intro v r h'; omega
      exact Prod.ext (roundsTo_unique (Or.inr rfl) h2.1 (s _ _ h1.1)) (roundsTo_unique (Or.inr rfl) h2.2 (s _ _ h1.2))
  · rw [(C130_precision h _).1 hp]

example : lowerPrecision { forceInteger := true } (12, -13) = (8, -16) ∧ lowerPrecision {} (-7, 6) = (-6, 6) := by decide

/-! ## C131: global motion -/

theorem round2Signed_neg {x : Int} (hx : x < 0) {n : Nat} (hn : 0 < n) : round2Signed x n = roundSigned x n := by
  unfold round2Signed roundSigned round2
  rw [if_neg (by omega), if_neg (by omega), if_neg (by omega), Int.shiftRight_eq_div_pow]
  norm_num [Nat.shiftLeft_eq]

theorem round2Signed_small {x : Int} (h0 : 0 ≤ x) {n : Nat} (hn : 3 ≤ n) (hx : x < 2 ^ (n - 1)) : round2Signed x n = 0 ∧ roundSigned x n = 0 := by
  have hp : (2 : Int) ^ n = 2 ^ (n - 1) * 2 := by rw [← pow_succ]; congr 1; omega
  have h4 : (4 : Int) ≤ 2 ^ (n - 1) := by
    have : (2 : Int) ^ 2 ≤ 2 ^ (n - 1) := pow_le_pow_right₀ (by decide) (by omega)
    simpa using this
  unfold round2Signed roundSigned round2
  rw [if_pos h0, if_pos h0, if_neg (by omega), Int.shiftRight_eq_div_pow]
  constructor
  · have : ((2 : Int) + ((1 <<< (n - 1) : Nat) : Int)) / ((2 ^ n : Nat) : Int) = 0 := by
      rw [Nat.shiftLeft_eq]
      push_cast
      rw [hp]
      exact Int.ediv_eq_zero_of_lt (by omega) (by omega)
    simpa using this
  · rw [hp]
    exact Int.ediv_eq_zero_of_lt (by omega) (by omega)

/-- Where rounding of the decoder is right: negative numbers, and those that round to 0. -/
def gmFits (hp : Bool) (x : Int) : Prop := x < (if hp then 2 ^ 12 else 2 ^ 13)

theorem gmRound_of_fits (h : MvHdr) {x : Int} (hx : gmFits h.highPrecision x) :
    gmRound h x = if h.highPrecision then roundSigned x 13 else roundSigned x 14 * 2 := by
  unfold gmFits at hx
  unfold gmRound
  cases hp : h.highPrecision
  · rw [hp] at hx
    rw [if_neg (by decide), if_neg (by decide)]
    rcases lt_or_ge x 0 with hn | hn
    · rw [round2Signed_neg hn (by decide)]
    · obtain ⟨a, b⟩ := round2Signed_small hn (n := 14) (by decide) (by simpa using hx)
      rw [a, b]
  · rw [hp] at hx
    rw [if_pos rfl, if_pos rfl]
    rcases lt_or_ge x 0 with hn | hn
    · rw [round2Signed_neg hn (by decide)]
    · obtain ⟨a, b⟩ := round2Signed_small hn (n := 13) (by decide) (by simpa using hx)
      rw [a, b]

theorem gmVector_eq (h : MvHdr) (typ : Nat) {p : List Int} (hp : p.length = 6) (x y : Int)
    (hf : 2 ≤ typ → gmFits h.highPrecision (warpShift (fun i => p.getD i 0) x y).1 ∧ gmFits h.highPrecision (warpShift (fun i => p.getD i 0) x y).2) :
    gmVector h (typ : Int) p x y = .ok (specGm h.highPrecision typ (fun i => p.getD i 0) x y) := by
  obtain ⟨a, b, c, d, e, f, rfl⟩ : ∃ a b c d e f, p = [a, b, c, d, e, f] := by
    match p, hp with
    | [a, b, c, d, e, f], _ => exact ⟨a, b, c, d, e, f, rfl⟩
  unfold gmVector specGm
  by_cases h0 : typ = 0
  · rw [if_pos (by omega), if_pos h0]; rfl
  · rw [if_neg (by omega), if_neg h0]
    by_cases h1 : typ = 1
    · show (if (typ : Int) = 1 then _ else _) = _
      rw [if_pos (by omega), if_pos h1]
      show Except.ok (a >>> (13 : Nat), b >>> (13 : Nat)) = _
      rw [Int.shiftRight_eq_div_pow, Int.shiftRight_eq_div_pow]
      norm_num [List.getD]
    · show (if (typ : Int) = 1 then _ else _) = _
      rw [if_neg (by omega), if_neg h1]
      have hf := hf (by omega)
      show Except.ok (gmRound h (e * x + (f - 65536) * y + b), gmRound h ((c - 65536) * x + d * y + a)) = _
      have e1 : warpShift (fun i => [a, b, c, d, e, f].getD i 0) x y = (e * x + (f - 65536) * y + b, (c - 65536) * x + d * y + a) := by
        unfold warpShift
        norm_num [List.getD]
      rw [e1] at hf ⊢
      rw [gmRound_of_fits h hf.1, gmRound_of_fits h hf.2]
      cases h.highPrecision <;> rfl

/-- **C131, what holds.**  The vector of global motion of a block is 0 for intra and for identity, the translation for translations, and for
warps the rounded displacement of the centre of the block if neither component of it rounds to a positive number; in each case with its
precision lowered. -/
theorem C131_global_partial (h : MvHdr) (gmType : List Int) (gmParams : List (List Int)) (miRow miCol miSize : Nat) {d : Nat × Nat}
    (hd : sizeDims miSize = some d) (ref : Nat) (typ : Nat) (p : List Int) (ht : gmType[ref]? = some (typ : Int)) (hp : gmParams[ref]? = some p) (h6 : p.length = 6)
    (hf : 2 ≤ typ → gmFits h.highPrecision (warpShift (fun i => p.getD i 0) (4 * miCol + d.1 / 2 - 1) (4 * miRow + d.2 / 2 - 1)).1 ∧
      gmFits h.highPrecision (warpShift (fun i => p.getD i 0) (4 * miCol + d.1 / 2 - 1) (4 * miRow + d.2 / 2 - 1)).2) :
    setupGlobalMv h gmType gmParams miRow miCol miSize ref =
      .ok (lowerPrecision h (if ref = 0 then (0, 0) else specGm h.highPrecision typ (fun i => p.getD i 0) (4 * miCol + d.1 / 2 - 1) (4 * miRow + d.2 / 2 - 1))) := by
  unfold sizeDims at hd
  cases hw : blockWidth[miSize]? with
  | none => rw [hw] at hd; cases hd
  | some w =>
    cases hh : blockHeight[miSize]? with
    | none => rw [hw, hh] at hd; cases hd
    | some ht' =>
      rw [hw, hh] at hd
      cases hd
      unfold setupGlobalMv
      rw [goGet_of' hw, Res.ok_bind, goGet_of' hh, Res.ok_bind]
      by_cases h0 : ref = 0
      · rw [if_pos (by omega), if_pos h0]; rfl
      · rw [if_neg (by omega), if_neg h0, goGet_of' ht, Res.ok_bind, goGet_of' hp, Res.ok_bind]
        have e1 : (miCol : Int) * 4 + ((w / 2 : Nat) : Int) - 1 = 4 * miCol + (w : Int) / 2 - 1 := by omega
        have e2 : (miRow : Int) * 4 + ((ht' / 2 : Nat) : Int) - 1 = 4 * miRow + (ht' : Int) / 2 - 1 := by omega
        rw [e1, e2, gmVector_eq h typ h6 _ _ hf]
        rfl

example : sizeDims 6 = some (16, 16) ∧ gmFits true (warpShift (fun i => [0, 0, 65530, 0, 0, 65536].getD i 0) (4 * 2 + 16 / 2 - 1) 7).2 ∧
    (setupGlobalMv { highPrecision := true } [0, 2] [[], [-90000, 0, 65530, 0, 0, 65536]] 0 2 6 1).toOption = some (0, -11) := by
  refine ⟨by decide, ?_, by decide⟩
  unfold gmFits warpShift
  norm_num [List.getD]

/-- **C131, refuted.**  A displacement of half a unit or more in the positive direction is rounded to 0 instead of a positive number: blocks of
frames with rotation or zoom do not move down or to the right. -/
theorem C131_positive_refuted (h : MvHdr) {x : Int} (hx : ¬ gmFits h.highPrecision x) :
    gmRound h x = 0 ∧ 0 < (if h.highPrecision then roundSigned x 13 else roundSigned x 14 * 2) := by
  unfold gmFits at hx
  unfold gmRound
  cases hp : h.highPrecision
  · rw [hp] at hx
    norm_num at hx
    refine ⟨?_, ?_⟩
    · rw [if_neg (by decide)]
      unfold round2Signed; rw [if_pos (by omega)]; decide
    · rw [if_neg (by decide)]
      unfold roundSigned; rw [if_pos (by omega)]; norm_num; omega
  · rw [hp] at hx
    norm_num at hx
    refine ⟨?_, ?_⟩
    · rw [if_pos rfl]
      unfold round2Signed; rw [if_pos (by omega)]; decide
    · rw [if_pos rfl]
      unfold roundSigned; rw [if_pos (by omega)]; norm_num; omega

example : ¬ gmFits false 20000 ∧ roundSigned 20000 14 * 2 = 2 := by
  refine ⟨?_, by decide⟩
  unfold gmFits; norm_num

/-! ## C132: modes -/

/-- **C132, what holds.**  The first vector of every mode, and the second one of every compound mode but two, is predicted as AV1 says. -/
theorem C132_modes_partial : ∀ m : Fin 12, ∀ e ∈ interModes[m.val]?, getMode (14 + m.val) 0 = e.1.code ∧
    (∀ s ∈ e.2, s ≠ .nearest → getMode (14 + m.val) 1 = s.code) := by decide

/-- **C132, refuted.**  The second vector of the two modes that predict it by the nearest candidate is taken from a near candidate. -/
theorem C132_nearest_refuted : ∀ m : Fin 12, ∀ e ∈ interModes[m.val]?, e.2 = some .nearest →
    getMode (14 + m.val) 1 = MvPred.near.code ∧ getMode (14 + m.val) 1 ≠ MvPred.nearest.code := by decide

example : interModes[4]? = some (.nearest, some .nearest) ∧ interModes[7]? = some (.new, some .nearest) := by decide

/-! ## C133: assigning vectors -/

/-- The candidate that AV1 predicts a vector from. -/
def specPred (s : MvIn) (i : Nat) (e0 e : MVec × MVec) : MvPred → MVec
  | .nearest => nth2 e0 i
  | .near => nth2 e i
  | .global => nth2 s.globals i
  | .new => if s.numMvFound ≤ 1 then nth2 e0 i else nth2 e i

/-- **C133 (single prediction).**  A block that is not coded by intra block copy gets the nearest candidate, the chosen candidate, the global
vector, or, for a new vector, that prediction plus the difference of up to 2 pixels that is coded; the second vector is not changed. -/
theorem C133_assign_partial (k : Fin 4) (h : MvHdr) (s : MvIn) (hi : s.intrabc = false) {m : Nat} {e : MvPred × Option MvPred} (hm : interModes[m]? = some e)
    (hy : s.yMode = 14 + m) {e0 eidx : MVec × MVec} (h0 : s.stack[0]? = some e0) (h1 : s.stack[s.refMvIdx]? = some eidx) (mv : MVec × MVec)
    (d : Int × Int) (hn : e.1 ≠ .new → d = (0, 0)) (c1 : d.1 ≠ 0 → mvCodable h.forceInteger h.highPrecision d.1) (c2 : d.2 ≠ 0 → mvCodable h.forceInteger h.highPrecision d.2)
    (s1 : d.1.natAbs ≤ 16) (s2 : d.2.natAbs ≤ 16) :
    (assignMv h s false mv).Says (cdfLayout k) (if e.1 = .new then mvCode h.forceInteger h.highPrecision d else [])
      (((specPred s 0 e0 eidx e.1).1 + d.1, (specPred s 0 e0 eidx e.1).2 + d.2), mv.2) := by
  have hm12 : m < 12 := by
    rcases Nat.lt_or_ge m 12 with h | h
    · exact h
    · rw [List.getElem?_eq_none (by simpa [interModes] using h)] at hm; cases hm
  have hmode : mvMode s 0 = e.1.code := by
    unfold mvMode
    rw [if_neg (by rw [hi]; decide), hy]
    exact (C132_modes_partial ⟨m, hm12⟩ e (by simpa using hm)).1
  have hpred : predMv s 0 e.1.code = .ok (specPred s 0 e0 eidx e.1) := by
    have hp : ∀ c, c ≠ 16 → ∀ x, s.stack[mvPos s c]? = some x → predMv s 0 c = .ok (nth2 x 0) := by
      intro c hc x hx
      unfold predMv
      rw [if_neg (by rw [hi]; decide), if_neg hc, goGet_of' hx]; rfl
    cases he : e.1
    · exact hp 14 (by decide) e0 (by unfold mvPos; rw [if_neg (by simp), if_pos rfl]; exact h0)
    · exact hp 15 (by decide) eidx (by unfold mvPos; rw [if_neg (by simp), if_neg (by decide)]; exact h1)
    · show predMv s 0 16 = .ok (nth2 s.globals 0)
      unfold predMv
      rw [if_neg (by rw [hi]; decide), if_pos rfl]; rfl
    · show predMv s 0 17 = .ok (if s.numMvFound ≤ 1 then nth2 e0 0 else nth2 eidx 0)
      by_cases hle : s.numMvFound ≤ 1
      · rw [if_pos hle]
        exact hp 17 (by decide) e0 (by unfold mvPos; rw [if_pos ⟨rfl, hle⟩]; exact h0)
      · rw [if_neg hle]
        exact hp 17 (by decide) eidx (by unfold mvPos; rw [if_neg (by simp [hle]), if_neg (by decide)]; exact h1)
  have one : (assignOne h s 0).Says (cdfLayout k) (if e.1 = .new then mvCode h.forceInteger h.highPrecision d else [])
      ((specPred s 0 e0 eidx e.1).1 + d.1, (specPred s 0 e0 eidx e.1).2 + d.2) := by
    unfold assignOne
    rw [hmode]
    refine Rd.Says.lift hpred ?_
    by_cases hnew : e.1 = .new
    · rw [if_pos hnew, if_pos (by rw [hnew]; rfl)]
      exact C57_vector_partial k h _ _ d c1 c2 s1 s2
    · rw [if_neg hnew, if_neg (by cases he : e.1 <;> simp_all [MvPred.code]), hn hnew]
      have := Rd.Says.ret (L := cdfLayout k) (specPred s 0 e0 eidx e.1)
      simp only [Int.add_zero]
      exact this
  unfold assignMv
  have := Rd.Says.bind (f := fun a => assignSecond h s false mv.2 >>= fun b => (pure (a, b) : Rd (MVec × MVec))) one (m' := []) (Rd.Says.ret _)
  rwa [List.append_nil] at this

example : interModes[3]? = some (.new, none) ∧
    ((assignMv { highPrecision := true } { yMode := 17, stack := [((5, 6), (0, 0)), ((7, 8), (0, 0))] } false ((1, 1), (2, 2))).run (cdfLayout 0) (mvCode false true (-3, 0))).toOption =
      some (((2, 6), (2, 2)), []) := by decide +kernel

/-- **C133, refuted (intra block copy).**  Without candidates, below the first row of superblocks of the tile, AV1 predicts a vector one superblock
up; the decoder predicts an eighth of a pixel down. -/
theorem C133_intrabc_refuted (s : MvIn) (h0 : ∃ a, s.stack[0]? = some ((0, 0), a)) (h1 : ∃ a, s.stack[1]? = some ((0, 0), a))
    (hr : s.rowStart + (if s.use128 then 32 else 16) ≤ s.miRow) :
    intrabcPred s = .ok (1, 0) ∧ ((1, 0) : Int × Int) ≠ (-((if s.use128 then 128 else 64) * 8), 0) := by
  obtain ⟨a, ha⟩ := h0
  obtain ⟨b, hb⟩ := h1
  have hd : intrabcDefault s = .ok (1, 0) := by
    unfold intrabcDefault
    cases hu : s.use128
    · rw [hu] at hr
      rw [goGet_of' (show num4x4High[sbBlockSize false]? = some 16 by decide), Res.ok_bind, if_neg (by simp only [Bool.false_eq_true, if_false] at hr; omega)]; rfl
    · rw [hu] at hr
      rw [goGet_of' (show num4x4High[sbBlockSize true]? = some 32 by decide), Res.ok_bind, if_neg (by simp only [if_true] at hr; omega)]; rfl
  refine ⟨?_, ?_⟩
  · unfold intrabcPred
    rw [show goGet s.stack 0 = .ok ((0, 0), a) from goGet_of' (i := 0) ha, Res.ok_bind, if_neg (by simp),
      show goGet s.stack 1 = .ok ((0, 0), b) from goGet_of' (i := 1) hb, Res.ok_bind, if_neg (by simp), hd]
  · split <;> decide

example : (intrabcPred { intrabc := true, miRow := 16 }).toOption = some (1, 0) := by decide

end Gov1
