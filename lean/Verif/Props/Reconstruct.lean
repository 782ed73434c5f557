import Mathlib.Tactic.NormNum
import Verif.Model.Reconstruct
import Verif.Spec.Reconstruct
import Verif.Lemmas.Grid
import Verif.Props.Transform
import Verif.Props.Segmentation
import Verif.Props.QuantMatrix
/-! # C48, C49, C91, C92: dequantisation and reconstruction -/
namespace Gov1

/-! ## C48 dequantised coefficients -/

theorem dequantValue_eq (bitDepth denom : Nat) (coef q : Int) :
    dequantValue bitDepth denom coef q = Spec.dequant bitDepth denom coef q := by
  unfold dequantValue Spec.dequant
  simp only
  generalize coef * q = d
  have h1 : ((absI d).toNat &&& 0xFFFFFF : Nat) = d.natAbs % 2 ^ 24 := by
    have : (absI d).toNat = d.natAbs := by unfold absI; split <;> omega
    rw [this, show (0xFFFFFF : Nat) = 2 ^ 24 - 1 by decide, Nat.and_two_pow_sub_one_eq_mod]
  rw [h1]
  generalize d.natAbs % 2 ^ 24 = m
  have h2 : ((1 <<< (7 + bitDepth) : Nat) : Int) = 2 ^ (7 + bitDepth) := by
    rw [Nat.one_shiftLeft]; norm_cast
  rw [h2]
  have h3 : (1 : Int) ≤ 2 ^ (7 + bitDepth) := by
    have : 1 ≤ 2 ^ (7 + bitDepth) := Nat.one_le_two_pow
    exact_mod_cast this
  generalize (2 : Int) ^ (7 + bitDepth) = B at h3
  have h4 : Int.tdiv ((if d < 0 then (-1 : Int) else 1) * (m : Int)) denom =
      if d < 0 then -((m / denom : Nat) : Int) else ((m / denom : Nat) : Int) := by
    split
    · rw [show (-1 : Int) * m = -(m : Int) by omega, Int.neg_tdiv]
      rfl
    · rw [Int.one_mul]
      rfl
  rw [h4]
  generalize (if d < 0 then -((m / denom : Nat) : Int) else ((m / denom : Nat) : Int)) = v
  unfold clip3
  split
  · omega
  · split <;> omega

/-- **C48.**  For every coefficient, non-negative quantizer, denominator and bit depth, the dequantised
value is the one of the specification; it is a signed number of `8 + bitDepth` bits, has the sign of the
coefficient (or is 0), is 0 for a zero coefficient, and is the exact quotient when that fits. -/
theorem C48_dequant_value (bitDepth denom : Nat) (coef q : Int) (hq : 0 ≤ q) :
    dequantValue bitDepth denom coef q = Spec.dequant bitDepth denom coef q ∧
    -2 ^ (7 + bitDepth) ≤ dequantValue bitDepth denom coef q ∧
    dequantValue bitDepth denom coef q < 2 ^ (7 + bitDepth) ∧
    (coef = 0 → dequantValue bitDepth denom coef q = 0) ∧
    (0 ≤ coef → 0 ≤ dequantValue bitDepth denom coef q) ∧
    (coef ≤ 0 → dequantValue bitDepth denom coef q ≤ 0) ∧
    (0 ≤ coef → coef * q < 2 ^ 24 → coef * q / denom < 2 ^ (7 + bitDepth) →
      dequantValue bitDepth denom coef q = coef * q / denom) ∧
    (coef ≤ 0 → -(coef * q) < 2 ^ 24 → -(coef * q) / denom ≤ 2 ^ (7 + bitDepth) →
      dequantValue bitDepth denom coef q = -(-(coef * q) / denom)) := by
  have hv := dequantValue_eq bitDepth denom coef q
  refine ⟨hv, ?_⟩
  rw [hv]
  unfold Spec.dequant
  simp only
  have h3 : (1 : Int) ≤ 2 ^ (7 + bitDepth) := by
    have : 1 ≤ 2 ^ (7 + bitDepth) := Nat.one_le_two_pow
    exact_mod_cast this
  generalize (2 : Int) ^ (7 + bitDepth) = B at h3
  have hpos : 0 ≤ coef → 0 ≤ coef * q := fun h => Int.mul_nonneg h hq
  have hneg : coef ≤ 0 → coef * q ≤ 0 := fun h => Int.mul_nonpos_of_nonpos_of_nonneg h hq
  have hzero : coef = 0 → coef * q = 0 := fun h => by rw [h, Int.zero_mul]
  generalize coef * q = d at hpos hneg hzero
  have e1 : 0 ≤ d → d < 2 ^ 24 → (((d.natAbs % 2 ^ 24 / denom : Nat)) : Int) = d / denom := by
    intro h1 h2
    rw [Nat.mod_eq_of_lt (by omega), Int.natCast_ediv]
    congr 1
    omega
  have e2 : d ≤ 0 → -d < 2 ^ 24 → (((d.natAbs % 2 ^ 24 / denom : Nat)) : Int) = -d / denom := by
    intro h1 h2
    rw [Nat.mod_eq_of_lt (by omega), Int.natCast_ediv]
    congr 1
    omega
  have e0 : d = 0 → d.natAbs % 2 ^ 24 / denom = 0 := by
    intro h; rw [h]; simp
  generalize d.natAbs % 2 ^ 24 / denom = m at e1 e2 e0
  refine ⟨by omega, by omega, ?_, ?_, ?_, ?_, ?_⟩
  · intro h; have := e0 (hzero h); have := hzero h; rw [if_neg (by omega)]; omega
  · intro h; have := hpos h; rw [if_neg (by omega)]; omega
  · intro h
    have := hneg h
    split
    · omega
    · have := e0 (by omega); omega
  · intro h h1 h2
    have := hpos h
    have := e1 this h1
    rw [if_neg (by omega)]
    omega
  · intro h h1 h2
    have h' := hneg h
    have := e2 h' h1
    have := e0
    split <;> omega

example : dequantValue 8 1 (-3) 100 = -300 ∧ dequantValue 8 4 1000 1336 = 32767 ∧
    dequantValue 8 2 (-7) 9 = -31 := by decide

/-! ## C49 quantizer tables -/

/-- The row of a quantizer table for a bit depth. -/
def qRow (t : List (List Int)) (bitDepth : Nat) : List Int := t.getD ((bitDepth - 8) / 2) []

/-- Index limited to the table. -/
def clampIdx (b : Int) : Nat := (max 0 (min 255 b)).toNat

theorem clip3_idx (b : Int) : clip3 0 255 b = (clampIdx b : Int) := by
  unfold clip3 clampIdx
  split
  · omega
  · split <;> omega

theorem clampIdx_lt (b : Int) : clampIdx b < 256 := by unfold clampIdx; omega

/-- Positive and nondecreasing. -/
def goodRow (l : List Int) : Bool :=
  l.length == 256 && l.all (0 < ·) && (l.zip l.tail).all (fun p => p.1 ≤ p.2)

theorem goodRow_dc : ∀ bd ∈ [8, 10, 12], goodRow (qRow dcQlookup bd) = true := by decide +kernel
theorem goodRow_ac : ∀ bd ∈ [8, 10, 12], goodRow (qRow acQlookup bd) = true := by decide +kernel

theorem goodRow_get {l : List Int} (h : goodRow l = true) {i : Nat} (hi : i < 256) :
    0 < l.getD i 0 ∧ l[i]? = some (l.getD i 0) := by
  simp only [goodRow, Bool.and_eq_true, beq_iff_eq, List.all_eq_true, decide_eq_true_eq] at h
  have hl : i < l.length := by omega
  have e : l.getD i 0 = l[i] := by simp [List.getD, List.getElem?_eq_getElem hl]
  rw [e]
  exact ⟨h.1.2 _ (List.getElem_mem hl), List.getElem?_eq_getElem hl⟩

theorem goodRow_step {l : List Int} (h : goodRow l = true) {i : Nat} (hi : i + 1 < 256) :
    l.getD i 0 ≤ l.getD (i + 1) 0 := by
  simp only [goodRow, Bool.and_eq_true, beq_iff_eq, List.all_eq_true, decide_eq_true_eq] at h
  obtain ⟨⟨hl, -⟩, hm⟩ := h
  have h1 : i < (l.zip l.tail).length := by simp; omega
  have := hm _ (List.getElem_mem h1)
  simp only [List.getElem_zip, List.getElem_tail] at this
  simpa [List.getD, List.getElem?_eq_getElem (show i < l.length by omega),
    List.getElem?_eq_getElem (show i + 1 < l.length by omega)] using this

theorem goodRow_mono {l : List Int} (h : goodRow l = true) {i j : Nat} (hij : i ≤ j) (hj : j < 256) :
    l.getD i 0 ≤ l.getD j 0 := by
  induction j with
  | zero => rw [show i = 0 by omega]
  | succ j ih =>
    by_cases he : i = j + 1
    · rw [he]
    · exact Int.le_trans (ih (by omega) (by omega)) (goodRow_step h hj)

theorem dcQ_eq {bd : Nat} (hbd : bd ∈ [8, 10, 12]) (b : Int) :
    dcQ bd b = .ok ((qRow dcQlookup bd).getD (clampIdx b) 0) := by
  have hg := (goodRow_get (goodRow_dc bd hbd) (clampIdx_lt b)).2
  have hrow : goGet dcQlookup (((bd : Int) - 8) >>> (1 : Nat)) = .ok (qRow dcQlookup bd) := by
    simp only [List.mem_cons, List.not_mem_nil, or_false] at hbd
    rcases hbd with rfl | rfl | rfl <;> rfl
  rw [dcQ, gget, hrow, Res.ok_bind, clip3_idx, goGet, if_neg (by omega), Int.toNat_natCast, hg]

/-- **C49**, DC: at each bit depth the DC quantizer is the entry of the DC table at the index clamped to
0..255; it is positive and does not decrease with the index. -/
theorem C49_dc (bd : Nat) (hbd : bd ∈ [8, 10, 12]) (b b' : Int) (hb : b ≤ b') :
    ∃ v v', dcQ bd b = .ok v ∧ dcQ bd b' = .ok v' ∧ (qRow dcQlookup bd)[clampIdx b]? = some v ∧ 0 < v ∧ v ≤ v' := by
  obtain ⟨h1, h2⟩ := goodRow_get (goodRow_dc bd hbd) (clampIdx_lt b)
  refine ⟨_, _, dcQ_eq hbd b, dcQ_eq hbd b', h2, h1, ?_⟩
  exact goodRow_mono (goodRow_dc bd hbd) (by unfold clampIdx; omega) (clampIdx_lt b')

/-- **C49**, the AC table itself: positive and nondecreasing at each bit depth. -/
theorem C49_ac_table (bd : Nat) (hbd : bd ∈ [8, 10, 12]) (i j : Nat) (hij : i ≤ j) (hj : j < 256) :
    0 < (qRow acQlookup bd).getD i 0 ∧ (qRow acQlookup bd).getD i 0 ≤ (qRow acQlookup bd).getD j 0 :=
  ⟨(goodRow_get (goodRow_ac bd hbd) (by omega)).1, goodRow_mono (goodRow_ac bd hbd) hij hj⟩

theorem dc_lt_ac : ∀ bd ∈ [8, 10, 12], ∀ i < 256, 4 ≤ i →
    (qRow dcQlookup bd).getD i 0 < (qRow acQlookup bd).getD i 0 := by decide +kernel

theorem dc_le_ac : ∀ bd ∈ [8, 10, 12], ∀ i < 256,
    (qRow dcQlookup bd).getD i 0 ≤ (qRow acQlookup bd).getD i 0 := by decide +kernel

/-- **C49 is false** of AC: for every index from 4 on and every bit depth, the AC quantizer the code uses is
smaller than the AC table's, because the DC table is read. -/
theorem C49_ac_refuted (bd : Nat) (hbd : bd ∈ [8, 10, 12]) (b : Int) (hb : 4 ≤ b) :
    ∃ v w, acQ bd b = .ok v ∧ (qRow acQlookup bd)[clampIdx b]? = some w ∧ v < w := by
  refine ⟨_, _, dcQ_eq hbd b, (goodRow_get (goodRow_ac bd hbd) (clampIdx_lt b)).2, ?_⟩
  exact dc_lt_ac bd hbd _ (clampIdx_lt b) (by unfold clampIdx; omega)

/-- **C49**, what holds of AC: positive, nondecreasing, never above the AC table, and equal to it at
index 0. -/
theorem C49_ac_partial (bd : Nat) (hbd : bd ∈ [8, 10, 12]) (b b' : Int) (hb : b ≤ b') :
    ∃ v v' w, acQ bd b = .ok v ∧ acQ bd b' = .ok v' ∧ (qRow acQlookup bd)[clampIdx b]? = some w ∧
      0 < v ∧ v ≤ v' ∧ v ≤ w ∧ (b ≤ 0 → v = w) := by
  obtain ⟨v, v', h1, h2, h3, h4, h5⟩ := C49_dc bd hbd b b' hb
  refine ⟨v, v', _, h1, h2, (goodRow_get (goodRow_ac bd hbd) (clampIdx_lt b)).2, h4, h5, ?_, ?_⟩
  · have := dc_le_ac bd hbd _ (clampIdx_lt b)
    rw [dcQ_eq hbd] at h1
    cases h1
    exact this
  · intro hb0
    rw [dcQ_eq hbd] at h1
    cases h1
    have hz : clampIdx b = 0 := by unfold clampIdx; omega
    rw [hz]
    simp only [List.mem_cons, List.not_mem_nil, or_false] at hbd
    rcases hbd with rfl | rfl | rfl <;> rfl

example : dcQ 8 255 = .ok 1336 ∧ acQ 8 255 = .ok 1336 ∧ (qRow acQlookup 8)[255]? = some 1828 := by decide +kernel

/-! ## C48 for a whole block -/

/-- A context as the header parser leaves it: a legal bit depth, at most eight segments, matrix levels for
three planes. -/
structure ReconCtx.Ok (c : ReconCtx) : Prop where
  bd : c.bitDepth ∈ [8, 10, 12]
  feat : Spec.FeaturesOk c.seg.featureEnabled c.seg.featureData
  seg : c.segmentId < 8
  qm : Shape 3 8 c.segQMLevel

theorem qIndex_total (c : ReconCtx) (hc : c.Ok) : ∃ qi, c.qIndex = .ok qi := by
  obtain ⟨⟨l1, l2, l3, l4⟩, -, -, -⟩ := hc.feat
  unfold ReconCtx.qIndex getQIndex segFeatureActiveIdx
  cases c.seg.enabled
  · simp only [Bool.false_eq_true, if_false]
    simp only [bind, Except.bind, Bool.false_eq_true, if_false]
    split <;> exact ⟨_, rfl⟩
  · simp only [if_true, goGet2_col0 hc.seg c.seg.featureEnabled 0 l1 l3, goGet2_col0 hc.seg c.seg.featureData 0 l2 l4,
      Except.map, bind, Except.bind]
    split
    · exact ⟨_, rfl⟩
    · split <;> exact ⟨_, rfl⟩

/-- The table index of the quantizer of a plane: the quantizer index of the block plus the delta of the plane
(`dc` or not). -/
def planeDelta (q : QuantParams) (plane : Nat) (dc : Bool) : Int :=
  if dc then (if plane = 0 then q.deltaQYDc else if plane = 1 then q.deltaQUDc else q.deltaQVDc)
  else (if plane = 0 then 0 else if plane = 1 then q.deltaQUAc else q.deltaQVAc)

theorem pickQuant_eq (c : ReconCtx) (hc : c.Ok) (plane i j : Nat) :
    ∃ qi, c.qIndex = .ok qi ∧ pickQuant c plane i j = .ok ((qRow dcQlookup c.bitDepth).getD
      (clampIdx (qi + planeDelta c.q plane (i == 0 && j == 0))) 0) := by
  obtain ⟨qi, hqi⟩ := qIndex_total c hc
  refine ⟨qi, hqi, ?_⟩
  unfold pickQuant planeDelta
  by_cases h : i = 0 ∧ j = 0
  · rw [if_pos h, getDcQuant, hqi, Res.ok_bind]
    obtain ⟨rfl, rfl⟩ := h
    simp only [beq_self_eq_true, Bool.and_self, if_true]
    split
    · rw [dcQ_eq hc.bd]
    · split <;> rw [dcQ_eq hc.bd]
  · rw [if_neg h, getAcQuant, hqi, Res.ok_bind]
    have : (i == 0 && j == 0) = false := by
      cases hb : (i == 0 && j == 0) with
      | false => rfl
      | true => simp at hb; exact absurd hb h
    rw [this]
    simp only [Bool.false_eq_true, if_false]
    unfold acQ
    split
    · have := dcQ_eq hc.bd qi
      rw [dcQ] at this
      rw [this, Int.add_zero]
    · split
      · have := dcQ_eq hc.bd (qi + c.q.deltaQUAc)
        rw [dcQ] at this
        exact this
      · have := dcQ_eq hc.bd (qi + c.q.deltaQVAc)
        rw [dcQ] at this
        exact this

theorem dims_eq : ∀ t < 19, ∃ a b, txWidthLog2[t]? = some a ∧ txHeightLog2[t]? = some b ∧
    Spec.codedDims.getD t (0, 0) = (min 32 (1 <<< a), min 32 (1 <<< b)) := by
  intro t ht
  have : ∀ t < 19, txWidthLog2[t]? = some (txWidthLog2.getD t 0) ∧ txHeightLog2[t]? = some (txHeightLog2.getD t 0) ∧
    Spec.codedDims.getD t (0, 0) = (min 32 (1 <<< txWidthLog2.getD t 0), min 32 (1 <<< txHeightLog2.getD t 0)) := by decide
  exact ⟨_, _, this t ht⟩

theorem goGet_some {α : Type} {l : List α} {i : Nat} {a : α} (h : l[i]? = some a) : goGet l (i : Int) = .ok a := by
  rw [goGet, if_neg (by omega), Int.toNat_natCast, h]

/-- The quantizer of a coefficient position is always positive, weighted or not. -/
theorem weightedQ_total (c : ReconCtx) (hc : c.Ok) (plane t i j : Nat) (hp : plane < 3) (ht : t < 19)
    (hi : i < (Spec.codedDims.getD t (0, 0)).2) (hj : j < (Spec.codedDims.getD t (0, 0)).1) (q : Int) (hq : 0 < q) :
    ∃ q2, weightedQ c plane t i j (Spec.codedDims.getD t (0, 0)).1 q = .ok q2 ∧ 0 < q2 ∧
      (c.q.usingQMatrix = false ∨ 9 ≤ c.planeTxType → q2 = q) ∧
      (c.q.usingQMatrix = true → c.planeTxType < 9 → ∀ level, at2 c.segQMLevel plane c.segmentId = some level →
        (15 ≤ level → q2 = q) ∧ (level < 15 → ∃ w, qmEntry level (if plane > 0 then 1 else 0)
          (qmOffset.getD t 0 + i * (Spec.codedDims.getD t (0, 0)).1 + j) = .ok w ∧ q2 = (q * w + 16) / 32)) := by
  unfold weightedQ
  by_cases hu : (c.q.usingQMatrix && decide (c.planeTxType < 9)) = true
  · rw [if_pos hu]
    simp only [Bool.and_eq_true, decide_eq_true_eq] at hu
    obtain ⟨level, hlevel⟩ := hc.qm.at2 (i := plane) (j := c.segmentId) hp hc.seg
    rw [gget_at2 hlevel, Res.ok_bind]
    by_cases h15 : level < 15
    · rw [if_pos h15]
      obtain ⟨w, hw, w1, w2, -⟩ := C91_weights level (if plane > 0 then 1 else 0) t h15 (by split <;> omega) ht i j hi hj
      have hoff : ∀ t : Nat, t < 19 → goGet qmOffset (t : Int) = .ok (qmOffset.getD t 0) := by decide
      rw [hoff t ht, Res.ok_bind, hw, Res.ok_bind]
      have r5 : round2 (q * w) 5 = (q * w + 16) / 32 := by
        rw [round2, if_neg (by decide), shiftRight_int]; rfl
      have hbig : 30 ≤ q * w := by
        calc (30 : Int) ≤ w := w1
          _ = 1 * w := by omega
          _ ≤ q * w := Int.mul_le_mul_of_nonneg_right (by omega) (by omega)
      refine ⟨_, rfl, by rw [r5]; omega, ?_, ?_⟩
      · intro h
        rcases h with h | h
        · rw [h] at hu; simp at hu
        · omega
      · intro _ _ level' hl'
        rw [hlevel] at hl'
        cases hl'
        exact ⟨by omega, fun _ => ⟨w, hw, r5⟩⟩
    · rw [if_neg h15]
      refine ⟨q, rfl, hq, fun _ => rfl, ?_⟩
      intro _ _ level' hl'
      rw [hlevel] at hl'
      cases hl'
      exact ⟨fun _ => rfl, by omega⟩
  · rw [if_neg hu]
    refine ⟨q, rfl, hq, fun _ => rfl, ?_⟩
    intro h1 h2
    rw [h1] at hu
    simp at hu
    omega

theorem dqDenom_eq : ∀ t < 19, dqDenom t = ((Spec.denomOf.getD t 1 : Nat) : Int) := by decide

/-- **C48 for a block.**  For every legal context, plane, transform size and coefficient array,
dequantisation returns; every coded position holds the specified dequantisation of its coefficient by a
positive quantizer (the plain table value when no matrix applies), all within the signed range of
`8 + bitDepth` bits, and no other entry of the array changes. -/
theorem C48_block (c : ReconCtx) (hc : c.Ok) (plane t : Nat) (hp : plane < 3) (ht : t < 19) (quant : List Int)
    (hquant : quant.length = 4096) (D : List (List Int)) (hD : Shape 64 64 D) :
    ∃ D', dequantBlock c plane t quant D = .ok D' ∧ Shape 64 64 D' ∧
      (∀ i j, i < (Spec.codedDims.getD t (0, 0)).2 → j < (Spec.codedDims.getD t (0, 0)).1 →
        ∃ q q2, pickQuant c plane i j = .ok q ∧
          weightedQ c plane t i j (Spec.codedDims.getD t (0, 0)).1 q = .ok q2 ∧ 0 < q2 ∧
          at2 D' i j = some (Spec.dequant c.bitDepth (Spec.denomOf.getD t 1)
            (quant.getD (i * (Spec.codedDims.getD t (0, 0)).1 + j) 0) q2)) ∧
      (∀ i j, ¬ (i < (Spec.codedDims.getD t (0, 0)).2 ∧ j < (Spec.codedDims.getD t (0, 0)).1) →
        at2 D' i j = at2 D i j) := by
  obtain ⟨lw, lh, hlw, hlh, hdims⟩ := dims_eq t ht
  have hw : min 32 (1 <<< lw) = (Spec.codedDims.getD t (0, 0)).1 := by rw [hdims]
  have hh : min 32 (1 <<< lh) = (Spec.codedDims.getD t (0, 0)).2 := by rw [hdims]
  rw [dequantBlock, goGet_some hlw, Res.ok_bind, goGet_some hlh, Res.ok_bind]
  simp only [hw, hh]
  have hb32 : ∀ t < 19, (Spec.codedDims.getD t (0, 0)).1 ≤ 32 ∧ (Spec.codedDims.getD t (0, 0)).2 ≤ 32 := by decide
  obtain ⟨bw, bh⟩ := hb32 t ht
  have hweight := fun i j hi hj q hq => weightedQ_total c hc plane t i j hp ht hi hj q hq
  generalize (Spec.codedDims.getD t (0, 0)).1 = w at bw hweight
  generalize (Spec.codedDims.getD t (0, 0)).2 = h at bh hweight
  -- one cell
  have hcell : ∀ i j E, i < h → j < w → Shape 64 64 E → ∃ E', dequantCell c plane t w quant i j E = .ok E' ∧
      Shape 64 64 E' ∧ (∃ q q2, pickQuant c plane i j = .ok q ∧ weightedQ c plane t i j w q = .ok q2 ∧ 0 < q2 ∧
        at2 E' i j = some (Spec.dequant c.bitDepth (Spec.denomOf.getD t 1) (quant.getD (i * w + j) 0) q2)) ∧
      ∀ a b, (a, b) ≠ (i, j) → at2 E' a b = at2 E a b := by
    intro i j E hi hj hE
    obtain ⟨qi, -, hq⟩ := pickQuant_eq c hc plane i j
    have hqpos := (goodRow_get (goodRow_dc c.bitDepth hc.bd) (clampIdx_lt (qi + planeDelta c.q plane (i == 0 && j == 0)))).1
    generalize (qRow dcQlookup c.bitDepth).getD (clampIdx (qi + planeDelta c.q plane (i == 0 && j == 0))) 0 = q at hq hqpos
    obtain ⟨q2, hq2, hpos2, -, -⟩ := hweight i j hi hj q hqpos
    have hlt : i * w + j < quant.length := by
      have : i * w ≤ 31 * 32 := Nat.mul_le_mul (by omega) bw
      omega
    obtain ⟨E', hE', s1, s2, s3⟩ := gset_ok hE (i := i) (j := j) (by omega) (by omega)
      (Spec.dequant c.bitDepth (Spec.denomOf.getD t 1) (quant.getD (i * w + j) 0) q2)
    refine ⟨E', ?_, s1, ⟨q, q2, hq, hq2, hpos2, s2⟩, s3⟩
    rw [dequantCell, hq, Res.ok_bind, hq2, Res.ok_bind, goGet_lt' hlt, Res.ok_bind, dqDenom_eq t ht, dequantValue_eq]
    have : quant[i * w + j] = quant.getD (i * w + j) 0 := by simp [List.getD, List.getElem?_eq_getElem hlt]
    rw [this]
    exact hE'
  let Good (E : List (List Int)) (i j : Nat) : Prop := ∃ q q2, pickQuant c plane i j = .ok q ∧
    weightedQ c plane t i j w q = .ok q2 ∧ 0 < q2 ∧
    at2 E i j = some (Spec.dequant c.bitDepth (Spec.denomOf.getD t 1) (quant.getD (i * w + j) 0) q2)
  have hrow : ∀ i E, i < h → Shape 64 64 E → ∃ E', forN (fun j => dequantCell c plane t w quant i j) w 0 E = .ok E' ∧
      Shape 64 64 E' ∧ (∀ j, j < w → Good E' i j) ∧ ∀ a b, ¬ (a = i ∧ b < w) → at2 E' a b = at2 E a b := by
    intro i E hi hE
    obtain ⟨E', h1, h2, h3, h4⟩ := forN_total (n := w) (i0 := 0) (s := E)
      (f := fun j => dequantCell c plane t w quant i j)
      (fun k F => Shape 64 64 F ∧ (∀ j, j < k → Good F i j) ∧ ∀ a b, ¬ (a = i ∧ b < k) → at2 F a b = at2 E a b)
      (by
        rintro k F - hk ⟨f1, f2, f3⟩
        obtain ⟨F', g1, g2, g3, g4⟩ := hcell i k F hi (by omega) f1
        refine ⟨F', g1, g2, ?_, ?_⟩
        · intro j hj
          by_cases he : j = k
          · subst he; exact g3
          · obtain ⟨q, q2, a1, a2, a3, a4⟩ := f2 j (by omega)
            exact ⟨q, q2, a1, a2, a3, by rw [g4 i j (by simp; omega)]; exact a4⟩
        · intro a b hab
          rw [g4 a b (by simp only [ne_eq, Prod.mk.injEq]; omega), f3 a b (by omega)])
      ⟨hE, by intro j hj; omega, fun _ _ _ => rfl⟩
    rw [Nat.zero_add] at h3 h4
    exact ⟨E', h1, h2, h3, h4⟩
  obtain ⟨D', h1, h2, h3, h4⟩ := forN_total (n := h) (i0 := 0) (s := D)
    (f := fun i => forN (fun j => dequantCell c plane t w quant i j) w 0)
    (fun k F => Shape 64 64 F ∧ (∀ i j, i < k → j < w → Good F i j) ∧
      ∀ a b, ¬ (a < k ∧ b < w) → at2 F a b = at2 D a b)
    (by
      rintro k F - hk ⟨f1, f2, f3⟩
      obtain ⟨F', g1, g2, g3, g4⟩ := hrow k F (by omega) f1
      refine ⟨F', g1, g2, ?_, ?_⟩
      · intro i j hi hj
        by_cases he : i = k
        · subst he; exact g3 j hj
        · obtain ⟨q, q2, a1, a2, a3, a4⟩ := f2 i j (by omega) hj
          exact ⟨q, q2, a1, a2, a3, by rw [g4 i j (by omega)]; exact a4⟩
      · intro a b hab
        rw [g4 a b (by omega), f3 a b (by omega)])
    ⟨hD, by intro i j hi; omega, fun _ _ _ => rfl⟩
  rw [Nat.zero_add] at h3 h4
  exact ⟨D', h1, h2, h3, h4⟩

/-! ## C92 reconstruction -/

/-- **C92 is false**: the work array of a tile group is never allocated, so reconstruction of a block with
coefficients never returns, whatever the context, block and frame. -/
theorem C92_reconstruct_refuted (c : ReconCtx) (plane : Nat) (x y : Int) (t : Nat) (a : ReconArrays) (ha : a.T = []) :
    ∀ a', reconstruct c plane x y t a ≠ .ok a' := by
  intro a' h
  rw [reconstruct] at h
  obtain ⟨lw, -, h⟩ := Res.inv h
  obtain ⟨lh, -, h⟩ := Res.inv h
  obtain ⟨D, -, h⟩ := Res.inv h
  obtain ⟨TR, hTR, -⟩ := Res.inv h
  rw [ha] at hTR
  exact C90_unallocated_refuted _ _ _ _ _ _ _ hTR

/-- **C92 is false** also where reconstruction gets to the pixels: whenever adding a residual block to the
prediction returns, every pixel of the block is 2, whatever the prediction and the residual. -/
theorem C92_pixels_refuted (c : ReconCtx) (hb : 2 ≤ c.bitDepth) (x y : Nat) (h w : Nat) (R F F' : List (List Int))
    (hadd : addResidual c x y h w R F = .ok F') (i j : Nat) (hi : i < h) (hj : j < w) :
    at2 F' (y + i) (x + j) = some 2 := by
  -- every write stores 2
  have hcell : ∀ i j G G', i < h → j < w → addCell c x y h w R i j G = .ok G' →
      at2 G' (y + (if flipUD c.planeTxType then h - i - 1 else i)) (x + (if flipLR c.planeTxType then w - j - 1 else j)) =
        some 2 ∧ ∀ a b, at2 G a b = some 2 → at2 G' a b = some 2 := by
    intro i j G G' hi hj hG
    rw [addCell] at hG
    obtain ⟨p, -, hG⟩ := Res.inv hG
    obtain ⟨r, -, hG⟩ := Res.inv hG
    rw [(C11_clip1_partial _ _ hb).1] at hG
    obtain ⟨-, -, -, g1, g2, -⟩ := gset_inv hG
    have ex : ((x : Int) + if flipLR c.planeTxType = true then (w : Int) - j - 1 else j).toNat =
        x + (if flipLR c.planeTxType = true then w - j - 1 else j) := by split <;> omega
    have ey : ((y : Int) + if flipUD c.planeTxType = true then (h : Int) - i - 1 else i).toNat =
        y + (if flipUD c.planeTxType = true then h - i - 1 else i) := by split <;> omega
    rw [ex, ey] at g1 g2
    refine ⟨g1, ?_⟩
    intro a b hab
    by_cases he : (a, b) = (y + (if flipUD c.planeTxType = true then h - i - 1 else i),
        x + (if flipLR c.planeTxType = true then w - j - 1 else j))
    · cases he; exact g1
    · rw [g2 a b he]; exact hab
  have hrow : ∀ i G G', i < h → forN (fun j => addCell c x y h w R i j) w 0 G = .ok G' →
      (∀ j, j < w → at2 G' (y + (if flipUD c.planeTxType then h - i - 1 else i))
        (x + (if flipLR c.planeTxType then w - j - 1 else j)) = some 2) ∧
      ∀ a b, at2 G a b = some 2 → at2 G' a b = some 2 := by
    intro i G G' hi hG
    have := forN_inv (fun k G1 => (∀ j, j < k → at2 G1 (y + (if flipUD c.planeTxType then h - i - 1 else i))
        (x + (if flipLR c.planeTxType then w - j - 1 else j)) = some 2) ∧
      ∀ a b, at2 G a b = some 2 → at2 G1 a b = some 2) (by
        rintro k t t' - hk ⟨f1, f2⟩ hstep
        obtain ⟨g1, g2⟩ := hcell i k t t' hi (by omega) hstep
        refine ⟨?_, fun a b hab => g2 a b (f2 a b hab)⟩
        intro j hj
        by_cases he : j = k
        · subst he; exact g1
        · exact g2 _ _ (f1 j (by omega))) hG ⟨by intro j hj; omega, fun _ _ h => h⟩
    rw [Nat.zero_add] at this
    exact this
  have hall := forN_inv (fun k G1 => ∀ i j, i < k → j < w → at2 G1 (y + (if flipUD c.planeTxType then h - i - 1 else i))
        (x + (if flipLR c.planeTxType then w - j - 1 else j)) = some 2) (by
        rintro k t t' - hk f1 hstep
        obtain ⟨g1, g2⟩ := hrow k t t' (by omega) hstep
        intro i j hi hj
        by_cases he : i = k
        · subst he; exact g1 j hj
        · exact g2 _ _ (f1 i j (by omega) hj)) hadd (by intro i j hi; omega)
  rw [Nat.zero_add] at hall
  have := hall (if flipUD c.planeTxType then h - i - 1 else i) (if flipLR c.planeTxType then w - j - 1 else j)
    (by split <;> omega) (by split <;> omega)
  have e1 : (if flipUD c.planeTxType = true then h - (if flipUD c.planeTxType = true then h - i - 1 else i) - 1 else
      (if flipUD c.planeTxType = true then h - i - 1 else i)) = i := by split <;> omega
  have e2 : (if flipLR c.planeTxType = true then w - (if flipLR c.planeTxType = true then w - j - 1 else j) - 1 else
      (if flipLR c.planeTxType = true then w - j - 1 else j)) = j := by split <;> omega
  rw [e1, e2] at this
  exact this

/-- The hypotheses are met: a 2x2 corner of a 16x16 plane. -/
example : ∃ F', addResidual {} 1 1 2 2 [[5, 5], [5, 5]] (List.replicate 16 (List.replicate 16 100)) = .ok F' ∧
    at2 F' 1 2 = some 2 := ⟨_, rfl, by decide +kernel⟩

/-- A legal context. -/
example : ReconCtx.Ok (ReconCtx.mk { featureEnabled := List.replicate 8 (List.replicate 8 0), featureData := List.replicate 8 (List.replicate 8 0) } {} false 0 (List.replicate 3 (List.replicate 8 0)) 8 0 0 false) :=
  ⟨by decide, features_zero, by decide, Shape.replicate 3 8 0⟩

end Gov1
