import Verif.Lemmas.CoeffLoops
/-! # Safety of the coefficient syntax -/
namespace Gov1
open Spec

/-- The base level contexts exist: always, except chroma 4x4 blocks of the highest quantizer class. -/
def BaseOk (k : Fin 4) (sc ptype : Nat) : Prop := k ≠ 3 ∨ sc ≠ 0 ∨ ptype = 0

theorem baseCount (k : Fin 4) {sc ptype : Nat} (hsc : sc < 5) (hpt : ptype < 2) (hk : BaseOk k sc ptype) {c : Int}
    (hc : 0 ≤ c ∧ c < 42) : (cdfLayout k).count "CoeffBase" [(sc : Int), ptype, c] = some 4 := by
  by_cases h3 : k = 3
  · subst h3
    have h : cdfInfo 3 "CoeffBase" = some ([], .ragged [[42, 4, 42], [42, 42], [42, 42], [42, 42], [42, 42]], 4) := by
      decide +kernel
    rw [count_eq 3 h]
    rcases hk with hk | hk | hk
    · exact absurd rfl hk
    · have : (sc = 1 ∨ sc = 2 ∨ sc = 3 ∨ sc = 4) ∧ (ptype = 0 ∨ ptype = 1) := by omega
      obtain ⟨rfl | rfl | rfl | rfl, rfl | rfl⟩ := this <;> simp [stripPre, Dims.ravel, rag, ragRow, hc.1, hc.2]
    · subst hk
      have : sc = 0 ∨ sc = 1 ∨ sc = 2 ∨ sc = 3 ∨ sc = 4 := by omega
      rcases this with rfl | rfl | rfl | rfl | rfl <;> simp [stripPre, Dims.ravel, rag, ragRow, hc.1, hc.2]
  · exact C94_coeff_base_partial k h3 _ _ _ (by omega) (by omega) hc

/-- The coefficients of the coded area are in `[lo, hi]`. -/
def InArea (n : Nat) (lo hi : Int) (q : List Int) : Prop := ∀ i < n, ∃ v, q[i]? = some v ∧ lo ≤ v ∧ v ≤ hi

/-- Nothing outside the coded area changes. -/
def Keep (n : Nat) (q q' : List Int) : Prop := q'.length = q.length ∧ ∀ i, n ≤ i → q'[i]? = q[i]?

theorem Keep.refl (n : Nat) (q : List Int) : Keep n q q := ⟨rfl, fun _ _ => rfl⟩
theorem Keep.trans {n : Nat} {a b c : List Int} (h : Keep n a b) (h' : Keep n b c) : Keep n a c :=
  ⟨h'.1.trans h.1, fun i hi => (h'.2 i hi).trans (h.2 i hi)⟩
theorem Keep.set {n : Nat} (q : List Int) {p : Nat} (hp : p < n) (v : Int) : Keep n q (q.set p v) := by
  refine ⟨by simp, fun i hi => ?_⟩
  rw [List.getElem?_set_ne (by omega)]

theorem InArea.set {n : Nat} {lo hi : Int} {q : List Int} (h : InArea n lo hi q) (p : Nat) {v : Int} (hv : lo ≤ v ∧ v ≤ hi) :
    InArea n lo hi (q.set p v) := by
  intro i hn
  obtain ⟨u, hu, hb⟩ := h i hn
  by_cases hip : p = i
  · subst hip
    have hl : p < q.length := (List.getElem?_eq_some_iff.mp hu).1
    exact ⟨v, List.getElem?_set_self hl, hv⟩
  · exact ⟨u, by rw [List.getElem?_set_ne hip]; exact hu, hb⟩

theorem InArea.len {n : Nat} {lo hi : Int} {q : List Int} (h : InArea n lo hi q) : n ≤ q.length := by
  rcases Nat.lt_or_ge q.length n with hc | hc
  · obtain ⟨v, hv, _⟩ := h q.length hc
    rw [List.getElem?_eq_none (Nat.le_refl _)] at hv; cases hv
  · exact hc

theorem InArea.mono {n : Nat} {lo hi lo' hi' : Int} {q : List Int} (h : InArea n lo hi q) (h1 : lo' ≤ lo) (h2 : hi ≤ hi') :
    InArea n lo' hi' q := by
  intro i hi
  obtain ⟨v, hv, a, b⟩ := h i hi
  exact ⟨v, hv, by omega, by omega⟩

theorem brLoop_safe (k : Fin 4) {cx : BlkCtx} {plane t x4 y4 : Nat} {st : CoefSt} {ty : Int}
    (hr : Reading cx plane t x4 y4 st.txTypes ty) (hq : InArea (cW t * cH t) 0 15 st.quant) (pos : Nat)
    {sc ptype : Nat} (hpt : ptype < 2) (n : Nat) (level : Int) :
    (brLoop cx st t pos plane x4 y4 sc ptype n level).Safe (cdfLayout k) (fun v => level ≤ v ∧ v ≤ level + 3 * n) := by
  induction n generalizing level with
  | zero => exact ⟨by omega, by omega⟩
  | succ n ih =>
    unfold brLoop
    refine Rd.Safe.seq (coeffBrCtx_sat hr (fun i hi => ?_)).lift (fun ctx hctx => ?_)
    · obtain ⟨v, hv, h0, _⟩ := hq i hi; exact ⟨v, hv, h0⟩
    refine Rd.Safe.seq (Rd.Safe.read (count3 k (iCoeffBr k) (by omega) (by omega) hctx) (fun s hs => hs)) (fun s hs => ?_)
    split
    · refine ⟨?_, ?_⟩ <;> omega
    · refine (ih _).mono (fun v hv => ?_)
      have : ((n + 1 : Nat) : Int) = (n : Int) + 1 := by omega
      omega

theorem readBase_safe (k : Fin 4) {cx : BlkCtx} {plane t x4 y4 : Nat} {st : CoefSt} {ty : Int}
    (hr : Reading cx plane t x4 y4 st.txTypes ty) (hq : cW t * cH t ≤ st.quant.length) {pos : Nat}
    (hpos : pos < cW t * cH t) {sc ptype : Nat} (hsc : sc < 5) (hpt : ptype < 2) (hk : BaseOk k sc ptype) (c : Nat)
    (isEob : Bool) : (readBase cx st t plane x4 y4 sc ptype pos c isEob).Safe (cdfLayout k)
      (fun v => 0 ≤ v ∧ v ≤ 3 ∧ (isEob = true → 1 ≤ v)) := by
  unfold readBase
  refine Rd.Safe.seq (getCoeffBaseCtx_sat hr hq hpos c isEob).lift (fun ctx hctx => ?_)
  cases isEob with
  | true =>
    simp only [if_true] at hctx ⊢
    refine Rd.Safe.seq (Rd.Safe.read (count3 k (iCoeffBaseEob k) (by omega) (by omega) (by omega)) (fun s hs => hs)) (fun s hs => ?_)
    refine ⟨?_, ?_, ?_⟩ <;> omega
  | false =>
    simp only [Bool.false_eq_true, if_false] at hctx ⊢
    refine Rd.Safe.seq (Rd.Safe.read (baseCount k hsc hpt hk hctx) (fun s hs => hs)) (fun s hs => ?_)
    refine ⟨?_, ?_, ?_⟩
    · omega
    · omega
    · intro h; cases h

/-- The scan lists positions of the coded area. -/
def ScanOk (n : Nat) (scan : List Nat) : Prop := ∀ c < n, ∃ p, scan[c]? = some p ∧ p < n

theorem levelLoop_safe (k : Fin 4) {cx : BlkCtx} {plane t x4 y4 : Nat} {ty : Int} {scan : List Nat}
    (hscan : ScanOk (cW t * cH t) scan) {sc ptype : Nat} (hsc : sc < 5) (hpt : ptype < 2) (hk : BaseOk k sc ptype)
    (eob n : Nat) (hn : n ≤ cW t * cH t) (st : CoefSt) (hr : Reading cx plane t x4 y4 st.txTypes ty)
    (hq : InArea (cW t * cH t) 0 15 st.quant) :
    (levelLoop cx scan t plane x4 y4 sc ptype eob n st).Safe (cdfLayout k)
      (fun st' => ∃ q, st' = { st with quant := q } ∧ InArea (cW t * cH t) 0 15 q ∧ Keep (cW t * cH t) st.quant q) := by
  induction n generalizing st with
  | zero => exact ⟨st.quant, rfl, hq, Keep.refl _ _⟩
  | succ c ih =>
    unfold levelLoop
    obtain ⟨p, hp, hpn⟩ := hscan c (by omega)
    refine Rd.Safe.seq (Q := fun x => x = p) (Sat.lift ⟨p, goGet_of hp, rfl⟩) (fun x hx => ?_)
    subst hx
    refine Rd.Safe.seq (readBase_safe k hr hq.len hpn hsc hpt hk c _) (fun lv hlv => ?_)
    have hbr : (readBr cx st t x plane x4 y4 sc ptype lv).Safe (cdfLayout k) (fun v => 0 ≤ v ∧ v ≤ 15) := by
      unfold readBr
      split
      · exact (brLoop_safe k hr hq x hpt 4 lv).mono (fun v hv => by omega)
      · exact ⟨by omega, by omega⟩
    refine Rd.Safe.seq hbr (fun v hv => ?_)
    have hl := hq.len
    refine Rd.Safe.seq (Q := fun q => q = st.quant.set x v) (Sat.lift ⟨_, goSet_lt' v (by omega), rfl⟩) (fun q hqe => ?_)
    subst hqe
    refine (ih (by omega) { st with quant := st.quant.set x v } hr (hq.set x hv)).mono ?_
    rintro st' ⟨q, rfl, h1, h2⟩
    exact ⟨q, rfl, h1, (Keep.set st.quant hpn v).trans h2⟩

/-! ## Golomb codes and signs -/

theorem golombLen_safe {L : Layout} (fuel n : Nat) : (golombLen fuel n).Safe L (fun m => n < m ∧ m ≤ n + fuel) := by
  induction fuel generalizing n with
  | zero => exact rfl
  | succ f ih =>
    unfold golombLen
    refine Rd.Safe.seq (lit1_safe (Q := fun _ => True) (fun _ _ => trivial)) (fun b _ => ?_)
    split
    · refine ⟨?_, ?_⟩ <;> omega
    · exact (ih _).mono (fun m hm => by omega)

theorem golombData_safe {L : Layout} (n x : Nat) :
    (golombData n x).Safe L (fun v => x * 2 ^ n ≤ v ∧ v < (x + 1) * 2 ^ n) := by
  induction n generalizing x with
  | zero => refine ⟨?_, ?_⟩ <;> omega
  | succ n ih =>
    unfold golombData
    refine Rd.Safe.seq (lit1_safe (Q := fun b => b < 2) (fun _ h => h)) (fun b hb => ?_)
    refine (ih _).mono ?_
    rintro v ⟨h1, h2⟩
    have e : 2 ^ (n + 1) = 2 * 2 ^ n := by rw [Nat.pow_succ]; omega
    rw [e]
    have a1 : x * (2 * 2 ^ n) ≤ (2 * x + b) * 2 ^ n := by
      rw [← Nat.mul_assoc, Nat.mul_comm x 2]; exact Nat.mul_le_mul_right _ (by omega)
    have a2 : (2 * x + b + 1) * 2 ^ n ≤ (x + 1) * (2 * 2 ^ n) := by
      rw [← Nat.mul_assoc]; exact Nat.mul_le_mul_right _ (by omega)
    omega

theorem wrap64_range (x : Int) : -2 ^ 63 ≤ wrap64 x ∧ wrap64 x < 2 ^ 63 := by unfold wrap64; omega

theorem wrap64_of {x : Int} (h1 : -2 ^ 63 ≤ x) (h2 : x < 2 ^ 63) : wrap64 x = x := by unfold wrap64; omega

theorem and16_wrap64 (x : Int) : and16 (wrap64 x) = and16 x := by unfold and16 wrap64; omega

theorem readLevel_safe {L : Layout} (fuel : Nat) (level : Int) :
    (readLevel fuel level).Safe L (fun v => (level ≤ 14 → v = level) ∧ (14 < level → -2 ^ 63 ≤ v ∧ v < 2 ^ 63)) := by
  unfold readLevel
  split
  · unfold readGolomb
    refine Rd.Safe.seq (Q := fun _ => True) (Rd.Safe.seq (golombLen_safe fuel 0) (fun n hn => (golombData_safe _ _).mono (fun v hv => trivial))) (fun x _ => ?_)
    exact ⟨fun h => by omega, fun _ => wrap64_range _⟩
  · exact ⟨fun _ => rfl, fun h => by omega⟩

theorem readSign_safe (k : Fin 4) {c : BlkCtx} {A L TH TW plane t x4 y4 : Nat} (hp : Place c A L TH TW plane t x4 y4)
    {st : CoefSt} (ha : Shape 3 A st.aboveDc) (hl : Shape 3 L st.leftDc) {ptype : Nat} (hpt : ptype < 2) (n : Nat)
    (level : Int) :
    (readSign c st plane (txWidth.getD t 0 >>> 2) (txHeight.getD t 0 >>> 2) x4 y4 ptype n level).Safe (cdfLayout k)
      (fun s => s < 2 ∧ (n ≠ 0 → s = 0)) := by
  unfold readSign
  split
  · split
    · rename_i h0
      refine Rd.Safe.seq (dcSignCtx_sat hp ha hl).lift (fun x hx => ?_)
      exact Rd.Safe.read (count2 k (iDcSign k) (by omega) (by omega)) (fun s hs => ⟨hs, fun h => absurd h0 h⟩)
    · exact ⟨by decide, fun _ => rfl⟩
  · exact ⟨by decide, fun _ => rfl⟩

/-- No coefficient of the coded area but the first is negative. -/
def AcNonneg (n : Nat) (q : List Int) : Prop := ∀ p v, p ≠ 0 → p < n → q[p]? = some v → 0 ≤ v

theorem AcNonneg.set {n : Nat} {q : List Int} (h : AcNonneg n q) {x : Nat} {w : Int} (hw : x ≠ 0 → 0 ≤ w) :
    AcNonneg n (q.set x w) := by
  intro p v h0 hn hv
  by_cases hxp : x = p
  · subst hxp
    rw [List.getElem?_set] at hv
    simp only [if_true] at hv
    split at hv
    · cases hv; exact hw h0
    · cases hv
  · rw [List.getElem?_set_ne hxp] at hv
    exact h p v h0 hn hv

theorem AcNonneg.of_area {n : Nat} {hi : Int} {q : List Int} (h : InArea n 0 hi q) : AcNonneg n q := by
  intro p v _ hn hv
  obtain ⟨v2, hv2, h0, _⟩ := h p hn
  rw [hv] at hv2; cases hv2; exact h0

theorem signLoop_safe (k : Fin 4) (fuel : Nat) {cx : BlkCtx} {A L TH TW plane t x4 y4 : Nat}
    (hp : Place cx A L TH TW plane t x4 y4) {scan : List Nat} (hscan : ScanOk (cW t * cH t) scan) {ptype : Nat} (hpt : ptype < 2)
    (hinj : ∀ i j p, i < j → j < cW t * cH t → scan[i]? = some p → scan[j]? ≠ some p)
    (n c : Nat) (hn : c + n ≤ cW t * cH t) (st : CoefSt) (ha : Shape 3 A st.aboveDc) (hl : Shape 3 L st.leftDc)
    (hq : InArea (cW t * cH t) (-65535) 65535 st.quant)
    (hpos : ∀ i p v, c ≤ i → i < cW t * cH t → scan[i]? = some p → st.quant[p]? = some v → 0 ≤ v)
    (h00 : scan[0]? = some 0) (hac : AcNonneg (cW t * cH t) st.quant) (cul dc : Int) (hcul : 0 ≤ cul) (hdc : DcOk dc) :
    (signLoop fuel cx scan plane (txWidth.getD t 0 >>> 2) (txHeight.getD t 0 >>> 2) x4 y4 ptype n c st cul dc).Safe
      (cdfLayout k)
      (fun r => (∃ q, r.1 = { st with quant := q } ∧ InArea (cW t * cH t) (-65535) 65535 q ∧
        Keep (cW t * cH t) st.quant q ∧ AcNonneg (cW t * cH t) q) ∧ 0 ≤ r.2.1 ∧ DcOk r.2.2) := by
  induction n generalizing st c cul dc with
  | zero => exact ⟨⟨st.quant, rfl, hq, Keep.refl _ _, hac⟩, hcul, hdc⟩
  | succ n ih =>
    unfold signLoop
    obtain ⟨p, hpp, hpn⟩ := hscan c (by omega)
    refine Rd.Safe.seq (Q := fun x => x = p) (Sat.lift ⟨p, goGet_of hpp, rfl⟩) (fun x hx => ?_)
    subst hx
    obtain ⟨v, hv, -, -⟩ := hq x hpn
    have hv0 := hpos c x v (by omega) (by omega) hpp hv
    refine Rd.Safe.seq (Q := fun l => l = v) (Sat.lift ⟨v, goGet_of hv, rfl⟩) (fun l hle => ?_)
    subst hle
    refine Rd.Safe.seq (readSign_safe k hp ha hl hpt c l) (fun s hs => ?_)
    refine Rd.Safe.seq (readLevel_safe fuel l) (fun lv hlv => ?_)
    have hlen := hq.len
    have h16 : 0 ≤ and16 lv ∧ and16 lv ≤ 65535 := by unfold and16; omega
    dsimp only
    have hw : (-65535 : Int) ≤ (if s ≠ 0 then -and16 lv else and16 lv) ∧ (if s ≠ 0 then -and16 lv else and16 lv) ≤ 65535 := by
      split <;> omega
    have hw0 : x ≠ 0 → 0 ≤ (if s ≠ 0 then -and16 lv else and16 lv) := by
      intro hx0
      rw [if_neg (not_not.mpr (hs.2 (by rintro rfl; rw [h00] at hpp; cases hpp; exact hx0 rfl)))]
      exact h16.1
    generalize (if s ≠ 0 then -and16 lv else and16 lv) = w at hw hw0
    refine Rd.Safe.seq (Q := fun q => q = st.quant.set x w) (Sat.lift ⟨_, goSet_lt' w (by omega), rfl⟩) (fun q hqe => ?_)
    subst hqe
    refine (ih (c + 1) (by omega) { st with quant := st.quant.set x w } ha hl (hq.set x hw) ?_ (hac.set hw0) _ _ (by omega) ?_).mono ?_
    · intro i p' v' h1 h2 h3 h4
      have hne : x ≠ p' := by
        rintro rfl
        exact hinj c i x (by omega) h2 hpp h3
      rw [List.getElem?_set_ne hne] at h4
      exact hpos i p' v' (by omega) h2 h3 h4
    · split
      · split
        · exact ⟨by decide, by decide⟩
        · exact ⟨by decide, by decide⟩
      · exact hdc
    · rintro r ⟨⟨q, hr, h1, h2, h5⟩, h3, h4⟩
      exact ⟨⟨q, hr, h1, (Keep.set st.quant hpn w).trans h2, h5⟩, h3, h4⟩

theorem isScan_ok {w h : Nat} {scan : List Nat} (hs : IsScan w h scan) : ScanOk (w * h) scan ∧
    ∀ i j p, i < j → j < w * h → scan[i]? = some p → scan[j]? ≠ some p := by
  have hl : scan.length = w * h := by rw [hs.length_eq, List.length_range]
  have hnd : scan.Nodup := hs.nodup_iff.mpr List.nodup_range
  refine ⟨fun c hc => ⟨scan[c]'(by omega), List.getElem?_eq_getElem (by omega), ?_⟩, ?_⟩
  · have := hs.mem_iff.mp (List.getElem_mem (show c < scan.length by omega))
    exact List.mem_range.mp this
  · intro i j p hij hj hi hjp
    rw [List.getElem?_eq_getElem (by omega), Option.some.injEq] at hi hjp
    exact (List.pairwise_iff_getElem.mp hnd i j (by omega) (by omega) hij) (hi.trans hjp.symm)

theorem getScan_ok {t : Nat} (ht : t < 19) {ty : Int} (hf : TyFit t ty) :
    ∃ scan, getScan t ty = .ok scan ∧ IsScan (cW t) (cH t) scan := by
  obtain ⟨y, rfl⟩ : ∃ y : Nat, ty = y := ⟨ty.toNat, (Int.toNat_of_nonneg hf.1).symm⟩
  refine C50_positions t y ht (fun h => hf.2.2 ?_)
  rcases h with h | h
  · simp only [vertical, Bool.or_eq_true, beq_iff_eq] at h
    rcases h with (rfl | rfl) | rfl <;> decide
  · simp only [horizontal, Bool.or_eq_true, beq_iff_eq] at h
    rcases h with (rfl | rfl) | rfl <;> decide

theorem scan_first (t : Nat) (ht : t < 19) (ty : Int) (hty : 0 ≤ ty ∧ ty < 16) (scan : List Nat) (h : getScan t ty = .ok scan) :
    scan[0]? = some 0 := by
  have key : ∀ t < 19, ∀ y < 16, (match getScan t ((y : Nat) : Int) with | .ok s => s[0]? == some 0 | .error _ => true) = true := by
    decide +kernel
  have := key t ht ty.toNat (by omega)
  rw [Int.toNat_of_nonneg hty.1, h] at this
  simpa using this

theorem sc_lt : ∀ t < 19, (txSizeSqr.getD t 0 + txSizeSqrUp.getD t 0 + 1) >>> 1 < 5 ∧
    ((txSizeSqr.getD t 0 + txSizeSqrUp.getD t 0 + 1) >>> 1 = 0 → t = 0) := by decide

theorem area_le : ∀ t < 19, cW t * cH t ≤ 1024 := by decide
theorem segEob_eq : ∀ t < 19, segEob t = .ok (cW t * cH t) := by decide +kernel

theorem transformType_safe (k : Fin 4) {cx : BlkCtx} (hc : cx.Ok) {A L TH TW plane t x4 y4 : Nat}
    (hp : Place cx A L TH TW plane t x4 y4) (h0 : plane = 0) {st : CoefSt} (hst : st.Inv A L TH TW) :
    (transformType cx st x4 y4 t).Safe (cdfLayout k) (fun st' => ∃ ty m, st' = { st with txType := ty, txTypes := m } ∧
      Shape TH TW m ∧ Cells TypeOk m ∧ CellFit m plane t x4 y4) := by
  unfold transformType
  refine Rd.Safe.seq (readTxType_safe k hc hp.sz) (fun ty hty => ?_)
  rw [Sat.tab 0 (by rw [len19.1]; exact hp.sz), Sat.tab 0 (by rw [len19.2.1]; exact hp.sz)]
  refine Rd.Safe.seq (Sat.lift (Sat.ok rfl)) (fun q hq => ?_)
  subst hq
  refine Rd.Safe.seq (Sat.lift (Sat.ok rfl)) (fun q hq => ?_)
  subst hq
  have hw : txWidth.getD t 0 >>> 2 = txWidth.getD t 0 / 4 := by rw [Nat.shiftRight_eq_div_pow]
  have hh : txHeight.getD t 0 >>> 2 = txHeight.getD t 0 / 4 := by rw [Nat.shiftRight_eq_div_pow]
  rw [hw, hh]
  obtain ⟨hx, hy⟩ := hp.types h0
  refine Rd.Safe.seq (fillTxTypes_sat hst.types hst.typesOk hx hy hty.ok).lift (fun m hm => ?_)
  obtain ⟨m1, m2, m3, -⟩ := hm
  have hpos := w4_pos t hp.sz
  exact ⟨ty, m, rfl, m1, m2, fun _ => ⟨ty, m3 y4 x4 (by omega) (by omega) (by omega) (by omega), hty⟩⟩

/-- The blocks of chroma 4x4 transforms of the highest quantizer class are excluded (see C94). -/
def ClassOk (k : Fin 4) (plane t : Nat) : Prop := k ≠ 3 ∨ plane = 0 ∨ t ≠ 0

theorem codedCoefs_safe (k : Fin 4) (fuel : Nat) {cx : BlkCtx} (hc : cx.Ok) {A L TH TW plane t x4 y4 : Nat}
    (hp : Place cx A L TH TW plane t x4 y4) (hk : ClassOk k plane t) {st : CoefSt} (hst : st.Inv A L TH TW)
    (hq : InArea (cW t * cH t) 0 0 st.quant) :
    (codedCoefs fuel cx st plane t (txWidth.getD t 0 >>> 2) (txHeight.getD t 0 >>> 2) x4 y4
      ((txSizeSqr.getD t 0 + txSizeSqrUp.getD t 0 + 1) >>> 1) (if plane > 0 then 1 else 0)).Safe (cdfLayout k)
      (fun r => r.1.Inv A L TH TW ∧ InArea (cW t * cH t) (-65535) 65535 r.1.quant ∧ Keep (cW t * cH t) st.quant r.1.quant ∧
        AcNonneg (cW t * cH t) r.1.quant ∧ LevelOk r.2.1 ∧ DcOk r.2.2) := by
  unfold codedCoefs
  obtain ⟨hsc, hsc0⟩ := sc_lt t hp.sz
  have hpt : (if plane > 0 then 1 else 0) < 2 := by split <;> omega
  have hbase : BaseOk k ((txSizeSqr.getD t 0 + txSizeSqrUp.getD t 0 + 1) >>> 1) (if plane > 0 then 1 else 0) := by
    rcases hk with h | h | h
    · exact .inl h
    · exact .inr (.inr (by rw [if_neg (by omega)]))
    · exact .inr (.inl (fun h' => h (hsc0 h')))
  generalize (txSizeSqr.getD t 0 + txSizeSqrUp.getD t 0 + 1) >>> 1 = sc at *
  generalize (if plane > 0 then 1 else 0) = pt at *
  have htr : (lumaTxType cx st plane x4 y4 t).Safe (cdfLayout k) (fun st' =>
      ∃ ty m, st' = { st with txType := ty, txTypes := m } ∧ Shape TH TW m ∧ Cells TypeOk m ∧ CellFit m plane t x4 y4) := by
    unfold lumaTxType
    split
    · exact transformType_safe k hc hp ‹_› hst
    · exact ⟨st.txType, st.txTypes, rfl, hst.types, hst.typesOk, fun h => absurd h ‹_›⟩
  refine Rd.Safe.seq htr ?_
  rintro st1 ⟨ty0, m, rfl, hm1, hm2, hm3⟩
  obtain ⟨ty, hty, hfit⟩ := computeTxType_sat hc hp hm1 hm2 hm3
  refine Rd.Safe.seq (Q := fun x => x = ty) (Sat.lift ⟨ty, hty, rfl⟩) (fun x hx => ?_)
  subst hx
  obtain ⟨scan, hs1, hs2⟩ := getScan_ok hp.sz hfit
  refine Rd.Safe.seq (Q := fun s => s = scan) (Sat.lift ⟨scan, hs1, rfl⟩) (fun s hs => ?_)
  subst hs
  obtain ⟨ho, hinj⟩ := isScan_ok hs2
  dsimp only
  have hrd : Reading cx plane t x4 y4 m x := ⟨hty, hfit, hp.sz⟩
  refine Rd.Safe.seq (readEobPt_safe k (ty := x) (st := { st with txType := ty0, txTypes := m, planeTxType := x }) hrd hpt) (fun e he => ?_)
  have h11 : e ≤ 11 := by
    rcases Nat.lt_or_ge 11 e with hlt | hge
    · have h1 : 2 ^ 11 ≤ 2 ^ (e - 1) := Nat.pow_le_pow_right (by omega) (by omega)
      have h2 := area_le t hp.sz
      have h3 : (2 : Nat) ^ 11 = 2048 := by decide
      omega
    · exact hge
  refine Rd.Safe.seq (readEob_safe k hsc hpt he.1 he.2 h11) (fun eob heob => ?_)
  refine Rd.Safe.seq (levelLoop_safe k (ty := x) ho hsc hpt hbase eob eob heob.2
    { st with txType := ty0, txTypes := m, planeTxType := x } hrd (hq.mono (by omega) (by omega))) ?_
  rintro st2 ⟨q, rfl, hq1, hq2⟩
  have hnn : ∀ i p v, 0 ≤ i → i < cW t * cH t → s[i]? = some p → q[p]? = some v → 0 ≤ v := by
    intro i p v _ hi hp' hv
    obtain ⟨p2, hp2, hlt⟩ := ho i hi
    rw [hp'] at hp2; cases hp2
    obtain ⟨v2, hv2, h0, _⟩ := hq1 p hlt
    rw [hv] at hv2; cases hv2; exact h0
  refine Rd.Safe.seq (signLoop_safe k fuel hp ho hpt hinj eob 0 (by omega)
    { st with txType := ty0, txTypes := m, planeTxType := x, quant := q } hst.ad hst.ld (hq1.mono (by omega) (by omega)) hnn
    (scan_first t hp.sz x hfit.ok s hs1) (AcNonneg.of_area hq1) 0 0 (by omega) ⟨by omega, by omega⟩) ?_
  rintro ⟨st3, cul, dc⟩ ⟨⟨q', h1, h2, h3, h6⟩, h4, h5⟩
  dsimp only at h1 h4 h5
  subst h1
  have hkeep := hq2.trans h3
  refine ⟨⟨?_, hst.dequant, hm1, hm2, hst.al, hst.alOk, hst.ad, hst.adOk, hst.ll, hst.llOk, hst.ld, hst.ldOk⟩, h2, hkeep, h6, ?_, h5⟩
  · exact hkeep.1.trans hst.quant
  · show LevelOk (minI 63 cul)
    unfold minI LevelOk; split <;> omega

theorem fillCtx_sat {A plane p n : Nat} {m : List (List Int)} {P : Int → Prop} (hs : Shape 3 A m) (hc : Cells P m)
    (hpl : plane < 3) (hp : p + n ≤ A) {v : Int} (hv : P v) :
    Sat (fillCtx m plane p n v) (fun m' => Shape 3 A m' ∧ Cells P m') := by
  unfold fillCtx
  refine Sat.forN (fun _ (m' : List (List Int)) => Shape 3 A m' ∧ Cells P m') ⟨hs, hc⟩ ?_ (fun _ h => h)
  rintro i m' - hi ⟨h1, h2⟩
  exact Sat.gset h1 h2 (by omega) (by omega) hv (fun m'' a b _ _ => ⟨a, b⟩)

theorem clearCoefs_sat {A L TH TW : Nat} {st : CoefSt} (hst : st.Inv A L TH TW) {n : Nat} (hn : n ≤ 4096) :
    Sat (clearCoefs st n) (fun st' => ∃ q d, st' = { st with quant := q, dequant := d } ∧ InArea n 0 0 q ∧ Keep n st.quant q ∧
      Shape 64 64 d ∧ Cells (fun v => v = 0) d) := by
  unfold clearCoefs
  have h1 : Sat (forN (fun i (m : List Int) => goSet m i 0) n 0 st.quant) (fun q => InArea n 0 0 q ∧ Keep n st.quant q) := by
    refine Sat.forN (fun i (q : List Int) => InArea i 0 0 q ∧ Keep n st.quant q) ⟨by intro i hi; omega, Keep.refl _ _⟩ ?_
      (fun q h => by simpa using h)
    rintro i q - hi ⟨ha, hb⟩
    have hl := hb.1
    have hl2 := hst.quant
    refine Sat.set (by omega) (by omega) ⟨?_, hb.trans (Keep.set _ (by omega) _)⟩
    rw [Int.toNat_natCast]
    intro j hj
    by_cases hji : i = j
    · subst hji; exact ⟨0, List.getElem?_set_self (by omega), by omega, by omega⟩
    · rw [List.getElem?_set_ne hji]
      exact ha j (by omega)
  refine Sat.bind h1 (fun q hq => ?_)
  have h2 : Sat (forN (fun i m => forN (fun j m => gset m i j 0) 64 0 m) 64 0 st.dequant)
      (fun d : List (List Int) => Shape 64 64 d ∧ ∀ a b, a < 64 → b < 64 → at2 d a b = some 0) := by
    refine Sat.forN (fun i (d : List (List Int)) => Shape 64 64 d ∧ ∀ a b, a < i → b < 64 → at2 d a b = some 0)
      ⟨hst.dequant, by intros; omega⟩ ?_ (fun d h => ⟨h.1, fun a b ha hb => h.2 a b (by omega) hb⟩)
    rintro i d - hi ⟨ha, hb⟩
    refine Sat.forN (fun j (d : List (List Int)) => Shape 64 64 d ∧ (∀ a b, a < i → b < 64 → at2 d a b = some 0) ∧
      ∀ b, b < j → at2 d i b = some 0) ⟨ha, hb, by intros; omega⟩ ?_ ?_
    · rintro j d' - hj ⟨g1, g2, g3⟩
      refine Sat.gset (P := fun _ => True) g1 (fun _ _ _ _ => trivial) (by omega) (by omega) trivial ?_
      intro m' e1 _ e3 e4
      rw [Int.toNat_natCast, Int.toNat_natCast] at e3 e4
      refine ⟨e1, ?_, ?_⟩
      · intro a b ha' hb'
        rw [e4 a b (by intro h; simp only [Prod.mk.injEq] at h; omega)]
        exact g2 a b ha' hb'
      · intro b hb'
        by_cases hbj : b = j
        · rw [hbj]; exact e3
        · rw [e4 i b (by intro h; simp only [Prod.mk.injEq] at h; omega)]
          exact g3 b (by omega)
    · rintro d' ⟨g1, g2, g3⟩
      refine ⟨g1, ?_⟩
      intro a b ha' hb'
      by_cases hai : a = i
      · rw [hai]; exact g3 b (by omega)
      · exact g2 a b (by omega) hb'
  refine Sat.bind h2 (fun d hd => Sat.pure ⟨q, d, rfl, hq.1, hq.2, hd.1, ?_⟩)
  apply Cells.of_at2
  intro i j a hij
  have hi : i < 64 := by
    rcases Nat.lt_or_ge i 64 with h | h
    · exact h
    · rw [at2, List.getElem?_eq_none (by rw [hd.1.1]; exact h)] at hij; cases hij
  have hj : j < 64 := by
    obtain ⟨r, hr, hl⟩ := hd.1.row hi
    rcases Nat.lt_or_ge j 64 with h | h
    · exact h
    · rw [at2, hr, Option.bind_some, List.getElem?_eq_none (by omega)] at hij; cases hij
  have := hd.2 i j hi hj
  rw [hij] at this; cases this; rfl

theorem lvZero : LevelOk 0 := ⟨by decide, by decide⟩
theorem dcZero : DcOk 0 := ⟨by decide, by decide⟩

theorem shr2 (n : Nat) : ((4 * n : Nat) : Int) >>> (2 : Nat) = (n : Int) := by
  rw [Int.shiftRight_eq_div_pow]; push_cast; omega

/-- Safety of `coeffs`. -/
theorem coeffs_safe (k : Fin 4) (fuel : Nat) {cx : BlkCtx} (hc : cx.Ok) {A L TH TW plane t x4 y4 : Nat}
    (hp : Place cx A L TH TW plane t x4 y4) (hk : ClassOk k plane t) {st : CoefSt} (hst : st.Inv A L TH TW) :
    (coeffs fuel cx st plane ((4 * x4 : Nat) : Int) ((4 * y4 : Nat) : Int) t).Safe (cdfLayout k)
      (fun r => r.1.Inv A L TH TW ∧ InArea (cW t * cH t) (-65535) 65535 r.1.quant ∧
        Keep (cW t * cH t) st.quant r.1.quant ∧ AcNonneg (cW t * cH t) r.1.quant ∧ r.2 = 0) := by
  unfold coeffs
  rw [shr2, shr2]
  rw [Sat.tab 0 (by rw [len19.1]; exact hp.sz), Sat.tab 0 (by rw [len19.2.1]; exact hp.sz),
    Sat.tab 0 (by rw [len19.2.2.1]; exact hp.sz), Sat.tab 0 (by rw [len19.2.2.2.1]; exact hp.sz)]
  refine Rd.Safe.seq (Sat.lift (Sat.ok rfl)) (fun q hq => ?_)
  subst hq
  refine Rd.Safe.seq (Sat.lift (Sat.ok rfl)) (fun q hq => ?_)
  subst hq
  dsimp only
  refine Rd.Safe.seq (Sat.lift (Sat.ok rfl)) (fun q hq => ?_)
  subst hq
  refine Rd.Safe.seq (Sat.lift (Sat.ok rfl)) (fun q hq => ?_)
  subst hq
  refine Rd.Safe.seq (Q := fun n => n = cW t * cH t) (Sat.lift ⟨_, segEob_eq t hp.sz, rfl⟩) (fun n hn => ?_)
  subst hn
  have hA := hp.above
  have hL := hp.left
  have hpl := hp.pl
  have har := area_le t hp.sz
  refine Rd.Safe.seq (clearCoefs_sat hst (by omega)).lift ?_
  rintro st1 ⟨q, d, rfl, hq0, hqk, hd1, -⟩
  have hst1 : CoefSt.Inv A L TH TW { st with quant := q, dequant := d } :=
    ⟨hqk.1.trans hst.quant, hd1, hst.types, hst.typesOk, hst.al, hst.alOk, hst.ad, hst.adOk, hst.ll, hst.llOk, hst.ld, hst.ldOk⟩
  refine Rd.Safe.seq (allZeroCtx_sat hc hp hst1).lift (fun ctx hctx => ?_)
  obtain ⟨hsc, -⟩ := sc_lt t hp.sz
  refine Rd.Safe.seq (Rd.Safe.read (count2 k (iTxbSkip k) (by omega) (by omega)) (fun s hs => hs)) (fun az _ => ?_)
  have hw : txWidth.getD t 0 >>> 2 = txWidth.getD t 0 / 4 := by rw [Nat.shiftRight_eq_div_pow]
  have hh : txHeight.getD t 0 >>> 2 = txHeight.getD t 0 / 4 := by rw [Nat.shiftRight_eq_div_pow]
  have hbody : (coefBody fuel cx { st with quant := q, dequant := d } plane t (txWidth.getD t 0 >>> 2)
        (txHeight.getD t 0 >>> 2) x4 y4
        ((txSizeSqr.getD t 0 + txSizeSqrUp.getD t 0 + 1) >>> 1) (if plane > 0 then 1 else 0) az).Safe (cdfLayout k)
      (fun r => r.1.Inv A L TH TW ∧ InArea (cW t * cH t) (-65535) 65535 r.1.quant ∧ Keep (cW t * cH t) st.quant r.1.quant ∧
        AcNonneg (cW t * cH t) r.1.quant ∧ LevelOk r.2.1 ∧ DcOk r.2.2) := by
    unfold coefBody
    split
    · refine Sat.lift ?_
      unfold zeroCoefs
      split
      · rename_i h0
        obtain ⟨hx, hy⟩ := hp.types h0
        rw [hw, hh]
        refine Sat.bind (fillTxTypes_sat hst.types hst.typesOk hx hy ⟨by omega, by omega⟩) ?_
        rintro m ⟨m1, m2, -, -⟩
        exact Sat.pure ⟨⟨hst1.quant, hd1, m1, m2, hst.al, hst.alOk, hst.ad, hst.adOk, hst.ll, hst.llOk, hst.ld, hst.ldOk⟩,
          hq0.mono (by omega) (by omega), hqk, AcNonneg.of_area hq0, lvZero, dcZero⟩
      · exact Sat.pure ⟨hst1, hq0.mono (by omega) (by omega), hqk, AcNonneg.of_area hq0, lvZero, dcZero⟩
    · refine (codedCoefs_safe k fuel hc hp hk hst1 hq0).mono ?_
      rintro r ⟨h1, h2, h3, h6, h4, h5⟩
      exact ⟨h1, h2, hqk.trans h3, h6, h4, h5⟩
  refine Rd.Safe.seq hbody ?_
  rintro ⟨st2, cul, dc⟩ ⟨h1, h2, h3, h6, h4, h5⟩
  dsimp only at h1 h2 h3 h4 h5 h6 ⊢
  rw [hw, hh]
  refine Rd.Safe.seq (fillCtx_sat h1.al h1.alOk hpl hA h4).lift (fun al hal => ?_)
  refine Rd.Safe.seq (fillCtx_sat h1.ad h1.adOk hpl hA h5).lift (fun ad had => ?_)
  refine Rd.Safe.seq (fillCtx_sat h1.ll h1.llOk hpl hL h4).lift (fun ll hll => ?_)
  refine Rd.Safe.seq (fillCtx_sat h1.ld h1.ldOk hpl hL h5).lift (fun ld hld => ?_)
  exact ⟨⟨h1.quant, h1.dequant, h1.types, h1.typesOk, hal.1, hal.2, had.1, had.2, hll.1, hll.2, hld.1, hld.2⟩, h2, h3, h6, rfl⟩

end Gov1
