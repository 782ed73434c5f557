import Verif.Lemmas.Coeffs
/-! # The loops of the coefficient syntax -/
namespace Gov1
open Spec

/-! ## Contexts -/

theorem maxCtx_sat {ctx : List Int} {p n : Nat} {lim : Int} (h : p + n ≤ ctx.length) (hv : ∀ v ∈ ctx, LevelOk v) :
    Sat (maxCtx ctx p lim n) (fun v => 0 ≤ v ∧ v ≤ 63) := by
  unfold maxCtx
  refine Sat.forN (fun _ v => 0 ≤ v ∧ v ≤ 63) (by omega) ?_ (fun _ h => h)
  intro i acc _ hi hacc
  split
  · refine Sat.bind (Sat.getMem (by omega) (by omega) hv (fun _ h => h)) (fun v hv => Sat.pure ?_)
    unfold LevelOk at hv
    unfold maxI; split <;> omega
  · exact Sat.pure hacc

theorem orCtx_sat {lv dc : List Int} {p n : Nat} {lim : Int} (h : p + n ≤ lv.length) (h' : p + n ≤ dc.length) :
    Sat (orCtx lv dc p lim n) (fun _ => True) := by
  unfold orCtx
  refine Sat.forN (fun _ _ => True) trivial ?_ (fun _ h => h)
  intro i acc _ hi _
  split
  · refine Sat.bind (Sat.get (Q := fun _ => True) (by omega) (by omega) (fun _ _ => trivial)) (fun v _ => ?_)
    exact Sat.bind (Sat.get (Q := fun _ => True) (by omega) (by omega) (fun _ _ => trivial)) (fun v _ => Sat.pure trivial)
  · exact Sat.pure trivial

theorem dcSum_sat {dc : List Int} {p n : Nat} {lim acc : Int} (h : p + n ≤ dc.length) :
    Sat (dcSum dc p lim n acc) (fun _ => True) := by
  unfold dcSum
  refine Sat.forN (fun _ _ => True) trivial ?_ (fun _ h => h)
  intro i acc _ hi _
  split
  · exact Sat.bind (Sat.get (Q := fun _ => True) (by omega) (by omega) (fun _ _ => trivial)) (fun v _ => Sat.pure trivial)
  · exact Sat.pure trivial

theorem residualSize_sat {c : BlkCtx} (hc : c.Ok) (plane : Nat) :
    Sat (getPlaneResidualSize c.subX c.subY c.miSize plane) (fun b => b < 22) := by
  have key : ∀ s < 22, ∀ x < 2, ∀ y < 2, ∀ p < 2, (match getPlaneResidualSize x y s p with
    | .ok b => decide (b < 22)
    | .error _ => false) = true := by decide +kernel
  have e : getPlaneResidualSize c.subX c.subY c.miSize plane =
      getPlaneResidualSize c.subX c.subY c.miSize (min plane 1) := by
    unfold getPlaneResidualSize
    by_cases h : plane > 0
    · have : min plane 1 > 0 := by omega
      simp only [h, this, if_true]
    · have : ¬ min plane 1 > 0 := by omega
      simp only [h, this, if_false]
  rw [e]
  have := key c.miSize hc.size c.subX hc.subX c.subY hc.subY (min plane 1) (by omega)
  cases h : getPlaneResidualSize c.subX c.subY c.miSize (min plane 1) with
  | error e => rw [h] at this; cases this
  | ok b => rw [h] at this; exact ⟨b, rfl, by simpa using this⟩

theorem any_get {α : Type} {l : List α} {i : Int} (h0 : 0 ≤ i) (h1 : i < l.length) : Sat (goGet l i) (fun _ => True) :=
  Sat.get h0 h1 (fun _ _ => trivial)

theorem allZeroCtx_sat {c : BlkCtx} (hc : c.Ok) {A L TH TW plane t x4 y4 : Nat} (hp : Place c A L TH TW plane t x4 y4)
    {st : CoefSt} (hst : st.Inv A L TH TW) :
    Sat (allZeroCtx c st plane t (txWidth.getD t 0 >>> 2) (txHeight.getD t 0 >>> 2) x4 y4)
      (fun x => x < 13 ∧ (plane = 0 → x ≤ 6) ∧ (plane ≠ 0 → 7 ≤ x)) := by
  have hw : txWidth.getD t 0 >>> 2 = txWidth.getD t 0 / 4 := by rw [Nat.shiftRight_eq_div_pow]
  have hh : txHeight.getD t 0 >>> 2 = txHeight.getD t 0 / 4 := by rw [Nat.shiftRight_eq_div_pow]
  rw [hw, hh]
  have hA := hp.above
  have hL := hp.left
  have hpl := hp.pl
  unfold allZeroCtx
  rw [Sat.tab 0 (by rw [len19.1]; exact hp.sz), Res.ok_bind, Sat.tab 0 (by rw [len19.2.1]; exact hp.sz), Res.ok_bind]
  refine Sat.bind (residualSize_sat hc plane) (fun b hb => ?_)
  refine Sat.bind (any_get (by omega) (by show _ < ((22 : Nat) : Int); omega)) (fun bw _ => ?_)
  refine Sat.bind (any_get (by omega) (by show _ < ((22 : Nat) : Int); omega)) (fun bh _ => ?_)
  refine Sat.bind (Sat.row (i := plane) hst.al hst.alOk (by omega) (fun r h1 h2 => And.intro h1 h2)) (fun al hal => ?_)
  refine Sat.bind (Sat.row (i := plane) hst.ll hst.llOk (by omega) (fun r h1 h2 => And.intro h1 h2)) (fun ll hll => ?_)
  by_cases h0 : plane = 0
  · rw [if_pos h0]
    refine Sat.bind (maxCtx_sat (by omega) hal.2) (fun top _ => ?_)
    refine Sat.bind (maxCtx_sat (by omega) hll.2) (fun left _ => ?_)
    have h6 : ∀ x : Nat, x ≤ 6 → x < 13 ∧ (plane = 0 → x ≤ 6) ∧ (plane ≠ 0 → 7 ≤ x) := by intro x hx; omega
    dsimp only
    split
    · exact Sat.pure (h6 _ (by omega))
    · split
      · exact Sat.pure (h6 _ (by omega))
      · split
        · exact Sat.pure (h6 _ (by split <;> omega))
        · split
          · exact Sat.pure (h6 _ (by omega))
          · split
            · exact Sat.pure (h6 _ (by omega))
            · exact Sat.pure (h6 _ (by omega))
  · rw [if_neg h0]
    refine Sat.bind (Sat.row (i := plane) hst.ad hst.adOk (by omega) (fun r h1 h2 => And.intro h1 h2)) (fun ad had => ?_)
    refine Sat.bind (Sat.row (i := plane) hst.ld hst.ldOk (by omega) (fun r h1 h2 => And.intro h1 h2)) (fun ld hld => ?_)
    refine Sat.bind (orCtx_sat (by omega) (by omega)) (fun above _ => ?_)
    refine Sat.bind (orCtx_sat (by omega) (by omega)) (fun left _ => ?_)
    refine Sat.pure ⟨?_, fun h => absurd h h0, fun _ => ?_⟩
    · split <;> split <;> split <;> omega
    · split <;> split <;> split <;> omega

theorem dcSignCtx_sat {c : BlkCtx} {A L TH TW plane t x4 y4 : Nat} (hp : Place c A L TH TW plane t x4 y4)
    {st : CoefSt} (ha : Shape 3 A st.aboveDc) (hl : Shape 3 L st.leftDc) :
    Sat (dcSignCtx c st plane (txWidth.getD t 0 >>> 2) (txHeight.getD t 0 >>> 2) x4 y4) (fun x => x < 3) := by
  have hw : txWidth.getD t 0 >>> 2 = txWidth.getD t 0 / 4 := by rw [Nat.shiftRight_eq_div_pow]
  have hh : txHeight.getD t 0 >>> 2 = txHeight.getD t 0 / 4 := by rw [Nat.shiftRight_eq_div_pow]
  rw [hw, hh]
  have hA := hp.above
  have hL := hp.left
  have hpl := hp.pl
  have htr : ∀ m : List (List Int), Cells (fun _ => True) m := fun _ _ _ _ _ => trivial
  unfold dcSignCtx
  refine Sat.bind (Sat.row (i := plane) ha (htr _) (by omega) (fun r h1 _ => h1)) (fun ad had => ?_)
  refine Sat.bind (Sat.row (i := plane) hl (htr _) (by omega) (fun r h1 _ => h1)) (fun ld hld => ?_)
  refine Sat.bind (dcSum_sat (by omega)) (fun s _ => ?_)
  refine Sat.bind (dcSum_sat (by omega)) (fun s _ => ?_)
  refine Sat.pure ?_
  split
  · omega
  · split <;> omega

/-! ## Neighbourhoods -/

theorem ref_index {w h row col : Int} (h0 : 0 ≤ row) (h1 : 0 ≤ col) (h2 : row < h) (h3 : col < w) :
    0 ≤ row * w + col ∧ row * w + col < w * h := by
  constructor
  · have := Int.mul_nonneg h0 (show 0 ≤ w by omega); omega
  · have : (row + 1) * w ≤ h * w := Int.mul_le_mul_of_nonneg_right (by omega) (by omega)
    rw [Int.add_mul, Int.one_mul, Int.mul_comm h w] at this
    omega

theorem baseMag_sat {quant : List Int} {w h b : Nat} (hw : w = 2 ^ b) (hq : w * h ≤ quant.length) (row col : Int)
    (offs : List (Int × Int)) (mag : Int) (hm : 0 ≤ mag) :
    Sat (baseMag quant w h b row col offs mag) (fun v => 0 ≤ v) := by
  induction offs generalizing mag with
  | nil => exact Sat.ok hm
  | cons o offs ih =>
    obtain ⟨dr, dc⟩ := o
    simp only [baseMag]
    split
    · rename_i hc
      obtain ⟨c1, c2, c3, c4⟩ := hc
      have e : (row + dr) <<< (b : Int).toNat + (col + dc) = (row + dr) * w + (col + dc) := by
        rw [Int.shiftLeft_eq, Int.toNat_natCast, hw]; push_cast; rfl
      rw [e]
      have := ref_index (w := w) (h := h) c1 c2 c3 c4
      refine Sat.bind (any_get this.1 (by have : ((w * h : Nat) : Int) ≤ quant.length := by omega
                                          push_cast at this; omega)) (fun v _ => ih _ ?_)
      unfold minI absI
      split <;> split <;> omega
    · exact ih _ hm

theorem brMag_sat {quant : List Int} {w h : Nat} (hq : ∀ i < w * h, ∃ v, quant[i]? = some v ∧ 0 ≤ v) (row col : Int)
    (offs : List (Int × Int)) (mag : Int) (hm : 0 ≤ mag) :
    Sat (brMag quant w h w row col offs mag) (fun v => 0 ≤ v) := by
  induction offs generalizing mag with
  | nil => exact Sat.ok hm
  | cons o offs ih =>
    obtain ⟨dr, dc⟩ := o
    simp only [brMag]
    split
    · rename_i hc
      obtain ⟨c1, c2, c3, c4⟩ := hc
      have := ref_index (w := w) (h := h) c1 c2 c3 c4
      obtain ⟨v, hv, hv0⟩ := hq ((row + dr) * w + (col + dc)).toNat (by
        have h2 := this.2; have h1 := this.1
        have e : ((w * h : Nat) : Int) = (w : Int) * h := by push_cast; rfl
        omega)
      refine Sat.bind (P := fun v => 0 ≤ v) ?_ (fun v hv => ih _ ?_)
      · refine ⟨v, ?_, hv0⟩
        rw [goGet, if_neg (by omega), hv]
      · unfold minI; split <;> omega
    · exact ih _ hm

theorem rowcol {pos w h b : Nat} (hw : w = 2 ^ b) (hp : pos < w * h) :
    ((pos : Int) >>> b) = ((pos / w : Nat) : Int) ∧ pos / w < h ∧
    ((pos : Int) - ((pos : Int) >>> b) <<< b) = ((pos % w : Nat) : Int) ∧ pos % w < w := by
  have e1 : ((pos : Int) >>> b) = ((pos / w : Nat) : Int) := by
    rw [Int.shiftRight_eq_div_pow, hw]; push_cast; rfl
  have hwp : 0 < w := by rw [hw]; exact Nat.two_pow_pos b
  refine ⟨e1, (Nat.div_lt_iff_lt_mul hwp).mpr (by rw [Nat.mul_comm]; exact hp), ?_, Nat.mod_lt _ hwp⟩
  rw [e1, Int.shiftLeft_eq]
  have := Nat.div_add_mod pos w
  have h2 : ((w * (pos / w) + pos % w : Nat) : Int) = pos := by rw [this]
  rw [hw] at h2 ⊢
  push_cast at h2 ⊢
  rw [Int.mul_comm] at h2
  omega

theorem minI_nat (a b : Nat) : minI a b = ((min a b : Nat) : Int) := by
  unfold minI; split <;> omega

/-- What stays fixed while the coefficients of a block are read. -/
structure Reading (cx : BlkCtx) (plane t x4 y4 : Nat) (tt : List (List Int)) (ty : Int) : Prop where
  cty : computeTxType cx tt plane t x4 y4 = .ok ty
  fit : TyFit t ty
  size : t < 19

theorem getTxClass_lt (ty : Int) : getTxClass ty < 3 := by
  unfold getTxClass; split
  · omega
  · split <;> omega

theorem getCoeffBaseCtx_sat {cx : BlkCtx} {plane t x4 y4 : Nat} {st : CoefSt} {ty : Int}
    (hr : Reading cx plane t x4 y4 st.txTypes ty) (hq : cW t * cH t ≤ st.quant.length) {pos : Nat} (hpos : pos < cW t * cH t)
    (c : Nat) (isEob : Bool) :
    Sat (getCoeffBaseCtx cx st t plane x4 y4 pos c isEob)
      (fun x => if isEob then 38 ≤ x ∧ x < 42 else 0 ≤ x ∧ x < 42) := by
  obtain ⟨b, hb, hw, htw, hth, hadj, hw32, hh32, hh1⟩ := adj_eq t hr.size
  unfold getCoeffBaseCtx
  rw [Sat.tab 0 (by rw [len19.2.2.2.2.2.2.1]; exact hr.size), Res.ok_bind,
    Sat.tab 0 (by rw [len19.2.2.2.2.1]; exact hadj), Res.ok_bind, Sat.tab 0 (by rw [len19.2.1]; exact hadj), Res.ok_bind,
    hr.cty, Res.ok_bind, hb, hth]
  cases isEob with
  | true =>
    simp only [if_true]
    refine Sat.pure ?_
    unfold eobBaseCtx
    split
    · omega
    · split
      · omega
      · split <;> omega
  | false =>
    simp only [Bool.false_eq_true, if_false]
    obtain ⟨r1, r2, r3, r4⟩ := rowcol hw hpos
    rw [r3, r1]
    have hcl := getTxClass_lt ty
    refine Sat.bind (any_get (by omega) (by show _ < ((3 : Nat) : Int); omega)) (fun offs _ => ?_)
    have e1 : ((1 <<< b : Nat) : Int) = ((cW t : Nat) : Int) := by rw [Nat.one_shiftLeft, hw]
    rw [e1]
    refine Sat.bind (baseMag_sat hw hq _ _ offs 0 (by omega)) (fun mag hmag => ?_)
    have hctx : 0 ≤ minI ((mag + 1) >>> (1 : Nat)) 4 ∧ minI ((mag + 1) >>> (1 : Nat)) 4 ≤ 4 := by
      have : 0 ≤ (mag + 1) >>> (1 : Nat) := by rw [Int.shiftRight_eq_div_pow]; omega
      unfold minI; split <;> omega
    split
    · split
      · exact Sat.pure (by omega)
      · rw [Sat.tab [] (by rw [len19.2.2.2.2.2.2.2]; exact hr.size), Res.ok_bind]
        have e4 : ((4 : Nat) : Int) = 4 := rfl
        rw [← e4, minI_nat, minI_nat]
        have ho := offs_ok t hr.size (min (pos / cW t) 4) (by omega) (min (pos % cW t) 4) (by omega)
        unfold gget
        rw [Sat.tab [] (by omega), Res.ok_bind, Sat.tab 99 (by omega), Res.ok_bind]
        refine Sat.pure ?_
        rw [e4]
        omega
    · have e2 : ((2 : Nat) : Int) = 2 := rfl
      have e3 : (if getTxClass ty = 2 then ((pos / cW t : Nat) : Int) else ((pos % cW t : Nat) : Int)) =
          ((if getTxClass ty = 2 then pos / cW t else pos % cW t : Nat) : Int) := by split <;> rfl
      rw [e3, ← e2, minI_nat]
      have hP : ∀ v ∈ coeffBasePosCtxOffset, v ≤ 36 := by decide
      refine Sat.bind (Sat.getMem (by omega) (by show _ < ((3 : Nat) : Int); omega) hP (fun _ h => h)) (fun o ho => Sat.pure ?_)
      omega

theorem coeffBrCtx_sat {cx : BlkCtx} {plane t x4 y4 : Nat} {st : CoefSt} {ty : Int}
    (hr : Reading cx plane t x4 y4 st.txTypes ty) (hq : ∀ i < cW t * cH t, ∃ v, st.quant[i]? = some v ∧ 0 ≤ v)
    {pos : Nat} : Sat (coeffBrCtx cx st t pos plane x4 y4) (fun x => 0 ≤ x ∧ x < 21) := by
  obtain ⟨b, hb, hw, htw, hth, hadj, hw32, hh32, hh1⟩ := adj_eq t hr.size
  unfold coeffBrCtx
  rw [Sat.tab 0 (by rw [len19.2.2.2.2.2.2.1]; exact hr.size), Res.ok_bind,
    Sat.tab 0 (by rw [len19.2.2.2.2.1]; exact hadj), Res.ok_bind, Sat.tab 0 (by rw [len19.1]; exact hadj), Res.ok_bind,
    Sat.tab 0 (by rw [len19.2.1]; exact hadj), Res.ok_bind, hr.cty, Res.ok_bind, hb, hth, htw]
  have hcl := getTxClass_lt ty
  refine Sat.bind (any_get (by omega) (by show _ < ((3 : Nat) : Int); omega)) (fun offs _ => ?_)
  have e1 : ((1 <<< b : Nat) : Int) = ((cW t : Nat) : Int) := by rw [Nat.one_shiftLeft, hw]
  rw [e1]
  refine Sat.bind (brMag_sat hq _ _ offs 0 (by omega)) (fun mag hmag => ?_)
  have hctx : 0 ≤ minI ((mag + 1) >>> (1 : Nat)) 6 ∧ minI ((mag + 1) >>> (1 : Nat)) 6 ≤ 6 := by
    have : 0 ≤ (mag + 1) >>> (1 : Nat) := by rw [Int.shiftRight_eq_div_pow]; omega
    unfold minI; split <;> omega
  refine Sat.pure ?_
  generalize minI ((mag + 1) >>> (1 : Nat)) 6 = m at *
  repeat' split
  all_goals omega

/-! ## The end of block position -/

theorem m_area : ∀ t < 19, (min (txWidthLog2.getD t 0) 5 + min (txHeightLog2.getD t 0) 5 - 4) ≤ 6 ∧
    cW t * cH t = 2 ^ ((min (txWidthLog2.getD t 0) 5 + min (txHeightLog2.getD t 0) 5 - 4) + 4) := by decide

theorem readEobPt_safe (k : Fin 4) {cx : BlkCtx} {plane t x4 y4 : Nat} {st : CoefSt} {ty : Int}
    (hr : Reading cx plane t x4 y4 st.txTypes ty) {ptype : Nat} (hpt : ptype < 2) :
    (readEobPt cx st plane t x4 y4 ptype).Safe (cdfLayout k)
      (fun e => 1 ≤ e ∧ 2 ^ (e - 1) ≤ cW t * cH t) := by
  unfold readEobPt
  rw [Sat.tab 0 (by rw [len19.2.2.2.2.1]; exact hr.size), Sat.tab 0 (by rw [len19.2.2.2.2.2.1]; exact hr.size)]
  refine Rd.Safe.seq (Sat.lift (Sat.ok rfl)) (fun q hq => ?_)
  subst hq
  refine Rd.Safe.seq (Sat.lift (Sat.ok rfl)) (fun q hq => ?_)
  subst hq
  obtain ⟨h6, har⟩ := m_area t hr.size
  rw [har]
  generalize min (txWidthLog2.getD t 0) 5 + min (txHeightLog2.getD t 0) 5 - 4 = m at *
  have fin : ∀ s, s < m + 5 → 1 ≤ s + 1 ∧ 2 ^ (s + 1 - 1) ≤ 2 ^ (m + 4) := by
    intro s hs; exact ⟨by omega, Nat.pow_le_pow_right (by omega) (by omega)⟩
  dsimp only
  split
  · have hctx : Sat (getEobPtCtx cx st plane t x4 y4) (fun c => c < 2) := by
      unfold getEobPtCtx
      rw [hr.cty, Res.ok_bind]
      refine Sat.pure ?_
      split <;> omega
    refine Rd.Safe.seq hctx.lift (fun ctx hc => ?_)
    have hcount : (cdfLayout k).count (if m = 0 then "EobPt16" else if m = 1 then "EobPt32" else if m = 2 then "EobPt64"
      else if m = 3 then "EobPt128" else "EobPt256") [(ptype : Int), ctx] = some (m + 5) := by
      have : m = 0 ∨ m = 1 ∨ m = 2 ∨ m = 3 ∨ m = 4 := by omega
      rcases this with rfl | rfl | rfl | rfl | rfl
      · exact count2 k (iEobPt16 k) (by omega) (by omega)
      · exact count2 k (iEobPt32 k) (by omega) (by omega)
      · exact count2 k (iEobPt64 k) (by omega) (by omega)
      · exact count2 k (iEobPt128 k) (by omega) (by omega)
      · exact count2 k (iEobPt256 k) (by omega) (by omega)
    exact Rd.Safe.seq (Rd.Safe.read hcount (fun s hs => hs)) (fun s hs => fin s hs)
  · have hcount : (cdfLayout k).count (if m = 5 then "EobPt512" else "EobPt1024") [(ptype : Int)] = some (m + 5) := by
      have : m = 5 ∨ m = 6 := by omega
      rcases this with rfl | rfl
      · exact count1 k (iEobPt512 k) (by omega)
      · exact count1 k (iEobPt1024 k) (by omega)
    exact Rd.Safe.seq (Rd.Safe.read hcount (fun s hs => hs)) (fun s hs => fin s hs)

theorem lit1_safe {L : Layout} {Q : Nat → Prop} (h : ∀ b < 2, Q b) : (Rd.lit 1).Safe L Q := by
  intro b hb
  show Q (2 * 0 + b)
  rw [Nat.mul_zero, Nat.zero_add]
  exact h b hb

theorem eobBits_safe {L : Layout} (n eob : Nat) : (eobBits n eob).Safe L (fun e => eob ≤ e ∧ e < eob + 2 ^ n) := by
  induction n generalizing eob with
  | zero => exact ⟨by omega, by omega⟩
  | succ n ih =>
    unfold eobBits
    refine Rd.Safe.seq (lit1_safe (Q := fun _ => True) (fun _ _ => trivial)) (fun b _ => ?_)
    refine (ih _).mono ?_
    rintro e ⟨h1, h2⟩
    rw [Nat.one_shiftLeft] at h1 h2
    have : 2 ^ (n + 1) = 2 ^ n + 2 ^ n := by rw [Nat.pow_succ]; omega
    by_cases hb : b ≠ 0
    · rw [if_pos hb] at h1 h2; omega
    · rw [if_neg hb] at h1 h2; omega

theorem readEob_safe (k : Fin 4) {sc ptype e n : Nat} (hsc : sc < 5) (hpt : ptype < 2) (he : 1 ≤ e) (hn : 2 ^ (e - 1) ≤ n)
    (h11 : e ≤ 11) : (readEob sc ptype e).Safe (cdfLayout k) (fun x => 1 ≤ x ∧ x ≤ n) := by
  unfold readEob
  have h1n : 1 ≤ n := Nat.le_trans (Nat.one_le_two_pow) hn
  dsimp only
  split
  · rename_i h3
    show 1 ≤ _ ∧ _
    have : e = 1 ∨ e = 2 := by omega
    rcases this with rfl | rfl
    · exact ⟨by decide, by simpa using h1n⟩
    · exact ⟨by decide, by simpa using hn⟩
  · rename_i h3
    obtain ⟨m, rfl⟩ : ∃ m, e = m + 3 := ⟨e - 3, by omega⟩
    have e1 : m + 3 - 3 = m := by omega
    have e2 : m + 3 - 2 = m + 1 := by omega
    have e3 : m + 3 - 1 = m + 2 := by omega
    rw [e3] at hn
    rw [if_neg (by omega), e1, e2]
    refine Rd.Safe.seq (Rd.Safe.read (count3 k (iEobExtra k) (by omega) (by omega) (by omega)) (fun s hs => hs)) (fun s _ => ?_)
    refine (eobBits_safe _ _).mono ?_
    rintro x ⟨g1, g2⟩
    rw [Nat.one_shiftLeft, Nat.one_shiftLeft] at *
    have p1 : 2 ^ (m + 1) = 2 ^ m + 2 ^ m := by rw [Nat.pow_succ]; omega
    have p2 : 2 ^ (m + 2) = 2 ^ (m + 1) + 2 ^ (m + 1) := by rw [Nat.pow_succ 2 (m + 1)]; omega
    have p0 : 1 ≤ 2 ^ m := Nat.one_le_two_pow
    by_cases hb : s ≠ 0
    · rw [if_pos hb] at g1 g2; omega
    · rw [if_neg hb] at g1 g2; omega

end Gov1
