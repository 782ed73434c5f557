import Verif.Model.Coeffs
import Verif.Lemmas.Sat
import Verif.Props.CdfLayout
import Verif.Props.Scan
import Verif.Props.Segmentation
/-! # Lemmas on the coefficient syntax -/
namespace Gov1
open Spec

/-- Width, height of the coded area. -/
def cW (t : Nat) : Nat := (codedArea.getD t (0, 0)).1
def cH (t : Nat) : Nat := (codedArea.getD t (0, 0)).2

/-- The transform types usable at a size: one-dimensional types only up to 16x16. -/
def TyFit (t : Nat) (ty : Int) : Prop := 0 ≤ ty ∧ ty < 16 ∧ (getTxClass ty ≠ 0 → cW t ≤ 16 ∧ cH t ≤ 16)

instance (t : Nat) (ty : Int) : Decidable (TyFit t ty) := by unfold TyFit; infer_instance

/-- The values of the context arrays. -/
def LevelOk (v : Int) : Prop := 0 ≤ v ∧ v ≤ 63
def DcOk (v : Int) : Prop := 0 ≤ v ∧ v ≤ 2
def TypeOk (v : Int) : Prop := 0 ≤ v ∧ v < 16

/-- The arrays of the coefficient syntax have the sizes given (`A` columns, `L` rows of contexts, `TH` by `TW`
transform types) and hold values in their ranges. -/
structure CoefSt.Inv (A L TH TW : Nat) (st : CoefSt) : Prop where
  quant : st.quant.length = 4096
  dequant : Shape 64 64 st.dequant
  types : Shape TH TW st.txTypes
  typesOk : Cells TypeOk st.txTypes
  al : Shape 3 A st.aboveLevel
  alOk : Cells LevelOk st.aboveLevel
  ad : Shape 3 A st.aboveDc
  adOk : Cells DcOk st.aboveDc
  ll : Shape 3 L st.leftLevel
  llOk : Cells LevelOk st.leftLevel
  ld : Shape 3 L st.leftDc
  ldOk : Cells DcOk st.leftDc

/-- A block context as the mode info syntax leaves it. -/
structure BlkCtx.Ok (c : BlkCtx) : Prop where
  size : c.miSize < 22
  subX : c.subX < 2
  subY : c.subY < 2
  feat : FeaturesOk c.seg.featureEnabled c.seg.featureData
  base : c.q.baseQIdx < 256
  seg : c.segmentId < 8
  y : 0 ≤ c.yMode ∧ c.yMode < 13
  uv : 0 ≤ c.uvMode ∧ c.uvMode < 14
  fi : 0 ≤ c.filterIntraMode ∧ c.filterIntraMode < 5

/-- A transform block inside the arrays: position `(x4, y4)` in units of 4x4 of the plane. -/
structure Place (c : BlkCtx) (A L TH TW plane t x4 y4 : Nat) : Prop where
  pl : plane < 3
  sz : t < 19
  above : x4 + txWidth.getD t 0 / 4 ≤ A
  left : y4 + txHeight.getD t 0 / 4 ≤ L
  types : plane = 0 → x4 + txWidth.getD t 0 / 4 ≤ TW ∧ y4 + txHeight.getD t 0 / 4 ≤ TH
  chroma : plane ≠ 0 → c.isInter = true →
    c.miCol < TW ∧ x4 * 2 ^ c.subX < TW ∧ c.miRow < TH ∧ y4 * 2 ^ c.subY < TH

/-! ## Tables -/

theorem w4_pos : ∀ t < 19, 1 ≤ txWidth.getD t 0 / 4 ∧ 1 ≤ txHeight.getD t 0 / 4 := by decide
theorem adj_eq : ∀ t < 19, ∃ b, txWidthLog2.getD (adjustedTxSize.getD t 0) 0 = b ∧ cW t = 2 ^ b ∧
    txWidth.getD (adjustedTxSize.getD t 0) 0 = cW t ∧ txHeight.getD (adjustedTxSize.getD t 0) 0 = cH t ∧
    adjustedTxSize.getD t 0 < 19 ∧ cW t ≤ 32 ∧ cH t ≤ 32 ∧ 1 ≤ cH t := by
  intro t ht
  refine ⟨_, rfl, ?_⟩
  revert t; decide
theorem offs_ok : ∀ t < 19, ∀ r < 5, ∀ c < 5, ((coeffBaseCtxOffset.getD t []).getD r []).getD c 99 ≤ 21 ∧
    (coeffBaseCtxOffset.getD t []).length = 5 ∧ ((coeffBaseCtxOffset.getD t []).getD r []).length = 5 := by decide +kernel

theorem getTxSet_eq (t : Nat) (ht : t < 19) (i r : Bool) : ∃ s, getTxSet t i r = .ok s ∧ s < (if i then 4 else 3) ∧
    (s = 0 ∨ txSizeSqrUp.getD t 0 ≤ 3) := by
  have : ∀ t < 19, ∀ i r : Bool, (match getTxSet t i r with
    | .ok s => decide (s < (if i then 4 else 3)) && (s == 0 || decide (txSizeSqrUp.getD t 0 ≤ 3))
    | .error _ => false) = true := by decide +kernel
  have := this t ht i r
  cases h : getTxSet t i r with
  | error e => rw [h] at this; cases this
  | ok s =>
    rw [h] at this
    simp only [Bool.and_eq_true, decide_eq_true_eq, Bool.or_eq_true, beq_iff_eq] at this
    exact ⟨s, rfl, this.1, this.2⟩

theorem inSet_fit (t : Nat) (ht : t < 19) (i r : Bool) (ty : Int) (hty : TypeOk ty) (s : Nat) (hs : getTxSet t i r = .ok s) :
    Sat (isTxTypeInSet i s ty) (fun b => TyFit t (if b then ty else 0)) := by
  have key : ∀ t < 19, ∀ i r : Bool, ∀ y < 16, (match getTxSet t i r with
    | .error _ => true
    | .ok s => match isTxTypeInSet i s (y : Nat) with
      | .ok b => decide (TyFit t (if b then ((y : Nat) : Int) else 0))
      | .error _ => false) = true := by decide +kernel
  have := key t ht i r ty.toNat (by have := hty.2; have := hty.1; omega)
  rw [hs, Int.toNat_of_nonneg hty.1] at this
  dsimp only at this
  cases h : isTxTypeInSet i s ty with
  | error e => rw [h] at this; cases this
  | ok b => rw [h] at this; exact ⟨b, rfl, by simpa using this⟩

theorem TyFit.zero (t : Nat) : TyFit t 0 := ⟨by omega, by omega, by intro h; exact absurd rfl h⟩
theorem TyFit.ok {t : Nat} {ty : Int} (h : TyFit t ty) : TypeOk ty := ⟨h.1, h.2.1⟩

theorem inv1 : ∀ t < 19, ∀ r : Bool, getTxSet t true r = .ok 1 →
    txSizeSqr.getD t 0 < 2 ∧ ∀ v ∈ txTypeInterInvSet1, TyFit t v := by decide +kernel
theorem inv2 : ∀ t < 19, ∀ r : Bool, getTxSet t true r = .ok 2 → ∀ v ∈ txTypeInterInvSet2, TyFit t v := by decide +kernel
theorem inv3 : ∀ t < 19, txSizeSqrUp.getD t 0 ≤ 3 →
    txSizeSqr.getD t 0 < 4 ∧ ∀ v ∈ txTypeInterInvSet3, TyFit t v := by decide +kernel
theorem inv4 : ∀ t < 19, ∀ r : Bool, getTxSet t false r = .ok 1 →
    txSizeSqr.getD t 0 < 2 ∧ ∀ v ∈ txTypeIntraInvSet1, TyFit t v := by decide +kernel
theorem inv5 : ∀ t < 19, ∀ r : Bool, getTxSet t false r = .ok 2 →
    txSizeSqr.getD t 0 < 3 ∧ ∀ v ∈ txTypeIntraInvSet2, TyFit t v := by decide +kernel

theorem len19 : txWidth.length = 19 ∧ txHeight.length = 19 ∧ txSizeSqr.length = 19 ∧ txSizeSqrUp.length = 19 ∧
    txWidthLog2.length = 19 ∧ txHeightLog2.length = 19 ∧ adjustedTxSize.length = 19 ∧ coeffBaseCtxOffset.length = 19 := by
  decide

theorem iIntraTxTypeSet1 : ∀ k : Fin 4, cdfInfo k "IntraTxTypeSet1" = some ([], .box [2, 13], 7) := by decide +kernel
theorem iIntraTxTypeSet2 : ∀ k : Fin 4, cdfInfo k "IntraTxTypeSet2" = some ([], .box [3, 13], 5) := by decide +kernel
theorem iInterTxTypeSet1 : ∀ k : Fin 4, cdfInfo k "InterTxTypeSet1" = some ([], .box [2], 16) := by decide +kernel
theorem iInterTxTypeSet2 : ∀ k : Fin 4, cdfInfo k "InterTxTypeSet2" = some ([], .box [], 12) := by decide +kernel
theorem iInterTxTypeSet3 : ∀ k : Fin 4, cdfInfo k "InterTxTypeSet3" = some ([], .box [4], 2) := by decide +kernel
theorem iTxbSkip : ∀ k : Fin 4, cdfInfo k "TxbSkip" = some ([], .box [5, 13], 2) := by decide +kernel
theorem iEobPt16 : ∀ k : Fin 4, cdfInfo k "EobPt16" = some ([], .box [2, 2], 5) := by decide +kernel
theorem iEobPt32 : ∀ k : Fin 4, cdfInfo k "EobPt32" = some ([], .box [2, 2], 6) := by decide +kernel
theorem iEobPt64 : ∀ k : Fin 4, cdfInfo k "EobPt64" = some ([], .box [2, 2], 7) := by decide +kernel
theorem iEobPt128 : ∀ k : Fin 4, cdfInfo k "EobPt128" = some ([], .box [2, 2], 8) := by decide +kernel
theorem iEobPt256 : ∀ k : Fin 4, cdfInfo k "EobPt256" = some ([], .box [2, 2], 9) := by decide +kernel
theorem iEobPt512 : ∀ k : Fin 4, cdfInfo k "EobPt512" = some ([], .box [2], 10) := by decide +kernel
theorem iEobPt1024 : ∀ k : Fin 4, cdfInfo k "EobPt1024" = some ([], .box [2], 11) := by decide +kernel
theorem iEobExtra : ∀ k : Fin 4, cdfInfo k "EobExtra" = some ([], .box [5, 2, 9], 2) := by decide +kernel
theorem iCoeffBaseEob : ∀ k : Fin 4, cdfInfo k "CoeffBaseEob" = some ([], .box [5, 2, 4], 3) := by decide +kernel
theorem iCoeffBr : ∀ k : Fin 4, cdfInfo k "CoeffBr" = some ([], .box [5, 2, 21], 4) := by decide +kernel
theorem iDcSign : ∀ k : Fin 4, cdfInfo k "DcSign" = some ([], .box [2, 3], 2) := by decide +kernel

/-! ## Transform types -/

/-- The cell of the transform type array of a luma block. -/
def CellFit (tt : List (List Int)) (plane t x4 y4 : Nat) : Prop :=
  plane = 0 → ∃ v, at2 tt y4 x4 = some v ∧ TyFit t v

theorem maxI_nat (a b : Nat) : maxI a b = ((max a b : Nat) : Int) := by
  unfold maxI; split <;> omega

theorem computeTxType_sat {c : BlkCtx} (hc : c.Ok) {A L TH TW plane t x4 y4 : Nat} (hp : Place c A L TH TW plane t x4 y4)
    {tt : List (List Int)} (hs : Shape TH TW tt) (ht : Cells TypeOk tt) (hcell : CellFit tt plane t x4 y4) :
    Sat (computeTxType c tt plane t x4 y4) (TyFit t) := by
  unfold computeTxType
  rw [Sat.tab 0 (by rw [len19.2.2.2.1]; exact hp.sz), Res.ok_bind]
  split
  · exact Sat.pure (TyFit.zero t)
  · obtain ⟨s, hs1, hs2, hs3⟩ := getTxSet_eq t hp.sz c.isInter c.reducedTxSet
    rw [hs1, Res.ok_bind]
    by_cases hpl : plane = 0
    · rw [if_pos hpl]
      obtain ⟨v, hv, hf⟩ := hcell hpl
      exact ⟨v, gget_at2 hv, hf⟩
    · rw [if_neg hpl]
      by_cases hi : c.isInter = true
      · rw [if_pos hi]
        obtain ⟨h1, h2, h3, h4⟩ := hp.chroma hpl hi
        have e1 : (x4 : Int) <<< c.subX = ((x4 * 2 ^ c.subX : Nat) : Int) := by
          rw [Int.shiftLeft_eq]; push_cast; rfl
        have e2 : (y4 : Int) <<< c.subY = ((y4 * 2 ^ c.subY : Nat) : Int) := by
          rw [Int.shiftLeft_eq]; push_cast; rfl
        simp only [e1, e2, maxI_nat]
        refine Sat.bind (Sat.gget hs ht (by omega) (by omega) (fun _ h => h)) (fun ty hty => ?_)
        refine Sat.bind (inSet_fit t hp.sz _ _ ty hty s hs1) (fun b hb => Sat.pure hb)
      · rw [if_neg hi]
        have hmode : ∀ v ∈ modeToTxfm, TypeOk v := by unfold TypeOk; decide
        refine Sat.bind (Sat.getMem hc.uv.1 (by have := hc.uv.2; show _ < ((14 : Nat) : Int); omega) hmode (fun _ h => h)) (fun ty hty => ?_)
        exact Sat.bind (inSet_fit t hp.sz _ _ ty hty s hs1) (fun b hb => Sat.pure hb)

theorem qidx_sat {c : BlkCtx} (hc : c.Ok) : Sat (if c.seg.enabled then
      getQIndex c.seg.enabled c.seg.featureEnabled c.seg.featureData c.q.baseQIdx c.deltaQPresent c.currentQIndex 1
        c.segmentId
    else .ok (c.q.baseQIdx : Int)) (fun q => 0 ≤ q ∧ q ≤ 255) := by
  split
  · obtain ⟨h1, h2, h3⟩ := C31_qindex_partial c.seg.enabled _ _ hc.feat c.q.baseQIdx hc.base c.deltaQPresent c.currentQIndex
      c.segmentId hc.seg
    exact ⟨_, h1, h2, h3⟩
  · exact Sat.ok ⟨by omega, by have := hc.base; omega⟩

theorem getMem_lift {α : Type} {L : Layout} {l : List α} {s : Nat} {P : α → Prop} (h : s < l.length) (hp : ∀ v ∈ l, P v) :
    (Rd.lift (goGet l (s : Int))).Safe L P :=
  (Sat.getMem (by omega) (by omega) hp (fun _ h => h)).lift

theorem readTxType_safe (k : Fin 4) {c : BlkCtx} (hc : c.Ok) {t : Nat} (ht : t < 19) :
    (readTxType c t).Safe (cdfLayout k) (TyFit t) := by
  unfold readTxType
  obtain ⟨s, hs1, hs2, hs3⟩ := getTxSet_eq t ht c.isInter c.reducedTxSet
  rw [hs1]
  refine Rd.Safe.seq (Sat.lift (Sat.ok rfl)) (fun s' hs' => ?_)
  subst hs'
  refine Rd.Safe.seq (qidx_sat hc).lift (fun q hq => ?_)
  split
  · rename_i hset
    have t1 := inv1 t ht c.reducedTxSet
    have t2 := inv2 t ht c.reducedTxSet
    have t3 := inv3 t ht
    have t4 := inv4 t ht c.reducedTxSet
    have t5 := inv5 t ht c.reducedTxSet
    split
    · rename_i hi
      rw [hi] at hs1 hs2
      unfold interTxTypeSymbol
      rw [Sat.tab 0 (by rw [len19.2.2.1]; exact ht)]
      refine Rd.Safe.seq (Sat.lift (Sat.ok rfl)) (fun q hq => ?_)
      subst hq
      split
      · subst s
        refine Rd.Safe.seq (Rd.Safe.read (count1 k (iInterTxTypeSet1 k) ⟨by omega, by have := (t1 hs1).1; omega⟩) (fun s hs => hs)) (fun s hs => ?_)
        exact getMem_lift hs (t1 hs1).2
      · split
        · subst s
          refine Rd.Safe.seq (Rd.Safe.read (count0 k (iInterTxTypeSet2 k)) (fun s hs => hs)) (fun s hs => ?_)
          exact getMem_lift hs (t2 hs1)
        · have h3 : txSizeSqrUp.getD t 0 ≤ 3 := by omega
          split
          · refine Rd.Safe.seq (Rd.Safe.read (count1 k (iInterTxTypeSet3 k) ⟨by omega, by have := (t3 h3).1; omega⟩) (fun s hs => hs)) (fun s hs => ?_)
            exact getMem_lift hs (t3 h3).2
          · exact getMem_lift (s := 0) (by decide) (t3 h3).2
    · rename_i hi
      have hi : c.isInter = false := by simpa using hi
      rw [hi] at hs1 hs2
      simp only [Bool.false_eq_true, if_false] at hs2
      unfold intraTxType
      have hsym : (intraTxTypeSymbol c s t).Safe (cdfLayout k) (fun y => y < if s = 1 then 7 else 5) := by
        unfold intraTxTypeSymbol
        have hdir : Sat (if c.useFilterIntra then goGet filterIntraModeToIntraDir c.filterIntraMode else .ok c.yMode)
            (fun d => 0 ≤ d ∧ d < 13) := by
          split
          · exact Sat.getMem hc.fi.1 (by have := hc.fi.2; show _ < ((5 : Nat) : Int); omega)
              (P := fun d => 0 ≤ d ∧ d < 13) (by decide) (fun _ h => h)
          · exact Sat.ok hc.y
        refine Rd.Safe.seq hdir.lift (fun d hd => ?_)
        rw [Sat.tab 0 (by rw [len19.2.2.1]; exact ht)]
        refine Rd.Safe.seq (Sat.lift (Sat.ok rfl)) (fun q hq => ?_)
        subst hq
        split
        · rename_i h1; subst h1
          exact Rd.Safe.read (count2 k (iIntraTxTypeSet1 k) ⟨by omega, by have := (t4 hs1).1; omega⟩ hd) (fun s hs => hs)
        · split
          · rename_i h1; subst h1
            exact Rd.Safe.read (count2 k (iIntraTxTypeSet2 k) ⟨by omega, by have := (t5 hs1).1; omega⟩ hd) (fun s hs => hs)
          · omega
      refine Rd.Safe.seq hsym (fun y hy => ?_)
      by_cases h1 : s = 1
      · subst h1; rw [if_pos rfl] at hy ⊢
        exact getMem_lift hy (t4 hs1).2
      · rw [if_neg h1] at hy ⊢
        have : s = 2 := by omega
        subst this
        exact getMem_lift hy (t5 hs1).2
  · exact TyFit.zero t

theorem fillTxTypes_sat {TH TW : Nat} {m : List (List Int)} (hs : Shape TH TW m) (hc : Cells TypeOk m) {x4 y4 w h : Nat}
    (hx : x4 + w ≤ TW) (hy : y4 + h ≤ TH) {v : Int} (hv : TypeOk v) :
    Sat (fillTxTypes m x4 y4 w h v) (fun m' => Shape TH TW m' ∧ Cells TypeOk m' ∧
      (∀ a b, y4 ≤ a → a < y4 + h → x4 ≤ b → b < x4 + w → at2 m' a b = some v) ∧
      (∀ a b, ¬ (y4 ≤ a ∧ a < y4 + h ∧ x4 ≤ b ∧ b < x4 + w) → at2 m' a b = at2 m a b)) := by
  unfold fillTxTypes
  refine Sat.forN (fun i (m' : List (List Int)) => Shape TH TW m' ∧ Cells TypeOk m' ∧
      (∀ a b, y4 ≤ a → a < y4 + h → x4 ≤ b → b < x4 + i → at2 m' a b = some v) ∧
      (∀ a b, ¬ (y4 ≤ a ∧ a < y4 + h ∧ x4 ≤ b ∧ b < x4 + i) → at2 m' a b = at2 m a b))
    ⟨hs, hc, by intros; omega, by intros; rfl⟩ ?_ (by intro s hs; simpa using hs)
  rintro i m1 - hi ⟨g1, g2, g3, g4⟩
  refine Sat.forN (fun j (m' : List (List Int)) => Shape TH TW m' ∧ Cells TypeOk m' ∧
      (∀ a b, y4 ≤ a → a < y4 + h → x4 ≤ b → b < x4 + i → at2 m' a b = some v) ∧
      (∀ a, y4 ≤ a → a < y4 + j → at2 m' a (x4 + i) = some v) ∧
      (∀ a b, ¬ (y4 ≤ a ∧ a < y4 + h ∧ x4 ≤ b ∧ b < x4 + i) → ¬ (y4 ≤ a ∧ a < y4 + j ∧ b = x4 + i) →
        at2 m' a b = at2 m a b)) ⟨g1, g2, g3, by intros; omega, by intro a b h1 h2; exact g4 a b h1⟩ ?_ ?_
  · rintro j m2 - hj ⟨f1, f2, f3, f4, f5⟩
    refine Sat.gset f1 f2 ⟨by omega, by omega⟩ ⟨by omega, by omega⟩ hv ?_
    intro m3 e1 e2 e3 e4
    have hy' : ((y4 : Int) + (j : Int)).toNat = y4 + j := by omega
    have hx' : ((x4 : Int) + (i : Int)).toNat = x4 + i := by omega
    rw [hy', hx'] at e3 e4
    refine ⟨e1, e2, ?_, ?_, ?_⟩
    · intro a b h1 h2 h3 h4
      rw [e4 a b (by intro h; simp only [Prod.mk.injEq] at h; omega)]
      exact f3 a b h1 h2 h3 h4
    · intro a h1 h2
      by_cases ha : a = y4 + j
      · rw [ha]; exact e3
      · rw [e4 a _ (by intro h; simp only [Prod.mk.injEq] at h; omega)]
        exact f4 a h1 (by omega)
    · intro a b h1 h2
      rw [e4 a b (by intro h; simp only [Prod.mk.injEq] at h; apply h2; omega)]
      exact f5 a b h1 (by intro h; apply h2; omega)
  · rintro m2 ⟨f1, f2, f3, f4, f5⟩
    refine ⟨f1, f2, ?_, ?_⟩
    · intro a b h1 h2 h3 h4
      by_cases hb : b = x4 + i
      · rw [hb]; exact f4 a h1 (by omega)
      · exact f3 a b h1 h2 h3 (by omega)
    · intro a b h
      exact f5 a b (by intro h'; apply h; omega) (by intro h'; apply h; omega)

end Gov1
