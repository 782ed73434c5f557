import Verif.Lemmas.CoeffRoundtrip
import Verif.Props.RdHang
/-! # C96-C101: the coefficients of a block -/
namespace Gov1
open Spec

/-! ## C96: decoding coefficients never panics -/

/-- **C96** (partial: for arrays large enough, and without the chroma 4x4 blocks of the highest quantizer
class; see the refutations below).  For every block and transform block inside the arrays, on every tile data
the decoder of coefficients returns, with coefficients of at most 16 bits, or stays in the loop of C97; it
never panics. -/
theorem C96_coeffs_partial (k : Fin 4) (fuel : Nat) (disable : Bool) (cx : BlkCtx) (hc : cx.Ok) (A L TH TW plane t x4 y4 : Nat)
    (hp : Place cx A L TH TW plane t x4 y4) (hk : ClassOk k plane t) (st : CoefSt) (hst : st.Inv A L TH TW)
    (cdfs : List (List Int)) (hL : (cdfLayout k).Fits cdfs) (sz : Nat) (bs : BitStream) (hsz : 8 * sz ≤ (unread bs).length) :
    (∃ r cdfs' sym' bs', (do let sym ← initSymbol sz
                             (coeffs fuel cx st plane ((4 * x4 : Nat) : Int) ((4 * y4 : Nat) : Int) t).exec (cdfLayout k) disable cdfs sym :
          BM _) bs = .ok ((r, cdfs', sym'), bs') ∧ r.1.Inv A L TH TW ∧ InArea (cW t * cH t) (-65535) 65535 r.1.quant) ∨
    (do let sym ← initSymbol sz
        (coeffs fuel cx st plane ((4 * x4 : Nat) : Int) ((4 * y4 : Nat) : Int) t).exec (cdfLayout k) disable cdfs sym :
          BM _) bs = .error .hang := by
  rcases C93_safe (cdfLayout k) disable _ _ (coeffs_safe k fuel hc hp hk hst) cdfs hL sz bs hsz with ⟨a, b, c, d, h, hq⟩ | h
  · exact .inl ⟨a, b, c, d, h, hq.1, hq.2.1⟩
  · exact .inr h

theorem fillTxTypes_bounds {TH TW : Nat} {m m' : List (List Int)} (hs : Shape TH TW m) {x4 y4 w h : Nat} {v : Int} (hh : 0 < h)
    (hw : 0 < w) (hok : fillTxTypes m x4 y4 w h v = .ok m') : x4 + w ≤ TW ∧ y4 + h ≤ TH := by
  unfold fillTxTypes at hok
  have := forN_inv (fun i (m' : List (List Int)) => Shape TH TW m' ∧ (0 < i → x4 + i ≤ TW ∧ y4 + h ≤ TH)) ?_ hok ⟨hs, by omega⟩
  · have := this.2 (by omega); omega
  · rintro i a b - hi ⟨h1, h2⟩ hab
    have := forN_inv (fun j (m' : List (List Int)) => Shape TH TW m' ∧ (0 < j → x4 + i < TW ∧ y4 + j ≤ TH)) ?_ hab ⟨h1, by omega⟩
    · exact ⟨this.1, fun _ => by have := this.2 (by omega); omega⟩
    · rintro j c d - hj ⟨g1, g2⟩ hcd
      obtain ⟨-, -, e1, -, -, e2⟩ := gset_inv hcd
      refine ⟨e2 _ _ g1, fun _ => ?_⟩
      have hx' : ((x4 : Int) + (i : Int)).toNat = x4 + i := by omega
      have hy' : ((y4 : Int) + (j : Int)).toNat = y4 + j := by omega
      rw [hx', hy'] at e1
      obtain ⟨z, hz⟩ := Option.isSome_iff_exists.mp e1
      have hj' : y4 + j < TH := by
        rcases Nat.lt_or_ge (y4 + j) TH with h | h
        · exact h
        · rw [at2, List.getElem?_eq_none (by rw [g1.1]; exact h)] at hz; cases hz
      obtain ⟨r, hr, hl⟩ := g1.row hj'
      rcases Nat.lt_or_ge (x4 + i) TW with h | h
      · omega
      · rw [at2, hr, Option.bind_some, List.getElem?_eq_none (by omega)] at hz; cases hz

theorem Rd.Wlp.seq {α β : Type} {L : Layout} {p : Rd α} {f : α → Rd β} {Q : α → Prop} {R : β → Prop} (h : p.Wlp L Q)
    (hf : ∀ a, Q a → (f a).Wlp L R) : (p >>= f).Wlp L R := (h.mono hf).bind

theorem Rd.Wlp.lift {α : Type} {L : Layout} {r : Res α} {Q : α → Prop} (h : ∀ a, r = .ok a → Q a) : (Rd.lift r).Wlp L Q := by
  cases hr : r with
  | ok a => exact h a hr
  | error e => trivial

theorem Rd.Wlp.true {α : Type} {L : Layout} (p : Rd α) : p.Wlp L (fun _ => True) := by
  induction p with
  | ret a => trivial
  | fail e => trivial
  | sym t idx k ih => exact fun n _ s _ => ih s
  | bit k ih => exact fun s _ => ih s

theorem clearCoefs_types {st st' : CoefSt} {n : Nat} (h : clearCoefs st n = .ok st') : st'.txTypes = st.txTypes := by
  unfold clearCoefs at h
  obtain ⟨q, -, h⟩ := Res.inv h
  obtain ⟨d, -, h⟩ := Res.inv h
  cases h; rfl

/-- **C96 is false of the code** (luma).  The transform types are kept in an array of 2 by 2 positions, whatever
the frame size: a luma transform block that is not inside the upper left 8x8 pixels of the frame is never
decoded.  For every block, state and tile data the function does not return. -/
theorem C96_tx_types_refuted (k : Fin 4) (fuel : Nat) (disable : Bool) (cx : BlkCtx) (t x4 y4 : Nat) (st : CoefSt)
    (h22 : Shape 2 2 st.txTypes) (hout : 2 < x4 + txWidth.getD t 0 / 4 ∨ 2 < y4 + txHeight.getD t 0 / 4)
    (cdfs cdfs' : List (List Int)) (hL : (cdfLayout k).Fits cdfs) (sym sym' : Sym)
    (hr : 2 ^ 15 ≤ sym.range ∧ sym.range < 2 ^ 16) (hx : 0 ≤ sym.value ∧ sym.value < sym.range) (bs bs' : BitStream)
    (r : CoefSt × Int) :
    (coeffs fuel cx st 0 ((4 * x4 : Nat) : Int) ((4 * y4 : Nat) : Int) t).exec (cdfLayout k) disable cdfs sym bs ≠
      .ok ((r, cdfs', sym'), bs') := by
  intro h
  obtain ⟨⟨msg, hm⟩, -⟩ := C93_sound (cdfLayout k) disable _ cdfs cdfs' sym sym' bs bs' r hL hr hx h
  have hwlp : (coeffs fuel cx st 0 ((4 * x4 : Nat) : Int) ((4 * y4 : Nat) : Int) t).Wlp (cdfLayout k) (fun _ => False) := by
    unfold coeffs
    rw [shr2, shr2]
    refine Rd.Wlp.seq (Rd.Wlp.lift (Q := fun w => w = txWidth.getD t 0 ∧ t < 19) (fun w hw => ?_)) (fun w hw => ?_)
    · obtain ⟨h1, h2⟩ := goGet_inv hw
      rw [Int.toNat_natCast] at h2
      have : t < 19 := by
        rcases Nat.lt_or_ge t 19 with h | h
        · exact h
        · rw [List.getElem?_eq_none (by rw [len19.1]; exact h)] at h2; cases h2
      rw [List.getD_eq_getElem?_getD, h2]; exact ⟨rfl, this⟩
    obtain ⟨rfl, ht⟩ := hw
    rw [Sat.tab 0 (by rw [len19.2.1]; exact ht)]
    refine Rd.Wlp.seq (Rd.Wlp.lift (Q := fun w => w = txHeight.getD t 0) (fun w hw => by cases hw; rfl)) (fun w hw => ?_)
    subst hw
    dsimp only
    have hw : txWidth.getD t 0 >>> 2 = txWidth.getD t 0 / 4 := by rw [Nat.shiftRight_eq_div_pow]
    have hh : txHeight.getD t 0 >>> 2 = txHeight.getD t 0 / 4 := by rw [Nat.shiftRight_eq_div_pow]
    rw [hw, hh]
    have hpos := w4_pos t ht
    refine Rd.Wlp.seq (Rd.Wlp.true _) (fun sqr _ => ?_)
    refine Rd.Wlp.seq (Rd.Wlp.true _) (fun up _ => ?_)
    refine Rd.Wlp.seq (Rd.Wlp.true _) (fun n _ => ?_)
    refine Rd.Wlp.seq (Rd.Wlp.lift (Q := fun s => s.txTypes = st.txTypes) (fun s hs => clearCoefs_types hs)) (fun st1 hst1 => ?_)
    refine Rd.Wlp.seq (Rd.Wlp.true _) (fun ctx _ => ?_)
    refine Rd.Wlp.seq (Rd.Wlp.true _) (fun az _ => ?_)
    refine Rd.Wlp.seq (Q := fun _ => False) ?_ (fun _ h => h.elim)
    unfold coefBody
    split
    · refine Rd.Wlp.lift (fun a ha => ?_)
      rw [zeroCoefs, if_pos rfl, hst1] at ha
      obtain ⟨m, hm, -⟩ := Res.inv ha
      have := fillTxTypes_bounds h22 (by omega) (by omega) hm
      omega
    · unfold codedCoefs
      refine Rd.Wlp.seq (Q := fun _ => False) ?_ (fun _ h => h.elim)
      rw [lumaTxType, if_pos rfl, transformType]
      refine Rd.Wlp.seq (Rd.Wlp.true _) (fun ty _ => ?_)
      rw [Sat.tab 0 (by rw [len19.1]; exact ht), Sat.tab 0 (by rw [len19.2.1]; exact ht)]
      refine Rd.Wlp.seq (Rd.Wlp.lift (Q := fun w => w = txWidth.getD t 0) (fun w hw => by cases hw; rfl)) (fun w hw => ?_)
      subst hw
      refine Rd.Wlp.seq (Rd.Wlp.lift (Q := fun w => w = txHeight.getD t 0) (fun w hw => by cases hw; rfl)) (fun w hw => ?_)
      subst hw
      refine Rd.Wlp.seq (Q := fun _ => False) (Rd.Wlp.lift (fun m hm => ?_)) (fun _ h => h.elim)
      rw [hw, hh, hst1] at hm
      have := fillTxTypes_bounds h22 (by omega) (by omega) hm
      omega
  exact hwlp.of_run hm


/-- A block of a small 4:2:0 frame, and the arrays before it; the transform type array is given enough room. -/
def demoBlk : BlkCtx :=
  { miRows := 16, miCols := 16, miSize := 6, subX := 1, subY := 1, q := { baseQIdx := 100 }, yMode := 1, uvMode := 2,
    seg := { featureEnabled := List.replicate 8 (List.replicate 8 0), featureData := List.replicate 8 (List.replicate 8 0) } }

def demoCoef : CoefSt :=
  { quant := List.replicate 4096 0, dequant := List.replicate 64 (List.replicate 64 0),
    txTypes := List.replicate 16 (List.replicate 16 0), aboveLevel := List.replicate 3 (List.replicate 16 0),
    aboveDc := List.replicate 3 (List.replicate 16 0), leftLevel := List.replicate 3 (List.replicate 16 0),
    leftDc := List.replicate 3 (List.replicate 16 0) }

theorem demoBlk_ok : demoBlk.Ok :=
  ⟨by decide, by decide, by decide, features_zero, by decide, by decide, by decide, by decide, by decide⟩

theorem demoCoef_inv : demoCoef.Inv 16 16 16 16 :=
  ⟨List.length_replicate, Shape.replicate _ _ _, Shape.replicate _ _ _, Cells.replicate _ _ ⟨by decide, by decide⟩,
   Shape.replicate _ _ _, Cells.replicate _ _ lvZero, Shape.replicate _ _ _, Cells.replicate _ _ dcZero,
   Shape.replicate _ _ _, Cells.replicate _ _ lvZero, Shape.replicate _ _ _, Cells.replicate _ _ dcZero⟩

/-- A 16x16 luma transform at (4, 8) and an 8x8 chroma transform. -/
theorem demoPlace (plane : Nat) (h : plane < 3) : Place demoBlk 16 16 16 16 plane 2 4 8 :=
  ⟨h, by decide, by decide, by decide, fun _ => ⟨by decide, by decide⟩, fun _ h => by cases h⟩

/-- Non-vacuity of C96. -/
example : demoBlk.Ok ∧ Place demoBlk 16 16 16 16 0 2 4 8 ∧ ClassOk 2 0 2 ∧ demoCoef.Inv 16 16 16 16 ∧
    (cdfLayout 2).Fits (cdfStore 2) ∧ 8 * 2 ≤ (unread (newBitStream [0x5a, 0xc3])).length :=
  ⟨demoBlk_ok, demoPlace 0 (by decide), .inl (by decide), demoCoef_inv, C94_layout_fits 2, by decide⟩

/-- Non-vacuity of the refutation: a 4x4 transform at pixel (8, 0) with the code's 2 by 2 array. -/
example : Shape 2 2 (List.replicate 2 (List.replicate 2 (0 : Int))) ∧ 2 < 2 + txWidth.getD 0 0 / 4 :=
  ⟨Shape.replicate _ _ _, by decide⟩

theorem baseMag_nonneg {quant : List Int} {w h b row col : Int} {offs : List (Int × Int)} {mag v : Int} (hm : 0 ≤ mag)
    (hv : baseMag quant w h b row col offs mag = .ok v) : 0 ≤ v := by
  induction offs generalizing mag with
  | nil => cases hv; exact hm
  | cons o offs ih =>
    obtain ⟨dr, dc⟩ := o
    simp only [baseMag] at hv
    split at hv
    · obtain ⟨q, -, hv⟩ := Res.inv hv
      refine ih ?_ hv
      unfold minI absI
      split <;> split <;> omega
    · exact ih hm hv

/-- The base level contexts of the 4x4 scan positions from the fourth on. -/
theorem ctx_4x4 : ∀ y < 16, getTxClass ((y : Nat) : Int) = 0 → (match getScan 0 ((y : Nat) : Int) with
    | .ok s => (List.range 16).all (fun c => c < 3 || (match s[c]? with
        | some p => p != 0 && (match goGet coeffBaseCtxOffset 0 with
          | .ok t => (match gget t (minI (((p : Nat) : Int) >>> 2) 4) (minI (((p : Nat) : Int) - ((((p : Nat) : Int) >>> 2) <<< 2)) 4) with
            | .ok o => decide (4 ≤ o)
            | .error _ => false)
          | .error _ => false)
        | none => true))
    | .error _ => true) = true := by decide +kernel

theorem posOffset_ge : ∀ o ∈ coeffBasePosCtxOffset, 26 ≤ o := by decide

theorem baseCtx_4x4 {cx : BlkCtx} {st : CoefSt} {plane : Nat} {x4 y4 ty : Int} {scan : List Nat} {p c : Nat} {v : Int}
    (hty : computeTxType cx st.txTypes plane 0 x4 y4 = .ok ty) (h16 : 0 ≤ ty ∧ ty < 16) (hs : getScan 0 ty = .ok scan)
    (hc : 3 ≤ c) (hc2 : c < 16) (hp : scan[c]? = some p)
    (h : getCoeffBaseCtx cx st 0 plane x4 y4 p c false = .ok v) : 4 ≤ v := by
  unfold getCoeffBaseCtx at h
  obtain ⟨adj, hadj, h⟩ := Res.inv h
  have : adj = 0 := by have : goGet adjustedTxSize ((0 : Nat) : Int) = .ok 0 := rfl; rw [this] at hadj; cases hadj; rfl
  subst this
  obtain ⟨bwl, hb, h⟩ := Res.inv h
  have : bwl = 2 := by have : goGet txWidthLog2 ((0 : Nat) : Int) = .ok 2 := rfl; rw [this] at hb; cases hb; rfl
  subst this
  obtain ⟨ht, -, h⟩ := Res.inv h
  rw [hty, Res.ok_bind, if_neg (by decide)] at h
  dsimp only at h
  obtain ⟨offs, -, h⟩ := Res.inv h
  obtain ⟨mag, hmag, h⟩ := Res.inv h
  have hm0 := baseMag_nonneg (by omega) hmag
  have hctx : 0 ≤ minI ((mag + 1) >>> (1 : Nat)) 4 := by
    rw [Int.shiftRight_eq_div_pow]
    unfold minI; split <;> omega
  generalize minI ((mag + 1) >>> (1 : Nat)) 4 = ctx at hctx h
  by_cases hcl : getTxClass ty = 0
  · rw [if_pos hcl] at h
    have key := ctx_4x4 ty.toNat (by omega)
    rw [Int.toNat_of_nonneg h16.1, hs] at key
    have key := List.all_eq_true.mp (key hcl) c (List.mem_range.mpr hc2)
    rw [hp] at key
    simp only [Bool.or_eq_true, decide_eq_true_eq, Bool.and_eq_true, bne_iff_ne] at key
    obtain ⟨hp0, key⟩ := key.resolve_left (by omega)
    split at h
    · rename_i h0
      obtain ⟨h1, h2⟩ := h0
      rw [h1] at h2
      rw [show ((0 : Int) <<< 2) = 0 from rfl] at h2
      omega
    · obtain ⟨t, ht, h⟩ := Res.inv h
      obtain ⟨o, ho, h⟩ := Res.inv h
      rw [show goGet coeffBaseCtxOffset 0 = .ok t from ht] at key
      dsimp only at key
      rw [ho] at key
      cases h
      have := of_decide_eq_true key
      omega
  · rw [if_neg hcl] at h
    obtain ⟨o, ho, h⟩ := Res.inv h
    obtain ⟨-, ho⟩ := goGet_inv ho
    have := posOffset_ge o (List.mem_of_getElem? ho)
    cases h
    omega

/-- **C96 is false of the code** (chroma).  In frames with a base quantizer index above 120, no chroma 4x4 block with
five or more coefficients can be decoded: for every block, state, transform type and every tile data the levels
are never returned (the second symbol panics, most base level contexts of these blocks are missing). -/
theorem C96_chroma_refuted (disable : Bool) (cx : BlkCtx) (plane : Nat) (x4 y4 ty : Int) (st : CoefSt)
    (scan : List Nat) (eob : Nat) (he : 5 ≤ eob) (he2 : eob ≤ 16)
    (hty : computeTxType cx st.txTypes plane 0 x4 y4 = .ok ty) (h16 : 0 ≤ ty ∧ ty < 16) (hs : getScan 0 ty = .ok scan)
    (cdfs cdfs' : List (List Int)) (hL : (cdfLayout 3).Fits cdfs) (sym sym' : Sym)
    (hr : 2 ^ 15 ≤ sym.range ∧ sym.range < 2 ^ 16) (hx : 0 ≤ sym.value ∧ sym.value < sym.range) (bs bs' : BitStream) (st' : CoefSt) :
    (levelLoop cx scan 0 plane x4 y4 0 1 eob eob st).exec (cdfLayout 3) disable cdfs sym bs ≠ .ok ((st', cdfs', sym'), bs') := by
  intro h
  obtain ⟨⟨msg, hm⟩, -⟩ := C93_sound (cdfLayout 3) disable _ cdfs cdfs' sym sym' bs bs' st' hL hr hx h
  have hwlp : (levelLoop cx scan 0 plane x4 y4 0 1 eob eob st).Wlp (cdfLayout 3) (fun _ => False) := by
    obtain ⟨e, rfl⟩ : ∃ e, eob = e + 2 := ⟨eob - 2, by omega⟩
    rw [levelLoop]
    refine Rd.Wlp.seq (Rd.Wlp.true _) (fun _ _ => Rd.Wlp.seq (Rd.Wlp.true _) (fun _ _ => Rd.Wlp.seq (Rd.Wlp.true _) (fun _ _ => ?_)))
    refine Rd.Wlp.seq (Rd.Wlp.true _) (fun q _ => ?_)
    rw [levelLoop]
    refine Rd.Wlp.seq (Rd.Wlp.lift (Q := fun p => scan[e]? = some p) (fun p hp => ?_)) (fun p hp => ?_)
    · have := (goGet_inv hp).2
      rwa [Int.toNat_natCast] at this
    refine Rd.Wlp.seq (Q := fun _ => False) ?_ (fun _ h => h.elim)
    rw [decide_eq_false (by omega), readBase]
    refine Rd.Wlp.seq (Rd.Wlp.lift (Q := fun v => 4 ≤ v) (fun v hv => ?_)) (fun v hv => ?_)
    · exact baseCtx_4x4 (st := { st with quant := q }) hty h16 hs (by omega) (by omega) hp hv
    · rw [if_neg (by decide)]
      refine Rd.Wlp.seq (Q := fun _ => False) ?_ (fun _ h => h.elim)
      intro n hn
      have := (C94_coeff_base_refuted v hv).1
      rw [show (cdfLayout 3).count "CoeffBase" [((0 : Nat) : Int), ((1 : Nat) : Int), v] = none from this] at hn
      cases hn
  exact hwlp.of_run hm

/-- Its hypotheses are met by a DCT block. -/
example : computeTxType demoBlk demoCoef.txTypes 1 0 4 8 = .ok 2 ∧ (∃ s, getScan 0 2 = .ok s) ∧
    (cdfLayout 3).Fits (cdfStore 3) := ⟨by decide +kernel, ⟨_, rfl⟩, C94_layout_fits 3⟩

/-! ## C97: Exp-Golomb codes -/

/-- **C97** (partial: the loop that counts zeros has no bound, see below).  Every number from 1 on is decoded
from its Exp-Golomb code. -/
theorem C97_golomb_partial (k : Fin 4) (disable : Bool) (cdfs : List (List Int)) (hL : (cdfLayout k).Fits cdfs) (x : Nat)
    (hx : 1 ≤ x) (fuel : Nat) (hf : Nat.log2 x < fuel) :
    (readGolomb fuel).run (cdfLayout k) (golombCode x) = .ok (x, []) ∧
    ∃ (data : List UInt8) (cdfs' : List (List Int)) (sym' : Sym) (bs' : BitStream),
      (do let sym ← initSymbol data.length
          (readGolomb fuel).exec (cdfLayout k) disable cdfs sym : BM _) (newBitStream data) = .ok ((x, cdfs', sym'), bs') := by
  have h := readGolomb_says (L := cdfLayout k) fuel x hx hf
  exact ⟨h, C93_complete _ disable _ cdfs hL _ x h⟩

example : golombCode 1 = [1] ∧ golombCode 13 = [0, 0, 0, 1, 1, 0, 1] := by decide

theorem golombLen_hangs {L : Layout} (fuel n : Nat) : (golombLen fuel n).Hangs L (List.replicate fuel 0) := by
  induction fuel generalizing n with
  | zero => exact ⟨rfl, rfl⟩
  | succ f ih =>
    unfold golombLen
    rw [List.replicate_succ]
    exact Rd.Hangs.after (m := [0]) (Rd.Says.lit1 (by decide)) (ih (n + 1))

theorem golombLen_le (fuel n : Nat) : (golombLen 0 n).Le (golombLen fuel n) := .inl rfl

theorem readLevel_le (fuel : Nat) (level : Int) : (readLevel 0 level).Le (readLevel fuel level) := by
  unfold readLevel readGolomb
  split
  · exact Rd.Le.bind (Rd.Le.bind (golombLen_le fuel 0) (fun _ => Rd.Le.refl _)) (fun _ => Rd.Le.refl _)
  · exact Rd.Le.refl _

theorem signLoop_le (fuel : Nat) (cx : BlkCtx) (scan : List Nat) (plane w4 h4 : Nat) (x4 y4 : Int) (ptype n c : Nat)
    (st : CoefSt) (cul dc : Int) : (signLoop 0 cx scan plane w4 h4 x4 y4 ptype n c st cul dc).Le
      (signLoop fuel cx scan plane w4 h4 x4 y4 ptype n c st cul dc) := by
  induction n generalizing c st cul dc with
  | zero => exact Rd.Le.refl _
  | succ n ih =>
    unfold signLoop
    refine Rd.Le.then (fun pos => Rd.Le.then (fun level => Rd.Le.then (fun sign => ?_)))
    refine Rd.Le.bind (readLevel_le fuel level) (fun level => ?_)
    exact Rd.Le.then (fun q => ih _ _ _ _)

theorem coeffs_le (fuel : Nat) (cx : BlkCtx) (st : CoefSt) (plane : Nat) (startX startY : Int) (t : Nat) :
    (coeffs 0 cx st plane startX startY t).Le (coeffs fuel cx st plane startX startY t) := by
  unfold coeffs
  refine Rd.Le.then (fun _ => Rd.Le.then (fun _ => Rd.Le.then (fun _ => Rd.Le.then (fun _ => ?_))))
  refine Rd.Le.then (fun _ => Rd.Le.then (fun _ => Rd.Le.then (fun _ => Rd.Le.then (fun _ => ?_))))
  refine Rd.Le.bind ?_ (fun _ => Rd.Le.refl _)
  unfold coefBody
  split
  · exact Rd.Le.refl _
  · unfold codedCoefs
    refine Rd.Le.then (fun _ => Rd.Le.then (fun _ => Rd.Le.then (fun _ => Rd.Le.then (fun _ => ?_))))
    refine Rd.Le.then (fun _ => Rd.Le.then (fun _ => ?_))
    exact Rd.Le.bind (signLoop_le _ _ _ _ _ _ _ _ _ _ _ _ _ _) (fun _ => Rd.Le.refl _)

theorem Rd.Says.safe {α : Type} {L : Layout} {p : Rd α} {m : List Nat} {a : α} {Q : α → Prop} (h : p.Says L m a)
    (hs : p.Safe L Q) : Q a := hs.wlp.of_run h

/-- The code of every allowed transform type (only DCT_DCT where none is coded). -/
theorem txType_code (k : Fin 4) {c : BlkCtx} (hc : c.Ok) {t : Nat} (ht : t < 19) {y : Nat} (hy : y ∈ allowed c t)
    (hq : typeQIdx c = .ok 0 → y = 0) : ∃ tt, (readTxType c t).Says (cdfLayout k) tt y := by
  obtain ⟨q, hq1, h | ⟨hq0, name, idx, tab, hf, hcnt, hmem⟩⟩ := readTxType_form k hc ht
  · obtain ⟨h0, h1⟩ := h
    have : y = 0 := by
      rcases h0 with rfl | h0
      · exact hq hq1
      · rw [h0] at hy; simpa using hy
    subst this
    exact ⟨[], by rw [h1]; rfl⟩
  · have hin : ((y : Nat) : Int) ∈ tab := (hmem _).mpr ⟨y, hy, rfl⟩
    obtain ⟨i, hi, he⟩ := List.mem_iff_getElem.mp hin
    refine ⟨[i], ?_⟩
    rw [hf]
    refine Rd.Says.bind (m := [i]) (m' := []) (Rd.Says.read hcnt hi) ?_
    rw [goGet_of (List.getElem?_eq_getElem hi), he]
    rfl

theorem allowed_zero (i r : Bool) (w h : Nat) : 0 ∈ allowedTypes i r w h := by
  unfold allowedTypes
  split
  · simp
  · split
    · split
      · simp
      · split <;> simp
    · split
      · simp
      · split <;> simp

theorem codedCoefs_hangs (k : Fin 4) (fuel : Nat) {cx : BlkCtx} (hc : cx.Ok) {A L TH TW plane t x4 y4 : Nat}
    (hp : Place cx A L TH TW plane t x4 y4) {st : CoefSt} (hst : st.Inv A L TH TW)
    (hq : InArea (cW t * cH t) 0 0 st.quant) (hk : ClassOk k plane t) {tt : List Nat} {ty : Int}
    (h0 : plane = 0 → (readTxType cx t).Says (cdfLayout k) tt ty)
    (hty : plane = 0 → TyFit t ty) (h1 : plane ≠ 0 → tt = []) :
    (codedCoefs fuel cx st plane t (txWidth.getD t 0 >>> 2) (txHeight.getD t 0 >>> 2) x4 y4
      ((txSizeSqr.getD t 0 + txSizeSqrUp.getD t 0 + 1) >>> 1) (if plane > 0 then 1 else 0)).Hangs (cdfLayout k)
      (tt ++ ([0] ++ (levelsCode (fun _ => 15) 1 1 ++ ([0] ++ List.replicate fuel 0)))) := by
  unfold codedCoefs
  obtain ⟨hsc, hsc0⟩ := sc_lt t hp.sz
  have hpt : (if plane > 0 then 1 else 0) < 2 := by split <;> omega
  have hbase : BaseOk k ((txSizeSqr.getD t 0 + txSizeSqrUp.getD t 0 + 1) >>> 1) (if plane > 0 then 1 else 0) := by
    rcases hk with h | h | h
    · exact .inl h
    · exact .inr (.inr (by rw [if_neg (by omega)]))
    · exact .inr (.inl (fun h' => h (hsc0 h')))
  generalize (txSizeSqr.getD t 0 + txSizeSqrUp.getD t 0 + 1) >>> 1 = sc at *
  generalize (if plane > 0 then 1 else 0) = pt at *
  obtain ⟨ty', m, hl, hm1, hm2, hm3, hm4⟩ := lumaTxType_says k hp hst h0 hty h1
  obtain ⟨x, hx, hfit⟩ := computeTxType_sat hc hp hm1 hm2 hm3
  obtain ⟨scan, hs1, hs2⟩ := getScan_ok hp.sz hfit
  obtain ⟨ho, hinj⟩ := isScan_ok hs2
  have hscan : Scans (cW t * cH t) scan := ⟨ho, hinj⟩
  have hrd : Reading cx plane t x4 y4 m x := ⟨hx, hfit, hp.sz⟩
  have harea : 1 ≤ cW t * cH t := by
    obtain ⟨-, har⟩ := m_area t hp.sz
    rw [har]; exact Nat.one_le_two_pow
  obtain ⟨s, ms, hcode, hs2e, hsays⟩ := readEob_says k hsc hpt (e := 1) (by omega) (by omega)
  cases (show (0 :: ([] : List Nat)) = s :: ms from hcode)
  obtain ⟨q, hq1, hq2, hq3, hq4⟩ := levelLoop_says k (ty := x) hscan hsc hpt hbase (fun _ => 15) 1 (by decide) 1 harea
    { st with txType := ty', txTypes := m, planeTxType := x } hrd (hq.mono (by omega) (by omega))
  have h00 := scan_first t hp.sz x hfit.ok scan hs1
  have hq0 := hq3 0 0 (by omega) h00
  refine Rd.Hangs.after hl ?_
  refine Rd.Hangs.lift hx ?_
  refine Rd.Hangs.lift hs1 ?_
  refine Rd.Hangs.after (readEobPt_says k (st := { st with txType := ty', txTypes := m, planeTxType := x }) hrd hpt (s := 0)
    (by omega)) ?_
  refine Rd.Hangs.after (m := []) hsays ?_
  refine Rd.Hangs.after hq1 ?_
  refine Rd.Hangs.bind ?_
  rw [signLoop]
  refine Rd.Hangs.lift (goGet_of h00) ?_
  refine Rd.Hangs.lift (goGet_of hq0) ?_
  obtain ⟨ctx, hc1, hc2⟩ := dcSignCtx_sat hp hst.ad hst.ld
  have hsign : (readSign cx { st with txType := ty', txTypes := m, planeTxType := x, quant := q } plane (txWidth.getD t 0 >>> 2)
      (txHeight.getD t 0 >>> 2) x4 y4 pt 0 ((min 15 15 : Nat) : Int)).Says (cdfLayout k) [0] 0 := by
    unfold readSign
    rw [if_pos (by decide), if_pos rfl]
    exact Rd.Says.lift hc1 (Rd.Says.read (count2 k (iDcSign k) (by omega) (by omega)) (by omega))
  refine Rd.Hangs.after hsign ?_
  refine Rd.Hangs.bind ?_
  unfold readLevel readGolomb
  rw [if_pos (by decide)]
  exact Rd.Hangs.bind (Rd.Hangs.bind (golombLen_hangs fuel 0))

/-- **C97 is false of the code.**  Every transform block can be made to decode for ever: for each of them there are
tile data of finite length on which coefficient decoding does not return after any number of steps (a level
of 15, then nothing: the decoder reads zeros after the end of the data and counts them without bound). -/
theorem C97_terminates_refuted (k : Fin 4) (disable : Bool) (cx : BlkCtx) (hc : cx.Ok) (A L TH TW plane t x4 y4 : Nat)
    (hp : Place cx A L TH TW plane t x4 y4) (hk : ClassOk k plane t) (st : CoefSt) (hst : st.Inv A L TH TW)
    (cdfs : List (List Int)) (hL : (cdfLayout k).Fits cdfs) :
    ∃ data : List UInt8, ∀ fuel, (do
        let sym ← initSymbol data.length
        (coeffs fuel cx st plane ((4 * x4 : Nat) : Int) ((4 * y4 : Nat) : Int) t).exec (cdfLayout k) disable cdfs sym :
          BM _) (newBitStream data) = .error .hang := by
  obtain ⟨tt, h0⟩ := txType_code k hc hp.sz (allowed_zero _ _ _ _) (fun _ => rfl)
  let tt' : List Nat := if plane = 0 then tt else []
  refine C93_stall (cdfLayout k) disable (fun fuel => coeffs fuel cx st plane ((4 * x4 : Nat) : Int) ((4 * y4 : Nat) : Int) t)
    (fun n => coeffs_le n _ _ _ _ _ _) cdfs hL (0 :: (tt' ++ ([0] ++ (levelsCode (fun _ => 15) 1 1 ++ [0])))) (fun n => ?_)
  unfold coeffs
  rw [shr2, shr2]
  have hA := hp.above
  have hL' := hp.left
  have hpl := hp.pl
  have har := area_le t hp.sz
  obtain ⟨st1, hcl, q, d, rfl, hq0, hqk, hd1, -⟩ := clearCoefs_sat hst (n := cW t * cH t) (by omega)
  have hst1 : CoefSt.Inv A L TH TW { st with quant := q, dequant := d } :=
    ⟨hqk.1.trans hst.quant, hd1, hst.types, hst.typesOk, hst.al, hst.alOk, hst.ad, hst.adOk, hst.ll, hst.llOk, hst.ld, hst.ldOk⟩
  obtain ⟨ctx, hctx, hctx1, -⟩ := allZeroCtx_sat hc hp hst1
  obtain ⟨hsc, -⟩ := sc_lt t hp.sz
  have hh := codedCoefs_hangs k n hc hp hst1 hq0 hk (tt := tt') (ty := 0) (fun h => by simp only [tt', if_pos h]; exact h0)
    (fun _ => TyFit.zero t) (fun h => by simp only [tt', if_neg h])
  refine Rd.Hangs.lift (Sat.tab 0 (by rw [len19.1]; exact hp.sz)) ?_
  refine Rd.Hangs.lift (Sat.tab 0 (by rw [len19.2.1]; exact hp.sz)) ?_
  dsimp only
  refine Rd.Hangs.lift (Sat.tab 0 (by rw [len19.2.2.1]; exact hp.sz)) ?_
  refine Rd.Hangs.lift (Sat.tab 0 (by rw [len19.2.2.2.1]; exact hp.sz)) ?_
  refine Rd.Hangs.lift (segEob_eq t hp.sz) ?_
  refine Rd.Hangs.lift hcl ?_
  refine Rd.Hangs.lift hctx ?_
  have e : (0 :: (tt' ++ ([0] ++ (levelsCode (fun _ => 15) 1 1 ++ [0])))) ++ List.replicate n 0 =
      [0] ++ (tt' ++ ([0] ++ (levelsCode (fun _ => 15) 1 1 ++ ([0] ++ List.replicate n 0)))) := by simp
  rw [e]
  refine Rd.Hangs.after (m := [0]) (Rd.Says.read (count2 k (iTxbSkip k) (by omega) (by omega)) (by omega)) ?_
  refine Rd.Hangs.bind ?_
  unfold coefBody
  rw [if_neg (by simp)]
  exact hh

/-! ## C98: coefficients are decoded as coded -/

/-- **C98** (partial: coefficients other than the first must not be negative, see below; magnitudes below `2^16`
instead of AV1's `2^20`).  For every block, every allowed transform type and every list of magnitudes in scan
order, the last of them not zero, the code of the block is decoded to exactly these coefficients; there are
tile data that carry it. -/
theorem C98_roundtrip_partial (k : Fin 4) (disable : Bool) (fuel : Nat) (hfuel : 16 ≤ fuel) (cx : BlkCtx) (hc : cx.Ok)
    (A L TH TW plane t x4 y4 : Nat) (hp : Place cx A L TH TW plane t x4 y4) (hk : ClassOk k plane t) (st : CoefSt)
    (hst : st.Inv A L TH TW) (cdfs : List (List Int)) (hL : (cdfLayout k).Fits cdfs)
    (y : Nat) (hy : y ∈ allowed cx t) (hy0 : typeQIdx cx = .ok 0 → y = 0)
    (a : Nat → Nat) (neg : Bool) (eob : Nat) (he1 : 1 ≤ eob) (he : eob ≤ cW t * cH t) (hlast : a (eob - 1) ≠ 0)
    (ha : ∀ c < eob, a c < 65536) :
    ∃ (data : List UInt8) (st' : CoefSt) (e : Int) (cdfs' : List (List Int)) (sym' : Sym) (bs' : BitStream) (scan : List Nat),
      (do let sym ← initSymbol data.length
          (coeffs fuel cx st plane ((4 * x4 : Nat) : Int) ((4 * y4 : Nat) : Int) t).exec (cdfLayout k) disable cdfs sym :
          BM _) (newBitStream data) = .ok (((st', e), cdfs', sym'), bs') ∧
      (plane = 0 → cx.lossless = false → st'.planeTxType = y) ∧
      getScan t st'.planeTxType = .ok scan ∧ IsScan (cW t) (cH t) scan ∧
      ∀ c p, c < cW t * cH t → scan[c]? = some p → st'.quant[p]? = some (if c < eob then coefOf a neg c else 0) := by
  obtain ⟨tt, h0⟩ := txType_code k hc hp.sz hy hy0
  have hfit : TyFit t y := h0.safe (readTxType_safe k hc hp.sz)
  obtain ⟨st', scan, h1, h2, h3, h4, h5, -⟩ := coeffs_says k fuel hfuel hc hp hk hst (tt := if plane = 0 then tt else []) (ty := y)
    (fun h => by rw [if_pos h]; exact h0) (fun _ => hfit) (fun h => by rw [if_neg h]) a neg eob he1 he hlast ha
  obtain ⟨data, cdfs', sym', bs', hd⟩ := C93_complete _ disable _ cdfs hL _ _ h1
  refine ⟨data, st', 0, cdfs', sym', bs', scan, hd, ?_, h2, h3, h5⟩
  intro hpl hll
  rw [h4 hpl hll]
  split
  · rename_i hbig
    have : ∀ t < 19, txSizeSqrUp.getD t 0 > 3 → ∀ i r : Bool, allowedTypes i r (txDims.getD t (0, 0)).1 (txDims.getD t (0, 0)).2 = [0] := by
      decide
    have := this t hp.sz hbig cx.isInter cx.reducedTxSet
    unfold allowed at hy
    rw [this] at hy
    have : y = 0 := by simpa using hy
    rw [this]; rfl
  · rfl

/-- Non-vacuity of C98: five coefficients of a 16x16 luma block with ADST in both directions. -/
example : (3 ∈ allowed demoBlk 2) ∧ (typeQIdx demoBlk = .ok 100) ∧ (5 ≤ cW 2 * cH 2) ∧
    (fun c : Nat => [300, 0, 15, 2, 1].getD c 0) (5 - 1) ≠ 0 ∧ ∀ c < 5, (fun c : Nat => [300, 0, 15, 2, 1].getD c 0) c < 65536 := by
  decide

/-- The code of such a block. -/
example : blockCode (fun c => [20, 0, 15, 2, 1].getD c 0) true 5 =
    [3, 0, 0, 0, 2, 3, 3, 3, 3, 3, 0, 3, 3, 3, 3, 3, 1, 0, 0, 1, 1, 0, 1] := by decide

/-- **C98 is false of the code** for signed coefficients: the sign of every coefficient but the first is read
with a literal of 0 bits.  Whatever the tile data, no decoded coefficient other than the DC coefficient is
ever negative. -/
theorem C98_negative_refuted (k : Fin 4) (fuel : Nat) (disable : Bool) (cx : BlkCtx) (hc : cx.Ok) (A L TH TW plane t x4 y4 : Nat)
    (hp : Place cx A L TH TW plane t x4 y4) (hk : ClassOk k plane t) (st : CoefSt) (hst : st.Inv A L TH TW)
    (cdfs cdfs' : List (List Int)) (hL : (cdfLayout k).Fits cdfs) (sym sym' : Sym)
    (hr : 2 ^ 15 ≤ sym.range ∧ sym.range < 2 ^ 16) (hx : 0 ≤ sym.value ∧ sym.value < sym.range) (bs bs' : BitStream)
    (r : CoefSt × Int)
    (h : (coeffs fuel cx st plane ((4 * x4 : Nat) : Int) ((4 * y4 : Nat) : Int) t).exec (cdfLayout k) disable cdfs sym bs =
      .ok ((r, cdfs', sym'), bs')) (p : Nat) (v : Int) (hp0 : p ≠ 0) (hpn : p < cW t * cH t) (hv : r.1.quant[p]? = some v) :
    0 ≤ v := by
  obtain ⟨⟨msg, hm⟩, -⟩ := C93_sound (cdfLayout k) disable _ cdfs cdfs' sym sym' bs bs' r hL hr hx h
  have := Rd.Says.safe hm (coeffs_safe k fuel hc hp hk hst)
  exact this.2.2.2.1 p v hp0 hpn hv

/-! ## C99: the number of coefficients is returned -/

/-- **C99 is false of the code.**  Whatever block, state and tile data, the number of coefficients returned is 0
(the count is assigned to a second variable of the same name in an inner block). -/
theorem C99_eob_refuted (k : Fin 4) (fuel : Nat) (disable : Bool) (cx : BlkCtx) (plane : Nat) (startX startY : Int) (t : Nat)
    (st : CoefSt) (cdfs cdfs' : List (List Int)) (hL : (cdfLayout k).Fits cdfs) (sym sym' : Sym)
    (hr : 2 ^ 15 ≤ sym.range ∧ sym.range < 2 ^ 16) (hx : 0 ≤ sym.value ∧ sym.value < sym.range) (bs bs' : BitStream)
    (r : CoefSt × Int)
    (h : (coeffs fuel cx st plane startX startY t).exec (cdfLayout k) disable cdfs sym bs = .ok ((r, cdfs', sym'), bs')) :
    r.2 = 0 := by
  obtain ⟨⟨msg, hm⟩, -⟩ := C93_sound (cdfLayout k) disable _ cdfs cdfs' sym sym' bs bs' r hL hr hx h
  have : (coeffs fuel cx st plane startX startY t).Wlp (cdfLayout k) (fun r => r.2 = 0) := by
    unfold coeffs
    refine Rd.Wlp.seq (Rd.Wlp.true _) (fun _ _ => Rd.Wlp.seq (Rd.Wlp.true _) (fun _ _ => Rd.Wlp.seq (Rd.Wlp.true _) (fun _ _ => ?_)))
    refine Rd.Wlp.seq (Rd.Wlp.true _) (fun _ _ => Rd.Wlp.seq (Rd.Wlp.true _) (fun _ _ => Rd.Wlp.seq (Rd.Wlp.true _) (fun _ _ => ?_)))
    refine Rd.Wlp.seq (Rd.Wlp.true _) (fun _ _ => Rd.Wlp.seq (Rd.Wlp.true _) (fun _ _ => Rd.Wlp.seq (Rd.Wlp.true _) (fun _ _ => ?_)))
    refine Rd.Wlp.seq (Rd.Wlp.true _) (fun _ _ => Rd.Wlp.seq (Rd.Wlp.true _) (fun _ _ => Rd.Wlp.seq (Rd.Wlp.true _) (fun _ _ => ?_)))
    refine Rd.Wlp.seq (Rd.Wlp.true _) (fun _ _ => ?_)
    exact (rfl : (0 : Int) = 0)
  exact this.of_run hm

/-- **C99, the intended statement, fails**: for every block and every number of coefficients there are tile data with
that many coefficients for which 0 is returned. -/
theorem C99_eob_returned_refuted (k : Fin 4) (disable : Bool) (fuel : Nat) (hfuel : 16 ≤ fuel) (cx : BlkCtx) (hc : cx.Ok)
    (A L TH TW plane t x4 y4 : Nat) (hp : Place cx A L TH TW plane t x4 y4) (hk : ClassOk k plane t) (st : CoefSt)
    (hst : st.Inv A L TH TW) (cdfs : List (List Int)) (hL : (cdfLayout k).Fits cdfs) (eob : Nat) (he1 : 1 ≤ eob)
    (he : eob ≤ cW t * cH t) :
    ∃ (data : List UInt8) (st' : CoefSt) (cdfs' : List (List Int)) (sym' : Sym) (bs' : BitStream) (scan : List Nat),
      (do let sym ← initSymbol data.length
          (coeffs fuel cx st plane ((4 * x4 : Nat) : Int) ((4 * y4 : Nat) : Int) t).exec (cdfLayout k) disable cdfs sym :
          BM _) (newBitStream data) = .ok (((st', 0), cdfs', sym'), bs') ∧
      getScan t st'.planeTxType = .ok scan ∧ ∀ c p, c < eob → scan[c]? = some p → st'.quant[p]? = some 1 := by
  obtain ⟨tt, h0⟩ := txType_code k hc hp.sz (allowed_zero _ _ _ _) (fun _ => rfl)
  obtain ⟨st', scan, h1, h2, h3, h4, h5, -⟩ := coeffs_says k fuel hfuel hc hp hk hst (tt := if plane = 0 then tt else []) (ty := 0)
    (fun h => by rw [if_pos h]; exact h0) (fun _ => TyFit.zero t) (fun h => by rw [if_neg h]) (fun _ => 1) false eob he1 he (by decide)
    (fun _ _ => by decide)
  obtain ⟨data, cdfs', sym', bs', hd⟩ := C93_complete _ disable _ cdfs hL _ _ h1
  refine ⟨data, st', cdfs', sym', bs', scan, hd, h2, fun c p hce hcp => ?_⟩
  rw [h5 c p (by omega) hcp, if_pos hce]
  simp [coefOf]

/-! ## C100: transform types -/

/-- **C100.**  For every block and transform size, on every tile data the transform type read is one of those AV1 allows
for that size, and DCT_DCT if the quantizer index of the block is 0. -/
theorem C100_type_allowed (k : Fin 4) (disable : Bool) (cx : BlkCtx) (hc : cx.Ok) (t : Nat) (ht : t < 19)
    (cdfs : List (List Int)) (hL : (cdfLayout k).Fits cdfs) (sz : Nat) (bs : BitStream) (hsz : 8 * sz ≤ (unread bs).length) :
    ∃ ty cdfs' sym' bs', (do let sym ← initSymbol sz
                             (readTxType cx t).exec (cdfLayout k) disable cdfs sym : BM _) bs = .ok ((ty, cdfs', sym'), bs') ∧
      (∃ y ∈ allowed cx t, ty = ((y : Nat) : Int)) ∧ (typeQIdx cx = .ok 0 → ty = 0) := by
  refine C93_total (cdfLayout k) disable _ (fun ty => (∃ y ∈ allowed cx t, ty = ((y : Nat) : Int)) ∧ (typeQIdx cx = .ok 0 → ty = 0))
    ?_ cdfs hL sz bs hsz
  obtain ⟨q, hq1, h | ⟨hq0, name, idx, tab, hf, hcnt, hmem⟩⟩ := readTxType_form k hc ht
  · rw [h.2]
    exact ⟨⟨0, allowed_zero _ _ _ _, rfl⟩, fun _ => rfl⟩
  · rw [hf]
    refine ⟨_, hcnt, fun s hs => ?_⟩
    show Rd.Post _ (Rd.lift (goGet tab (s : Int))) _
    rw [goGet_of (List.getElem?_eq_getElem hs)]
    refine ⟨(hmem _).mp (List.getElem_mem hs), fun h => ?_⟩
    rw [hq1] at h
    cases h
    exact absurd rfl hq0

/-- **C100, completeness.**  Every transform type AV1 allows for the size can be coded, in blocks with a quantizer index
above 0: there are tile data from which it is read. -/
theorem C100_type_codable (k : Fin 4) (disable : Bool) (cx : BlkCtx) (hc : cx.Ok) (t : Nat) (ht : t < 19)
    (cdfs : List (List Int)) (hL : (cdfLayout k).Fits cdfs) (y : Nat) (hy : y ∈ allowed cx t)
    (hq : typeQIdx cx = .ok 0 → y = 0) :
    ∃ (data : List UInt8) (cdfs' : List (List Int)) (sym' : Sym) (bs' : BitStream),
      (do let sym ← initSymbol data.length
          (readTxType cx t).exec (cdfLayout k) disable cdfs sym : BM _) (newBitStream data) = .ok (((y : Int), cdfs', sym'), bs') := by
  obtain ⟨tt, h⟩ := txType_code k hc ht hy hq
  exact C93_complete _ disable _ cdfs hL _ _ h

/-- **C100, chroma.**  The test whether a type derived from the luma block may be used for a chroma block is
membership in the types AV1 allows. -/
theorem C100_in_set (t : Nat) (ht : t < 19) (i r : Bool) (y : Nat) (hy : y < 16) :
    (do let s ← getTxSet t i r
        isTxTypeInSet i s y) =
      .ok (decide (y ∈ allowedTypes i r (txDims.getD t (0, 0)).1 (txDims.getD t (0, 0)).2)) := by
  have key : ∀ t < 19, ∀ i r : Bool, ∀ y < 16, (match (do let s ← getTxSet t i r; isTxTypeInSet i s ((y : Nat) : Int)) with
    | .ok b => b == decide (y ∈ allowedTypes i r (txDims.getD t (0, 0)).1 (txDims.getD t (0, 0)).2)
    | .error _ => false) = true := by decide +kernel
  have := key t ht i r y hy
  split at this
  · rename_i b hb
    rw [hb]
    simpa using this
  · cases this

example : allowed demoBlk 2 = [0, 1, 2, 3, 9] ∧ allowed { demoBlk with isInter := true } 0 = List.range 16 := by decide

/-! ## C101: contexts for the neighbours -/

/-- **C101.**  After a block with coefficients is decoded, the contexts above and to the left record, for every 4
samples of its edges, the sum of its magnitudes (at most 63) and the sign of its DC coefficient. -/
theorem C101_contexts (k : Fin 4) (disable : Bool) (fuel : Nat) (hfuel : 16 ≤ fuel) (cx : BlkCtx) (hc : cx.Ok)
    (A L TH TW plane t x4 y4 : Nat) (hp : Place cx A L TH TW plane t x4 y4) (hk : ClassOk k plane t) (st : CoefSt)
    (hst : st.Inv A L TH TW) (cdfs : List (List Int)) (hL : (cdfLayout k).Fits cdfs)
    (y : Nat) (hy : y ∈ allowed cx t) (hy0 : typeQIdx cx = .ok 0 → y = 0)
    (a : Nat → Nat) (neg : Bool) (eob : Nat) (he1 : 1 ≤ eob) (he : eob ≤ cW t * cH t) (hlast : a (eob - 1) ≠ 0)
    (ha : ∀ c < eob, a c < 65536) :
    ∃ (data : List UInt8) (st' : CoefSt) (e : Int) (cdfs' : List (List Int)) (sym' : Sym) (bs' : BitStream),
      (do let sym ← initSymbol data.length
          (coeffs fuel cx st plane ((4 * x4 : Nat) : Int) ((4 * y4 : Nat) : Int) t).exec (cdfLayout k) disable cdfs sym :
          BM _) (newBitStream data) = .ok (((st', e), cdfs', sym'), bs') ∧
      (∀ i, i < txWidth.getD t 0 / 4 →
        at2 st'.aboveLevel plane (x4 + i) = some (min 63 ((List.range eob).map a).sum : Nat) ∧
        at2 st'.aboveDc plane (x4 + i) = some (if a 0 = 0 then 0 else if neg then 1 else 2)) ∧
      (∀ i, i < txHeight.getD t 0 / 4 →
        at2 st'.leftLevel plane (y4 + i) = some (min 63 ((List.range eob).map a).sum : Nat) ∧
        at2 st'.leftDc plane (y4 + i) = some (if a 0 = 0 then 0 else if neg then 1 else 2)) := by
  obtain ⟨tt, h0⟩ := txType_code k hc hp.sz hy hy0
  have hfit : TyFit t y := h0.safe (readTxType_safe k hc hp.sz)
  obtain ⟨st', scan, h1, h2, h3, h4, h5, h6, h7⟩ := coeffs_says k fuel hfuel hc hp hk hst (tt := if plane = 0 then tt else []) (ty := y)
    (fun h => by rw [if_pos h]; exact h0) (fun _ => hfit) (fun h => by rw [if_neg h]) a neg eob he1 he hlast ha
  obtain ⟨data, cdfs', sym', bs', hd⟩ := C93_complete _ disable _ cdfs hL _ _ h1
  exact ⟨data, st', 0, cdfs', sym', bs', hd, h6, h7⟩

end Gov1
