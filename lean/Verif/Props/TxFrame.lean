import Verif.Model.TxBlock
import Verif.Props.TxBlock
import Verif.Props.IntraBlock
import Verif.Props.CdefFrame
import Verif.Props.Coeffs
/-!
# C157-C160: the pixels of a block

`residual` as a whole: prediction, coefficients, reconstruction of all transform blocks of a block.
-/
namespace Gov1
open Spec

/-! ## No residual is ever added -/

theorem coeffs_zero (L : Layout) (fuel : Nat) (cx : BlkCtx) (st : CoefSt) (plane : Nat) (startX startY : Int) (t : Nat) :
    (coeffs fuel cx st plane startX startY t).Wlp L (fun r => r.2 = 0) := by
  unfold coeffs
  refine Rd.Wlp.seq (Rd.Wlp.true _) (fun _ _ => Rd.Wlp.seq (Rd.Wlp.true _) (fun _ _ => Rd.Wlp.seq (Rd.Wlp.true _) (fun _ _ => ?_)))
  refine Rd.Wlp.seq (Rd.Wlp.true _) (fun _ _ => Rd.Wlp.seq (Rd.Wlp.true _) (fun _ _ => Rd.Wlp.seq (Rd.Wlp.true _) (fun _ _ => ?_)))
  refine Rd.Wlp.seq (Rd.Wlp.true _) (fun _ _ => Rd.Wlp.seq (Rd.Wlp.true _) (fun _ _ => Rd.Wlp.seq (Rd.Wlp.true _) (fun _ _ => ?_)))
  refine Rd.Wlp.seq (Rd.Wlp.true _) (fun _ _ => Rd.Wlp.seq (Rd.Wlp.true _) (fun _ _ => Rd.Wlp.seq (Rd.Wlp.true _) (fun _ _ => ?_)))
  refine Rd.Wlp.seq (Rd.Wlp.true _) (fun _ _ => ?_)
  exact (rfl : (0 : Int) = 0)

/-- The state without what the coefficients change. -/
def TbSt.strip (s : TbSt) : TbSt := { s with coef := {}, T := [], residual := [] }

theorem tbCoeffs_strip (L : Layout) (fuel : Nat) (c : TbCtx) (call : TxCall) (p : TxPos) (s : TbSt) : (tbCoeffs fuel c call p s).Wlp L (fun s' => s'.strip = s.strip) := by
  unfold tbCoeffs
  split
  · exact rfl
  · refine Rd.Wlp.seq (coeffs_zero L _ _ _ _ _ _ _) fun r hr => Rd.Wlp.lift fun s' hs => ?_
    unfold tbRecon at hs
    rw [hr, if_neg (by decide)] at hs
    rw [← Except.ok.inj hs]
    rfl

/-- One transform block without coefficients. -/
def tbQuiet (c : TbCtx) (call : TxCall) (s : TbSt) : Res TbSt := do
  let p ← txPos c.res c.use128 call
  match p with
  | none => pure s
  | some p => do
    let s ← tbPredict c call p s
    tbMark c call p s

def quietCalls (c : TbCtx) : List TxCall → TbSt → Res TbSt
  | [], s => pure s
  | call :: t, s => do
    let s ← tbQuiet c call s
    quietCalls c t s

theorem tbLuma_strip (call : TxCall) (p : TxPos) (s : TbSt) : (tbLuma call p s).strip = tbLuma call p s.strip := by
  unfold tbLuma; split <;> rfl

theorem map_ok {α β : Type} {r : Res α} {f : α → β} {b : β} (h : r.map f = .ok b) : ∃ a, r = .ok a ∧ f a = b := by
  cases r with
  | error e => cases h
  | ok a => exact ⟨a, rfl, Except.ok.inj h⟩

theorem tbPredict_strip {c : TbCtx} {call : TxCall} {p : TxPos} {s s' : TbSt} (h : tbPredict c call p s = .ok s') : tbPredict c call p s.strip = .ok s'.strip := by
  unfold tbPredict at h ⊢
  split
  · rename_i hi
    rw [if_pos hi] at h
    rw [← Except.ok.inj h]; rfl
  rename_i hi
  rw [if_neg hi] at h
  split
  · rename_i hp
    rw [if_pos hp] at h
    obtain ⟨u, hu, rfl⟩ := map_ok h
    unfold tbPalette at hu ⊢
    obtain ⟨F, h1, hu⟩ := Res.inv hu
    obtain ⟨pal, h2, hu⟩ := Res.inv hu
    obtain ⟨G, h3, hu⟩ := Res.inv hu
    obtain ⟨fs, h4, hu⟩ := Res.inv hu
    rw [show s.strip.frames = s.frames from rfl, h1, Res.ok_bind, h2, Res.ok_bind, h3, Res.ok_bind, h4, Res.ok_bind, tbLuma_strip, ← Except.ok.inj hu]
    rfl
  · rename_i hp
    rw [if_neg hp] at h
    obtain ⟨u, hu, rfl⟩ := map_ok h
    unfold tbIntra at hu ⊢
    obtain ⟨lw, h1, hu⟩ := Res.inv hu
    obtain ⟨lh, h2, hu⟩ := Res.inv hu
    obtain ⟨m, h3, hu⟩ := Res.inv hu
    obtain ⟨f, h4, hu⟩ := Res.inv hu
    obtain ⟨F, h5, hu⟩ := Res.inv hu
    obtain ⟨r, h6, hu⟩ := Res.inv hu
    obtain ⟨G, h7, hu⟩ := Res.inv hu
    obtain ⟨fs, h8, hu⟩ := Res.inv hu
    rw [h1, Res.ok_bind, h2, Res.ok_bind, show s.strip.marks = s.marks from rfl, h3, Res.ok_bind, h4, Res.ok_bind, show s.strip.frames = s.frames from rfl, h5, Res.ok_bind,
      show s.strip.above = s.above from rfl, show s.strip.left = s.left from rfl, h6, Res.ok_bind, show tbCfl c call p s.strip r.1 = tbCfl c call p s r.1 from rfl, h7, Res.ok_bind, h8, Res.ok_bind,
      tbLuma_strip, ← Except.ok.inj hu]
    rfl

theorem tbMark_strip {c : TbCtx} {call : TxCall} {p : TxPos} {s s' : TbSt} (h : tbMark c call p s = .ok s') : tbMark c call p s.strip = .ok s'.strip := by
  unfold tbMark at h ⊢
  obtain ⟨m, h1, h⟩ := Res.inv h
  obtain ⟨m', h2, h⟩ := Res.inv h
  obtain ⟨ms, h3, h⟩ := Res.inv h
  rw [show s.strip.marks = s.marks from rfl, h1, Res.ok_bind, h2, Res.ok_bind, h3, Res.ok_bind, ← Except.ok.inj h]
  rfl

theorem transformBlock_quiet (L : Layout) (fuel : Nat) (c : TbCtx) (call : TxCall) (s : TbSt) : (transformBlock fuel c call s).Wlp L (fun s' => tbQuiet c call s.strip = .ok s'.strip) := by
  unfold transformBlock
  refine Rd.Wlp.seq (Rd.Wlp.lift (Q := fun p => txPos c.res c.use128 call = .ok p) fun p hp => hp) fun p hp => ?_
  unfold tbQuiet
  rw [hp, Res.ok_bind]
  cases p with
  | none => exact rfl
  | some p =>
    refine Rd.Wlp.seq (Rd.Wlp.lift (Q := fun u => tbPredict c call p s = .ok u) fun u hu => hu) fun u hu => ?_
    refine Rd.Wlp.seq (tbCoeffs_strip L fuel c call p u) fun v hv => Rd.Wlp.lift fun w hw => ?_
    show (do
      let s ← tbPredict c call p s.strip
      tbMark c call p s : Res TbSt) = _
    rw [tbPredict_strip hu, Res.ok_bind, ← hv]
    exact tbMark_strip hw

theorem runCalls_quiet (L : Layout) (fuel : Nat) (c : TbCtx) (calls : List TxCall) : ∀ s, (runCalls fuel c calls s).Wlp L (fun s' => quietCalls c calls s.strip = .ok s'.strip) := by
  induction calls with
  | nil => intro s; exact rfl
  | cons call t ih =>
    intro s
    unfold runCalls
    refine Rd.Wlp.seq (transformBlock_quiet L fuel c call s) fun u hu => ?_
    unfold quietCalls
    rw [hu, Res.ok_bind]
    exact ih u

theorem residual_quiet (L : Layout) (fuel : Nat) (c : TbCtx) (s : TbSt) : (residual fuel c s).Wlp L (fun s' => ∃ calls, residualCalls c.res = .ok calls ∧ quietCalls c calls s.strip = .ok s'.strip) := by
  unfold residual
  refine Rd.Wlp.seq (Rd.Wlp.lift (Q := fun l => residualCalls c.res = .ok l) fun l hl => hl) fun l hl => ?_
  exact (runCalls_quiet L fuel c l s).mono fun s' hs => ⟨l, hl, hs⟩

theorem exec_wlp {α : Type} {k : Fin 4} {disable : Bool} {p : Rd α} {Q : α → Prop} (hw : p.Wlp (cdfLayout k) Q) {cdfs cdfs' : List (List Int)} (hL : (cdfLayout k).Fits cdfs) {sym sym' : Sym}
    (hr : 2 ^ 15 ≤ sym.range ∧ sym.range < 2 ^ 16) (hx : 0 ≤ sym.value ∧ sym.value < sym.range) {bs bs' : BitStream} {r : α} (h : p.exec (cdfLayout k) disable cdfs sym bs = .ok ((r, cdfs', sym'), bs')) : Q r := by
  obtain ⟨⟨msg, hm⟩, -⟩ := C93_sound (cdfLayout k) disable _ cdfs cdfs' sym sym' bs bs' r hL hr hx h
  exact hw.of_run hm

/-- **C157, refuted.**  The pixels of a block do not depend on its coefficients: decoded from the same state, with whatever tile data (and whatever probabilities and decoder states), the block always gets the same
pixels, those of the prediction. -/
theorem C157_residual_refuted (k k' : Fin 4) (fuel fuel' : Nat) (disable disable' : Bool) (c : TbCtx) (s s1 s2 : TbSt)
    {cdfs cdfs1 : List (List Int)} (hL : (cdfLayout k).Fits cdfs) {sym sym1 : Sym} (hr : 2 ^ 15 ≤ sym.range ∧ sym.range < 2 ^ 16) (hx : 0 ≤ sym.value ∧ sym.value < sym.range) {bs bs1 : BitStream}
    (h1 : (residual fuel c s).exec (cdfLayout k) disable cdfs sym bs = .ok ((s1, cdfs1, sym1), bs1))
    {cdfs' cdfs2 : List (List Int)} (hL' : (cdfLayout k').Fits cdfs') {sym' sym2 : Sym} (hr' : 2 ^ 15 ≤ sym'.range ∧ sym'.range < 2 ^ 16) (hx' : 0 ≤ sym'.value ∧ sym'.value < sym'.range) {bs' bs2 : BitStream}
    (h2 : (residual fuel' c s).exec (cdfLayout k') disable' cdfs' sym' bs' = .ok ((s2, cdfs2, sym2), bs2)) :
    s1.frames = s2.frames := by
  obtain ⟨l1, e1, q1⟩ := exec_wlp (residual_quiet _ fuel c s) hL hr hx h1
  obtain ⟨l2, e2, q2⟩ := exec_wlp (residual_quiet _ fuel' c s) hL' hr' hx' h2
  rw [e1] at e2
  rw [Except.ok.inj e2, q2] at q1
  exact (congrArg TbSt.frames (Except.ok.inj q1)).symm

/-- A 4x4 luma block in the corner of a frame. -/
def tfCtx : TbCtx :=
  { res := { miRows := 4, miCols := 4, miSize := 0, hasChroma := false, subX := 1, subY := 1 }, blk := { demoBlk with miSize := 0, miRows := 4, miCols := 4, miRow := 0, miCol := 0 } }
def tfSt : TbSt :=
  { frames := List.replicate 3 (List.replicate 16 (List.replicate 16 7)), marks := List.replicate 3 ⟨List.replicate 2 (List.replicate 2 0), List.replicate 13 (List.replicate 13 false)⟩, coef := demoCoef }

/-- With a coefficient 1 the block is decoded (by `C93_complete` from tile data), its pixels are those of the prediction. -/
example : ((residual 16 tfCtx tfSt).run (cdfLayout 2) [0, 0, 0, 0, 0]).toOption.map (fun r => (r.2, r.1.coef.quant.getD 0 0, at3 r.1.frames 0 3 3, at3 r.1.frames 0 3 4)) = some ([], 1, some 128, some 7) := by
  decide +kernel

/-! ## What one transform block does to the pixels -/

/-- Loops that set the pixels of a block to values with a property. -/
theorem fillBlk_inv {P : Int → Prop} {g : Nat → Nat → List (List Int) → Res (List (List Int))} {x y w h : Nat}
    (hg : ∀ i j, i < h → j < w → ∀ G G', g i j G = .ok G' → ∃ v, P v ∧ gset G ((y + i : Nat) : Int) ((x + j : Nat) : Int) v = .ok G') {F F' : List (List Int)}
    (hF : forN (fun i F => forN (fun j F => g i j F) w 0 F) h 0 F = .ok F') :
    (∀ r k, ¬ InBlk x y w h r k → at2 F' r k = at2 F r k) ∧ ∀ r k v, at2 F' r k = some v → P v ∨ at2 F r k = some v := by
  refine forN_inv (fun _ (G : List (List Int)) => (∀ r k, ¬ InBlk x y w h r k → at2 G r k = at2 F r k) ∧ ∀ r k v, at2 G r k = some v → P v ∨ at2 F r k = some v)
    (fun i G G' _ hi hG hG' => ?_) hF ⟨fun _ _ _ => rfl, fun _ _ _ h => .inr h⟩
  refine forN_inv (fun _ (G : List (List Int)) => (∀ r k, ¬ InBlk x y w h r k → at2 G r k = at2 F r k) ∧ ∀ r k v, at2 G r k = some v → P v ∨ at2 F r k = some v)
    (fun j K K' _ hj hK hK' => ?_) hG' hG
  obtain ⟨v, hv, hs⟩ := hg i j (by omega) (by omega) K K' hK'
  obtain ⟨-, -, -, e1, e2, -⟩ := gset_inv hs
  simp only [Int.toNat_natCast] at e1 e2
  refine ⟨fun r k hrk => ?_, fun r k u hu => ?_⟩
  · rw [e2 r k (fun he => hrk (by injection he with h1 h2; exact ⟨by omega, by omega⟩))]
    exact hK.1 r k hrk
  · by_cases he : (r, k) = (y + i, x + j)
    · injection he with h1 h2
      rw [h1, h2, e1] at hu
      rw [← Option.some.inj hu]; exact .inl hv
    · rw [e2 r k he] at hu
      exact hK.2 r k u hu

/-- The colours of all palettes have `bd` bits. -/
def ColoursIn (bd : Nat) (ps : List (List Int)) : Prop := ∀ p ∈ ps, ∀ v ∈ p, Btw 0 (2 ^ bd - 1) v

/-- What the pixels must be like: of `bd` bits, in all planes and in the stored edges. -/
structure TbIn (bd : Nat) (s : TbSt) : Prop where
  frames : ∀ (q : Nat) F, s.frames[q]? = some F → FrameIn bd F
  above : EdgeIn bd s.above
  left : EdgeIn bd s.left

theorem log2_dims : ∀ t < 19, txWidth[t]? = some (2 ^ txWidthLog2.getD t 0) ∧ txHeight[t]? = some (2 ^ txHeightLog2.getD t 0) ∧ 1 ≤ txWidthLog2.getD t 0 ∧ 1 ≤ txHeightLog2.getD t 0 := by decide +kernel

theorem log2_of {t lw lh : Nat} (h1 : goGet txWidthLog2 (t : Int) = .ok lw) (h2 : goGet txHeightLog2 (t : Int) = .ok lh) : txDims t = some (2 ^ lw, 2 ^ lh) ∧ 1 ≤ lw ∧ 1 ≤ lh := by
  have h1 := goGet_inv_nat h1
  have h2 := goGet_inv_nat h2
  have ht : t < 19 := by
    by_contra hc
    rw [List.getElem?_eq_none (show txWidthLog2.length ≤ t by rw [show txWidthLog2.length = 19 by decide]; omega)] at h1
    cases h1
  obtain ⟨e1, e2, e3, e4⟩ := log2_dims t ht
  have g1 : txWidthLog2.getD t 0 = lw := by rw [List.getD, h1]; rfl
  have g2 : txHeightLog2.getD t 0 = lh := by rw [List.getD, h2]; rfl
  rw [g1] at e1 e3
  rw [g2] at e2 e4
  refine ⟨?_, e3, e4⟩
  unfold txDims; rw [e1, e2]; rfl

theorem at3_set {P : List (List (List Int))} {p : Nat} {F G : List (List Int)} (hp : P[p]? = some F) (q r k : Nat) (h : q = p → at2 G r k = at2 F r k) : at3 (P.set p G) q r k = at3 P q r k := by
  unfold at3
  by_cases he : q = p
  · have hl : p < P.length := by
      by_contra hc
      rw [List.getElem?_eq_none (by omega)] at hp; cases hp
    rw [he, List.getElem?_set_self hl, hp]
    exact h he
  · rw [List.getElem?_set_ne (Ne.symm he)]

theorem set_in {bd : Nat} {P : List (List (List Int))} {p : Nat} {G : List (List Int)} (hP : ∀ (q : Nat) F, P[q]? = some F → FrameIn bd F) (hG : FrameIn bd G) : ∀ (q : Nat) F, (P.set p G)[q]? = some F → FrameIn bd F := by
  intro q F hq
  rw [List.getElem?_set] at hq
  split at hq
  · split at hq
    · rw [← Option.some.inj hq]; exact hG
    · cases hq
  · exact hP q F hq

/-- Chroma from luma, one block. -/
theorem predictCfl_inv {c : CflCtx} {plane startX startY txSz w h : Nat} (hd : txDims txSz = some (w, h)) {luma F F' : List (List Int)} (hp : predictCfl c plane startX startY txSz luma F = .ok F') :
    (∀ r k, ¬ InBlk startX startY w h r k → at2 F' r k = at2 F r k) ∧ (2 ≤ c.bitDepth → ∀ r k v, at2 F' r k = some v → v = 2 ∨ at2 F r k = some v) := by
  unfold txDims at hd
  rw [Option.bind_eq_some_iff] at hd
  obtain ⟨a, ha, d1⟩ := hd
  rw [Option.map_eq_some_iff] at d1
  obtain ⟨b, hb', d1⟩ := d1
  injection d1 with q1 q2
  subst q1 q2
  unfold predictCfl at hp
  rw [goGet_of' ha, Res.ok_bind, goGet_of' hb', Res.ok_bind] at hp
  obtain ⟨s, -, hp⟩ := Res.inv hp
  obtain ⟨lw, -, hp⟩ := Res.inv hp
  obtain ⟨lh, -, hp⟩ := Res.inv hp
  refine ⟨(fillBlk_inv (P := fun _ => True) (x := startX) (y := startY) (fun i j _ _ G G' hG => ?_) hp).1, fun hb => (fillBlk_inv (P := fun v => v = 2) (x := startX) (y := startY) (fun i j _ _ G G' hG => ?_) hp).2⟩
  · obtain ⟨dc, -, hG⟩ := Res.inv hG
    obtain ⟨l, -, hG⟩ := Res.inv hG
    exact ⟨_, trivial, hG⟩
  · obtain ⟨dc, -, hG⟩ := Res.inv hG
    obtain ⟨l, -, hG⟩ := Res.inv hG
    exact ⟨_, clip1_two _ hb, hG⟩

theorem palettePrediction_inv {plane startX startY x y txSz w h : Nat} (hd : txDims txSz = some (w, h)) {pal : List Int} {map F F' : List (List Int)} (hp : palettePrediction plane startX startY x y txSz pal map F = .ok F') :
    (∀ r k, ¬ InBlk startX startY w h r k → at2 F' r k = at2 F r k) ∧ ∀ r k v, at2 F' r k = some v → v ∈ pal ∨ at2 F r k = some v := by
  unfold txDims at hd
  rw [Option.bind_eq_some_iff] at hd
  obtain ⟨a, ha, d1⟩ := hd
  rw [Option.map_eq_some_iff] at d1
  obtain ⟨b, hb', d1⟩ := d1
  injection d1 with q1 q2
  subst q1 q2
  unfold palettePrediction at hp
  rw [goGet_of' ha, Res.ok_bind, goGet_of' hb', Res.ok_bind] at hp
  refine fillBlk_inv (P := fun v => v ∈ pal) (fun i j _ _ G G' hG => ?_) hp
  obtain ⟨n, -, hG⟩ := Res.inv hG
  obtain ⟨v, hv, hG⟩ := Res.inv hG
  exact ⟨v, List.mem_of_getElem? (goGet_inv hv).2, hG⟩

theorem txPos_start {cx : ResCtx} {use128 : Bool} {c : TxCall} {p : TxPos} (h : txPos cx use128 c = .ok (some p)) : p.startX = c.left ∧ p.startY = c.top := by
  unfold txPos at h
  obtain ⟨w, h1, h⟩ := Res.inv h
  obtain ⟨hh, h2, h⟩ := Res.inv h
  by_cases hin : c.baseX + 4 * c.x ≥ (cx.miCols * 4) >>> (if c.plane > 0 then cx.subX else 0) ∨ c.baseY + 4 * c.y ≥ (cx.miRows * 4) >>> (if c.plane > 0 then cx.subY else 0)
  · rw [if_pos hin] at h
    cases h
  · rw [if_neg hin] at h
    have := Option.some.inj (Except.ok.inj h)
    rw [← this]
    exact ⟨rfl, rfl⟩

theorem covers_blk {call : TxCall} {w h : Nat} (hd : txDims call.txSz = some (w, h)) (r k : Nat) : call.covers call.plane k r = true ↔ InBlk call.left call.top w h r k := by
  unfold TxCall.covers InBlk TxCall.left TxCall.top
  rw [hd]
  simp only [decide_true, Bool.true_and, decide_eq_true_eq]
  omega

theorem tbLuma_frames (call : TxCall) (p : TxPos) (s : TbSt) : (tbLuma call p s).frames = s.frames ∧ (tbLuma call p s).above = s.above ∧ (tbLuma call p s).left = s.left := by
  unfold tbLuma; split <;> exact ⟨rfl, rfl, rfl⟩

/-- Prediction of a transform block changes only its pixels. -/
theorem tbPredict_inv {c : TbCtx} {call : TxCall} {p : TxPos} {s s' : TbSt} (hpos : txPos c.res c.use128 call = .ok (some p)) (h : tbPredict c call p s = .ok s') :
    (∀ q r k, call.covers q k r = false → at3 s'.frames q r k = at3 s.frames q r k) ∧
    (2 ≤ c.intra.bitDepth → ColoursIn c.intra.bitDepth c.palettes → TbIn c.intra.bitDepth s → TbIn c.intra.bitDepth s') := by
  obtain ⟨sx, sy⟩ := txPos_start hpos
  obtain ⟨w, hh, hd, -⟩ := txPos_inv hpos
  have hcov : ∀ q r k, call.covers q k r = false → q = call.plane → ¬ InBlk p.startX p.startY w hh r k := by
    intro q r k hc he hin
    rw [sx, sy, ← covers_blk hd r k, ← he] at hin
    rw [hin] at hc; cases hc
  unfold tbPredict at h
  split at h
  · rw [← Except.ok.inj h]
    exact ⟨fun _ _ _ _ => rfl, fun _ _ h => h⟩
  split at h
  · obtain ⟨u, hu, rfl⟩ := map_ok h
    obtain ⟨t1, t2, t3⟩ := tbLuma_frames call p u
    unfold tbPalette at hu
    obtain ⟨F, h1, hu⟩ := Res.inv hu
    obtain ⟨pal, h2, hu⟩ := Res.inv hu
    obtain ⟨G, h3, hu⟩ := Res.inv hu
    obtain ⟨fs, h4, hu⟩ := Res.inv hu
    have h1 := goGet_inv_nat h1
    have h2 := goGet_inv_nat h2
    obtain ⟨-, -, h4⟩ := goSet_inv' h4
    rw [Int.toNat_natCast] at h4
    have hu := Except.ok.inj hu
    obtain ⟨k1, k2⟩ := palettePrediction_inv hd h3
    have f1 : u.frames = s.frames.set call.plane G := by rw [← hu, ← h4]
    have f2 : u.above = s.above := by rw [← hu]
    have f3 : u.left = s.left := by rw [← hu]
    refine ⟨fun q r k hc => ?_, fun hb hpal hin => ?_⟩
    · rw [t1, f1]
      exact at3_set h1 q r k fun he => k1 r k (hcov q r k hc he)
    · refine ⟨?_, by rw [t2, f2]; exact hin.above, by rw [t3, f3]; exact hin.left⟩
      rw [t1, f1]
      refine set_in hin.frames fun r k v hv => ?_
      rcases k2 r k v hv with h | h
      · exact hpal _ (List.mem_of_getElem? h2) _ h
      · exact hin.frames _ _ h1 r k v h
  · obtain ⟨u, hu, rfl⟩ := map_ok h
    obtain ⟨t1, t2, t3⟩ := tbLuma_frames call p u
    unfold tbIntra at hu
    obtain ⟨lw, h1, hu⟩ := Res.inv hu
    obtain ⟨lh, h2, hu⟩ := Res.inv hu
    obtain ⟨m, h3, hu⟩ := Res.inv hu
    obtain ⟨f, h4, hu⟩ := Res.inv hu
    obtain ⟨F, h5, hu⟩ := Res.inv hu
    obtain ⟨r, h6, hu⟩ := Res.inv hu
    obtain ⟨G, h7, hu⟩ := Res.inv hu
    obtain ⟨fs, h8, hu⟩ := Res.inv hu
    obtain ⟨d1, d2, d3⟩ := log2_of h1 h2
    rw [hd] at d1
    injection d1 with d1
    injection d1 with d4 d5
    have h5 := goGet_inv_nat h5
    obtain ⟨-, -, h8⟩ := goSet_inv' h8
    rw [Int.toNat_natCast] at h8
    have hu := Except.ok.inj hu
    obtain ⟨b1, -, -⟩ := C151_block (F' := r.1) (E := r.2) h6
    have b1' : ∀ a k, ¬ InBlk p.startX p.startY w hh a k → at2 r.1 a k = at2 F a k := by
      intro a k hn; rw [d4, d5] at hn; exact b1 a k hn
    have cf : (∀ a k, ¬ InBlk p.startX p.startY w hh a k → at2 G a k = at2 r.1 a k) ∧ (2 ≤ c.intra.bitDepth → ∀ a k v, at2 G a k = some v → v = 2 ∨ at2 r.1 a k = some v) := by
      unfold tbCfl at h7
      split at h7
      · obtain ⟨luma, -, h7⟩ := Res.inv h7
        exact predictCfl_inv hd h7
      · rw [← Except.ok.inj h7]
        exact ⟨fun _ _ _ => rfl, fun _ _ _ _ h => .inr h⟩
    have f1 : u.frames = s.frames.set call.plane G := by rw [← hu, ← h8]
    have f2 : u.above = r.2.1 := by rw [← hu]
    have f3 : u.left = r.2.2 := by rw [← hu]
    refine ⟨fun q a k hc => ?_, fun hb hpal hin => ?_⟩
    · rw [t1, f1]
      exact at3_set h5 q a k fun he => by rw [cf.1 a k (hcov q a k hc he), b1' a k (hcov q a k hc he)]
    · obtain ⟨g1, g2, g3⟩ := predictIntra_in (F' := r.1) (E := r.2) hb d2 d3 (hin.frames _ _ h5) hin.above hin.left h6
      refine ⟨?_, by rw [t2, f2]; exact g2, by rw [t3, f3]; exact g3⟩
      rw [t1, f1]
      refine set_in hin.frames fun a k v hv => ?_
      rcases cf.2 hb a k v hv with h | h
      · rw [h]
        have : (2 : Int) ^ 2 ≤ 2 ^ c.intra.bitDepth := pow_le_pow_right₀ (by decide) hb
        exact ⟨by decide, by omega⟩
      · exact g1 a k v h

theorem tbMark_frames {c : TbCtx} {call : TxCall} {p : TxPos} {s s' : TbSt} (h : tbMark c call p s = .ok s') : s'.frames = s.frames ∧ s'.above = s.above ∧ s'.left = s.left := by
  unfold tbMark at h
  obtain ⟨m, h1, h⟩ := Res.inv h
  obtain ⟨m', h2, h⟩ := Res.inv h
  obtain ⟨ms, h3, h⟩ := Res.inv h
  rw [← Except.ok.inj h]
  exact ⟨rfl, rfl, rfl⟩

theorem tbQuiet_inv {c : TbCtx} {call : TxCall} {s s' : TbSt} (h : tbQuiet c call s = .ok s') :
    (∀ q r k, call.covers q k r = false → at3 s'.frames q r k = at3 s.frames q r k) ∧
    (2 ≤ c.intra.bitDepth → ColoursIn c.intra.bitDepth c.palettes → TbIn c.intra.bitDepth s → TbIn c.intra.bitDepth s') := by
  unfold tbQuiet at h
  obtain ⟨p, hp, h⟩ := Res.inv h
  cases p with
  | none =>
    rw [← Except.ok.inj h]
    exact ⟨fun _ _ _ _ => rfl, fun _ _ h => h⟩
  | some p =>
    obtain ⟨u, hu, h⟩ := Res.inv h
    obtain ⟨a1, a2⟩ := tbPredict_inv hp hu
    obtain ⟨m1, m2, m3⟩ := tbMark_frames h
    refine ⟨fun q r k hc => by rw [m1]; exact a1 q r k hc, fun hb hpal hin => ?_⟩
    obtain ⟨b1, b2, b3⟩ := a2 hb hpal hin
    exact ⟨by rw [m1]; exact b1, by rw [m2]; exact b2, by rw [m3]; exact b3⟩

theorem quietCalls_inv {c : TbCtx} (calls : List TxCall) : ∀ {s s' : TbSt}, quietCalls c calls s = .ok s' →
    (∀ q r k, (∀ call ∈ calls, call.covers q k r = false) → at3 s'.frames q r k = at3 s.frames q r k) ∧
    (2 ≤ c.intra.bitDepth → ColoursIn c.intra.bitDepth c.palettes → TbIn c.intra.bitDepth s → TbIn c.intra.bitDepth s') := by
  induction calls with
  | nil =>
    intro s s' h
    rw [← Except.ok.inj h]
    exact ⟨fun _ _ _ _ => rfl, fun _ _ h => h⟩
  | cons call t ih =>
    intro s s' h
    obtain ⟨u, hu, h⟩ := Res.inv h
    obtain ⟨a1, a2⟩ := tbQuiet_inv hu
    obtain ⟨b1, b2⟩ := ih h
    refine ⟨fun q r k hc => ?_, fun hb hpal hin => b2 hb hpal (a2 hb hpal hin)⟩
    rw [b1 q r k fun x hx => hc x (List.mem_cons_of_mem _ hx)]
    exact a1 q r k (hc call List.mem_cons_self)

theorem TbIn.of_strip {bd : Nat} {s : TbSt} (h : TbIn bd s.strip) : TbIn bd s := ⟨h.frames, h.above, h.left⟩

/-- **C158.**  If all pixels (and the palette colours) are numbers of `BitDepth` bits before a block is decoded, they are afterwards, whatever the block and the tile data are. -/
theorem C158_pixels (k : Fin 4) (fuel : Nat) (disable : Bool) {c : TbCtx} {bd : Nat} (hbd : c.intra.bitDepth = bd) (hb : 2 ≤ bd) (hpal : ∀ p ∈ c.palettes, ∀ v ∈ p, 0 ≤ v ∧ v ≤ 2 ^ bd - 1) {s s' : TbSt} (hs : TbIn bd s)
    {cdfs cdfs' : List (List Int)} (hL : (cdfLayout k).Fits cdfs) {sym sym' : Sym} (hr : 2 ^ 15 ≤ sym.range ∧ sym.range < 2 ^ 16) (hx : 0 ≤ sym.value ∧ sym.value < sym.range) {bs bs' : BitStream}
    (h : (residual fuel c s).exec (cdfLayout k) disable cdfs sym bs = .ok ((s', cdfs', sym'), bs')) : TbIn bd s' := by
  subst hbd
  obtain ⟨l, -, q⟩ := exec_wlp (residual_quiet _ fuel c s) hL hr hx h
  exact ((quietCalls_inv l q).2 hb hpal ⟨hs.frames, hs.above, hs.left⟩).of_strip

example : TbIn 8 tfSt ∧ tfCtx.intra.bitDepth = 8 ∧ ∀ p ∈ tfCtx.palettes, ∀ v ∈ p, 0 ≤ v ∧ v ≤ (2 : Int) ^ 8 - 1 := by
  refine ⟨⟨fun q F hF r k v hv => ?_, fun _ => (⟨by decide, by decide⟩ : Btw 0 (2 ^ 8 - 1) 0), fun _ => (⟨by decide, by decide⟩ : Btw 0 (2 ^ 8 - 1) 0)⟩, rfl, by decide⟩
  have hF := List.eq_of_mem_replicate (List.mem_of_getElem? hF)
  rw [hF] at hv
  unfold at2 at hv
  rw [Option.bind_eq_some_iff] at hv
  obtain ⟨row, h1, h2⟩ := hv
  rw [List.eq_of_mem_replicate (List.mem_of_getElem? h1)] at h2
  rw [List.eq_of_mem_replicate (List.mem_of_getElem? h2)]
  exact ⟨by decide, by decide⟩

/-- **C159.**  Decoding a block changes no pixel of the frame outside of it: in luma none outside of its `bw` by `bh` pixels, in chroma none outside of the subsampled ones (none at all without chroma). -/
theorem C159_outside (k : Fin 4) (fuel : Nat) (disable : Bool) {c : TbCtx} {bw bh : Nat} (hz : c.res.miSize < 22) (hd : sizeDims c.res.miSize = some (bw, bh)) (hsub : SubOk c.res.subX c.res.subY bw bh)
    {tw th : Nat} (ht : txDims c.res.txSize = some (tw, th)) (hwd : tw ∣ bw) (hhd : th ∣ bh) (hg : c.res.isInter = true → c.res.lossless = false → c.res.Sized) {s s' : TbSt}
    {cdfs cdfs' : List (List Int)} (hL : (cdfLayout k).Fits cdfs) {sym sym' : Sym} (hr : 2 ^ 15 ≤ sym.range ∧ sym.range < 2 ^ 16) (hx : 0 ≤ sym.value ∧ sym.value < sym.range) {bs bs' : BitStream}
    (h : (residual fuel c s).exec (cdfLayout k) disable cdfs sym bs = .ok ((s', cdfs', sym'), bs')) {q px py : Nat} (hpx : px < c.res.miCols * 4) (hpy : py < c.res.miRows * 4)
    (h0 : q = 0 → ¬ ((4 * c.res.miCol ≤ px ∧ px < 4 * c.res.miCol + bw) ∧ 4 * c.res.miRow ≤ py ∧ py < 4 * c.res.miRow + bh))
    (h1 : c.res.hasChroma = true → q = 1 ∨ q = 2 → ¬ ((4 * (c.res.miCol >>> c.res.subX) ≤ px ∧ px < 4 * (c.res.miCol >>> c.res.subX) + planeExtent c.res.subX bw) ∧
      4 * (c.res.miRow >>> c.res.subY) ≤ py ∧ py < 4 * (c.res.miRow >>> c.res.subY) + planeExtent c.res.subY bh)) :
    at3 s'.frames q py px = at3 s.frames q py px := by
  obtain ⟨l, e, qq⟩ := exec_wlp (residual_quiet _ fuel c s) hL hr hx h
  obtain ⟨l', e', hcov⟩ := C116_cover hz hd hsub ht hwd hhd hg
  rw [e] at e'
  rw [← Except.ok.inj e'] at hcov
  have hc := hcov q px py hpx hpy
  rw [if_neg (by
    rintro (⟨a, b⟩ | ⟨a, b, d⟩)
    · exact h0 a b
    · exact h1 a b d)] at hc
  refine (quietCalls_inv l qq).1 q py px fun call hcall => ?_
  have := List.countP_eq_zero.mp hc call hcall
  simpa using this

example : tfCtx.res.miSize < 22 ∧ sizeDims tfCtx.res.miSize = some (4, 4) ∧ SubOk tfCtx.res.subX tfCtx.res.subY 4 4 ∧ txDims tfCtx.res.txSize = some (4, 4) ∧ ¬ (tfCtx.res.isInter = true) := by decide

/-! ## Availability -/

/-- **C160, refuted (luma).**  Luma is predicted with the availability of the chroma neighbours.  In a block without chroma these count as missing: whatever pixels are to the left and above, the first transform
block of a DC predicted luma block is filled with half of the range. -/
theorem C160_luma_refuted {c : TbCtx} {call : TxCall} {p : TxPos} {s s' : TbSt} (hpos : txPos c.res c.use128 call = .ok (some p)) (hpl : call.plane = 0) (hx : call.x = 0) (hy : call.y = 0)
    (hi : c.res.isInter = false) (hpal : c.paletteSizeY = 0) (hm : c.yMode = 0) (hf : c.intra.useFilter = false) (hL : c.intra.availLChroma = false) (hU : c.intra.availUChroma = false)
    (h : tbPredict c call p s = .ok s') (r k : Nat) (hcov : call.covers 0 k r = true) : at3 s'.frames 0 r k = some (2 ^ (c.intra.bitDepth - 1)) := by
  obtain ⟨sx, sy⟩ := txPos_start hpos
  obtain ⟨w, hh, hd, -⟩ := txPos_inv hpos
  unfold tbPredict at h
  rw [if_neg (by rw [hi]; decide), if_neg (by unfold usesPalette; rw [hpl, hpal]; simp)] at h
  obtain ⟨u, hu, rfl⟩ := map_ok h
  rw [(tbLuma_frames call p u).1]
  unfold tbIntra at hu
  obtain ⟨lw, h1, hu⟩ := Res.inv hu
  obtain ⟨lh, h2, hu⟩ := Res.inv hu
  obtain ⟨m, h3, hu⟩ := Res.inv hu
  obtain ⟨f, h4, hu⟩ := Res.inv hu
  obtain ⟨F, h5, hu⟩ := Res.inv hu
  obtain ⟨rr, h6, hu⟩ := Res.inv hu
  obtain ⟨G, h7, hu⟩ := Res.inv hu
  obtain ⟨fs, h8, hu⟩ := Res.inv hu
  obtain ⟨d1, d2, d3⟩ := log2_of h1 h2
  rw [hd] at d1
  injection d1 with d1
  injection d1 with d4 d5
  obtain ⟨-, hlen, h8⟩ := goSet_inv' h8
  rw [Int.toNat_natCast] at h8 hlen
  rw [← Except.ok.inj hu]
  show at3 fs 0 r k = _
  rw [h8, hpl]
  unfold at3
  rw [List.getElem?_set_self (by omega)]
  show at2 G r k = _
  have e7 : G = rr.1 := by
    unfold tbCfl usesCfl at h7
    rw [hpl, if_neg (by simp)] at h7
    exact (Except.ok.inj h7).symm
  rw [e7]
  obtain ⟨e, pr, -, hp, hc⟩ := predictIntra_inv (F' := rr.1) (E := rr.2) h6
  have hmode : (tbArgs c call p f lw lh).mode = 0 := by show tbMode c call.plane = 0; unfold tbMode; rw [if_pos hpl, hm]
  have hl : (tbArgs c call p f lw lh).haveLeft = false := by show ((if call.plane = 0 then _ else _) || _) = _; rw [if_pos hpl, hL, hx]; rfl
  have ha : (tbArgs c call p f lw lh).haveAbove = false := by show ((if call.plane = 0 then _ else _) || _) = _; rw [if_pos hpl, hU, hy]; rfl
  unfold intraPred at hp
  dsimp only at hp
  rw [if_neg (by rw [hf]; exact fun h => absurd h.2 (by decide)), hmode, if_neg (by decide), if_neg (by decide), if_pos rfl, hl, ha] at hp
  obtain ⟨pp, hpp, hp⟩ := Res.inv hp
  have hp := Except.ok.inj hp
  injection hp with hp hq
  have hb := hcov
  rw [← hpl, covers_blk hd r k, ← sx, ← sy, d4, d5] at hb
  obtain ⟨⟨b1, b2⟩, b3, b4⟩ := hb
  obtain ⟨k1, -⟩ := copyPred_inv hc
  have := (k1 (r - p.startY) (k - p.startX) (by show _ < 2 ^ lh; omega) (by show _ < 2 ^ lw; omega)).2.2.2
  rw [show (tbArgs c call p f lw lh).y + (r - p.startY) = r by show p.startY + _ = r; omega, show (tbArgs c call p f lw lh).x + (k - p.startX) = k by show p.startX + _ = k; omega] at this
  rw [this, ← hp, C56_dc_none hpp (by show _ < 2 ^ lh; omega) (by show _ < 2 ^ lw; omega)]

example : ∃ p, txPos tfCtx.res tfCtx.use128 ⟨0, 0, 0, 0, 0, 0⟩ = .ok (some p) ∧ (tbPredict tfCtx ⟨0, 0, 0, 0, 0, 0⟩ p tfSt).toOption.isSome ∧ tfCtx.res.isInter = false ∧ tfCtx.yMode = 0 ∧
    TxCall.covers 0 2 3 ⟨0, 0, 0, 0, 0, 0⟩ = true := ⟨_, rfl, by decide +kernel, rfl, rfl, by decide⟩

/-- **C160, refuted (chroma).**  Chroma is predicted with the availability of the luma neighbours. -/
theorem C160_chroma_refuted (c : TbCtx) (call : TxCall) (p : TxPos) (f : Bool × Bool) (lw lh : Nat) (hp : 0 < call.plane) (hx : call.x = 0) (hy : call.y = 0) :
    (tbArgs c call p f lw lh).haveLeft = c.intra.availL ∧ (tbArgs c call p f lw lh).haveAbove = c.intra.availU := by
  have : call.plane ≠ 0 := by omega
  unfold tbArgs
  simp [this, hx, hy]

/-- **C160, what holds.**  If luma and chroma neighbours are equally available, the prediction of a transform block is told AV1's availability: that of the block for transform blocks at its left (upper) border, and
inside the block always. -/
theorem C160_partial (c : TbCtx) (call : TxCall) (p : TxPos) (f : Bool × Bool) (lw lh : Nat) (hl : c.intra.availLChroma = c.intra.availL) (hu : c.intra.availUChroma = c.intra.availU) :
    ((tbArgs c call p f lw lh).haveLeft = true ↔ c.intra.availL = true ∨ call.baseX < call.left) ∧ ((tbArgs c call p f lw lh).haveAbove = true ↔ c.intra.availU = true ∨ call.baseY < call.top) := by
  unfold tbArgs TxCall.left TxCall.top
  rw [hl, hu]
  simp

end Gov1
