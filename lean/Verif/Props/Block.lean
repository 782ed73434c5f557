import Verif.Model.Block
import Verif.Props.TxFrame
import Verif.Props.InterTight
import Verif.Props.BlockRec
import Verif.Props.IntraInfo
import Verif.Props.TxSize
import Verif.Props.Cover
/-!
# A whole block and a whole tile

What `decodeBlock` leaves behind, and what the decoding of a tile made of it does.
-/
namespace Gov1
open Spec

/-! ## Prediction keeps pixels in range -/

theorem cpIntra_in {c : CpCtx} {plane ps : Nat} {dec : List (List Bool)} {s s' : TbSt} {bd : Nat} (hbd : c.intra.bitDepth = bd) (hb : 2 ≤ bd) (hs : TbIn bd s)
    (h : cpIntra c plane ps dec s = .ok s') : TbIn bd s' := by
  unfold cpIntra at h
  split at h
  · obtain ⟨w4, -, h⟩ := Res.inv h
    obtain ⟨h4, -, h⟩ := Res.inv h
    obtain ⟨lw, -, h⟩ := Res.inv h
    obtain ⟨lh, -, h⟩ := Res.inv h
    obtain ⟨ar, -, h⟩ := Res.inv h
    obtain ⟨bl, -, h⟩ := Res.inv h
    obtain ⟨F, hF, h⟩ := Res.inv h
    obtain ⟨r, hr, h⟩ := Res.inv h
    obtain ⟨fs, hfs, h⟩ := Res.inv h
    obtain ⟨-, -, hfs⟩ := goSet_inv' hfs
    subst hbd
    obtain ⟨g1, g2, g3⟩ := predictIntra_in (F' := r.1) (E := r.2) hb (by dsimp only; omega) (by dsimp only; omega) (hs.frames _ _ (goGet_inv_nat hF)) hs.above hs.left hr
    rw [← Except.ok.inj h, hfs]
    exact ⟨set_in hs.frames g1, g2, g3⟩
  · rw [← Except.ok.inj h]; exact hs

theorem runInter_in {c : InterCtx} (hbd : 2 ≤ c.bitDepth) (ks : List InterCall) : (∀ k ∈ ks, 0 < k.w ∧ 0 < k.h) → ∀ {F F' : List (List Int)}, FrameIn c.bitDepth F →
    runInter c ks F = .ok F' → FrameIn c.bitDepth F' := by
  induction ks with
  | nil => intro _ F F' hF h; rw [← Except.ok.inj h]; exact hF
  | cons k ks ih =>
    intro hk F F' hF h
    rw [runInter] at h
    obtain ⟨G, hG, h⟩ := Res.inv h
    exact ih (fun k h => hk k (List.mem_cons_of_mem _ h)) (C165_range hbd (hk k (List.mem_cons_self ..)).1 (hk k (List.mem_cons_self ..)).2 hF hG) h

theorem interCalls_pos {plane bx byy w4 h4 pw ph cr cc : Nat} {ks : List InterCall} (h : interCalls plane bx byy w4 h4 pw ph cr cc = .ok ks) : ∀ k ∈ ks, 0 < k.w ∧ 0 < k.h := by
  unfold interCalls at h
  split at h
  · cases h
  · rw [← Except.ok.inj h]
    intro k hk
    simp only [List.mem_flatMap, List.mem_map, List.mem_range] at hk
    obtain ⟨i, hi, j, hj, rfl⟩ := hk
    dsimp only
    constructor
    · rcases Nat.eq_zero_or_pos pw with rfl | h
      · simp at hj
      · exact h
    · rcases Nat.eq_zero_or_pos ph with rfl | h
      · simp at hi
      · exact h

theorem cpInter_in {c : CpCtx} {plane ps : Nat} {s s' : TbSt} {bd : Nat} (hbd : c.inter.bitDepth = bd) (hb : 2 ≤ bd) (hs : TbIn bd s)
    (h : cpInter c plane ps s = .ok s') : TbIn bd s' := by
  unfold cpInter at h
  split at h
  · obtain ⟨ks, hk, h⟩ := Res.inv h
    obtain ⟨F, hF, h⟩ := Res.inv h
    obtain ⟨G, hG, h⟩ := Res.inv h
    obtain ⟨fs, hfs, h⟩ := Res.inv h
    obtain ⟨-, -, hfs⟩ := goSet_inv' hfs
    have hpos : ∀ k ∈ ks, 0 < k.w ∧ 0 < k.h := by
      unfold interPlaneCalls at hk
      obtain ⟨_, -, hk⟩ := Res.inv hk
      obtain ⟨_, -, hk⟩ := Res.inv hk
      obtain ⟨_, -, hk⟩ := Res.inv hk
      obtain ⟨_, -, hk⟩ := Res.inv hk
      obtain ⟨_, -, hk⟩ := Res.inv hk
      split at hk
      · exact interCalls_pos hk
      · exact interCalls_pos hk
    subst hbd
    have := runInter_in (c := { c.inter with isInterIntra := cpInterIntra c }) hb ks hpos (hs.frames _ _ (goGet_inv_nat hF)) hG
    rw [← Except.ok.inj h, hfs]
    exact ⟨set_in hs.frames this, hs.above, hs.left⟩
  · rw [← Except.ok.inj h]; exact hs

theorem computePrediction_in {c : CpCtx} {s s' : TbSt} {bd : Nat} (h1 : c.inter.bitDepth = bd) (h2 : c.intra.bitDepth = bd) (hb : 2 ≤ bd) (hs : TbIn bd s)
    (h : computePrediction c s = .ok s') : TbIn bd s' := by
  have hp : ∀ {plane : Nat} {s s' : TbSt}, TbIn bd s → cpPlane c plane s = .ok s' → TbIn bd s' := by
    intro plane s s' hs h
    unfold cpPlane at h
    obtain ⟨ps, -, h⟩ := Res.inv h
    obtain ⟨m, -, h⟩ := Res.inv h
    obtain ⟨t, ht, h⟩ := Res.inv h
    exact cpInter_in h1 hb (cpIntra_in h2 hb hs ht) h
  obtain ⟨k1, k2⟩ := C168_planes h
  cases hc : c.hasChroma
  · exact hp hs (k1 hc)
  · obtain ⟨s1, s2, a, b, d⟩ := k2 hc
    exact hp (hp (hp hs a) b) d

/-! ## The transform size of an intra block -/

/-- The transform blocks of size `t` tile a block of size `z`. -/
def TxTiles (t z : Nat) : Prop := ∃ tw th bw bh, txDims t = some (tw, th) ∧ sizeDims z = some (bw, bh) ∧ tw ∣ bw ∧ th ∣ bh

theorem rect_tiles : ∀ z < 22, ∀ t ∈ maxTxSizeRect[z]?, ((txDims t).bind fun e => (sizeDims z).map fun d => decide (e.1 ∣ d.1 ∧ e.2 ∣ d.2)) = some true := by decide +kernel
theorem four_tiles : ∀ z < 22, ((txDims 0).bind fun e => (sizeDims z).map fun d => decide (e.1 ∣ d.1 ∧ e.2 ∣ d.2)) = some true := by decide +kernel
theorem split_dvd : ∀ t < 19, ∀ u ∈ splitTxSize[t]?, ((txDims u).bind fun e => (txDims t).map fun d => decide (e.1 ∣ d.1 ∧ e.2 ∣ d.2)) = some true := by decide +kernel

theorem TxTiles.of {t z : Nat} (h : ((txDims t).bind fun e => (sizeDims z).map fun d => decide (e.1 ∣ d.1 ∧ e.2 ∣ d.2)) = some true) : TxTiles t z := by
  obtain ⟨e, he, h⟩ := Option.bind_eq_some_iff.mp h
  obtain ⟨d, hd, h⟩ := Option.map_eq_some_iff.mp h
  exact ⟨e.1, e.2, d.1, d.2, he, hd, (of_decide_eq_true h).1, (of_decide_eq_true h).2⟩

theorem TxTiles.split {z : Nat} (n : Nat) : ∀ {t t' : Nat}, TxTiles t z → splitTimes n t = .ok t' → TxTiles t' z := by
  induction n with
  | zero => intro t t' ht h; rw [← Except.ok.inj h]; exact ht
  | succ n ih =>
    intro t t' ht h
    rw [splitTimes] at h
    obtain ⟨u, hu, h⟩ := Res.inv h
    refine ih ?_ h
    have hu := goGet_inv_nat hu
    have hlt : t < 19 := (List.getElem?_eq_some_iff.mp hu).1
    obtain ⟨tw, th, bw, bh, a, b, c, d⟩ := ht
    obtain ⟨e, he, k⟩ := Option.bind_eq_some_iff.mp (split_dvd t hlt u hu)
    obtain ⟨f, hf, k⟩ := Option.map_eq_some_iff.mp k
    rw [a] at hf; cases hf
    have k := of_decide_eq_true k
    exact ⟨e.1, e.2, bw, bh, he, b, k.1.trans c, k.2.trans d⟩

theorem readTxSize_tiles (L : Layout) (cx : TxCtx) (g : List (List Nat)) (sel : Bool) (hz : cx.miSize < 22) : (readTxSize cx g sel).Wlp L (fun t => TxTiles t cx.miSize) := by
  unfold readTxSize
  split
  · exact TxTiles.of (four_tiles _ hz)
  · refine Rd.Wlp.seq (Rd.Wlp.lift (Q := fun t => TxTiles t cx.miSize) fun t ht => TxTiles.of (rect_tiles _ hz t (goGet_inv_nat ht))) fun t ht => ?_
    refine Rd.Wlp.seq (Rd.Wlp.true _) fun _ _ => ?_
    split
    · exact Rd.Wlp.seq (Rd.Wlp.true _) fun n _ => Rd.Wlp.lift fun t' h => ht.split n h
    · exact ht

/-- A block that is not inter gets a transform size that tiles it, recorded for all its units. -/
theorem readBlockTx_tiles (L : Layout) (cx : TxCtx) (old : Nat) (g : List (List Nat)) (hz : cx.miSize < 22) (ht : cx.noTree) :
    (readBlockTxSize cx old g).Wlp L (fun r => TxTiles r.1 cx.miSize) := by
  unfold readBlockTxSize
  refine Rd.Wlp.seq (Rd.Wlp.true _) fun w4 _ => Rd.Wlp.seq (Rd.Wlp.true _) fun h4 _ => ?_
  rw [if_neg ht]
  exact Rd.Wlp.seq (readTxSize_tiles L cx g _ hz) fun t ht => Rd.Wlp.seq (Rd.Wlp.true _) fun _ _ => ht

/-! ## A block -/

/-- What is known when `decodeBlock` returns: the mode info read, the transform size, and the effects on the records, on the modes and on the pixels. -/
structure BlockDone (L : Layout) (h : FrHdr) (r c size : Nat) (s s' : BlkSt) (a : Avail) (bw4 bh4 : Nat) (l : LevelCtx) (p : TbSt) : Prop where
  wide : num4x4Wide[size]? = some bw4
  high : num4x4High[size]? = some bh4
  avail : blockAvail h.tile h.mi r c size = .ok a
  modes : storeModes r c bh4 bw4 a.hasChroma s'.info.base.refFrame (s'.info.base.yMode : Int) (s'.info.base.uvMode : Int) s'.info.mv s.modes = .ok s'.modes
  recs : storeBlk r c bh4 bw4 (blkValOf size s'.info s'.txSize) s.recs = .ok s'.recs
  pred : computePrediction (cpCtxOf h (miBlkOf r c size a) a s'.info s'.modes s.recs.miSizes) { s.tb with coef := withLevels s.tb.coef l } = .ok p
  resid : ∃ calls, residualCalls (tbCtxOf h (miBlkOf r c size a) a s'.info s'.modes s'.txSize s'.interTx).res = .ok calls ∧
    quietCalls (tbCtxOf h (miBlkOf r c size a) a s'.info s'.modes s'.txSize s'.interTx) calls p.strip = .ok s'.tb.strip
  info : h.intraFrame = true → s'.info.base.isInter = 0 ∧ s'.info.base.refFrame.1 = -1 ∧ s'.info.skipMode = 0
  tx : s'.info.base.isInter = 0 → TxTiles s'.txSize size
  deltas : s'.readDeltas = false

theorem modeInfo_wlp (L : Layout) (h : FrHdr) (b : MiBlk) (s : BlkSt) :
    (modeInfo h b s).Wlp L (fun i => h.intraFrame = true → i.base.isInter = 0 ∧ i.base.refFrame.1 = -1 ∧ i.skipMode = 0) := by
  unfold modeInfo
  split
  · refine Rd.Wlp.seq (intraInfo_wlp h.mi b _ _ _) fun m hm => ?_
    exact fun _ => ⟨hm.2.2.1, by rw [hm.2.1], rfl⟩
  · rename_i hn
    exact (Rd.Wlp.true _).mono fun _ _ hi => absurd hi hn

theorem decodeBlock_done (L : Layout) (fuel : Nat) (h : FrHdr) (r c size : Nat) (s : BlkSt) :
    (decodeBlock fuel h r c size s).Wlp L (fun s' => ∃ a bw4 bh4 l p, BlockDone L h r c size s s' a bw4 bh4 l p) := by
  unfold decodeBlock
  refine Rd.Wlp.seq (Rd.Wlp.lift (Q := fun x => num4x4Wide[size]? = some x) fun x hx => goGet_inv_nat hx) fun bw4 hw => ?_
  refine Rd.Wlp.seq (Rd.Wlp.lift (Q := fun x => num4x4High[size]? = some x) fun x hx => goGet_inv_nat hx) fun bh4 hh => ?_
  refine Rd.Wlp.seq (Rd.Wlp.lift (Q := fun x => blockAvail h.tile h.mi r c size = .ok x) fun x hx => hx) fun a ha => ?_
  unfold decodeBody
  refine Rd.Wlp.seq (modeInfo_wlp L h _ s) fun i hi => ?_
  have hz : size < 22 := (List.getElem?_eq_some_iff.mp hw).1
  refine Rd.Wlp.seq (Q := fun t => i.base.isInter = 0 → TxTiles t.1 size) ?_ fun t ht => ?_
  · by_cases h0 : i.base.isInter = 0
    · exact (readBlockTx_tiles L (txCtxOf h (miBlkOf r c size a) i s) _ _ hz (by rintro ⟨-, -, hi, -⟩; simp [txCtxOf, h0] at hi)).mono fun _ h _ => h
    · exact (Rd.Wlp.true _).mono fun _ _ h => absurd h h0
  refine Rd.Wlp.seq (Rd.Wlp.true _) fun l _ => ?_
  refine Rd.Wlp.seq (Rd.Wlp.lift (Q := fun m => storeModes r c bh4 bw4 a.hasChroma i.base.refFrame (i.base.yMode : Int) (i.base.uvMode : Int) i.mv s.modes = .ok m) fun _ hx => hx) fun m hm => ?_
  refine Rd.Wlp.seq (Rd.Wlp.lift (Q := fun p => computePrediction (cpCtxOf h (miBlkOf r c size a) a i m s.recs.miSizes) { s.tb with coef := withLevels s.tb.coef l } = .ok p) fun _ hx => hx) fun p hp => ?_
  refine Rd.Wlp.seq (residual_quiet L fuel _ p) fun q hq => ?_
  refine Rd.Wlp.seq (Rd.Wlp.lift (Q := fun m => storeBlk r c bh4 bw4 (blkValOf size i t.1) s.recs = .ok m) fun _ hx => hx) fun recs hr => ?_
  exact ⟨a, bw4, bh4, l, p, hw, hh, ha, hm, hr, hp, hq, hi, ht, rfl⟩

theorem size_units : ∀ z : Fin 22, sizeDims z = (num4x4Wide[z.val]?).bind fun w => (num4x4High[z.val]?).map fun h => (4 * w, 4 * h) := by decide +kernel
theorem units_pos : (∀ n ∈ num4x4Wide, 0 < n) ∧ ∀ n ∈ num4x4High, 0 < n := by decide +kernel

theorem sizeDims_units {z bw bh w4 h4 : Nat} (hd : sizeDims z = some (bw, bh)) (hw : num4x4Wide[z]? = some w4) (hh : num4x4High[z]? = some h4) : w4 = bw / 4 ∧ h4 = bh / 4 ∧ 0 < w4 ∧ 0 < h4 := by
  have := size_units ⟨z, (List.getElem?_eq_some_iff.mp hw).1⟩
  rw [hd] at this
  dsimp only at this
  rw [hw, hh] at this
  simp only [Option.bind_some, Option.map_some, Option.some.injEq, Prod.mk.injEq] at this
  have p1 := units_pos.1 _ (List.mem_of_getElem? hw)
  have p2 := units_pos.2 _ (List.mem_of_getElem? hh)
  omega

/-- **C175.**  Whatever the tile data, when a block of `bw` by `bh` pixels at unit `(r, c)` has been decoded, the size of the block, and the reference frames, the luma mode, the skip
flags, the inter flag, the transform size and the loop filter deltas just decoded, are those recorded for every 4x4 unit of the block; the records of all other units are as before. -/
theorem C175_records (k : Fin 4) (fuel : Nat) (disable : Bool) {h : FrHdr} {r c size bw bh : Nat} (hd : sizeDims size = some (bw, bh)) {s s' : BlkSt}
    {cdfs cdfs' : List (List Int)} (hL : (cdfLayout k).Fits cdfs) {sym sym' : Sym} (hr : 2 ^ 15 ≤ sym.range ∧ sym.range < 2 ^ 16) (hx : 0 ≤ sym.value ∧ sym.value < sym.range)
    {bs bs' : BitStream} (he : (decodeBlock fuel h r c size s).exec (cdfLayout k) disable cdfs sym bs = .ok ((s', cdfs', sym'), bs')) :
    Filled r c (bh / 4) (bw / 4) size s.recs.miSizes s'.recs.miSizes ∧
    Filled r c (bh / 4) (bw / 4) s'.info.base.refFrame s.modes.refFrames s'.modes.refFrames ∧
    Filled r c (bh / 4) (bw / 4) (s'.info.base.yMode : Int) s.modes.yModes s'.modes.yModes ∧
    Filled r c (bh / 4) (bw / 4) (s'.info.base.skip : Int) s.recs.skips s'.recs.skips ∧
    Filled r c (bh / 4) (bw / 4) (s'.info.skipMode : Int) s.recs.skipModes s'.recs.skipModes ∧
    Filled r c (bh / 4) (bw / 4) (s'.info.base.isInter : Int) s.recs.isInters s'.recs.isInters ∧
    Filled r c (bh / 4) (bw / 4) s'.txSize s.recs.txSizes s'.recs.txSizes ∧
    Filled r c (bh / 4) (bw / 4) s'.info.base.deltaLF s.recs.deltaLFs s'.recs.deltaLFs := by
  obtain ⟨a, bw4, bh4, l, p, q⟩ := exec_wlp (decodeBlock_done _ fuel h r c size s) hL hr hx he
  obtain ⟨rfl, rfl, -, -⟩ := sizeDims_units hd q.wide q.high
  obtain ⟨e1, e2, e3, e4, e5, -, -, e8⟩ := C126_records_partial q.recs
  obtain ⟨f1, f2, -⟩ := C126_modes_partial q.modes
  exact ⟨e5, f2, f1, e3, e2, e1, e4, e8⟩

/-- **C175, refuted (frame size).**  The arrays of the decoder have 2 by 2 units: no block that reaches beyond the first 8x8 pixels of a frame is ever decoded. -/
theorem C175_size_refuted (k : Fin 4) (fuel : Nat) (disable : Bool) {h : FrHdr} {r c size bw bh : Nat} (hd : sizeDims size = some (bw, bh)) (hbig : 8 < 4 * r + bh ∨ 8 < 4 * c + bw)
    {s s' : BlkSt} (hs : Shape 2 2 s.recs.skips)
    {cdfs cdfs' : List (List Int)} (hL : (cdfLayout k).Fits cdfs) {sym sym' : Sym} (hr : 2 ^ 15 ≤ sym.range ∧ sym.range < 2 ^ 16) (hx : 0 ≤ sym.value ∧ sym.value < sym.range)
    {bs bs' : BitStream} : (decodeBlock fuel h r c size s).exec (cdfLayout k) disable cdfs sym bs ≠ .ok ((s', cdfs', sym'), bs') := by
  intro he
  obtain ⟨a, bw4, bh4, l, p, q⟩ := exec_wlp (decodeBlock_done _ fuel h r c size s) hL hr hx he
  have hu := size_units ⟨size, (List.getElem?_eq_some_iff.mp q.wide).1⟩
  rw [hd] at hu
  dsimp only at hu
  rw [q.wide, q.high] at hu
  simp only [Option.bind_some, Option.map_some, Option.some.injEq, Prod.mk.injEq] at hu
  exact C126_panic_refuted (units_pos.2 _ (List.mem_of_getElem? q.high)) (units_pos.1 _ (List.mem_of_getElem? q.wide)) _ hs (by omega) _ q.recs

/-- **C176.**  In an intra frame the decoding of a block changes no pixel of the frame outside the block, in any plane, whatever the tile data. -/
theorem C176_outside (k : Fin 4) (fuel : Nat) (disable : Bool) {h : FrHdr} (hi : h.intraFrame = true) {r c size bw bh : Nat} (hd : sizeDims size = some (bw, bh))
    (hsub : SubOk h.mi.subX h.mi.subY bw bh) {s s' : BlkSt} {a : Avail} (ha : blockAvail h.tile h.mi r c size = .ok a)
    {cdfs cdfs' : List (List Int)} (hL : (cdfLayout k).Fits cdfs) {sym sym' : Sym} (hr : 2 ^ 15 ≤ sym.range ∧ sym.range < 2 ^ 16) (hx : 0 ≤ sym.value ∧ sym.value < sym.range)
    {bs bs' : BitStream} (he : (decodeBlock fuel h r c size s).exec (cdfLayout k) disable cdfs sym bs = .ok ((s', cdfs', sym'), bs')) {q px py : Nat}
    (hpx : px < h.miCols * 4) (hpy : py < h.miRows * 4)
    (h0 : q = 0 → ¬ ((4 * c ≤ px ∧ px < 4 * c + bw) ∧ 4 * r ≤ py ∧ py < 4 * r + bh))
    (h1 : a.hasChroma = true → q = 1 ∨ q = 2 → ¬ ((4 * (c >>> h.mi.subX) ≤ px ∧ px < 4 * (c >>> h.mi.subX) + planeExtent h.mi.subX bw) ∧
      4 * (r >>> h.mi.subY) ≤ py ∧ py < 4 * (r >>> h.mi.subY) + planeExtent h.mi.subY bh)) :
    at3 s'.tb.frames q py px = at3 s.tb.frames q py px := by
  obtain ⟨a', bw4, bh4, l, p, d⟩ := exec_wlp (decodeBlock_done _ fuel h r c size s) hL hr hx he
  obtain rfl : a = a' := by have := d.avail; rw [ha] at this; exact Except.ok.inj this
  have h0' := (d.info hi).1
  have hp := C168_intra_idle _ (by simp [cpCtxOf, h0']) d.pred
  obtain ⟨tw, th, bw', bh', t1, t2, t3, t4⟩ := d.tx h0'
  rw [hd] at t2; cases t2
  obtain ⟨calls, e, qq⟩ := d.resid
  have hz : size < 22 := (List.getElem?_eq_some_iff.mp d.wide).1
  obtain ⟨l', e', hcov⟩ := C116_cover (cx := (tbCtxOf h (miBlkOf r c size a) a s'.info s'.modes s'.txSize s'.interTx).res) hz hd hsub t1 t3 t4
    (by intro hii; simp [tbCtxOf, h0'] at hii)
  rw [e] at e'
  rw [← Except.ok.inj e'] at hcov
  have hc := hcov q px py hpx hpy
  rw [if_neg (by
    rintro (⟨a, b⟩ | ⟨a, b, d⟩)
    · exact h0 a b
    · exact h1 a b d)] at hc
  have := (quietCalls_inv calls qq).1 q py px fun call hcall => by simpa using List.countP_eq_zero.mp hc call hcall
  rw [hp] at this
  exact this

/-- **C177.**  If all pixels are numbers of `BitDepth` bits before a block is decoded, they are afterwards, whatever the frame, the block (intra or inter) and the tile data are. -/
theorem C177_pixels (k : Fin 4) (fuel : Nat) (disable : Bool) {h : FrHdr} (hb : 2 ≤ h.bitDepth) {r c size : Nat} {s s' : BlkSt} (hs : TbIn h.bitDepth s.tb)
    {cdfs cdfs' : List (List Int)} (hL : (cdfLayout k).Fits cdfs) {sym sym' : Sym} (hr : 2 ^ 15 ≤ sym.range ∧ sym.range < 2 ^ 16) (hx : 0 ≤ sym.value ∧ sym.value < sym.range)
    {bs bs' : BitStream} (he : (decodeBlock fuel h r c size s).exec (cdfLayout k) disable cdfs sym bs = .ok ((s', cdfs', sym'), bs')) : TbIn h.bitDepth s'.tb := by
  obtain ⟨a, bw4, bh4, l, p, d⟩ := exec_wlp (decodeBlock_done _ fuel h r c size s) hL hr hx he
  have hp : TbIn h.bitDepth p := computePrediction_in (s := { s.tb with coef := withLevels s.tb.coef l }) rfl rfl hb ⟨hs.frames, hs.above, hs.left⟩ d.pred
  obtain ⟨calls, -, q⟩ := d.resid
  exact ((quietCalls_inv calls q).2 hb (by intro p hp; simp only [tbCtxOf, List.mem_cons, List.not_mem_nil, or_false, or_self] at hp; subst hp; simp) ⟨hp.frames, hp.above, hp.left⟩).of_strip

/-! ## The partition tree -/

/-- A relation between a state, what was done, and the state afterwards, that is closed under doing one thing after the other. -/
structure TreeRel {σ : Type} (ops : PartOps σ) (T : σ → List Ev → σ → Prop) : Prop where
  nil : ∀ x, T x [] x
  app : ∀ {x y z e f}, T x e y → T y f z → T x (e ++ f) z
  read : ∀ {b r c x s p y s'}, ops.readPart b r c x s = .ok ((p, y), s') → T x [.part b r c p] y
  forced : ∀ {b p} (r c x), (b < 3 ∧ p = 0) ∨ (3 ≤ b ∧ p = 3) → T x [.part b r c p] x
  block : ∀ {r c size x s y s'}, ops.block r c size x s = .ok (y, s') → T x [.block r c size] y

theorem seqB_rel {σ : Type} {ops : PartOps σ} {T : σ → List Ev → σ → Prop} (ht : TreeRel ops T) : ∀ (fs : List (σ → BM (σ × List Ev))),
    (∀ f ∈ fs, ∀ x s x' e s', f x s = .ok ((x', e), s') → T x e x') → ∀ {x s x' e s'}, seqB fs x s = .ok ((x', e), s') → T x e x' := by
  intro fs
  induction fs with
  | nil => intro _ x s x' e s' h; cases h; exact ht.nil _
  | cons f fs ih =>
    intro hf x s x' e s' h
    obtain ⟨x1, s1, e1, e2, h1, h2, rfl⟩ := seqB_cons h
    exact ht.app (hf f (List.mem_cons_self ..) _ _ _ _ _ h1) (ih (fun g hg => hf g (List.mem_cons_of_mem _ hg)) h2)

theorem blockEv_rel {σ : Type} {ops : PartOps σ} {T : σ → List Ev → σ → Prop} (ht : TreeRel ops T) (r c size : Nat) (x : σ) (s : BitStream) (x' : σ) (e : List Ev) (s' : BitStream)
    (h : blockEv ops r c size x s = .ok ((x', e), s')) : T x e x' := by
  rw [blockEv] at h
  obtain ⟨x1, s1, h1, h⟩ := BM.bind_eq_ok.mp h
  cases h
  exact ht.block h1

theorem choosePart_rel {σ : Type} {ops : PartOps σ} {T : σ → List Ev → σ → Prop} (ht : TreeRel ops T) {b r c : Nat} {hasRows hasCols : Bool} {x x' : σ}
    {p : Nat} {s s' : BitStream} (h : choosePart ops b r c hasRows hasCols x s = .ok ((p, x'), s')) : T x [.part b r c p] x' := by
  rw [choosePart] at h
  split at h
  · cases h; exact ht.forced _ _ _ (.inl ⟨by assumption, rfl⟩)
  rename_i hb
  split at h
  · exact ht.read h
  split at h
  · obtain ⟨cdf, s1, h1, h⟩ := BM.bind_eq_ok.mp h
    obtain ⟨cdf', s2, h2, h⟩ := BM.bind_eq_ok.mp h
    exact absurd (BM.lift_inv h2).1 (splitOrCdf_fails _ _ _)
  split at h
  · obtain ⟨cdf, s1, h1, h⟩ := BM.bind_eq_ok.mp h
    obtain ⟨cdf', s2, h2, h⟩ := BM.bind_eq_ok.mp h
    exact absurd (BM.lift_inv h2).1 (splitOrCdf_fails _ _ _)
  · cases h; exact ht.forced _ _ _ (.inr ⟨by omega, rfl⟩)

theorem partSteps_all {σ : Type} {ops : PartOps σ} {rec : Nat → Nat → Nat → σ → BM (σ × List Ev)} (P : (σ → BM (σ × List Ev)) → Prop) (hB : ∀ r c z, P (blockEv ops r c z))
    (hR : ∀ r c z, P (rec r c z)) (miRows p r c half quarter sub split : Nat) (hasRows hasCols : Bool) : ∀ f ∈ partSteps ops rec miRows p r c half quarter sub split hasRows hasCols, P f := by
  have hn : ∀ f ∈ ([] : List (σ → BM (σ × List Ev))), P f := fun f hf => by cases hf
  have hc : ∀ {f : σ → BM (σ × List Ev)} {fs : List (σ → BM (σ × List Ev))}, P f → (∀ f ∈ fs, P f) → ∀ g ∈ f :: fs, P g := fun h1 h2 g hg => by
    rcases List.mem_cons.mp hg with rfl | hg
    · exact h1
    · exact h2 g hg
  have ha : ∀ {fs gs : List (σ → BM (σ × List Ev))}, (∀ f ∈ fs, P f) → (∀ f ∈ gs, P f) → ∀ g ∈ fs ++ gs, P g := fun h1 h2 g hg => by
    rcases List.mem_append.mp hg with hg | hg
    · exact h1 g hg
    · exact h2 g hg
  have hi : ∀ {b : Prop} [Decidable b] {fs : List (σ → BM (σ × List Ev))}, (∀ f ∈ fs, P f) → ∀ g ∈ (if b then fs else []), P g := fun h g hg => by
    split at hg
    · exact h g hg
    · exact hn g hg
  unfold partSteps
  by_cases h0 : p = 0; · rw [if_pos h0]; exact hc (hB _ _ _) hn
  rw [if_neg h0]
  by_cases h1 : p = 1; · rw [if_pos h1]; exact ha (hc (hB _ _ _) hn) (hi (hc (hB _ _ _) hn))
  rw [if_neg h1]
  by_cases h2 : p = 2; · rw [if_pos h2]; exact ha (hc (hB _ _ _) hn) (hi (hc (hB _ _ _) hn))
  rw [if_neg h2]
  by_cases h3 : p = 3; · rw [if_pos h3]; exact hc (hR _ _ _) (hc (hR _ _ _) (hc (hR _ _ _) (hc (hR _ _ _) hn)))
  rw [if_neg h3]
  by_cases h4 : p = 4; · rw [if_pos h4]; exact hc (hB _ _ _) (hc (hB _ _ _) (hc (hB _ _ _) hn))
  rw [if_neg h4]
  by_cases h5 : p = 5; · rw [if_pos h5]; exact hc (hB _ _ _) (hc (hB _ _ _) (hc (hB _ _ _) hn))
  rw [if_neg h5]
  by_cases h6 : p = 6; · rw [if_pos h6]; exact hc (hB _ _ _) (hc (hB _ _ _) (hc (hB _ _ _) hn))
  rw [if_neg h6]
  by_cases h7 : p = 7; · rw [if_pos h7]; exact hc (hB _ _ _) (hc (hB _ _ _) (hc (hB _ _ _) hn))
  rw [if_neg h7]
  by_cases h8 : p = 8
  · rw [if_pos h8]; exact ha (hc (hB _ _ _) (hc (hB _ _ _) (hc (hB _ _ _) hn))) (hi (hc (hB _ _ _) hn))
  · rw [if_neg h8]; exact ha (hc (hB _ _ _) (hc (hB _ _ _) (hc (hB _ _ _) hn))) (hi (hc (hB _ _ _) hn))

theorem decodePartition_rel {σ : Type} {ops : PartOps σ} {T : σ → List Ev → σ → Prop} (ht : TreeRel ops T) {miRows miCols : Nat} : ∀ (fuel : Nat) {r c b : Nat} {x x' : σ} {es : List Ev}
    {s s' : BitStream}, decodePartition ops miRows miCols fuel r c b x s = .ok ((x', es), s') → T x es x' := by
  intro fuel
  induction fuel with
  | zero => intro r c b x x' es s s' h; cases h
  | succ fuel ih =>
    intro r c b x x' es s s' h
    rw [decodePartition] at h
    split at h
    · cases h; exact ht.nil _
    obtain ⟨num, s1, -, h⟩ := BM.bind_eq_ok.mp h
    dsimp only at h
    obtain ⟨⟨p, x1⟩, s2, hp, h⟩ := BM.bind_eq_ok.mp h
    dsimp only at h
    obtain ⟨row, s3, -, h⟩ := BM.bind_eq_ok.mp h
    obtain ⟨sub, s4, -, h⟩ := BM.bind_eq_ok.mp h
    obtain ⟨row', s5, -, h⟩ := BM.bind_eq_ok.mp h
    obtain ⟨split, s6, -, h⟩ := BM.bind_eq_ok.mp h
    obtain ⟨⟨x2, es2⟩, s7, hs, h⟩ := BM.bind_eq_ok.mp h
    cases h
    refine ht.app (e := [_]) (choosePart_rel ht hp) (seqB_rel ht _ ?_ hs)
    exact partSteps_all (fun f => ∀ x s x' e s', f x s = .ok ((x', e), s') → T x e x') (fun r c z => blockEv_rel ht r c z) (fun r c z x s x' e s' h => ih h) _ _ _ _ _ _ _ _ _ _

/-! ## Superblocks and tiles -/

theorem sbEvents_rel {σ : Type} {ops : PartOps (Sym × σ)} {pre : Nat → Nat → σ → Sym → BM (Sym × σ)} {T : Sym × σ → List Ev → Sym × σ → Prop} (ht : TreeRel ops T)
    (hpre : ∀ {r c x st s y s'}, pre r c x st s = .ok (y, s') → T (st, x) [] y) {miRows miCols size r c : Nat} {x y : σ × List Ev} {st st' : Sym} {s s' : BitStream}
    (h : sbEvents ops pre miRows miCols size r c x st s = .ok ((st', y), s')) : ∃ es, y.2 = x.2 ++ es ∧ T (st, x.1) es (st', y.1) := by
  unfold sbEvents at h
  obtain ⟨⟨st1, y1⟩, s1, h1, h⟩ := BM.bind_eq_ok.mp h
  dsimp only at h
  obtain ⟨⟨⟨st2, y2⟩, es⟩, s2, h2, h⟩ := BM.bind_eq_ok.mp h
  cases h
  exact ⟨es, rfl, by simpa using ht.app (hpre h1) (decodePartition_rel ht _ h2)⟩

theorem sbCols_rel {σ : Type} {T : Sym × σ → List Ev → Sym × σ → Prop} {sb : Nat → Nat → σ × List Ev → Sym → BM (Sym × (σ × List Ev))} (hnil : ∀ x, T x [] x)
    (happ : ∀ {x y z e f}, T x e y → T y f z → T x (e ++ f) z)
    (hsb : ∀ {r c x y st st' s s'}, sb r c x st s = .ok ((st', y), s') → ∃ es, y.2 = x.2 ++ es ∧ T (st, x.1) es (st', y.1)) {sb4 colEnd r : Nat} :
    ∀ (fuel c : Nat) {x y : σ × List Ev} {st st' : Sym} {s s' : BitStream}, sbCols sb sb4 colEnd r fuel c x st s = .ok ((st', y), s') → ∃ es, y.2 = x.2 ++ es ∧ T (st, x.1) es (st', y.1) := by
  intro fuel
  induction fuel with
  | zero =>
    intro c x y st st' s s' h
    rw [sbCols] at h
    split at h
    · cases h
    · cases h; exact ⟨[], by simp, hnil _⟩
  | succ fuel ih =>
    intro c x y st st' s s' h
    rw [sbCols] at h
    split at h
    · dsimp only at h
      obtain ⟨⟨st1, x1⟩, s1, h1, h2⟩ := BM.bind_eq_ok.mp h
      obtain ⟨e1, q1, k1⟩ := hsb h1
      obtain ⟨e2, q2, k2⟩ := ih _ h2
      exact ⟨e1 ++ e2, by rw [q2, q1, List.append_assoc], happ k1 k2⟩
    · cases h; exact ⟨[], by simp, hnil _⟩

theorem sbRows_rel {σ : Type} {T : Sym × σ → List Ev → Sym × σ → Prop} {sb : Nat → Nat → σ × List Ev → Sym → BM (Sym × (σ × List Ev))} (hnil : ∀ x, T x [] x)
    (happ : ∀ {x y z e f}, T x e y → T y f z → T x (e ++ f) z)
    (hsb : ∀ {r c x y st st' s s'}, sb r c x st s = .ok ((st', y), s') → ∃ es, y.2 = x.2 ++ es ∧ T (st, x.1) es (st', y.1)) {miRows sb4 colStart colEnd rowEnd : Nat} :
    ∀ (fuel r : Nat) {x y : σ × List Ev} {st st' : Sym} {s s' : BitStream}, sbRows sb miRows sb4 colStart colEnd rowEnd fuel r x st s = .ok ((st', y), s') →
      ∃ es, y.2 = x.2 ++ es ∧ T (st, x.1) es (st', y.1) := by
  intro fuel
  induction fuel with
  | zero =>
    intro r x y st st' s s' h
    rw [sbRows] at h
    split at h
    · cases h
    · cases h; exact ⟨[], by simp, hnil _⟩
  | succ fuel ih =>
    intro r x y st st' s s' h
    rw [sbRows] at h
    split at h
    · dsimp only at h
      obtain ⟨u0, s0, -, h⟩ := BM.bind_eq_ok.mp h
      obtain ⟨⟨st1, x1⟩, s1, h1, h2⟩ := BM.bind_eq_ok.mp h
      obtain ⟨e1, q1, k1⟩ := sbCols_rel hnil happ hsb _ _ h1
      obtain ⟨e2, q2, k2⟩ := ih _ h2
      exact ⟨e1 ++ e2, by rw [q2, q1, List.append_assoc], happ k1 k2⟩
    · cases h; exact ⟨[], by simp, hnil _⟩

theorem tileEvents_rel {σ : Type} {ops : PartOps (Sym × σ)} {pre : Nat → Nat → σ → Sym → BM (Sym × σ)} {T : Sym × σ → List Ev → Sym × σ → Prop} (ht : TreeRel ops T)
    (hpre : ∀ {r c x st s y s'}, pre r c x st s = .ok (y, s') → T (st, x) [] y) {reset : σ → σ} (hreset : ∀ st x, T (st, x) [] (st, reset x))
    {use128 : Bool} {miCols miRows : Nat} {run : TileRun} {x y : σ × List Ev} {st st' : Sym} {s s' : BitStream}
    (h : tileEvents use128 miCols miRows reset ops pre run x st s = .ok ((st', y), s')) : ∃ es, y.2 = x.2 ++ es ∧ T (st, x.1) es (st', y.1) := by
  unfold tileEvents at h
  rw [decodeTile] at h
  obtain ⟨u, s1, -, h⟩ := BM.bind_eq_ok.mp h
  obtain ⟨es, q, k⟩ := sbRows_rel ht.nil ht.app (fun h => sbEvents_rel ht hpre h) _ _ h
  exact ⟨es, q, by simpa using ht.app (hreset st x.1) k⟩

/-! ## The real operations -/

/-- The arithmetic decoder and the CDFs are as they should be, and all pixels are numbers of `bd` bits. -/
structure TileGood (k : Fin 4) (bd : Nat) (x : Sym × TileSt) : Prop where
  fits : (cdfLayout k).Fits x.2.cdfs
  range : 2 ^ 15 ≤ x.1.range ∧ x.1.range < 2 ^ 16
  value : 0 ≤ x.1.value ∧ x.1.value < x.1.range
  pixels : TbIn bd x.2.blk.tb

/-- What a partition symbol can be, and where a block can be. -/
def EvOk : Ev → Prop
  | .part b _ _ p => p < 10 ∧ (b = 3 → p < 4) ∧ (b = 15 → p < 8)
  | .block _ _ z => z < 22

/-- The block size last recorded for unit `(u, v)`: that of the last block that covers it, else what was recorded before. -/
def sizeAfter (old : Option Nat) (es : List Ev) (u v : Nat) : Option Nat :=
  es.foldl (fun o e => match e with
    | .part .. => o
    | .block r c z => if inRect r c (blockDims z).2 (blockDims z).1 u v then some z else o) old

/-- What the decoding of part of a tile does. -/
def TileRel (k : Fin 4) (bd : Nat) (x : Sym × TileSt) (es : List Ev) (y : Sym × TileSt) : Prop :=
  TileGood k bd x → TileGood k bd y ∧ (∀ e ∈ es, EvOk e) ∧ ∀ u v, at2 y.2.blk.recs.miSizes u v = sizeAfter (at2 x.2.blk.recs.miSizes u v) es u v

theorem execIn_good {α : Type} {k : Fin 4} {bd : Nat} {disable : Bool} {p : Rd α} {f : α → TileSt → TileSt} {x y : Sym × TileSt} {s s' : BitStream} (hx : TileGood k bd x)
    (h : execIn (cdfLayout k) disable p f x s = .ok (y, s')) :
    ∃ a cdfs, p.exec (cdfLayout k) disable x.2.cdfs x.1 s = .ok ((a, cdfs, y.1), s') ∧ y.2 = f a { x.2 with cdfs := cdfs } ∧ (cdfLayout k).Fits cdfs ∧
      (2 ^ 15 ≤ y.1.range ∧ y.1.range < 2 ^ 16) ∧ (0 ≤ y.1.value ∧ y.1.value < y.1.range) := by
  unfold execIn at h
  obtain ⟨⟨a, cdfs, st⟩, s1, h1, h⟩ := BM.bind_eq_ok.mp h
  cases h
  obtain ⟨-, g1, g2, g3⟩ := C93_sound (cdfLayout k) disable p _ _ _ _ _ _ _ hx.fits hx.range hx.value h1
  exact ⟨a, cdfs, h1, rfl, g1, g2, g3⟩

theorem block_rel (k : Fin 4) {disable : Bool} {fuel : Nat} {h : FrHdr} (hb : 2 ≤ h.bitDepth) {r c size : Nat} {x y : Sym × TileSt} {s s' : BitStream}
    (e : blockOp (cdfLayout k) disable fuel h r c size x s = .ok (y, s')) : TileRel k h.bitDepth x [.block r c size] y := by
  intro hx
  obtain ⟨b, cdfs, he, hy, g1, g2, g3⟩ := execIn_good hx e
  obtain ⟨a, bw4, bh4, l, p, q⟩ := exec_wlp (decodeBlock_done _ fuel h r c size x.2.blk) hx.fits hx.range hx.value he
  have hz : size < 22 := (List.getElem?_eq_some_iff.mp q.wide).1
  refine ⟨⟨by rw [hy]; exact g1, g2, g3, by rw [hy]; exact C177_pixels k fuel disable hb hx.pixels hx.fits hx.range hx.value he⟩, fun e he => ?_, fun u v => ?_⟩
  · rw [List.mem_singleton.mp he]; exact hz
  · rw [hy, (C126_records_partial q.recs).2.2.2.2.1 u v]
    have hd : blockDims size = (bw4, bh4) := by
      have : ∀ z : Fin 22, num4x4Wide[z.val]? = some (blockDims z).1 ∧ num4x4High[z.val]? = some (blockDims z).2 := by decide +kernel
      obtain ⟨t1, t2⟩ := this ⟨size, hz⟩
      dsimp only at t1 t2
      rw [q.wide] at t1; rw [q.high] at t2
      exact Prod.ext (Option.some.inj t1).symm (Option.some.inj t2).symm
    simp only [sizeAfter, List.foldl_cons, List.foldl_nil, hd, inRect, decide_eq_true_eq]
    refine if_congr ?_ rfl rfl
    omega

theorem part_count (k : Fin 4) (b c : Nat) (hc : c < 4) : (cdfLayout k).count (partTable b) [(c : Int)] = some (if b = 1 then 4 else if b = 2 ∨ b = 3 ∨ b = 4 then 10 else 8) := by
  have i1 : ∀ k, cdfInfo k "PartitionW8" = some ([], .box [4], 4) := by decide +kernel
  have i2 : ∀ k, cdfInfo k "PartitionW16" = some ([], .box [4], 10) := by decide +kernel
  have i3 : ∀ k, cdfInfo k "PartitionW32" = some ([], .box [4], 10) := by decide +kernel
  have i4 : ∀ k, cdfInfo k "PartitionW64" = some ([], .box [4], 10) := by decide +kernel
  have i5 : ∀ k, cdfInfo k "PartitionW128" = some ([], .box [4], 8) := by decide +kernel
  have hc' : (0 : Int) ≤ (c : Int) ∧ (c : Int) < ((4 : Nat) : Int) := by omega
  unfold partTable
  split_ifs <;> first | omega | skip
  · exact count1 k (i1 k) hc'
  · exact count1 k (i2 k) hc'
  · exact count1 k (i3 k) hc'
  · exact count1 k (i4 k) hc'
  · exact count1 k (i5 k) hc'

theorem readPartition_wlp (k : Fin 4) (h : FrHdr) (b r c : Nat) (m : List (List Nat)) :
    (readPartition h b r c m).Wlp (cdfLayout k) (fun p => p < 10 ∧ (b = 3 → p < 4) ∧ (b = 15 → p < 8)) := by
  unfold readPartition
  refine Rd.Wlp.seq (Rd.Wlp.lift (Q := fun x => miWidthLog2[b]? = some x.1 ∧ x.2 < 4) fun x hx => ?_) fun x hx => ?_
  · unfold partCtx at hx
    obtain ⟨bsl, h1, hx⟩ := Res.inv hx
    obtain ⟨a, -, hx⟩ := Res.inv hx
    obtain ⟨l, -, hx⟩ := Res.inv hx
    rw [← Except.ok.inj hx]
    exact ⟨goGet_inv_nat h1, by dsimp only; split_ifs <;> omega⟩
  · intro n hn p hp
    rw [part_count k _ _ hx.2] at hn
    have hn := Option.some.inj hn
    refine ⟨?_, ?_, ?_⟩
    · split_ifs at hn <;> omega
    · rintro rfl
      have : x.1 = 1 := (Option.some.inj hx.1).symm
      rw [if_pos this] at hn
      omega
    · rintro rfl
      have : x.1 = 5 := (Option.some.inj hx.1).symm
      rw [if_neg (by omega), if_neg (by omega)] at hn
      omega

theorem tileTree (k : Fin 4) (disable : Bool) (fuel : Nat) {h : FrHdr} (hb : 2 ≤ h.bitDepth) : TreeRel (tileOps (cdfLayout k) disable fuel h) (TileRel k h.bitDepth) where
  nil x hx := ⟨hx, fun e he => (List.not_mem_nil he).elim, fun u v => rfl⟩
  app h1 h2 hx := by
    obtain ⟨g1, e1, m1⟩ := h1 hx
    obtain ⟨g2, e2, m2⟩ := h2 g1
    refine ⟨g2, fun e he => (List.mem_append.mp he).elim (e1 e) (e2 e), fun u v => ?_⟩
    rw [m2, m1, sizeAfter, sizeAfter, sizeAfter, List.foldl_append]
  read := by
    intro b r c x s p y s' e hx
    change partOp (cdfLayout k) disable h b r c x s = _ at e
    unfold partOp at e
    obtain ⟨⟨a, cdfs, st⟩, s1, h1, e⟩ := BM.bind_eq_ok.mp e
    cases e
    obtain ⟨-, g1, g2, g3⟩ := C93_sound (cdfLayout k) disable _ _ _ _ _ _ _ _ hx.fits hx.range hx.value h1
    refine ⟨⟨g1, g2, g3, hx.pixels⟩, fun e he => ?_, fun u v => rfl⟩
    rw [List.mem_singleton.mp he]
    exact exec_wlp (readPartition_wlp k h b r c _) hx.fits hx.range hx.value h1
  forced := by
    intro b p r c x hp hx
    refine ⟨hx, fun e he => ?_, fun u v => rfl⟩
    rw [List.mem_singleton.mp he]
    change p < 10 ∧ (b = 3 → p < 4) ∧ (b = 15 → p < 8)
    omega
  block e := block_rel k hb e

theorem sbPre_rel (k : Fin 4) {grow : Nat → Nat} {disable : Bool} {fuel : Nat} {h : FrHdr} {lh : LrHdr} {r c : Nat} {x : TileSt} {st : Sym} {y : Sym × TileSt} {s s' : BitStream}
    (e : sbPre grow (cdfLayout k) disable fuel h lh r c x st s = .ok (y, s')) : TileRel k h.bitDepth (st, x) [] y := by
  intro hx
  unfold sbPre at e
  obtain ⟨b, s1, h1, e⟩ := BM.bind_eq_ok.mp e
  obtain ⟨h1, -⟩ := BM.lift_inv h1
  unfold sbClear at h1
  obtain ⟨ci, -, h1⟩ := Res.inv h1
  obtain ⟨ms, -, h1⟩ := Res.inv h1
  have h1 := Except.ok.inj h1
  have hp : TbIn h.bitDepth b.tb := by rw [← h1]; exact ⟨hx.pixels.frames, hx.pixels.above, hx.pixels.left⟩
  obtain ⟨a, cdfs, -, hy, g1, g2, g3⟩ := execIn_good (x := (st, { x with blk := b })) (bd := h.bitDepth) ⟨hx.fits, hx.range, hx.value, hp⟩ e
  refine ⟨⟨by rw [hy]; exact g1, g2, g3, by rw [hy]; exact hp⟩, fun e he => (List.not_mem_nil he).elim, fun u v => ?_⟩
  rw [hy]
  change at2 b.recs.miSizes u v = _
  rw [← h1]
  rfl

theorem tileReset_rel (k : Fin 4) {h : FrHdr} {n : Nat} (st : Sym) (x : TileSt) : TileRel k h.bitDepth (st, x) [] (st, tileReset h n x) := by
  intro hx
  exact ⟨⟨hx.fits, hx.range, hx.value, ⟨hx.pixels.frames, hx.pixels.above, hx.pixels.left⟩⟩, fun e he => (List.not_mem_nil he).elim, fun u v => rfl⟩

theorem realTile_rel {grow : Nat → Nat} {k : Fin 4} {disable : Bool} {fuel : Nat} {h : FrHdr} (hb : 2 ≤ h.bitDepth) {lh : LrHdr} {run : TileRun} {x y : TileSt × List Ev} {st st' : Sym}
    {s s' : BitStream} (e : realTile grow k disable fuel h lh run x st s = .ok ((st', y), s')) : ∃ es, y.2 = x.2 ++ es ∧ TileRel k h.bitDepth (st, x.1) es (st', y.1) :=
  tileEvents_rel (tileTree k disable fuel hb) (fun e => sbPre_rel k e) (fun st x => tileReset_rel k st x) e

/-- **C178.**  Whatever the tile data: if the CDFs are well formed, the arithmetic decoder is in its range and all pixels are numbers of `BitDepth` bits when a tile starts, then so it is when
the tile has been decoded. -/
theorem C178_tile {grow : Nat → Nat} {k : Fin 4} {disable : Bool} {fuel : Nat} {h : FrHdr} (hb : 2 ≤ h.bitDepth) {lh : LrHdr} {run : TileRun} {x y : TileSt} {log log' : List Ev} {st st' : Sym}
    {s s' : BitStream} (hL : (cdfLayout k).Fits x.cdfs) (hr : 2 ^ 15 ≤ st.range ∧ st.range < 2 ^ 16) (hx : 0 ≤ st.value ∧ st.value < st.range)
    (hp : ∀ (plane : Nat) F, x.blk.tb.frames[plane]? = some F → ∀ row col v, at2 F row col = some v → 0 ≤ v ∧ v ≤ 2 ^ h.bitDepth - 1)
    (hab : ∀ i, 0 ≤ x.blk.tb.above i ∧ x.blk.tb.above i ≤ 2 ^ h.bitDepth - 1) (hle : ∀ i, 0 ≤ x.blk.tb.left i ∧ x.blk.tb.left i ≤ 2 ^ h.bitDepth - 1)
    (e : realTile grow k disable fuel h lh run (x, log) st s = .ok ((st', (y, log')), s')) :
    (cdfLayout k).Fits y.cdfs ∧ (2 ^ 15 ≤ st'.range ∧ st'.range < 2 ^ 16) ∧ (0 ≤ st'.value ∧ st'.value < st'.range) ∧
    (∀ (plane : Nat) F, y.blk.tb.frames[plane]? = some F → ∀ row col v, at2 F row col = some v → 0 ≤ v ∧ v ≤ 2 ^ h.bitDepth - 1) := by
  obtain ⟨es, -, ht⟩ := realTile_rel hb e
  obtain ⟨g, -, -⟩ := ht ⟨hL, hr, hx, ⟨hp, hab, hle⟩⟩
  exact ⟨g.fits, g.range, g.value, g.pixels.frames⟩

/-! ## The only frames that are decoded -/

theorem choosePart_forced {σ : Type} {ops : PartOps σ} {b r c p : Nat} (hb : 3 ≤ b) {x x' : σ} {s s' : BitStream} (h : choosePart ops b r c false false x s = .ok ((p, x'), s')) :
    p = 3 ∧ x' = x ∧ s' = s := by
  rw [choosePart, if_neg (by omega), if_neg (by simp), if_neg (by simp), if_neg (by simp)] at h
  cases h
  exact ⟨rfl, rfl, rfl⟩

/-- In a frame of 2 by 2 units a block of 16x16 or more is split, and only its first quarter is in the frame. -/
theorem corner {σ : Type} {ops : PartOps σ} {fuel b : Nat} (hb : b = 6 ∨ b = 9 ∨ b = 12) {x x' : σ} {es : List Ev} {s s' : BitStream}
    (h : decodePartition ops 2 2 (fuel + 2) 0 0 b x s = .ok ((x', es), s')) :
    ∃ es', es = .part b 0 0 3 :: es' ∧ decodePartition ops 2 2 (fuel + 1) 0 0 (b - 3) x s = .ok ((x', es'), s') := by
  have hsq : IsSquare b := by unfold IsSquare; omega
  obtain ⟨p, x1, s1, es', row, hch, hrow, rfl, hseq⟩ := decodePartition_ok hsq (by decide) (by decide) h
  have hhalf : 2 ≤ (blockDims b).1 / 2 := by rcases hb with rfl | rfl | rfl <;> decide
  generalize (blockDims b).1 / 2 = half at *
  rw [show decide (0 + half < 2) = false from decide_eq_false (by omega)] at hch
  obtain ⟨rfl, rfl, rfl⟩ := choosePart_forced (by omega) hch
  cases hrow
  rw [partSteps, if_neg (by decide), if_neg (by decide), if_neg (by decide), if_pos rfl] at hseq
  obtain ⟨xa, sa, ea, fa, h1, w1, rfl⟩ := seqB_cons hseq
  obtain ⟨xb, sb, eb, fb, h2, w2, rfl⟩ := seqB_cons w1
  obtain ⟨xc, sc, ec, fc, h3, w3, rfl⟩ := seqB_cons w2
  obtain ⟨xd, sd, ed, fd, h4, w4, rfl⟩ := seqB_cons w3
  cases w4
  have out : ∀ {r c z : Nat} {x y : σ} {e : List Ev} {s t : BitStream}, (2 ≤ r ∨ 2 ≤ c) → decodePartition ops 2 2 (fuel + 1) r c z x s = .ok ((y, e), t) → y = x ∧ e = [] ∧ t = s := by
    intro r c z x y e s t hrc h
    rw [decodePartition, if_pos (by omega)] at h
    cases h
    exact ⟨rfl, rfl, rfl⟩
  obtain ⟨rfl, rfl, rfl⟩ := out (by omega) h2
  obtain ⟨rfl, rfl, rfl⟩ := out (by omega) h3
  obtain ⟨rfl, rfl, rfl⟩ := out (by omega) h4
  refine ⟨ea, by simp, ?_⟩
  rcases hb with rfl | rfl | rfl <;> exact h1

/-- What is done in a frame of 2 by 2 units, by the partition of its 8x8 block. -/
def smallLog (p : Nat) : List Ev :=
  if p = 0 then [.block 0 0 3]
  else if p = 1 then [.block 1 0 2, .block 1 0 2]
  else if p = 2 then [.block 0 0 1, .block 0 1 1]
  else [.part 0 0 0 0, .block 0 0 0, .part 0 0 1 0, .block 0 1 0, .part 0 1 0 0, .block 1 0 0, .part 0 1 1 0, .block 1 1 0]

theorem unit_leaf {σ : Type} {ops : PartOps σ} {fuel r c : Nat} (hr : r < 2) (hc : c < 2) {x x' : σ} {es : List Ev} {s s' : BitStream}
    (h : decodePartition ops 2 2 (fuel + 1) r c 0 x s = .ok ((x', es), s')) : es = [.part 0 r c 0, .block r c 0] := by
  obtain ⟨p, x1, s1, es', row, hch, hrow, rfl, hseq⟩ := decodePartition_ok (.inl rfl) hr hc h
  rw [choosePart, if_pos (by decide)] at hch
  cases hch
  cases hrow
  rw [partSteps, if_pos rfl] at hseq
  obtain ⟨x2, s2, e, es2, h1, h2, rfl⟩ := seqB_cons hseq
  rw [blockEv_ok h1, seqB_nil h2]
  rfl

theorem eight {σ : Type} {ops : PartOps σ} {fuel : Nat} {x x' : σ} {es : List Ev} {s s' : BitStream}
    (h : decodePartition ops 2 2 (fuel + 2) 0 0 3 x s = .ok ((x', es), s')) (hs : ∀ e ∈ es, EvOk e) : ∃ p < 4, es = .part 3 0 0 p :: smallLog p := by
  obtain ⟨p, x1, s1, es', row, hch, hrow, rfl, hseq⟩ := decodePartition_ok (.inr (.inl rfl)) (by decide) (by decide) h
  have hp : p < 4 := (hs _ (List.mem_cons_self ..)).2.1 rfl
  refine ⟨p, hp, congrArg _ ?_⟩
  rcases (show p = 0 ∨ p = 1 ∨ p = 2 ∨ p = 3 by omega) with rfl | rfl | rfl | rfl
  · cases hrow
    obtain ⟨x2, s2, e, es2, h1, h2, rfl⟩ := seqB_cons hseq
    rw [blockEv_ok h1, seqB_nil h2]; rfl
  · cases hrow
    obtain ⟨x2, s2, e, es2, h1, h2, rfl⟩ := seqB_cons hseq
    obtain ⟨x3, s3, e3, es3, h3, h4, rfl⟩ := seqB_cons h2
    rw [blockEv_ok h1, blockEv_ok h3, seqB_nil h4]; rfl
  · cases hrow
    obtain ⟨x2, s2, e, es2, h1, h2, rfl⟩ := seqB_cons hseq
    obtain ⟨x3, s3, e3, es3, h3, h4, rfl⟩ := seqB_cons h2
    rw [blockEv_ok h1, blockEv_ok h3, seqB_nil h4]; rfl
  · cases hrow
    obtain ⟨xa, sa, ea, fa, h1, w1, rfl⟩ := seqB_cons hseq
    obtain ⟨xb, sb, eb, fb, h2, w2, rfl⟩ := seqB_cons w1
    obtain ⟨xc, sc, ec, fc, h3, w3, rfl⟩ := seqB_cons w2
    obtain ⟨xd, sd, ed, fd, h4, w4, rfl⟩ := seqB_cons w3
    rw [seqB_nil w4, unit_leaf (by decide) (by decide) h1, unit_leaf (by decide) (by decide) h2, unit_leaf (by decide) (by decide) h3, unit_leaf (by decide) (by decide) h4]
    rfl

/-- A frame of 8x8 pixels, decoded as one tile with 64x64 superblocks. -/
structure Small (h : FrHdr) (run : TileRun) : Prop where
  rows : h.miRows = 2
  cols : h.miCols = 2
  sb : h.mi.use128 = false
  run : run.rowStart = 0 ∧ run.rowEnd = 2 ∧ run.colStart = 0 ∧ run.colEnd = 2

theorem sizeAfter_part (o : Option Nat) (b r c p : Nat) (es : List Ev) (u v : Nat) : sizeAfter o (.part b r c p :: es) u v = sizeAfter o es u v := rfl

theorem small_log {grow : Nat → Nat} {k : Fin 4} {disable : Bool} {fuel : Nat} {h : FrHdr} (hb : 2 ≤ h.bitDepth) {lh : LrHdr} {run : TileRun} (hs : Small h run) {x y : TileSt} {log log' : List Ev}
    {st st' : Sym} {s s' : BitStream} (hx : TileGood k h.bitDepth (st, x)) (e : realTile grow k disable fuel h lh run (x, log) st s = .ok ((st', (y, log')), s')) :
    ∃ p < 4, log' = log ++ ([.part 12 0 0 3, .part 9 0 0 3, .part 6 0 0 3, .part 3 0 0 p] ++ smallLog p) ∧
      ∀ u v, at2 y.blk.recs.miSizes u v = sizeAfter (at2 x.blk.recs.miSizes u v) (smallLog p) u v := by
  obtain ⟨es, q, ht⟩ := realTile_rel hb e
  obtain ⟨-, hev, hm⟩ := ht hx
  dsimp only at q
  unfold realTile tileEvents at e
  rw [decodeTile] at e
  obtain ⟨-, s1, -, e⟩ := BM.bind_eq_ok.mp e
  obtain ⟨r1, r2, r3, r4⟩ := hs.run
  rw [hs.sb, hs.rows, hs.cols, r1, r2, r3, r4] at e
  dsimp only at e
  rw [show (2 - 0 : Nat) = 2 from rfl, sbRows, if_pos (by decide)] at e
  dsimp only at e
  obtain ⟨-, s2, -, e⟩ := BM.bind_eq_ok.mp e
  obtain ⟨⟨st3, x3⟩, s3, e3, e⟩ := BM.bind_eq_ok.mp e
  rw [show (2 - 0 : Nat) = 2 from rfl, sbCols, if_pos (by decide)] at e3
  dsimp only at e3
  obtain ⟨⟨st4, x4⟩, s4, e4, e3⟩ := BM.bind_eq_ok.mp e3
  dsimp only at e3 e
  rw [sbCols, if_neg (by decide)] at e3
  cases e3
  rw [sbRows, if_neg (by decide)] at e
  cases e
  unfold sbEvents at e4
  obtain ⟨⟨st5, y5⟩, s5, -, e4⟩ := BM.bind_eq_ok.mp e4
  dsimp only at e4
  obtain ⟨⟨⟨st6, y6⟩, es6⟩, s6, h6, e4⟩ := BM.bind_eq_ok.mp e4
  cases e4
  have hes : es = es6 := (List.append_cancel_left q).symm
  subst hes
  rw [show sbSizeArg false = 12 from rfl] at h6
  obtain ⟨e1, rfl, h7⟩ := corner (fuel := 11) (.inr (.inr rfl)) h6
  obtain ⟨e2, rfl, h8⟩ := corner (fuel := 10) (.inr (.inl rfl)) h7
  obtain ⟨e3, rfl, h9⟩ := corner (fuel := 9) (.inl rfl) h8
  obtain ⟨p, hp, rfl⟩ := eight (fuel := 8) h9 (fun e he => hev e (by simp [he]))
  refine ⟨p, hp, by simp, fun u v => ?_⟩
  rw [hm]
  simp only [sizeAfter_part]

/-- **C179, partial.**  When a frame has been decoded (an 8x8 frame; larger ones never are) and its 8x8 block was not split horizontally, every one of its four 4x4 units was decoded once, and the
block size recorded for it is the size of the block that covers it: 8x8, 4x8 or 4x4 for all of them. -/
theorem C179_partial {grow : Nat → Nat} {k : Fin 4} {disable : Bool} {fuel : Nat} {h : FrHdr} (hb : 2 ≤ h.bitDepth) {lh : LrHdr} {run : TileRun} (hs : Small h run) {x y : TileSt} {es : List Ev}
    {st st' : Sym} {s s' : BitStream} (hx : TileGood k h.bitDepth (st, x)) (e : realTile grow k disable fuel h lh run (x, []) st s = .ok ((st', (y, es)), s')) (hn : .part 3 0 0 1 ∉ es) :
    ∃ z, (z = 3 ∨ z = 1 ∨ z = 0) ∧ ∀ u v, u < 2 → v < 2 → timesDecoded es u v = 1 ∧ at2 y.blk.recs.miSizes u v = some z ∧
      ∀ r c z', .block r c z' ∈ es → z' = z := by
  obtain ⟨p, hp, q, hm⟩ := small_log hb hs hx e
  rw [List.nil_append] at q
  subst q
  rcases (show p = 0 ∨ p = 1 ∨ p = 2 ∨ p = 3 by omega) with rfl | rfl | rfl | rfl
  · refine ⟨3, by simp, fun u v hu hv => ?_⟩
    rw [hm]
    rcases (show u = 0 ∨ u = 1 by omega) with rfl | rfl <;> rcases (show v = 0 ∨ v = 1 by omega) with rfl | rfl <;>
      exact ⟨by decide, rfl, fun r c z' h => by simp [smallLog] at h; exact h.2.2⟩
  · exact absurd (by simp) hn
  · refine ⟨1, by simp, fun u v hu hv => ?_⟩
    rw [hm]
    rcases (show u = 0 ∨ u = 1 by omega) with rfl | rfl <;> rcases (show v = 0 ∨ v = 1 by omega) with rfl | rfl <;>
      exact ⟨by decide, rfl, fun r c z' h => by simp [smallLog] at h; omega⟩
  · refine ⟨0, by simp, fun u v hu hv => ?_⟩
    rw [hm]
    rcases (show u = 0 ∨ u = 1 by omega) with rfl | rfl <;> rcases (show v = 0 ∨ v = 1 by omega) with rfl | rfl <;>
      exact ⟨by decide, rfl, fun r c z' h => by simp [smallLog] at h; omega⟩

/-- **C179, refuted.**  When the 8x8 block is split horizontally, the lower half is decoded twice and the upper half never: its units keep what was recorded for them before. -/
theorem C179_horz_refuted {grow : Nat → Nat} {k : Fin 4} {disable : Bool} {fuel : Nat} {h : FrHdr} (hb : 2 ≤ h.bitDepth) {lh : LrHdr} {run : TileRun} (hs : Small h run) {x y : TileSt} {es : List Ev}
    {st st' : Sym} {s s' : BitStream} (hx : TileGood k h.bitDepth (st, x)) (e : realTile grow k disable fuel h lh run (x, []) st s = .ok ((st', (y, es)), s')) (hn : .part 3 0 0 1 ∈ es)
    {v : Nat} (hv : v < 2) : timesDecoded es 0 v = 0 ∧ timesDecoded es 1 v = 2 ∧ at2 y.blk.recs.miSizes 0 v = at2 x.blk.recs.miSizes 0 v ∧ at2 y.blk.recs.miSizes 1 v = some 2 := by
  obtain ⟨p, hp, q, hm⟩ := small_log hb hs hx e
  rw [List.nil_append] at q
  subst q
  have : p = 1 := by
    rcases (show p = 0 ∨ p = 1 ∨ p = 2 ∨ p = 3 by omega) with rfl | rfl | rfl | rfl
    · exact absurd hn (by decide)
    · rfl
    · exact absurd hn (by decide)
    · exact absurd hn (by decide)
  subst this
  rw [hm, hm]
  rcases (show v = 0 ∨ v = 1 by omega) with rfl | rfl <;> exact ⟨by decide, by decide, rfl, rfl⟩

/-- **C179, refuted (superblocks).**  A tile with 128x128 superblocks is never decoded. -/
theorem C179_128_refuted {grow : Nat → Nat} {k : Fin 4} {disable : Bool} {fuel : Nat} {h : FrHdr} (hsb : h.mi.use128 = true) {lh : LrHdr} (hpl : 0 < lh.numPlanes) {run : TileRun}
    (hrun : run.rowStart < run.rowEnd ∧ run.colStart < run.colEnd) {x y : TileSt × List Ev} {m : TxMarks} (hm : x.1.blk.tb.marks[0]? = some m) (hf : FlagShape m.decoded) {st st' : Sym}
    {s s' : BitStream} : realTile grow k disable fuel h lh run x st s ≠ .ok ((st', y), s') := by
  intro e
  unfold realTile tileEvents at e
  rw [decodeTile] at e
  obtain ⟨-, s1, -, e⟩ := BM.bind_eq_ok.mp e
  obtain ⟨n, hn⟩ : ∃ n, run.rowEnd - run.rowStart = n + 1 := ⟨run.rowEnd - run.rowStart - 1, by omega⟩
  obtain ⟨n', hn'⟩ : ∃ n, run.colEnd - run.colStart = n + 1 := ⟨run.colEnd - run.colStart - 1, by omega⟩
  rw [hn, sbRows, if_pos hrun.1] at e
  dsimp only at e
  obtain ⟨-, s2, -, e⟩ := BM.bind_eq_ok.mp e
  obtain ⟨⟨st3, x3⟩, s3, e3, e⟩ := BM.bind_eq_ok.mp e
  rw [hn', sbCols, if_pos hrun.2] at e3
  dsimp only at e3
  obtain ⟨⟨st4, x4⟩, s4, e4, e3⟩ := BM.bind_eq_ok.mp e3
  unfold sbEvents at e4
  obtain ⟨⟨st5, y5⟩, s5, e5, e4⟩ := BM.bind_eq_ok.mp e4
  unfold sbPre at e5
  obtain ⟨b, s6, h6, -⟩ := BM.bind_eq_ok.mp e5
  obtain ⟨h6, -⟩ := BM.lift_inv h6
  unfold sbClear at h6
  obtain ⟨ci, -, h6⟩ := Res.inv h6
  obtain ⟨ms, h6, -⟩ := Res.inv h6
  unfold clearFlags at h6
  obtain ⟨np, hnp⟩ : ∃ n, lh.numPlanes = n + 1 := ⟨lh.numPlanes - 1, by omega⟩
  rw [hnp, forN] at h6
  obtain ⟨m1, h6, -⟩ := Res.inv h6
  obtain ⟨m0, hm0, h6⟩ := Res.inv h6
  have hm0 := goGet_inv_nat hm0
  change x.1.blk.tb.marks[0]? = some m0 at hm0
  rw [hm] at hm0
  cases hm0
  obtain ⟨d, h6, -⟩ := Res.inv h6
  rw [hsb] at h6
  simp only [planeSub, if_true] at h6
  rw [C83_flags_128_refuted _ _ _ hf] at h6
  cases h6

end Gov1
