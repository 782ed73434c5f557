import Verif.Props.Tiles
import Verif.Props.FrameSize
import Verif.Props.Segmentation
import Verif.Props.Filters
import Verif.Props.FrameModes
import Verif.Props.FilmGrain
/-! # C72: the frame header as a whole -/
namespace Gov1
open Spec

/-- Limits every AV1 sequence header meets (field widths), and the parts of the syntax for which the code
has no implementation: 128x128 superblocks (C28), frame ids (C79) and decoder model info. -/
structure SeqSupported (sh : SeqHeader) : Prop where
  width : sh.frameWidthBitsMinusOne ≤ 15 ∧ sh.maxFrameWidthMinusOne < 65536
  height : sh.frameHeightBitsMinusOne ≤ 15 ∧ sh.maxFrameHeightMinusOne < 65536
  planes : sh.colorConfig.numPlanes ≤ 3
  hints : sh.orderHintBits ≤ 8
  sb : sh.use128x128SuperBlock = false
  ids : sh.frameIdNumbersPresent = false
  model : sh.decoderModelInfoPresent = false

/-- A consistent frame header: what the rest of the decoder relies on. -/
structure HeaderOk (sh : SeqHeader) (u : UHeader) (st : FrameState) : Prop where
  size : SizeOk u.size
  mi : st.miCols = u.size.miCols ∧ st.miRows = u.size.miRows
  tiles : Divides st.tiles.colBounds u.size.miCols 1024 ∧ ∃ w, Divides st.tiles.rowBounds u.size.miRows w
  quant : ValidQuant sh.colorConfig u.quant
  features : FeaturesOk u.seg.featureEnabled u.seg.featureData ∧ st.featureEnabled = u.seg.featureEnabled ∧
    st.featureData = u.seg.featureData
  summary : SummaryOk u.seg.featureEnabled u.seg.lastActiveSegId u.seg.idPreSkip
  lossless : u.losslessArray.length = 8 ∧ (u.codedLossless = true ↔ ∀ b ∈ u.losslessArray, b = true) ∧
    (u.allLossless = true ↔ u.codedLossless = true ∧ u.size.frameWidth = u.size.upscaledWidth)
  filter : LfOk u.loopFilter
  cdef : CdefOk u.cdef
  restoration : LrOk sh.use128x128SuperBlock u.lr
  tx : if u.codedLossless then u.txMode = 0 else u.txMode = 1 ∨ u.txMode = 2
  grain : u.filmGrain = {} ∨ ValidGrain sh.colorConfig u.filmGrain
  skip : u.skipModePresent = 0
  gm : u.gmParams.drop 1 = List.replicate 7 [0, 0, 65536, 0, 0, 65536]
  gmt : st.gmType.length = 8 ∧ (∀ t ∈ st.gmType.drop 1, t ≤ 3) ∧
    (u.frameIsIntra = true → st.gmType.drop 1 = List.replicate 7 0)
  cdfs : st.nonCoeffCdfs = true ∧ st.coeffCdfs = some (if u.quant.baseQIdx ≤ 20 then 0
    else if u.quant.baseQIdx ≤ 60 then 1 else if u.quant.baseQIdx ≤ 120 then 2 else 3)

theorem tileInfo_good (miCols miRows old : Nat) (hc : 1 ≤ miCols ∧ miCols ≤ 16384)
    (hr : 1 ≤ miRows ∧ miRows ≤ 16384) : Good (newTileInfo false miCols miRows old) 28723
      (fun t => Divides t.colBounds miCols 1024 ∧ ∃ w, Divides t.rowBounds miRows w) := by
  obtain ⟨a, b, c, d, ⟨h1, h2, h3, h4, -, h5, -⟩, hm⟩ := newTileInfo_mode miCols miRows old hc.1 hc.2 hr.1 hr.2
  have hU := Good.bind' (n := 28722) 6 14 (Q := fun t : Tiles => Divides t.colBounds miCols 1024 ∧
      ∃ w, Divides t.rowBounds miRows w)
    ((uniformTiles_good (d := d) rfl rfl hc.1 hr.1 hr.2 h1 h2 h3 h4 h5).mono (by omega) fun _ h => h)
    (fun r hr => tail_good (n := 12) (old := old) r (by omega) fun id bs => ⟨hr.1.1, _, hr.2.1.1⟩) (by omega)
  have hE := explicitTiles_good (mlt := max a d) (rfl : (miCols + 15) >>> 4 = _)
    (rfl : (miRows + 15) >>> 4 = _) hc.1 hr.1 hc.2 hr.2
  have hpow : ∀ (i l : Nat), i ≤ 1024 → (∀ k, i ≤ 2 ^ k → l ≤ k) → l ≤ 10 := fun i l hi h => h 10 (by omega)
  have hsc : (miCols + 15) >>> 4 ≤ 1024 := by rw [Nat.shiftRight_eq_div_pow]; omega
  have hsr : (miRows + 15) >>> 4 ≤ 1024 := by rw [Nat.shiftRight_eq_div_pow]; omega
  have hX := Good.bind' (n := 28722) 28700 22 (Q := fun t : Tiles => Divides t.colBounds miCols 1024 ∧
      ∃ w, Divides t.rowBounds miRows w) hE
    (fun r hr => tail_good (n := 20) (old := old) r (by
      have := hpow _ _ (Nat.le_trans hr.2.2.1.1 hsc) hr.2.2.1.2.2
      have := hpow _ _ (Nat.le_trans hr.2.2.2.1 hsr) hr.2.2.2.2.2
      omega) fun id bs => ⟨hr.1.1, _, hr.2.1.1⟩) (by omega)
  constructor
  · intro s hs
    match hu : unread s, hs with
    | u :: rest, hs =>
      have hlen : (unread (s.advance 1)).length = rest.length := by rw [unread_advance, hu]; rfl
      rw [hm s u rest hu]
      simp only [List.length_cons] at hs
      cases u
      · simp only [Bool.false_eq_true, if_false]
        obtain ⟨t, k, hk, e, hp⟩ := hX.1 (s.advance 1) (by omega)
        exact ⟨t, 1 + k, by omega, by rw [e, advance_advance], hp⟩
      · simp only [if_true]
        obtain ⟨t, k, hk, e, hp⟩ := hU.1 (s.advance 1) (by omega)
        exact ⟨t, 1 + k, by omega, by rw [e, advance_advance], hp⟩
  · intro s t s' h
    cases hu : unread s with
    | nil =>
      have hs : (unread s).length < 1 := by rw [hu]; simp
      exfalso
      obtain ⟨a', b', c', d', g1, g2, g3, g4, -⟩ := tile_limits miCols miRows hc.1 hc.2 hr.1 hr.2
      unfold newTileInfo at h
      have e1 : tileLog2 (64 : Nat) ((miCols + 15) >>> 4 : Nat) = .ok a' := g1
      have e4 : tileLog2 (2304 : Nat) ((miRows + 15) >>> 4 * ((miCols + 15) >>> 4) : Nat) = .ok d' := g4
      simp only [tileSbCols, tileSbRows, tileSbShift, Bool.false_eq_true, if_false,
        show 4096 >>> (4 + 2) = 64 from rfl, show (4096 * 2304) >>> (2 * (4 + 2)) = 2304 from rfl,
        e1, g2, g3, e4, BM.lift_ok, BM.pure_bind] at h
      obtain ⟨f, s1, hf, -⟩ := BM.bind_eq_ok.mp h
      obtain ⟨r, hr, -⟩ := flag_ok hf
      rw [hu] at hr; cases hr
    | cons u rest =>
      rw [hm s u rest hu] at h
      cases u
      · simp only [Bool.false_eq_true, if_false] at h
        exact hX.2 _ _ _ h
      · simp only [if_true] at h
        exact hU.2 _ _ _ h

theorem readDeltaQ_good : Good readDeltaQ 8 Signed7 := by
  unfold readDeltaQ
  refine Good.bind' 1 7 Good.flag (fun c _ => ?_) (by omega)
  refine Good.ite (fun _ => (Good.su 7 (by omega)).mono (by omega) fun v hv => ?_) fun _ =>
    Good.pure (a := (0 : Int)) ⟨by decide, by decide⟩ _
  exact ⟨by simpa using hv.1, by simpa using hv.2⟩

theorem quant_good (cc : ColorConfig) : Good (quantizationParams cc) 62 (ValidQuant cc) := by
  unfold quantizationParams
  refine Good.bind' 8 54 (Good.F 8) (fun base hb => ?_) (by omega)
  refine Good.bind' 8 46 readDeltaQ_good (fun ydc hy => ?_) (by omega)
  refine Good.bind' 33 13 (P := fun r : Int × Int × Int × Int => (Signed7 r.1 ∧ Signed7 r.2.1 ∧ Signed7 r.2.2.1 ∧
      Signed7 r.2.2.2) ∧ (cc.numPlanes ≤ 1 → r = (0, 0, 0, 0)) ∧
      (cc.separateUvDeltaQ = false → r.2.2.1 = r.1 ∧ r.2.2.2 = r.2.1)) ?_ (fun r hr => ?_) (by omega)
  · unfold chromaDeltaQ
    have z : Signed7 0 := ⟨by decide, by decide⟩
    refine Good.ite (fun hp => ?_) fun hp => Good.pure (a := ((0, 0, 0, 0) : Int × Int × Int × Int))
      ⟨⟨z, z, z, z⟩, fun _ => rfl, fun _ => ⟨rfl, rfl⟩⟩ _
    refine Good.bind' 1 32 (P := fun d : Bool => cc.separateUvDeltaQ = false → d = false)
      (Good.ite (fun h => Good.flag.mono (Nat.le_refl _) fun _ _ h' => by rw [h'] at h; cases h)
        fun _ => Good.pure (a := false) (fun _ => rfl) _) (fun d hd => ?_) (by omega)
    refine Good.bind' 8 24 readDeltaQ_good (fun a ha => ?_) (by omega)
    refine Good.bind' 8 16 readDeltaQ_good (fun b hb => ?_) (by omega)
    refine Good.ite (fun h => ?_) fun h => Good.pure (a := (a, b, a, b))
      ⟨⟨ha, hb, ha, hb⟩, fun h => by omega, fun _ => ⟨rfl, rfl⟩⟩ _
    refine Good.bind' 8 8 readDeltaQ_good (fun c hc => ?_) (by omega)
    refine Good.bind' 8 0 readDeltaQ_good (fun e he => ?_) (by omega)
    exact Good.pure (a := (a, b, c, e)) ⟨⟨ha, hb, hc, he⟩, fun h => by omega,
      fun h' => by rw [hd h'] at h; cases h⟩ _
  obtain ⟨a, b, c, d⟩ := r
  obtain ⟨hs, hm, hj⟩ := hr
  dsimp only at hs hm hj ⊢
  refine Good.bind' 13 0 (P := fun r : Bool × Nat × Nat × Nat => (r.2.1 < 16 ∧ r.2.2.1 < 16 ∧ r.2.2.2 < 16) ∧
      (r.1 = false → r.2.1 = 0 ∧ r.2.2.1 = 0 ∧ r.2.2.2 = 0) ∧
      (cc.separateUvDeltaQ = false → r.2.2.2 = r.2.2.1)) ?_ (fun r hr => ?_) (by omega)
  · unfold qmParams
    refine Good.bind' 1 12 Good.flag (fun u _ => ?_) (by omega)
    refine Good.ite (fun hu => ?_) fun hu => Good.pure (a := (u, 0, 0, 0))
      ⟨⟨by simp, by simp, by simp⟩, fun _ => ⟨rfl, rfl, rfl⟩, fun _ => rfl⟩ _
    refine Good.bind' 4 8 (Good.F 4) (fun x hx => ?_) (by omega)
    refine Good.bind' 4 4 (Good.F 4) (fun y hy => ?_) (by omega)
    refine Good.ite (fun hu => Good.pure (a := (u, x, y, y))
      ⟨⟨hx, hy, hy⟩, fun h => by simp_all, fun _ => rfl⟩ _) fun hsep => ?_
    refine Good.bind' 4 0 (Good.F 4) (fun z hz => ?_) (by omega)
    exact Good.pure (a := (u, x, y, z)) ⟨⟨hx, hy, hz⟩, fun h => by simp_all, fun h => by simp [h] at hsep⟩ _
  obtain ⟨u, x, y, z⟩ := r
  obtain ⟨g1, g2, g3⟩ := hr
  dsimp only at g1 g2 g3 ⊢
  refine Good.pure ⟨hb, ⟨hy, hs.1, hs.2.1, hs.2.2.1, hs.2.2.2⟩, fun h => ?_, fun h => ⟨(hj h).1, (hj h).2, g3 h⟩,
    g1, g2⟩ _
  have := hm h
  simp only [Prod.mk.injEq] at this
  exact this

theorem deltaQ_good (b : Nat) : Good (deltaQParams b) 3 (fun _ => True) := by
  unfold deltaQParams
  refine Good.bind' 1 2 (P := fun _ => True) (Good.ite (fun _ => Good.flag) fun _ => Good.pure trivial _)
    (fun p _ => ?_) (by omega)
  refine Good.ite (fun _ => ?_) fun _ => Good.pure trivial _
  exact Good.bind' 2 0 (Good.F 2) (fun r _ => Good.pure trivial _) (by omega)

theorem deltaLf_good (a b : Bool) : Good (deltaLfParams a b) 4 (fun _ => True) := by
  unfold deltaLfParams
  refine Good.ite (fun _ => ?_) fun _ => Good.pure trivial _
  refine Good.bind' 1 3 (P := fun _ => True) (Good.ite (fun _ => Good.flag) fun _ => Good.pure trivial _)
    (fun p _ => ?_) (by omega)
  refine Good.ite (fun _ => ?_) fun _ => Good.pure trivial _
  refine Good.bind' 2 1 (Good.F 2) (fun r _ => ?_) (by omega)
  exact Good.bind' 1 0 (Good.F 1) (fun r _ => Good.pure trivial _) (by omega)

theorem mapM_ok {α β : Type} (f : α → Res β) (l : List α) (h : ∀ a ∈ l, ∃ b, f a = .ok b) :
    ∃ r, l.mapM f = .ok r ∧ r.length = l.length := by
  induction l with
  | nil => exact ⟨[], rfl, rfl⟩
  | cons a l ih =>
    obtain ⟨b, hb⟩ := h a (List.mem_cons_self ..)
    obtain ⟨r, hr, hl⟩ := ih fun x hx => h x (List.mem_cons_of_mem _ hx)
    refine ⟨b :: r, ?_, by simp [hl]⟩
    rw [List.mapM_cons, hb]
    simp only [bind, Except.bind, hr]
    rfl

theorem uhLossless_ok (seg : SegParams) (hf : FeaturesOk seg.featureEnabled seg.featureData) (q : QuantParams)
    (hb : q.baseQIdx < 256) (dqp : Bool) (cur : Int) :
    ∃ r, uhLossless seg q dqp cur = .ok r ∧ r.length = 8 := by
  unfold uhLossless
  obtain ⟨r, h1, h2⟩ := mapM_ok (segLossless seg q dqp cur) (List.range 8) fun i hi => by
    obtain ⟨l, m, h, -⟩ := C31_lossless seg hf q hb dqp cur i (by simpa using hi)
    exact ⟨_, h⟩
  exact ⟨r, h1, by rw [h2, List.length_range]⟩

/-- What `uhQuant` establishes. -/
structure QuantStage (sh : SeqHeader) (u0 u : UHeader) (st0 st : FrameState) : Prop where
  tiles : Divides st.tiles.colBounds st0.miCols 1024 ∧ ∃ w, Divides st.tiles.rowBounds st0.miRows w
  quant : ValidQuant sh.colorConfig u.quant
  features : FeaturesOk u.seg.featureEnabled u.seg.featureData ∧ st.featureEnabled = u.seg.featureEnabled ∧
    st.featureData = u.seg.featureData
  summary : SummaryOk u.seg.featureEnabled u.seg.lastActiveSegId u.seg.idPreSkip
  lossless : u.losslessArray.length = 8 ∧ (u.codedLossless = true ↔ ∀ b ∈ u.losslessArray, b = true) ∧
    (u.allLossless = true ↔ u.codedLossless = true ∧ u.size.frameWidth = u.size.upscaledWidth)
  cdfs : st.nonCoeffCdfs = st0.nonCoeffCdfs ∧ st.coeffCdfs = some (coeffCdfIdx u.quant.baseQIdx)
  gm : st.gmType = st0.gmType ∧ u.gmParams = u0.gmParams
  same : u.size = u0.size ∧ u.loopFilter = u0.loopFilter ∧ u.frameIsIntra = u0.frameIsIntra ∧
    u.refFrameIdx = u0.refFrameIdx ∧ u.frameType = u0.frameType ∧ u.showFrame = u0.showFrame ∧
    u.showableFrame = u0.showableFrame ∧ u.primaryRefFrame = u0.primaryRefFrame ∧
    u.refreshFrameFlags = u0.refreshFrameFlags ∧ u.showExistingFrame = u0.showExistingFrame
  st : st.miCols = st0.miCols ∧ st.miRows = st0.miRows ∧ st.refOrderHint = st0.refOrderHint ∧
    st.refValid = st0.refValid

theorem uhQuant_good (sh : SeqHeader) (hsb : sh.use128x128SuperBlock = false) (u : UHeader) (st : FrameState)
    (hc : 1 ≤ st.miCols ∧ st.miCols ≤ 16384) (hr : 1 ≤ st.miRows ∧ st.miRows ≤ 16384)
    (hf : FeaturesOk st.featureEnabled st.featureData) :
    Good (uhQuant sh u st) 29436 (fun p => QuantStage sh u p.1 st p.2) := by
  unfold uhQuant
  rw [hsb]
  refine Good.bind' 28723 713 (tileInfo_good _ _ _ hc hr) (fun t ht => ?_) (by omega)
  refine Good.bind' 62 651 (quant_good _) (fun q hq => ?_) (by omega)
  refine Good.bind' 644 7 (segmentation_good _ _ _ hf) (fun seg hseg => ?_) (by omega)
  refine Good.bind' 3 4 (deltaQ_good _) (fun d _ => ?_) (by omega)
  obtain ⟨dqp, dqr⟩ := d
  dsimp only
  refine Good.bind' 4 0 (deltaLf_good _ _) (fun l _ => ?_) (by omega)
  obtain ⟨dlp, dlr, dlm⟩ := l
  dsimp only
  obtain ⟨r, h1, h2⟩ := uhLossless_ok seg hseg.1 q hq.base dqp st.currentQIndex
  rw [h1]
  dsimp only [BM.lift_ok]
  rw [BM.pure_bind]
  refine Good.pure (P := fun p : UHeader × FrameState => QuantStage sh u p.1 st p.2) ?_ _
  exact {
    tiles := ht
    quant := hq
    features := ⟨hseg.1, rfl, rfl⟩
    summary := hseg.2.1
    lossless := by
      refine ⟨by simp [h2], ?_, ?_⟩
      · simp [List.all_eq_true]
      · simp
    cdfs := ⟨rfl, rfl⟩
    gm := ⟨rfl, rfl⟩
    same := ⟨rfl, rfl, rfl, rfl, rfl, rfl, rfl, rfl, rfl, rfl⟩
    st := ⟨rfl, rfl, rfl, rfl⟩ }

theorem filmGrain_good (sh : SeqHeader) (a b : Bool) (ft : Nat) (hft : ft ≠ 1) :
    Good (filmGrainParams sh a b ft) 1410 (fun g => g = {} ∨ ValidGrain sh.colorConfig g) := by
  have hE : Ensures (filmGrainParams sh a b ft) (fun g => g = {} ∨ ValidGrain sh.colorConfig g) :=
    fun s g s' h => (C36_film_grain sh a b ft s).1 g s' h
  unfold filmGrainParams at hE ⊢
  refine ⟨?_, hE⟩
  refine Fits.ite (fun _ => Fits.pure (P := fun g => g = {} ∨ ValidGrain sh.colorConfig g) (Or.inl rfl) _) fun _ => ?_
  refine (Fits.bind (n2 := 1409) Fits.flag fun ap _ => Fits.ite (fun _ => Fits.pure (P := fun g => g = {} ∨ ValidGrain sh.colorConfig g) (Or.inl rfl) _) fun _ => ?_).mono
    (by omega) fun _ h => h
  refine (Fits.bind (n2 := 1393) (Fits.F 16) fun seed hsd => ?_).mono (by omega) fun _ h => h
  rw [if_neg hft]
  refine (Fits.bind (n1 := 0) (n2 := 1393) (P := fun u => u = true) (Fits.pure (P := fun u => u = true) rfl _)
    fun up hup => ?_).mono (by omega) fun _ h => h
  rw [if_neg (by simp [hup])]
  exact (grainUpdate_good _ _ (by omega)).1.mono (Nat.le_refl _) fun _ h => Or.inr h

/-- What `uhFilters` establishes. -/
structure FilterStage (sh : SeqHeader) (u0 u : UHeader) (st0 st : FrameState) : Prop where
  filter : LfOk u.loopFilter
  cdef : CdefOk u.cdef
  restoration : LrOk sh.use128x128SuperBlock u.lr
  tx : if u.codedLossless then u.txMode = 0 else u.txMode = 1 ∨ u.txMode = 2
  grain : u.filmGrain = {} ∨ ValidGrain sh.colorConfig u.filmGrain
  skip : u.skipModePresent = 0
  gm : u.gmParams.drop 1 = List.replicate 7 [0, 0, 65536, 0, 0, 65536]
  gmt : st.gmType.length = 8 ∧ (∀ t ∈ st.gmType.drop 1, t ≤ 3) ∧
    (u.frameIsIntra = true → st.gmType.drop 1 = List.replicate 7 0)
  same : u.size = u0.size ∧ u.quant = u0.quant ∧ u.seg = u0.seg ∧ u.losslessArray = u0.losslessArray ∧
    u.codedLossless = u0.codedLossless ∧ u.allLossless = u0.allLossless ∧ u.frameIsIntra = u0.frameIsIntra ∧
    u.primaryRefFrame = u0.primaryRefFrame ∧ u.refreshFrameFlags = u0.refreshFrameFlags ∧
    u.showExistingFrame = u0.showExistingFrame ∧ u.frameType = u0.frameType ∧ u.showFrame = u0.showFrame
  st : st.miCols = st0.miCols ∧ st.miRows = st0.miRows ∧ st.tiles = st0.tiles ∧
    st.featureEnabled = st0.featureEnabled ∧ st.featureData = st0.featureData ∧
    st.nonCoeffCdfs = st0.nonCoeffCdfs ∧ st.coeffCdfs = st0.coeffCdfs ∧ st.refOrderHint = st0.refOrderHint ∧
    st.refValid = st0.refValid

theorem gmTypeOf_good : Good gmTypeOf 3 (fun t => t ≤ 3) := by
  unfold gmTypeOf
  refine Good.bind' 1 2 Good.flag (fun a _ => ?_) (by omega)
  refine Good.ite (fun _ => ?_) fun _ => Good.pure (by omega) _
  refine Good.bind' 1 1 Good.flag (fun b _ => ?_) (by omega)
  refine Good.ite (fun _ => Good.pure (by omega) _) fun _ => ?_
  refine Good.bind' 1 0 Good.flag (fun c _ => Good.pure ?_ _) (by omega)
  split <;> omega

theorem globalMotion_good (fi : Bool) (old : List Nat) (ho : old.length = 8) :
    Good (globalMotionParams fi old) 21 (fun l => l.length = 8 ∧ (∀ t ∈ l.drop 1, t ≤ 3) ∧
      (fi = true → l.drop 1 = List.replicate 7 0)) := by
  unfold globalMotionParams
  have ht : (old.take 1).length = 1 := by simp [ho]
  have hd : ∀ l : List Nat, (old.take 1 ++ l).drop 1 = l := fun l => by
    rw [List.drop_append_of_le_length (by omega), List.drop_eq_nil_of_le (by omega), List.nil_append]
  refine Good.ite (fun hf => ?_) fun hf => ?_
  · refine Good.pure (a := old.take 1 ++ List.replicate 7 0) ⟨by simp [ho], ?_, fun _ => hd _⟩ _
    rw [hd]; intro t h; rw [(List.mem_replicate.mp h).2]; omega
  · refine Good.bind' 21 0 ((Good.mapBM 3 (List.range 7) fun _ _ => gmTypeOf_good).mono (by simp) fun _ h => h)
      (fun ts hts => ?_) (by omega)
    refine Good.pure (a := old.take 1 ++ ts) ⟨by simp [ho, hts.length], ?_, fun h => absurd h hf⟩ _
    rw [hd]; intro t h; obtain ⟨_, _, h⟩ := hts.mem t h; exact h

/-- Conditional form: whenever the reader returns, the value satisfies `P`; and if `c`, `n` bits suffice. -/
def GoodIf {α : Type} (c : Prop) (m : BM α) (n : Nat) (P : α → Prop) : Prop := (c → Fits m n P) ∧ Ensures m P

namespace GoodIf
variable {c : Prop}

theorem of {α : Type} {m : BM α} {n : Nat} {P : α → Prop} (h : Good m n P) : GoodIf c m n P :=
  ⟨fun _ => h.1, h.2⟩

theorem bind' {α β : Type} {m : BM α} {k : α → BM β} {n : Nat} (n1 n2 : Nat) {P : α → Prop}
    {Q : β → Prop} (hm : GoodIf c m n1 P) (hk : ∀ a, P a → GoodIf c (k a) n2 Q) (hn : n1 + n2 ≤ n) :
    GoodIf c (m >>= k) n Q :=
  ⟨fun h => (Fits.bind (hm.1 h) fun a ha => (hk a ha).1 h).mono hn fun _ h => h,
    Ensures.bind hm.2 fun a h => (hk a h).2⟩

theorem ite {α : Type} {P : α → Prop} {d : Prop} [Decidable d] {m n : BM α} {k : Nat}
    (hm : d → GoodIf c m k P) (hn : ¬ d → GoodIf c n k P) : GoodIf c (if d then m else n) k P := by
  split
  · exact hm ‹_›
  · exact hn ‹_›

theorem fail {α : Type} {P : α → Prop} (e : Fault) (h : ¬ c) (n : Nat) : GoodIf c (BM.fail e : BM α) n P :=
  ⟨fun h' => absurd h' h, Ensures.fail e⟩

theorem mono {α : Type} {m : BM α} {n n' : Nat} {P Q : α → Prop} (hm : GoodIf c m n P) (hn : n ≤ n')
    (h : ∀ a, P a → Q a) : GoodIf c m n' Q := ⟨fun hc => (hm.1 hc).mono hn h, hm.2.mono h⟩

end GoodIf

theorem uhFilters_good (c : Prop) (sh : SeqHeader) (hp : sh.colorConfig.numPlanes ≤ 3) (u : UHeader) (er : Bool)
    (st : FrameState) (hlf : LfOk u.loopFilter) (href : ∀ i ∈ u.refFrameIdx, i < st.refOrderHint.length)
    (hgt : st.gmType.length = 8) (hgp : u.gmParams.length = 8) (hft : c → u.frameType ≠ 1) :
    GoodIf c (uhFilters sh u er st) 1656 (fun p => FilterStage sh u p.1 st p.2) := by
  unfold uhFilters
  refine GoodIf.bind' 112 1544 (.of (loopFilter_good _ hlf _ _ _)) (fun lf h1 => ?_) (by omega)
  refine GoodIf.bind' 100 1444 (.of (cdef_good _ _ _ _)) (fun cdef h2 => ?_) (by omega)
  refine GoodIf.bind' 9 1435 (.of (lr_good sh hp _ _ _)) (fun lr h3 => ?_) (by omega)
  refine GoodIf.bind' 1 1434 (P := fun t => if u.codedLossless then t = 0 else t = 1 ∨ t = 2) (.of ?_)
    (fun tx h4 => ?_) (by omega)
  · unfold readTxMode
    refine Good.ite (fun h => Good.pure (a := 0) (by simp [h]) _) fun h => ?_
    refine Good.bind' 1 0 Good.flag (fun sel _ => Good.pure ?_ _) (by omega)
    cases sel <;> simp [h]
  refine GoodIf.bind' 1 1433 (P := fun _ => True)
    (.of (Good.ite (fun _ => Good.pure trivial _) fun _ => Good.flag)) (fun rs _ => ?_) (by omega)
  obtain ⟨hints, e1, -⟩ := mapM_ok (fun i : Nat => goGet st.refOrderHint (i : Int)) u.refFrameIdx fun i hi => by
    unfold goGet
    rw [if_neg (by omega), Int.toNat_natCast]
    have := href i hi
    rw [List.getElem?_eq_getElem this]
    exact ⟨_, rfl⟩
  rw [e1]
  dsimp only [BM.lift_ok]
  rw [BM.pure_bind]
  have hskip : ∀ n l, skipModeParams false n u.frameIsIntra rs u.orderHint l = pure 0 := fun n l => by
    funext s; exact C34_skip_mode_never _ _ _ _ _ s
  rw [hskip, BM.pure_bind]
  refine GoodIf.bind' 1 1432 (P := fun _ => True)
    (.of (Good.ite (fun _ => Good.pure trivial _) fun _ => Good.flag)) (fun warp _ => ?_) (by omega)
  refine GoodIf.bind' 1 1431 (.of Good.flag) (fun rts _ => ?_) (by omega)
  refine GoodIf.bind' 21 1410 (.of (globalMotion_good _ _ hgt)) (fun gm h5 => ?_) (by omega)
  refine GoodIf.bind' 1410 0 (P := fun g => g = {} ∨ ValidGrain sh.colorConfig g)
    ⟨fun hc => (filmGrain_good _ _ _ _ (hft hc)).1, fun s g s' h => (C36_film_grain _ _ _ _ s).1 g s' h⟩
    (fun fg h6 => ?_) (by omega)
  refine .of (Good.pure (P := fun p : UHeader × FrameState => FilterStage sh u p.1 st p.2) ?_ _)
  exact {
    filter := h1, cdef := h2, restoration := h3, tx := h4, grain := h6, skip := rfl
    gm := by
      show (u.gmParams.take 1 ++ _).drop 1 = _
      rw [List.drop_append_of_le_length (by simp [hgp]), List.drop_eq_nil_of_le (by simp), List.nil_append]
      rfl
    gmt := ⟨h5.1, h5.2.1, h5.2.2⟩
    same := ⟨rfl, rfl, rfl, rfl, rfl, rfl, rfl, rfl, rfl, rfl, rfl, rfl⟩
    st := ⟨rfl, rfl, rfl, rfl, rfl, rfl, rfl, rfl, rfl⟩ }

/-- The arrays of the state and of the fresh header have their declared lengths, and the reference
indices are slots. -/
structure HdrShape (u : UHeader) (st : FrameState) : Prop where
  hints : st.refOrderHint.length = 8
  gmType : st.gmType.length = 8
  gmParams : u.gmParams.length = 8
  refs : ∀ i ∈ u.refFrameIdx, i < 8

theorem uhScreenContent_good (sh : SeqHeader) (fi : Bool) :
    Good (uhScreenContent sh fi) 2 (fun p => p.1 ≤ 1 ∧ (fi = true → p.2 = true)) := by
  unfold uhScreenContent
  refine Good.bind' 1 1 (P := fun v => v ≤ 1) (Good.ite (fun _ => (Good.F 1).mono (Nat.le_refl _) fun v h => by omega)
    fun _ => Good.pure (P := fun v => v ≤ 1) (Nat.le_refl 1) _) (fun sct h => ?_) (by omega)
  refine Good.bind' 1 0 (P := fun _ => True) (Good.ite (fun _ => Good.ite (fun _ => Good.flag) fun _ =>
    Good.pure trivial _) fun _ => Good.pure trivial _) (fun imv _ => ?_) (by omega)
  exact Good.pure (a := (sct, if fi then true else imv)) ⟨h, fun h => by simp [h]⟩ _

/-- `uhIds` changes only the fields it reads, and frames that are intra or error resilient have no
primary reference. -/
theorem uhIds_good (h : Header) (sh : SeqHeader) (hs : SeqSupported sh) (u : UHeader) (er : Bool) (st : FrameState)
    (c : Prop) (hc : c → u.frameIsIntra = true ∧ (u.frameType = 0 ∨ u.showFrame = true ∨ sh.enableOrderHint = false)) :
    GoodIf c (uhIds h sh u er st) 23 (fun p => p.2 = st ∧ p.1.frameIsIntra = u.frameIsIntra ∧
      p.1.frameType = u.frameType ∧ p.1.showFrame = u.showFrame ∧ p.1.gmParams = u.gmParams ∧
      p.1.refFrameIdx = u.refFrameIdx ∧ p.1.showExistingFrame = u.showExistingFrame ∧
      ((u.frameIsIntra = true ∨ er = true) → p.1.primaryRefFrame = 7) ∧
      p.1.useRefFrameMvs = u.useRefFrameMvs) := by
  unfold uhIds
  refine GoodIf.bind' 1 22 (.of Good.flag) (fun dcu _ => ?_) (by omega)
  refine GoodIf.bind' 2 20 (.of (uhScreenContent_good _ _)) (fun sc _ => ?_) (by omega)
  obtain ⟨sct, imv⟩ := sc
  dsimp only
  refine GoodIf.bind' 0 20 (P := fun p => p = (0, st)) (.of ?_) (fun ids hids => ?_) (by omega)
  · unfold uhFrameId
    rw [if_neg (by simp [hs.ids])]
    exact Good.pure (P := fun p => p = (0, st)) rfl _
  subst hids
  dsimp only
  refine GoodIf.bind' 1 19 (P := fun _ => True) (.of (Good.ite (fun _ => Good.pure trivial _) fun _ =>
    Good.ite (fun _ => Good.pure trivial _) fun _ => Good.flag)) (fun fso _ => ?_) (by omega)
  refine GoodIf.bind' 8 11 (.of ((Good.F _).mono hs.hints fun _ h => h)) (fun oh _ => ?_) (by omega)
  refine GoodIf.bind' 3 8 (P := fun v => (u.frameIsIntra = true ∨ er = true) → v = 7)
    (.of (Good.ite (fun _ => Good.pure (fun _ => rfl) _) fun hn => (Good.F 3).mono (Nat.le_refl _)
      fun v _ hh => absurd (by simpa using hh) hn)) (fun prf hprf => ?_) (by omega)
  refine GoodIf.bind' 0 8 (P := fun _ => True) (.of ?_) (fun _ _ => ?_) (by omega)
  · unfold uhBufferRemoval
    rw [if_neg (by simp [hs.model])]
    exact Good.pure trivial _
  refine GoodIf.bind' 8 0 (P := fun _ => True) ?_ (fun rf _ => ?_) (by omega)
  · unfold uhRefresh
    by_cases hr : u.frameType = 3 ∨ u.frameType = 0 ∨ u.showFrame = true
    · rw [if_pos hr, BM.pure_bind]
      refine GoodIf.ite (fun hcond => ?_) fun _ => .of (Good.pure trivial _)
      refine GoodIf.bind' 8 0 (.of ((Good.F _).mono hs.hints fun _ h => h)) (fun _ _ => .fail _ ?_ _) (by omega)
      intro hcc
      simp [(hc hcc).1] at hcond
    · rw [if_neg hr]
      constructor
      · intro hcc
        obtain ⟨h1, h2 | h2 | h2⟩ := hc hcc
        · exact absurd (Or.inr (Or.inl h2)) hr
        · exact absurd (Or.inr (Or.inr h2)) hr
        · refine (Fits.bind (n2 := 0) (Fits.F 8) fun rf _ => ?_).mono (by omega) fun _ h => h
          rw [if_neg (by simp [h2])]
          exact Fits.pure trivial _
      · exact Ensures.true _
  refine .of (Good.pure ?_ _)
  exact ⟨rfl, rfl, rfl, rfl, rfl, rfl, rfl, hprf, rfl⟩

/-- What the size stage establishes. -/
structure SizeStage (u0 u : UHeader) (st0 st : FrameState) : Prop where
  size : SizeOk u.size
  mi : st.miCols = u.size.miCols ∧ st.miRows = u.size.miRows
  cols : 1 ≤ st.miCols ∧ st.miCols ≤ 16384
  rows : 1 ≤ st.miRows ∧ st.miRows ≤ 16384
  refs : ∀ i ∈ u.refFrameIdx, i < 8
  st : st.refOrderHint = st0.refOrderHint ∧ st.gmType = st0.gmType ∧ st.refValid = st0.refValid
  same : u.gmParams = u0.gmParams ∧ u.frameType = u0.frameType ∧ u.frameIsIntra = u0.frameIsIntra ∧
    u.showExistingFrame = u0.showExistingFrame ∧ u.primaryRefFrame = u0.primaryRefFrame ∧
    (u0.frameIsIntra = true → u.useRefFrameMvs = u0.useRefFrameMvs)

theorem size_bounds (sh : SeqHeader) (hs : SeqSupported sh) (ov : Bool) (fs : FrameSize)
    (h : SizeOk fs ∧ (ov = false → fs.upscaledWidth = sh.maxFrameWidthMinusOne + 1 ∧
          fs.frameHeight = sh.maxFrameHeightMinusOne + 1) ∧
        (ov = true → fs.upscaledWidth ≤ 2 ^ (sh.frameWidthBitsMinusOne + 1) ∧
          fs.frameHeight ≤ 2 ^ (sh.frameHeightBitsMinusOne + 1))) :
    (1 ≤ fs.miCols ∧ fs.miCols ≤ 16384) ∧ 1 ≤ fs.miRows ∧ fs.miRows ≤ 16384 := by
  obtain ⟨h1, h2, h3⟩ := h
  have pw : ∀ k, k ≤ 15 → 2 ^ (k + 1) ≤ 65536 := fun k hk => by
    calc 2 ^ (k + 1) ≤ 2 ^ 16 := Nat.pow_le_pow_right (by omega) (by omega)
      _ = 65536 := by norm_num
  have e1 : fs.upscaledWidth ≤ 65536 ∧ fs.frameHeight ≤ 65536 := by
    cases ov
    · have := h2 rfl; have := hs.width.2; have := hs.height.2; omega
    · have := h3 rfl; have := pw _ hs.width.1; have := pw _ hs.height.1; omega
  have := h1.le; have := h1.pos
  obtain ⟨c1, c2, c3⟩ := h1.cols
  obtain ⟨r1, r2, r3⟩ := h1.rows
  omega

theorem renderSize_good (fs : FrameSize) : Good (renderSize fs) 33 (fun _ => True) := by
  unfold renderSize
  refine Good.bind' 1 32 Good.flag (fun d _ => ?_) (by omega)
  refine Good.ite (fun _ => ?_) fun _ => Good.pure trivial _
  refine Good.bind' 16 16 (Good.F 16) (fun w _ => ?_) (by omega)
  exact Good.bind' 16 0 (Good.F 16) (fun w _ => Good.pure trivial _) (by omega)

theorem uhIntra_good (sh : SeqHeader) (hs : SeqSupported sh) (u : UHeader) (st : FrameState)
    (href : ∀ i ∈ u.refFrameIdx, i < 8) :
    Good (uhIntra sh u st) 70 (fun p => SizeStage u p.1 st p.2) := by
  unfold uhIntra
  refine Good.bind' 36 34 ((frameSize_good sh _).mono (by have := hs.width.1; have := hs.height.1; omega) fun _ h => h)
    (fun fs hfs => ?_) (by omega)
  refine Good.bind' 33 1 (renderSize_good _) (fun r _ => ?_) (by omega)
  obtain ⟨rw, rh⟩ := r
  dsimp only
  refine Good.bind' 1 0 (P := fun _ => True) (Good.ite (fun _ => Good.flag) fun _ => Good.pure trivial _)
    (fun ibc _ => ?_) (by omega)
  have hb := size_bounds sh hs _ fs hfs
  refine Good.pure (P := fun p : UHeader × FrameState => SizeStage u p.1 st p.2) ?_ _
  exact ⟨hfs.1, ⟨rfl, rfl⟩, hb.1, hb.2, href, ⟨rfl, rfl, rfl⟩, rfl, rfl, rfl, rfl, rfl, fun _ => rfl⟩

theorem uhRefIdx_ensures (sh : SeqHeader) : Ensures (uhRefIdx sh) (fun v => v < 8) := by
  unfold uhRefIdx
  refine Ensures.bindT fun _ => Ensures.bind (Ensures.F 3) fun v hv => ?_
  exact Ensures.ite (fun _ => Ensures.bindT fun _ => Ensures.fail _) fun _ => Ensures.pure (P := fun v => v < 8) hv

theorem uhInter_ensures (sh : SeqHeader) (hs : SeqSupported sh) (u : UHeader) (er : Bool) (st : FrameState)
    (hi : u.frameIsIntra = false) :
    Ensures (uhInter sh u er st) (fun p => SizeStage u p.1 st p.2) := by
  unfold uhInter
  refine Ensures.bindT fun _ => Ensures.bind (P := fun l => ∀ i ∈ l, i < 8) ?_ fun refs hr => ?_
  · refine (Ensures.mapBM (List.range 7) fun _ _ => uhRefIdx_ensures sh).mono fun l h i hi => ?_
    obtain ⟨_, _, h⟩ := h.mem i hi; exact h
  refine Ensures.ite (fun _ => Ensures.fail _) fun _ => ?_
  refine Ensures.bind (frameSize_good sh _).2 fun fs hfs => ?_
  refine Ensures.bindT fun r => ?_
  obtain ⟨rw, rh⟩ := r
  dsimp only
  refine Ensures.bindT fun hp => Ensures.bindT fun filt => Ensures.bindT fun sw => Ensures.bindT fun mvs =>
    Ensures.bindT fun ob => ?_
  obtain ⟨ohs, bias⟩ := ob
  have hb := size_bounds sh hs _ fs hfs
  refine Ensures.pure (P := fun p : UHeader × FrameState => SizeStage u p.1 st p.2) ?_
  exact ⟨hfs.1, ⟨rfl, rfl⟩, hb.1, hb.2, hr, ⟨rfl, rfl, rfl⟩, rfl, rfl, rfl, rfl, rfl, fun h => by rw [hi] at h; cases h⟩

theorem uhRest_good (h : Header) (sh : SeqHeader) (hs : SeqSupported sh) (u : UHeader) (er : Bool) (st : FrameState)
    (hsh : HdrShape u st) (hmv : u.useRefFrameMvs = false) (c : Prop)
    (hc : c → u.frameIsIntra = true ∧ u.frameType ≠ 1 ∧
      (u.frameType = 0 ∨ u.showFrame = true ∨ sh.enableOrderHint = false)) :
    GoodIf c (uhRest h sh u er st) 31186 (fun p => HeaderOk sh p.1 p.2 ∧ p.1.frameType = u.frameType ∧
      p.1.frameIsIntra = u.frameIsIntra ∧ p.1.showExistingFrame = u.showExistingFrame ∧
      p.1.primaryRefFrame = 7 ∧ p.2.refValid = st.refValid ∧ p.2.refOrderHint = st.refOrderHint) := by
  unfold uhRest
  refine GoodIf.bind' 23 31163 (uhIds_good h sh hs u er st c fun hcc => ⟨(hc hcc).1, (hc hcc).2.2⟩)
    (fun p hp => ?_) (by omega)
  obtain ⟨u1, st1⟩ := p
  dsimp only at hp ⊢
  obtain ⟨rfl, g1, g2, g3, g4, g5, g6, g7, g8⟩ := hp
  refine GoodIf.bind' 70 31093 (P := fun p => SizeStage u1 p.1 st1 p.2) ?_ (fun p hp => ?_) (by omega)
  · refine GoodIf.ite (fun _ => .of (uhIntra_good sh hs u1 st1 (by rw [g5]; exact hsh.refs))) fun hn => ?_
    refine ⟨fun hcc => ?_, uhInter_ensures sh hs u1 er st1 (by simpa using hn)⟩
    exact absurd (g1.trans (hc hcc).1) hn
  obtain ⟨u2, st2⟩ := p
  dsimp only at hp ⊢
  refine GoodIf.bind' 1 31092 (P := fun _ => True) (.of (Good.ite (fun _ => Good.pure trivial _) fun _ => Good.flag))
    (fun dfe _ => ?_) (by omega)
  refine GoodIf.ite (fun hprf => .fail _ (fun hcc => hprf ?_) _) fun hprf => ?_
  · rw [hp.same.2.2.2.2.1]; exact g7 (Or.inl (hc hcc).1)
  refine GoodIf.ite (fun hm => .fail _ (fun hcc => ?_) _) fun _ => ?_
  · rw [hp.same.2.2.2.2.2 (g1.trans (hc hcc).1), g8, hmv] at hm; cases hm
  refine GoodIf.bind' 29436 1656 (.of (uhQuant_good sh hs.sb _ (setupPastIndependence st2) hp.cols hp.rows
    features_zero)) (fun p hq => ?_) (by omega)
  obtain ⟨u3, st3⟩ := p
  dsimp only at hq ⊢
  obtain ⟨q1, q2, q3, q4, q5, q6, q7, q8, q9, q10⟩ := hq.same
  obtain ⟨t1, t2, t3, t4⟩ := hq.st
  refine (uhFilters_good c sh hs.planes u3 er st3 (by rw [q2]; exact initialLf_ok) ?_ ?_ ?_ ?_).mono (Nat.le_refl _)
    fun p hf => ?_
  · intro i hi; rw [t3]
    show i < st2.refOrderHint.length
    rw [hp.st.1, hsh.hints]
    exact hp.refs i (q4 ▸ hi)
  · rw [hq.gm.1]
    show (st2.gmType.take 1 ++ List.replicate 7 0).length = 8
    rw [hp.st.2.1]; simp [hsh.gmType]
  · rw [hq.gm.2]
    show u2.gmParams.length = 8
    rw [hp.same.1, g4]; exact hsh.gmParams
  · intro hcc
    rw [q5]
    show u2.frameType ≠ 1
    rw [hp.same.2.1, g2]; exact (hc hcc).2.1
  obtain ⟨w, st4⟩ := p
  dsimp only at hf ⊢
  obtain ⟨f1, f2, f3, f4, f5, f6, f7, f8, f9, f10, f11, f12⟩ := hf.same
  obtain ⟨s1, s2, s3, s4, s5, s6, s7, s8, s9⟩ := hf.st
  have e1 : w.size = u2.size := f1.trans q1
  have em : st4.miCols = w.size.miCols ∧ st4.miRows = w.size.miRows := by
    rw [e1, s1, s2, t1, t2]; exact hp.mi
  refine ⟨?_, ?_, ?_, ?_, ?_, ?_, ?_⟩
  · exact {
      size := e1 ▸ hp.size
      mi := em
      tiles := by rw [← em.1, ← em.2, s3, s1, s2, t1, t2]; exact hq.tiles
      quant := f2 ▸ hq.quant
      features := by rw [f3, s4, s5]; exact hq.features
      summary := by rw [f3]; exact hq.summary
      lossless := by rw [f4, f5, f6, f1]; exact hq.lossless
      filter := hf.filter
      cdef := hf.cdef
      restoration := hf.restoration
      tx := hf.tx
      grain := hf.grain
      skip := hf.skip
      gm := hf.gm
      gmt := hf.gmt
      cdfs := by rw [s6, s7, f2, hq.cdfs.1, hq.cdfs.2]; exact ⟨rfl, rfl⟩ }
  · rw [f11, q5]; exact hp.same.2.1.trans g2
  · rw [f7, q3]; exact hp.same.2.2.1.trans g1
  · rw [f10, q10]; exact hp.same.2.2.2.1.trans g6
  · rw [f8, q8]; simpa using hprf
  · rw [s9, t4]; exact hp.st.2.2
  · rw [s8, t3]; exact hp.st.1

end Gov1
