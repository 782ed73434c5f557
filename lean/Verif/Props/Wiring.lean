import Verif.Props.Remember
/-!
# C192: the headers the blocks and the filters go by are the coded ones

Each part of the program reads some fields of the two headers.  `Spec.BlockView` and `Spec.FilterView` say, field by field, what the syntax of AV1 means by them; the
theorems say that the decoding of a tile and the filters at the end of a frame get just that.
-/
namespace Gov1

namespace Spec

/-- What the blocks of a frame go by. -/
structure BlockView (sh : SeqHeader) (uh : UHeader) (fs : FrameState) (run : TileRun) (h : FrHdr) : Prop where
  superblocks : h.mi.use128 = true ↔ sh.use128x128SuperBlock = true
  monochrome : h.mi.chroma = false ↔ sh.colorConfig.numPlanes ≤ 1
  subsampling : h.mi.subX = (if sh.colorConfig.subsamplingX then 1 else 0) ∧ h.mi.subY = (if sh.colorConfig.subsamplingY then 1 else 0)
  depth : h.bitDepth = sh.colorConfig.bitDepth
  tools : h.mi.enableCdef = sh.enableCdef ∧ h.mi.enableFilterIntra = sh.enableFilterIntra ∧ h.edgeFilter = sh.enableIntraEdgeFilter ∧ h.ih.dualFilter = sh.enableDualFilter ∧
    h.ih.interIntra = sh.enableInterIntraCompound ∧ h.ih.masked = sh.enableMaskedCompound ∧ h.ih.jntComp = sh.enableJntComp
  intra : h.intraFrame = uh.frameIsIntra
  tile : h.tile.rowStart = run.rowStart ∧ h.tile.rowEnd = run.rowEnd ∧ h.tile.colStart = run.colStart ∧ h.tile.colEnd = run.colEnd
  frame : h.miRows = fs.miRows ∧ h.miCols = fs.miCols ∧ h.inter.frameWidth = uh.size.frameWidth ∧ h.inter.frameHeight = uh.size.frameHeight
  /-- `TX_MODE_SELECT` is 2 -/
  txMode : h.txSelect = true ↔ uh.txMode = 2
  txSet : h.reducedTxSet = uh.reducedTxSet
  lossless : h.mi.codedLossless = uh.codedLossless ∧ h.mi.losslessArray = uh.losslessArray
  copying : h.mi.allowIntraBc = uh.allowIntraBc
  screen : h.mi.allowScreen = true ↔ uh.allowScreenContentTools ≠ 0
  segments : h.mi.segEnabled = uh.seg.enabled ∧ h.seg.enabled = uh.seg.enabled ∧ h.mi.segIdPreSkip = uh.seg.idPreSkip ∧ h.mi.lastActiveSegId = uh.seg.lastActiveSegId ∧
    (h.mi.segUpdateMap = true ↔ uh.seg.updateMap ≠ 0) ∧ (h.mi.segTemporalUpdate = true ↔ uh.seg.temporalUpdate = 1)
  features : h.mi.featureEnabled = fs.featureEnabled ∧ h.mi.featureData = fs.featureData ∧ h.seg.featureEnabled = fs.featureEnabled ∧ h.seg.featureData = fs.featureData
  previous : h.prevSegIds = fs.prevSegmentIds
  quantizer : h.q = uh.quant
  matrices : ∀ plane : Nat, plane < 3 → h.segQMLevel[plane]? = some uh.segQMLevel
  deltaQ : h.deltaQPresent = uh.delta.deltaQPresent ∧ h.mi.deltaQRes = uh.delta.deltaQRes
  deltaLf : h.mi.deltaLfPresent = uh.delta.deltaLfPresent ∧ h.mi.deltaLfRes = uh.delta.deltaLfRes ∧ (h.mi.deltaLfMulti = true ↔ uh.delta.deltaLfMulti ≠ 0)
  compound : h.ih.refSelect = uh.referenceSelect ∧ (h.ih.skipModePresent = true ↔ uh.skipModePresent ≠ 0)
  motion : h.ih.motionSwitchable = uh.isMotionModeSwitchable ∧ h.ih.interpFilter = uh.interpolationFilter
  vectors : h.mv.hdr.forceInteger = uh.forceIntegerMv ∧ h.inter.forceIntegerMv = uh.forceIntegerMv ∧ h.mv.hdr.highPrecision = uh.allowHighPrecisionMv ∧
    h.mv.useRefFrameMvs = uh.useRefFrameMvs
  references : h.inter.refFrameIdx = uh.refFrameIdx ∧ h.mv.signBias = uh.refFrameSignBias
  global : h.mv.gmParams = uh.gmParams ∧ h.inter.gmParams = uh.gmParams ∧ h.mv.gmType = h.inter.gmType ∧ ∀ i : Nat, h.mv.gmType[i]? = fs.gmType[i]?.map Int.ofNat

/-- What the filters at the end of a frame go by. -/
structure FilterView (sh : SeqHeader) (uh : UHeader) (fs : FrameState) (d : LfCtx) (c : CdefCtx) (l : LrCtx) : Prop where
  planes : d.numPlanes = sh.colorConfig.numPlanes ∧ c.numPlanes = sh.colorConfig.numPlanes ∧ l.numPlanes = sh.colorConfig.numPlanes
  depth : d.bitDepth = sh.colorConfig.bitDepth ∧ c.bitDepth = sh.colorConfig.bitDepth ∧ l.bitDepth = sh.colorConfig.bitDepth
  subX : (d.subX, c.subX, l.subX) = if sh.colorConfig.subsamplingX then (1, 1, 1) else (0, 0, 0)
  subY : (d.subY, c.subY, l.subY) = if sh.colorConfig.subsamplingY then (1, 1, 1) else (0, 0, 0)
  units : (d.miRows = fs.miRows ∧ c.miRows = fs.miRows ∧ l.miRows = fs.miRows) ∧ (d.miCols = fs.miCols ∧ c.miCols = fs.miCols ∧ l.miCols = fs.miCols)
  size : d.frameWidth = uh.size.frameWidth ∧ d.frameHeight = uh.size.frameHeight ∧ l.frameWidth = uh.size.frameWidth ∧ l.upscaledWidth = uh.size.upscaledWidth ∧
    l.frameHeight = uh.size.frameHeight
  deblocking : d.lf = uh.loopFilter ∧ d.deltaLfMulti = uh.delta.deltaLfMulti
  cdefLuma : ∀ i : Nat, c.yPri[i]? = uh.cdef.yPri[i]?.map Int.ofNat ∧ c.ySec[i]? = uh.cdef.ySec[i]?.map Int.ofNat
  cdefChroma : ∀ i : Nat, c.uvPri[i]? = uh.cdef.uvPri[i]?.map Int.ofNat ∧ c.uvSec[i]? = uh.cdef.uvSec[i]?.map Int.ofNat
  damping : c.damping = uh.cdef.damping
  restoration : l.usesLr = uh.lr.usesLr ∧ (∀ p : Nat, l.frameType[p]? = uh.lr.types[p]?.map Int.ofNat) ∧ l.unitSize = fs.loopRestorationSize

end Spec

/-- Every tile of a group is decoded by headers that mean what was coded, starting with the quantizer index `base_q_idx`. -/
theorem C192_blocks {grow : Nat → Nat} {fuel : Nat} {sh : SeqHeader} {uh : UHeader} {r : DecR} {run : TileRun} {x y : TileSt × List Ev} {st st' : Sym} {b b' : BitStream}
    (h : groupTile grow fuel sh uh r run x st b = .ok ((st', y), b')) :
    ∃ (k : Fin 4) (hd : FrHdr) (lr : LrHdr) (x0 : TileSt × List Ev), r.fs.coeffCdfs.map (fun n => n % 4) = some k.val ∧ Spec.BlockView sh uh r.fs run hd ∧
      x0.1.blk.info.base.curQ = uh.quant.baseQIdx ∧ x0.1.cdfs = x.1.cdfs ∧ x0.2 = x.2 ∧
      realTile grow k uh.disableCdfUpdate fuel hd lr run x0 st b = .ok ((st', y), b') := by
  unfold groupTile at h
  cases hk : cdfClass r.fs with
  | none => rw [hk] at h; cases h
  | some k =>
    rw [hk] at h
    dsimp only at h
    refine ⟨k, frHdrOf sh uh r.fs r.slots run, lrHdrOf sh uh r.fs, setCurQ uh.quant.baseQIdx x, ?_, ?_, rfl, rfl, rfl, h⟩
    · unfold cdfClass at hk
      cases hc : r.fs.coeffCdfs with
      | none => rw [hc] at hk; cases hk
      | some n => rw [hc] at hk; cases hk; rfl
    · constructor
      · exact Iff.rfl
      · show decide _ = false ↔ _
        rw [decide_eq_false_iff_not]; omega
      · exact ⟨rfl, rfl⟩
      · rfl
      · exact ⟨rfl, rfl, rfl, rfl, rfl, rfl, rfl⟩
      · rfl
      · exact ⟨rfl, rfl, rfl, rfl⟩
      · exact ⟨rfl, rfl, rfl, rfl⟩
      · exact beq_iff_eq
      · rfl
      · exact ⟨rfl, rfl⟩
      · rfl
      · exact bne_iff_ne
      · exact ⟨rfl, rfl, rfl, rfl, bne_iff_ne, beq_iff_eq⟩
      · exact ⟨rfl, rfl, rfl, rfl⟩
      · rfl
      · rfl
      · intro p hp
        show (List.replicate 3 _)[p]? = _
        rw [List.getElem?_replicate, if_pos hp]
      · exact ⟨rfl, rfl⟩
      · exact ⟨rfl, rfl, bne_iff_ne⟩
      · exact ⟨rfl, bne_iff_ne⟩
      · exact ⟨rfl, rfl⟩
      · exact ⟨rfl, rfl, rfl, rfl⟩
      · exact ⟨rfl, rfl⟩
      · exact ⟨rfl, rfl, rfl, fun i => List.getElem?_map⟩

/-- The end of a frame: deblocking if a luma level is not 0 (otherwise the picture stays as it was decoded), CDEF on the deblocked picture, then restoration and the references,
each by headers that mean what was coded. -/
theorem C192_filters {sh : SeqHeader} {uh : UHeader} {fs : FrameState} {slots : List RefSlot} {cdef : Planes} {x : TileSt} {out : Planes} {opIdc : Nat}
    {cur cdef' : Planes} {m : RefMem Unit} {out' : Planes} (h : wrapup opIdc sh uh fs slots cdef x out = .ok (cur, cdef', m, out')) :
    ∃ (d : LfCtx) (c : CdefCtx) (l : LrCtx) (lr : Planes) (i : FrameEndIn), Spec.FilterView sh uh fs d c l ∧
      ((uh.loopFilter.level[0]? = some 0 ∧ uh.loopFilter.level[1]? = some 0) → cur = x.blk.tb.frames) ∧
      (¬ (uh.loopFilter.level[0]? = some 0 ∧ uh.loopFilter.level[1]? = some 0) → loopFilter d x.blk.tb.frames = .ok cur) ∧
      c.cur = cur ∧ cdefProcess c cdef = .ok cdef' ∧ i.curFrame = cur ∧ i.cdefFrame = cdef' ∧ restored l i = .ok lr ∧
      (i.prevSegIds = if uh.seg.enabled = true ∧ uh.seg.updateMap = 0 then some fs.prevSegmentIds else none) ∧
      (uh.showFrame = false → out' = out) := by
  unfold wrapup at h
  obtain ⟨cur1, h1, h⟩ := Res.inv h
  obtain ⟨cd, h2, h⟩ := Res.inv h
  obtain ⟨z, h3, h⟩ := Res.inv h
  cases h
  unfold frameEnd at h3
  obtain ⟨lr, e1, h3⟩ := Res.inv h3
  obtain ⟨seg, e2, h3⟩ := Res.inv h3
  obtain ⟨m', e3, h3⟩ := Res.inv h3
  refine ⟨lfCtxOf sh uh fs x.blk, _, _, lr, _, ?_, ?_, ?_, rfl, h2, rfl, rfl, e1, ?_, ?_⟩
  · constructor
    · exact ⟨rfl, rfl, rfl⟩
    · exact ⟨rfl, rfl, rfl⟩
    · show (goInt _, goInt _, goInt _) = _
      cases sh.colorConfig.subsamplingX <;> rfl
    · show (goInt _, goInt _, goInt _) = _
      cases sh.colorConfig.subsamplingY <;> rfl
    · exact ⟨⟨rfl, rfl, rfl⟩, rfl, rfl, rfl⟩
    · exact ⟨rfl, rfl, rfl, rfl, rfl⟩
    · exact ⟨rfl, rfl⟩
    · exact fun i => ⟨List.getElem?_map, List.getElem?_map⟩
    · exact fun i => ⟨List.getElem?_map, List.getElem?_map⟩
    · rfl
    · exact ⟨rfl, fun p => List.getElem?_map, rfl⟩
  · rintro ⟨a, b⟩
    unfold deblock at h1
    obtain ⟨l0, q0, h1⟩ := Res.inv h1
    obtain ⟨l1, q1, h1⟩ := Res.inv h1
    have q0 := (goGet_inv q0).2
    have q1 := (goGet_inv q1).2
    rw [show ((0 : Int).toNat) = 0 from rfl, a] at q0
    rw [show ((1 : Int).toNat) = 1 from rfl, b] at q1
    cases q0; cases q1
    rw [if_neg (by simp)] at h1
    cases h1; rfl
  · intro hn
    unfold deblock at h1
    obtain ⟨l0, q0, h1⟩ := Res.inv h1
    obtain ⟨l1, q1, h1⟩ := Res.inv h1
    have q0 := (goGet_inv q0).2
    have q1 := (goGet_inv q1).2
    rw [show ((0 : Int).toNat) = 0 from rfl] at q0
    rw [show ((1 : Int).toNat) = 1 from rfl] at q1
    rw [q0, q1] at hn
    rw [if_pos] at h1
    · exact h1
    · by_contra hc
      refine hn ⟨?_, ?_⟩ <;> congr 1 <;> omega
  · show keptIds uh fs = _
    unfold keptIds
    cases uh.seg.enabled with
    | false => rw [if_neg (by simp), if_neg (by simp)]
    | true => by_cases hu : uh.seg.updateMap = 0
              · rw [if_pos (by simp [hu]), if_pos ⟨rfl, hu⟩]
              · rw [if_neg (by simp [hu]), if_neg (fun h => hu h.2)]
  · intro hs
    dsimp only at h3
    rw [if_neg (by rw [hs]; decide)] at h3
    cases h3; rfl

/-- Non-vacuity: the stream of `demo_describes` has such a tile and such a frame end. -/
example : ∃ (sh : SeqHeader) (uh : UHeader) (fs : FrameState) (slots : List RefSlot) (cdef : Planes) (x : TileSt) (opIdc : Nat) (y : Planes × Planes × RefMem Unit × Planes),
    wrapup opIdc sh uh fs slots cdef x (zeroPlanes 3 1 1) = .ok y ∧ at3 x.blk.tb.frames 0 0 5 = some 75 := by
  obtain ⟨data, o1, o2, o3, blk, p, hd, -, -, h3, -, h5, -, ⟨run, t1, t2⟩, -⟩ := stream_of_describes demo_describes
  simp only [Bool.and_eq_true, beq_iff_eq] at h5
  obtain ⟨-, r, idc, k, msg, b, l, p, y, -, -, -, -, hw, hdec, -⟩ := C185_sound _ _ _ _ hd o3 (by simp) run t1 t2
  exact ⟨_, _, _, _, _, _, _, y, hw, by rw [← hdec, h3]; exact h5.1.1.1.2⟩

end Gov1
