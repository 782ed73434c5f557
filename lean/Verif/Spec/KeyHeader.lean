import Verif.Spec.FrameHeader
import Verif.Spec.TileCoding
import Verif.Model.FrameHeader

/-!
# The header of a shown key frame or a hidden intra-only frame (AV1 5.9.2)

For frames of any size, in sequences without frame ids, in
which screen content tools are not forced off; with a decoder model there is one operating point.
-/

namespace Gov1.Spec

/-- What an encoder chooses for a key frame, or for an intra-only frame that is not shown. -/
structure KeyHeader where
  /-- `none`: a shown key frame; `some`: a hidden intra-only frame, with `showable_frame`, `error_resilient_mode`, `refresh_frame_flags` -/
  hidden : Option (Bool × Bool × Nat) := none
  /-- when the frame is shown, in sequences with a decoder model -/
  presentation : Nat := 0
  disableCdfUpdate : Bool := false
  screen : Bool := false
  intMv : Bool := false
  override : Bool := false
  width : Nat := 8
  height : Nat := 8
  /-- the denominator of the super resolution, if used -/
  superRes : Option Nat := none
  orderHint : Nat := 0
  /-- `buffer_removal_time_present_flag`; the operating points of the sequence have no decoder model, so no times follow -/
  removal : Bool := false
  /-- a render size that differs from the frame size -/
  render : Option (Nat × Nat) := none
  intraBc : Bool := false
  keepCdfs : Bool := false
  tiles : TileCoding := ⟨.uniform 0 0, 0, 4⟩
  quant : QuantParams := {}
  /-- the features of the 8 segments (flag and value), if segmentation is used -/
  seg : Option (List (List (Nat × Int))) := none
  /-- resolution of the quantizer deltas, if used -/
  deltaQ : Option Nat := none
  /-- resolution of the loop filter deltas, and whether there is one per plane and direction, if used -/
  deltaLf : Option (Nat × Bool) := none
  levels : Nat × Nat × Nat × Nat := (0, 0, 0, 0)
  sharpness : Nat := 0
  refDeltas : Bool := false
  damping : Nat := 3
  cdefBits : Nat := 0
  cdef : List (Nat × Nat × Nat × Nat) := [(0, 0, 0, 0)]
  lrTypes : List Nat := []
  lrSize : Nat := 64
  lrHalf : Bool := false
  txSelect : Bool := false
  reducedTx : Bool := false
  grain : Option FilmGrain := none

namespace KeyHeader

/-- 7.12.2 the quantizer index of a segment: its first feature, if enabled, changes the base index. -/
def segQ (k : KeyHeader) (i : Nat) : Int :=
  match k.seg with
  | none => k.quant.baseQIdx
  | some f => if ((f.getD i []).getD 0 (0, 0)).1 = 1 then max 0 (min 255 (k.quant.baseQIdx + ((f.getD i []).getD 0 (0, 0)).2)) else k.quant.baseQIdx

/-- A segment is coded without loss. -/
def SegLossless (k : KeyHeader) (i : Nat) : Prop :=
  k.segQ i = 0 ∧ k.quant.deltaQYDc = 0 ∧ k.quant.deltaQUDc = 0 ∧ k.quant.deltaQUAc = 0 ∧ k.quant.deltaQVDc = 0 ∧ k.quant.deltaQVAc = 0

instance (k : KeyHeader) (i : Nat) : Decidable (k.SegLossless i) := by unfold SegLossless; infer_instance

/-- Coded without loss. -/
def Lossless (k : KeyHeader) : Prop := ∀ i < 8, k.SegLossless i

instance (k : KeyHeader) : Decidable k.Lossless := by unfold Lossless; infer_instance

/-- 7.20 the coded width: 8 parts of the width for `superRes` parts, rounded. -/
def codedWidth (k : KeyHeader) : Nat := (k.width * 8 + k.superRes.getD 8 / 2) / k.superRes.getD 8

/-- Intra block copy is used: it needs the screen content tools and a picture that is not scaled. -/
def usesBc (k : KeyHeader) : Bool := (k.screen && decide (k.width = k.codedWidth)) && k.intraBc

/-- Reconstructed without loss: coded so, and not scaled. -/
def AllLossless (k : KeyHeader) : Prop := k.Lossless ∧ k.codedWidth = k.width

instance (k : KeyHeader) : Decidable k.AllLossless := by unfold AllLossless; infer_instance

/-- 5.9.31 `temporal_point_info`, for shown frames. -/
def encPresentation (sh : SeqHeader) (k : KeyHeader) : List Bool :=
  if sh.decoderModelInfoPresent ∧ sh.timingInfo.equalPictureInterval = false then
    encF (sh.decoderModelInfo.framePresentationTimeLengthMinusOne + 1) k.presentation else []

/-- `buffer_removal_time_present_flag`. -/
def encRemoval (sh : SeqHeader) (k : KeyHeader) : List Bool :=
  if sh.decoderModelInfoPresent then bit k.removal else []

/-- `show_existing_frame`, `frame_type`, `show_frame`, the presentation time and, if hidden, `showable_frame` and `error_resilient_mode`; not coded in reduced still pictures. -/
def encStart (sh : SeqHeader) (k : KeyHeader) : List Bool :=
  if sh.reducedStillPictureHeader then [] else
  bit false ++ (match k.hidden with | none => encF 2 0 ++ (bit true ++ encPresentation sh k) | some x => encF 2 2 ++ (bit false ++ (bit x.1 ++ bit x.2.1)))

/-- From `disable_cdf_update` to `order_hint`, and `refresh_frame_flags`. -/
def encIds (sh : SeqHeader) (k : KeyHeader) : List Bool :=
  bit k.disableCdfUpdate ++ (((if sh.seqForceScreenContentTools = 2 then bit k.screen else []) ++ if k.screen ∧ sh.seqForceIntegerMv = 2 then bit k.intMv else []) ++ ((if sh.reducedStillPictureHeader then [] else bit k.override) ++ (encF sh.orderHintBits k.orderHint ++ (encRemoval sh k ++ match k.hidden with | none => [] | some x => encF 8 x.2.2))))

/-- `frame_size`, `render_size` and `allow_intrabc`. -/
def encSize (sh : SeqHeader) (k : KeyHeader) : List Bool :=
  encFrameSize sh k.override k.width k.height k.superRes ++
  ((match k.render with | none => bit false | some r => bit true ++ (encF 16 (r.1 - 1) ++ encF 16 (r.2 - 1))) ++
   if k.screen && decide (k.width = k.codedWidth) then bit k.intraBc else [])

/-- `delta_q_params` and `delta_lf_params`. -/
def encDeltas (k : KeyHeader) : List Bool :=
  (if k.quant.baseQIdx = 0 then [] else match k.deltaQ with | none => bit false | some r => bit true ++ encF 2 r) ++
  (if k.deltaQ = none ∨ k.usesBc then [] else match k.deltaLf with | none => bit false | some r => bit true ++ (encF 2 r.1 ++ bit r.2))

/-- `segmentation_params` of a frame without primary reference. -/
def encSeg (k : KeyHeader) : List Bool :=
  match k.seg with
  | none => bit false
  | some f => bit true ++ f.flatMap fun row => ((List.range 8).zip row).flatMap fun p => encFeature p.1 p.2

/-- Units of 4 samples that `n` samples take, counted in pairs. -/
def units (n : Nat) : Nat := 2 * ((n + 7) / 8)

/-- `tile_info`, `quantization_params`, `segmentation_params` and the deltas. -/
def encQ (sh : SeqHeader) (k : KeyHeader) : List Bool :=
  k.tiles.enc (units k.codedWidth) (units k.height) ++ (encQuant sh.colorConfig k.quant ++ (encSeg k ++ encDeltas k))

/-- `loop_filter_params`, `cdef_params`, `lr_params`; `w` is the number of bits of the sharpness, 3 in AV1. -/
def encFilters (w : Nat) (sh : SeqHeader) (k : KeyHeader) : List Bool :=
  (if k.Lossless ∨ k.usesBc then [] else
   encLoopFilter w sh.colorConfig.numPlanes k.levels.1 k.levels.2.1 k.levels.2.2.1 k.levels.2.2.2 k.sharpness k.refDeltas none ++
   if sh.enableCdef then encCdef sh.colorConfig.numPlanes k.damping k.cdefBits k.cdef else []) ++
  if k.AllLossless ∨ k.usesBc ∨ sh.enableRestoration = false then [] else encLr sh k.lrTypes k.lrSize k.lrHalf

/-- The frame is shown, or can be later. -/
def visible (k : KeyHeader) : Bool := match k.hidden with | none => true | some x => x.1

/-- `tx_mode_select`, `reduced_tx_set` and `film_grain_params`. -/
def encTail (sh : SeqHeader) (k : KeyHeader) : List Bool :=
  (if k.Lossless then [] else bit k.txSelect) ++
  (bit k.reducedTx ++
   if sh.filmGrainParamsPresent ∧ k.visible then (match k.grain with | none => bit false | some g => encGrain sh.colorConfig 0 g) else [])

/-- 5.9.2 `uncompressed_header`.  (`Valid` excludes the order hints that error resilient intra-only frames code.) -/
def enc (w : Nat) (sh : SeqHeader) (k : KeyHeader) : List Bool :=
  encStart sh k ++ (encIds sh k ++ (encSize sh k ++ ((if sh.reducedStillPictureHeader ∨ k.disableCdfUpdate then [] else bit k.keepCdfs) ++ (encQ sh k ++ (encFilters w sh k ++ encTail sh k)))))

/-- The choices can be coded. -/
structure Valid (sh : SeqHeader) (k : KeyHeader) : Prop where
  size : 1 ≤ k.width ∧ 1 ≤ k.height
  superRes : ∀ d, k.superRes = some d → sh.enableSuperRes = true ∧ 9 ≤ d ∧ d ≤ 16
  tiles : k.tiles.Valid (units k.codedWidth) (units k.height)
  coded : if k.override then k.width ≤ 2 ^ (sh.frameWidthBitsMinusOne + 1) ∧ k.height ≤ 2 ^ (sh.frameHeightBitsMinusOne + 1)
    else k.width = sh.maxFrameWidthMinusOne + 1 ∧ k.height = sh.maxFrameHeightMinusOne + 1
  flags : ∀ x, k.hidden = some x → x.2.2 < 256 ∧ (x.2.1 = true → sh.enableOrderHint = false) ∧ sh.reducedStillPictureHeader = false
  still : sh.reducedStillPictureHeader = true → k.override = false
  screen : sh.seqForceScreenContentTools ≠ 2 → k.screen = true
  presentation : if sh.decoderModelInfoPresent ∧ sh.timingInfo.equalPictureInterval = false ∧ k.hidden = none ∧ sh.reducedStillPictureHeader = false then
    k.presentation < 2 ^ (sh.decoderModelInfo.framePresentationTimeLengthMinusOne + 1) else k.presentation = 0
  removal : k.removal = true → sh.decoderModelInfoPresent = true
  hint : k.orderHint < 2 ^ sh.orderHintBits
  render : ∀ r, k.render = some r → (1 ≤ r.1 ∧ r.1 ≤ 65536) ∧ 1 ≤ r.2 ∧ r.2 ≤ 65536
  quant : ValidQuant sh.colorConfig k.quant
  seg : ∀ f, k.seg = some f → f.length = 8 ∧ ∀ row ∈ f, row.length = 8 ∧
    ∀ j p, row[j]? = some p → p.1 ≤ 1 ∧ (p.1 = 0 → p.2 = 0) ∧ FeatureOk j p.2
  deltaQ : ∀ r, k.deltaQ = some r → r < 4 ∧ k.quant.baseQIdx ≠ 0
  deltaLf : ∀ r, k.deltaLf = some r → r.1 < 4 ∧ k.deltaQ ≠ none ∧ k.usesBc = false
  levels : k.levels.1 < 64 ∧ k.levels.2.1 < 64 ∧ k.levels.2.2.1 < 64 ∧ k.levels.2.2.2 < 64
  sharp : k.sharpness < 8
  cdef : (3 ≤ k.damping ∧ k.damping ≤ 6) ∧ k.cdefBits < 4 ∧ k.cdef.length = 2 ^ k.cdefBits ∧ ∀ p ∈ k.cdef, CdefStrengthOk sh.colorConfig.numPlanes p
  lr : k.lrTypes.length = sh.colorConfig.numPlanes ∧ (∀ t ∈ k.lrTypes, t ≤ 3) ∧ (k.lrSize = 64 ∨ k.lrSize = 128 ∨ k.lrSize = 256)
  grain : ∀ g, k.grain = some g → ValidGrain sh.colorConfig g ∧ sh.filmGrainParamsPresent = true ∧ k.visible = true

/-- Loop restoration may be coded. -/
def Restored (k : KeyHeader) : Prop := ¬ k.AllLossless ∧ k.usesBc = false

instance (k : KeyHeader) : Decidable k.Restored := by unfold Restored; infer_instance

/-- The loop filter and CDEF may be coded. -/
def Filtered (k : KeyHeader) : Prop := ¬ k.Lossless ∧ k.usesBc = false

instance (k : KeyHeader) : Decidable k.Filtered := by unfold Filtered; infer_instance

/-- What a decoder of this header must report.  Not stated: the render height when no render size is coded (C64), and the loop
filter levels when no filters are coded (C67). -/
structure Decoded (sh : SeqHeader) (k : KeyHeader) (u : UHeader) (st : FrameState) : Prop where
  frame : u.showExistingFrame = false ∧ u.frameType = (if k.hidden.isSome then 2 else 0) ∧ u.frameIsIntra = true ∧
    u.showFrame = !k.hidden.isSome ∧ u.showableFrame = (k.hidden.getD (false, false, 255)).1 ∧
    u.framePresentationTime = k.presentation
  ids : u.disableCdfUpdate = k.disableCdfUpdate ∧ u.allowScreenContentTools = k.screen.toNat ∧ u.frameSizeOverrideFlag = k.override ∧
    u.orderHint = k.orderHint ∧ u.primaryRefFrame = 7 ∧ u.refreshFrameFlags = (k.hidden.getD (false, false, 255)).2.2
  size : u.size.useSuperRes = k.superRes.isSome ∧ u.size.superResDenom = k.superRes.getD 8 ∧ u.size.upscaledWidth = k.width ∧
    u.size.frameWidth = k.codedWidth ∧ u.size.frameHeight = k.height ∧ EvenUnits k.codedWidth u.size.miCols ∧ EvenUnits k.height u.size.miRows ∧ st.miCols = u.size.miCols ∧ st.miRows = u.size.miRows
  render : match k.render with | none => u.renderWidth = k.width | some r => (u.renderWidth, u.renderHeight) = r
  copy : u.allowIntraBc = k.usesBc
  cdfs : u.disableFrameEndUpdateCdf = (sh.reducedStillPictureHeader || k.disableCdfUpdate || k.keepCdfs)
  tiles : (st.tiles.tileCols, st.tiles.tileRows) = k.tiles.layout.counts (superblocks (units k.codedWidth)) (superblocks (units k.height)) ∧
    st.tiles.miColStarts.take (st.tiles.tileCols + 1) = k.tiles.colEdges (units k.codedWidth) ∧
    st.tiles.miRowStarts.take (st.tiles.tileRows + 1) = k.tiles.rowEdges (units k.height) ∧
    (st.tiles.tileColsLog2, st.tiles.tileRowsLog2) = k.tiles.layout.logs ∧ st.tiles.contextUpdateTileId = k.tiles.contextTile ∧
    (k.tiles.layout.logs ≠ (0, 0) → st.tiles.tileSizeBytes = k.tiles.sizeBytes)
  quant : u.quant = k.quant
  seg : match k.seg with
    | none => u.seg.enabled = false
    | some f => u.seg.enabled = true ∧ u.seg.updateMap = 1 ∧ u.seg.temporalUpdate = 0 ∧ u.seg.updateData = 1 ∧
      u.seg.featureEnabled = f.map (·.map Prod.fst) ∧ u.seg.featureData = f.map (·.map Prod.snd) ∧
      (u.seg.idPreSkip = 1 ↔ ∃ i j, 5 ≤ j ∧ Enabled u.seg.featureEnabled i j) ∧
      ((∃ i j, Enabled u.seg.featureEnabled i j) → (∃ j, Enabled u.seg.featureEnabled u.seg.lastActiveSegId j) ∧
        ∀ i j, Enabled u.seg.featureEnabled i j → i ≤ u.seg.lastActiveSegId)
  delta : u.delta = ⟨k.deltaQ.isSome, k.deltaQ.getD 0, k.deltaLf.isSome, (k.deltaLf.getD (0, false)).1, (k.deltaLf.getD (0, false)).2.toNat⟩
  lossless : (u.codedLossless = true ↔ k.Lossless) ∧ (u.allLossless = true ↔ k.AllLossless) ∧ u.losslessArray = (List.range 8).map fun i => decide (k.SegLossless i)
  filter : k.Filtered → u.loopFilter.level = (if 1 < sh.colorConfig.numPlanes ∧ (k.levels.1 ≠ 0 ∨ k.levels.2.1 ≠ 0)
      then [k.levels.1, k.levels.2.1, k.levels.2.2.1, k.levels.2.2.2] else [k.levels.1, k.levels.2.1, 0, 0]) ∧
    u.loopFilter.sharpness = k.sharpness ∧ u.loopFilter.deltaEnabled = k.refDeltas
  refDeltas : u.loopFilter.refDeltas = [1, 0, 0, 0, -1, 0, -1, -1] ∧ u.loopFilter.modeDeltas = [0, 0]
  cdef : u.cdef = if k.Filtered ∧ sh.enableCdef then
      ⟨k.cdefBits, k.damping, k.cdef.map (·.1), k.cdef.map (·.2.1), k.cdef.map (·.2.2.1), k.cdef.map (·.2.2.2)⟩ else ⟨0, 3, [0], [0], [0], [0]⟩
  lr : u.lr.types = if k.Restored ∧ sh.enableRestoration then k.lrTypes ++ List.replicate (3 - k.lrTypes.length) 0 else [0, 0, 0]
  lrUsed : u.lr.usesLr = true ↔ (k.Restored ∧ sh.enableRestoration) ∧ ∃ t ∈ k.lrTypes, t ≠ 0
  lrSize : (k.Restored ∧ sh.enableRestoration) → (∃ t ∈ k.lrTypes, t ≠ 0) → ∃ c, st.loopRestorationSize = [k.lrSize, c, c] ∧
    (if sh.colorConfig.subsamplingX = true ∧ sh.colorConfig.subsamplingY = true ∧ ∃ t ∈ k.lrTypes.drop 1, t ≠ 0
     then k.lrSize = (if k.lrHalf then 2 * c else c) else c = k.lrSize)
  tx : u.txMode = if k.Lossless then 0 else if k.txSelect then 2 else 1
  reduced : u.reducedTxSet = k.reducedTx
  motion : u.referenceSelect = false ∧ u.skipModePresent = 0 ∧ u.allowWarpedMotion = false
  grain : u.filmGrain = k.grain.getD {}

end KeyHeader

/-- The sequences considered. -/
structure PlainSeq (sh : SeqHeader) : Prop where
  ids : sh.frameIdNumbersPresent = false
  tools : sh.seqForceScreenContentTools = 1 ∨ sh.seqForceScreenContentTools = 2
  sb : sh.use128x128SuperBlock = false
  /-- One operating point, without a decoder model: the only sequence headers the code accepts (C25). -/
  ops : sh.operatingPointsCountMinusOne = 0 ∧ sh.decoderModelPresentForThisOp = [false]

end Gov1.Spec
