import Verif.Spec.Headers
import Verif.Spec.Math
import Verif.Model.UncompressedHeader
/-!
# Reference encoders and range conditions for the parts of the frame header

Written from the syntax tables of the AV1 specification (5.9.5 - 5.9.30); they share only the record
types with the model.
-/
namespace Gov1.Spec

/-! ## Frame size (5.9.5 - 5.9.9) -/

/-- 5.9.8 `superres_params`: `none` = not used, `some d` = denominator `d` in 9..16. -/
def encSuperRes (enabled : Bool) : Option Nat → List Bool
  | none => if enabled then bit false else []
  | some d => bit true ++ encF 3 (d - 9)

/-- 5.9.5 `frame_size` with an explicit size. -/
def encFrameSize (sh : SeqHeader) (override : Bool) (w h : Nat) (sr : Option Nat) : List Bool :=
  (if override then encF (sh.frameWidthBitsMinusOne + 1) (w - 1) ++
    encF (sh.frameHeightBitsMinusOne + 1) (h - 1) else []) ++ encSuperRes sh.enableSuperRes sr

/-- `fw` is `w * 8 / d` rounded to the nearest integer, halves up. -/
def Downscaled (w d fw : Nat) : Prop := d * (2 * fw) ≤ 16 * w + d ∧ 16 * w + d < d * (2 * fw + 2)

/-- `mi` is the least even number of units of 4 samples covering `n` samples. -/
def EvenUnits (n mi : Nat) : Prop := mi % 2 = 0 ∧ n ≤ 4 * mi ∧ 4 * mi < n + 8

/-- What a frame size must look like. -/
structure SizeOk (fs : FrameSize) : Prop where
  denom : if fs.useSuperRes then 9 ≤ fs.superResDenom ∧ fs.superResDenom ≤ 16 else fs.superResDenom = 8
  down : Downscaled fs.upscaledWidth fs.superResDenom fs.frameWidth
  pos : 1 ≤ fs.frameWidth ∧ 1 ≤ fs.frameHeight
  le : fs.frameWidth ≤ fs.upscaledWidth
  unscaled : fs.useSuperRes = false → fs.frameWidth = fs.upscaledWidth
  cols : EvenUnits fs.frameWidth fs.miCols
  rows : EvenUnits fs.frameHeight fs.miRows

/-! ## Quantization and segmentation (5.9.12 - 5.9.14) -/

/-- 5.9.13 `read_delta_q`. -/
def encDeltaQ (v : Int) : List Bool := if v = 0 then bit false else bit true ++ encSu 7 v

/-- 5.9.12 `quantization_params`. -/
def encQuant (cc : ColorConfig) (q : QuantParams) : List Bool :=
  encF 8 q.baseQIdx ++ encDeltaQ q.deltaQYDc ++
  (if 1 < cc.numPlanes then
    (if cc.separateUvDeltaQ then bit (q.deltaQVDc != q.deltaQUDc || q.deltaQVAc != q.deltaQUAc) else []) ++
    encDeltaQ q.deltaQUDc ++ encDeltaQ q.deltaQUAc ++
    (if cc.separateUvDeltaQ ∧ (q.deltaQVDc ≠ q.deltaQUDc ∨ q.deltaQVAc ≠ q.deltaQUAc) then
      encDeltaQ q.deltaQVDc ++ encDeltaQ q.deltaQVAc else []) else []) ++
  bit q.usingQMatrix ++
  (if q.usingQMatrix then encF 4 q.qmy ++ encF 4 q.qmu ++
    (if cc.separateUvDeltaQ then encF 4 q.qmv else []) else [])

/-- A 7-bit signed value. -/
def Signed7 (v : Int) : Prop := -64 ≤ v ∧ v < 64

/-- Field widths and implied values of the quantization parameters. -/
structure ValidQuant (cc : ColorConfig) (q : QuantParams) : Prop where
  base : q.baseQIdx < 256
  deltas : Signed7 q.deltaQYDc ∧ Signed7 q.deltaQUDc ∧ Signed7 q.deltaQUAc ∧ Signed7 q.deltaQVDc ∧
    Signed7 q.deltaQVAc
  mono : cc.numPlanes ≤ 1 → q.deltaQUDc = 0 ∧ q.deltaQUAc = 0 ∧ q.deltaQVDc = 0 ∧ q.deltaQVAc = 0
  joint : cc.separateUvDeltaQ = false → q.deltaQVDc = q.deltaQUDc ∧ q.deltaQVAc = q.deltaQUAc ∧ q.qmv = q.qmu
  qm : q.qmy < 16 ∧ q.qmu < 16 ∧ q.qmv < 16
  noQm : q.usingQMatrix = false → q.qmy = 0 ∧ q.qmu = 0 ∧ q.qmv = 0

/-- Number of value bits, signedness and limit of the segmentation features (AV1 3 and 5.9.14):
quantizer; four loop filter levels; reference frame; skip; global motion. -/
def featureBits (j : Nat) : Nat := if j = 0 then 8 else if j ≤ 4 then 6 else if j = 5 then 3 else 0
/-- The quantizer and loop filter features are signed. -/
def featureSigned (j : Nat) : Bool := j ≤ 4
/-- The largest magnitude of a feature. -/
def featureLimit (j : Nat) : Int := if j = 0 then 255 else if j ≤ 4 then 63 else if j = 5 then 7 else 0

/-- One enabled feature value is legal. -/
def FeatureOk (j : Nat) (v : Int) : Prop :=
  (if featureSigned j then -featureLimit j else 0) ≤ v ∧ v ≤ featureLimit j

/-- The feature tables of the 8 segments are consistent. -/
structure FeaturesOk (fe : List (List Nat)) (fd : List (List Int)) : Prop where
  dims : fe.length = 8 ∧ fd.length = 8 ∧ (∀ r ∈ fe, r.length = 8) ∧ ∀ r ∈ fd, r.length = 8
  flags : ∀ i j, (fe.getD i []).getD j 0 ≤ 1
  disabled : ∀ i j, (fe.getD i []).getD j 0 = 0 → (fd.getD i []).getD j 0 = 0
  range : ∀ i j, i < 8 → j < 8 → FeatureOk j ((fd.getD i []).getD j 0)

/-- Feature `j` of segment `i` is enabled. -/
def Enabled (fe : List (List Nat)) (i j : Nat) : Prop := i < 8 ∧ j < 8 ∧ (fe.getD i []).getD j 0 = 1

/-- 5.9.14: one feature. -/
def encFeature (j : Nat) (p : Nat × Int) : List Bool :=
  if p.1 = 0 then bit false
  else bit true ++ (if featureSigned j then encSu (1 + featureBits j) p.2
    else encF (featureBits j) p.2.toNat)

/-! ## Loop filter, CDEF, loop restoration (5.9.11, 5.9.19, 5.9.20) -/

/-- One loop filter delta: `none` = not updated. -/
def encLfDelta : Option Int → List Bool
  | none => bit false
  | some v => bit true ++ encSu 7 v

/-- 5.9.11 `loop_filter_params` of a frame that is filtered, with the number of bits `w` of the
sharpness field (3 in AV1). -/
def encLoopFilter (w numPlanes : Nat) (l0 l1 l2 l3 sharp : Nat) (enabled : Bool)
    (upd : Option (List (Option Int) × List (Option Int))) : List Bool :=
  encF 6 l0 ++ encF 6 l1 ++
  (if 1 < numPlanes ∧ (l0 ≠ 0 ∨ l1 ≠ 0) then encF 6 l2 ++ encF 6 l3 else []) ++
  encF w sharp ++ bit enabled ++
  (if enabled then match upd with
    | none => bit false
    | some (rd, md) => bit true ++ rd.flatMap encLfDelta ++ md.flatMap encLfDelta
   else [])

/-- Code of a secondary CDEF strength: 0, 1, 2 or 4. -/
def encCdefSec (s : Nat) : List Bool := encF 2 (if s = 4 then 3 else s)

/-- One set of CDEF strengths `(yPri, ySec, uvPri, uvSec)`. -/
def encCdefStrength (numPlanes : Nat) (p : Nat × Nat × Nat × Nat) : List Bool :=
  encF 4 p.1 ++ encCdefSec p.2.1 ++
  (if 1 < numPlanes then encF 4 p.2.2.1 ++ encCdefSec p.2.2.2 else [])

/-- The legal strengths. -/
def CdefStrengthOk (numPlanes : Nat) (p : Nat × Nat × Nat × Nat) : Prop :=
  p.1 < 16 ∧ p.2.1 ∈ [0, 1, 2, 4] ∧ p.2.2.1 < 16 ∧ p.2.2.2 ∈ [0, 1, 2, 4] ∧
  (numPlanes ≤ 1 → p.2.2.1 = 0 ∧ p.2.2.2 = 0)

/-- 5.9.19 `cdef_params`. -/
def encCdef (numPlanes damping bits : Nat) (l : List (Nat × Nat × Nat × Nat)) : List Bool :=
  encF 2 (damping - 3) ++ encF 2 bits ++ l.flatMap (encCdefStrength numPlanes)

/-- 5.9.20: code of a restoration type (0 none, 1 Wiener, 2 self-guided, 3 switchable). -/
def encLrType (t : Nat) : List Bool := encF 2 (if t = 0 then 0 else if t = 3 then 1 else t + 1)

/-- 5.9.20: code of the luma unit size 64, 128 or 256 (64 only without 128x128 superblocks). -/
def encLrSize (use128 : Bool) (size : Nat) : List Bool :=
  if use128 then bit (size == 256)
  else if size = 64 then bit false else bit true ++ bit (size == 256)

/-- 5.9.20 `lr_params` of a frame that may be restored: types per plane, luma unit size and whether
the chroma units are half as large. -/
def encLr (sh : SeqHeader) (types : List Nat) (size : Nat) (halfChroma : Bool) : List Bool :=
  types.flatMap encLrType ++
  (if ∃ t ∈ types, t ≠ 0 then encLrSize sh.use128x128SuperBlock size ++
    (if sh.colorConfig.subsamplingX ∧ sh.colorConfig.subsamplingY ∧ ∃ t ∈ types.drop 1, t ≠ 0 then
      bit halfChroma else []) else [])

/-! ## Sub-exponential codes (5.9.26 - 5.9.29) -/

/-- log2 of the size of bucket `i`: 8, 8, 16, 32, … values. -/
def bucketBits (i : Nat) : Nat := if i = 0 then 3 else 2 + i

/-- Reference encoder matching 5.9.28 `decode_subexp`, from bucket `i` starting at `mk`: buckets of
8, 8, 16, 32, … values, each introduced by a continuation bit, until at most three bucket sizes are
left, which are coded by `ns`. -/
def encSubexpFrom (n i mk v : Nat) : List Bool :=
  if n ≤ mk + 3 * 2 ^ bucketBits i then encNs (n - mk) (v - mk)
  else if mk + 2 ^ bucketBits i ≤ v then
    bit true ++ encSubexpFrom n (i + 1) (mk + 2 ^ bucketBits i) v
  else bit false ++ encF (bucketBits i) (v - mk)
termination_by n - mk
decreasing_by have := Nat.two_pow_pos (bucketBits i); omega

/-- Code of `v` among `n` values. -/
def encSubexp (n v : Nat) : List Bool := encSubexpFrom n 0 0 v

/-- Code of `v` among `n` values relative to a prediction `r` (5.9.27, inverse): the recentred value,
mirrored when the prediction is in the upper half. -/
def encSubexpRef (n r v : Nat) : List Bool :=
  if 2 * r ≤ n then encSubexp n (recenter r v).toNat
  else encSubexp n (recenter (n - 1 - r : Int) (n - 1 - v : Int)).toNat

/-! ## Order hints and skip mode (5.9.3, 5.9.22) -/

/-- `d` is the signed distance from `b` to `a` of order hints coded on `bits` bits: congruent to
`a - b` and in the window of half the range. -/
def IsRelDist (bits : Nat) (a b d : Int) : Prop :=
  (2 ^ bits : Int) ∣ d - (a - b) ∧ -(2 ^ (bits - 1)) ≤ d ∧ d < 2 ^ (bits - 1)

/-- Hint `a` is before hint `b`. -/
def Before (bits : Nat) (a b : Int) : Prop := ∃ d, IsRelDist bits a b d ∧ d < 0

/-- 5.9.22: skip mode may be used: an inter frame with reference select and order hints, with a
reference before it and one after it, or with two references before it of which one precedes the other. -/
def SkipAllowed (orderHints intra refSelect : Bool) (bits : Nat) (cur : Int) (refs : List Int) : Prop :=
  orderHints = true ∧ intra = false ∧ refSelect = true ∧
  ∃ f ∈ refs, Before bits f cur ∧ ((∃ b ∈ refs, Before bits cur b) ∨
    ∃ f2 ∈ refs, (∀ g ∈ refs, Before bits g cur → ¬ Before bits f g) ∧ Before bits f2 f)

/-! ## Film grain (5.9.30) -/

/-- A counted list of points. -/
def encPoints (l : List (Nat × Nat)) : List Bool :=
  encF 4 l.length ++ l.flatMap fun p => encF 8 p.1 ++ encF 8 p.2

/-- Whether chroma points are coded. -/
def chromaCoded (cc : ColorConfig) (g : FilmGrain) : Bool :=
  !(cc.monoChrome || g.chromaScalingFromLuma || (cc.subsamplingX && cc.subsamplingY && g.pointY.isEmpty))

/-- 5.9.30 `film_grain_params` with `apply_grain = 1` and (where it is coded) `update_grain = 1`. -/
def encGrain (cc : ColorConfig) (frameType : Nat) (g : FilmGrain) : List Bool :=
  bit true ++ encF 16 g.grainSeed ++ (if frameType = 1 then bit true else []) ++
  encPoints g.pointY ++
  (if cc.monoChrome then [] else bit g.chromaScalingFromLuma) ++
  (if chromaCoded cc g then encPoints g.pointCb ++ encPoints g.pointCr else []) ++
  encF 2 g.grainScalingMinus8 ++ encF 2 g.arCoeffLag ++
  g.arCoeffsY.flatMap (encF 8) ++ g.arCoeffsCb.flatMap (encF 8) ++ g.arCoeffsCr.flatMap (encF 8) ++
  encF 2 g.arCoeffShiftMinus6 ++ encF 2 g.grainScaleShift ++
  (if g.pointCb.isEmpty then [] else encF 8 g.cb.1 ++ encF 8 g.cb.2.1 ++ encF 9 g.cb.2.2) ++
  (if g.pointCr.isEmpty then [] else encF 8 g.cr.1 ++ encF 8 g.cr.2.1 ++ encF 9 g.cr.2.2) ++
  bit g.overlapFlag ++ bit g.clipToRestrictedRange

/-- Number of auto-regression coefficients of luma for a lag. -/
def numPosLuma (lag : Nat) : Nat := 2 * lag * (lag + 1)

/-- At most 15 points of 8-bit pairs. -/
def PointsOk (l : List (Nat × Nat)) : Prop := l.length ≤ 15 ∧ ∀ p ∈ l, p.1 < 256 ∧ p.2 < 256

/-- Film grain parameters that can be coded. -/
structure ValidGrain (cc : ColorConfig) (g : FilmGrain) : Prop where
  apply : g.applyGrain = true
  seed : g.grainSeed < 65536
  py : PointsOk g.pointY
  pcb : PointsOk g.pointCb
  pcr : PointsOk g.pointCr
  mono : cc.monoChrome = true → g.chromaScalingFromLuma = false
  chroma : chromaCoded cc g = false → g.pointCb = [] ∧ g.pointCr = []
  small : g.grainScalingMinus8 < 4 ∧ g.arCoeffLag < 4 ∧ g.arCoeffShiftMinus6 < 4 ∧ g.grainScaleShift < 4
  ay : g.arCoeffsY.length = (if g.pointY.isEmpty then 0 else numPosLuma g.arCoeffLag)
  acb : g.arCoeffsCb.length = (if g.chromaScalingFromLuma ∨ g.pointCb ≠ [] then
    numPosLuma g.arCoeffLag + (if g.pointY.isEmpty then 0 else 1) else 0)
  acr : g.arCoeffsCr.length = (if g.chromaScalingFromLuma ∨ g.pointCr ≠ [] then
    numPosLuma g.arCoeffLag + (if g.pointY.isEmpty then 0 else 1) else 0)
  coeffs : (∀ c ∈ g.arCoeffsY, c < 256) ∧ (∀ c ∈ g.arCoeffsCb, c < 256) ∧ ∀ c ∈ g.arCoeffsCr, c < 256
  cb : g.cb.1 < 256 ∧ g.cb.2.1 < 256 ∧ g.cb.2.2 < 512 ∧ (g.pointCb = [] → g.cb = (0, 0, 0))
  cr : g.cr.1 < 256 ∧ g.cr.2.1 < 256 ∧ g.cr.2.2 < 512 ∧ (g.pointCr = [] → g.cr = (0, 0, 0))

/-! ## Global motion types (5.9.24) -/

/-- Code of a global motion type: 0 identity, 1 translation, 2 rotation and zoom, 3 affine. -/
def encGmType (t : Nat) : List Bool :=
  if t = 0 then bit false else if t = 2 then bit true ++ bit true
  else bit true ++ bit false ++ bit (t == 1)

end Gov1.Spec
