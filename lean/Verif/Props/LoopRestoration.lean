import Verif.Model.LoopRestoration
import Verif.Props.Upscale
/-!
# C113: loop restoration

The frame is processed in blocks of 4x4 luma pixels; each block belongs to a stripe of 64 luma rows (offset by 8) and reads
at most two rows beyond it, taken from before CDEF.  Geometry and source samples are as in AV1; neither of the two filters
ever returns for a frame wider or higher than one pixel.
-/
namespace Gov1

/-! ## Geometry -/

/-- **C113 (stripes).**  The rows of a block lie in its stripe, and the stripe is the band of 64 luma rows that begins 8 rows
above a multiple of 64 (in the rows of the plane). -/
theorem C113_stripe_partial (c : WrapCtx) (hs : c.subY ≤ 1) (plane row col k : Nat) (hk : (k : Int) < (lrBlock c plane row col).h) :
    (lrBlock c plane row col).stripeStart ≤ (lrBlock c plane row col).y + k ∧
    ((lrBlock c plane row col).y : Int) + k ≤ (lrBlock c plane row col).stripeEnd ∧
    ∃ n : Nat, (lrBlock c plane row col).stripeStart = (64 * (n : Int) - 8) / 2 ^ (if plane = 0 then 0 else c.subY) ∧
      (lrBlock c plane row col).stripeEnd = (64 * (n : Int) + 56) / 2 ^ (if plane = 0 then 0 else c.subY) - 1 := by
  unfold lrBlock at hk ⊢
  dsimp only at hk ⊢
  generalize hS : (if plane = 0 then 0 else c.subY) = s at hk ⊢
  have hs1 : s = 0 ∨ s = 1 := by split at hS <;> omega
  rw [Int.shiftRight_eq_div_pow]
  rcases hs1 with rfl | rfl
  · simp only [Nat.shiftRight_zero] at hk ⊢
    refine ⟨?_, ?_, (row * 4 + 8) / 64, ?_, ?_⟩ <;> simp only [pow_zero, Nat.cast_one, Int.ediv_one] <;> omega
  · have e1 : (4 >>> 1 : Nat) = 2 := rfl
    have e2 : (64 >>> 1 : Nat) = 32 := rfl
    have e3 : (row * 4) >>> 1 = row * 2 := by rw [Nat.shiftRight_eq_div_pow]; omega
    rw [e1, e3] at hk
    rw [e2, e3]
    refine ⟨?_, ?_, (row * 4 + 8) / 64, ?_, ?_⟩ <;> simp only [pow_one, Nat.cast_ofNat] <;> omega

example : (lrBlock smallWrap 1 30 0).stripeStart = 60 ∧ (lrBlock smallWrap 1 29 0).stripeStart = 28 ∧ (lrBlock smallWrap 1 1 0).h = 2 := by decide

/-- The pixel at column `px`, row `py` of the plane belongs to the block at `row`, `col`. -/
def InLrBlock (c : WrapCtx) (plane row col px py : Nat) : Prop :=
  (lrBlock c plane row col).x ≤ px ∧ (px : Int) < (lrBlock c plane row col).x + (lrBlock c plane row col).w ∧
  (lrBlock c plane row col).y ≤ py ∧ (py : Int) < (lrBlock c plane row col).y + (lrBlock c plane row col).h

/-- One dimension of the partition: `n` luma pixels in steps of 4. -/
theorem lr_line (n s p b : Nat) (hs : s = 0 ∨ s = 1) (hp : p < planeDim n s) :
    ((b * 4) >>> s ≤ p ∧ (p : Int) < (((b * 4) >>> s : Nat) : Int) + min ((4 >>> s : Nat) : Int) ((planeDim n s : Int) - 1 - (((b * 4) >>> s : Nat) : Int) + 1)) ↔
      b = p / (4 >>> s) := by
  rcases hs with rfl | rfl
  · simp only [Nat.shiftRight_zero]
    omega
  · have e1 : (4 >>> 1 : Nat) = 2 := rfl
    have e3 : (b * 4) >>> 1 = b * 2 := by rw [Nat.shiftRight_eq_div_pow]; omega
    rw [e1, e3]
    omega

/-- **C113 (cover).**  Every pixel of every plane belongs to exactly one of the blocks the process visits. -/
theorem C113_cover_partial (c : WrapCtx) (hx : c.subX ≤ 1) (hy : c.subY ≤ 1) (plane px py : Nat) (h1 : px < c.upW plane) (h2 : py < c.upH plane) :
    ∃! rc : Nat × Nat, (rc.1 < (c.frameHeight + 3) / 4 ∧ rc.2 < (c.upscaledWidth + 3) / 4) ∧ InLrBlock c plane rc.1 rc.2 px py := by
  have hX : (if plane = 0 then 0 else c.subX) = (if plane > 0 then c.subX else 0) := by split <;> split <;> omega
  have hY : (if plane = 0 then 0 else c.subY) = (if plane > 0 then c.subY else 0) := by split <;> split <;> omega
  unfold WrapCtx.upW at h1
  unfold WrapCtx.upH at h2
  have key : ∀ row col, InLrBlock c plane row col px py ↔ col = px / (4 >>> (if plane > 0 then c.subX else 0)) ∧ row = py / (4 >>> (if plane > 0 then c.subY else 0)) := by
    intro row col
    have a := lr_line c.upscaledWidth (if plane > 0 then c.subX else 0) px col (by split <;> omega) h1
    have b := lr_line c.frameHeight (if plane > 0 then c.subY else 0) py row (by split <;> omega) h2
    rw [← a, ← b]
    unfold InLrBlock lrBlock
    dsimp only
    rw [hX, hY]
    constructor
    · rintro ⟨x1, x2, x3, x4⟩; exact ⟨⟨x1, x2⟩, ⟨x3, x4⟩⟩
    · rintro ⟨⟨x1, x2⟩, ⟨x3, x4⟩⟩; exact ⟨x1, x2, x3, x4⟩
  refine ⟨(py / (4 >>> (if plane > 0 then c.subY else 0)), px / (4 >>> (if plane > 0 then c.subX else 0))), ⟨?_, (key _ _).mpr ⟨rfl, rfl⟩⟩, ?_⟩
  · have lim : ∀ n s p, s = 0 ∨ s = 1 → p < planeDim n s → p / (4 >>> s) < (n + 3) / 4 := by
      intro n s p hs hp
      unfold planeDim at hp
      rcases hs with rfl | rfl
      · simp only [Nat.shiftRight_zero] at hp ⊢; omega
      · rw [Nat.shiftRight_eq_div_pow] at hp
        have e1 : (4 >>> 1 : Nat) = 2 := rfl
        rw [e1]; omega
    exact ⟨lim _ _ _ (by split <;> omega) h2, lim _ _ _ (by split <;> omega) h1⟩
  · rintro ⟨row, col⟩ ⟨-, h⟩
    obtain ⟨rfl, rfl⟩ := (key row col).mp h
    rfl

example : InLrBlock smallWrap 1 1 0 1 3 := by unfold InLrBlock; decide

/-! ## Source samples -/

/-- The pixel of plane `p` at row `y`, column `x` (integers). -/
def pixel (P : Planes) (p : Nat) (y x : Int) : Option Int := if 0 ≤ y ∧ 0 ≤ x then at3 P p y.toNat x.toNat else none

/-- The sample of AV1: the position is clamped to the plane and to at most two rows beyond the stripe; inside the stripe the
samples are those after CDEF, outside those before it. -/
def SampleIs (c : LrCtx) (b : LrBlock) (p : Nat) (x y : Int) (v : Int) : Prop :=
  let x' := max 0 (min b.endX x)
  let y' := max (b.stripeStart - 2) (min (b.stripeEnd + 2) (max 0 (min b.endY y)))
  pixel (if b.stripeStart ≤ y' ∧ y' ≤ b.stripeEnd then c.cdef else c.cur) p y' x' = some v

/-- **C113 (source samples).** -/
theorem C113_sample_partial {c : LrCtx} {b : LrBlock} {p : Nat} {x y v : Int} (hb : b.stripeStart ≤ b.stripeEnd) (h : sourceSample c b p x y = .ok v) :
    SampleIs c b p x y v := by
  unfold sourceSample at h
  obtain ⟨cur, e1, h⟩ := Res.inv h
  obtain ⟨cdef, e2, h⟩ := Res.inv h
  have e1 := goGet_inv_nat e1
  have e2 := goGet_inv_nat e2
  have rd : ∀ {P : Planes} {F : List (List Int)} {yy xx : Int}, P[p]? = some F → gget F yy xx = .ok v → pixel P p yy xx = some v := by
    intro P F yy xx hP hg
    obtain ⟨g1, g2, g3⟩ := gget_inv hg
    unfold pixel at3
    rw [if_pos ⟨g1, g2⟩, hP]
    exact g3
  unfold SampleIs
  dsimp only
  split at h
  · rename_i hlt
    have hy : max (b.stripeStart - 2) (min (b.stripeEnd + 2) (max 0 (min b.endY y))) = max (b.stripeStart - 2) (max 0 (min b.endY y)) := by omega
    rw [hy, if_neg (by omega)]
    exact rd e1 h
  · split at h
    · rename_i h1 h2
      have hy : max (b.stripeStart - 2) (min (b.stripeEnd + 2) (max 0 (min b.endY y))) = min (b.stripeEnd + 2) (max 0 (min b.endY y)) := by omega
      rw [hy, if_neg (by omega)]
      exact rd e1 h
    · rename_i h1 h2
      have hy : max (b.stripeStart - 2) (min (b.stripeEnd + 2) (max 0 (min b.endY y))) = max 0 (min b.endY y) := by omega
      rw [hy, if_pos (by omega)]
      exact rd e2 h

/-- A frame whose pixels are 5 before and 9 after CDEF. -/
def sampleCtx : LrCtx where
  toWrapCtx := smallWrap
  cdef := List.replicate 3 (List.replicate 9 (List.replicate 9 9))
  cur := List.replicate 3 (List.replicate 9 (List.replicate 9 5))

example : sourceSample sampleCtx (lrBlock smallWrap 0 0 0) 0 3 (-4) = .ok 9 := by decide +kernel
example : SampleIs sampleCtx (lrBlock smallWrap 0 0 0) 0 3 (-4) 9 := C113_sample_partial (by decide) (by decide +kernel)

/-! ## Nothing to do -/

/-- **C113 (off).**  Without loop restoration the result is the picture after CDEF. -/
theorem C113_off_partial {c : LrCtx} (h : c.usesLr = false) : loopRestoration c = .ok c.cdef := by
  unfold loopRestoration; rw [h]; rfl

theorem countUnits_one {us n : Nat} (h0 : 0 < us) (h : 2 * n < 3 * us) : countUnits us n = .ok 1 := by
  unfold countUnits
  rw [if_neg (by omega), Nat.shiftRight_eq_div_pow]
  have : (n + us / 2 ^ 1) / us ≤ 1 := by
    rw [Nat.div_le_iff_le_mul_add_pred h0]; omega
  congr 1; omega

theorem lrUnit_zero {c : WrapCtx} {us plane row col : Nat} (h0 : 0 < us) (hx : c.subX ≤ 1) (hy : c.subY ≤ 1) (h1 : 2 * c.frameHeight < 3 * us)
    (h2 : 2 * c.upscaledWidth < 3 * us) : lrUnit c us plane row col = .ok (0, 0) := by
  unfold lrUnit
  have a := planeDim_le c.frameHeight (if plane = 0 then 0 else c.subY) (by split <;> omega) (by omega)
  have b := planeDim_le c.upscaledWidth (if plane = 0 then 0 else c.subX) (by split <;> omega) (by omega)
  dsimp only
  rw [countUnits_one h0 (by omega), Res.ok_bind, countUnits_one h0 (by omega), Res.ok_bind]
  simp only [Nat.sub_self, Nat.zero_min]
  rfl

/-- **C113 (no filter selected).**  If the type of all units is `RESTORE_NONE` (one unit per plane), the result is the
picture after CDEF. -/
theorem C113_none_partial {c : LrCtx} (hx : c.subX ≤ 1) (hy : c.subY ≤ 1) (hf : c.numPlanes ≤ c.frameType.length)
    (hu : ∀ p, p < c.numPlanes → ∃ us, c.unitSize[p]? = some us ∧ 0 < us ∧ 2 * c.frameHeight < 3 * us ∧ 2 * c.upscaledWidth < 3 * us)
    (ht : ∀ p, p < c.numPlanes → c.lrType[p]? = some [[0]]) : loopRestoration c = .ok c.cdef := by
  unfold loopRestoration
  by_cases hl : c.usesLr = true
  · rw [hl]
    simp only [Bool.not_true, Bool.false_eq_true, if_false]
    have hp : ∀ row col p (t : Planes), 0 ≤ p → p < 0 + c.numPlanes → t = c.cdef → ∃ t', (do
        let ft ← goGet c.frameType (p : Int)
        if ft ≠ 0 then lrBlockFilter c p row col t else pure t : Res Planes) = .ok t' ∧ t' = c.cdef := by
      intro row col p t _ hp ht'
      rw [goGet_lt' (by omega), Res.ok_bind]
      split
      · obtain ⟨us, e, u0, u1, u2⟩ := hu p (by omega)
        unfold lrBlockFilter
        rw [goGet_of' e, Res.ok_bind, lrUnit_zero u0 hx hy u1 u2, Res.ok_bind, goGet_of' (ht p (by omega)), Res.ok_bind]
        exact ⟨t, rfl, ht'⟩
      · exact ⟨t, rfl, ht'⟩
    have hcol : ∀ row col (t : Planes), 0 ≤ col → col < 0 + (c.upscaledWidth + 3) / 4 → t = c.cdef → ∃ t', forN (fun plane out => do
        let ft ← goGet c.frameType (plane : Int)
        if ft ≠ 0 then lrBlockFilter c plane row col out else pure out) c.numPlanes 0 t = .ok t' ∧ t' = c.cdef :=
      fun row col t _ _ h => forN_total (fun _ (t : Planes) => t = c.cdef) (hp row col) h
    have hrow : ∀ row (t : Planes), 0 ≤ row → row < 0 + (c.frameHeight + 3) / 4 → t = c.cdef → ∃ t', forN (fun col out => forN (fun plane out => do
        let ft ← goGet c.frameType (plane : Int)
        if ft ≠ 0 then lrBlockFilter c plane row col out else pure out) c.numPlanes 0 out) ((c.upscaledWidth + 3) / 4) 0 t = .ok t' ∧ t' = c.cdef :=
      fun row t _ _ h => forN_total (fun _ (t : Planes) => t = c.cdef) (hcol row) h
    obtain ⟨t, e, h⟩ := forN_total (fun _ (t : Planes) => t = c.cdef) hrow (rfl : c.cdef = c.cdef)
    rw [h] at e
    exact e
  · rw [Bool.not_eq_true] at hl
    rw [hl]; rfl

/-! ## The filters -/

/-- The sum of `f` over the window of `2 r + 1` by `2 r + 1` samples around `(x, y)`. -/
def windowSum (f : Int → Int → Int) (r : Nat) (x y : Int) : Int :=
  ((List.range (2 * r + 1)).map fun dy : Nat => ((List.range (2 * r + 1)).map fun dx : Nat => f (x + dx - r) (y + dy - r)).sum).sum

/-- **C113 (guided sums).**  For every radius, position and picture: the two sums of the self-guided filter are those of the squares and of the
values of all source samples of the window. -/
theorem C113_window_partial (c : LrCtx) (b : LrBlock) (plane r : Nat) (x y : Int) (f : Int → Int → Int)
    (hf : ∀ u v, x - r ≤ u → u ≤ x + r → y - r ≤ v → v ≤ y + r → sourceSample c b plane u v = .ok (f u v)) :
    boxSums c b plane r x y = .ok (windowSum (fun u v => f u v ^ 2) r x y, windowSum f r x y) := by
  have row : ∀ (dy : Nat), dy < 2 * r + 1 → ∀ s : Int × Int, forN (fun dx (s : Int × Int) => do
      let v ← sourceSample c b plane (x + dx - r) (y + dy - r)
      pure (s.1 + v * v, s.2 + v)) (2 * r + 1) 0 s =
      .ok (s.1 + ((List.range (2 * r + 1)).map fun dx : Nat => f (x + dx - r) (y + dy - r) ^ 2).sum,
           s.2 + ((List.range (2 * r + 1)).map fun dx : Nat => f (x + dx - r) (y + dy - r)).sum) := by
    intro dy hdy s
    obtain ⟨t, e, h⟩ := forN_total (fun i (t : Int × Int) =>
      t = (s.1 + ((List.range i).map fun dx : Nat => f (x + dx - r) (y + dy - r) ^ 2).sum,
           s.2 + ((List.range i).map fun dx : Nat => f (x + dx - r) (y + dy - r)).sum)) (n := 2 * r + 1) (i0 := 0) (s := s)
      (f := fun dx (s : Int × Int) => do
        let v ← sourceSample c b plane (x + dx - r) (y + dy - r)
        pure (s.1 + v * v, s.2 + v)) (by
        intro i t _ hi ht
        rw [hf _ _ (by omega) (by omega) (by omega) (by omega), Res.ok_bind]
        refine ⟨_, rfl, ?_⟩
        rw [ht, List.range_succ, List.map_append, List.sum_append, List.map_append, List.sum_append]
        simp only [List.map_cons, List.map_nil, List.sum_cons, List.sum_nil, Int.add_zero]
        ext <;> simp only [] <;> ring) (by simp)
    rw [e, h, Nat.zero_add]
  unfold boxSums windowSum
  obtain ⟨t, e, h⟩ := forN_total (fun i (t : Int × Int) =>
      t = (((List.range i).map fun dy : Nat => ((List.range (2 * r + 1)).map fun dx : Nat => f (x + dx - r) (y + dy - r) ^ 2).sum).sum,
           ((List.range i).map fun dy : Nat => ((List.range (2 * r + 1)).map fun dx : Nat => f (x + dx - r) (y + dy - r)).sum).sum))
      (n := 2 * r + 1) (i0 := 0) (s := ((0, 0) : Int × Int))
      (f := fun dy s => forN (fun dx (s : Int × Int) => do
        let v ← sourceSample c b plane (x + dx - r) (y + dy - r)
        pure (s.1 + v * v, s.2 + v)) (2 * r + 1) 0 s) (by
        intro i t _ hi ht
        refine ⟨_, row i (by omega) t, ?_⟩
        rw [ht, List.range_succ (n := i), List.map_append, List.sum_append, List.map_append, List.sum_append]
        simp only [List.map_cons, List.map_nil, List.sum_cons, List.sum_nil, Int.add_zero]) (by simp)
  rw [e, h, Nat.zero_add]

/-- A window of radius 1 in a flat picture of value 9: nine samples. -/
example : boxSums sampleCtx (lrBlock smallWrap 0 0 0) 0 1 2 2 = .ok (9 * 81, 81) ∧
    windowSum (fun _ _ => 9) 1 2 2 = 81 := by decide +kernel

/-- **C113 (guided coefficient).**  The first coefficient of a window is between 1 and 256, and 1 where the window is flat. -/
theorem C113_box_partial (d : Nat) (n s : Int) (hs : 0 ≤ s) (sums : Int × Int) :
    1 ≤ (boxCoeffs d n s sums).1 ∧ (boxCoeffs d n s sums).1 ≤ 256 := by
  unfold boxCoeffs
  dsimp only
  generalize hp : max 0 (round2 sums.1 (2 * (d - 8)) * n - round2 sums.2 (d - 8) * round2 sums.2 (d - 8)) = p
  have hp0 : 0 ≤ p := by omega
  have hz : 0 ≤ round2 (p * s) 20 := by
    unfold round2
    rw [if_neg (by decide), Int.shiftRight_eq_div_pow]
    have := Int.mul_nonneg hp0 hs
    exact Int.ediv_nonneg (by omega) (by decide)
  generalize round2 (p * s) 20 = z at hz
  split
  · omega
  · split
    · omega
    · rename_i h1 h2
      rw [Int.tdiv_eq_ediv_of_nonneg hz, Int.tdiv_eq_ediv_of_nonneg (by omega)]
      constructor
      · exact (Int.le_ediv_iff_mul_le (by omega)).mpr (by omega)
      · have : (z * 256 + z / 2) / (z + 1) < 257 := (Int.ediv_lt_iff_lt_mul (by omega)).mpr (by omega)
        omega

/-- For a flat window of `n` samples of value `v` (8 bits per sample) the first coefficient is 1. -/
theorem C113_flat_partial (n s v : Int) : (boxCoeffs 8 n s (n * (v * v), n * v)).1 = 1 := by
  unfold boxCoeffs
  dsimp only
  have e : round2 (n * (v * v)) (2 * (8 - 8)) * n - round2 (n * v) (8 - 8) * round2 (n * v) (8 - 8) = 0 := by
    unfold round2
    simp only [Nat.sub_self, Nat.mul_zero, if_true]
    ring
  rw [e]
  simp only [Int.zero_mul, max_self]
  have : round2 0 20 = 0 := by decide
  rw [this]
  rfl

/-- **C113 fails for the Wiener taps**: AV1's filter is symmetric with sum 128.  The code computes, for all coefficients,
the taps below. -/
theorem C113_wiener_taps_refuted (c0 c1 c2 : Int) :
    wienerTaps [c0, c1, c2] = .ok [c0, c1, c2, 128 - 2 * c0 - 2 * c1 - 2 * c2, 0, c2, 0] := by
  rfl

/-- They are symmetric only when all are zero, and sum to 128 only when the first two cancel. -/
theorem C113_wiener_symmetric_refuted (c0 c1 c2 : Int) {f : List Int} (h : wienerTaps [c0, c1, c2] = .ok f) :
    (f.reverse = f ↔ c0 = 0 ∧ c1 = 0 ∧ c2 = 0) ∧ (f.sum = 128 ↔ c0 + c1 = 0) := by
  rw [C113_wiener_taps_refuted] at h
  cases h
  constructor
  · show [0, c2, 0, 128 - 2 * c0 - 2 * c1 - 2 * c2, c2, c1, c0] = [c0, c1, c2, 128 - 2 * c0 - 2 * c1 - 2 * c2, 0, c2, 0] ↔ _
    simp only [List.cons.injEq, and_true, true_and]
    omega
  · simp only [List.sum_cons, List.sum_nil]
    omega

/-- The process visits block (0, 0) of every plane to be restored. -/
theorem lr_never {c : LrCtx} (hl : c.usesLr = true) {p : Nat} (hp : p < c.numPlanes) (hw : 0 < c.upscaledWidth) (hh : 0 < c.frameHeight) {ft : Int}
    (hft : c.frameType[p]? = some ft) (hft0 : ft ≠ 0) (hbad : ∀ t t', lrBlockFilter c p 0 0 t ≠ .ok t') (out : Planes) : loopRestoration c ≠ .ok out := by
  unfold loopRestoration
  rw [hl]
  simp only [Bool.not_true, Bool.false_eq_true, if_false]
  refine forN_never (i := 0) (by omega) (by omega) (fun t => ?_) out
  refine forN_never (i := 0) (by omega) (by omega) (fun t => ?_)
  refine forN_never (i := p) (by omega) (by omega) (fun t t' h => ?_)
  rw [goGet_of' hft, Res.ok_bind, if_pos hft0] at h
  exact hbad t t' h

/-- **C113 fails for the Wiener filter**: a frame with a plane that has a Wiener unit is never restored, the process panics
(`LrWiener` is an empty slice). -/
theorem C113_wiener_refuted {c : LrCtx} (hl : c.usesLr = true) {p : Nat} (hp : p < c.numPlanes) (hw : 0 < c.upscaledWidth) (hh : 0 < c.frameHeight)
    {ft : Int} (hft : c.frameType[p]? = some ft) (hft0 : ft ≠ 0) (ht : c.lrType[p]? = some [[1]]) (out : Planes) : loopRestoration c ≠ .ok out := by
  refine lr_never hl hp hw hh hft hft0 (fun t t' h => ?_) out
  unfold lrBlockFilter at h
  obtain ⟨us, -, h⟩ := Res.inv h
  obtain ⟨u, -, h⟩ := Res.inv h
  obtain ⟨ty, e, h⟩ := Res.inv h
  rw [goGet_of' ht] at e
  cases e
  obtain ⟨v, e, h⟩ := Res.inv h
  obtain ⟨-, -, e⟩ := gget_inv e
  have hv : v = 1 := by
    obtain ⟨a, b⟩ := u
    simp only [Int.toNat_natCast] at e
    unfold at2 at e
    match a, b, e with
    | 0, 0, e => cases e; rfl
    | 0, (b + 1), e => cases e
    | (a + 1), _, e => cases e
  rw [if_pos hv] at h
  unfold wienerFilter at h
  obtain ⟨_, e, -⟩ := Res.inv h
  have := goGet_inv_nat e
  cases this

/-- A block of the box filter has at most one pixel. -/
theorem boxOutput_small {c : LrCtx} {b : LrBlock} {p : Nat} {pass : Bool} {T : List (List (Int × Int))} {F : List (List Int)}
    (h : boxOutput c b p pass T = .ok F) : ∀ i j : Nat, i < b.h.toNat → j < b.w.toNat → i = 0 ∧ j = 0 := by
  have key := forN_inv (fun i (F : List (List Int)) => Shape 1 1 F ∧ ∀ a j : Nat, a < i → j < b.w.toNat → a = 0 ∧ j = 0) (by
    intro i t t' _ hi ⟨hP, hQ⟩ ht
    have inner := forN_inv (fun j (F : List (List Int)) => Shape 1 1 F ∧ ∀ a : Nat, a < j → i = 0 ∧ a = 0) (by
      intro j u u' _ hj ⟨hP, hQ⟩ hu
      obtain ⟨ab, -, hu⟩ := Res.inv hu
      obtain ⟨pl, -, hu⟩ := Res.inv hu
      obtain ⟨px, -, hu⟩ := Res.inv hu
      obtain ⟨-, -, g1, -, -, g4⟩ := gset_inv hu
      simp only [Int.toNat_natCast] at g1
      obtain ⟨v, hv⟩ := Option.isSome_iff_exists.mp g1
      have := at2_lt hP hv
      refine ⟨g4 1 1 hP, fun a ha => ?_⟩
      by_cases h : a = j
      · omega
      · exact hQ a (by omega)) ht ⟨hP, by intro a ha; omega⟩
    refine ⟨inner.1, fun a j ha hj => ?_⟩
    by_cases h : a = i
    · subst h; exact inner.2 j (by omega)
    · exact hQ a j (by omega) hj) h ⟨⟨rfl, by intro r hr; simp at hr; rw [hr]; rfl⟩, by intro a j ha; omega⟩
  intro i j hi hj
  exact key.2 i j (by omega) hj

theorem selfGuided_small {c : LrCtx} {b : LrBlock} {p : Nat} {u : Nat × Nat} {t t' : Planes} (h : selfGuided c b p u t = .ok t') :
    ∀ i j : Nat, i < b.h.toNat → j < b.w.toNat → i = 0 ∧ j = 0 := by
  unfold selfGuided at h
  obtain ⟨sets, -, h⟩ := Res.inv h
  obtain ⟨set, -, h⟩ := Res.inv h
  obtain ⟨f0, e0, h⟩ := Res.inv h
  obtain ⟨f1, e1, h⟩ := Res.inv h
  unfold boxFilter at e0 e1
  obtain ⟨r0, g0, e0⟩ := Res.inv e0
  obtain ⟨r1, g1, e1⟩ := Res.inv e1
  have hr : r0 ≠ 0 ∨ r1 ≠ 0 := by
    obtain ⟨-, -, g0⟩ := gget_inv g0
    obtain ⟨-, -, g1⟩ := gget_inv g1
    have table : ∀ i : Nat, i < 16 → ∀ a b, at2 sgrParams i 0 = some a → at2 sgrParams i 2 = some b → a ≠ 0 ∨ b ≠ 0 := by
      intro i hi
      have hh : ∀ i : Nat, i < 16 → (at2 sgrParams i 0 ≠ some 0 ∨ at2 sgrParams i 2 ≠ some 0) := by decide
      intro a b ha hb
      rcases hh i hi with h | h
      · exact Or.inl (fun e => h (by rw [ha, e]))
      · exact Or.inr (fun e => h (by rw [hb, e]))
    have hlt : set.toNat < 16 := (at2_lt (H := 16) (W := 4) (m := sgrParams) ⟨rfl, by decide⟩ g0).1
    exact table _ hlt _ _ g0 g1
  rcases hr with hr | hr
  · rw [if_neg hr] at e0
    obtain ⟨eps, -, e0⟩ := Res.inv e0
    obtain ⟨T, -, e0⟩ := Res.inv e0
    exact boxOutput_small e0
  · rw [if_neg hr] at e1
    obtain ⟨eps, -, e1⟩ := Res.inv e1
    obtain ⟨T, -, e1⟩ := Res.inv e1
    exact boxOutput_small e1

/-- **C113 fails for the self guided filter**: a plane of more than one pixel with a self guided unit is never restored, the
process panics (the box filter returns a `[1][1]int`). -/
theorem C113_sgr_refuted {c : LrCtx} (hl : c.usesLr = true) {p : Nat} (hp : p < c.numPlanes) (hx : c.subX ≤ 1) (hy : c.subY ≤ 1)
    (hw : 0 < c.upW p) (hh : 0 < c.upH p) (hbig : 1 < c.upW p ∨ 1 < c.upH p) {ft : Int} (hft : c.frameType[p]? = some ft) (hft0 : ft ≠ 0)
    (ht : c.lrType[p]? = some [[2]]) (out : Planes) : loopRestoration c ≠ .ok out := by
  have h0 : 0 < c.upscaledWidth := by
    unfold WrapCtx.upW planeDim at hw
    by_contra hc
    have : c.upscaledWidth = 0 := by omega
    rw [this] at hw
    have hs : (if p > 0 then c.subX else 0) = 0 ∨ (if p > 0 then c.subX else 0) = 1 := by split <;> omega
    rcases hs with h | h <;> rw [h] at hw <;> exact absurd hw (by decide)
  have h1 : 0 < c.frameHeight := by
    unfold WrapCtx.upH planeDim at hh
    by_contra hc
    have : c.frameHeight = 0 := by omega
    rw [this] at hh
    have hs : (if p > 0 then c.subY else 0) = 0 ∨ (if p > 0 then c.subY else 0) = 1 := by split <;> omega
    rcases hs with h | h <;> rw [h] at hh <;> exact absurd hh (by decide)
  refine lr_never hl hp h0 h1 hft hft0 (fun t t' h => ?_) out
  unfold lrBlockFilter at h
  obtain ⟨us, -, h⟩ := Res.inv h
  obtain ⟨u, -, h⟩ := Res.inv h
  obtain ⟨ty, e, h⟩ := Res.inv h
  rw [goGet_of' ht] at e
  cases e
  obtain ⟨v, e, h⟩ := Res.inv h
  obtain ⟨-, -, e⟩ := gget_inv e
  have hv : v = 2 := by
    obtain ⟨a, b⟩ := u
    simp only [Int.toNat_natCast] at e
    unfold at2 at e
    match a, b, e with
    | 0, 0, e => cases e; rfl
    | 0, (b + 1), e => cases e
    | (a + 1), _, e => cases e
  rw [if_neg (by omega), if_pos hv] at h
  have small := selfGuided_small h
  have hX : (if p = 0 then 0 else c.subX) = (if p > 0 then c.subX else 0) := by split <;> split <;> omega
  have hY : (if p = 0 then 0 else c.subY) = (if p > 0 then c.subY else 0) := by split <;> split <;> omega
  have dim : ∀ n s : Nat, s = 0 ∨ s = 1 → (min ((4 >>> s : Nat) : Int) ((planeDim n s : Int) - 1 - ((0 * 4) >>> s : Nat) + 1)).toNat = min (4 >>> s) (planeDim n s) := by
    intro n s hs
    rcases hs with rfl | rfl
    · simp only [Nat.shiftRight_zero, Nat.zero_mul]; omega
    · have e1 : (4 >>> 1 : Nat) = 2 := rfl
      have e2 : ((0 * 4) >>> 1 : Nat) = 0 := rfl
      rw [e1, e2]; omega
  have g4 : ∀ s : Nat, s = 0 ∨ s = 1 → 2 ≤ 4 >>> s := by rintro s (rfl | rfl) <;> decide
  have bw : (lrBlock c.toWrapCtx p 0 0).w.toNat = min (4 >>> (if p > 0 then c.subX else 0)) (c.upW p) := by
    unfold lrBlock
    dsimp only
    rw [hX]
    exact dim c.upscaledWidth _ (by split <;> omega)
  have bh : (lrBlock c.toWrapCtx p 0 0).h.toNat = min (4 >>> (if p > 0 then c.subY else 0)) (c.upH p) := by
    unfold lrBlock
    dsimp only
    rw [hY]
    exact dim c.frameHeight _ (by split <;> omega)
  rw [bw, bh] at small
  have a4 := g4 (if p > 0 then c.subX else 0) (by split <;> omega)
  have b4 := g4 (if p > 0 then c.subY else 0) (by split <;> omega)
  rcases hbig with hb | hb
  · have := small 0 1 (by omega) (by omega); omega
  · have := small 1 0 (by omega) (by omega); omega

/-- An 8 by 8 frame with one unit per plane, the first of type `t`. -/
def lrCtx (t : Int) : LrCtx where
  toWrapCtx := smallWrap
  usesLr := true
  frameType := [3, 0, 0]
  unitSize := [64, 64, 64]
  lrType := [[[t]], [[0]], [[0]]]

example : loopRestoration (lrCtx 0) = .ok (lrCtx 0).cdef :=
  C113_none_partial (by decide) (by decide) (by decide) (by intro p hp; exact ⟨64, by match p, hp with | 0, _ => rfl | 1, _ => rfl | 2, _ => rfl, by decide⟩)
    (by intro p hp; match p, hp with | 0, _ => rfl | 1, _ => rfl | 2, _ => rfl)
example (out : Planes) : loopRestoration (lrCtx 1) ≠ .ok out :=
  C113_wiener_refuted (p := 0) (ft := 3) rfl (by decide) (by decide) (by decide) rfl (by decide) rfl out
example (out : Planes) : loopRestoration (lrCtx 2) ≠ .ok out :=
  C113_sgr_refuted (p := 0) (ft := 3) rfl (by decide) (by decide) (by decide) (by decide) (by decide) (Or.inl (by decide)) rfl (by decide) rfl out

end Gov1
