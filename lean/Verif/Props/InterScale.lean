import Verif.Model.Inter
import Verif.Props.TxFrame
/-!
# Motion vectors, filters and the reciprocal table of inter prediction
-/
namespace Gov1

/-! ## C161: motion vector scaling -/

/-- Where AV1 starts in the reference, in 1/1024 of a sample, for a reference of the same size: the position `pos` of the sample in 1/16,
the vector `mv` in 1/8 of a luma sample, subsampled; half of 1/16 is added. -/
def StartSpec (pos : Nat) (mv : Int) (sub : Nat) : Int := 64 * (16 * pos + (2 * mv) / 2 ^ sub) + 32

theorem mvStart_eq (pos : Nat) (mv : Int) (sub : Nat) :
    mvStart pos mv sub 16384 = round2Signed (16384 * (16 * pos + (2 * mv) / 2 ^ sub)) 8 + 32 := by
  have e : (((pos <<< 4 : Nat) : Int) + ((2 * mv) >>> sub) + ((1 <<< (4 - 1) : Nat) : Int)) * ((16384 : Nat) : Int) - (((1 <<< (4 - 1)) <<< 14 : Nat) : Int)
      = 16384 * (16 * pos + (2 * mv) / 2 ^ sub) := by
    rw [Nat.shiftLeft_eq, Int.shiftRight_eq_div_pow]
    push_cast
    omega
  unfold mvStart
  rw [e]
  rfl

theorem refScale_same {n : Nat} (h : 0 < n) : refScale n n = .ok 16384 := by
  unfold refScale
  rw [if_neg (by omega), Nat.shiftLeft_eq]
  congr 1
  rw [Nat.mul_add_div h, Nat.div_eq_of_lt (by omega)]

/-- A position that is not before the frame always becomes 32, that is the first sample. -/
theorem mvStart_nonneg {pos : Nat} {mv : Int} {sub : Nat} (h : 0 ≤ 16 * (pos : Int) + (2 * mv) / 2 ^ sub) : mvStart pos mv sub 16384 = 32 := by
  rw [mvStart_eq]
  unfold round2Signed
  rw [if_pos (by omega)]
  decide

theorem mvStart_neg {pos : Nat} {mv : Int} {sub : Nat} (h : 16 * (pos : Int) + (2 * mv) / 2 ^ sub < 0) : mvStart pos mv sub 16384 = StartSpec pos mv sub := by
  rw [mvStart_eq]
  unfold round2Signed StartSpec round2
  rw [if_neg (by omega), if_neg (by decide), Int.shiftRight_eq_div_pow]
  simp only [Nat.shiftLeft_eq]
  norm_num
  omega

/-- The scale is not negative, so the step is always the constant 2 rounded. -/
theorem mvStep_zero (scale : Nat) : mvStep scale = 0 := by
  unfold mvStep round2Signed
  rw [if_pos (by omega)]
  decide

theorem scaleChecks_iff (c : InterCtx) (i : Nat) (d : Nat × Nat) : scaleChecks c i = .ok d ↔
    c.refUpscaledWidth[i]? = some d.1 ∧ c.refFrameHeight[i]? = some d.2 ∧
    d.1 ≤ 2 * c.frameWidth ∧ d.2 ≤ 2 * c.frameHeight ∧ c.frameWidth ≤ 16 * d.1 ∧ c.frameHeight ≤ 16 * d.2 := by
  constructor
  · intro h
    unfold scaleChecks at h
    obtain ⟨w, hw, h⟩ := Res.inv h
    split at h
    · cases h
    · obtain ⟨ht, hh, h⟩ := Res.inv h
      split at h
      · cases h
      · split at h
        · cases h
        · split at h
          · cases h
          · rw [← Except.ok.inj h]
            exact ⟨goGet_inv_nat hw, goGet_inv_nat hh, by dsimp only; omega, by dsimp only; omega, by dsimp only; omega, by dsimp only; omega⟩
  · rintro ⟨h1, h2, h3, h4, h5, h6⟩
    unfold scaleChecks
    rw [goGet_of' h1, Res.ok_bind, if_neg (by omega), goGet_of' h2, Res.ok_bind, if_neg (by omega), if_neg (by omega), if_neg (by omega)]
    rfl

/-- **C161 (conformance).**  A motion vector is scaled exactly if the reference is at most twice as large as the frame and at least a
sixteenth of it, in both dimensions; otherwise the decoder stops. -/
theorem C161_checks (c : InterCtx) (hw : 0 < c.frameWidth) (hh : 0 < c.frameHeight) (plane : Nat) (i : Nat) (x y : Nat) (mv : Int × Int) :
    (∃ p, mvScaling c plane i x y mv = .ok p) ↔ ∃ rw rh, c.refUpscaledWidth[i]? = some rw ∧ c.refFrameHeight[i]? = some rh ∧
      rw ≤ 2 * c.frameWidth ∧ rh ≤ 2 * c.frameHeight ∧ c.frameWidth ≤ 16 * rw ∧ c.frameHeight ≤ 16 * rh := by
  constructor
  · rintro ⟨p, hp⟩
    unfold mvScaling at hp
    obtain ⟨d, hd, hp⟩ := Res.inv hp
    exact ⟨d.1, d.2, (scaleChecks_iff c i d).1 hd⟩
  · rintro ⟨rw', rh, h⟩
    unfold mvScaling
    rw [(scaleChecks_iff c i (rw', rh)).2 h, Res.ok_bind]
    unfold refScale
    rw [if_neg (by omega), if_neg (by omega)]
    exact ⟨_, rfl⟩

/-- **C161 (intra block copy).**  With the index -1 that intra block copy uses, the process always panics. -/
theorem C161_intrabc_refuted (c : InterCtx) (plane x y : Nat) (mv : Int × Int) : mvScaling c plane (-1) x y mv = .error .index := by
  unfold mvScaling scaleChecks goGet
  rfl

/-- **C161 (refuted).**  For a reference of the size of the frame and a block whose position plus vector is not before the frame, in either
direction, the process gives the first sample of the reference and a step of zero, where AV1 gives the position plus the vector and a step of
one sample (1024). -/
theorem C161_scaling_refuted (c : InterCtx) (hw : 0 < c.frameWidth) (hh : 0 < c.frameHeight) (plane i x y : Nat) (mv : Int × Int)
    (hr : c.refUpscaledWidth[i]? = some c.frameWidth) (hr' : c.refFrameHeight[i]? = some c.frameHeight)
    (hx : 0 ≤ 16 * (x : Int) + (2 * mv.2) / 2 ^ planeSub c.subX plane) (hy : 0 ≤ 16 * (y : Int) + (2 * mv.1) / 2 ^ planeSub c.subY plane) :
    mvScaling c plane i x y mv = .ok ⟨32, 32, 0, 0⟩ ∧
    (0 < 16 * (x : Int) + (2 * mv.2) / 2 ^ planeSub c.subX plane → (32 : Int) ≠ StartSpec x mv.2 (planeSub c.subX plane)) := by
  refine ⟨?_, fun h => by unfold StartSpec; omega⟩
  unfold mvScaling
  rw [(scaleChecks_iff c i (c.frameWidth, c.frameHeight)).2 ⟨hr, hr', by dsimp only; omega, by dsimp only; omega, by dsimp only; omega, by dsimp only; omega⟩, Res.ok_bind]
  dsimp only
  rw [refScale_same hw, Res.ok_bind, refScale_same hh, Res.ok_bind, mvStart_nonneg hx, mvStart_nonneg hy, mvStep_zero]
  rfl

/-- **C161 (partial).**  A position before the frame (above or to the left) is scaled as in AV1; the step of zero remains.  Missing: every
other position (`C161_scaling_refuted`). -/
theorem C161_scaling_partial (c : InterCtx) (hw : 0 < c.frameWidth) (hh : 0 < c.frameHeight) (plane i x y : Nat) (mv : Int × Int)
    (hr : c.refUpscaledWidth[i]? = some c.frameWidth) (hr' : c.refFrameHeight[i]? = some c.frameHeight) :
    ∃ p, mvScaling c plane i x y mv = .ok p ∧
      (16 * (x : Int) + (2 * mv.2) / 2 ^ planeSub c.subX plane < 0 → p.startX = StartSpec x mv.2 (planeSub c.subX plane)) ∧
      (16 * (y : Int) + (2 * mv.1) / 2 ^ planeSub c.subY plane < 0 → p.startY = StartSpec y mv.1 (planeSub c.subY plane)) := by
  unfold mvScaling
  rw [(scaleChecks_iff c i (c.frameWidth, c.frameHeight)).2 ⟨hr, hr', by dsimp only; omega, by dsimp only; omega, by dsimp only; omega, by dsimp only; omega⟩, Res.ok_bind]
  dsimp only
  rw [refScale_same hw, Res.ok_bind, refScale_same hh, Res.ok_bind]
  exact ⟨_, rfl, mvStart_neg, mvStart_neg⟩

/-- The step is zero whatever the scale. -/
theorem C161_step_refuted {c : InterCtx} {plane : Nat} {i : Int} {x y : Nat} {mv : Int × Int} {p : MvPos} (h : mvScaling c plane i x y mv = .ok p) :
    p.stepX = 0 ∧ p.stepY = 0 := by
  unfold mvScaling at h
  obtain ⟨d, -, h⟩ := Res.inv h
  obtain ⟨xs, -, h⟩ := Res.inv h
  obtain ⟨ys, -, h⟩ := Res.inv h
  rw [← Except.ok.inj h]
  exact ⟨mvStep_zero xs, mvStep_zero ys⟩

example : mvScaling { frameWidth := 64, frameHeight := 48, refUpscaledWidth := [64], refFrameHeight := [48], subX := 1, subY := 1 } 0 0 8 8 (-3, 5) = .ok ⟨32, 32, 0, 0⟩ := by decide
example : (32 : Int) ≠ StartSpec 8 5 0 := by decide
example : mvScaling { frameWidth := 64, frameHeight := 48, refUpscaledWidth := [64], refFrameHeight := [48], subX := 1, subY := 1 } 1 0 4 8 (-300, -205) = .ok ⟨StartSpec 4 (-205) 1, StartSpec 8 (-300) 1, 0, 0⟩ := by decide

/-! ## C169: scaled references -/

theorem refScale_one {ref cur : Nat} (h : 0 < cur) (hc : cur < 32768) : refScale ref cur = .ok 16384 ↔ ref = cur := by
  constructor
  · intro he
    unfold refScale at he
    rw [if_neg (by omega), Nat.shiftLeft_eq] at he
    have he := Except.ok.inj he
    have h1 := Nat.div_mul_le_self (ref * 2 ^ 14 + cur / 2) cur
    have h2 := Nat.lt_div_mul_add (a := ref * 2 ^ 14 + cur / 2) h
    rw [he] at h1 h2
    omega
  · rintro rfl
    exact refScale_same h

/-- **C169.**  For frames of less than 32768 samples in each dimension, a reference counts as scaled exactly if it differs in size from the
frame. -/
theorem C169_isScaled (c : InterCtx) (hw : 0 < c.frameWidth ∧ c.frameWidth < 32768) (hh : 0 < c.frameHeight ∧ c.frameHeight < 32768)
    (ref : Nat) (hr : 1 ≤ ref) (i rw rh : Nat) (h1 : c.refFrameIdx[ref - 1]? = some i) (h2 : c.refUpscaledWidth[i]? = some rw) (h3 : c.refFrameHeight[i]? = some rh) :
    isScaled c ref = .ok (decide (rw ≠ c.frameWidth ∨ rh ≠ c.frameHeight)) := by
  unfold isScaled
  rw [show (ref : Int) - 1 = ((ref - 1 : Nat) : Int) by omega, goGet_of' h1, Res.ok_bind, goGet_of' h2, Res.ok_bind]
  have e1 : ∃ xs, refScale rw c.frameWidth = .ok xs ∧ (xs = 16384 ↔ rw = c.frameWidth) := by
    have h := refScale_one (ref := rw) hw.1 hw.2
    unfold refScale at h ⊢
    rw [if_neg (by omega)] at h ⊢
    exact ⟨_, rfl, ⟨fun e => h.1 (by rw [e]), fun e => Except.ok.inj (h.2 e)⟩⟩
  have e2 : ∃ xs, refScale rh c.frameHeight = .ok xs ∧ (xs = 16384 ↔ rh = c.frameHeight) := by
    have h := refScale_one (ref := rh) hh.1 hh.2
    unfold refScale at h ⊢
    rw [if_neg (by omega)] at h ⊢
    exact ⟨_, rfl, ⟨fun e => h.1 (by rw [e]), fun e => Except.ok.inj (h.2 e)⟩⟩
  obtain ⟨xs, hx, hx'⟩ := e1
  obtain ⟨ys, hy, hy'⟩ := e2
  rw [hx, Res.ok_bind, goGet_of' h3, Res.ok_bind, hy, Res.ok_bind]
  congr 1
  rw [Bool.eq_iff_iff]
  simp only [Bool.or_eq_true, bne_iff_ne, ne_eq, decide_eq_true_eq, show (1 <<< 14 : Nat) = 16384 from rfl, hx', hy']

example : isScaled { frameWidth := 352, frameHeight := 288, refFrameIdx := [3, 0], refUpscaledWidth := [352, 0, 0, 176], refFrameHeight := [288, 0, 0, 288] } 1 = .ok true ∧
    isScaled { frameWidth := 352, frameHeight := 288, refFrameIdx := [3, 0], refUpscaledWidth := [352, 0, 0, 176], refFrameHeight := [288, 0, 0, 288] } 2 = .ok false := by decide

/-! ## C163: the filters -/

/-- **C163 (sum).**  The taps of every interpolation and warp filter sum to 128: filtering a flat area does not change it. -/
theorem C163_taps_sum :
    (∀ f ∈ subpelFilters, ∀ row ∈ f, row.sum = 128) ∧ (∀ row ∈ warpedFilters, row.sum = 128) := by
  constructor <;> decide +kernel

/-- **C163 (shape).**  Six interpolation filters of sixteen positions, 193 positions of the warp filter, eight taps each. -/
theorem C163_shape :
    (subpelFilters.length = 6 ∧ ∀ f ∈ subpelFilters, f.length = 16 ∧ ∀ row ∈ f, row.length = 8) ∧
    (warpedFilters.length = 193 ∧ ∀ row ∈ warpedFilters, row.length = 8) := by
  constructor <;> decide +kernel

/-- **C163 (symmetry).**  The filter of a fraction is the mirror image of the filter of its complement. -/
theorem C163_symmetric :
    (∀ f ∈ subpelFilters, ∀ i : Fin 15, (f[i.val + 1]?.map List.reverse) = f[15 - i.val]?) ∧
    (∀ i : Fin 191, (warpedFilters[i.val + 1]?.map List.reverse) = warpedFilters[191 - i.val]?) := by
  constructor <;> decide +kernel

/-- **C163 (whole samples).**  At a whole sample every interpolation filter is the identity. -/
theorem C163_identity : ∀ f ∈ subpelFilters, f[0]? = some [0, 0, 0, 128, 0, 0, 0, 0] := by decide +kernel

/-! ## C164: the reciprocal -/

/-- The table, with one wrong entry: the rounded quotient of 2^22 by 256 + i. -/
theorem divLut_values : divLut.length = 257 ∧ ∀ i : Fin 257, i.val ≠ 164 → divLut[i.val]? = some (((2 ^ 23 / (256 + i.val) + 1) / 2 : Nat) : Int) := by
  constructor <;> decide +kernel

theorem divLut_164 : divLut[164]? = some 99869 := by decide +kernel

/-- **C164 (table, refuted).**  Entry 164 of the reciprocal table is ten times too large. -/
theorem C164_table_refuted : divLut[164]? = some 99869 ∧ (2 ^ 23 / (256 + 164) + 1) / 2 = 9986 := ⟨divLut_164, by decide⟩

/-- Every entry of the table is at least a half in 14 bits, so at least one in 13 bits. -/
theorem divLut_ge : ∀ v ∈ divLut, 8192 ≤ v := by decide +kernel

/-- Entry `f` times `256 + f` is 2^22, within 256. -/
theorem divLut_near : ∀ f : Fin 257, f.val ≠ 164 → ∃ v, divLut[f.val]? = some v ∧ 2 ^ 22 - 256 ≤ v * (256 + f.val) ∧ v * (256 + f.val) ≤ 2 ^ 22 + 256 := by
  intro f hf
  refine ⟨_, divLut_values.2 f hf, ?_⟩
  revert f
  decide +kernel

/-- The index is the leading nine bits without the first, rounded. -/
theorem divIndex_bounds {n e : Nat} (he : e < 2 ^ n) : ∃ f : Nat, divIndex n e = f ∧ f ≤ 256 ∧
    (n ≤ 8 → f = e * 2 ^ (8 - n)) ∧ (8 < n → 2 * (f * 2 ^ (n - 8)) ≤ 2 * e + 2 ^ (n - 8) ∧ 2 * e < 2 * (f * 2 ^ (n - 8)) + 2 ^ (n - 8)) := by
  unfold divIndex
  by_cases hn : n > 8
  · rw [if_pos hn]
    obtain ⟨k, rfl⟩ : ∃ k, n = k + 9 := ⟨n - 9, by omega⟩
    unfold round2
    rw [if_neg (by omega), Int.shiftRight_eq_div_pow, show k + 9 - 8 = k + 1 by omega, show k + 1 - 1 = k by omega, Nat.shiftLeft_eq]
    have hp : 0 < 2 ^ k := Nat.two_pow_pos k
    have hp1 : 2 ^ (k + 1) = 2 * 2 ^ k := by rw [Nat.pow_succ]; omega
    have hp9 : 2 ^ (k + 9) = 256 * 2 ^ (k + 1) := by rw [show k + 9 = 8 + (k + 1) by omega, Nat.pow_add]
    have h1 := Nat.div_mul_le_self (e + 2 ^ k) (2 ^ (k + 1))
    have h2 := Nat.lt_div_mul_add (a := e + 2 ^ k) (b := 2 ^ (k + 1)) (by omega)
    refine ⟨(e + 2 ^ k) / 2 ^ (k + 1), by push_cast; rw [Int.one_mul], ?_, fun h => by omega, fun _ => ?_⟩
    · rw [Nat.div_le_iff_le_mul_add_pred (by omega)]
      omega
    · omega
  · rw [if_neg hn]
    refine ⟨e * 2 ^ (8 - n), by rw [Nat.shiftLeft_eq], ?_, fun _ => rfl, fun h => by omega⟩
    have : e * 2 ^ (8 - n) ≤ 2 ^ n * 2 ^ (8 - n) := Nat.mul_le_mul_right _ (by omega)
    rw [← Nat.pow_add, show n + (8 - n) = 8 by omega] at this
    omega

theorem log2_rest {a : Nat} (h : a ≠ 0) : 2 ^ a.log2 ≤ a ∧ a - 1 <<< a.log2 < 2 ^ a.log2 := by
  have h1 := Nat.log2_self_le h
  have h2 := Nat.lt_log2_self (n := a)
  rw [Nat.shiftLeft_eq, Nat.pow_succ] at *
  omega

theorem resolveDivisor_eq {d : Int} (h : d ≠ 0) {f : Nat} (hf : divIndex d.natAbs.log2 (d.natAbs - 1 <<< d.natAbs.log2) = f) {u : Int} (hu : divLut[f]? = some u) :
    resolveDivisor d = .ok (d.natAbs.log2 + 13, if d < 0 then -u else u) := by
  unfold resolveDivisor
  rw [if_neg h]
  dsimp only
  rw [hf, goGet_of' hu]
  rfl

/-- The entry of the table for a divisor, and how far the divisor is from `256 + f` at its scale. -/
theorem divisor_entry (d : Int) (h : d ≠ 0) : ∃ (f : Nat) (u : Int), f ≤ 256 ∧ divLut[f]? = some u ∧ resolveDivisor d = .ok (d.natAbs.log2 + 13, if d < 0 then -u else u) ∧
    d * (if d < 0 then -u else u) = d.natAbs * u ∧
    (∃ P Q : Int, 0 < P ∧ 0 < Q ∧ (2 : Int) ^ (d.natAbs.log2 + 13) * Q = P * 2 ^ 21 ∧ 2 * (P * (256 + f)) ≤ 2 * (d.natAbs * Q) + P ∧ 2 * (d.natAbs * Q) ≤ 2 * (P * (256 + f)) + P) := by
  obtain ⟨hd1, he⟩ := log2_rest (show d.natAbs ≠ 0 by omega)
  obtain ⟨f, hf, hf', hs, hb⟩ := divIndex_bounds he
  have hl : f < divLut.length := by rw [divLut_values.1]; omega
  refine ⟨f, _, hf', List.getElem?_eq_getElem hl, resolveDivisor_eq h hf (List.getElem?_eq_getElem hl), ?_, ?_⟩
  · generalize divLut[f] = u
    split
    · rw [Int.mul_neg, ← Int.neg_mul]; congr 1; omega
    · congr 1; omega
  · clear hf
    generalize d.natAbs = a at *
    generalize a.log2 = n at *
    rw [Nat.shiftLeft_eq, Nat.one_mul] at *
    obtain ⟨e, rfl⟩ : ∃ e, a = 2 ^ n + e := ⟨a - 2 ^ n, by omega⟩
    rw [show 2 ^ n + e - 2 ^ n = e by omega] at *
    by_cases hn : 8 < n
    · obtain ⟨h1, h2⟩ := hb hn
      obtain ⟨k, rfl⟩ : ∃ k, n = k + 8 := ⟨n - 8, by omega⟩
      rw [show k + 8 - 8 = k by omega] at h1 h2
      have e2 : (2 : Int) ^ (k + 8) = 2 ^ k * 256 := by rw [Int.pow_add]; rfl
      have h1' : 2 * ((f : Int) * 2 ^ k) ≤ 2 * e + 2 ^ k := by exact_mod_cast h1
      have h2' : 2 * (e : Int) < 2 * (f * 2 ^ k) + 2 ^ k := by exact_mod_cast h2
      refine ⟨2 ^ k, 1, Int.pow_pos (by decide), by decide, by rw [Nat.add_assoc, Int.pow_add, Int.mul_one], ?_, ?_⟩
      · push_cast; rw [e2]; linarith
      · push_cast; rw [e2]; linarith
    · have hs := hs (by omega)
      have e0 : (2 : Int) ^ n * 2 ^ (8 - n) = 2 ^ 8 := by rw [← Int.pow_add]; congr 1; omega
      have e1 : ((2 ^ n + e : Nat) : Int) * 2 ^ (8 - n) = 256 + f := by
        rw [hs]; push_cast; rw [Int.add_mul, e0]; norm_num
      refine ⟨1, 2 ^ (8 - n), by decide, Int.pow_pos (by decide), by rw [← Int.pow_add, Int.one_mul]; congr 1; omega, ?_, ?_⟩ <;> rw [e1] <;> omega

/-- **C164 (total).**  A divisor that is not zero has a shift and a factor, the factor with the sign of the divisor; zero panics. -/
theorem C164_total (d : Int) : (d = 0 → resolveDivisor d = .error .shift) ∧
    (d ≠ 0 → ∃ s v, resolveDivisor d = .ok (s, v) ∧ s = d.natAbs.log2 + 13 ∧ (0 < d ↔ 0 < v) ∧ v ≠ 0) := by
  refine ⟨fun h => by unfold resolveDivisor; rw [if_pos h], fun h => ?_⟩
  obtain ⟨f, u, -, hu, hr, -⟩ := divisor_entry d h
  have hv := divLut_ge _ (List.mem_of_getElem? hu)
  refine ⟨_, _, hr, rfl, ?_, ?_⟩ <;> split <;> omega

/-- **C164 (refuted).**  `factor / 2^shift` should be close to `1/d`; for every divisor it is more than one and a half times as large: the
entries of the table have 14 bits of fraction and the shift counts 13. -/
theorem C164_divisor_refuted (d : Int) (h : d ≠ 0) {s : Nat} {v : Int} (hv : resolveDivisor d = .ok (s, v)) : 3 * 2 ^ s < 2 * (d * v) := by
  obtain ⟨f, u, hf, hu, hr, hdv, P, Q, hP, hQ, hs, h1, h2⟩ := divisor_entry d h
  rw [hr] at hv
  have hs' : d.natAbs.log2 + 13 = s := congrArg Prod.fst (Except.ok.inj hv)
  have hv' := congrArg Prod.snd (Except.ok.inj hv)
  dsimp only at hv'
  rw [← hv', hdv, ← hs']
  have hu' : 2 ^ 22 - 256 ≤ u * (256 + f) := by
    by_cases h4 : f = 164
    · rw [h4, divLut_164] at hu
      rw [h4, ← Option.some.inj hu]; decide
    · obtain ⟨v', hv', h1, -⟩ := divLut_near ⟨f, by omega⟩ h4
      rw [hv'] at hu
      rw [← Option.some.inj hu]; exact h1
  have hu0 : 8192 ≤ u := divLut_ge _ (List.mem_of_getElem? hu)
  have h6 : u ≤ 99869 := by
    have : ∀ v ∈ divLut, v ≤ 99869 := by decide +kernel
    exact this _ (List.mem_of_getElem? hu)
  have h4 := Int.mul_le_mul_of_nonneg_right h1 (show 0 ≤ u by omega)
  have h5 : P * (2 ^ 22 - 256) ≤ P * (u * (256 + f)) := Int.mul_le_mul_of_nonneg_left hu' (by omega)
  have h7 : P * u ≤ P * 99869 := Int.mul_le_mul_of_nonneg_left h6 (by omega)
  have h8 : 3 * (2 : Int) ^ (d.natAbs.log2 + 13) * Q < 2 * (d.natAbs * u) * Q := by
    rw [Int.mul_assoc 3, hs]; linarith
  exact lt_of_mul_lt_mul_right h8 (by omega)

/-- **C164 (partial).**  With one more bit in the shift, the quotient is right within 1/256 of it, for every divisor whose factor is not the
wrong entry of the table. -/
theorem C164_divisor_partial (d : Int) (h : d ≠ 0) {s : Nat} {v : Int} (hv : resolveDivisor d = .ok (s, v)) (hw : v.natAbs ≠ 99869) :
    256 * (d * v - 2 ^ (s + 1)).natAbs ≤ 2 ^ (s + 1) := by
  obtain ⟨f, u, hf, hu, hr, hdv, P, Q, hP, hQ, hs, h1, h2⟩ := divisor_entry d h
  rw [hr] at hv
  have hs' : d.natAbs.log2 + 13 = s := congrArg Prod.fst (Except.ok.inj hv)
  have hv' := congrArg Prod.snd (Except.ok.inj hv)
  dsimp only at hv'
  rw [← hv', hdv, ← hs']
  have hu0 : 8192 ≤ u := divLut_ge _ (List.mem_of_getElem? hu)
  have hne : f ≠ 164 := by
    rintro rfl
    rw [divLut_164] at hu
    have := Option.some.inj hu
    split at hv' <;> omega
  obtain ⟨v', hv'', h3, h4⟩ := divLut_near ⟨f, by omega⟩ hne
  rw [hv''] at hu
  have hvu := Option.some.inj hu
  rw [hvu] at h3 h4
  dsimp only at h3 h4
  have h6 : u ≤ 16385 := by
    by_contra hc
    have : 16386 * 256 ≤ u * (256 + f) := Int.mul_le_mul (by omega) (by omega) (by omega) (by omega)
    norm_num at this h4
    omega
  have g1 := Int.mul_le_mul_of_nonneg_right h1 (show 0 ≤ u by omega)
  have g2 := Int.mul_le_mul_of_nonneg_right h2 (show 0 ≤ u by omega)
  have g3 : P * (2 ^ 22 - 256) ≤ P * (u * (256 + f)) := Int.mul_le_mul_of_nonneg_left h3 (by omega)
  have g4 : P * (u * (256 + f)) ≤ P * (2 ^ 22 + 256) := Int.mul_le_mul_of_nonneg_left h4 (by omega)
  have g5 : P * u ≤ P * 16385 := Int.mul_le_mul_of_nonneg_left h6 (by omega)
  have e : (2 : Int) ^ (d.natAbs.log2 + 13 + 1) = 2 * 2 ^ (d.natAbs.log2 + 13) := by rw [Int.pow_succ]; omega
  have k1 : 256 * ((d.natAbs : Int) * u - 2 ^ (d.natAbs.log2 + 13 + 1)) ≤ 2 ^ (d.natAbs.log2 + 13 + 1) := by
    refine le_of_mul_le_mul_right (a := Q) ?_ hQ
    rw [e, Int.mul_assoc 2, hs]
    linarith
  have k2 : 256 * (2 ^ (d.natAbs.log2 + 13 + 1) - (d.natAbs : Int) * u) ≤ 2 ^ (d.natAbs.log2 + 13 + 1) := by
    refine le_of_mul_le_mul_right (a := Q) ?_ hQ
    rw [e, Int.mul_assoc 2, hs]
    linarith
  have e' : ((2 ^ (d.natAbs.log2 + 13 + 1) : Nat) : Int) = (2 : Int) ^ (d.natAbs.log2 + 13 + 1) := by push_cast; rfl
  rw [← e'] at k1 k2 ⊢
  generalize (d.natAbs : Int) * u = X at *
  generalize 2 ^ (d.natAbs.log2 + 13 + 1) = Y at *
  omega

example : resolveDivisor 65536 = .ok (29, 16384) := by decide +kernel
example : resolveDivisor (-420) = .ok (21, -99869) := by decide +kernel
example : resolveDivisor 1000 = .ok (22, 8389) := by decide +kernel

end Gov1
