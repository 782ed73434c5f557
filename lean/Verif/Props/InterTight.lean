import Verif.Props.InterCalls
/-!
# Inter prediction, the exact values
-/
namespace Gov1

/-! ## C162: the values -/

/-- AV1, 7.11.3.4: the filter used for a dimension of `n` samples, given the type of interpolation (0 `EIGHTTAP`, 1 `EIGHTTAP_SMOOTH`,
2 `EIGHTTAP_SHARP`, 3 `BILINEAR`): four taps (4, 5) up to four samples. -/
inductive FilterFor : Nat → Int → Int → Prop
  | regular {n : Nat} : n ≤ 4 → FilterFor n 0 4
  | smooth {n : Nat} : n ≤ 4 → FilterFor n 1 5
  | sharp {n : Nat} : n ≤ 4 → FilterFor n 2 4
  | bilinear {n : Nat} : FilterFor n 3 3
  | wide {n : Nat} {f : Int} : 4 < n → FilterFor n f f

theorem smallFilter_for {n : Nat} {f : Int} (hf : 0 ≤ f ∧ f ≤ 3) : FilterFor n f (smallFilter n f) := by
  unfold smallFilter
  obtain h | h | h | h : f = 0 ∨ f = 1 ∨ f = 2 ∨ f = 3 := by omega
  all_goals subst h
  all_goals by_cases hn : n ≤ 4
  all_goals simp only [hn, if_true, if_false]
  all_goals norm_num
  · exact .regular hn
  · exact .wide (by omega)
  · exact .smooth hn
  · exact .wide (by omega)
  · exact .sharp hn
  · exact .wide (by omega)
  · exact .bilinear
  · exact .wide (by omega)

/-- The coefficient `t` of filter `f` at row `k` of the table (`Subpel_Filters[f][k][t]`). -/
def tap (f k : Int) (t : Nat) : Int := ((((subpelFilters[f.toNat]?).bind (·[k.toNat]?)).bind (·[t]?)).getD 0)

/-- Eight samples, filtered. -/
def filtered (f k : Int) (v : Nat → Int) : Int := ((List.range 8).map fun t => tap f k t * v t).sum

theorem filterSum_val {f p s : Int} {src : Nat → Res Int} (h : filterSum f p src = .ok s) :
    (∀ t, t < 8 → ∃ u, src t = .ok u) ∧ ∀ v : Nat → Int, (∀ t u, t < 8 → src t = .ok u → u = v t) → s = filtered f ((p >>> (6 : Nat)) * 15) v := by
  unfold filterSum at h
  have key := forN_inv (fun n (s : Int) => (∀ t, t < n → ∃ u, src t = .ok u) ∧
    ∀ v : Nat → Int, (∀ t u, t < n → src t = .ok u → u = v t) → s = ((List.range n).map fun t => tap f ((p >>> (6 : Nat)) * 15) t * v t).sum) (fun t a a' _ ht ha ha' => ?_) h
    ⟨fun t ht => absurd ht (by omega), fun v _ => by simp⟩
  · rw [Nat.zero_add] at key; exact key
  · obtain ⟨fs, hf, ha'⟩ := Res.inv ha'
    obtain ⟨row, hr, ha'⟩ := Res.inv ha'
    obtain ⟨k, hk, ha'⟩ := Res.inv ha'
    obtain ⟨u, hu, ha'⟩ := Res.inv ha'
    refine ⟨fun t' ht' => ?_, fun v hv => ?_⟩
    · by_cases e : t' = t
      · rw [e]; exact ⟨u, hu⟩
      · exact ha.1 t' (by omega)
    · have ht : tap f ((p >>> (6 : Nat)) * 15) t = k := by
        unfold tap
        rw [(goGet_inv hf).2, Option.bind_some, (goGet_inv hr).2, Option.bind_some, goGet_inv_nat hk, Option.getD_some]
      rw [← Except.ok.inj ha', ha.2 v (fun t' u' h1 h2 => hv t' u' (by omega) h2), List.range_succ, List.map_append, List.sum_append]
      simp only [List.map_cons, List.map_nil, List.sum_cons, List.sum_nil, Int.add_zero]
      rw [ht, hv t u (by omega) hu]

/-- A sample of a plane at clamped coordinates. -/
def clampedAt (ref : List (List Int)) (lastX lastY row col : Int) : Int :=
  (at2 ref (max 0 (min lastY row)).toNat (max 0 (min lastX col)).toNat).getD 0

theorem clip3_clamp {a b x : Int} (h : a ≤ b) : clip3 a b x = max a (min b x) := by
  unfold clip3
  repeat' split
  all_goals omega

/-- **C162 (values, partial).**  A block predicted from one reference: each pixel is the eight tap filter, first along the rows (of the reference, coordinates clamped to the
plane), rounded, then along the columns, rounded; the filters are those of AV1 for the block's dimensions.  Missing: the row of the table, where the code takes `(p >> 6) * 15`
for `(p >> 6) & 15` (`C162_block_refuted`). -/
theorem C162_values_partial {c : InterCtx} {r : Nat × Nat} {plane i : Nat} {pos : MvPos} {w h : Nat} {cr cc : Nat} {p : List (List Int)}
    (hp : blockInter c r plane i pos w h cr cc = .ok p) (hst : 0 ≤ pos.stepY) {flt : Int × Int} (hflt : at2 c.interpFilters cr cc = some flt)
    (hf : (0 ≤ flt.1 ∧ flt.1 ≤ 3) ∧ 0 ≤ flt.2 ∧ flt.2 ≤ 3) {rw rh : Nat} (hrw : c.refUpscaledWidth[i]? = some rw) (hrh : c.refFrameHeight[i]? = some rh) (hpos : 0 < rw ∧ 0 < rh)
    (hsub : c.subX ≤ 1 ∧ c.subY ≤ 1) :
    ∃ fs ref fx fy, c.frameStore[i]? = some fs ∧ fs[plane]? = some ref ∧ FilterFor w flt.2 fx ∧ FilterFor h flt.1 fy ∧
      let lastX : Int := (((rw + planeSub c.subX plane) >>> planeSub c.subX plane : Nat) : Int) - 1
      let lastY : Int := (((rh + planeSub c.subY plane) >>> planeSub c.subY plane : Nat) : Int) - 1
      let x := fun b : Nat => pos.startX + pos.stepX * b
      let y := fun a : Nat => pos.startY % 1024 + pos.stepY * a
      let mid := fun (a b : Nat) (t : Nat) => round2 (filtered fx ((x b >>> (6 : Nat)) * 15) fun u =>
        clampedAt ref lastX lastY (pos.startY / 1024 + (y a / 1024 + t) - 3) (x b / 1024 + u - 3)) r.1
      ∀ a b, a < h → b < w → at2 p a b = some (round2 (filtered fy ((y a >>> (6 : Nat)) * 15) (mid a b)) r.2) := by
  obtain ⟨rw', rh', fs, flt', ref, m, h1, h2, h3, h4, h5, hm, hp⟩ := blockInter_inv hp
  have e1 : rw' = rw := by rw [goGet_inv_nat h1] at hrw; exact Option.some.inj hrw
  have e2 : rh' = rh := by rw [goGet_inv_nat h2] at hrh; exact Option.some.inj hrh
  have e3 : flt' = flt := by
    have := (gget_inv h4).2.2
    simp only [Int.toNat_natCast] at this
    rw [this] at hflt; exact Option.some.inj hflt
  rw [e1, e2, e3] at hm
  rw [e3] at hp
  refine ⟨fs, ref, _, _, goGet_inv_nat h3, h5, smallFilter_for hf.2, smallFilter_for hf.1, ?_⟩
  intro lastX lastY x y mid a b ha hb
  have sub : ∀ s n : Nat, s ≤ 1 → 0 < n → 0 ≤ (((n + planeSub s plane) >>> planeSub s plane : Nat) : Int) - 1 := by
    intro s n hs hn
    unfold planeSub
    rw [Nat.shiftRight_eq_div_pow]
    split
    · simp; omega
    · rcases Nat.le_one_iff_eq_zero_or_eq_one.1 hs with rfl | rfl <;> simp <;> omega
  have hX := sub _ _ hsub.1 hpos.1
  have hY := sub _ _ hsub.2 hpos.2
  obtain ⟨hsm, hm'⟩ := fill_inv (Shape.replicate 8 8 0) hm
  obtain ⟨-, -, s, hs, hat⟩ := (fill_inv (Shape.replicate 16 16 0) hp).2 a b ha hb
  rw [hat, (filterSum_val hs).2 (mid a b) (fun t u ht hu => ?_)]
  obtain ⟨g1, g2, hu⟩ := gget_inv hu
  rw [Int.toNat_natCast] at hu
  have k1 : pos.stepY * a ≤ ((h : Int) - 1) * pos.stepY := by rw [Int.mul_comm]; exact Int.mul_le_mul_of_nonneg_right (by omega) hst
  have k2 : 0 ≤ pos.stepY * a := Int.mul_nonneg hst (by omega)
  have hin : (((pos.startY % 1024 + pos.stepY * a) >>> (10 : Nat)) + (t : Int)).toNat < interHeight h pos.stepY := by
    unfold interHeight
    simp only [Int.shiftRight_eq_div_pow, Nat.shiftLeft_eq]
    push_cast
    omega
  obtain ⟨-, -, s', hs', hat'⟩ := hm' _ b hin hb
  rw [hat'] at hu
  rw [← Option.some.inj hu]
  have e := (filterSum_val hs').2 (fun u => clampedAt ref lastX lastY (pos.startY / 1024 + (y a / 1024 + t) - 3) (x b / 1024 + u - 3)) (fun u v hu hv => ?_)
  · rw [e]
  · unfold refPixel at hv
    obtain ⟨-, -, hv⟩ := gget_inv hv
    rw [clip3_clamp hX, clip3_clamp hY] at hv
    unfold clampedAt
    have q1 : pos.startY / 1024 + (y a / 1024 + t) - 3 = (pos.startY >>> (10 : Nat)) + ((((pos.startY % 1024 + pos.stepY * a) >>> (10 : Nat)) + (t : Int)).toNat : Int) - 3 := by
      simp only [Int.shiftRight_eq_div_pow] at g1 ⊢
      norm_num at g1 ⊢
      show (pos.startY % 1024 + pos.stepY * a) / 1024 + (t : Int) = _
      omega
    have q2 : x b / 1024 + u - 3 = ((pos.startX + pos.stepX * b) >>> (10 : Nat)) + u - 3 := by
      simp only [Int.shiftRight_eq_div_pow]
      norm_num
      rfl
    rw [q1, q2, hv, Option.getD_some]

/-- A 4x8 block at sample 32/1024 of a plane; the filters are `SMOOTH` for the columns, `EIGHTTAP` for the rows. -/
def demoTight : InterCtx :=
  { subX := 1, subY := 1, refUpscaledWidth := [16], refFrameHeight := [16], interpFilters := [[(1, 0)]],
    frameStore := [[(List.range 16).map fun i => (List.range 16).map fun j => ((i + j : Nat) : Int)]] }
example : (match blockInter demoTight (3, 11) 0 0 ⟨64, 32, 0, 0⟩ 4 4 0 0 with | .ok p => at2 p 1 2 | .error _ => none) = some 1 := by decide +kernel
example : FilterFor 4 0 4 ∧ FilterFor 8 1 1 := ⟨.regular (by decide), .wide (by decide)⟩

/-! ## C166: the choice of a warp -/

/-- AV1, 7.11.3.1: a block is warped if it has at least eight columns and rows, vectors are not restricted to integers, and either local warp is the motion mode and its
parameters are valid, or the mode is `GLOBALMV` (16) or `GLOBAL_GLOBALMV` (24), the global motion of the reference (of type `g`) is more than a translation, the reference is not
scaled (`sc`) and the shear of its parameters is valid. -/
def WantsWarp (c : InterCtx) (w h : Nat) (g : Int) (sc valid : Bool) : Prop :=
  8 ≤ w ∧ 8 ≤ h ∧ c.forceIntegerMv = false ∧
    ((c.motionMode = 2 ∧ c.localValid = true) ∨ ((c.yMode = 16 ∨ c.yMode = 24) ∧ 1 < g ∧ sc = false ∧ valid = true))

theorem globalValid_eq {c : InterCtx} {rf : Nat} {g : Int} {ps : List Int} {sh : Shear} (hg : c.gmType[rf]? = some g) (hps : c.gmParams[rf]? = some ps) (hsh : setupShear ps = .ok sh) :
    globalValid c rf = .ok (decide (c.yMode = 16 ∨ (c.yMode = 24 ∧ 1 < g)) && sh.valid) := by
  unfold globalValid checksGlobal
  by_cases h1 : c.yMode = 16
  · simp only [h1, if_true]
    rw [show (pure true : Res Bool) = .ok true from rfl, Res.ok_bind, if_pos rfl, goGet_of' hps, Res.ok_bind, hsh, Res.ok_bind]
    simp [pure, Except.pure]
  · by_cases h2 : c.yMode = 24
    · rw [if_neg h1, if_pos h2, goGet_of' hg, Res.ok_bind]
      by_cases h3 : 1 < g
      · rw [show (pure (decide (g > 1)) : Res Bool) = .ok true by simp [h3, pure, Except.pure], Res.ok_bind, if_pos rfl, goGet_of' hps, Res.ok_bind, hsh, Res.ok_bind]
        simp [h2, h3, pure, Except.pure]
      · rw [show (pure (decide (g > 1)) : Res Bool) = .ok false by simp [h3, pure, Except.pure], Res.ok_bind, if_neg (by simp)]
        simp [h2, h3, pure, Except.pure]
    · simp only [h1, h2, if_false]
      rw [show (pure false : Res Bool) = .ok false from rfl, Res.ok_bind, if_neg (by simp)]
      simp [h1, h2, pure, Except.pure]

theorem useWarp_eq {c : InterCtx} {w h : Nat} {rf : Nat} {g : Int} {gv sc : Bool} (hg : c.gmType[rf]? = some g) (hsc : isScaled c rf = .ok sc) :
    ∃ u, useWarp c w h rf gv = .ok u ∧ (u ≠ 0 ↔ WantsWarp c w h g sc gv) := by
  unfold useWarp globalWarp WantsWarp
  by_cases h1 : w < 8 ∨ h < 8
  · exact ⟨0, by rw [if_pos h1]; rfl, by simp; omega⟩
  rw [if_neg h1]
  by_cases h2 : c.forceIntegerMv = true
  · exact ⟨0, by rw [if_pos h2]; rfl, by simp [h2]⟩
  rw [if_neg h2]
  by_cases h3 : c.motionMode = 2 ∧ c.localValid = true
  · exact ⟨1, by rw [if_pos h3]; rfl, by simp [h2, h3]; omega⟩
  rw [if_neg h3]
  have hw : 8 ≤ w ∧ 8 ≤ h := by omega
  by_cases h4 : c.yMode = 16 ∨ c.yMode = 24
  · rw [if_pos h4, goGet_of' hg, Res.ok_bind]
    by_cases h5 : g > 1
    · rw [if_pos h5, hsc, Res.ok_bind]
      refine ⟨_, rfl, ?_⟩
      cases sc <;> cases gv <;> simp [h2, h3, h4, h5, hw]
    · rw [if_neg h5]
      exact ⟨0, rfl, by simp [h3, h5]⟩
  · rw [if_neg h4]
    exact ⟨0, rfl, by simp [h3, h4]⟩

/-- **C166 (warps, refuted).**  No block that AV1 predicts by a warp is predicted. -/
theorem C166_warp_refuted {c : InterCtx} {r : Nat × Nat} {plane x y w h : Nat} {cr cc : Int} {rf : Nat} {mv : Int × Int} {g : Int} {sc : Bool} {ps : List Int} {sh : Shear}
    (hg : c.gmType[rf]? = some g) (hsc : isScaled c rf = .ok sc) (hps : c.gmParams[rf]? = some ps) (hsh : setupShear ps = .ok sh)
    (hw : WantsWarp c w h g sc sh.valid) (p : List (List Int)) : predictFrom c r plane x y w h cr cc rf mv ≠ .ok p := by
  intro hp
  unfold predictFrom at hp
  rw [globalValid_eq hg hps hsh, Res.ok_bind] at hp
  obtain ⟨u, hu, hiff⟩ := useWarp_eq (w := w) (h := h) (gv := decide (c.yMode = 16 ∨ (c.yMode = 24 ∧ 1 < g)) && sh.valid) hg hsc
  rw [hu, Res.ok_bind] at hp
  obtain ⟨i, -, hp⟩ := Res.inv hp
  obtain ⟨pos, -, hp⟩ := Res.inv hp
  have : u ≠ 0 := by
    rw [hiff]
    obtain ⟨a, b, e, d⟩ := hw
    refine ⟨a, b, e, d.imp_right fun d => ⟨d.1, d.2.1, d.2.2.1, ?_⟩⟩
    have := d.2.2.2
    rcases d.1 with h | h <;> simp [h, this, d.2.1]
  rw [if_pos this] at hp
  unfold blockWarp at hp
  obtain ⟨q, -, hp⟩ := Res.inv hp
  obtain ⟨s, -, hp⟩ := Res.inv hp
  cases hp

/-- **C166 (no warp, partial).**  A block that AV1 does not warp is predicted by the filters, from the position of its vector in the reference.  Missing: warps
(`C166_warp_refuted`). -/
theorem C166_no_warp_partial {c : InterCtx} {r : Nat × Nat} {plane x y w h : Nat} {cr cc : Int} {rf : Nat} {mv : Int × Int} {g : Int} {sc : Bool} {ps : List Int} {sh : Shear}
    (hg : c.gmType[rf]? = some g) (hsc : isScaled c rf = .ok sc) (hps : c.gmParams[rf]? = some ps) (hsh : setupShear ps = .ok sh) (hbc : c.useIntrabc = false)
    (hw : ¬ WantsWarp c w h g sc sh.valid) {i : Nat} {pos : MvPos} (hi : 1 ≤ rf) (hi' : c.refFrameIdx[rf - 1]? = some i) (hpos : mvScaling c plane i x y mv = .ok pos) :
    predictFrom c r plane x y w h cr cc rf mv = blockInter c r plane i pos w h cr cc := by
  unfold predictFrom
  rw [globalValid_eq hg hps hsh, Res.ok_bind]
  obtain ⟨u, hu, hiff⟩ := useWarp_eq (w := w) (h := h) (gv := decide (c.yMode = 16 ∨ (c.yMode = 24 ∧ 1 < g)) && sh.valid) hg hsc
  rw [hu, Res.ok_bind]
  have hri : refIndex c rf = .ok (i : Int) := by
    unfold refIndex
    rw [hbc, if_neg (by simp), show (rf : Int) - 1 = ((rf - 1 : Nat) : Int) by omega, goGet_of' hi', Res.ok_bind]
    rfl
  rw [hri, Res.ok_bind, hpos, Res.ok_bind, if_neg]
  intro hne
  refine hw ?_
  obtain ⟨a, b, e, d⟩ := hiff.1 hne
  refine ⟨a, b, e, d.imp_right fun d => ⟨d.1, d.2.1, d.2.2.1, ?_⟩⟩
  have := d.2.2.2
  rw [Bool.and_eq_true] at this
  exact this.2

/-- An 8x8 block in mode `GLOBALMV` from a reference of the frame's size: a translation; a rotation and zoom. -/
def demoWarpG (g : Int) : InterCtx :=
  { yMode := 16, gmType := [0, g], gmParams := [[0, 0, 65536, 0, 0, 65536], [0, 0, 65536, 0, 0, 65536]], frameWidth := 8, frameHeight := 8, refFrameIdx := [0],
    refUpscaledWidth := [8], refFrameHeight := [8] }
example : (∃ sh, setupShear [0, 0, 65536, 0, 0, 65536] = .ok sh ∧ sh.valid = true) ∧ isScaled (demoWarpG 2) (1 : Nat) = .ok false := ⟨⟨_, rfl, by decide +kernel⟩, by decide +kernel⟩
example : WantsWarp (demoWarpG 2) 8 8 2 false true ∧ ¬ WantsWarp (demoWarpG 1) 8 8 1 false true ∧ ¬ WantsWarp (demoWarpG 2) 4 8 2 false true := by
  simp [WantsWarp, demoWarpG]
example : mvScaling (demoWarpG 1) 0 (0 : Nat) 0 0 (0, 0) = .ok ⟨32, 32, 0, 0⟩ := by decide +kernel

/-! ## C167: the weights -/

/-- **C167 (weights).**  Where a prediction from a neighbour is blended in, each pixel becomes the weighted mean, with the weight of the mask for its row (for the blocks to the
left: its column). -/
theorem C167_weights {px py w h : Nat} {pass : Bool} {ob : List (List Int)} {mask : List Int} {F F' : List (List Int)}
    (hF : overlapBlend px py w h pass ob mask F = .ok F') :
    ∀ i j, i < h → j < w → ∃ cur o m, at2 F (py + i) (px + j) = some cur ∧ at2 ob i j = some o ∧ mask[if pass then j else i]? = some m ∧
      at2 F' (py + i) (px + j) = some ((m * cur + (64 - m) * o + 32) / 64) := by
  have key := blkMap_inv (x := px) (y := py) (R := fun i j cur v => ∃ o m, at2 ob i j = some o ∧ mask[if pass then j else i]? = some m ∧ v = (m * cur + (64 - m) * o + 32) / 64)
    (fun i j hi hj G G' hg => ?_) hF
  · intro i j hi hj
    obtain ⟨cur, v, h1, ⟨o, m, h2, h3, h4⟩, h5⟩ := key.2 i j hi hj
    exact ⟨cur, o, m, h1, h2, h3, by rw [h5, h4]⟩
  · obtain ⟨m, hm, hg⟩ := Res.inv hg
    obtain ⟨cur, hc, hg⟩ := Res.inv hg
    obtain ⟨o, ho, hg⟩ := Res.inv hg
    have hc := (gget_inv hc).2.2
    have ho := (gget_inv ho).2.2
    simp only [Int.toNat_natCast] at hc ho
    refine ⟨cur, _, hc, ⟨o, m, ho, ?_, rfl⟩, ?_⟩
    · cases pass <;> exact goGet_inv_nat hm
    · have : round2 (m * cur + (64 - m) * o) 6 = (m * cur + (64 - m) * o + 32) / 64 := by
        unfold round2
        rw [if_neg (by decide), Int.shiftRight_eq_div_pow]
        rfl
      rw [← this]; exact hg

example : (match overlapBlend 1 0 2 2 false [[10, 10], [10, 10]] [45, 64] [[0, 50, 50], [0, 50, 50]] with | .ok F => F | .error _ => []) = [[0, 38, 38], [0, 50, 50]] := by decide +kernel

/-! ## C168: which planes, and the intra part -/

/-- **C168 (planes).**  A block without chroma: the chroma planes stay as they are.  With chroma: luma, then both chroma planes. -/
theorem C168_planes {c : CpCtx} {s s' : TbSt} (h : computePrediction c s = .ok s') :
    (c.hasChroma = false → cpPlane c 0 s = .ok s') ∧
    (c.hasChroma = true → ∃ s1 s2, cpPlane c 0 s = .ok s1 ∧ cpPlane c 1 s1 = .ok s2 ∧ cpPlane c 2 s2 = .ok s') := by
  unfold computePrediction at h
  refine ⟨fun hc => ?_, fun hc => ?_⟩
  · rw [hc, if_neg (by simp)] at h
    simp only [forN] at h
    obtain ⟨s1, h1, h⟩ := Res.inv h
    rw [h1, ← Except.ok.inj h]
  · rw [hc, if_pos rfl] at h
    simp only [forN] at h
    obtain ⟨s1, h1, h⟩ := Res.inv h
    obtain ⟨s2, h2, h⟩ := Res.inv h
    obtain ⟨s3, h3, h⟩ := Res.inv h
    exact ⟨s1, s2, h1, h2, by rw [h3, ← Except.ok.inj h]⟩

/-- AV1, 6.10.27: the intra mode of an inter-intra mode (0 `II_DC_PRED`, 1 `II_V_PRED`, 2 `II_H_PRED`, 3 `II_SMOOTH_PRED`). -/
inductive IIMode : Nat → Int → Prop
  | dc : IIMode 0 0
  | v : IIMode 1 1
  | h : IIMode 2 2
  | smooth : IIMode 3 9

/-- **C168 (the intra part).**  A block predicted from one reference and `INTRA_FRAME` is first predicted intra in the plane, at its place and with its size, in the mode that the
inter-intra mode stands for; no other block is. -/
theorem C168_interintra {c : CpCtx} {plane ps : Nat} {dec : List (List Bool)} {s s' : TbSt} (h : cpIntra c plane ps dec s = .ok s') (hm : c.interIntraMode ≤ 3) :
    (¬ (c.isInter = true ∧ c.refFrame1 = 0) → s' = s) ∧
    (c.isInter = true ∧ c.refFrame1 = 0 → ∃ (a : IntraArgs) (F : List (List Int)) (r : List (List Int) × Edge × Edge) (lw lh : Nat),
      s.frames[plane]? = some F ∧ predictIntra c.intra a F s.above s.left = .ok r ∧ IIMode c.interIntraMode a.mode ∧
      a.plane = plane ∧ a.x = (c.inter.miCol >>> planeSub c.inter.subX plane) * 4 ∧ a.y = (c.inter.miRow >>> planeSub c.inter.subY plane) * 4 ∧
      miWidthLog2[ps]? = some lw ∧ miHeightLog2[ps]? = some lh ∧ a.log2W = 2 + lw ∧ a.log2H = 2 + lh ∧
      a.haveLeft = (if plane = 0 then c.intra.availL else c.intra.availLChroma) ∧ a.haveAbove = (if plane = 0 then c.intra.availU else c.intra.availUChroma) ∧
      s'.frames[plane]? = some r.1 ∧ ∀ p, p ≠ plane → s'.frames[p]? = s.frames[p]?) := by
  unfold cpIntra cpInterIntra at h
  refine ⟨fun hn => ?_, fun hy => ?_⟩
  · have : ¬ (c.isInter && c.refFrame1 == 0) = true := by rw [Bool.and_eq_true, beq_iff_eq]; exact hn
    rw [if_neg this] at h
    exact (Except.ok.inj h).symm
  · have : (c.isInter && c.refFrame1 == 0) = true := by rw [Bool.and_eq_true, beq_iff_eq]; exact hy
    rw [if_pos this] at h
    obtain ⟨w4, -, h⟩ := Res.inv h
    obtain ⟨h4, -, h⟩ := Res.inv h
    obtain ⟨lw, hlw, h⟩ := Res.inv h
    obtain ⟨lh, hlh, h⟩ := Res.inv h
    dsimp only at h
    obtain ⟨ar, -, h⟩ := Res.inv h
    obtain ⟨bl, -, h⟩ := Res.inv h
    obtain ⟨F, hF, h⟩ := Res.inv h
    obtain ⟨r, hr, h⟩ := Res.inv h
    obtain ⟨fs, hfs, h⟩ := Res.inv h
    refine ⟨_, F, r, lw, lh, goGet_inv_nat hF, hr, ?_, rfl, rfl, rfl, goGet_inv_nat hlw, goGet_inv_nat hlh, rfl, rfl, rfl, rfl, ?_, ?_⟩
    · dsimp only
      unfold interIntraIntraMode
      obtain e | e | e | e : c.interIntraMode = 0 ∨ c.interIntraMode = 1 ∨ c.interIntraMode = 2 ∨ c.interIntraMode = 3 := by omega
      all_goals rw [e]
      · exact .dc
      · exact .v
      · exact .h
      · exact .smooth
    all_goals rw [← Except.ok.inj h]
    all_goals dsimp only
    all_goals obtain ⟨h0, h1, rfl⟩ := goSet_inv' hfs
    all_goals rw [Int.toNat_natCast] at *
    · rw [List.getElem?_set_self h1]
    · intro p hp
      rw [List.getElem?_set_ne (by omega)]

end Gov1
