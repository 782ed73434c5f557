import Verif.Props.InterScale
/-!
# Block inter prediction
-/
namespace Gov1

/-! ## Arrays filled by nested loops -/

/-- Nested loops that fill the top left of an array: if they end, every value was computed and fits. -/
theorem fill_inv {A : Nat → Nat → Res Int} {g : Int → Int} {H W w h : Nat} {m m' : List (List Int)} (hs : Shape H W m)
    (hm : forN (fun i m => forN (fun j m => do
      let s ← A i j
      gset m (i : Int) (j : Int) (g s)) w 0 m) h 0 m = .ok m') :
    Shape H W m' ∧ ∀ i j, i < h → j < w → i < H ∧ j < W ∧ ∃ s, A i j = .ok s ∧ at2 m' i j = some (g s) := by
  have key := forN_inv (fun n (M : List (List Int)) => Shape H W M ∧ ∀ i j, i < n → j < w → i < H ∧ j < W ∧ ∃ s, A i j = .ok s ∧ at2 M i j = some (g s))
    (fun i M M' _ hi hM hM' => ?_) hm ⟨hs, fun i j hi _ => absurd hi (by omega)⟩
  · rw [Nat.zero_add] at key
    exact key
  · have inner := forN_inv (fun n (N : List (List Int)) => Shape H W N ∧ (∀ j, j < n → i < H ∧ j < W ∧ ∃ s, A i j = .ok s ∧ at2 N i j = some (g s)) ∧
        ∀ a b, a ≠ i → at2 N a b = at2 M a b)
      (fun j N N' _ hj hN hN' => ?_) hM' ⟨hM.1, fun j hj => absurd hj (by omega), fun _ _ _ => rfl⟩
    · rw [Nat.zero_add] at inner
      obtain ⟨h1, h2, h3⟩ := inner
      refine ⟨h1, fun a b ha hb => ?_⟩
      by_cases hai : a = i
      · rw [hai]; exact h2 b hb
      · rw [h3 a b hai]; exact hM.2 a b (by omega) hb
    · obtain ⟨s, hA, hN'⟩ := Res.inv hN'
      obtain ⟨-, -, h3, h4, h5, h6⟩ := gset_inv hN'
      simp only [Int.toNat_natCast] at h3 h4 h5
      have hb : i < H ∧ j < W := by
        rw [Option.isSome_iff_exists] at h3
        obtain ⟨v, hv⟩ := h3
        unfold at2 at hv
        rw [Option.bind_eq_some_iff] at hv
        obtain ⟨r, hr, hrj⟩ := hv
        have := List.mem_of_getElem? hr
        have h7 := hN.1.2 _ this
        have h8 := (List.getElem?_eq_some_iff.1 hr).1
        have h9 := (List.getElem?_eq_some_iff.1 hrj).1
        have := hN.1.1
        omega
      refine ⟨h6 H W hN.1, fun b hb' => ?_, fun a b ha => ?_⟩
      · by_cases hbj : b = j
        · rw [hbj]; exact ⟨hb.1, hb.2, s, hA, h4⟩
        · rw [h5 i b (by simp [hbj])]; exact hN.2.1 b (by omega)
      · rw [h5 a b (by simp [ha])]; exact hN.2.2 a b ha

/-- Nested loops that fill the top left of an array end if the values can be computed and fit. -/
theorem fill_total {A : Nat → Nat → Res Int} {g : Int → Int} {H W w h : Nat} {m : List (List Int)} (hs : Shape H W m) (hh : h ≤ H) (hw : w ≤ W)
    (hA : ∀ i j, i < h → j < w → ∃ s, A i j = .ok s) :
    ∃ m', forN (fun i m => forN (fun j m => do
      let s ← A i j
      gset m (i : Int) (j : Int) (g s)) w 0 m) h 0 m = .ok m' := by
  have key : ∃ m', forN (fun i m => forN (fun j m => do
      let s ← A i j
      gset m (i : Int) (j : Int) (g s)) w 0 m) h 0 m = .ok m' ∧ Shape H W m' := by
    refine forN_total (fun _ (M : List (List Int)) => Shape H W M) (fun i M _ hi hM => ?_) hs
    refine forN_total (fun _ (M : List (List Int)) => Shape H W M) (fun j N _ hj hN => ?_) hM
    obtain ⟨s, hs'⟩ := hA i j (by omega) (by omega)
    obtain ⟨N', hN', hS, -⟩ := gset_ok hN (i := i) (j := j) (by omega) (by omega) (g s)
    exact ⟨N', by rw [hs', Res.ok_bind, hN'], hS⟩
  obtain ⟨m', hm', -⟩ := key
  exact ⟨m', hm'⟩

/-! ## The filters -/

/-- A filter of the table, applied to equal numbers. -/
theorem filterSum_flat {f p : Int} {src : Nat → Res Int} {v s : Int} (hs : ∀ t u, t < 8 → src t = .ok u → u = v) (h : filterSum f p src = .ok s) : s = 128 * v := by
  unfold filterSum at h
  cases hf : goGet subpelFilters f with
  | error e =>
    exact absurd h (forN_never (i := 0) (by omega) (by omega) (fun t t' ht => by rw [hf] at ht; cases ht) s)
  | ok fs =>
    cases hr : goGet fs ((p >>> (6 : Nat)) * 15) with
    | error e =>
      exact absurd h (forN_never (i := 0) (by omega) (by omega) (fun t t' ht => by rw [hf, Res.ok_bind, hr] at ht; cases ht) s)
    | ok row =>
      have hm := List.mem_of_getElem? (goGet_inv hf).2
      have hm' := List.mem_of_getElem? (goGet_inv hr).2
      have h128 := C163_taps_sum.1 fs hm row hm'
      have hl := (C163_shape.1.2 fs hm).2 row hm'
      have key := forN_inv (fun t (s : Int) => s = v * (row.take t).sum) (fun t a a' _ ht ha ha' => ?_) h (by simp)
      · rw [key, Nat.zero_add, List.take_of_length_le (by omega), h128]; omega
      · rw [hf, Res.ok_bind, hr, Res.ok_bind] at ha'
        obtain ⟨k, hk, ha'⟩ := Res.inv ha'
        obtain ⟨u, hu, ha'⟩ := Res.inv ha'
        have hk := goGet_inv_nat hk
        rw [← Except.ok.inj ha', hs _ _ (by omega) hu, ha]
        obtain ⟨hkl, hk⟩ := List.getElem?_eq_some_iff.1 hk
        rw [List.take_succ_eq_append_getElem hkl, List.sum_append, hk]
        simp only [List.sum_cons, List.sum_nil]
        rw [Int.mul_add, Int.add_zero, Int.mul_comm k v]

/-- A whole sample: the fourth of the eight. -/
theorem filterSum_whole {f : Nat} (hf : f < 6) {p : Int} (hp : p >>> (6 : Nat) = 0) {src : Nat → Res Int} {v : Nat → Int} (hs : ∀ t, t < 8 → src t = .ok (v t)) :
    filterSum f p src = .ok (128 * v 3) := by
  have hl : f < subpelFilters.length := by rw [C163_shape.1.1]; exact hf
  have h0 : goGet (subpelFilters[f]) 0 = .ok [0, 0, 0, 128, 0, 0, 0, 0] := goGet_of' (i := 0) (C163_identity _ (List.getElem_mem hl))
  unfold filterSum
  rw [goGet_of' (List.getElem?_eq_getElem hl), hp]
  simp only [Res.ok_bind, h0, Int.zero_mul, forN, hs 0 (by decide), hs 1 (by decide), hs 2 (by decide), hs 3 (by decide), hs 4 (by decide), hs 5 (by decide), hs 6 (by decide), hs 7 (by decide)]
  simp [goGet, Res.ok_bind, pure, Except.pure]

/-! ## C162: block prediction -/

theorem rounds_id (bd : Nat) (v : Int) : round2 (128 * round2 (128 * v) (roundVars false bd).1) (roundVars false bd).2 = v := by
  unfold roundVars
  by_cases h : bd = 12
  · simp only [h, if_true, Bool.false_eq_true, if_false]
    unfold round2
    simp only [Int.shiftRight_eq_div_pow, Nat.shiftLeft_eq]
    norm_num
    omega
  · simp only [h, Bool.false_eq_true, if_false]
    unfold round2
    simp only [Int.shiftRight_eq_div_pow, Nat.shiftLeft_eq]
    norm_num
    omega

/-- Every element of a plane is `v`. -/
def Flat (v : Int) (F : List (List Int)) : Prop := ∀ r k u, at2 F r k = some u → u = v

/-- What `blockInter` reads and does. -/
theorem blockInter_inv {c : InterCtx} {r : Nat × Nat} {plane : Nat} {refIdx : Int} {pos : MvPos} {w h : Nat} {cr cc : Int} {p : List (List Int)}
    (hp : blockInter c r plane refIdx pos w h cr cc = .ok p) :
    ∃ rw rh fs flt ref m, goGet c.refUpscaledWidth refIdx = .ok rw ∧ goGet c.refFrameHeight refIdx = .ok rh ∧ goGet c.frameStore refIdx = .ok fs ∧
      gget c.interpFilters cr cc = .ok flt ∧ fs[plane]? = some ref ∧
      interRows ref (((rw + planeSub c.subX plane) >>> planeSub c.subX plane : Nat) - 1) (((rh + planeSub c.subY plane) >>> planeSub c.subY plane : Nat) - 1)
        pos.startX pos.startY pos.stepX (smallFilter w flt.2) w (interHeight h pos.stepY) r.1 = .ok m ∧
      interCols m pos.startY pos.stepY (smallFilter h flt.1) w h r.2 = .ok p := by
  unfold blockInter at hp
  obtain ⟨rw', h1, hp⟩ := Res.inv hp
  obtain ⟨rh, h2, hp⟩ := Res.inv hp
  obtain ⟨fs, h3, hp⟩ := Res.inv hp
  obtain ⟨flt, h4, hp⟩ := Res.inv hp
  obtain ⟨ref, h5, hp⟩ := Res.inv hp
  obtain ⟨m, h6, hp⟩ := Res.inv hp
  exact ⟨rw', rh, fs, flt, ref, m, h1, h2, h3, h4, goGet_inv_nat h5, h6, hp⟩

/-- **C162 (flat areas, partial).**  From a reference plane that is flat, a block that is predicted (from one reference) is flat with the
same value, at whatever position, step and filter.  Missing: that the prediction follows the motion vector (`C162_block_refuted`). -/
theorem C162_flat_partial {c : InterCtx} {plane : Nat} {i : Nat} {pos : MvPos} {w h : Nat} {cr cc : Int} {p : List (List Int)} {v : Int}
    (hp : blockInter c (roundVars false c.bitDepth) plane i pos w h cr cc = .ok p)
    (hst : 0 ≤ pos.stepY)
    (hv : ∀ fs ref, c.frameStore[i]? = some fs → fs[plane]? = some ref → Flat v ref) :
    ∀ a b, a < h → b < w → at2 p a b = some v := by
  obtain ⟨rw', rh, fs, flt, ref, m, -, -, h3, -, h5, hm, hp⟩ := blockInter_inv hp
  have hfl := hv fs ref (goGet_inv_nat h3) h5
  have hm' := fill_inv (Shape.replicate 8 8 0) hm
  have hp' := fill_inv (Shape.replicate 16 16 0) hp
  intro a b ha hb
  obtain ⟨-, -, s, hs, hat⟩ := hp'.2 a b ha hb
  have e : s = 128 * round2 (128 * v) (roundVars false c.bitDepth).1 := by
    refine filterSum_flat (fun t u ht hu => ?_) hs
    obtain ⟨h1, h2, hu⟩ := gget_inv hu
    rw [Int.toNat_natCast] at hu
    obtain ⟨hr1, hr2⟩ : (((pos.startY % 1024 + pos.stepY * a) >>> (10 : Nat)) + (t : Int)).toNat < 8 ∧ b < 8 := by
      unfold at2 at hu
      rw [Option.bind_eq_some_iff] at hu
      obtain ⟨row, hr, hk⟩ := hu
      have h8 := hm'.1.2 _ (List.mem_of_getElem? hr)
      have h9 := (List.getElem?_eq_some_iff.1 hr).1
      have h10 := (List.getElem?_eq_some_iff.1 hk).1
      have := hm'.1.1
      omega
    by_cases hin : (((pos.startY % 1024 + pos.stepY * a) >>> (10 : Nat)) + (t : Int)).toNat < interHeight h pos.stepY
    · obtain ⟨-, -, s', hs', hat'⟩ := hm'.2 _ b hin hb
      rw [hat'] at hu
      rw [← Option.some.inj hu, filterSum_flat (fun t u ht hu => ?_) hs']
      obtain ⟨-, -, hu⟩ := gget_inv hu
      exact hfl _ _ _ hu
    · refine absurd ?_ hin
      have k1 : pos.stepY * a ≤ ((h : Int) - 1) * pos.stepY := by rw [Int.mul_comm]; exact Int.mul_le_mul_of_nonneg_right (by omega) hst
      have k2 : 0 ≤ pos.stepY * a := Int.mul_nonneg hst (by omega)
      unfold interHeight
      simp only [Int.shiftRight_eq_div_pow, Nat.shiftLeft_eq]
      push_cast
      omega
  rw [hat, e, rounds_id]

/-- **C162 (refuted).**  For a reference of the size of the frame, every block (at most 8 wide and 16 high) whose position plus vector is not
before the frame is predicted as the single sample in the top left corner of the reference, whatever the position, the vector and the filter:
AV1 takes the samples at the position plus the vector. -/
theorem C162_block_refuted {c : InterCtx} (hw : 0 < c.frameWidth) (hh : 0 < c.frameHeight) {plane i x y : Nat} {mv : Int × Int}
    (hr : c.refUpscaledWidth[i]? = some c.frameWidth) (hr' : c.refFrameHeight[i]? = some c.frameHeight)
    (hx : 0 ≤ 16 * (x : Int) + (2 * mv.2) / 2 ^ planeSub c.subX plane) (hy : 0 ≤ 16 * (y : Int) + (2 * mv.1) / 2 ^ planeSub c.subY plane)
    (hsx : c.subX ≤ 1) (hsy : c.subY ≤ 1)
    {fs : List (List (List Int))} {ref : List (List Int)} (hfs : c.frameStore[i]? = some fs) (href : fs[plane]? = some ref) (hS : Shape 16 16 ref)
    {w h cr cc : Nat} (hw8 : w ≤ 8) (hh16 : h ≤ 16) {f0 f1 : Nat} (hflt : at2 c.interpFilters cr cc = some ((f0 : Int), (f1 : Int))) (hf0 : f0 < 4) (hf1 : f1 < 4)
    {px : Int} (hpx : at2 ref 0 0 = some px) :
    ∃ pos p, mvScaling c plane i x y mv = .ok pos ∧ blockInter c (roundVars false c.bitDepth) plane i pos w h cr cc = .ok p ∧
      ∀ a b, a < h → b < w → at2 p a b = some px := by
  refine ⟨⟨32, 32, 0, 0⟩, ?_⟩
  rw [(C161_scaling_refuted c hw hh plane i x y mv hr hr' hx hy).1]
  have hf : ∀ n (f : Nat), f < 4 → ∃ g : Nat, g < 6 ∧ smallFilter n f = g := by
    intro n f hf
    unfold smallFilter
    split
    · split
      · exact ⟨4, by decide, rfl⟩
      · split
        · exact ⟨5, by decide, rfl⟩
        · exact ⟨f, by omega, rfl⟩
    · exact ⟨f, by omega, rfl⟩
  obtain ⟨g1, hg1, eg1⟩ := hf w f1 hf1
  obtain ⟨g0, hg0, eg0⟩ := hf h f0 hf0
  have hsub : ∀ s n : Nat, s ≤ 1 → 0 < n → 0 ≤ (((n + s) >>> s : Nat) : Int) - 1 := by
    intro s n hs hn
    rw [Nat.shiftRight_eq_div_pow]
    obtain rfl | rfl : s = 0 ∨ s = 1 := by omega
    · simp; omega
    · simp; omega
  have hlx := hsub (planeSub c.subX plane) c.frameWidth (by unfold planeSub; split <;> omega) hw
  have hly := hsub (planeSub c.subY plane) c.frameHeight (by unfold planeSub; split <;> omega) hh
  set lastX : Int := (((c.frameWidth + planeSub c.subX plane) >>> planeSub c.subX plane : Nat) : Int) - 1 with elx
  set lastY : Int := (((c.frameHeight + planeSub c.subY plane) >>> planeSub c.subY plane : Nat) : Int) - 1 with ely
  have hcl : ∀ l n : Int, 0 ≤ l → n < 16 → ∃ k : Nat, clip3 0 l n = k ∧ k < 16 ∧ (n = 0 → k = 0) := by
    intro l n hl hn
    unfold clip3
    split
    · exact ⟨0, rfl, by decide, fun _ => rfl⟩
    · split
      · exact ⟨l.toNat, by omega, by omega, fun h => by omega⟩
      · exact ⟨n.toNat, by omega, by omega, fun h => by omega⟩
  have hpix : ∀ a b : Nat, a < 8 → b < 8 → ∃ u, refPixel ref lastX lastY (((32 : Int) >>> (10 : Nat)) + a - 3) (((32 : Int) >>> (10 : Nat)) + b - 3) = .ok u ∧ (a = 3 → b = 3 → u = px) := by
    intro a b ha hb
    obtain ⟨k, hk, hk', hk0⟩ := hcl lastY (((32 : Int) >>> (10 : Nat)) + a - 3) hly (by rw [show (32 : Int) >>> (10 : Nat) = 0 by decide]; omega)
    obtain ⟨l, hl, hl', hl0⟩ := hcl lastX (((32 : Int) >>> (10 : Nat)) + b - 3) hlx (by rw [show (32 : Int) >>> (10 : Nat) = 0 by decide]; omega)
    obtain ⟨u, hu⟩ := hS.at2 hk' hl'
    unfold refPixel
    rw [hk, hl]
    refine ⟨u, gget_at2 hu, fun h3 h3' => ?_⟩
    rw [hk0 (by rw [h3]; decide), hl0 (by rw [h3']; decide), hpx] at hu
    exact (Option.some.inj hu).symm
  -- the horizontal pass
  have hrow : ∀ a b : Nat, a < 8 → b < w → ∃ s, filterSum (smallFilter w f1) (32 + 0 * (b : Int)) (fun t => refPixel ref lastX lastY (((32 : Int) >>> (10 : Nat)) + a - 3) (((32 + 0 * (b : Int)) >>> (10 : Nat)) + t - 3)) = .ok s ∧ (a = 3 → s = 128 * px) := by
    intro a b ha hb
    rw [Int.zero_mul, Int.add_zero, eg1]
    choose! v hv using fun t (ht : t < 8) => hpix a t ha ht
    refine ⟨128 * v 3, filterSum_whole hg1 (by decide) (fun t ht => (hv t ht).1), fun h3 => ?_⟩
    rw [(hv 3 (by decide)).2 h3 rfl]
  have hH : interHeight h 0 = 8 := by
    unfold interHeight
    rw [Int.mul_zero]
    decide
  obtain ⟨m, hm⟩ := fill_total (A := fun a b => filterSum (smallFilter w f1) (32 + 0 * (b : Int)) (fun t => refPixel ref lastX lastY (((32 : Int) >>> (10 : Nat)) + a - 3) (((32 + 0 * (b : Int)) >>> (10 : Nat)) + t - 3)))
    (g := fun s => round2 s (roundVars false c.bitDepth).1) (h := 8) (w := w) (Shape.replicate 8 8 (0 : Int)) (by decide) hw8 (fun a b ha hb => by
      obtain ⟨s, hs, -⟩ := hrow a b ha hb
      exact ⟨s, hs⟩)
  have hm' := fill_inv (Shape.replicate 8 8 (0 : Int)) hm
  have hcol : ∀ a b, a < h → b < w → filterSum (smallFilter h f0) (32 % 1024 + 0 * (a : Int)) (fun t => gget m (((32 % 1024 + 0 * (a : Int)) >>> (10 : Nat)) + t) b) = .ok (128 * round2 (128 * px) (roundVars false c.bitDepth).1) := by
    intro a b ha hb
    rw [Int.zero_mul, eg0]
    have hval : ∀ t : Nat, t < 8 → ∃ u, gget m (((32 % 1024 + (0 : Int)) >>> (10 : Nat)) + t) b = .ok u ∧ (t = 3 → u = round2 (128 * px) (roundVars false c.bitDepth).1) := by
      intro t ht
      obtain ⟨-, -, s, hs, hat⟩ := hm'.2 t b ht hb
      rw [show ((32 % 1024 + (0 : Int)) >>> (10 : Nat)) = 0 by decide, Int.zero_add, gget_at2 hat]
      refine ⟨_, rfl, fun h3 => ?_⟩
      obtain ⟨s', hs', h3'⟩ := hrow t b ht hb
      rw [hs] at hs'
      rw [Except.ok.inj hs', h3' h3]
    choose! v hv using hval
    rw [filterSum_whole hg0 (by decide) (fun t ht => (hv t ht).1), (hv 3 (by decide)).2 rfl]
  obtain ⟨p, hp⟩ := fill_total (A := fun a b => filterSum (smallFilter h f0) (32 % 1024 + 0 * (a : Int)) (fun t => gget m (((32 % 1024 + 0 * (a : Int)) >>> (10 : Nat)) + t) b))
    (g := fun s => round2 s (roundVars false c.bitDepth).2) (h := h) (w := w) (Shape.replicate 16 16 (0 : Int)) hh16 (by omega) (fun a b ha hb => ⟨_, hcol a b ha hb⟩)
  refine ⟨p, rfl, ?_, fun a b ha hb => ?_⟩
  · unfold blockInter
    rw [goGet_of' hr, Res.ok_bind, goGet_of' hr', Res.ok_bind, goGet_of' hfs, Res.ok_bind, gget_at2 hflt, Res.ok_bind, goGet_of' href, Res.ok_bind]
    dsimp only
    rw [hH]
    have e : interRows ref lastX lastY 32 32 0 (smallFilter w f1) w 8 (roundVars false c.bitDepth).1 = .ok m := hm
    rw [← elx, ← ely, e, Res.ok_bind]
    exact hp
  · obtain ⟨-, -, s, hs, hat⟩ := (fill_inv (Shape.replicate 16 16 (0 : Int)) hp).2 a b ha hb
    rw [hcol a b ha hb] at hs
    rw [hat, ← Except.ok.inj hs, rounds_id]

/-- A reference of one plane, for the examples. -/
def demoRef : List (List Int) := (List.range 16).map fun r => (List.range 16).map fun k => ((7 * r + 3 * k : Nat) : Int) + 5
def demoInter : InterCtx :=
  { frameWidth := 16, frameHeight := 16, refFrameIdx := [0], refUpscaledWidth := [16], refFrameHeight := [16], frameStore := [[demoRef]],
    refFrames := [[(1, -1)]], mvs := [[((8, 16), (0, 0))]], interpFilters := [[(0, 2)]], miSizes := [[3]], miSize := 3, miRows := 4, miCols := 4 }

example : Shape 16 16 demoRef ∧ at2 demoRef 0 0 = some 5 ∧ at2 demoRef 4 4 = some 45 := by
  refine ⟨⟨by decide, by decide⟩, by decide, by decide⟩

example : ∃ pos p, mvScaling demoInter 0 0 4 4 (8, 16) = .ok pos ∧ blockInter demoInter (roundVars false 8) 0 0 pos 4 4 0 0 = .ok p ∧ ∀ a b, a < 4 → b < 4 → at2 p a b = some 5 :=
  C162_block_refuted (c := demoInter) (by decide) (by decide) rfl rfl (by decide) (by decide) (by decide) (by decide) rfl rfl ⟨by decide, by decide⟩ (by decide) (by decide) (f0 := 0) (f1 := 2) (by decide) (by decide) (by decide) rfl

end Gov1
