import Verif.Props.Inter
/-!
# Inter prediction of a block
-/
namespace Gov1

/-! ## C165: the pixels a block writes -/

/-- On the diagonal of the square block at (`x`, `y`). -/
def OnDiag (x y h r k : Nat) : Prop := ∃ i, i < h ∧ r = y + i ∧ k = x + i

theorem writePred_inv {x y w h bd : Nat} (hbd : 2 ≤ bd) {v : Nat → Nat → Res Int} {F F' : List (List Int)} (hF : writePred x y w h bd v F = .ok F') :
    (∀ r k, ¬ OnDiag x y h r k → at2 F' r k = at2 F r k) ∧ (0 < w → ∀ r k, OnDiag x y h r k → at2 F' r k = some 2) := by
  have key := forN_inv (fun n (G : List (List Int)) => (∀ r k, ¬ OnDiag x y n r k → at2 G r k = at2 F r k) ∧ (0 < w → ∀ r k, OnDiag x y n r k → at2 G r k = some 2))
    (fun i G G' _ hi hG hG' => ?_) hF ⟨fun _ _ _ => rfl, fun _ r k h => by obtain ⟨i, hi, -⟩ := h; omega⟩
  · rw [Nat.zero_add] at key; exact key
  · have inner := forN_inv (fun n (K : List (List Int)) => (∀ r k, (r, k) ≠ (y + i, x + i) → at2 K r k = at2 G r k) ∧ (0 < n → at2 K (y + i) (x + i) = some 2))
      (fun j K K' _ hj hK hK' => ?_) hG' ⟨fun _ _ _ => rfl, fun h => absurd h (by omega)⟩
    · rw [Nat.zero_add] at inner
      refine ⟨fun r k hrk => ?_, fun hw r k hrk => ?_⟩
      · rw [inner.1 r k (fun he => hrk ⟨i, by omega, by injection he, by injection he⟩)]
        exact hG.1 r k (fun ⟨a, ha, h1, h2⟩ => hrk ⟨a, by omega, h1, h2⟩)
      · obtain ⟨a, ha, h1, h2⟩ := hrk
        by_cases he : a = i
        · rw [h1, h2, he]; exact inner.2 hw
        · rw [inner.1 r k (by rw [h1, h2]; intro h; injection h; omega)]
          exact hG.2 hw r k ⟨a, by omega, h1, h2⟩
    · obtain ⟨p, -, hK'⟩ := Res.inv hK'
      obtain ⟨-, -, -, e1, e2, -⟩ := gset_inv hK'
      simp only [Int.toNat_natCast] at e1 e2
      rw [clip1_two _ hbd] at e1
      exact ⟨fun r k hrk => by rw [e2 r k hrk]; exact hK.1 r k hrk, fun _ => e1⟩

theorem writeBlock_inv {c : InterCtx} (hbd : 2 ≤ c.bitDepth) {x y w h : Nat} (hw : 0 < w) (hh : 0 < h) {p F F' : List (List Int)} (hF : writeBlock c x y w h p F = .ok F') :
    (∀ r k, ¬ OnDiag x y h r k → at2 F' r k = at2 F r k) ∧ ∀ r k, OnDiag x y h r k → at2 F' r k = some 2 := by
  unfold writeBlock at hF
  split at hF
  · unfold writeSecond at hF
    split at hF
    · have := writePred_inv hbd hF
      exact ⟨this.1, this.2 hw⟩
    · rw [if_neg (by omega)] at hF; cases hF
  · have := writePred_inv hbd hF
    exact ⟨this.1, this.2 hw⟩

/-- The steps of `predictInter`. -/
theorem predictInter_inv {c : InterCtx} {plane x y w h : Nat} {cr cc : Int} {F F' : List (List Int)} (hF : predictInter c plane x y w h cr cc F = .ok F') :
    ∃ rf mv p G, gget c.refFrames cr cc = .ok rf ∧ ¬ (plane = 0 ∧ c.motionMode = 2) ∧ gget c.mvs cr cc = .ok mv ∧
      predictFrom c (roundVars (decide (rf.2 > 0)) c.bitDepth) plane x y w h cr cc rf.1 mv.1 = .ok p ∧ ¬ rf.2 > 0 ∧ compoundMasks c plane w h rf = .ok () ∧
      writeBlock c x y w h p F = .ok G ∧ (if c.motionMode = 1 then obmc c (roundVars (decide (rf.2 > 0)) c.bitDepth) plane w h G else .ok G) = .ok F' := by
  unfold predictInter at hF
  obtain ⟨rf, h1, hF⟩ := Res.inv hF
  dsimp only at hF
  split at hF
  · cases hF
  · rename_i hl
    obtain ⟨mv, h2, hF⟩ := Res.inv hF
    obtain ⟨p, h3, hF⟩ := Res.inv hF
    obtain ⟨u, h4, hF⟩ := Res.inv hF
    obtain ⟨u', h5, hF⟩ := Res.inv hF
    obtain ⟨G, h6, hF⟩ := Res.inv hF
    have hc : ¬ rf.2 > 0 := by
      intro hc
      unfold secondRef at h4
      rw [if_pos hc] at h4
      obtain ⟨_, _, h4⟩ := Res.inv h4
      cases h4
    exact ⟨rf, mv, p, G, h1, hl, h2, h3, hc, h5, h6, hF⟩

/-- **C165 (refuted).**  A block that is predicted (without overlap) changes the pixels of its diagonal only, and sets each of them to 2; AV1
writes the predicted value to every pixel of the block. -/
theorem C165_diagonal_refuted {c : InterCtx} (hbd : 2 ≤ c.bitDepth) {plane x y w h : Nat} (hw : 0 < w) (hh : 0 < h) {cr cc : Int} {F F' : List (List Int)}
    (hm : c.motionMode ≠ 1) (hF : predictInter c plane x y w h cr cc F = .ok F') :
    (∀ r k, ¬ OnDiag x y h r k → at2 F' r k = at2 F r k) ∧ ∀ r k, OnDiag x y h r k → at2 F' r k = some 2 := by
  obtain ⟨rf, mv, p, G, -, -, -, -, -, -, hG, hF⟩ := predictInter_inv hF
  rw [if_neg hm] at hF
  rw [← Except.ok.inj hF]
  exact writeBlock_inv hbd hw hh hG

/-! ## C166: the blocks that cannot be predicted -/

theorem blockWarp_never (c : InterCtx) (u : Nat) (rf : Int) (p : List (List Int)) : blockWarp c u rf ≠ .ok p := by
  intro h
  unfold blockWarp at h
  obtain ⟨_, _, h⟩ := Res.inv h
  obtain ⟨_, _, h⟩ := Res.inv h
  cases h

theorem interHeight_zero (h : Nat) : interHeight h 0 = 8 := by
  unfold interHeight
  rw [Int.mul_zero]
  decide

/-- A block that is predicted from a reference is one of plain motion compensation, at most 8 wide and 16 high. -/
theorem predictFrom_inv {c : InterCtx} {r : Nat × Nat} {plane x y w h : Nat} {cr cc rf : Int} {mv : Int × Int} {p : List (List Int)}
    (hp : predictFrom c r plane x y w h cr cc rf mv = .ok p) :
    ∃ i pos, refIndex c rf = .ok i ∧ mvScaling c plane i x y mv = .ok pos ∧ blockInter c r plane i pos w h cr cc = .ok p := by
  unfold predictFrom at hp
  obtain ⟨gv, -, hp⟩ := Res.inv hp
  obtain ⟨uw, -, hp⟩ := Res.inv hp
  obtain ⟨i, h1, hp⟩ := Res.inv hp
  obtain ⟨pos, h2, hp⟩ := Res.inv hp
  split at hp
  · exact absurd hp (blockWarp_never _ _ _ _)
  · exact ⟨i, pos, h1, h2, hp⟩

theorem blockInter_size {c : InterCtx} {r : Nat × Nat} {plane : Nat} {i : Int} {pos : MvPos} {w h : Nat} {cr cc : Int} {p : List (List Int)} (hs : pos.stepY = 0)
    (hp : blockInter c r plane i pos w h cr cc = .ok p) : w ≤ 8 ∧ (0 < w → h ≤ 16) := by
  obtain ⟨rw', rh, fs, flt, ref, m, -, -, -, -, -, hm, hp⟩ := blockInter_inv hp
  have hm' := (fill_inv (Shape.replicate 8 8 0) hm).2
  have hp' := (fill_inv (Shape.replicate 16 16 0) hp).2
  rw [hs, interHeight_zero] at hm'
  constructor
  · by_contra hc
    exact absurd (hm' 0 8 (by omega) (by omega)).2.1 (by omega)
  · intro hw
    by_contra hc
    exact absurd (hp' 16 0 (by omega) (by omega)).1 (by omega)

/-- **C166 (refuted).**  A predicted block is at most 8 wide and 16 high, uses one reference, not intra block copy, is not (in luma) one of
local warp, and its candidate has interpolation filters stored; every other inter block stops the decoder.  In AV1 all of them are decoded. -/
theorem C166_classes_refuted {c : InterCtx} {plane x y w h : Nat} (hw : 0 < w) {cr cc : Int} {F F' : List (List Int)}
    (hF : predictInter c plane x y w h cr cc F = .ok F') :
    w ≤ 8 ∧ h ≤ 16 ∧ c.useIntrabc = false ∧ ¬ (plane = 0 ∧ c.motionMode = 2) ∧
      (∃ rf, gget c.refFrames cr cc = .ok rf ∧ rf.2 ≤ 0) ∧ ∃ flt, gget c.interpFilters cr cc = .ok flt := by
  obtain ⟨rf, mv, p, G, h1, h2, h3, h4, h5, -, -, -⟩ := predictInter_inv hF
  obtain ⟨i, pos, hi, hpos, hb⟩ := predictFrom_inv h4
  obtain ⟨hw8, hh⟩ := blockInter_size (C161_step_refuted hpos).2 hb
  refine ⟨hw8, hh hw, ?_, h2, ⟨rf, h1, by omega⟩, ?_⟩
  · by_contra hc
    unfold refIndex at hi
    rw [if_pos (by simpa using hc)] at hi
    rw [← Except.ok.inj hi, C161_intrabc_refuted] at hpos
    cases hpos
  · obtain ⟨_, _, _, flt, _, _, _, _, _, hf, _⟩ := blockInter_inv hb
    exact ⟨flt, hf⟩

/-- The filters are stored for two rows and two columns only, so a block further down or to the right is never predicted. -/
theorem C166_place_refuted {c : InterCtx} (hsh : Shape 2 2 c.interpFilters) {plane x y w h : Nat} (hw : 0 < w) {cr cc : Nat} (hcr : 2 ≤ cr ∨ 2 ≤ cc) (F F' : List (List Int)) :
    predictInter c plane x y w h cr cc F ≠ .ok F' := by
  intro hF
  obtain ⟨-, -, -, -, -, flt, hf⟩ := C166_classes_refuted hw hF
  obtain ⟨-, -, hf⟩ := gget_inv hf
  unfold at2 at hf
  rw [Option.bind_eq_some_iff] at hf
  obtain ⟨row, hr, hk⟩ := hf
  simp only [Int.toNat_natCast] at hr hk
  have h8 := hsh.2 _ (List.mem_of_getElem? hr)
  have h9 := (List.getElem?_eq_some_iff.1 hr).1
  have h10 := (List.getElem?_eq_some_iff.1 hk).1
  have := hsh.1
  omega

/-- **C166 (partial).**  The blocks that are left are predicted: one reference of the size of the frame, at most 8 x 16, no warp, no mask, inside
the plane. -/
theorem C166_predict_partial {c : InterCtx} (hw : 0 < c.frameWidth) (hh : 0 < c.frameHeight) {plane i x y : Nat} {mv : (Int × Int) × (Int × Int)} {ref : Nat} (href1 : 1 ≤ ref)
    {cr cc : Nat} (hrf : at2 c.refFrames cr cc = some ((ref : Int), -1)) (hmv : at2 c.mvs cr cc = some mv) (hidx : c.refFrameIdx[ref - 1]? = some i)
    (hr : c.refUpscaledWidth[i]? = some c.frameWidth) (hr' : c.refFrameHeight[i]? = some c.frameHeight)
    (hx : 0 ≤ 16 * (x : Int) + (2 * mv.1.2) / 2 ^ planeSub c.subX plane) (hy : 0 ≤ 16 * (y : Int) + (2 * mv.1.1) / 2 ^ planeSub c.subY plane)
    (hsx : c.subX ≤ 1) (hsy : c.subY ≤ 1)
    {fs : List (List (List Int))} {R : List (List Int)} (hfs : c.frameStore[i]? = some fs) (hR : fs[plane]? = some R) (hS : Shape 16 16 R)
    {w h : Nat} (hw8 : w ≤ 8) (hh16 : h ≤ 16) {f0 f1 : Nat} (hflt : at2 c.interpFilters cr cc = some ((f0 : Int), (f1 : Int))) (hf0 : f0 < 4) (hf1 : f1 < 4)
    (hmode : c.yMode ≠ 16 ∧ c.yMode ≠ 24) (hmm : c.motionMode = 0) (hct : c.compoundType = 2) (hib : c.useIntrabc = false)
    {F : List (List Int)} (hF : Shape 16 16 F) (hin : y + h ≤ 16 ∧ x + h ≤ 16) :
    ∃ F', predictInter c plane x y w h cr cc F = .ok F' := by
  obtain ⟨px, hpx⟩ := hS.at2 (show 0 < 16 by decide) (show 0 < 16 by decide)
  obtain ⟨pos, p, hpos, hb, hp⟩ := C162_block_refuted hw hh hr hr' hx hy hsx hsy hfs hR hS hw8 hh16 hflt hf0 hf1 hpx
  have hpf : predictFrom c (roundVars (decide (((ref : Int), (-1 : Int)).2 > 0)) c.bitDepth) plane x y w h cr cc ref mv.1 = .ok p := by
    unfold predictFrom
    have g1 : globalValid c ref = .ok false := by
      unfold globalValid checksGlobal
      rw [if_neg hmode.1, if_neg hmode.2]
      rfl
    have g2 : useWarp c w h ref false = .ok 0 := by
      unfold useWarp globalWarp
      rw [if_neg (show ¬ (c.motionMode = 2 ∧ c.localValid = true) by omega), if_neg (show ¬ (c.yMode = 16 ∨ c.yMode = 24) by omega)]
      split
      · rfl
      · split <;> rfl
    have g3 : refIndex c ref = .ok (i : Int) := by
      unfold refIndex
      rw [if_neg (by rw [hib]; decide), show (ref : Int) - 1 = ((ref - 1 : Nat) : Int) by omega, goGet_of' hidx, Res.ok_bind]
      rfl
    rw [g1, Res.ok_bind, g2, Res.ok_bind, g3, Res.ok_bind, hpos, Res.ok_bind, if_neg (by decide)]
    exact hb
  have hsize : Shape 16 16 p := by
    obtain ⟨_, _, _, _, _, m, _, _, _, _, _, _, hc⟩ := blockInter_inv hb
    exact (fill_inv (Shape.replicate 16 16 0) hc).1
  have hwr : ∀ v : Nat → Nat → Res Int, (∀ a b, a < h → b < w → ∃ u, v a b = .ok u) → ∃ F', writePred x y w h c.bitDepth v F = .ok F' := by
    intro v hv
    have key : ∃ F', writePred x y w h c.bitDepth v F = .ok F' ∧ Shape 16 16 F' := by
      unfold writePred
      refine forN_total (fun _ (M : List (List Int)) => Shape 16 16 M) (fun a M _ ha hM => ?_) hF
      refine forN_total (fun _ (M : List (List Int)) => Shape 16 16 M) (fun b N _ hb hN => ?_) hM
      obtain ⟨u, hu⟩ := hv a b (by omega) (by omega)
      obtain ⟨N', hN', hS', -⟩ := gset_ok hN (i := y + a) (j := x + a) (by omega) (by omega) (clip1 u c.bitDepth)
      exact ⟨N', by rw [hu, Res.ok_bind, hN'], hS'⟩
    obtain ⟨F', h1, -⟩ := key
    exact ⟨F', h1⟩
  have hwb : ∃ F', writeBlock c x y w h p F = .ok F' := by
    unfold writeBlock writeSecond
    rw [if_pos hct]
    split
    · exact hwr _ fun a b ha hb => ⟨_, by rw [gget_at2 (hp a b ha hb)]; rfl⟩
    · exact hwr _ fun a b ha hb => ⟨_, gget_at2 (hp a b ha hb)⟩
  obtain ⟨F', hF'⟩ := hwb
  refine ⟨F', ?_⟩
  unfold predictInter
  rw [gget_at2 hrf, Res.ok_bind]
  dsimp only
  rw [if_neg (by omega), gget_at2 hmv, Res.ok_bind, hpf, Res.ok_bind]
  have g4 : secondRef c (roundVars (decide ((-1 : Int) > 0)) c.bitDepth) plane x y w h cr cc ((ref : Int), -1) mv = .ok () := by
    unfold secondRef
    rw [if_neg (show ¬ ((-1 : Int) > 0) by decide)]
    rfl
  have g5 : compoundMasks c plane w h ((ref : Int), -1) = .ok () := by
    unfold compoundMasks
    rw [hct]
    rfl
  rw [g4, Res.ok_bind, g5, Res.ok_bind, hF', Res.ok_bind, if_neg (by omega)]
  rfl

/-- A frame for the examples. -/
def demoFrame : List (List Int) := List.replicate 16 (List.replicate 16 9)

example : ∃ F', predictInter demoInter 0 4 4 4 4 (0 : Nat) (0 : Nat) demoFrame = .ok F' :=
  C166_predict_partial (c := demoInter) (by decide) (by decide) (ref := 1) (by decide) (mv := ((8, 16), (0, 0))) rfl rfl rfl rfl rfl (by decide) (by decide) (by decide) (by decide) rfl rfl
    ⟨by decide, by decide⟩ (by decide) (by decide) (f0 := 0) (f1 := 2) (by decide) (by decide) (by decide) (by decide) rfl rfl rfl ⟨by decide, by decide⟩ (by decide)

example : (demoInter.motionMode ≠ 1 ∧ 2 ≤ demoInter.bitDepth) ∧ OnDiag 4 4 4 5 5 ∧ ¬ OnDiag 4 4 4 4 5 :=
  ⟨by decide, ⟨1, by decide, rfl, rfl⟩, fun ⟨i, _, h1, h2⟩ => by omega⟩

/-! ## C167: overlapped motion compensation -/

/-- Nested loops over a block, each turn reading and writing its own pixel. -/
theorem blkMap_inv {R : Nat → Nat → Int → Int → Prop} {g : Nat → Nat → List (List Int) → Res (List (List Int))} {x y w h : Nat}
    (hg : ∀ i j, i < h → j < w → ∀ G G', g i j G = .ok G' → ∃ cur v, at2 G (y + i) (x + j) = some cur ∧ R i j cur v ∧ gset G ((y + i : Nat) : Int) ((x + j : Nat) : Int) v = .ok G')
    {F F' : List (List Int)} (hF : forN (fun i F => forN (fun j F => g i j F) w 0 F) h 0 F = .ok F') :
    (∀ r k, ¬ InBlk x y w h r k → at2 F' r k = at2 F r k) ∧
    ∀ i j, i < h → j < w → ∃ cur v, at2 F (y + i) (x + j) = some cur ∧ R i j cur v ∧ at2 F' (y + i) (x + j) = some v := by
  have key := forN_inv (fun n (G : List (List Int)) => (∀ r k, ¬ InBlk x y w n r k → at2 G r k = at2 F r k) ∧
      ∀ i j, i < n → j < w → ∃ cur v, at2 F (y + i) (x + j) = some cur ∧ R i j cur v ∧ at2 G (y + i) (x + j) = some v)
    (fun i G G' _ hi hG hG' => ?_) hF ⟨fun _ _ _ => rfl, fun i j hi => absurd hi (by omega)⟩
  · rw [Nat.zero_add] at key; exact key
  · have inner := forN_inv (fun n (K : List (List Int)) => (∀ r k, (r ≠ y + i ∨ k < x ∨ x + n ≤ k) → at2 K r k = at2 G r k) ∧
        ∀ j, j < n → ∃ cur v, at2 F (y + i) (x + j) = some cur ∧ R i j cur v ∧ at2 K (y + i) (x + j) = some v)
      (fun j K K' _ hj hK hK' => ?_) hG' ⟨fun _ _ _ => rfl, fun j hj => absurd hj (by omega)⟩
    · rw [Nat.zero_add] at inner
      refine ⟨fun r k hrk => ?_, fun a b ha hb => ?_⟩
      · unfold InBlk at hrk hG
        rw [inner.1 r k (by omega)]
        exact hG.1 r k (by omega)
      · by_cases he : a = i
        · rw [he]; exact inner.2 b hb
        · obtain ⟨cur, v, h1, h2, h3⟩ := hG.2 a b (by omega) hb
          exact ⟨cur, v, h1, h2, by rw [inner.1 _ _ (by omega)]; exact h3⟩
    · obtain ⟨cur, v, hc, hR, hs⟩ := hg i j (by omega) (by omega) K K' hK'
      obtain ⟨-, -, -, e1, e2, -⟩ := gset_inv hs
      simp only [Int.toNat_natCast] at e1 e2
      refine ⟨fun r k hrk => ?_, fun b hb => ?_⟩
      · rw [e2 r k (by intro he; injection he; omega)]
        exact hK.1 r k (by omega)
      · by_cases he : b = j
        · rw [he]
          refine ⟨cur, v, ?_, hR, e1⟩
          rw [hK.1 _ _ (by omega)] at hc
          rw [← hG.1 _ _ (by unfold InBlk; omega)]
          exact hc
        · obtain ⟨cur', v', h1, h2, h3⟩ := hK.2 b (by omega)
          exact ⟨cur', v', h1, h2, by rw [e2 _ _ (by intro h; injection h; omega)]; exact h3⟩

/-- `v` lies between `a` and `b`, whichever is larger. -/
def Mid (a b v : Int) : Prop := (a ≤ v ∧ v ≤ b) ∨ (b ≤ v ∧ v ≤ a)

theorem blend_mid {m a b : Int} (h0 : 0 ≤ m) (h1 : m ≤ 64) : Mid a b (round2 (m * a + (64 - m) * b) 6) ∧ (m = 64 → round2 (m * a + (64 - m) * b) 6 = a) := by
  unfold round2 Mid
  rw [if_neg (by decide), Int.shiftRight_eq_div_pow, Nat.shiftLeft_eq]
  norm_num
  refine ⟨?_, ?_⟩
  · rcases Int.le_total a b with h | h
    · have k1 : m * a + (64 - m) * a ≤ m * a + (64 - m) * b := Int.add_le_add_left (Int.mul_le_mul_of_nonneg_left h (by omega)) _
      have k2 : m * a + (64 - m) * b ≤ m * b + (64 - m) * b := Int.add_le_add_right (Int.mul_le_mul_of_nonneg_left h h0) _
      rw [← Int.add_mul] at k1 k2
      rw [show m + (64 - m) = 64 by omega] at k1 k2
      left; omega
    · have k1 : m * a + (64 - m) * b ≤ m * a + (64 - m) * a := Int.add_le_add_left (Int.mul_le_mul_of_nonneg_left h (by omega)) _
      have k2 : m * b + (64 - m) * b ≤ m * a + (64 - m) * b := Int.add_le_add_right (Int.mul_le_mul_of_nonneg_left h h0) _
      rw [← Int.add_mul] at k1 k2
      rw [show m + (64 - m) = 64 by omega] at k1 k2
      right; omega
  · rintro rfl
    omega

theorem obmcMask_range (n : Int) : ∀ m ∈ getObmcMask n, 0 ≤ m ∧ m ≤ 64 := by
  unfold getObmcMask
  split
  · decide
  · split
    · decide
    · split
      · decide
      · split <;> decide

/-- **C167 (blending).**  Blending with a mask of the table changes the pixels of the block only; each becomes a number between what it was and
the prediction from the neighbour. -/
theorem C167_blend {px py w h : Nat} {pass : Bool} {ob : List (List Int)} {n : Int} {F F' : List (List Int)}
    (hF : overlapBlend px py w h pass ob (getObmcMask n) F = .ok F') :
    (∀ r k, ¬ InBlk px py w h r k → at2 F' r k = at2 F r k) ∧
    ∀ i j, i < h → j < w → ∃ cur o v, at2 F (py + i) (px + j) = some cur ∧ at2 ob i j = some o ∧ at2 F' (py + i) (px + j) = some v ∧ Mid cur o v := by
  have key := blkMap_inv (x := px) (y := py) (R := fun i j cur v => ∃ o, at2 ob i j = some o ∧ Mid cur o v) (fun i j hi hj G G' hg => ?_) hF
  · refine ⟨key.1, fun i j hi hj => ?_⟩
    obtain ⟨cur, v, h1, ⟨o, h2, h3⟩, h4⟩ := key.2 i j hi hj
    exact ⟨cur, o, v, h1, h2, h4, h3⟩
  · obtain ⟨m, hm, hg⟩ := Res.inv hg
    obtain ⟨cur, hc, hg⟩ := Res.inv hg
    obtain ⟨o, ho, hg⟩ := Res.inv hg
    have hr := obmcMask_range n m (List.mem_of_getElem? (goGet_inv hm).2)
    have hc := (gget_inv hc).2.2
    have ho := (gget_inv ho).2.2
    simp only [Int.toNat_natCast] at hc ho
    exact ⟨cur, _, hc, ⟨o, ho, (blend_mid hr.1 hr.2).1⟩, hg⟩

/-- A blended pixel of `bd` bits has `bd` bits. -/
theorem Mid.btw {a b v lo hi : Int} (h : Mid a b v) (ha : Btw lo hi a) (hb : Btw lo hi b) : Btw lo hi v := by
  unfold Mid at h; unfold Btw at *; omega

theorem clipPred_inv {bd w h : Nat} (hbd : 2 ≤ bd) {p p' : List (List Int)} (hp : clipPred bd w h p = .ok p') : ∀ i j, i < h → j < w → at2 p' i j = some 2 := by
  have hp0 : forN (fun i p => forN (fun j p => do
    let v ← gget p i j
    gset p ((0 + i : Nat) : Int) ((0 + j : Nat) : Int) (clip1 v bd)) w 0 p) h 0 p = .ok p' := by
    simp only [Nat.zero_add]; exact hp
  have key := blkMap_inv (x := 0) (y := 0) (R := fun _ _ _ v => v = 2) (fun i j hi hj G G' hg => ?_) hp0
  · intro i j hi hj
    obtain ⟨cur, v, -, hv, h4⟩ := key.2 i j hi hj
    rw [hv] at h4
    simpa using h4
  · obtain ⟨v, hv, hg⟩ := Res.inv hg
    have hv := (gget_inv hv).2.2
    simp only [Int.toNat_natCast] at hv
    exact ⟨v, _, by simpa using hv, clip1_two _ hbd, hg⟩

theorem two_btw {bd : Nat} (h : 2 ≤ bd) : Btw 0 (2 ^ bd - 1) 2 := by
  have : (2 : Int) ^ 2 ≤ 2 ^ bd := pow_le_pow_right₀ (by decide) h
  unfold Btw; norm_num at this ⊢; omega

/-- Blocks of a plane that were blended: pixels of `bd` bits stay so. -/
theorem predictOverlap_in {c : InterCtx} (hbd : 2 ≤ c.bitDepth) {r : Nat × Nat} {plane x4 y4 w h : Nat} {cr cc rf : Int} {F F' : List (List Int)} (hi : FrameIn c.bitDepth F)
    (hF : predictOverlap c r plane x4 y4 w h cr cc rf F = .ok F') : FrameIn c.bitDepth F' := by
  unfold predictOverlap at hF
  obtain ⟨mvs, -, hF⟩ := Res.inv hF
  obtain ⟨i, -, hF⟩ := Res.inv hF
  obtain ⟨pos, -, hF⟩ := Res.inv hF
  obtain ⟨ob, -, hF⟩ := Res.inv hF
  obtain ⟨ob', ho, hF⟩ := Res.inv hF
  obtain ⟨k1, k2⟩ := C167_blend hF
  have h2 := clipPred_inv hbd ho
  intro a b v hv
  by_cases hb : InBlk ((x4 * 4) >>> planeSub c.subX plane) ((y4 * 4) >>> planeSub c.subY plane) w h a b
  · unfold InBlk at hb
    generalize (x4 * 4) >>> planeSub c.subX plane = px at *
    generalize (y4 * 4) >>> planeSub c.subY plane = py at *
    obtain ⟨i, rfl⟩ : ∃ i, a = py + i := ⟨a - py, by omega⟩
    obtain ⟨j, rfl⟩ : ∃ j, b = px + j := ⟨b - px, by omega⟩
    obtain ⟨cur, o, v', h1, h3, h4, h5⟩ := k2 i j (by omega) (by omega)
    rw [h2 i j (by omega) (by omega)] at h3
    rw [h4] at hv
    rw [← Option.some.inj hv]
    exact h5.btw (hi _ _ _ h1) (by rw [← Option.some.inj h3]; exact two_btw hbd)
  · rw [k1 a b hb] at hv
    exact hi a b v hv

theorem obmcAbove_in {c : InterCtx} (hbd : 2 ≤ c.bitDepth) {r : Nat × Nat} {plane w h nl xe : Nat} {fuel n x4 : Nat} {F F' : List (List Int)} (hi : FrameIn c.bitDepth F)
    (hF : obmcAbove c r plane w h nl xe fuel n x4 F = .ok F') : FrameIn c.bitDepth F' := by
  induction fuel generalizing n x4 F with
  | zero => cases hF
  | succ fuel ih =>
    rw [obmcAbove] at hF
    split at hF
    · obtain ⟨sz, -, hF⟩ := Res.inv hF
      obtain ⟨st, -, hF⟩ := Res.inv hF
      obtain ⟨rf, -, hF⟩ := Res.inv hF
      split at hF
      · obtain ⟨G, hG, hF⟩ := Res.inv hF
        exact ih (predictOverlap_in hbd hi hG) hF
      · exact ih hi hF
    · rw [← Except.ok.inj hF]; exact hi

theorem obmcLeft_in {c : InterCtx} (hbd : 2 ≤ c.bitDepth) {r : Nat × Nat} {plane w h nl xe : Nat} {fuel n y4 : Nat} {F F' : List (List Int)} (hi : FrameIn c.bitDepth F)
    (hF : obmcLeft c r plane w h nl xe fuel n y4 F = .ok F') : FrameIn c.bitDepth F' := by
  induction fuel generalizing n y4 F with
  | zero => cases hF
  | succ fuel ih =>
    rw [obmcLeft] at hF
    split at hF
    · obtain ⟨sz, -, hF⟩ := Res.inv hF
      obtain ⟨st, -, hF⟩ := Res.inv hF
      obtain ⟨rf, -, hF⟩ := Res.inv hF
      split at hF
      · obtain ⟨G, hG, hF⟩ := Res.inv hF
        exact ih (predictOverlap_in hbd hi hG) hF
      · exact ih hi hF
    · rw [← Except.ok.inj hF]; exact hi

theorem obmc_in {c : InterCtx} (hbd : 2 ≤ c.bitDepth) {r : Nat × Nat} {plane w h : Nat} {F F' : List (List Int)} (hi : FrameIn c.bitDepth F)
    (hF : obmc c r plane w h F = .ok F') : FrameIn c.bitDepth F' := by
  unfold obmc at hF
  obtain ⟨G, hG, hF⟩ := Res.inv hF
  have hGi : FrameIn c.bitDepth G := by
    unfold obmcUp at hG
    split at hG
    · obtain ⟨ps, -, hG⟩ := Res.inv hG
      split at hG
      · obtain ⟨w4, -, hG⟩ := Res.inv hG
        obtain ⟨lg, -, hG⟩ := Res.inv hG
        exact obmcAbove_in hbd hi hG
      · rw [← Except.ok.inj hG]; exact hi
    · rw [← Except.ok.inj hG]; exact hi
  unfold obmcSide at hF
  split at hF
  · obtain ⟨h4, -, hF⟩ := Res.inv hF
    obtain ⟨lg, -, hF⟩ := Res.inv hF
    exact obmcLeft_in hbd hGi hF
  · rw [← Except.ok.inj hF]; exact hGi

/-- **C165 (range).**  Inter prediction leaves every pixel of the plane in the range of the bit depth. -/
theorem C165_range {c : InterCtx} (hbd : 2 ≤ c.bitDepth) {plane x y w h : Nat} (hw : 0 < w) (hh : 0 < h) {cr cc : Int} {F F' : List (List Int)} (hi : FrameIn c.bitDepth F)
    (hF : predictInter c plane x y w h cr cc F = .ok F') : FrameIn c.bitDepth F' := by
  obtain ⟨rf, mv, p, G, -, -, -, -, -, -, hG, hF⟩ := predictInter_inv hF
  have hb := writeBlock_inv hbd hw hh hG
  have hGi : FrameIn c.bitDepth G := by
    intro a b v hv
    by_cases hd : OnDiag x y h a b
    · rw [hb.2 a b hd] at hv
      rw [← Option.some.inj hv]; exact two_btw hbd
    · rw [hb.1 a b hd] at hv
      exact hi a b v hv
  split at hF
  · exact obmc_in hbd hGi hF
  · rw [← Except.ok.inj hF]; exact hGi

/-- The mask of a power of two up to 16 has that many entries. -/
theorem obmcMask_len : ∀ n ∈ [2, 4, 8, 16], (getObmcMask (n : Nat)).length = n := by decide

/-- **C167 (left neighbours, refuted).**  The mask for a neighbour to the left has an entry for every column, and is indexed by the row: when the
strip is higher than wide (2, 4, 8 or 16 columns), the decoder panics. -/
theorem C167_left_refuted {c : InterCtx} {r : Nat × Nat} {plane x4 y4 w h : Nat} {cr cc rf : Int} (hw : w ∈ [2, 4, 8, 16]) (hh : w < h) (F F' : List (List Int)) :
    predictOverlap c r plane x4 y4 w h cr cc rf F ≠ .ok F' := by
  intro hF
  unfold predictOverlap at hF
  obtain ⟨mvs, -, hF⟩ := Res.inv hF
  obtain ⟨i, -, hF⟩ := Res.inv hF
  obtain ⟨pos, -, hF⟩ := Res.inv hF
  obtain ⟨ob, -, hF⟩ := Res.inv hF
  obtain ⟨ob', -, hF⟩ := Res.inv hF
  unfold overlapBlend at hF
  have hw0 : 0 < w := by simp at hw; omega
  refine absurd hF (forN_never (i := w) (by omega) (by omega) (fun G G' hG => ?_) F')
  refine absurd hG (forN_never (i := 0) (by omega) (by omega) (fun K K' hK => ?_) G')
  obtain ⟨m, hm, -⟩ := Res.inv hK
  have hm := goGet_inv_nat hm
  have hl := (List.getElem?_eq_some_iff.1 hm).1
  rw [obmcMask_len w hw] at hl
  omega

/-- **C167 (luma, refuted).**  A luma block of 8 by 8 or 8 by 16 pixels with a neighbour to the left that is inter predicted: the decoder panics.
(Wider blocks panic before, `C166_classes_refuted`.) -/
theorem C167_luma_refuted {c : InterCtx} {r : Nat × Nat} {h : Nat} (hh : 8 ≤ h) (hl : c.availL = true) (hsz : c.miSize = 3 ∨ c.miSize = 4) (hmi : c.miRow < c.miRows)
    {sz : Nat} (hs : gget c.miSizes ((c.miRow ||| 1 : Nat) : Int) ((c.miCol : Int) - 1) = .ok sz)
    {rf : Int × Int} (hrf : gget c.refFrames ((c.miRow ||| 1 : Nat) : Int) ((c.miCol : Int) - 1) = .ok rf) (hpos : rf.1 > 0) (F F' : List (List Int)) :
    obmcSide c r 0 8 h F ≠ .ok F' := by
  intro hF
  unfold obmcSide at hF
  rw [if_pos hl] at hF
  obtain ⟨h4, e4, hF⟩ := Res.inv hF
  obtain ⟨lg, eg, hF⟩ := Res.inv hF
  have e4 := goGet_inv_nat e4
  have eg := goGet_inv_nat eg
  have hb : 2 ≤ h4 ∧ 1 ≤ lg := by
    rcases hsz with h | h <;> rw [h] at e4 eg <;> rw [← Option.some.inj e4, ← Option.some.inj eg] <;> decide
  rw [obmcLeft, if_pos (by omega)] at hF
  dsimp only at hF
  rw [hs, Res.ok_bind] at hF
  obtain ⟨st, est, hF⟩ := Res.inv hF
  rw [hrf, Res.ok_bind, if_pos hpos] at hF
  obtain ⟨G, hG, -⟩ := Res.inv hF
  have hst : 2 ≤ st := by
    unfold obmcStep at est
    obtain ⟨n, -, est⟩ := Res.inv est
    rw [← Except.ok.inj est]
    unfold clip3
    split
    · decide
    · split
      · decide
      · omega
  refine C167_left_refuted ?_ ?_ F G hG
  · simp [planeSub]
  · simp only [planeSub, if_true, Nat.shiftRight_zero]
    have : min (8 >>> 1) 32 = 4 := by decide
    rw [this]; omega

example : FrameIn 8 [[100, 40], [7, 255]] ∧ overlapBlend 0 0 2 2 false [[10, 200], [30, 0]] (getObmcMask 2) [[100, 40], [7, 255]] = .ok [[73, 88], [7, 255]] := by
  refine ⟨?_, by decide⟩
  intro a b v hv
  rcases a with - | - | a <;> rcases b with - | - | b <;> simp [at2] at hv <;> subst hv <;> unfold Btw <;> decide

end Gov1
