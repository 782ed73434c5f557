import Verif.Model.Decoder
import Verif.Lemmas.Stream
import Verif.Props.Output
import Verif.Props.LoopRestoration
import Verif.Props.FrameHeader
import Verif.Props.TileGroup
/-!
# The whole decoder: what is output

Theorems about every stream that the decoder accepts, whatever it contains.
-/
namespace Gov1

/-! ## Headers -/

/-- A colour configuration as the parser makes it (the zero value before the first sequence header included). -/
def DepthOk (sh : SeqHeader) : Prop :=
  (sh.colorConfig.numPlanes = 0 ∨ sh.colorConfig.numPlanes = 1 ∨ sh.colorConfig.numPlanes = 3) ∧
  (sh.colorConfig.bitDepth = 0 ∨ sh.colorConfig.bitDepth = 8 ∨ sh.colorConfig.bitDepth = 10 ∨ sh.colorConfig.bitDepth = 12)

theorem newColorConfig_depth (p : Nat) : Ensures (newColorConfig p) (fun c =>
    (c.numPlanes = 0 ∨ c.numPlanes = 1 ∨ c.numPlanes = 3) ∧ (c.bitDepth = 0 ∨ c.bitDepth = 8 ∨ c.bitDepth = 10 ∨ c.bitDepth = 12)) := by
  unfold newColorConfig
  refine Ensures.bindT fun hb => ?_
  refine Ensures.bind (P := fun r : Bool × Nat => r.2 = 0 ∨ r.2 = 8 ∨ r.2 = 10 ∨ r.2 = 12) ?_ fun r hr => ?_
  · unfold ccBitDepth
    refine Ensures.ite (fun _ => Ensures.bindT fun t => Ensures.pure ?_) (fun _ => Ensures.ite (fun _ => Ensures.pure ?_) (fun _ => Ensures.pure (Or.inl rfl)))
    · cases t <;> simp
    · cases hb <;> simp
  refine Ensures.bindT fun mono => ?_
  dsimp only
  refine Ensures.bindT fun d => ?_
  have hn : (if mono = true then 1 else 3) = 0 ∨ (if mono = true then 1 else 3) = 1 ∨ (if mono = true then 1 else 3) = 3 := by cases mono <;> simp
  refine Ensures.ite (fun _ => Ensures.bindT fun _ => Ensures.pure ⟨hn, hr⟩) (fun _ => ?_)
  refine Ensures.ite (fun _ => Ensures.bindT fun _ => Ensures.pure ⟨hn, hr⟩) (fun _ => ?_)
  exact Ensures.bindT fun _ => Ensures.bindT fun _ => Ensures.bindT fun _ => Ensures.bindT fun _ => Ensures.pure ⟨hn, hr⟩

theorem newSequenceHeader_depth (s : State) : Ensures (newSequenceHeader s) (fun x => DepthOk x.1) := by
  unfold newSequenceHeader
  refine Ensures.bindT fun _ => Ensures.bindT fun _ => Ensures.bindT fun _ => Ensures.bindT fun _ => ?_
  dsimp only
  refine Ensures.bindT fun r => Ensures.bindT fun _ => Ensures.bindT fun _ => Ensures.bindT fun _ => ?_
  refine Ensures.bind (newColorConfig_depth _) fun cc hcc => Ensures.bindT fun _ => Ensures.pure ?_
  exact hcc

/-- A header read from the stream that announces a frame to be shown gives it a size. -/
def ShownSize (u : UHeader) : Prop := u.showFrame = true → 1 ≤ u.size.upscaledWidth ∧ 1 ≤ u.size.frameHeight

theorem frameSize_pos (sh : SeqHeader) (ov : Bool) : Ensures (frameSize sh ov) (fun fs => 1 ≤ fs.upscaledWidth ∧ 1 ≤ fs.frameHeight) := by
  unfold frameSize
  refine Ensures.bind (P := fun r : Nat × Nat => 1 ≤ r.1 ∧ 1 ≤ r.2) ?_ fun r hr => Ensures.bindT fun x => Ensures.pure hr
  refine Ensures.ite (fun _ => Ensures.bindT fun _ => Ensures.bindT fun _ => Ensures.pure ?_) (fun _ => Ensures.pure ?_)
  all_goals exact ⟨by dsimp only; omega, by dsimp only; omega⟩

theorem uhRest_size (h : Header) (sh : SeqHeader) (u : UHeader) (er : Bool) (st : FrameState) :
    Ensures (uhRest h sh u er st) (fun x => 1 ≤ x.1.size.upscaledWidth ∧ 1 ≤ x.1.size.frameHeight) := by
  unfold uhRest
  refine Ensures.bindT fun x => ?_
  dsimp only
  refine Ensures.bind (P := fun x : UHeader × FrameState => 1 ≤ x.1.size.upscaledWidth ∧ 1 ≤ x.1.size.frameHeight) ?_ fun y hy => ?_
  · refine Ensures.ite (fun _ => ?_) (fun _ => ?_)
    · unfold uhIntra
      exact Ensures.bind (frameSize_pos sh _) fun fs hfs => Ensures.bindT fun _ => Ensures.bindT fun _ => Ensures.pure hfs
    · unfold uhInter
      refine Ensures.bindT fun _ => Ensures.bindT fun _ => Ensures.ite (fun _ => Ensures.fail _) fun _ => ?_
      exact Ensures.bind (frameSize_pos sh _) fun fs hfs => Ensures.bindT fun _ => Ensures.bindT fun _ => Ensures.bindT fun _ =>
        Ensures.bindT fun _ => Ensures.bindT fun _ => Ensures.bindT fun _ => Ensures.pure hfs
  refine Ensures.bindT fun dfe => Ensures.ite (fun _ => Ensures.fail _) fun _ => Ensures.ite (fun _ => Ensures.fail _) fun _ => ?_
  refine Ensures.bind (P := fun x : UHeader × FrameState => 1 ≤ x.1.size.upscaledWidth ∧ 1 ≤ x.1.size.frameHeight) ?_ fun z hz => ?_
  · unfold uhQuant
    refine Ensures.bindT fun _ => Ensures.bindT fun _ => Ensures.bindT fun _ => Ensures.bindT fun _ => Ensures.bindT fun _ => Ensures.bindT fun _ => ?_
    exact Ensures.pure hy
  · unfold uhFilters
    refine Ensures.bindT fun _ => Ensures.bindT fun _ => Ensures.bindT fun _ => Ensures.bindT fun _ => Ensures.bindT fun _ => Ensures.bindT fun _ => ?_
    refine Ensures.bindT fun _ => Ensures.bindT fun _ => Ensures.bindT fun _ => Ensures.bindT fun _ => Ensures.bindT fun _ => ?_
    exact Ensures.pure hz

theorem newUncompressedHeader_size (h : Header) (sh : SeqHeader) (st : FrameState) :
    Ensures (newUncompressedHeader h sh st) (fun x => ShownSize x.1) := by
  unfold newUncompressedHeader
  refine Ensures.ite (fun _ => (uhRest_size _ _ _ _ _).mono fun x hx _ => hx) fun _ => ?_
  refine Ensures.bindT fun se => Ensures.ite (fun _ => ?_) fun _ => ?_
  · unfold uhShowExisting
    refine Ensures.bindT fun _ => Ensures.bindT fun _ => Ensures.bindT fun _ => Ensures.bindT fun _ => ?_
    refine Ensures.ite (fun _ => Ensures.fail _) fun _ => Ensures.pure ?_
    intro h0; cases h0
  · exact Ensures.bindT fun x => (uhRest_size _ _ _ _ _).mono fun x hx _ => hx

/-! ## Restored pictures -/

/-- The pixels of the first `n` planes are `v`, and so may be pixels next to them; all other pixels are 0. -/
def FlatPic (c : WrapCtx) (n : Nat) (v : Int) (t : Planes) : Prop :=
  Pic 9 9 t ∧ (∀ p y x, p < n → p < 3 → y < c.upH p → x < c.upW p → at3 t p y x = some v) ∧ ∀ p y x a, at3 t p y x = some a → a = 0 ∨ (p < n ∧ a = v)

theorem FlatPic.write {c : WrapCtx} {n : Nat} {v : Int} {t t' : Planes} (h : FlatPic c n v t) {p : Nat} (hp : p < n) {F G : List (List Int)}
    {y x : Nat} (e1 : goGet t (p : Int) = .ok F) (e2 : gset F (y : Int) (x : Int) v = .ok G) (e3 : goSet t (p : Int) G = .ok t') : FlatPic c n v t' := by
  obtain ⟨hP, h1, h2⟩ := h
  have hp3 : p < 3 := by
    have := (List.getElem?_eq_some_iff.mp (goGet_inv_nat e1)).1
    rw [hP.1] at this; exact this
  obtain ⟨F', f1, f2, f3, f4⟩ := hP.plane hp3
  rw [f1] at e1; cases e1
  obtain ⟨-, -, g1, g2, g3, g4⟩ := gset_inv e2
  simp only [Int.toNat_natCast] at g1 g2 g3
  obtain ⟨-, -, hset⟩ := goSet_inv' e3
  rw [Int.toNat_natCast] at hset
  obtain ⟨q1, q2⟩ := pic_set hP hp3 (g4 9 9 f2)
  rw [hset]
  have cell : ∀ q a b, at3 (t.set p G) q a b = if q = p ∧ a = y ∧ b = x then some v else at3 t q a b := by
    intro q a b
    rw [q2]
    by_cases hq : q = p
    · subst hq
      rw [if_pos rfl]
      by_cases hab : (a, b) = (y, x)
      · cases hab; rw [if_pos ⟨rfl, rfl, rfl⟩]; exact g2
      · rw [if_neg (fun h => hab (by rw [h.2.1, h.2.2])), g3 a b hab, f4]
    · rw [if_neg hq, if_neg (fun h => hq h.1)]
  refine ⟨q1, fun q a b hq hq3 ha hb => ?_, fun q a b w hw => ?_⟩
  · rw [cell]; split
    · rfl
    · exact h1 q a b hq hq3 ha hb
  · rw [cell] at hw
    split at hw
    · rename_i hc; cases hw; exact Or.inr ⟨by omega, rfl⟩
    · exact h2 q a b w hw

theorem at3_zero {H W p y x : Nat} {a : Int} (h : at3 (zeroPlanes 3 H W) p y x = some a) : a = 0 := by
  unfold at3 zeroPlanes at h
  obtain ⟨F, hF, h⟩ := Option.bind_eq_some_iff.mp h
  have hF' := List.eq_of_mem_replicate (List.mem_of_getElem? hF)
  subst hF'
  unfold at2 at h
  obtain ⟨r, hr, h⟩ := Option.bind_eq_some_iff.mp h
  have hr' := List.eq_of_mem_replicate (List.mem_of_getElem? hr)
  subst hr'
  exact List.eq_of_mem_replicate (List.mem_of_getElem? h)

theorem upscale_flat {c : WrapCtx} {input t : Planes} (h : upscale c input = .ok t) : FlatPic c c.numPlanes (clip1 0 c.bitDepth) t := by
  have key := forN_inv (fun i (t : Planes) => FlatPic c i (clip1 0 c.bitDepth) t) (by
    intro i t t' _ hi hP ht
    obtain ⟨src, -, ht⟩ := Res.inv ht
    obtain ⟨dst, e1, ht⟩ := Res.inv ht
    obtain ⟨G, e2, ht⟩ := Res.inv ht
    obtain ⟨⟨g1, g2, g3⟩, -⟩ := upPlane_value e2
    obtain ⟨hP, h1, h2⟩ := hP
    have hp3 : i < 3 := by
      have := (List.getElem?_eq_some_iff.mp (goGet_inv_nat e1)).1
      rw [hP.1] at this; exact this
    obtain ⟨F', f1, f2, f3, f4⟩ := hP.plane hp3
    rw [f1] at e1; cases e1
    obtain ⟨-, -, hset⟩ := goSet_inv' ht
    rw [Int.toNat_natCast] at hset
    obtain ⟨q1, q2⟩ := pic_set hP hp3 (g3 9 9 f2)
    rw [hset]
    refine ⟨q1, fun q a b hq hq3 ha hb => ?_, fun q a b w hw => ?_⟩
    · rw [q2]
      split
      · rename_i he; subst he; exact g1 a b ⟨ha, hb⟩
      · exact h1 q a b (by omega) hq3 ha hb
    · rw [q2] at hw
      split at hw
      · rename_i he; subst he
        by_cases hab : a < c.upH q ∧ b < c.upW q
        · rw [g1 a b hab] at hw; cases hw; exact Or.inr ⟨by omega, rfl⟩
        · rw [g2 a b hab, ← f4] at hw
          rcases h2 q a b w hw with h | h
          · exact Or.inl h
          · exact absurd h.1 (by omega)
      · rcases h2 q a b w hw with h | h
        · exact Or.inl h
        · exact Or.inr ⟨by omega, h.2⟩) h ⟨zeroPlanes_pic 9 9, by intro p y x hp; omega, fun p y x a ha => Or.inl (at3_zero ha)⟩
  rw [Nat.zero_add] at key
  exact key

theorem selfGuided_flat {c : LrCtx} {b : LrBlock} {p : Nat} (hp : p < c.numPlanes) {u : Nat × Nat} {t t' : Planes}
    (hf : FlatPic c.toWrapCtx c.numPlanes (clip1 0 c.bitDepth) t) (h : selfGuided c b p u t = .ok t') :
    FlatPic c.toWrapCtx c.numPlanes (clip1 0 c.bitDepth) t' := by
  unfold selfGuided at h
  obtain ⟨sets, -, h⟩ := Res.inv h
  obtain ⟨set, -, h⟩ := Res.inv h
  obtain ⟨f0, e0, h⟩ := Res.inv h
  obtain ⟨f1, e1, h⟩ := Res.inv h
  obtain ⟨w0, -, h⟩ := Res.inv h
  obtain ⟨w1, -, h⟩ := Res.inv h
  obtain ⟨r0, -, h⟩ := Res.inv h
  obtain ⟨r1, -, h⟩ := Res.inv h
  refine forN_inv (fun _ t => FlatPic c.toWrapCtx c.numPlanes (clip1 0 c.bitDepth) t) (fun i t t' _ _ hP ht => ?_) h hf
  refine forN_inv (fun _ t => FlatPic c.toWrapCtx c.numPlanes (clip1 0 c.bitDepth) t) (fun j t t' _ _ hP ht => ?_) ht hP
  obtain ⟨pl, -, ht⟩ := Res.inv ht
  obtain ⟨px, -, ht⟩ := Res.inv ht
  dsimp only at ht
  split at ht <;> obtain ⟨a0, -, ht⟩ := Res.inv ht <;> split at ht <;> obtain ⟨a1, -, ht⟩ := Res.inv ht
  all_goals
    obtain ⟨op, e1, ht⟩ := Res.inv ht
    obtain ⟨G, e2, e3⟩ := Res.inv ht
    exact hP.write hp e1 e2 e3

theorem loopRestoration_flat {c : LrCtx} {t : Planes} (hf : FlatPic c.toWrapCtx c.numPlanes (clip1 0 c.bitDepth) c.cdef)
    (h : loopRestoration c = .ok t) : FlatPic c.toWrapCtx c.numPlanes (clip1 0 c.bitDepth) t := by
  unfold loopRestoration at h
  split at h
  · cases h; exact hf
  refine forN_inv (fun _ t => FlatPic c.toWrapCtx c.numPlanes (clip1 0 c.bitDepth) t) (fun i t t' _ _ hP ht => ?_) h hf
  refine forN_inv (fun _ t => FlatPic c.toWrapCtx c.numPlanes (clip1 0 c.bitDepth) t) (fun j t t' _ _ hP ht => ?_) ht hP
  refine forN_inv (fun _ t => FlatPic c.toWrapCtx c.numPlanes (clip1 0 c.bitDepth) t) (fun p t t' _ hp hP ht => ?_) ht hP
  obtain ⟨ft, -, ht⟩ := Res.inv ht
  split at ht
  · unfold lrBlockFilter at ht
    obtain ⟨us, -, ht⟩ := Res.inv ht
    obtain ⟨un, -, ht⟩ := Res.inv ht
    obtain ⟨ty, -, ht⟩ := Res.inv ht
    obtain ⟨w, -, ht⟩ := Res.inv ht
    split at ht
    · unfold wienerFilter at ht
      obtain ⟨_, -, ht⟩ := Res.inv ht
      cases ht; exact hP
    · split at ht
      · exact selfGuided_flat (by omega) hP ht
      · cases ht; exact hP
  · cases ht; exact hP

theorem restored_flat {c : LrCtx} {i : FrameEndIn} {t : Planes} (h : restored c i = .ok t) :
    FlatPic c.toWrapCtx c.numPlanes (clip1 0 c.bitDepth) t := by
  unfold restored at h
  obtain ⟨a, e1, h⟩ := Res.inv h
  obtain ⟨b, e2, h⟩ := Res.inv h
  exact loopRestoration_flat (c := { c with cdef := a, cur := b }) (upscale_flat e1) h

/-! ## The output of a tile group -/

theorem goInt_le (b : Bool) : goInt b ≤ 1 := by cases b <;> decide

/-- The picture of one pixel per plane that the program outputs. -/
def onePixel (sh : SeqHeader) : Planes :=
  (List.range 3).map fun p => [[if p < sh.colorConfig.numPlanes ∧ sh.colorConfig.bitDepth ≠ 0 then 2 else 0]]

theorem pic_one {P : Planes} (h : Pic 1 1 P) (f : Nat → Int) (hf : ∀ p, p < 3 → at3 P p 0 0 = some (f p)) : P = (List.range 3).map fun p => [[f p]] := by
  apply List.ext_getElem?
  intro p
  by_cases hp : p < 3
  · obtain ⟨F, -, f2, f3, f4⟩ := h.plane hp
    rw [f3, List.getElem?_map, List.getElem?_range hp]
    have := hf p hp
    rw [f4] at this
    obtain ⟨r, hr1, hr2⟩ := f2.row (i := 0) (by decide)
    have hF : F = [r] := by
      have hl := f2.1
      match F, hl, hr1 with
      | [a], _, e => cases e; rfl
    have hrow : r = [f p] := by
      rw [hF] at this
      match r, hr2, this with
      | [a], _, e => exact congrArg (fun x => [x]) (Option.some.inj e)
    rw [hF, hrow]; rfl
  · rw [List.getElem?_eq_none (by rw [h.1]; omega), List.getElem?_eq_none (by simp; omega)]

theorem clip1_depth {d : Nat} (h : d = 0 ∨ d = 8 ∨ d = 10 ∨ d = 12) : clip1 0 d = if d ≠ 0 then 2 else 0 := by
  rcases h with rfl | rfl | rfl | rfl <;> decide

theorem wrapup_output {idc : Nat} {sh : SeqHeader} (hsh : DepthOk sh) {uh : UHeader} (hu : ShownSize uh) {fs : FrameState} {slots : List RefSlot}
    {cdef : Planes} {x : TileSt} {y : Planes × Planes × (RefMem Unit × Planes)} (h : wrapup idc sh uh fs slots cdef x (zeroPlanes 3 1 1) = .ok y) :
    (uh.showFrame = true → uh.size.upscaledWidth = 1 ∧ uh.size.frameHeight = 1 ∧ y.2.2.2 = onePixel sh) ∧
    (uh.showFrame = false → y.2.2.2 = zeroPlanes 3 1 1) := by
  unfold wrapup at h
  obtain ⟨cur, -, h⟩ := Res.inv h
  obtain ⟨cd, -, h⟩ := Res.inv h
  obtain ⟨z, e, h⟩ := Res.inv h
  cases h
  dsimp only
  constructor
  · intro hs
    obtain ⟨hw, hh⟩ := hu hs
    have hone : uh.size.upscaledWidth = 1 ∧ uh.size.frameHeight = 1 := by
      by_contra hc
      refine C112_shown_refuted (c := lrCtxOf sh uh fs x.lr) outArrays (hs := hs) (hw := hw) (hh := hh) ?_ z e
      show 1 < uh.size.upscaledWidth ∨ 1 < uh.size.frameHeight
      omega
    refine ⟨hone.1, hone.2, ?_⟩
    unfold frameEnd at e
    obtain ⟨lr, e1, e⟩ := Res.inv e
    obtain ⟨seg, -, e⟩ := Res.inv e
    obtain ⟨m, -, e⟩ := Res.inv e
    dsimp only at e
    rw [if_pos hs] at e
    obtain ⟨o, e2, e⟩ := Res.inv e
    cases e
    show o = onePixel sh
    obtain ⟨f1, f2, f3⟩ := restored_flat e1
    have hidc : ¬ (idc ≠ 0 ∨ (sh.filmGrainParamsPresent && uh.filmGrain.applyGrain) = true) := fun hc => C112_grain_refuted hc e2
    have hg : (sh.filmGrainParamsPresent && uh.filmGrain.applyGrain) = false := by
      cases hh : (sh.filmGrainParamsPresent && uh.filmGrain.applyGrain)
      · rfl
      · exact absurd (Or.inr hh) hidc
    have hi : idc = 0 := by by_contra hc; exact hidc (Or.inl hc)
    have cx : (lrCtxOf sh uh fs x.lr).subX ≤ 1 := goInt_le _
    have cy : (lrCtxOf sh uh fs x.lr).subY ≤ 1 := goInt_le _
    have cw : (lrCtxOf sh uh fs x.lr).upscaledWidth = 1 := hone.1
    have ch : (lrCtxOf sh uh fs x.lr).frameHeight = 1 := hone.2
    have cn : (lrCtxOf sh uh fs x.lr).numPlanes = sh.colorConfig.numPlanes := rfl
    have cb : (lrCtxOf sh uh fs x.lr).bitDepth = sh.colorConfig.bitDepth := rfl
    generalize hc : lrCtxOf sh uh fs x.lr = c at *
    obtain ⟨o', h1, h2, h3⟩ := C112_copy_partial (c := c.toWrapCtx) f1 outArrays cx cy (by omega) (by omega) (by omega) (by omega)
    rw [hi, hg, h1] at e2
    cases e2
    refine pic_one h2 _ fun p hp => ?_
    have hs2 : ∀ s : Nat, s ≤ 1 → (1 + s) / 2 ^ s = 1 := by
      intro s hs
      rcases (show s = 0 ∨ s = 1 by omega) with rfl | rfl <;> rfl
    have dH : outH c.toWrapCtx p = 1 := by
      unfold outH; rw [ch]; split
      · rfl
      · exact hs2 _ cy
    have dW : outW c.toWrapCtx p = 1 := by
      unfold outW; rw [cw]; split
      · rfl
      · exact hs2 _ cx
    rw [h3 p 0 0 hp, dH, dW, if_pos ⟨by decide, by decide⟩]
    have uH : 0 < c.toWrapCtx.upH p := by
      unfold WrapCtx.upH planeDim; rw [ch, Nat.shiftRight_eq_div_pow, hs2 _ (by split; exact cy; omega)]; decide
    have uW : 0 < c.toWrapCtx.upW p := by
      unfold WrapCtx.upW planeDim; rw [cw, Nat.shiftRight_eq_div_pow, hs2 _ (by split; exact cx; omega)]; decide
    by_cases hpn : p < c.numPlanes
    · rw [f2 p 0 0 hpn hp uH uW, cb, clip1_depth hsh.2]
      rw [cn] at hpn
      by_cases hd : sh.colorConfig.bitDepth ≠ 0
      · rw [if_pos hd, if_pos ⟨hpn, hd⟩]
      · rw [if_neg hd, if_neg (fun h => hd h.2)]
    · obtain ⟨F, -, g2, -, g4⟩ := f1.plane hp
      obtain ⟨a, ha⟩ := g2.at2 (i := 0) (j := 0) (by decide) (by decide)
      rw [← g4] at ha
      rw [ha, if_neg (fun h => hpn (by rw [cn]; exact h.1))]
      rcases f3 p 0 0 a ha with h | h
      · rw [h]
      · exact absurd h.1 hpn
  · intro hs
    exact (C112_hidden_partial hs e).1

/-- What a tile group outputs. -/
def OutOk (sh : SeqHeader) (u : DecUH) (t : DecTG) : Prop :=
  (t.finished = true ∧ u.hdr.showFrame = true → u.hdr.size.upscaledWidth = 1 ∧ u.hdr.size.frameHeight = 1 ∧ t.out = onePixel sh) ∧
  (¬ (t.finished = true ∧ u.hdr.showFrame = true) → t.out = zeroPlanes 3 1 1)

theorem decodeGroup_output (grow : Nat → Nat) (fuel : Nat) (sz : Int) (sr : State × DecR) {u : DecUH} (hu : ShownSize u.hdr) {sh : SeqHeader} (hsh : DepthOk sh) :
    Ensures (decodeGroup grow fuel sz sr u sh) (fun x => OutOk sh u x.1) := by
  unfold decodeGroup
  dsimp only
  refine Ensures.bindT fun x => Ensures.ite (fun _ => Ensures.lift fun a ha => ?_) (fun _ => Ensures.pure ?_)
  · unfold groupEnd at ha
    obtain ⟨y, e, ha⟩ := Res.inv ha
    cases ha
    obtain ⟨h1, h2⟩ := wrapup_output hsh hu e
    refine ⟨fun h => h1 h.2, fun h => h2 ?_⟩
    cases hs : u.hdr.showFrame
    · rfl
    · exact absurd ⟨rfl, hs⟩ h
  · exact ⟨fun h => (by cases h.1), fun _ => rfl⟩

theorem decoder_output (grow : Nat → Nat) (fuel : Nat) :
    (decoder grow fuel).Keeps (fun _ => True) DepthOk (fun u : DecUH => ShownSize u.hdr) OutOk where
  free _ _ _ _ := trivial
  start := trivial
  fresh _ _ _ := trivial
  seq0 := ⟨Or.inl rfl, Or.inl rfl⟩
  seq := newSequenceHeader_depth
  uh0 := by intro h; cases h
  tg0 sh u _ _ := ⟨fun h => (by cases h.1), fun _ => rfl⟩
  uh h sh st _ _ := by
    show Ensures (decodeHeader h sh st) _
    unfold decodeHeader
    exact Ensures.bind (newUncompressedHeader_size h sh _) fun x hx => Ensures.pure ⟨hx, trivial⟩
  tg sz st u sh _ hQ hU := (decodeGroup_output grow fuel sz st hU hQ).mono fun x hx => ⟨hx, trivial⟩

/-! ## Which tiles are decoded -/

theorem newTileInfo_two (use128 : Bool) (old : Nat) :
    Ensures (newTileInfo use128 2 2 old) (fun t => t.tileCols = 1 ∧ t.tileRows = 1 ∧ t.miColStarts = [0, 2] ∧ t.miRowStarts = [0, 2]) := by
  have hsz : ∀ shift M : Nat, 1 ≤ M → Ensures (sizesLoop 1 shift M 2 0 0 0 (List.replicate 2 0)) (fun r => r.1 = 1 ∧ r.2.1 = [0, 0]) := by
    intro shift M hM
    unfold sizesLoop
    rw [if_pos (by decide)]
    dsimp only
    refine Ensures.bind (P := fun l => l = [0, 0]) (Ensures.lift fun a ha => ?_) fun l hl => ?_
    · have : goSet (List.replicate 2 0) ((0 : Nat) : Int) (0 <<< shift) = .ok [0, 0] := by rw [Nat.zero_shiftLeft]; rfl
      rw [this] at ha; cases ha; rfl
    · subst hl
      have hm : minI ((1 : Nat) - (0 : Nat) : Int) (M : Int) = ((1 : Nat) : Int) := by
        unfold minI; rw [if_pos (by omega)]; rfl
      rw [hm]
      refine Ensures.bind (Good.ns 1 (by decide)).2 fun m1 h1 => ?_
      unfold sizesLoop
      rw [if_neg (by omega)]
      exact Ensures.pure ⟨rfl, rfl⟩
  have key : ∀ shift M c : Nat, 1 ≤ M → Ensures (do
      let uniform ← flag
      let (cols, i, colsLog2, rows, j, rowsLog2) ←
        (if uniform then uniformTiles shift 1 1 0 0 0 0 2 2 else explicitTiles shift 1 1 M 0 2 2)
      if colsLog2 > 0 ∨ rowsLog2 > 0 then do
        let id ← F (rowsLog2 + colsLog2)
        let b ← F 2
        pure (⟨cols, rows, i, j, colsLog2, rowsLog2, b + 1, id⟩ : Tiles)
      else pure ⟨cols, rows, i, j, colsLog2, rowsLog2, old, c⟩)
      (fun t => t.tileCols = 1 ∧ t.tileRows = 1 ∧ t.miColStarts = [0, 2] ∧ t.miRowStarts = [0, 2]) := by
    intro shift M c hM
    refine Ensures.bindT fun u => ?_
    refine Ensures.bind (P := fun r : List Nat × Nat × Nat × List Nat × Nat × Nat => r.1 = [0, 2] ∧ r.2.1 = 1 ∧ r.2.2.2.1 = [0, 2] ∧ r.2.2.2.2.1 = 1) ?_ fun r hr => ?_
    · refine Ensures.ite (fun _ => ?_) (fun _ => ?_)
      · intro s a s' h
        have hst : startsLoop 1 shift 1 2 0 0 (List.replicate 2 0) = .ok (1, [0, 0]) := by
          unfold startsLoop; rw [if_pos (by decide)]; dsimp only
          rw [Nat.zero_shiftLeft]; rfl
        unfold uniformTiles at h
        obtain ⟨v, s1, h1, h⟩ := BM.bind_eq_ok.mp h
        cases h1
        dsimp only at h
        have hw : (1 + 1 <<< 0 - 1) >>> 0 = 1 := by decide
        rw [hw, hst] at h
        obtain ⟨v, s2, h1, h⟩ := BM.bind_eq_ok.mp h
        cases h1
        obtain ⟨v, s2, h1, h⟩ := BM.bind_eq_ok.mp h
        cases h1
        obtain ⟨v, s3, h1, h⟩ := BM.bind_eq_ok.mp h
        rw [decLoop_le (by decide)] at h1
        cases h1
        dsimp only at h
        rw [hw, hst] at h
        obtain ⟨v, s2, h1, h⟩ := BM.bind_eq_ok.mp h
        cases h1
        obtain ⟨v, s2, h1, h⟩ := BM.bind_eq_ok.mp h
        cases h1
        cases h
        exact ⟨rfl, rfl, rfl, rfl⟩
      · unfold explicitTiles
        refine Ensures.bind (hsz shift M hM) fun r hr => ?_
        obtain ⟨i, l, w⟩ := r
        obtain ⟨h1, h2⟩ := hr
        dsimp only at h1 h2 ⊢
        subst h1 h2
        refine Ensures.bind (P := fun l => l = [0, 2]) (Ensures.lift fun a ha => by cases ha; rfl) fun l hl => ?_
        refine Ensures.bindT fun lg => ?_
        refine Ensures.ite (fun _ => Ensures.fail _) fun hw => ?_
        refine Ensures.bind (hsz shift _ (Nat.le_max_right _ _)) fun r hr => ?_
        obtain ⟨i, l', w⟩ := r
        obtain ⟨h1, h2⟩ := hr
        dsimp only at h1 h2 ⊢
        subst h1 h2
        refine Ensures.bind (P := fun l => l = [0, 2]) (Ensures.lift fun a ha => by cases ha; rfl) fun l' hl' => ?_
        exact Ensures.bindT fun lg => Ensures.pure ⟨hl, rfl, hl', rfl⟩
    · obtain ⟨r1, r2, r3, r4⟩ := hr
      refine Ensures.ite (fun _ => Ensures.bindT fun _ => Ensures.bindT fun _ => Ensures.pure ⟨r2, r4, r1, r3⟩) (fun _ => Ensures.pure ⟨r2, r4, r1, r3⟩)
  intro s a s' h
  cases use128
  · exact key 4 64 0 (by decide) s a s' h
  · exact key 5 32 0 (by decide) s a s' h

/-- The tile layout of the state: none, or that of the frame whose header was read last. -/
def FsTiles (fs : FrameState) : Prop :=
  (fs.tiles.tileCols * fs.tiles.tileRows = 0 ∧ fs.miCols = 0) ∨
  ((fs.miCols % 2 = 0 ∧ 2 ≤ fs.miCols) ∧ (fs.miRows % 2 = 0 ∧ 2 ≤ fs.miRows) ∧
    (fs.miCols = 2 → fs.miRows = 2 → fs.tiles.tileCols = 1 ∧ fs.tiles.tileRows = 1 ∧ fs.tiles.miColStarts = [0, 2] ∧ fs.tiles.miRowStarts = [0, 2]))

theorem uhRest_tiles (h : Header) (sh : SeqHeader) (u : UHeader) (er : Bool) (st : FrameState) : Ensures (uhRest h sh u er st) (fun x => FsTiles x.2) := by
  unfold uhRest
  refine Ensures.bindT fun x => ?_
  dsimp only
  refine Ensures.bind (P := fun x : UHeader × FrameState => (x.2.miCols % 2 = 0 ∧ 2 ≤ x.2.miCols) ∧ (x.2.miRows % 2 = 0 ∧ 2 ≤ x.2.miRows)) ?_ fun y hy => ?_
  · have hsz : ∀ fs : FrameSize, Spec.SizeOk fs → (fs.miCols % 2 = 0 ∧ 2 ≤ fs.miCols) ∧ (fs.miRows % 2 = 0 ∧ 2 ≤ fs.miRows) := by
      intro fs h
      have h1 := h.pos; have h2 := h.cols; have h3 := h.rows
      unfold Spec.EvenUnits at h2 h3
      omega
    refine Ensures.ite (fun _ => ?_) (fun _ => ?_)
    · unfold uhIntra
      exact Ensures.bind (frameSize_good sh _).2 fun fs hfs => Ensures.bindT fun _ => Ensures.bindT fun _ => Ensures.pure (hsz fs hfs.1)
    · unfold uhInter
      refine Ensures.bindT fun _ => Ensures.bindT fun _ => Ensures.ite (fun _ => Ensures.fail _) fun _ => ?_
      exact Ensures.bind (frameSize_good sh _).2 fun fs hfs => Ensures.bindT fun _ => Ensures.bindT fun _ => Ensures.bindT fun _ =>
        Ensures.bindT fun _ => Ensures.bindT fun _ => Ensures.bindT fun _ => Ensures.pure (hsz fs hfs.1)
  refine Ensures.bindT fun dfe => Ensures.ite (fun _ => Ensures.fail _) fun _ => Ensures.ite (fun _ => Ensures.fail _) fun _ => ?_
  refine Ensures.bind (P := fun x : UHeader × FrameState => FsTiles x.2) ?_ fun z hz => ?_
  · unfold uhQuant
    refine Ensures.bind (P := fun t : Tiles => y.2.miCols = 2 → y.2.miRows = 2 → t.tileCols = 1 ∧ t.tileRows = 1 ∧ t.miColStarts = [0, 2] ∧ t.miRowStarts = [0, 2]) ?_
      fun t ht => ?_
    · intro s a s' e h1 h2
      have e' : newTileInfo sh.use128x128SuperBlock y.2.miCols y.2.miRows (setupPastIndependence y.2).tiles.tileSizeBytes s = .ok (a, s') := e
      rw [h1, h2] at e'
      exact newTileInfo_two _ _ s a s' e'
    · refine Ensures.bindT fun _ => Ensures.bindT fun _ => Ensures.bindT fun _ => Ensures.bindT fun _ => Ensures.bindT fun _ => ?_
      exact Ensures.pure (Or.inr ⟨hy.1, hy.2, ht⟩)
  · unfold uhFilters
    refine Ensures.bindT fun _ => Ensures.bindT fun _ => Ensures.bindT fun _ => Ensures.bindT fun _ => Ensures.bindT fun _ => Ensures.bindT fun _ => ?_
    refine Ensures.bindT fun _ => Ensures.bindT fun _ => Ensures.bindT fun _ => Ensures.bindT fun _ => Ensures.bindT fun _ => ?_
    exact Ensures.pure hz

theorem newUncompressedHeader_tiles (h : Header) (sh : SeqHeader) (st : FrameState) (hst : FsTiles st) :
    Ensures (newUncompressedHeader h sh st) (fun x => FsTiles x.2) := by
  unfold newUncompressedHeader
  refine Ensures.ite (fun _ => uhRest_tiles _ _ _ _ _) fun _ => ?_
  refine Ensures.bindT fun se => Ensures.ite (fun _ => ?_) fun _ => ?_
  · unfold uhShowExisting
    refine Ensures.bindT fun _ => Ensures.bindT fun _ => Ensures.bindT fun _ => Ensures.bindT fun _ => ?_
    exact Ensures.ite (fun _ => Ensures.fail _) fun _ => Ensures.pure hst
  · exact Ensures.bindT fun x => uhRest_tiles _ _ _ _ _

/-- Every tile of the result was decoded. -/
theorem tileLoop_ran {σ : Type} (body : TileRun → σ → Sym → BM (Sym × σ)) (t : Tiles) (e : Int) (k num : Nat) (sz : Int) (x : σ) :
    Ensures (tileLoop body t e k num sz x) (fun r => ∀ run ∈ r.1, ∃ x st s y s', body run x st s = .ok (y, s')) := by
  induction k generalizing num sz x with
  | zero =>
    unfold tileLoop
    exact Ensures.pure (by intro run h; cases h)
  | succ k ih =>
    unfold tileLoop
    refine Ensures.ite (fun _ => Ensures.fail _) fun _ => ?_
    dsimp only
    refine Ensures.bindT fun q => Ensures.bindT fun r0 => Ensures.bindT fun r1 => Ensures.bindT fun c0 => Ensures.bindT fun c1 => Ensures.bindT fun p => ?_
    refine Ensures.bindT fun st => ?_
    generalize hrun : (⟨num, q.1, r0, r1, c0, c1, p⟩ : TileRun) = run0
    refine Ensures.bind (P := fun _ => ∃ x st s y s', body run0 x st s = .ok (y, s')) (fun s a s' h => ⟨x, st, s, a, s', h⟩) fun y hy => ?_
    refine Ensures.bindT fun _ => Ensures.bind (ih _ _ _) fun z hz => Ensures.pure ?_
    intro run hr
    rcases List.mem_cons.mp hr with h | h
    · rw [h]; exact hy
    · exact hz run h

/-- What a tile group can decode. -/
def RunsOk (t : DecTG) : Prop :=
  ∀ run ∈ t.runs, run.rowEnd ≤ run.rowStart ∨
    (t.finished = true ∧ t.runs = [run] ∧ run.num = 0 ∧ run.rowStart = 0 ∧ run.rowEnd = 2 ∧ run.colStart = 0 ∧ run.colEnd = 2)

theorem FsTiles.congr {fs fs' : FrameState} (h : FsTiles fs) (h1 : fs'.tiles = fs.tiles) (h2 : fs'.miCols = fs.miCols) (h3 : fs'.miRows = fs.miRows) : FsTiles fs' := by
  unfold FsTiles; rw [h1, h2, h3]; exact h

theorem tileGroup_one {σ : Type} (body : TileRun → σ → Sym → BM (Sym × σ)) (t : Tiles) (sz : Int) (x : σ) (h1 : t.tileCols = 1) (h2 : t.tileRows = 1)
    (h3 : t.miColStarts = [0, 2]) (h4 : t.miRowStarts = [0, 2]) :
    Ensures (tileGroup body t sz x) (fun r => r.2.2 = true ∧ ∃ size start, r.1 = [⟨0, size, 0, 2, 0, 2, start⟩]) := by
  unfold tileGroup
  refine Ensures.bindT fun p0 => ?_
  refine Ensures.bind (P := fun r : Nat × Int => r = (0, 0)) ?_ fun r hr => ?_
  · unfold tileRange
    rw [h1, h2]
    refine Ensures.bindT fun pr => ?_
    rw [if_pos (Or.inl rfl)]
    exact Ensures.pure rfl
  subst hr
  dsimp only
  refine Ensures.bindT fun _ => Ensures.bindT fun p1 => ?_
  rw [h1, h2]
  refine Ensures.bind (P := fun r : List TileRun × σ => ∃ size start, r.1 = [⟨0, size, 0, 2, 0, 2, start⟩]) ?_ fun r hr => Ensures.pure ⟨rfl, hr⟩
  have hk : ((0 : Int) + 1 - ((0 : Nat) : Int)).toNat = 0 + 1 := rfl
  rw [hk, tileLoop, h1, h3, h4]
  rw [if_neg (by decide)]
  dsimp only
  have hz : ((0 : Nat) : Int) = 0 := rfl
  rw [if_pos hz]
  refine Ensures.bindT fun q => ?_
  refine Ensures.bind (P := fun v => v = 0) (Ensures.lift fun a ha => by cases ha; rfl) fun r0 e0 => ?_
  refine Ensures.bind (P := fun v => v = 2) (Ensures.lift fun a ha => by cases ha; rfl) fun r1 e1 => ?_
  refine Ensures.bind (P := fun v => v = 0) (Ensures.lift fun a ha => by cases ha; rfl) fun c0 e2 => ?_
  refine Ensures.bind (P := fun v => v = 2) (Ensures.lift fun a ha => by cases ha; rfl) fun c1 e3 => ?_
  subst e0 e1 e2 e3
  refine Ensures.bindT fun p => Ensures.bindT fun st => ?_
  refine Ensures.bindT fun y => Ensures.bindT fun _ => ?_
  unfold tileLoop
  refine Ensures.bind (P := fun z : List TileRun × σ => z.1 = []) (Ensures.pure rfl) fun z hz => Ensures.pure ⟨q.1, p, ?_⟩
  show _ :: z.1 = _
  rw [hz]

theorem decodeGroup_runs (grow : Nat → Nat) (fuel : Nat) (sz : Int) (sr : State × DecR) (u : DecUH) (sh : SeqHeader) (hs : FsTiles sr.2.fs) :
    Ensures (decodeGroup grow fuel sz sr u sh) (fun x => RunsOk x.1 ∧ FsTiles x.2.2.fs) := by
  unfold decodeGroup
  dsimp only
  refine Ensures.bind (P := fun y : List TileRun × (TileSt × List Ev) × Bool => ∀ run ∈ y.1, run.rowEnd ≤ run.rowStart ∨
    (y.2.2 = true ∧ y.1 = [run] ∧ run.num = 0 ∧ run.rowStart = 0 ∧ run.rowEnd = 2 ∧ run.colStart = 0 ∧ run.colEnd = 2)) ?_ fun y hy => ?_
  · intro s y s' h run hr
    by_cases hrow : run.rowEnd ≤ run.rowStart
    · exact Or.inl hrow
    refine Or.inr ?_
    have hran : ∃ x st s y s', groupTile grow fuel sh u.hdr sr.2 run x st s = .ok (y, s') := by
      have : Ensures (tileGroup (groupTile grow fuel sh u.hdr sr.2) sr.2.fs.tiles sz
          ({ cdfs := groupCdfs sr.2, blk := groupStart sr.2.arr, lr := { refXqd := List.replicate 3 [0, 0] } }, []))
          (fun r => ∀ run ∈ r.1, ∃ x st s y s', groupTile grow fuel sh u.hdr sr.2 run x st s = .ok (y, s')) := by
        unfold tileGroup
        refine Ensures.bindT fun _ => Ensures.bindT fun _ => ?_
        dsimp only
        refine Ensures.bindT fun _ => Ensures.bindT fun _ => ?_
        exact Ensures.bind (tileLoop_ran _ _ _ _ _ _ _) fun r hr => Ensures.pure hr
      exact this s y s' h run hr
    obtain ⟨x1, st1, s1, y1, s2, hb⟩ := hran
    unfold groupTile at hb
    cases hk : cdfClass sr.2.fs with
    | none => rw [hk] at hb; cases hb
    | some k =>
    rw [hk] at hb
    dsimp only at hb
    unfold realTile tileEvents at hb
    have hc : ¬ 3 < sr.2.fs.miCols := fun hc => (C55_context_clearing_refuted _ _ _ hc _ _).2.1 _ _ _ _ _ _ hb
    have hr' : ¬ 3 < sr.2.fs.miRows := fun hc => C55_left_clearing_refuted _ _ _ hc _ _ _ _ _ (by omega) _ _ _ hb
    rcases hs with h0 | ⟨e1, e2, e3⟩
    · exfalso
      unfold tileGroup at h
      obtain ⟨p0, s3, -, h⟩ := BM.bind_eq_ok.mp h
      obtain ⟨⟨a, b⟩, s4, hrg, h⟩ := BM.bind_eq_ok.mp h
      unfold tileRange at hrg
      rw [h0.1] at hrg
      rw [if_neg (by decide)] at hrg
      obtain ⟨pr, s5, h5, hrg⟩ := BM.bind_eq_ok.mp hrg
      cases h5
      rw [if_pos (Or.inr rfl)] at hrg
      cases hrg
      dsimp only at h
      obtain ⟨_, s6, -, h⟩ := BM.bind_eq_ok.mp h
      obtain ⟨_, s7, -, h⟩ := BM.bind_eq_ok.mp h
      obtain ⟨z, s8, h8, h⟩ := BM.bind_eq_ok.mp h
      have hk : (((0 : Nat) : Int) - 1 + 1 - ((0 : Nat) : Int)).toNat = 0 := rfl
      rw [hk, tileLoop] at h8
      cases h8
      cases h
      cases hr
    · obtain ⟨f1, f2, f3, f4⟩ := e3 (by omega) (by omega)
      obtain ⟨g1, size, start, g2⟩ := tileGroup_one _ _ _ _ f1 f2 f3 f4 s y s' h
      rw [g2] at hr ⊢
      rw [List.mem_singleton.mp hr]
      exact ⟨g1, rfl, rfl, rfl, rfl, rfl, rfl⟩
  · refine Ensures.ite (fun hf => Ensures.lift fun a ha => ?_) (fun hf => Ensures.pure ⟨?_, hs.congr rfl rfl rfl⟩)
    · unfold groupEnd at ha
      obtain ⟨w, e, ha⟩ := Res.inv ha
      cases ha
      refine ⟨fun run hr => ?_, hs.congr rfl rfl rfl⟩
      obtain ⟨run, hr', rfl⟩ := List.mem_map.mp hr
      rcases hy run hr' with h | h
      · exact Or.inl h
      · exact Or.inr ⟨rfl, by show List.map _ y.1 = _; rw [h.2.1]; rfl, h.2.2⟩
    · intro run hr
      obtain ⟨run, hr', rfl⟩ := List.mem_map.mp hr
      rcases hy run hr' with h | h
      · exact Or.inl h
      · exact absurd h.1 hf

theorem decoder_runs (grow : Nat → Nat) (fuel : Nat) :
    (decoder grow fuel).Keeps (fun st => FsTiles (DecR.fs st.2)) (fun _ => True) (fun _ => True) (fun _ _ t => RunsOk t) where
  free _ _ _ h := h
  start := Or.inl ⟨rfl, rfl⟩
  fresh _ _ _ := Or.inl ⟨rfl, rfl⟩
  seq0 := trivial
  seq _ := fun _ _ _ _ => trivial
  uh0 := trivial
  tg0 sh u _ _ := by intro run h; cases h
  uh h sh st hS _ := by
    show Ensures (decodeHeader h sh st) _
    unfold decodeHeader
    exact Ensures.bind (newUncompressedHeader_tiles h sh _ hS) fun x hx => Ensures.pure ⟨trivial, hx⟩
  tg sz st u sh hS _ _ := decodeGroup_runs grow fuel sz st u sh hS

/-! ## C183: what is output for any stream that is accepted -/

/-- The OBUs the program makes of a stream, if it does not panic. -/
def Decodes (grow : Nat → Nat) (fuel : Nat) (data : List UInt8) (obus : List (Obu (decoder grow fuel))) : Prop :=
  ∃ s, parseStream (decoder grow fuel) (newBitStream data) = .ok (obus, s)

/-- The tile group of an OBU. -/
def groupOf {grow : Nat → Nat} {fuel : Nat} (o : Obu (decoder grow fuel)) : DecTG := o.tileGroup

/-- The frame header of an OBU. -/
def hdrOf {grow : Nat → Nat} {fuel : Nat} (o : Obu (decoder grow fuel)) : UHeader := (show DecUH from o.uncompressedHeader).hdr

namespace Spec

/-- The picture of a frame has the size that its header announces (chroma planes: half of it, rounded up, if subsampled; absent planes are not looked at). -/
def RightSize (sh : SeqHeader) (uh : UHeader) (out : Planes) : Prop :=
  ∀ p, p < sh.colorConfig.numPlanes → ∃ rows, out[p]? = some rows ∧
    rows.length = (uh.size.frameHeight + (if p > 0 ∧ sh.colorConfig.subsamplingY then 1 else 0)) / (if p > 0 ∧ sh.colorConfig.subsamplingY then 2 else 1) ∧
    ∀ row ∈ rows, row.length = (uh.size.upscaledWidth + (if p > 0 ∧ sh.colorConfig.subsamplingX then 1 else 0)) / (if p > 0 ∧ sh.colorConfig.subsamplingX then 2 else 1)

end Spec

/-- Every frame that a stream makes the program show has the size its header announces, and every pixel of it is in the range of the bit depth (8, 10 or 12 bits; an
invalid profile gives 0 bits and black). -/
theorem C183_size_partial (grow : Nat → Nat) (fuel : Nat) (data : List UInt8) (obus : List (Obu (decoder grow fuel))) (h : Decodes grow fuel data obus) :
    ∀ o ∈ obus, (groupOf o).finished = true → (hdrOf o).showFrame = true →
      Spec.RightSize o.sequenceHeader (hdrOf o) (groupOf o).out ∧
      ∀ plane ∈ (groupOf o).out, ∀ row ∈ plane, ∀ v ∈ row, 0 ≤ v ∧ v < 2 ^ o.sequenceHeader.colorConfig.bitDepth := by
  obtain ⟨s, h⟩ := h
  intro o ho hf hs
  obtain ⟨hq, -, h1, -⟩ := (decoder_output grow fuel).stream _ _ _ h o ho
  obtain ⟨e1, e2, e3⟩ := h1 ⟨hf, hs⟩
  have e1' : (hdrOf o).size.upscaledWidth = 1 := e1
  have e2' : (hdrOf o).size.frameHeight = 1 := e2
  have e3' : (groupOf o).out = onePixel o.sequenceHeader := e3
  rw [e3']
  constructor
  · intro p hp
    have hp3 : p < 3 := by rcases hq.1 with h | h | h <;> omega
    refine ⟨[[if p < o.sequenceHeader.colorConfig.numPlanes ∧ o.sequenceHeader.colorConfig.bitDepth ≠ 0 then 2 else 0]], ?_, ?_, ?_⟩
    · unfold onePixel
      rw [List.getElem?_map, List.getElem?_range hp3]
      rfl
    · rw [e2', List.length_singleton]
      split <;> rfl
    · intro row hr
      rw [List.mem_singleton.mp hr, e1', List.length_singleton]
      split <;> rfl
  · intro plane hpl row hr v hv
    unfold onePixel at hpl
    obtain ⟨p, -, rfl⟩ := List.mem_map.mp hpl
    rw [List.mem_singleton.mp hr] at hv
    rw [List.mem_singleton.mp hv]
    rcases hq.2 with h | h | h | h <;> rw [h]
    · rw [if_neg (by simp)]; decide
    all_goals split <;> decide

/-- But the only frames it ever shows are 1x1 pixel, and what is shown does not depend on the data: it is the value 2 in every plane the sequence header announces.
For any other frame the program panics instead. -/
theorem C183_content_refuted (grow : Nat → Nat) (fuel : Nat) (data : List UInt8) (obus : List (Obu (decoder grow fuel))) (h : Decodes grow fuel data obus) :
    ∀ o ∈ obus, (groupOf o).finished = true → (hdrOf o).showFrame = true →
      (hdrOf o).size.upscaledWidth = 1 ∧ (hdrOf o).size.frameHeight = 1 ∧
      (groupOf o).out = (List.range 3).map fun p => [[if p < o.sequenceHeader.colorConfig.numPlanes ∧ o.sequenceHeader.colorConfig.bitDepth ≠ 0 then 2 else 0]] := by
  obtain ⟨s, h⟩ := h
  intro o ho hf hs
  exact ((decoder_output grow fuel).stream _ _ _ h o ho).2.2.1 ⟨hf, hs⟩

/-- Nothing is output for a frame that is not to be shown, nor for a tile group that does not finish its frame. -/
theorem C183_hidden (grow : Nat → Nat) (fuel : Nat) (data : List UInt8) (obus : List (Obu (decoder grow fuel))) (h : Decodes grow fuel data obus) :
    ∀ o ∈ obus, ¬ ((groupOf o).finished = true ∧ (hdrOf o).showFrame = true) → ∀ plane ∈ (groupOf o).out, ∀ row ∈ plane, ∀ v ∈ row, v = 0 := by
  obtain ⟨s, h⟩ := h
  intro o ho hn plane hp row hr v hv
  have : (groupOf o).out = zeroPlanes 3 1 1 := ((decoder_output grow fuel).stream _ _ _ h o ho).2.2.2 hn
  rw [this] at hp
  have : plane = [[0]] := by
    have : ∀ x ∈ zeroPlanes 3 1 1, x = [[0]] := by decide
    exact this _ hp
  rw [this] at hr
  rw [List.mem_singleton.mp hr] at hv
  exact List.mem_singleton.mp hv

/-- A stream of ten bytes that is accepted: a frame header of a 1x1 frame in one frame unit, a tile group in the next. -/
def tinyStream : List UInt8 := [9, 5, 4, 0x18, 0x18, 0, 4, 2, 1, 0x20]

/-- The stream is accepted, and some OBU passes the test. -/
def someObu (grow : Nat → Nat) (fuel : Nat) (data : List UInt8) (test : Obu (decoder grow fuel) → Bool) : Bool :=
  match parseStream (decoder grow fuel) (newBitStream data) with
  | .ok (l, _) => l.any test
  | .error _ => false

theorem someObu_true {grow : Nat → Nat} {fuel : Nat} {data : List UInt8} {test : Obu (decoder grow fuel) → Bool} (h : someObu grow fuel data test = true) :
    ∃ obus, Decodes grow fuel data obus ∧ ∃ o ∈ obus, test o = true := by
  unfold someObu at h
  split at h
  · rename_i l s e
    exact ⟨l, ⟨s, e⟩, List.any_eq_true.mp h⟩
  · cases h

example : ∃ obus, Decodes id 50 tinyStream obus ∧ ∃ o ∈ obus, (groupOf o).finished = true ∧ (hdrOf o).showFrame = true := by
  obtain ⟨l, h, o, ho, e⟩ := someObu_true (grow := id) (fuel := 50) (data := tinyStream)
    (test := fun o => (groupOf o).finished && (hdrOf o).showFrame) (by decide +kernel)
  exact ⟨l, h, o, ho, (Bool.and_eq_true_iff.mp e)⟩

/-! ## C184: which tiles are ever decoded -/

/-- Every tile that is decoded is one without rows, or the only tile of a frame of 2x2 units (8x8 pixels). -/
theorem C184_refuted (grow : Nat → Nat) (fuel : Nat) (data : List UInt8) (obus : List (Obu (decoder grow fuel))) (h : Decodes grow fuel data obus) :
    ∀ o ∈ obus, ∀ run ∈ (groupOf o).runs, run.rowEnd ≤ run.rowStart ∨
      ((groupOf o).finished = true ∧ (groupOf o).runs = [run] ∧ run.num = 0 ∧ run.rowStart = 0 ∧ run.rowEnd = 2 ∧ run.colStart = 0 ∧ run.colEnd = 2) := by
  obtain ⟨s, h⟩ := h
  intro o ho
  exact ((decoder_runs grow fuel).stream _ _ _ h o ho).2.2

end Gov1
