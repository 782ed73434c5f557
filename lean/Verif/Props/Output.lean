import Verif.Model.FrameEnd
import Verif.Props.RefFrames
import Verif.Props.Upscale
import Verif.Props.LoopRestoration
/-!
# C112: the output picture

A shown frame must be output with the size and the pixels of the restored frame.  The copy loops do that, but the output
arrays of the program hold one pixel per plane, so that every larger shown frame ends in a panic.
-/
namespace Gov1

/-- Width and height of a plane of the output. -/
def outW (c : WrapCtx) (plane : Nat) : Nat := if plane = 0 then c.upscaledWidth else (c.upscaledWidth + c.subX) / 2 ^ c.subX
def outH (c : WrapCtx) (plane : Nat) : Nat := if plane = 0 then c.frameHeight else (c.frameHeight + c.subY) / 2 ^ c.subY

theorem outputPlane_ok {H W H' W' : Nat} {lr out : Planes} (hl : Pic H' W' lr) (ho : Pic H W out) {p h w : Nat} (hp : p < 3)
    (h1 : h ≤ H) (h2 : w ≤ W) (h3 : h ≤ H') (h4 : w ≤ W') :
    ∃ src dst D, goGet lr (p : Int) = .ok src ∧ goGet out (p : Int) = .ok dst ∧ copyCols src h w dst = .ok D ∧
      goSet out (p : Int) D = .ok (out.set p D) ∧ Pic H W (out.set p D) ∧
      ∀ q y x, at3 (out.set p D) q y x = if q = p ∧ y < h ∧ x < w then at3 lr p y x else at3 out q y x := by
  obtain ⟨src, e1, s1, -, a1⟩ := hl.plane hp
  obtain ⟨dst, e2, s2, -, a2⟩ := ho.plane hp
  obtain ⟨D, e3⟩ := copyCols_total (Room.of_shape s1 s2 h3 h4 h1 h2)
  obtain ⟨c1, -, c3⟩ := copyCols_inv e3
  obtain ⟨g1, g2⟩ := pic_set ho hp (c3 _ _ s2)
  refine ⟨src, dst, D, e1, e2, e3, goSet_lt' _ (by rw [ho.1]; exact hp), g1, fun q y x => ?_⟩
  rw [g2 q y x]
  by_cases hq : q = p
  · subst hq
    rw [if_pos rfl, c1 y x, a1, a2]
    by_cases hh : y < h ∧ x < w
    · rw [if_pos hh, if_pos ⟨rfl, hh⟩]
    · rw [if_neg hh, if_neg (fun h => hh h.2)]
  · rw [if_neg hq, if_neg (fun h => hq h.1)]

/-- **C112 (copy).**  For a frame that fits into the arrays, without film grain and with the default operating point, the
output has the pixels of the restored frame in all planes; nothing outside the planes is written. -/
theorem C112_copy_partial {H W H' W' : Nat} {c : WrapCtx} {lr out : Planes} (hl : Pic H' W' lr) (ho : Pic H W out) (hx : c.subX ≤ 1)
    (hy : c.subY ≤ 1) (h1 : c.frameHeight ≤ H) (h2 : c.upscaledWidth ≤ W) (h3 : c.frameHeight ≤ H') (h4 : c.upscaledWidth ≤ W') :
    ∃ out', outputFrame c 0 false lr out = .ok out' ∧ Pic H W out' ∧
      ∀ p y x, p < 3 → at3 out' p y x = if y < outH c p ∧ x < outW c p then at3 lr p y x else at3 out p y x := by
  have dh : (c.frameHeight + c.subY) >>> c.subY ≤ c.frameHeight := planeDim_le _ _ hy (by omega)
  have dw : (c.upscaledWidth + c.subX) >>> c.subX ≤ c.upscaledWidth := planeDim_le _ _ hx (by omega)
  have e : ∀ a b : Nat, (a + b) >>> b = (a + b) / 2 ^ b := fun a b => Nat.shiftRight_eq_div_pow _ _
  obtain ⟨s0, d0, D0, a0, b0, c0, g0, P0, v0⟩ := outputPlane_ok hl ho (p := 0) (by decide) h1 h2 h3 h4
  obtain ⟨s1, d1, D1, a1, b1, c1, g1, P1, v1⟩ := outputPlane_ok hl P0 (p := 1) (by decide) (dh.trans h1) (dw.trans h2) (dh.trans h3) (dw.trans h4)
  obtain ⟨s2, d2, D2, a2, b2, c2, g2, P2, v2⟩ := outputPlane_ok hl P1 (p := 2) (by decide) (dh.trans h1) (dw.trans h2) (dh.trans h3) (dw.trans h4)
  refine ⟨_, ?_, P2, ?_⟩
  · unfold outputFrame
    rw [if_neg (by decide)]
    have : outputLr c lr out = .ok (((out.set 0 D0).set 1 D1).set 2 D2) := by
      have a0' : goGet lr 0 = .ok s0 := a0
      have b0' : goGet out 0 = .ok d0 := b0
      have g0' : goSet out 0 D0 = .ok (out.set 0 D0) := g0
      unfold outputLr
      rw [a0', Res.ok_bind, b0', Res.ok_bind, c0, Res.ok_bind, g0', Res.ok_bind]
      rw [forN, Nat.zero_add, a1, Res.ok_bind, b1, Res.ok_bind, c1, Res.ok_bind, g1, Res.ok_bind]
      rw [forN, a2, Res.ok_bind, b2, Res.ok_bind, c2, Res.ok_bind, g2, Res.ok_bind]
      rfl
    rw [this]; rfl
  · intro p y x hp
    rw [v2, v1, v0]
    unfold outH outW
    rw [← e, ← e]
    rcases (show p = 0 ∨ p = 1 ∨ p = 2 by omega) with rfl | rfl | rfl <;> simp

/-- The output arrays of the program: one pixel for each plane. -/
theorem outArrays : Pic 1 1 (zeroPlanes 3 1 1) := zeroPlanes_pic 1 1

example : ∃ out', outputFrame { frameWidth := 1, upscaledWidth := 1, frameHeight := 1, subX := 1, subY := 1 } 0 false
    (List.replicate 3 (List.replicate 9 (List.replicate 9 7))) (zeroPlanes 3 1 1) = .ok out' ∧ at3 out' 1 0 0 = some 7 := by
  obtain ⟨o, h1, -, h2⟩ := C112_copy_partial (c := { frameWidth := 1, upscaledWidth := 1, frameHeight := 1, subX := 1, subY := 1 })
    (lr := List.replicate 3 (List.replicate 9 (List.replicate 9 7))) (out := zeroPlanes 3 1 1) (H' := 9) (W' := 9)
    ⟨by simp, fun p hp => by rw [List.eq_of_mem_replicate hp]; exact Shape.replicate _ _ _⟩ (zeroPlanes_pic 1 1)
    (by decide) (by decide) (by decide) (by decide) (by decide) (by decide)
  exact ⟨o, h1, by rw [h2 1 0 0 (by decide)]; decide⟩

/-- **C112 fails for every larger frame**: with the output arrays of the program, no frame with more than one pixel is output. -/
theorem C112_size_refuted {c : WrapCtx} {opIdc : Nat} {grain : Bool} {lr out out' : Planes} (ho : Pic 1 1 out) (hw : 0 < c.upscaledWidth)
    (hh : 0 < c.frameHeight) (hbig : 1 < c.upscaledWidth ∨ 1 < c.frameHeight) : outputFrame c opIdc grain lr out ≠ .ok out' := by
  intro h
  unfold outputFrame at h
  split at h
  · cases h
  · obtain ⟨o, h, -⟩ := Res.inv h
    unfold outputLr at h
    obtain ⟨src, e1, h⟩ := Res.inv h
    obtain ⟨dst, e2, h⟩ := Res.inv h
    obtain ⟨D, e3, h⟩ := Res.inv h
    obtain ⟨F, e4, hF, -⟩ := ho.plane (pl := 0) (by decide)
    have e4' : goGet out 0 = .ok F := e4
    rw [e4'] at e2; cases e2
    obtain ⟨-, hr, -⟩ := copyCols_inv e3
    obtain ⟨a, ha⟩ := Option.isSome_iff_exists.mp (hr (c.frameHeight - 1) (c.upscaledWidth - 1) (by omega) (by omega)).2
    have := at2_lt hF ha
    omega

/-- **C112 fails with film grain or another operating point**: such a frame is never output. -/
theorem C112_grain_refuted {c : WrapCtx} {opIdc : Nat} {grain : Bool} {lr out out' : Planes} (h : opIdc ≠ 0 ∨ grain = true) :
    outputFrame c opIdc grain lr out ≠ .ok out' := by
  intro hc
  unfold outputFrame at hc
  split at hc
  · cases hc
  · rename_i h0
    obtain ⟨o, -, hc⟩ := Res.inv hc
    rcases h with h | h
    · exact h0 h
    · rw [if_pos h] at hc; cases hc

/-- **C112 fails for whole frames**: whatever was decoded, the end of a shown frame with more than one pixel is never reached. -/
theorem C112_shown_refuted {γ : Type} {c : LrCtx} {f : CurFrame} {i : FrameEndIn} {cdfs : γ} {m : RefMem γ} {out : Planes} (ho : Pic 1 1 out)
    (hs : i.shown = true) (hw : 0 < c.upscaledWidth) (hh : 0 < c.frameHeight) (hbig : 1 < c.upscaledWidth ∨ 1 < c.frameHeight)
    (r : RefMem γ × Planes) : frameEnd c f i cdfs m out ≠ .ok r := by
  intro h
  unfold frameEnd at h
  obtain ⟨lr, -, h⟩ := Res.inv h
  obtain ⟨seg, -, h⟩ := Res.inv h
  obtain ⟨m', -, h⟩ := Res.inv h
  rw [if_pos hs] at h
  obtain ⟨o, h, -⟩ := Res.inv h
  exact C112_size_refuted ho hw hh hbig h

/-- **C112 (hidden frames).**  A frame that is not shown leaves the output as it was, and the references it refreshes hold the
restored picture. -/
theorem C112_hidden_partial {γ : Type} {c : LrCtx} {f : CurFrame} {i : FrameEndIn} {cdfs : γ} {m m' : RefMem γ} {out out' : Planes}
    (hs : i.shown = false) (h : frameEnd c f i cdfs m out = .ok (m', out')) :
    out' = out ∧ ∃ lr seg, restored c i = .ok lr ∧
      refUpdate { f with toWrapCtx := c.toWrapCtx, lr := lr, segIds := seg } cdfs m = .ok m' ∧
      (∀ y x, at2 seg y x = match i.prevSegIds with
        | none => at2 f.segIds y x
        | some p => if y < c.miRows ∧ x < c.miCols then at2 p y x else at2 f.segIds y x) := by
  unfold frameEnd at h
  obtain ⟨lr, e1, h⟩ := Res.inv h
  obtain ⟨seg, e2, h⟩ := Res.inv h
  obtain ⟨m1, e3, h⟩ := Res.inv h
  rw [hs] at h
  cases h
  refine ⟨rfl, lr, seg, e1, e3, fun y x => ?_⟩
  unfold keepSegIds at e2
  cases hp : i.prevSegIds with
  | none => rw [hp] at e2; cases e2; rfl
  | some p => rw [hp] at e2; exact (copyCols_inv' e2) y x
where
  copyCols_inv' {p ids seg : List (List Int)} (e : copyRows p c.miRows c.miCols ids = .ok seg) : Copied p ids c.miRows c.miCols seg :=
    (copyRows_inv e).1

/-- A 4 by 4 frame that is not shown passes. -/
def tinyHidden : Res (RefMem Nat × Planes) :=
  frameEnd { frameWidth := 4, upscaledWidth := 4, frameHeight := 4, miCols := 1, miRows := 1 } { refresh := 3 }
    { cdefFrame := List.replicate 3 (List.replicate 16 (List.replicate 16 9)), curFrame := zeroPlanes 3 16 16, shown := false,
      prevSegIds := some [[5]] } 1 emptyMem (zeroPlanes 3 1 1)

example : ∃ r, tinyHidden = .ok r ∧ r.2 = zeroPlanes 3 1 1 := by
  have h : (match tinyHidden with | .ok r => r.2 == zeroPlanes 3 1 1 | .error _ => false) = true := by decide +kernel
  cases hr : tinyHidden with
  | error e => rw [hr] at h; cases h
  | ok r => rw [hr] at h; exact ⟨r, rfl, by simpa using h⟩

end Gov1
