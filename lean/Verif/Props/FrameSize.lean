import Verif.Spec.FrameHeader
import Verif.Lemmas.MapBM
import Mathlib.Tactic.Linarith
/-! # C29, C64: frame dimensions -/
namespace Gov1
open Spec

/-- Dimensions from the upscaled width, height and denominator. -/
theorem sizeOk_mk (use : Bool) (w h d : Nat) (hw : 1 ≤ w) (hh : 1 ≤ h)
    (hd : if use then 9 ≤ d ∧ d ≤ 16 else d = 8) :
    SizeOk ⟨use, d, w, (w * 8 + d / 2) / d, h, 2 * (((w * 8 + d / 2) / d + 7) >>> 3), 2 * ((h + 7) >>> 3)⟩ := by
  have hd' : d = 8 ∨ d = 9 ∨ d = 10 ∨ d = 11 ∨ d = 12 ∨ d = 13 ∨ d = 14 ∨ d = 15 ∨ d = 16 := by
    cases use <;> simp at hd <;> omega
  have hmi : ∀ n, EvenUnits n (2 * ((n + 7) >>> 3)) := by
    intro n; unfold EvenUnits; rw [Nat.shiftRight_eq_div_pow]; omega
  refine ⟨hd, ?_, ?_, ?_, ?_, hmi _, hmi _⟩
  · unfold Downscaled
    dsimp only
    rcases hd' with rfl | rfl | rfl | rfl | rfl | rfl | rfl | rfl | rfl <;> omega
  · dsimp only
    rcases hd' with rfl | rfl | rfl | rfl | rfl | rfl | rfl | rfl | rfl <;> omega
  · dsimp only
    rcases hd' with rfl | rfl | rfl | rfl | rfl | rfl | rfl | rfl | rfl <;> omega
  · intro hu
    dsimp only at hu ⊢
    subst hu
    simp at hd
    subst hd
    omega

/-- `superResParams` on any stream. -/
theorem superRes_good (sh : SeqHeader) : Good (superResParams sh) 4
    (fun r => if r.1 then 9 ≤ r.2 ∧ r.2 ≤ 16 else r.2 = 8) := by
  unfold superResParams
  refine Good.bind' 1 3 (P := fun _ => True)
    (Good.ite (fun _ => Good.flag) fun _ => Good.pure trivial _) (fun use _ => ?_) (by omega)
  refine Good.ite (fun hu => ?_) fun hu => Good.pure (by simp [hu]) _
  refine Good.bind' 3 0 (Good.F 3) (fun d hd => Good.pure (by simp [hu]; omega) _) (by omega)

theorem frameSize_good (sh : SeqHeader) (override : Bool) :
    Good (frameSize sh override) (sh.frameWidthBitsMinusOne + sh.frameHeightBitsMinusOne + 6)
      (fun fs => SizeOk fs ∧
        (override = false → fs.upscaledWidth = sh.maxFrameWidthMinusOne + 1 ∧
          fs.frameHeight = sh.maxFrameHeightMinusOne + 1) ∧
        (override = true → fs.upscaledWidth ≤ 2 ^ (sh.frameWidthBitsMinusOne + 1) ∧
          fs.frameHeight ≤ 2 ^ (sh.frameHeightBitsMinusOne + 1))) := by
  unfold frameSize
  refine Good.bind' (sh.frameWidthBitsMinusOne + sh.frameHeightBitsMinusOne + 2) 4
    (P := fun r => 1 ≤ r.1 ∧ 1 ≤ r.2 ∧
      (override = false → r.1 = sh.maxFrameWidthMinusOne + 1 ∧ r.2 = sh.maxFrameHeightMinusOne + 1) ∧
      (override = true → r.1 ≤ 2 ^ (sh.frameWidthBitsMinusOne + 1) ∧
        r.2 ≤ 2 ^ (sh.frameHeightBitsMinusOne + 1))) ?_ (fun r hr => ?_) (by omega)
  · refine Good.ite (fun ho => ?_) fun ho => Good.pure (by simp [ho]) _
    refine Good.bind' (sh.frameWidthBitsMinusOne + 1) (sh.frameHeightBitsMinusOne + 1) (Good.F _)
      (fun w hw => ?_) (by omega)
    refine Good.bind' (sh.frameHeightBitsMinusOne + 1) 0 (Good.F _) (fun h hh => Good.pure ?_ _) (by omega)
    refine ⟨by simp, by simp, by simp [ho], fun _ => ?_⟩
    dsimp only
    omega
  · obtain ⟨w, h⟩ := r
    obtain ⟨h1, h2, h3, h4⟩ := hr
    dsimp only at h1 h2 h3 h4 ⊢
    refine Good.bind' 4 0 (superRes_good sh) (fun r hr => ?_) (by omega)
    obtain ⟨use, d⟩ := r
    exact Good.pure ⟨sizeOk_mk use w h d h1 h2 hr, h3, h4⟩ _

/-- C29: whatever the bits, the parsed dimensions are consistent (super-resolution denominator 8, or
9..16 when used; downscaled width the rounded quotient and never larger than the upscaled width;
`MiCols`, `MiRows` the sizes in units of 4 rounded up to even), equal the sequence's maximum unless
overridden, and enough bits always give a result. -/
theorem C29_dimensions (sh : SeqHeader) (override : Bool) (s : BitStream) :
    (sh.frameWidthBitsMinusOne + sh.frameHeightBitsMinusOne + 6 ≤ (unread s).length →
      ∃ fs s', frameSize sh override s = .ok (fs, s')) ∧
    ∀ fs s', frameSize sh override s = .ok (fs, s') → SizeOk fs ∧
      (override = false → fs.upscaledWidth = sh.maxFrameWidthMinusOne + 1 ∧
        fs.frameHeight = sh.maxFrameHeightMinusOne + 1) := by
  have hG := frameSize_good sh override
  refine ⟨fun h => ?_, fun fs s' h => ?_⟩
  · obtain ⟨a, k, _, h2, _⟩ := hG.1 s h
    exact ⟨a, _, h2⟩
  · have := hG.2 s fs s' h
    exact ⟨this.1, this.2.1⟩

/-- C29: the coded size is read back, and exactly its bits are consumed. -/
theorem C29_size_roundtrip (sh : SeqHeader) (override : Bool) (w h : Nat) (sr : Option Nat)
    (hw : 1 ≤ w) (hh : 1 ≤ h)
    (ho : if override then w ≤ 2 ^ (sh.frameWidthBitsMinusOne + 1) ∧ h ≤ 2 ^ (sh.frameHeightBitsMinusOne + 1)
      else w = sh.maxFrameWidthMinusOne + 1 ∧ h = sh.maxFrameHeightMinusOne + 1)
    (hsr : ∀ d, sr = some d → sh.enableSuperRes = true ∧ 9 ≤ d ∧ d ≤ 16)
    (s : BitStream) (rest : List Bool) (hs : unread s = encFrameSize sh override w h sr ++ rest) :
    ∃ fs, frameSize sh override s = .ok (fs, s.advance (encFrameSize sh override w h sr).length) ∧
      fs.upscaledWidth = w ∧ fs.frameHeight = h ∧ fs.useSuperRes = sr.isSome ∧
      fs.superResDenom = sr.getD 8 ∧ SizeOk fs := by
  have h1 : Reads (superResParams sh) (encSuperRes sh.enableSuperRes sr) (sr.isSome, sr.getD 8) := by
    unfold superResParams
    cases sr with
    | none =>
      unfold encSuperRes
      cases he : sh.enableSuperRes
      · exact Reads.bind0 (a := false) (Reads.pure _) (Reads.pure _)
      · exact Reads.bind (b2 := []) (Reads.flag false) (Reads.pure _)
    | some d =>
      obtain ⟨e1, e2, e3⟩ := hsr d rfl
      rw [e1]
      unfold encSuperRes
      refine Reads.bind (Reads.flag true) ?_
      have := Reads.bindLast (f := fun c => (true, c + 9)) (Reads.F (n := 3) (v := d - 9) (by omega))
      rw [show d - 9 + 9 = d by omega] at this
      exact this
  have h2 : Reads (frameSize sh override) (encFrameSize sh override w h sr)
      ⟨sr.isSome, sr.getD 8, w, (w * 8 + sr.getD 8 / 2) / sr.getD 8, h,
        2 * (((w * 8 + sr.getD 8 / 2) / sr.getD 8 + 7) >>> 3), 2 * ((h + 7) >>> 3)⟩ := by
    unfold frameSize encFrameSize
    refine Reads.bind (a := (w, h)) ?_ (Reads.bindLast h1)
    cases override
    · simp only [Bool.false_eq_true, if_false] at ho ⊢
      rw [ho.1, ho.2]
      exact Reads.pure _
    · simp only [if_true] at ho ⊢
      refine Reads.bind (Reads.F (v := w - 1) (by omega)) ?_
      have := Reads.bindLast (f := fun hm => (w - 1 + 1, hm + 1))
        (Reads.F (n := sh.frameHeightBitsMinusOne + 1) (v := h - 1) (by omega))
      rw [show w - 1 + 1 = w by omega, show h - 1 + 1 = h by omega] at this
      rw [show w - 1 + 1 = w by omega]
      exact this
  refine ⟨_, h2 s rest hs, rfl, rfl, rfl, rfl, sizeOk_mk _ _ _ _ hw hh ?_⟩
  cases sr with
  | none => rfl
  | some d => obtain ⟨_, e2, e3⟩ := hsr d rfl; exact ⟨e2, e3⟩

/-- C64 is false of the code: when the render size is not coded, the render height is 0 (not the
frame height), for every frame. -/
theorem C64_render_size_refuted (fs : FrameSize) (s : BitStream) (rest : List Bool)
    (hh : 1 ≤ fs.frameHeight) (hs : unread s = false :: rest) :
    renderSize fs s = .ok ((fs.upscaledWidth, 0), s.advance 1) ∧ (0 : Nat) ≠ fs.frameHeight := by
  refine ⟨?_, by omega⟩
  have h : Reads (renderSize fs) (bit false) (fs.upscaledWidth, 0) := by
    unfold renderSize
    exact Reads.bind (b2 := []) (Reads.flag false) (Reads.pure _)
  exact h s rest hs

/-- C64 (partial: coded render sizes): a coded render size is read back exactly; and in every case
the render width is the coded one or the upscaled width. -/
theorem C64_render_size_partial (fs : FrameSize) (w h : Nat) (hw : 1 ≤ w ∧ w ≤ 65536)
    (hh : 1 ≤ h ∧ h ≤ 65536) (s : BitStream) (rest : List Bool)
    (hs : unread s = bit true ++ encF 16 (w - 1) ++ encF 16 (h - 1) ++ rest) :
    renderSize fs s = .ok ((w, h), s.advance 33) := by
  have : Reads (renderSize fs) (bit true ++ (encF 16 (w - 1) ++ encF 16 (h - 1))) (w, h) := by
    unfold renderSize
    refine Reads.bind (Reads.flag true) (Reads.bind (Reads.F (v := w - 1) (by omega)) ?_)
    have := Reads.bindLast (f := fun hm => (w - 1 + 1, hm + 1)) (Reads.F (n := 16) (v := h - 1) (by omega))
    rw [show w - 1 + 1 = w by omega, show h - 1 + 1 = h by omega] at this
    rw [show w - 1 + 1 = w by omega]
    exact this
  have h2 := this s rest (by rw [hs]; simp)
  simpa [bit] using h2

/-- 1920x1080 overridden on 11 + 11 bits with denominator 16: 960 samples wide after downscaling. -/
example : (frameSize { frameWidthBitsMinusOne := 10, frameHeightBitsMinusOne := 10, enableSuperRes := true }
    true ⟨[0xEF, 0xF0, 0xDF, 0xC0], 0, 0⟩).map (fun p => (p.1, p.2.pos)) =
    .ok (⟨true, 16, 1920, 960, 1080, 240, 270⟩, 26) := by decide +kernel
example : (unread ⟨[0xEF, 0xF0, 0xDF, 0xC0], 0, 0⟩).take 26 =
    encFrameSize { frameWidthBitsMinusOne := 10, frameHeightBitsMinusOne := 10, enableSuperRes := true }
      true 1920 1080 (some 16) := by decide +kernel

end Gov1
