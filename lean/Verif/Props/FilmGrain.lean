import Verif.Spec.FrameHeader
import Verif.Lemmas.MapBM
import Verif.Model.FrameHeader
/-! # C36: film grain parameters -/
namespace Gov1
open Spec

theorem grainPoint_good : Good grainPoint 16 (fun p => p.1 < 256 ∧ p.2 < 256) := by
  unfold grainPoint
  refine Good.bind' 8 8 (Good.F 8) (fun v hv => ?_) (by omega)
  refine Good.bind' 8 0 (Good.F 8) (fun w hw => ?_) (by omega)
  exact Good.pure (a := (v, w)) ⟨by omega, by omega⟩ _

theorem grainPoints_good : Good grainPoints 244 PointsOk := by
  unfold grainPoints
  refine Good.bind' 4 240 (Good.F 4) (fun n hn => ?_) (by omega)
  refine (Good.mapBM 16 (List.range n) fun _ _ => grainPoint_good).mono
    (by rw [List.length_range]; omega) fun l h => ⟨?_, fun p hp => ?_⟩
  · rw [h.length, List.length_range]; omega
  · obtain ⟨_, _, h⟩ := h.mem p hp; exact h

theorem numPos_le (lag : Nat) (h : lag < 4) : 2 * lag * (lag + 1) ≤ 24 := by
  rcases (by omega : lag = 0 ∨ lag = 1 ∨ lag = 2 ∨ lag = 3) with rfl | rfl | rfl | rfl <;> decide

theorem grainCoeffs_good (c : Bool) (n : Nat) (hn : n ≤ 25) :
    Good (grainCoeffs c n) 200 (fun l => l.length = (if c then n else 0) ∧ ∀ x ∈ l, x < 256) := by
  unfold grainCoeffs
  refine Good.ite (fun hc => ?_) fun hc => ?_
  · refine (Good.mapBM 8 (List.range n) fun _ _ => Good.F 8).mono (by rw [List.length_range]; omega)
      fun l h => ⟨by rw [h.length, List.length_range, if_pos hc], fun x hx => ?_⟩
    obtain ⟨_, _, h⟩ := h.mem x hx; exact h
  · exact Good.pure (a := ([] : List Nat)) ⟨by rw [if_neg hc]; rfl, by simp⟩ _

theorem grainChroma_good (c : Bool) :
    Good (grainChroma c) 25 (fun p => p.1 < 256 ∧ p.2.1 < 256 ∧ p.2.2 < 512 ∧ (c = false → p = (0, 0, 0))) := by
  unfold grainChroma
  refine Good.ite (fun hc => ?_) fun hc => Good.pure (a := ((0, 0, 0) : Nat × Nat × Nat)) (by simp) _
  refine Good.bind' 8 17 (Good.F 8) (fun a ha => ?_) (by omega)
  refine Good.bind' 8 9 (Good.F 8) (fun b hb => ?_) (by omega)
  refine Good.bind' 9 0 (Good.F 9) (fun d hd => ?_) (by omega)
  exact Good.pure (a := (a, b, d)) ⟨by omega, by omega, by omega, by simp [hc]⟩ _

theorem length_bne {α : Type} (l : List α) : (l.length != 0) = !l.isEmpty := by cases l <;> rfl

theorem grainUpdate_good (cc : ColorConfig) (seed : Nat) (hs : seed < 65536) :
    Good (grainUpdate cc seed) 1393 (ValidGrain cc) := by
  unfold grainUpdate
  refine Good.bind' 244 1149 grainPoints_good (fun py hpy => ?_) (by omega)
  refine Good.bind' 1 1148 (P := fun fl : Bool => cc.monoChrome = true → fl = false)
    (Good.ite (fun _ => Good.pure (a := false) (fun _ => rfl) _)
      fun hc => Good.flag.mono (Nat.le_refl _) fun _ _ h => absurd h hc) (fun fl hfl => ?_) (by omega)
  refine Good.bind' 488 660 (P := fun p : List (Nat × Nat) × List (Nat × Nat) => PointsOk p.1 ∧ PointsOk p.2 ∧
      ((cc.monoChrome || fl || (cc.subsamplingX && cc.subsamplingY && py.isEmpty)) = true → p = ([], [])))
    ?_ (fun p hp => ?_) (by omega)
  · unfold chromaPoints
    have e : (py.length == 0) = py.isEmpty := by cases py <;> rfl
    rw [e]
    refine Good.ite (fun hc => Good.pure (a := (([], []) : List (Nat × Nat) × List (Nat × Nat)))
      ⟨⟨by simp, by simp⟩, ⟨by simp, by simp⟩, fun _ => rfl⟩ _) fun hc => ?_
    refine Good.bind' 244 244 grainPoints_good (fun a ha => ?_) (by omega)
    refine Good.bind' 244 0 grainPoints_good (fun b hb => ?_) (by omega)
    exact Good.pure (a := (a, b)) ⟨ha, hb, fun h => absurd h hc⟩ _
  obtain ⟨pcb, pcr⟩ := p
  obtain ⟨hcb, hcr, hch⟩ := hp
  dsimp only at hcb hcr hch ⊢
  refine Good.bind' 2 658 (Good.F 2) (fun gs hgs => ?_) (by omega)
  refine Good.bind' 2 656 (Good.F 2) (fun lag hlag => ?_) (by omega)
  have h24 := numPos_le lag (by omega)
  have hchr : (if py.length ≠ 0 then 2 * lag * (lag + 1) + 1 else 2 * lag * (lag + 1)) =
      numPosLuma lag + (if py.isEmpty then 0 else 1) := by
    cases py <;> simp [numPosLuma]
  rw [hchr]
  have hle : numPosLuma lag + (if py.isEmpty then 0 else 1) ≤ 25 := by
    unfold numPosLuma; split <;> omega
  refine Good.bind' 200 456 (grainCoeffs_good _ _ (by omega)) (fun ay hay => ?_) (by omega)
  refine Good.bind' 200 256 (grainCoeffs_good _ _ hle) (fun acb hacb => ?_) (by omega)
  refine Good.bind' 200 56 (grainCoeffs_good _ _ hle) (fun acr hacr => ?_) (by omega)
  refine Good.bind' 2 54 (Good.F 2) (fun s6 hs6 => ?_) (by omega)
  refine Good.bind' 2 52 (Good.F 2) (fun gss hgss => ?_) (by omega)
  refine Good.bind' 25 27 (grainChroma_good _) (fun cb hcb2 => ?_) (by omega)
  refine Good.bind' 25 2 (grainChroma_good _) (fun cr hcr2 => ?_) (by omega)
  refine Good.bind' 1 1 Good.flag (fun ov _ => ?_) (by omega)
  refine Good.bind' 1 0 Good.flag (fun cl _ => Good.pure ?_ _) (by omega)
  rw [length_bne] at hay hacb hacr hcb2 hcr2
  refine ⟨rfl, hs, hpy, hcb, hcr, hfl, ?_, ⟨by omega, by omega, by omega, by omega⟩, ?_, ?_, ?_,
    ⟨hay.2, hacb.2, hacr.2⟩, ?_, ?_⟩
  · intro h
    unfold chromaCoded at h
    have := hch (by simpa only [Bool.not_eq_false'] using h)
    simpa using this
  · rw [hay.1]
    cases py <;> simp [numPosLuma]
  · rw [hacb.1]
    cases pcb <;> simp
  · rw [hacr.1]
    cases pcr <;> simp
  · exact ⟨hcb2.1, hcb2.2.1, hcb2.2.2.1, fun h => hcb2.2.2.2 (by dsimp only at h; rw [h]; rfl)⟩
  · exact ⟨hcr2.1, hcr2.2.1, hcr2.2.2.1, fun h => hcr2.2.2.2 (by dsimp only at h; rw [h]; rfl)⟩

/-- C36: whatever the bits, the parsed film grain parameters are legal ones (at most 15 points per plane,
all fields in range, coefficient counts determined by the lag) or there is no grain; on intra frames 1410
bits always suffice. -/
theorem C36_film_grain (sh : SeqHeader) (showFrame showable : Bool) (ft : Nat) (s : BitStream) :
    (∀ g s', filmGrainParams sh showFrame showable ft s = .ok (g, s') →
      g = {} ∨ ValidGrain sh.colorConfig g) ∧
    (ft ≠ 1 → 1410 ≤ (unread s).length → ∃ g s', filmGrainParams sh showFrame showable ft s = .ok (g, s')) := by
  constructor
  · intro g s'
    refine (?_ : Ensures (filmGrainParams sh showFrame showable ft) (fun g => g = {} ∨ ValidGrain sh.colorConfig g)) s g s'
    unfold filmGrainParams
    refine Ensures.ite (fun _ => Ensures.pure (Or.inl rfl)) fun _ => ?_
    refine Ensures.bindT fun ap => Ensures.ite (fun _ => Ensures.pure (Or.inl rfl)) fun _ => ?_
    refine Ensures.bind (Ensures.F 16) fun seed hs => Ensures.bindT fun up => ?_
    refine Ensures.ite (fun _ => Ensures.bindT fun _ => Ensures.fail _) fun _ => ?_
    exact (grainUpdate_good _ _ (by omega)).2.mono fun _ h => Or.inr h
  · intro hft hs
    have hF : Fits (filmGrainParams sh showFrame showable ft) 1410 (fun _ => True) := by
      unfold filmGrainParams
      refine Fits.ite (fun _ => Fits.pure trivial _) fun _ => ?_
      refine (Fits.bind (n2 := 1409) Fits.flag fun ap _ => Fits.ite (fun _ => Fits.pure trivial _) fun _ => ?_).mono
        (by omega) fun _ h => h
      refine (Fits.bind (n2 := 1393) (Fits.F 16) fun seed hsd => ?_).mono (by omega) fun _ h => h
      rw [if_neg hft]
      refine (Fits.bind (n1 := 0) (n2 := 1393) (P := fun u => u = true) (Fits.pure (P := fun u => u = true) rfl _) fun up hup => ?_).mono (by omega)
        fun _ h => h
      rw [if_neg (by simp [hup])]
      exact (grainUpdate_good _ _ (by omega)).1.mono (Nat.le_refl _) fun _ _ => trivial
    obtain ⟨g, k, _, h, _⟩ := hF s hs
    exact ⟨g, _, h⟩

/-- C36: no bits are read and there is no grain when the sequence has none or the frame is neither shown
nor showable; and a frame that does not apply grain has none. -/
theorem C36_no_grain (sh : SeqHeader) (showFrame showable : Bool) (ft : Nat) (s : BitStream) :
    (sh.filmGrainParamsPresent = false ∨ (showFrame = false ∧ showable = false) →
      filmGrainParams sh showFrame showable ft s = .ok ({}, s)) ∧
    (sh.filmGrainParamsPresent = true → (showFrame = true ∨ showable = true) →
      ∀ rest, unread s = false :: rest →
        filmGrainParams sh showFrame showable ft s = .ok ({}, s.advance 1)) := by
  constructor
  · intro h
    unfold filmGrainParams
    rw [if_pos (by rcases h with h | ⟨h, h'⟩ <;> simp [*])]
    rfl
  · intro h1 h2 rest h
    unfold filmGrainParams
    rw [if_neg (by rcases h2 with h | h <;> simp [*])]
    rw [BM.bind_ok (Reads.flag false s rest h)]
    rfl

theorem grainPoints_reads (l : List (Nat × Nat)) (h : PointsOk l) : Reads grainPoints (encPoints l) l := by
  unfold grainPoints encPoints
  refine Reads.bind (Reads.F (n := 4) (by have := h.1; omega)) ?_
  refine Reads.mapBM_const (by rw [List.length_range]) fun _ p hp => ?_
  obtain ⟨h1, h2⟩ := h.2 p hp
  unfold grainPoint
  exact Reads.bind (Reads.F (n := 8) (by omega)) (Reads.bindLast (Reads.F (n := 8) (by omega)))

theorem grainCoeffs_reads (c : Bool) (n : Nat) (l : List Nat) (hl : l.length = if c then n else 0)
    (h : ∀ x ∈ l, x < 256) : Reads (grainCoeffs c n) (l.flatMap (encF 8)) l := by
  unfold grainCoeffs
  cases c
  · have : l = [] := by simpa using hl
    subst this; exact Reads.pure _
  · exact Reads.mapBM_const (by rw [List.length_range]; simpa using hl) fun _ x hx =>
      Reads.F (n := 8) (by have := h x hx; omega)

theorem grainChroma_reads (e : Bool) (p : Nat × Nat × Nat) (h1 : p.1 < 256) (h2 : p.2.1 < 256) (h3 : p.2.2 < 512)
    (h : e = true → p = (0, 0, 0)) :
    Reads (grainChroma (!e)) (if e then [] else encF 8 p.1 ++ encF 8 p.2.1 ++ encF 9 p.2.2) p := by
  unfold grainChroma
  cases e
  · simp only [Bool.not_false, if_true, Bool.false_eq_true, if_false, List.append_assoc]
    exact Reads.bind (Reads.F (n := 8) (by omega)) (Reads.bind (Reads.F (n := 8) (by omega))
      (Reads.bindLast (Reads.F (n := 9) (by omega))))
  · rw [h rfl, if_pos rfl, if_neg (by decide)]
    exact Reads.pure _

theorem grainUpdate_reads (cc : ColorConfig) (g : FilmGrain) (hg : ValidGrain cc g) :
    Reads (grainUpdate cc g.grainSeed)
      (encPoints g.pointY ++
  (if cc.monoChrome then [] else bit g.chromaScalingFromLuma) ++
  (if chromaCoded cc g then encPoints g.pointCb ++ encPoints g.pointCr else []) ++
  encF 2 g.grainScalingMinus8 ++ encF 2 g.arCoeffLag ++
  g.arCoeffsY.flatMap (encF 8) ++ g.arCoeffsCb.flatMap (encF 8) ++ g.arCoeffsCr.flatMap (encF 8) ++
  encF 2 g.arCoeffShiftMinus6 ++ encF 2 g.grainScaleShift ++
  (if g.pointCb.isEmpty then [] else encF 8 g.cb.1 ++ encF 8 g.cb.2.1 ++ encF 9 g.cb.2.2) ++
  (if g.pointCr.isEmpty then [] else encF 8 g.cr.1 ++ encF 8 g.cr.2.1 ++ encF 9 g.cr.2.2) ++
  bit g.overlapFlag ++ bit g.clipToRestrictedRange) g := by
  obtain ⟨ap, seed, py, fl, pcb, pcr, gs, lag, ay, acb, acr, s6, gss, cb, cr, ov, cl⟩ := g
  obtain ⟨h1, h2, h3, h4, h5, h6, h7, h8, h9, h10, h11, h12, h13, h14⟩ := hg
  dsimp only at *
  subst h1
  unfold grainUpdate
  simp only [List.append_assoc]
  refine Reads.bind (grainPoints_reads py h3) ?_
  refine Reads.bind (a := fl) ?_ ?_
  · cases hm : cc.monoChrome
    · exact Reads.flag fl
    · rw [h6 hm]; exact Reads.pure _
  refine Reads.bind (a := (pcb, pcr)) ?_ ?_
  · unfold chromaPoints
    unfold chromaCoded at h7 ⊢
    dsimp only at h7 ⊢
    have e : (py.length == 0) = py.isEmpty := by cases py <;> rfl
    rw [e]
    by_cases hc : (cc.monoChrome || fl || (cc.subsamplingX && cc.subsamplingY && py.isEmpty)) = true
    · rw [if_pos hc]
      rw [hc] at h7 ⊢
      obtain ⟨r1, r2⟩ := h7 rfl
      rw [r1, r2]
      exact Reads.pure _
    · rw [if_neg hc, if_pos (by rw [Bool.eq_false_iff.mpr hc]; rfl)]
      exact Reads.bind (grainPoints_reads _ h4) (Reads.bindLast (grainPoints_reads _ h5))
  dsimp only
  refine Reads.bind (Reads.F (n := 2) h8.1) ?_
  refine Reads.bind (Reads.F (n := 2) h8.2.1) ?_
  rw [length_bne, length_bne, length_bne]
  have hchr : (if py.length ≠ 0 then 2 * lag * (lag + 1) + 1 else 2 * lag * (lag + 1)) =
      numPosLuma lag + (if py.isEmpty then 0 else 1) := by
    cases py <;> simp [numPosLuma]
  rw [hchr]
  refine Reads.bind (grainCoeffs_reads _ _ ay (by rw [h9]; cases py <;> simp [numPosLuma]) h12.1) ?_
  refine Reads.bind (grainCoeffs_reads _ _ acb (by rw [h10]; cases pcb <;> simp) h12.2.1) ?_
  refine Reads.bind (grainCoeffs_reads _ _ acr (by rw [h11]; cases pcr <;> simp) h12.2.2) ?_
  refine Reads.bind (Reads.F (n := 2) h8.2.2.1) ?_
  refine Reads.bind (Reads.F (n := 2) h8.2.2.2) ?_
  refine Reads.bind (grainChroma_reads _ cb h13.1 h13.2.1 h13.2.2.1 fun h => h13.2.2.2 (by simpa using h)) ?_
  refine Reads.bind (grainChroma_reads _ cr h14.1 h14.2.1 h14.2.2.1 fun h => h14.2.2.2 (by simpa using h)) ?_
  refine Reads.bind (Reads.flag ov) ?_
  exact Reads.bindLast (Reads.flag cl)

/-- C36: every legal set of film grain parameters is read back exactly from its AV1 encoding. -/
theorem C36_film_grain_roundtrip (sh : SeqHeader) (showFrame showable : Bool) (ft : Nat)
    (hp : sh.filmGrainParamsPresent = true) (hv : showFrame = true ∨ showable = true) (g : FilmGrain)
    (hg : ValidGrain sh.colorConfig g) (s : BitStream) (rest : List Bool)
    (h : unread s = encGrain sh.colorConfig ft g ++ rest) :
    filmGrainParams sh showFrame showable ft s = .ok (g, s.advance (encGrain sh.colorConfig ft g).length) := by
  refine (?_ : Reads (filmGrainParams sh showFrame showable ft) _ _) s rest h
  unfold filmGrainParams encGrain
  rw [if_neg (by rcases hv with h | h <;> simp [*])]
  have hU := grainUpdate_reads sh.colorConfig g hg
  simp only [List.append_assoc] at hU ⊢
  refine Reads.bind (Reads.flag true) ?_
  rw [if_neg (by decide)]
  refine Reads.bind (Reads.F (n := 16) (by have := hg.seed; omega)) ?_
  refine Reads.bind (a := true) ?_ ?_
  · split
    · exact Reads.flag true
    · exact Reads.pure _
  rw [if_neg (by decide)]
  exact hU

/-- Two luma points, one Cb point, lag 1. -/
def sampleGrain : FilmGrain :=
  ⟨true, 4660, [(16, 20), (200, 90)], false, [(128, 7)], [], 2, 1, [1, 2, 3, 255], [9, 8, 7, 6, 5], [], 1, 0,
    (128, 192, 256), (0, 0, 0), true, false⟩

example : ValidGrain { numPlanes := 3, subsamplingX := true, subsamplingY := true } sampleGrain := by
  refine ⟨rfl, by decide, ⟨by decide, ?_⟩, ⟨by decide, ?_⟩, ⟨by decide, ?_⟩, ?_, ?_, ?_, ?_, ?_, ?_, ?_, ?_, ?_⟩
  all_goals decide +kernel

end Gov1
