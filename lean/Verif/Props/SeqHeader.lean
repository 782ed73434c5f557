import Verif.Lemmas.Ensures
import Verif.Props.BitStream
import Verif.Props.Headers
/-!
# C07 (sequence header), C23, C25: the sequence header (internal/sequenceheader/sequence_header.go)
-/
namespace Gov1
open Spec

/-! ## C07 -/

theorem Streaming.timingInfo : Streaming newTimingInfo := by
  unfold newTimingInfo
  repeat first | exact Streaming.flag | exact C07_uvlc_streaming | streaming_step

theorem Streaming.opPointStep (s : SeqHeader) (l : List Nat) (i : Nat) :
    Streaming (Gov1.opPointStep s l i) := by
  unfold Gov1.opPointStep operatingParametersInfo
  repeat first | exact Streaming.flag | streaming_step

theorem Streaming.opPointLoop (k i : Nat) (s : SeqHeader) (l : List Nat) :
    Streaming (Gov1.opPointLoop k i s l) := by
  induction k generalizing i s l with
  | zero => exact Streaming.pure _
  | succ k ih =>
    unfold Gov1.opPointLoop
    exact Streaming.bind (Streaming.opPointStep _ _ _) fun _ => ih _ _ _

/-- C07: the sequence header parser is a streaming reader. -/
theorem C07_sequenceHeader_streaming (st : State) : Streaming (newSequenceHeader st) := by
  unfold newSequenceHeader seqBody seqTiming seqFrameSize seqTools seqScreenContent
  repeat first
    | exact Streaming.flag | exact C07_colorConfig_streaming _ | exact Streaming.timingInfo
    | exact Streaming.opPointLoop _ _ _ _ | streaming_step

/-! ## C25 operating points -/

theorem goSet_length_one {α : Type} (x y : α) (l : List α) (i : Nat) (h : goSet [x] i y = .ok l) :
    i = 0 ∧ l = [y] := by
  unfold goSet at h
  rw [if_neg (by omega)] at h
  split at h
  · rename_i hi
    simp at hi
    subst hi
    cases h; exact ⟨rfl, rfl⟩
  · cases h

theorem goSet_nil {α : Type} (y : α) (i : Nat) : goSet ([] : List α) i y = .error .index := by
  unfold goSet; rw [if_neg (by omega)]; simp

theorem BM.lift_eq_ok {α : Type} {r : Res α} {s s' : BitStream} {a : α} :
    BM.lift r s = .ok (a, s') ↔ r = .ok a ∧ s' = s := by
  cases r with
  | ok x => simp [BM.lift]; intro _; exact eq_comm
  | error e => simp [BM.lift]

/-- The second iteration of the operating point loop panics: all slices have length one. -/
theorem opPointStep_one (s : SeqHeader) (x : Nat) (i : Nat) (hi : 1 ≤ i) :
    NeverReturns (opPointStep s [x] i) := by
  intro t a t' h
  unfold opPointStep at h
  obtain ⟨idc, s1, -, h⟩ := BM.bind_eq_ok.mp h
  obtain ⟨l, s2, h2, -⟩ := BM.bind_eq_ok.mp h
  obtain ⟨h2, -⟩ := BM.lift_eq_ok.mp h2
  have := (goSet_length_one _ _ _ _ h2).1
  omega

theorem opPointStep_idcs (s : SeqHeader) (x i : Nat) :
    Ensures (opPointStep s [x] i) (fun r => ∃ y, r.2 = [y]) := by
  intro t a t' h
  unfold opPointStep at h
  obtain ⟨idc, s1, -, h⟩ := BM.bind_eq_ok.mp h
  obtain ⟨l, s2, h2, h⟩ := BM.bind_eq_ok.mp h
  obtain ⟨h2, -⟩ := BM.lift_eq_ok.mp h2
  have hl := (goSet_length_one _ _ _ _ h2).2
  subst hl
  refine (?_ : Ensures _ (fun r : SeqHeader × List Nat => ∃ y, r.2 = [y])) _ _ _ h
  refine Ensures.bindT fun _ => Ensures.bindT fun _ => Ensures.bindT fun _ => Ensures.bindT fun _ =>
    Ensures.bindT fun _ => Ensures.bindT fun _ => Ensures.pure ⟨_, rfl⟩

theorem opPointLoop_two (k : Nat) (s : SeqHeader) (x : Nat) :
    NeverReturns (opPointLoop (k + 2) 0 s [x]) := by
  intro t a t' h
  rw [opPointLoop] at h
  obtain ⟨⟨s1, l⟩, t1, h1, h⟩ := BM.bind_eq_ok.mp h
  obtain ⟨y, hy⟩ := opPointStep_idcs s x 0 t _ t1 h1
  simp only at hy h
  subst hy
  rw [opPointLoop] at h
  obtain ⟨r, t2, h2, -⟩ := BM.bind_eq_ok.mp h
  exact opPointStep_one s1 y 1 (by omega) t1 r t2 h2

/-- What one operating point can look like when the iteration returns. -/
theorem opPointStep_zero (s : SeqHeader) (x : Nat)
    (hd : s.decoderBufferDelay = []) (hi : s.initialDisplayDelayMinusOne = [])
    (hl : ∃ a, s.seqLevelIdx = [a]) (ht : ∃ a, s.seqTier = [a])
    (hm : s.decoderModelPresentForThisOp = [false])
    (hp : s.initialDisplayDelayPresentForThisOp = [false]) :
    Ensures (opPointStep s [x] 0) (fun r =>
      ∃ a b, r.1 = { s with seqLevelIdx := [a], seqTier := [b] } ∧ a < 4096 ∧ b < 2) := by
  unfold opPointStep
  refine Ensures.bindT fun idc => Ensures.bindT fun idcs => (Ensures.F 12).bind fun lvl hlvl => ?_
  obtain ⟨a0, ha0⟩ := hl
  obtain ⟨b0, hb0⟩ := ht
  refine (Ensures.lift (P := fun l => l = [lvl]) fun l h => ?_).bind fun l hl => ?_
  · rw [ha0] at h; exact (goSet_length_one _ _ _ 0 h).2
  subst hl
  refine Ensures.bind (P := fun t => t < 2) ?_ fun tier htier => ?_
  · exact Ensures.ite (fun _ => (Ensures.F 1).mono fun a h => by simpa using h)
      (fun _ => Ensures.pure (by decide))
  refine (Ensures.lift (P := fun l => l = [tier]) fun l h => ?_).bind fun l hl => ?_
  · simp only [hb0] at h; exact (goSet_length_one _ _ _ 0 h).2
  subst hl
  dsimp only
  refine Ensures.bind (P := fun r => r = { s with seqLevelIdx := [lvl], seqTier := [tier] }) ?_ ?_
  · refine Ensures.ite (fun _ => ?_) (fun _ => ?_)
    · refine Ensures.bindT fun present => ?_
      refine (Ensures.lift (P := fun l => l = [present]) fun l h => ?_).bind fun l hl => ?_
      · rw [hm] at h; exact (goSet_length_one _ _ _ 0 h).2
      subst hl
      cases present with
      | true =>
        simp only [if_true, operatingParametersInfo, hd]
        refine Ensures.bindT fun d => ?_
        rw [show goSet ([] : List Nat) ((0 : Nat) : Int) d = .error .index from goSet_nil d 0]
        exact Ensures.fail _
      | false =>
        refine Ensures.pure ?_
        rw [← hm]
    · refine (Ensures.lift (P := fun l => l = [false]) fun l h => ?_).bind fun l hl => ?_
      · rw [hm] at h; exact (goSet_length_one _ _ _ 0 h).2
      subst hl
      refine Ensures.pure ?_
      rw [← hm]
  · intro r hr
    subst hr
    refine Ensures.bind (P := fun r => r = { s with seqLevelIdx := [lvl], seqTier := [tier] }) ?_ ?_
    · refine Ensures.ite (fun _ => ?_) (fun _ => Ensures.pure rfl)
      refine Ensures.bindT fun present => ?_
      refine (Ensures.lift (P := fun l => l = [present]) fun l h => ?_).bind fun l hl => ?_
      · rw [hp] at h; exact (goSet_length_one _ _ _ 0 h).2
      subst hl
      cases present with
      | true =>
        simp only [if_true, hi]
        refine Ensures.bindT fun d => ?_
        rw [show goSet ([] : List Nat) ((0 : Nat) : Int) d = .error .index from goSet_nil d 0]
        exact Ensures.fail _
      | false =>
        refine Ensures.pure ?_
        rw [← hp]
    · intro r hr
      subst hr
      exact Ensures.pure ⟨lvl, tier, rfl, by simpa using hlvl, htier⟩

/-- The start of `NewSequenceHeader`: the record before the timing information. -/
def seqStart (profile : Nat) (still reduced : Bool) (level : Nat) : SeqHeader :=
  { seqProfile := profile, stillPicture := still, reducedStillPictureHeader := reduced,
    seqLevelIdx := [level], seqTier := [0], decoderModelPresentForThisOp := [false],
    initialDisplayDelayPresentForThisOp := [false], initialDisplayDelayMinusOne := [] }

theorem seqTiming_shape (p : Nat) (st red : Bool) (lv : Nat) :
    Ensures (seqTiming (seqStart p st red lv) [0]) (fun r =>
      (∃ ti dmp dmi idd a b, r.1 = { seqStart p st red lv with
        timingInfo := ti, decoderModelInfoPresent := dmp, decoderModelInfo := dmi,
        initialDisplayDelayPresent := idd, seqLevelIdx := [a], seqTier := [b] } ∧ a < 4096 ∧ b < 2) ∧
      ∃ y, r.2 = [y]) := by
  unfold seqTiming
  refine Ensures.bindT fun ti => Ensures.bindT fun dmp => ?_
  dsimp only
  refine Ensures.bind (P := fun s => ∃ dmi, s = { seqStart p st red lv with
      timingInfo := ti, decoderModelInfoPresent := dmp, decoderModelInfo := dmi }) ?_ ?_
  · refine Ensures.ite (fun _ => ?_) (fun _ => ?_)
    · exact Ensures.bindT fun _ => Ensures.bindT fun _ => Ensures.bindT fun _ => Ensures.bindT fun _ =>
        Ensures.pure ⟨_, rfl⟩
    · exact Ensures.pure ⟨_, rfl⟩
  rintro s ⟨dmi, rfl⟩
  refine Ensures.bindT fun idd => Ensures.bindT fun cnt => ?_
  cases cnt with
  | zero =>
    simp only [opPointLoop]
    refine Ensures.bind (Ensures.and (opPointStep_zero _ 0 rfl rfl ⟨_, rfl⟩ ⟨_, rfl⟩ rfl rfl)
      (opPointStep_idcs _ 0 0)) ?_
    rintro ⟨s1, l⟩ ⟨⟨a, b, h1, h2⟩, h3⟩
    simp only at h1 h3 ⊢
    subst h1
    exact Ensures.pure ⟨⟨ti, dmp, dmi, idd, a, b, rfl, h2⟩, h3⟩
  | succ k =>
    intro t a t' h
    exact absurd h (opPointLoop_two k _ 0 t a t')

/-- One operating point, with nothing recorded for it beyond level and tier. -/
def OneOpPoint (h : SeqHeader) : Prop :=
  h.operatingPointsCountMinusOne = 0 ∧ h.decoderModelPresentForThisOp = [false] ∧
  h.initialDisplayDelayPresentForThisOp = [false] ∧ h.operatingPointIdc = [] ∧
  h.seqLevelIdx.length = 1 ∧ h.seqTier.length = 1

theorem newSequenceHeader_oneOp (st : State) :
    Ensures (newSequenceHeader st) (fun r => OneOpPoint r.1) := by
  have fin : ∀ (sh : SeqHeader) (st : State), OneOpPoint sh →
      Ensures (do
        let sr ← flag
        let cdef ← flag
        let lr ← flag
        let cc ← newColorConfig sh.seqProfile
        let fg ← flag
        pure ({ sh with enableSuperRes := sr, enableCdef := cdef, enableRestoration := lr,
                        colorConfig := cc, filmGrainParamsPresent := fg }, st))
        (fun r : SeqHeader × State => OneOpPoint r.1) := by
    intro sh st h
    exact Ensures.bindT fun _ => Ensures.bindT fun _ => Ensures.bindT fun _ => Ensures.bindT fun _ =>
      Ensures.bindT fun _ => Ensures.pure h
  unfold newSequenceHeader
  refine Ensures.bindT fun p => Ensures.bindT fun still => Ensures.bindT fun red =>
    Ensures.bindT fun lv => ?_
  refine Ensures.bind (P := fun r : SeqHeader × State => OneOpPoint r.1) ?_ (fun r hr => fin r.1 r.2 hr)
  refine Ensures.ite (fun _ => ?_) (fun _ => Ensures.pure ⟨rfl, rfl, rfl, rfl, rfl, rfl⟩)
  unfold seqBody
  refine Ensures.bindT fun ti => ?_
  refine Ensures.bind (P := fun r : SeqHeader × List Nat => OneOpPoint r.1) ?_ ?_
  · refine Ensures.ite (fun _ => ?_) (fun _ => Ensures.pure ⟨rfl, rfl, rfl, rfl, rfl, rfl⟩)
    refine (seqTiming_shape p still red lv).mono ?_
    rintro ⟨r1, r2⟩ ⟨⟨a, b, c, d, e, f, h1, -⟩, -⟩
    simp only at h1
    subst h1
    exact ⟨rfl, rfl, rfl, rfl, rfl, rfl⟩
  · rintro ⟨r1, r2⟩ hr
    simp only at hr ⊢
    refine Ensures.bindT fun idc => ?_
    refine Ensures.bind (P := OneOpPoint) ?_ ?_
    · unfold seqFrameSize
      refine Ensures.bindT fun _ => Ensures.bindT fun _ => Ensures.bindT fun _ => Ensures.bindT fun _ =>
        Ensures.bindT fun _ => Ensures.ite (fun _ => ?_) (fun _ => Ensures.pure hr)
      exact Ensures.bindT fun _ => Ensures.bindT fun _ => Ensures.pure hr
    · intro r hr
      refine Ensures.bind (P := OneOpPoint) ?_ (fun r hr => Ensures.pure hr)
      unfold seqTools
      refine Ensures.bindT fun _ => Ensures.bindT fun _ => Ensures.bindT fun _ =>
        Ensures.ite (fun _ => ?_) (fun _ => Ensures.pure hr)
      refine Ensures.bindT fun _ => Ensures.bindT fun _ => Ensures.bindT fun _ => Ensures.bindT fun _ =>
        Ensures.bindT fun oh => ?_
      refine Ensures.bind (P := OneOpPoint) ?_ ?_
      · exact Ensures.ite (fun _ => Ensures.bindT fun _ => Ensures.bindT fun _ => Ensures.pure hr)
          (fun _ => Ensures.pure hr)
      · intro r hr
        refine Ensures.bindT fun _ => ?_
        exact Ensures.ite (fun _ => Ensures.bindT fun _ => Ensures.pure hr) (fun _ => Ensures.pure hr)

/-- C25 is false of the code: no sequence header announcing more than one operating point is ever
accepted — whenever the parser returns, the announced count is one, no per-operating-point decoder
model or display delay was read, and the per-operating-point mask list is empty. -/
theorem C25_operating_points_refuted (st : State) (s : BitStream) (h : SeqHeader) (st' : State)
    (s' : BitStream) (hs : newSequenceHeader st s = .ok ((h, st'), s')) :
    h.operatingPointsCountMinusOne = 0 ∧ h.decoderModelPresentForThisOp = [false] ∧
    h.initialDisplayDelayPresentForThisOp = [false] ∧ h.operatingPointIdc = [] ∧
    h.seqLevelIdx.length = 1 ∧ h.seqTier.length = 1 :=
  newSequenceHeader_oneOp st s _ s' hs

/-! ## C23 round trip -/

theorem reads_uvlc {v : Nat} (hv : v < 2 ^ 32 - 1) : Reads uvlc (encUvlc v) v := by
  intro s rest h
  have := C06_uvlc_roundtrip v hv s rest h
  rw [this]
  congr 3
  simp [encUvlc]; omega

theorem reads_timing (ti : TimingInfo) (h1 : ti.numUnitsInDisplayTick < 2 ^ 32)
    (h2 : ti.timeScale < 2 ^ 32) (h3 : ti.numTicksPerMinuteMinusOne < 2 ^ 32 - 1)
    (h4 : ti.equalPictureInterval = false → ti.numTicksPerMinuteMinusOne = 0) :
    Reads newTimingInfo (encF 32 ti.numUnitsInDisplayTick ++ (encF 32 ti.timeScale ++
      (bit ti.equalPictureInterval ++
      (if ti.equalPictureInterval then encUvlc ti.numTicksPerMinuteMinusOne else [])))) ti := by
  obtain ⟨a, b, c, d⟩ := ti
  simp only at *
  unfold newTimingInfo
  refine (Reads.F h1).bind ((Reads.F h2).bind ((Reads.flag c).bind ?_))
  cases c with
  | true => exact Reads.bindLast (reads_uvlc h3)
  | false =>
    simp only [Bool.false_eq_true, if_false]
    rw [h4 rfl]
    exact Reads.pure _

theorem goSet_single {α : Type} (x y : α) : goSet [x] ((0 : Nat) : Int) y = .ok [y] := by
  simp [goSet]

theorem reads_opPoint (s : SeqHeader) (x idc lvl tier lv0 t0 : Nat)
    (hidc : idc < 4096) (hlvl : lvl < 4096) (ht : tier < 2) (ht0 : lvl ≤ 7 → tier = 0)
    (hl : s.seqLevelIdx = [lv0]) (hti : s.seqTier = [t0])
    (hm : s.decoderModelPresentForThisOp = [false])
    (hp : s.initialDisplayDelayPresentForThisOp = [false]) :
    Reads (opPointStep s [x] 0)
      (encF 12 idc ++ (encF 12 lvl ++ ((if 7 < lvl then encF 1 tier else []) ++
        ((if s.decoderModelInfoPresent then bit false else []) ++
        (if s.initialDisplayDelayPresent then bit false else [])))))
      ({ s with seqLevelIdx := [lvl], seqTier := [tier] }, [idc]) := by
  unfold opPointStep
  refine (Reads.F (by simpa using hidc)).bind ?_
  rw [goSet_single]
  refine (Reads.F (by simpa using hlvl)).bind ?_
  rw [hl, goSet_single]
  simp only [BM.lift_ok, BM.pure_bind]
  refine Reads.bind (a := tier) ?_ ?_
  · by_cases h7 : 7 < lvl
    · rw [if_pos h7, if_pos h7]; exact Reads.F (by simpa using ht)
    · rw [if_neg h7, if_neg h7, ht0 (by omega)]; exact Reads.pure _
  rw [hti, goSet_single]
  simp only [BM.lift_ok, BM.pure_bind]
  refine Reads.bind (a := { s with seqLevelIdx := [lvl], seqTier := [tier] }) ?_ ?_
  · by_cases hd : s.decoderModelInfoPresent = true
    · rw [if_pos hd, if_pos hd]
      refine Reads.congr (Reads.bind (Reads.flag false) (b2 := []) ?_) (by simp)
      rw [hm, goSet_single]
      simp only [BM.lift_ok, BM.pure_bind, Bool.false_eq_true, if_false]
      rw [← hm]
      exact Reads.pure _
    · rw [if_neg hd, if_neg hd, hm, goSet_single]
      simp only [BM.lift_ok, BM.pure_bind]
      rw [← hm]
      exact Reads.pure _
  simp only
  by_cases hd : s.initialDisplayDelayPresent = true
  · rw [if_pos hd, if_pos hd]
    refine Reads.congr (b := bit false ++ []) ?_ (by simp)
    refine Reads.bind (a := { s with seqLevelIdx := [lvl], seqTier := [tier] }) ?_ (Reads.pure _)
    refine Reads.congr (Reads.bind (Reads.flag false) (b2 := []) ?_) (by simp)
    rw [hp, goSet_single]
    simp only [BM.lift_ok, BM.pure_bind, Bool.false_eq_true, if_false]
    rw [← hp]
    exact Reads.pure _
  · rw [if_neg hd, if_neg hd]
    exact Reads.pure _

theorem reads_frameSize (s : SeqHeader) (hred : s.reducedStillPictureHeader = false)
    (hd0 : s.deltaFrameIdLengthMinusTwo = 0) (ha0 : s.additionalFrameIdLengthMinusOne = 0)
    (fw fh mw mh d a : Nat) (fid : Bool) (h1 : fw < 16) (h2 : fh < 16) (h3 : mw < 2 ^ (fw + 1))
    (h4 : mh < 2 ^ (fh + 1)) (h5 : d < 16) (h6 : a < 8) (h7 : fid = false → d = 0 ∧ a = 0) :
    Reads (seqFrameSize s) (encF 4 fw ++ (encF 4 fh ++ (encF (fw + 1) mw ++ (encF (fh + 1) mh ++
      (bit fid ++ (if fid then encF 4 d ++ encF 3 a else []))))))
      { s with frameWidthBitsMinusOne := fw, frameHeightBitsMinusOne := fh,
               maxFrameWidthMinusOne := mw, maxFrameHeightMinusOne := mh,
               frameIdNumbersPresent := fid, deltaFrameIdLengthMinusTwo := d,
               additionalFrameIdLengthMinusOne := a } := by
  unfold seqFrameSize
  refine (Reads.F (by simpa using h1)).bind ((Reads.F (by simpa using h2)).bind
    ((Reads.F h3).bind ((Reads.F h4).bind ?_)))
  simp only [hred, Bool.false_eq_true, if_false]
  refine (Reads.flag fid).bind ?_
  cases fid with
  | true =>
    exact (Reads.F (by simpa using h5)).bind (Reads.bindLast (Reads.F (by simpa using h6)))
  | false =>
    obtain ⟨rfl, rfl⟩ := h7 rfl
    simp only [Bool.false_eq_true, if_false]
    have : s = { s with deltaFrameIdLengthMinusTwo := 0, additionalFrameIdLengthMinusOne := 0 } := by
      cases s; simp only at hd0 ha0; subst hd0; subst ha0; rfl
    rw [this]
    exact Reads.pure _

theorem reads_screen (choose : Bool) (force mv : Nat)
    (h1 : if choose then force = 2 else force < 2) (h2 : mv ≤ 2) (h3 : force = 0 → mv = 2) :
    Reads seqScreenContent (bit choose ++ ((if choose then [] else encF 1 force) ++
      (if 0 < force then bit (mv == 2) ++ (if mv == 2 then [] else encF 1 mv) else [])))
      (choose, force, mv) := by
  unfold seqScreenContent
  refine (Reads.flag choose).bind ?_
  refine Reads.bind (a := force) ?_ ?_
  · cases choose with
    | true => simp only [if_true] at h1 ⊢; rw [h1]; exact Reads.pure _
    | false => simp only [Bool.false_eq_true, if_false] at h1 ⊢; exact Reads.F (by simpa using h1)
  by_cases hf : 0 < force
  · rw [if_pos hf, if_pos hf]
    refine (Reads.flag _).bind ?_
    refine Reads.bindLast (f := fun m => (choose, force, m)) ?_
    by_cases hmv : mv = 2
    · subst hmv; exact Reads.pure _
    · have : (mv == 2) = false := by simpa using hmv
      rw [this]; exact Reads.F (by omega)
  · rw [if_neg hf, if_neg hf, h3 (by omega)]
    exact Reads.pure _

theorem reads_tools (s : SeqHeader) (hred : s.reducedStillPictureHeader = false)
    (hj0 : s.enableJntComp = false) (hr0 : s.enableRefFrameMvs = false)
    (u128 fi ief iic mc wm df oh jc rmv choose : Bool) (force mv ohb : Nat)
    (h1 : if choose then force = 2 else force < 2) (h2 : mv ≤ 2) (h3 : force = 0 → mv = 2)
    (h4 : oh = true → 1 ≤ ohb ∧ ohb ≤ 8) (h5 : oh = false → ohb = 0 ∧ jc = false ∧ rmv = false) :
    Reads (seqTools s) (bit u128 ++ (bit fi ++ (bit ief ++ (bit iic ++ (bit mc ++ (bit wm ++
      (bit df ++ (bit oh ++ ((if oh then bit jc ++ bit rmv else []) ++
      ((bit choose ++ ((if choose then [] else encF 1 force) ++
      (if 0 < force then bit (mv == 2) ++ (if mv == 2 then [] else encF 1 mv) else []))) ++
      (if oh then encF 3 (ohb - 1) else [])))))))))))
      { s with use128x128SuperBlock := u128, enableFilterIntra := fi,
               enableIntraEdgeFilter := ief, enableInterIntraCompound := iic,
               enableMaskedCompound := mc, enableWarpedMotion := wm, enableDualFilter := df,
               enableOrderHint := oh, enableJntComp := jc, enableRefFrameMvs := rmv,
               seqChooseScreenContentTools := choose, seqForceScreenContentTools := force,
               seqForceIntegerMv := mv, orderHintBits := ohb } := by
  unfold seqTools
  refine (Reads.flag _).bind ((Reads.flag _).bind ((Reads.flag _).bind ?_))
  simp only [hred, Bool.not_false, if_true]
  refine (Reads.flag _).bind ((Reads.flag _).bind ((Reads.flag _).bind ((Reads.flag _).bind
    ((Reads.flag _).bind ?_))))
  cases oh with
  | true =>
    simp only [if_true]
    refine Reads.bind ((Reads.flag jc).bind (Reads.bindLast (Reads.flag rmv))) ?_
    refine (reads_screen choose force mv h1 h2 h3).bind ?_
    dsimp only
    have e : ohb = ohb - 1 + 1 := by have := h4 rfl; omega
    have hb : ohb - 1 < 2 ^ 3 := by have := h4 rfl; omega
    generalize ohb - 1 = k at e hb
    subst e
    exact Reads.bindLast (Reads.F hb)
  | false =>
    obtain ⟨rfl, rfl, rfl⟩ := h5 rfl
    simp only [Bool.false_eq_true, if_false, List.nil_append, List.append_nil, BM.pure_bind]
    have hs : s = { s with enableJntComp := false, enableRefFrameMvs := false } := by
      cases s; simp only at hj0 hr0; subst hj0; subst hr0; rfl
    rw [hs]
    exact Reads.bindLast (reads_screen choose force mv h1 h2 h3)

theorem reads_seqTiming (s : SeqHeader) (ti : TimingInfo) (dmp : Bool) (dmi : DecoderModelInfo)
    (idd : Bool) (idc lvl tier lv0 t0 : Nat)
    (h1 : ti.numUnitsInDisplayTick < 2 ^ 32)
    (h2 : ti.timeScale < 2 ^ 32) (h3 : ti.numTicksPerMinuteMinusOne < 2 ^ 32 - 1)
    (h4 : ti.equalPictureInterval = false → ti.numTicksPerMinuteMinusOne = 0)
    (hd : dmi.bufferDelayLengthMinusOne < 32 ∧ dmi.numUnitsInDecodingTick < 2 ^ 32 ∧
      dmi.bufferRemovalTimeLengthMinusOne < 32 ∧ dmi.framePresentationTimeLengthMinusOne < 32 ∧
      (dmp = false → dmi = {}))
    (hidc : idc < 4096) (hlvl : lvl < 4096) (ht : tier < 2) (ht0 : lvl ≤ 7 → tier = 0)
    (hl : s.seqLevelIdx = [lv0]) (hti : s.seqTier = [t0])
    (hm : s.decoderModelPresentForThisOp = [false])
    (hp : s.initialDisplayDelayPresentForThisOp = [false])
    (hdm0 : s.decoderModelInfo = {}) (hc0 : s.operatingPointsCountMinusOne = 0) :
    Reads (seqTiming s [0])
      ((encF 32 ti.numUnitsInDisplayTick ++ (encF 32 ti.timeScale ++
        (bit ti.equalPictureInterval ++
        (if ti.equalPictureInterval then encUvlc ti.numTicksPerMinuteMinusOne else [])))) ++
       (bit dmp ++ ((if dmp then encF 5 dmi.bufferDelayLengthMinusOne ++
          (encF 32 dmi.numUnitsInDecodingTick ++ (encF 5 dmi.bufferRemovalTimeLengthMinusOne ++
          encF 5 dmi.framePresentationTimeLengthMinusOne)) else []) ++
       (bit idd ++ (encF 5 0 ++
        (encF 12 idc ++ (encF 12 lvl ++ ((if 7 < lvl then encF 1 tier else []) ++
        ((if dmp then bit false else []) ++
        (if idd then bit false else []))))))))))
      ({ s with timingInfo := ti, decoderModelInfoPresent := dmp, decoderModelInfo := dmi,
                initialDisplayDelayPresent := idd, seqLevelIdx := [lvl], seqTier := [tier] }, [idc]) := by
  unfold seqTiming
  refine (reads_timing ti h1 h2 h3 h4).bind ((Reads.flag dmp).bind ?_)
  dsimp only
  refine Reads.bind (a := { s with timingInfo := ti, decoderModelInfoPresent := dmp,
                                   decoderModelInfo := dmi }) ?_ ?_
  · obtain ⟨a1, a2, a3, a4, a5⟩ := hd
    cases dmp with
    | true =>
      exact (Reads.F (by simpa using a1)).bind ((Reads.F a2).bind ((Reads.F (by simpa using a3)).bind
        (Reads.bindLast (Reads.F (by simpa using a4)))))
    | false =>
      rw [a5 rfl, ← hdm0]
      exact Reads.pure _
  refine (Reads.flag idd).bind ((Reads.F (by decide)).bind ?_)
  simp only [opPointLoop]
  refine Reads.congr (Reads.bind (b2 := []) (reads_opPoint _ 0 idc lvl tier lv0 t0 hidc hlvl ht ht0 hl hti hm hp) ?_)
    (by rw [List.append_nil])
  dsimp only
  rw [← hc0]
  exact Reads.pure _


theorem reads_body_timing (sh h : SeqHeader) (idcs : List Nat) (timing : Bool) (idc lv0 : Nat)
    (hidcs : idcs = [0])
    (hs : sh = seqStart h.seqProfile h.stillPicture h.reducedStillPictureHeader lv0)
    (hv : ValidDialect h lv0 timing idc) :
    Reads (if timing then seqTiming sh idcs else pure (sh, idcs))
      (if timing then
        ((encF 32 h.timingInfo.numUnitsInDisplayTick ++ (encF 32 h.timingInfo.timeScale ++
          (bit h.timingInfo.equalPictureInterval ++
          (if h.timingInfo.equalPictureInterval then encUvlc h.timingInfo.numTicksPerMinuteMinusOne else [])))) ++
         (bit h.decoderModelInfoPresent ++ ((if h.decoderModelInfoPresent then encF 5 h.decoderModelInfo.bufferDelayLengthMinusOne ++
            (encF 32 h.decoderModelInfo.numUnitsInDecodingTick ++ (encF 5 h.decoderModelInfo.bufferRemovalTimeLengthMinusOne ++
            encF 5 h.decoderModelInfo.framePresentationTimeLengthMinusOne)) else []) ++
         (bit h.initialDisplayDelayPresent ++ (encF 5 0 ++
          (encF 12 idc ++ (encF 12 (h.seqLevelIdx.headD 0) ++ ((if 7 < h.seqLevelIdx.headD 0 then encF 1 (h.seqTier.headD 0) else []) ++
          ((if h.decoderModelInfoPresent then bit false else []) ++
          (if h.initialDisplayDelayPresent then bit false else [])))))))))) else [])
      ({ sh with timingInfo := h.timingInfo, decoderModelInfoPresent := h.decoderModelInfoPresent,
                 decoderModelInfo := h.decoderModelInfo,
                 initialDisplayDelayPresent := h.initialDisplayDelayPresent,
                 seqLevelIdx := h.seqLevelIdx, seqTier := h.seqTier }, [idc]) := by
  subst hs; subst hidcs
  have e1 : h.seqLevelIdx = [h.seqLevelIdx.headD 0] := by
    have := hv.level.1
    match hl : h.seqLevelIdx, this with
    | [x], _ => rfl
  have e2 : h.seqTier = [h.seqTier.headD 0] := by
    have := hv.tier.1
    match hl : h.seqTier, this with
    | [x], _ => rfl
  cases timing with
  | true =>
    simp only [if_true]
    have := reads_seqTiming (seqStart h.seqProfile h.stillPicture h.reducedStillPictureHeader lv0)
      h.timingInfo h.decoderModelInfoPresent h.decoderModelInfo h.initialDisplayDelayPresent idc
      (h.seqLevelIdx.headD 0) (h.seqTier.headD 0) lv0 0 hv.timingW.1 hv.timingW.2.1 hv.timingW.2.2.1
      hv.timingW.2.2.2 hv.dmi hv.idc_lt.1 hv.level.2.1 hv.tier.2.1
      (fun h7 => by rw [hv.tier.2.2 (Or.inl h7)]; rfl) rfl rfl rfl rfl rfl rfl
    rwa [← e1, ← e2] at this
  | false =>
    obtain ⟨a1, a2, a3, a4⟩ := hv.noTiming (Or.inl rfl)
    have a5 := hv.level.2.2 (Or.inl rfl)
    have a6 := hv.tier.2.2 (Or.inr (Or.inl rfl))
    have a7 := hv.idc_lt.2 (Or.inl rfl)
    subst a7
    rw [a1, a2, a3, a4, a5, a6]
    simp only [Bool.false_eq_true, if_false]
    exact Reads.pure _

/-- C23 is false of AV1's own layout (see `C23_roundtrip_refuted`); what holds is that the parser
inverts the encoder of its own dialect: for every header of the dialect, wherever its encoding
appears in a stream, all fields come back, the operating point mask is installed in the decoder
state and exactly the encoding is consumed. -/
theorem C23_dialect_roundtrip_partial (st : State) (h : SeqHeader) (level0 : Nat) (timing : Bool)
    (idc : Nat) (hv : ValidDialect h level0 timing idc) (s : BitStream) (rest : List Bool)
    (hs : unread s = encDialect h level0 timing idc ++ rest) :
    newSequenceHeader st s = .ok
      ((h, if h.reducedStillPictureHeader then st else { st with operatingPointIdc := idc }),
       s.advance (encDialect h level0 timing idc).length) := by
  revert hs
  suffices hr : Reads (newSequenceHeader st) (encDialect h level0 timing idc)
      (h, if h.reducedStillPictureHeader then st else { st with operatingPointIdc := idc }) from hr s rest
  unfold newSequenceHeader encDialect
  simp only [List.append_assoc]
  refine (Reads.F (by simpa using hv.profile_lt)).bind ((Reads.flag _).bind ((Reads.flag _).bind
    ((Reads.F (by simpa using hv.level0_lt)).bind ?_)))
  refine Reads.bind (a := ({ h with
      enableSuperRes := false, enableCdef := false, enableRestoration := false,
      colorConfig := {}, filmGrainParamsPresent := false },
      if h.reducedStillPictureHeader then st else { st with operatingPointIdc := idc })) ?_ ?_
  · obtain ⟨c1, c2, c3, c4, c5, c6, c7, c8⟩ := hv.noOp
    cases hred : h.reducedStillPictureHeader with
    | true =>
      obtain ⟨b1, b2, b3, b4, b5, b6, b7, b8, b9, b10, b11, b12, b13, b14, b15, b16⟩ := hv.reduced hred
      obtain ⟨a1, a2, a3, a4⟩ := hv.noTiming (Or.inr hred)
      obtain ⟨d1, d2⟩ := hv.ids.2.2 b5
      obtain ⟨e1, e2, e3⟩ := hv.oh.2 b12
      have f1 := hv.level.2.2 (Or.inr hred)
      have f2 := hv.tier.2.2 (Or.inr (Or.inr hred))
      simp only [Bool.not_true, Bool.false_eq_true, if_false, if_true]
      rw [a1, a2, a3, a4, b1, b2, b3, b4, b5, b6, b7, b8, b9, b10, b11, b12, b13, b14, b15, b16, c1,
        c2, c3, c4, c5, c6, c7, c8, d1, d2, e1, e2, e3, f1, f2]
      exact Reads.pure _
    | false =>
      simp only [Bool.not_false, Bool.false_eq_true, if_false, if_true]
      unfold seqBody
      rw [c1, c2, c3, c4, c5, c6, c7, c8]
      refine (Reads.flag timing).bind ?_
      refine Reads.bind (Reads.congr (reads_body_timing _ h [0] timing idc level0 rfl (by rw [hred]; rfl) hv)
        (by simp only [List.append_assoc])) ?_
      dsimp only
      rw [show goGet [idc] chooseOperatingPoint = .ok idc from rfl]
      simp only [BM.lift_ok, BM.pure_bind]
      refine Reads.congr (Reads.bind (reads_frameSize _ rfl rfl rfl
        h.frameWidthBitsMinusOne h.frameHeightBitsMinusOne h.maxFrameWidthMinusOne
        h.maxFrameHeightMinusOne h.deltaFrameIdLengthMinusTwo h.additionalFrameIdLengthMinusOne
        h.frameIdNumbersPresent hv.size.1 hv.size.2.1 hv.size.2.2.1 hv.size.2.2.2
        hv.ids.1 hv.ids.2.1 hv.ids.2.2) (Reads.bindLast (reads_tools _ rfl rfl rfl
        h.use128x128SuperBlock h.enableFilterIntra h.enableIntraEdgeFilter
        h.enableInterIntraCompound h.enableMaskedCompound h.enableWarpedMotion h.enableDualFilter
        h.enableOrderHint h.enableJntComp h.enableRefFrameMvs h.seqChooseScreenContentTools
        h.seqForceScreenContentTools h.seqForceIntegerMv h.orderHintBits (hv.sct hred)
        (hv.imv hred).1 (hv.imv hred).2 hv.oh.1 hv.oh.2))) ?_
      simp only [List.append_assoc]
  · refine (Reads.flag _).bind ((Reads.flag _).bind ((Reads.flag _).bind ?_))
    refine Reads.bind (a := h.colorConfig) ?_ (Reads.bindLast (Reads.flag h.filmGrainParamsPresent))
    intro s rest hs
    exact C24_colorConfig_roundtrip h.seqProfile h.colorConfig hv.color s rest hs

/-- A reduced header leaves every frame size field at 0, whatever the stream says. -/
theorem newSequenceHeader_reduced_size (st : State) :
    Ensures (newSequenceHeader st) (fun r => r.1.reducedStillPictureHeader = true →
      r.1.maxFrameWidthMinusOne = 0 ∧ r.1.maxFrameHeightMinusOne = 0) := by
  have fin : ∀ (sh : SeqHeader) (st : State), (sh.reducedStillPictureHeader = true →
      sh.maxFrameWidthMinusOne = 0 ∧ sh.maxFrameHeightMinusOne = 0) →
      Ensures (do
        let sr ← flag
        let cdef ← flag
        let lr ← flag
        let cc ← newColorConfig sh.seqProfile
        let fg ← flag
        pure ({ sh with enableSuperRes := sr, enableCdef := cdef, enableRestoration := lr,
                        colorConfig := cc, filmGrainParamsPresent := fg }, st))
        (fun r : SeqHeader × State => r.1.reducedStillPictureHeader = true →
          r.1.maxFrameWidthMinusOne = 0 ∧ r.1.maxFrameHeightMinusOne = 0) := by
    intro sh st h
    exact Ensures.bindT fun _ => Ensures.bindT fun _ => Ensures.bindT fun _ => Ensures.bindT fun _ =>
      Ensures.bindT fun _ => Ensures.pure h
  unfold newSequenceHeader
  refine Ensures.bindT fun p => Ensures.bindT fun still => Ensures.bindT fun red =>
    Ensures.bindT fun lv => ?_
  refine Ensures.bind (P := fun r : SeqHeader × State => r.1.reducedStillPictureHeader = true →
    r.1.maxFrameWidthMinusOne = 0 ∧ r.1.maxFrameHeightMinusOne = 0) ?_ (fun r hr => fin r.1 r.2 hr)
  cases red with
  | true => exact Ensures.pure fun _ => ⟨rfl, rfl⟩
  | false =>
    refine Ensures.mono (P := fun r : SeqHeader × State => r.1.reducedStillPictureHeader = false) ?_
      (fun r h h' => by rw [h] at h'; cases h')
    simp only [Bool.not_false, if_true]
    unfold seqBody
    refine Ensures.bindT fun ti => ?_
    refine Ensures.bind (P := fun r : SeqHeader × List Nat => r.1.reducedStillPictureHeader = false) ?_ ?_
    · refine Ensures.ite (fun _ => ?_) (fun _ => Ensures.pure rfl)
      refine (seqTiming_shape p still false lv).mono ?_
      rintro ⟨r1, r2⟩ ⟨⟨a, b, c, d, e, f, h1, -⟩, -⟩
      simp only at h1
      subst h1
      rfl
    · rintro ⟨r1, r2⟩ hr
      simp only at hr ⊢
      refine Ensures.bindT fun idc => ?_
      refine Ensures.bind (P := fun r => r.reducedStillPictureHeader = false) ?_ ?_
      · unfold seqFrameSize
        refine Ensures.bindT fun _ => Ensures.bindT fun _ => Ensures.bindT fun _ => Ensures.bindT fun _ =>
          Ensures.bindT fun _ => Ensures.ite (fun _ => ?_) (fun _ => Ensures.pure hr)
        exact Ensures.bindT fun _ => Ensures.bindT fun _ => Ensures.pure hr
      · intro r hr
        refine Ensures.bind (P := fun r => r.reducedStillPictureHeader = false) ?_ (fun r hr => Ensures.pure hr)
        unfold seqTools
        refine Ensures.bindT fun _ => Ensures.bindT fun _ => Ensures.bindT fun _ =>
          Ensures.ite (fun _ => ?_) (fun _ => Ensures.pure hr)
        refine Ensures.bindT fun _ => Ensures.bindT fun _ => Ensures.bindT fun _ => Ensures.bindT fun _ =>
          Ensures.bindT fun oh => ?_
        refine Ensures.bind (P := fun r => r.reducedStillPictureHeader = false) ?_ ?_
        · exact Ensures.ite (fun _ => Ensures.bindT fun _ => Ensures.bindT fun _ => Ensures.pure hr)
            (fun _ => Ensures.pure hr)
        · intro r hr
          refine Ensures.bindT fun _ => ?_
          exact Ensures.ite (fun _ => Ensures.bindT fun _ => Ensures.pure hr) (fun _ => Ensures.pure hr)

/-- C23 is false of the code: for *every* reduced still-picture header of the specification whose
picture is more than one pixel wide or high, on every stream that starts with the specification's
encoding of it, the parser does not return it (it panics, or returns a header of size 1x1). -/
theorem C23_roundtrip_refuted (h : SeqHeader) (hr : h.reducedStillPictureHeader = true)
    (hsize : h.maxFrameWidthMinusOne ≠ 0 ∨ h.maxFrameHeightMinusOne ≠ 0)
    (st : State) (s : BitStream) (rest : List Bool) (_ : unread s = encReducedSeqHeader h ++ rest)
    (st' : State) (s' : BitStream) : newSequenceHeader st s ≠ .ok ((h, st'), s') := by
  intro e
  have := newSequenceHeader_reduced_size st s _ s' e hr
  simp only at this
  omega

/-- A reduced header for a 64x48 picture, 8-bit 4:2:0. -/
def exReduced : SeqHeader :=
  { seqProfile := 0, stillPicture := true, reducedStillPictureHeader := true,
    seqLevelIdx := [1], seqTier := [0],
    frameWidthBitsMinusOne := 5, frameHeightBitsMinusOne := 5, maxFrameWidthMinusOne := 63,
    maxFrameHeightMinusOne := 47, use128x128SuperBlock := true, enableCdef := true,
    colorConfig := { bitDepth := 8, numPlanes := 3, colorPrimaries := 2, transferCharacteristics := 2,
                     matrixCoefficients := 2, subsamplingX := true, subsamplingY := true } }

/-- witness: the refutation's hypotheses are met and here the parser does return, with size 1x1 -/
example : exReduced.reducedStillPictureHeader = true ∧ exReduced.maxFrameWidthMinusOne ≠ 0 ∧
    unread ⟨[24, 85, 127, 190, 32, 0, 0], 0, 0⟩ = encReducedSeqHeader exReduced ++ List.replicate 12 false ∧
    (match newSequenceHeader {} ⟨[24, 85, 127, 190, 32, 0, 0], 0, 0⟩ with
     | .ok ((h, _), _) => h.maxFrameWidthMinusOne
     | .error _ => 12345) = 0 := by
  refine ⟨rfl, by decide, by decide +kernel, by decide +kernel⟩

/-- A dialect header with timing info, a decoder model, an operating point mask, frame ids, order
hints and forced screen content tools. -/
def exDialect : SeqHeader :=
  { seqProfile := 1, stillPicture := false, reducedStillPictureHeader := false,
    timingInfo := { numUnitsInDisplayTick := 1001, timeScale := 30000, equalPictureInterval := true,
                    numTicksPerMinuteMinusOne := 5 },
    decoderModelInfoPresent := true,
    decoderModelInfo := { bufferDelayLengthMinusOne := 9, numUnitsInDecodingTick := 7,
                          bufferRemovalTimeLengthMinusOne := 3, framePresentationTimeLengthMinusOne := 4 },
    initialDisplayDelayPresent := true,
    seqLevelIdx := [9], seqTier := [1], decoderModelPresentForThisOp := [false],
    initialDisplayDelayPresentForThisOp := [false],
    frameWidthBitsMinusOne := 10, frameHeightBitsMinusOne := 9, maxFrameWidthMinusOne := 1919,
    maxFrameHeightMinusOne := 1023, frameIdNumbersPresent := true, deltaFrameIdLengthMinusTwo := 3,
    additionalFrameIdLengthMinusOne := 2, use128x128SuperBlock := true, enableOrderHint := true,
    enableJntComp := true, orderHintBits := 7, seqForceScreenContentTools := 1, seqForceIntegerMv := 0,
    enableSuperRes := true, filmGrainParamsPresent := true,
    colorConfig := { highBitDepth := true, bitDepth := 10, numPlanes := 3, colorDescriptionPresent := true,
                     colorPrimaries := 9, transferCharacteristics := 16, matrixCoefficients := 9,
                     colorRange := true, subsamplingX := false, subsamplingY := false,
                     separateUvDeltaQ := true } }

/-- non-vacuity of `C23_dialect_roundtrip_partial` -/
example : ValidDialect exDialect 3 true 0x101 := by
  constructor <;> try decide
  constructor <;> decide

/-- non-vacuity for a reduced header -/
example : ValidDialect { exReduced with
    frameWidthBitsMinusOne := 0, frameHeightBitsMinusOne := 0, maxFrameWidthMinusOne := 0,
    maxFrameHeightMinusOne := 0, use128x128SuperBlock := false,
    decoderModelPresentForThisOp := [false],
    initialDisplayDelayPresentForThisOp := [false] } 1 false 0 := by
  constructor <;> try decide
  constructor <;> decide

end Gov1
