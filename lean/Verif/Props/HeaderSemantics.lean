import Verif.Props.FrameHeader
import Mathlib.Tactic.Tauto
/-! # C71 - C79: what a parsed frame header says -/
namespace Gov1
open Spec

/-- The state's arrays have their declared lengths (internal/state/state.go). -/
structure StateShape (st : FrameState) : Prop where
  hints : st.refOrderHint.length = 8
  types : st.refFrameType.length = 8
  gmType : st.gmType.length = 8

theorem shape_fresh (st : FrameState) (h : StateShape st) (u : UHeader)
    (h1 : u.gmParams = List.replicate 8 (List.replicate 6 0)) (h2 : u.refFrameIdx = List.replicate 7 0) :
    HdrShape u st := by
  refine ⟨h.hints, h.gmType, by rw [h1]; rfl, ?_⟩
  rw [h2]; intro i hi; rw [(List.mem_replicate.mp hi).2]; omega

/-- What `uhFrameType` returns on a supported sequence. -/
theorem uhFrameType_ensures (sh : SeqHeader) : Ensures (uhFrameType sh) (fun p =>
    p.1.gmParams = List.replicate 8 (List.replicate 6 0) ∧ p.1.refFrameIdx = List.replicate 7 0 ∧
    p.1.useRefFrameMvs = false ∧ p.1.showExistingFrame = false ∧
    p.1.frameIsIntra = (p.1.frameType == 2 || p.1.frameType == 0)) := by
  unfold uhFrameType
  refine Ensures.bindT fun ft => Ensures.bindT fun sf => Ensures.bindT fun t => Ensures.bindT fun sb =>
    Ensures.bindT fun er => Ensures.pure ?_
  exact ⟨rfl, rfl, rfl, rfl, rfl⟩

/-- The header shows an existing frame: the sequence is not a reduced still picture and the first bit is 1. -/
def ShowsExisting (sh : SeqHeader) (s : BitStream) : Prop :=
  sh.reducedStillPictureHeader = false ∧ (unread s).head? = some true

theorem header_result (h : Header) (sh : SeqHeader) (hs : SeqSupported sh) (st : FrameState) (hst : StateShape st)
    (s : BitStream) (hne : ¬ ShowsExisting sh s) (u : UHeader) (st' : FrameState) (s' : BitStream)
    (hr : newUncompressedHeader h sh st s = .ok ((u, st'), s')) :
    HeaderOk sh u st' ∧ u.showExistingFrame = false ∧ u.primaryRefFrame = 7 ∧ st'.refValid = st.refValid ∧
      st'.refOrderHint = st.refOrderHint := by
  unfold newUncompressedHeader at hr
  split at hr
  · have := (uhRest_good h sh hs _ false st (shape_fresh st hst _ rfl rfl) rfl False (fun h => h.elim)).2 _ _ _ hr
    exact ⟨this.1, this.2.2.2.1, this.2.2.2.2.1, this.2.2.2.2.2⟩
  · rename_i hred
    obtain ⟨se, s1, h1, h2⟩ := BM.bind_eq_ok.mp hr
    obtain ⟨rest, hu, -⟩ := flag_ok h1
    cases se with
    | true => exact absurd ⟨by simpa using hred, by rw [hu]; rfl⟩ hne
    | false =>
      simp only [Bool.false_eq_true, if_false] at h2
      obtain ⟨⟨u1, er⟩, s2, h3, h4⟩ := BM.bind_eq_ok.mp h2
      obtain ⟨g1, g2, g3, g4, g5⟩ := uhFrameType_ensures sh _ _ _ h3
      have := (uhRest_good h sh hs u1 er st (shape_fresh st hst _ g1 g2) g3 False (fun h => h.elim)).2 _ _ _ h4
      exact ⟨this.1, this.2.2.2.1.trans g4, this.2.2.2.2.1, this.2.2.2.2.2⟩

/-- C72: every frame header the parser returns (other than "show existing frame") is consistent: sizes,
tile boundaries, quantizer, segmentation, filter, restoration, transform mode and film grain fields are all
in range and agree with each other and with the decoder state. -/
theorem C72_header_consistent (h : Header) (sh : SeqHeader) (hs : SeqSupported sh) (st : FrameState)
    (hst : StateShape st) (s : BitStream) (hne : ¬ ShowsExisting sh s) (u : UHeader) (st' : FrameState)
    (s' : BitStream) (hr : newUncompressedHeader h sh st s = .ok ((u, st'), s')) : HeaderOk sh u st' :=
  (header_result h sh hs st hst s hne u st' s' hr).1

theorem uhFrameType_key (sh : SeqHeader) (hm : sh.decoderModelInfoPresent = false) (s : BitStream) (rest : List Bool)
    (hu : unread s = false :: false :: rest) (hn : 3 ≤ rest.length) :
    ∃ u er k, k ≤ 5 ∧ uhFrameType sh s = .ok ((u, er), s.advance k) ∧ u.frameType = 0 ∧ u.frameIsIntra = true := by
  have hft : F 2 s = .ok (0, s.advance 2) := Reads.F (n := 2) (v := 0) (by omega) s rest (by rw [hu]; rfl)
  have htp : ∀ c, temporalPoint sh c = pure 0 := fun c => by
    unfold temporalPoint; rw [if_neg (by simp [hm])]
  unfold uhFrameType
  rw [BM.bind_ok hft]
  have hl : 3 ≤ (unread (s.advance 2)).length := by rw [unread_advance, hu]; exact hn
  have hG : ∀ m : BM (UHeader × Bool), Fits m 3 (fun p => p.1.frameType = 0 ∧ p.1.frameIsIntra = true) →
      ∃ u er k, k ≤ 5 ∧ m (s.advance 2) = .ok ((u, er), s.advance k) ∧ u.frameType = 0 ∧ u.frameIsIntra = true := by
    intro m h
    obtain ⟨⟨u, er⟩, k, hk, e, hp⟩ := h _ hl
    exact ⟨u, er, 2 + k, by omega, by rw [e, advance_advance], hp⟩
  refine hG _ ?_
  refine (Fits.bind (n2 := 2) Fits.flag fun sf _ => ?_).mono (by omega) fun _ h => h
  rw [htp, BM.pure_bind]
  refine (Fits.bind (n1 := 1) (n2 := 1) (P := fun _ => True) (Fits.ite (fun _ => Fits.pure trivial _)
    fun _ => Fits.flag) fun sb _ => ?_).mono (by omega) fun _ h => h
  refine (Fits.bind (n1 := 1) (n2 := 0) (P := fun _ => True) (Fits.ite (fun _ => Fits.pure trivial _)
    fun _ => Fits.flag) fun er _ => ?_).mono (by omega) fun _ h => h
  exact Fits.pure (P := fun p : UHeader × Bool => p.1.frameType = 0 ∧ p.1.frameIsIntra = true) ⟨rfl, rfl⟩ _

/-- C72: a key frame header is always accepted: with `show_existing_frame = 0` and `frame_type = 0` coded (or in
a reduced still picture sequence) and 31300 bits left, parsing returns, whatever the bits and the state. -/
theorem C72_key_frame_total (h : Header) (sh : SeqHeader) (hs : SeqSupported sh) (st : FrameState)
    (hst : StateShape st) (s : BitStream)
    (hk : sh.reducedStillPictureHeader = true ∨ ∃ rest, unread s = false :: false :: false :: rest)
    (hn : 31300 ≤ (unread s).length) :
    ∃ u st' s', newUncompressedHeader h sh st s = .ok ((u, st'), s') ∧ HeaderOk sh u st' ∧
      u.frameType = 0 ∧ u.frameIsIntra = true := by
  unfold newUncompressedHeader
  by_cases hred : sh.reducedStillPictureHeader = true
  · rw [if_pos hred]
    obtain ⟨p, k, hk, he, hp⟩ := (uhRest_good h sh hs { frameType := 0, frameIsIntra := true, showFrame := true } false st
      (shape_fresh st hst _ rfl rfl) rfl True (fun _ => ⟨rfl, by simp, Or.inl rfl⟩)).1 trivial s (by omega)
    exact ⟨p.1, p.2, _, he, hp.1, hp.2.1, hp.2.2.1⟩
  · rw [if_neg hred]
    obtain ⟨rest, hu⟩ := hk.resolve_left hred
    have hflag : flag s = .ok (false, s.advance 1) := Reads.flag false s _ (by rw [hu]; rfl)
    rw [BM.bind_ok hflag]
    simp only [Bool.false_eq_true, if_false]
    have hu1 : unread (s.advance 1) = false :: false :: rest := by rw [unread_advance, hu]; rfl
    rw [hu] at hn
    simp only [List.length_cons] at hn
    obtain ⟨u, er, k, hk5, e, g1, g2⟩ := uhFrameType_key sh hs.model _ rest hu1 (by omega)
    obtain ⟨f1, f2, f3, f4, f5⟩ := uhFrameType_ensures sh _ _ _ e
    rw [BM.bind_ok e]
    obtain ⟨p, k, hk, he, hp⟩ := (uhRest_good h sh hs u er st (shape_fresh st hst _ f1 f2) f3 True
        (fun _ => ⟨g2, by omega, Or.inl g1⟩)).1 trivial ((s.advance 1).advance k) (by
          rw [unread_advance, hu1, List.length_drop]; simp only [List.length_cons]; omega)
    exact ⟨p.1, p.2, _, he, hp.1, hp.2.1.trans g1, hp.2.2.1.trans g2⟩

/-- A 64x64 reduced still picture: a concrete header that parses. -/
def sampleSeq : SeqHeader :=
  { reducedStillPictureHeader := true, stillPicture := true, maxFrameWidthMinusOne := 63, maxFrameHeightMinusOne := 63,
    seqForceScreenContentTools := 2, seqForceIntegerMv := 2,
    colorConfig := { numPlanes := 3, subsamplingX := true, subsamplingY := true } }

theorem sampleSeq_ok : SeqSupported sampleSeq :=
  ⟨by decide, by decide, by decide, by decide, rfl, rfl, rfl⟩

/-- An OBU header of a frame header OBU (type 3). -/
def sampleObu : Header := ⟨false, 3, false, true, false, ⟨0, 0, 0⟩⟩

example : StateShape {} := ⟨rfl, rfl, rfl⟩
example : (newUncompressedHeader sampleObu sampleSeq {} ⟨[0x05, 0x40, 0x00, 0x00, 0x00, 0x00, 0x00, 0x00, 0x00, 0x00], 0, 0⟩).map
    (fun p => (p.1.1.quant.baseQIdx, p.1.1.size.miCols, p.1.2.miCols, p.1.1.txMode, p.2.pos)) =
    .ok (84, 16, 16, 1, 39) := by decide +kernel
example : ¬ ShowsExisting sampleSeq ⟨[0x05, 0x40, 0x00, 0x00, 0x00, 0x00, 0x00, 0x00, 0x00, 0x00], 0, 0⟩ := by
  rintro ⟨h, -⟩; cases h
example : ∃ u st' s', newUncompressedHeader sampleObu sampleSeq {} ⟨List.replicate 4000 170, 0, 0⟩ = .ok ((u, st'), s') ∧
    HeaderOk sampleSeq u st' := by
  obtain ⟨u, st', s', h1, h2, -⟩ := C72_key_frame_total sampleObu sampleSeq sampleSeq_ok {} ⟨rfl, rfl, rfl⟩
    ⟨List.replicate 4000 170, 0, 0⟩ (Or.inl rfl) (by rw [unread_length]; decide +kernel)
  exact ⟨u, st', s', h1, h2⟩

/-! ## C73: show existing frame -/

/-- The header reports whether it shows an existing frame. -/
def C73_show_existing_statement : Prop :=
  ∀ (h : Header) (sh : SeqHeader) (st : FrameState) (s : BitStream) (u : UHeader) (st' : FrameState) (s' : BitStream),
    newUncompressedHeader h sh st s = .ok ((u, st'), s') → (u.showExistingFrame = true ↔ ShowsExisting sh s)

/-- C73 is false of the code, on every header that shows an existing frame: it is parsed, and reported as a
header that does not. -/
theorem C73_show_existing_refuted (h : Header) (sh : SeqHeader) (st : FrameState) (hst : StateShape st)
    (hr : sh.reducedStillPictureHeader = false) (hm : sh.decoderModelInfoPresent = false)
    (hi : sh.frameIdNumbersPresent = false) (hg : sh.filmGrainParamsPresent = false) (idx : Nat) (hx : idx < 8)
    (s : BitStream) (rest : List Bool) (hs : unread s = bit true ++ encF 3 idx ++ rest) :
    ShowsExisting sh s ∧ ∃ u, newUncompressedHeader h sh st s = .ok ((u, st), s.advance 4) ∧
      u.showExistingFrame = false ∧ u.frameToShowMapIdx = idx ∧ u.frameType = st.refFrameType.getD idx 0 := by
  refine ⟨⟨hr, by rw [hs]; rfl⟩, ?_⟩
  have hget : goGet st.refFrameType (idx : Nat) = .ok (st.refFrameType.getD idx 0) := by
    unfold goGet
    rw [if_neg (by omega), Int.toNat_natCast, List.getElem?_eq_getElem (by rw [hst.types]; exact hx)]
    simp [List.getD, List.getElem?_eq_getElem (show idx < st.refFrameType.length by rw [hst.types]; exact hx)]
  have hR : Reads (newUncompressedHeader h sh st) (bit true ++ encF 3 idx)
      (({ frameToShowMapIdx := idx, framePresentationTime := 0, displayFrameId := 0,
               frameType := st.refFrameType.getD idx 0,
               refreshImageFlags := if st.refFrameType.getD idx 0 = 0 then 255 else 0 } : UHeader), st) := by
    unfold newUncompressedHeader
    rw [if_neg (by simp [hr])]
    refine Reads.bind (Reads.flag true) ?_
    simp only [if_true]
    unfold uhShowExisting
    refine Reads.bind (b2 := []) (Reads.F hx) ?_ |>.congr (by simp)
    unfold temporalPoint
    rw [if_neg (by simp [hm]), BM.pure_bind, if_neg (by simp [hi]), BM.pure_bind, hget]
    simp only [BM.lift_ok, BM.pure_bind]
    rw [if_neg (by simp [hg])]
    exact Reads.pure _
  have := hR s rest hs
  rw [show (bit true ++ encF 3 idx).length = 4 by simp [bit]] at this
  exact ⟨_, this, rfl, rfl, rfl⟩

/-- C73 (partial): the answer is right for every other header. -/
theorem C73_show_existing_partial (h : Header) (sh : SeqHeader) (hs : SeqSupported sh) (st : FrameState)
    (hst : StateShape st) (s : BitStream) (hne : ¬ ShowsExisting sh s) (u : UHeader) (st' : FrameState)
    (s' : BitStream) (hr : newUncompressedHeader h sh st s = .ok ((u, st'), s')) : u.showExistingFrame = false :=
  (header_result h sh hs st hst s hne u st' s' hr).2.1

theorem C73_show_existing_statement_refuted : ¬ C73_show_existing_statement := by
  intro hC
  obtain ⟨h1, u, h2, h3, -⟩ := C73_show_existing_refuted sampleObu { sampleSeq with reducedStillPictureHeader := false } {}
    ⟨rfl, rfl, rfl⟩ rfl rfl rfl rfl 5 (by omega) ⟨[0xD0], 0, 0⟩ (List.replicate 4 false) (by decide)
  have := (hC _ _ _ _ _ _ _ h2).mpr h1
  rw [h3] at this; cases this

/-! ## C74: key frames and the reference slots -/

/-- After a shown key frame no reference slot is valid. -/
def C74_key_frame_resets_statement : Prop :=
  ∀ (h : Header) (sh : SeqHeader) (st : FrameState) (s : BitStream) (u : UHeader) (st' : FrameState) (s' : BitStream),
    SeqSupported sh → StateShape st → newUncompressedHeader h sh st s = .ok ((u, st'), s') →
    u.frameType = 0 → u.showFrame = true → u.showExistingFrame = false → ∀ v ∈ st'.refValid, v = 0

/-- C74 is false of the code: parsing any header, key frame or not, leaves the validity and the order hints of
the reference slots in the decoder state as they were. -/
theorem C74_key_frame_resets_refuted (h : Header) (sh : SeqHeader) (hs : SeqSupported sh) (st : FrameState)
    (hst : StateShape st) (s : BitStream) (hne : ¬ ShowsExisting sh s) (u : UHeader) (st' : FrameState)
    (s' : BitStream) (hr : newUncompressedHeader h sh st s = .ok ((u, st'), s')) :
    st'.refValid = st.refValid ∧ st'.refOrderHint = st.refOrderHint :=
  (header_result h sh hs st hst s hne u st' s' hr).2.2.2

/-- C74 as stated fails on a concrete reduced still picture. -/
theorem C74_key_frame_resets_statement_refuted : ¬ C74_key_frame_resets_statement := by
  intro hC
  have h1 : (newUncompressedHeader sampleObu sampleSeq { refValid := List.replicate 8 1 }
      ⟨[0x05, 0x40, 0x00, 0x00, 0x00, 0x00, 0x00, 0x00, 0x00, 0x00], 0, 0⟩).toOption.isSome = true := by decide +kernel
  obtain ⟨⟨⟨u, st'⟩, s'⟩, h2⟩ := Option.isSome_iff_exists.mp h1
  have h3 : newUncompressedHeader sampleObu sampleSeq { refValid := List.replicate 8 1 }
      ⟨[0x05, 0x40, 0x00, 0x00, 0x00, 0x00, 0x00, 0x00, 0x00, 0x00], 0, 0⟩ = .ok ((u, st'), s') := by
    cases h : newUncompressedHeader sampleObu sampleSeq { refValid := List.replicate 8 1 }
      ⟨[0x05, 0x40, 0x00, 0x00, 0x00, 0x00, 0x00, 0x00, 0x00, 0x00], 0, 0⟩ with
    | error e => rw [h] at h2; cases h2
    | ok p => rw [h] at h2; cases h2; rfl
  have hd : (newUncompressedHeader sampleObu sampleSeq { refValid := List.replicate 8 1 }
      ⟨[0x05, 0x40, 0x00, 0x00, 0x00, 0x00, 0x00, 0x00, 0x00, 0x00], 0, 0⟩).map
      (fun p => (p.1.1.frameType, p.1.1.showFrame, p.1.1.showExistingFrame)) = .ok (0, true, false) := by decide +kernel
  rw [h3] at hd
  have hd' : u.frameType = 0 ∧ u.showFrame = true ∧ u.showExistingFrame = false := by
    simpa [Except.map] using hd
  have := hC _ _ _ _ _ _ _ sampleSeq_ok ⟨rfl, rfl, rfl⟩ h3 hd'.1 hd'.2.1 hd'.2.2 1
  rw [(C74_key_frame_resets_refuted sampleObu sampleSeq sampleSeq_ok _ ⟨rfl, rfl, rfl⟩ _
    (by rintro ⟨h, -⟩; cases h) u st' s' h3).1] at this
  exact absurd (this (by simp)) (by decide)

/-! ## Fields decided before the frame size -/

/-- The fields assigned by uncompressed_header.go:224-322. -/
def idsOf (u : UHeader) : Bool × Nat × Bool × Nat × Bool × Nat × Nat × Nat × Nat × Bool × Bool :=
  (u.disableCdfUpdate, u.allowScreenContentTools, u.forceIntegerMv, u.currentFrameId, u.frameSizeOverrideFlag,
    u.orderHint, u.primaryRefFrame, u.refreshFrameFlags, u.frameType, u.showFrame, u.frameIsIntra)

theorem uhIntra_ids (sh : SeqHeader) (u : UHeader) (st : FrameState) :
    Ensures (uhIntra sh u st) (fun p => idsOf p.1 = idsOf u) := by
  unfold uhIntra
  exact Ensures.bindT fun fs => Ensures.bindT fun r => Ensures.bindT fun ibc =>
    Ensures.pure (P := fun p : UHeader × FrameState => idsOf p.1 = idsOf u) rfl

theorem uhInter_ids (sh : SeqHeader) (u : UHeader) (er : Bool) (st : FrameState) :
    Ensures (uhInter sh u er st) (fun p => idsOf p.1 = idsOf u) := by
  unfold uhInter
  refine Ensures.bindT fun _ => Ensures.bindT fun refs => Ensures.ite (fun _ => Ensures.fail _) fun _ => ?_
  exact Ensures.bindT fun fs => Ensures.bindT fun r => Ensures.bindT fun hp => Ensures.bindT fun filt =>
    Ensures.bindT fun sw => Ensures.bindT fun mvs => Ensures.bindT fun ob =>
    Ensures.pure (P := fun p : UHeader × FrameState => idsOf p.1 = idsOf u) rfl

theorem uhQuant_ids (sh : SeqHeader) (u : UHeader) (st : FrameState) :
    Ensures (uhQuant sh u st) (fun p => idsOf p.1 = idsOf u) := by
  unfold uhQuant
  exact Ensures.bindT fun _ => Ensures.bindT fun _ => Ensures.bindT fun _ => Ensures.bindT fun _ =>
    Ensures.bindT fun _ => Ensures.bindT fun _ =>
    Ensures.pure (P := fun p : UHeader × FrameState => idsOf p.1 = idsOf u) rfl

theorem uhFilters_ids (sh : SeqHeader) (u : UHeader) (er : Bool) (st : FrameState) :
    Ensures (uhFilters sh u er st) (fun p => idsOf p.1 = idsOf u) := by
  unfold uhFilters
  exact Ensures.bindT fun _ => Ensures.bindT fun _ => Ensures.bindT fun _ => Ensures.bindT fun _ =>
    Ensures.bindT fun _ => Ensures.bindT fun _ => Ensures.bindT fun _ => Ensures.bindT fun _ =>
    Ensures.bindT fun _ => Ensures.bindT fun _ => Ensures.bindT fun _ =>
    Ensures.pure (P := fun p : UHeader × FrameState => idsOf p.1 = idsOf u) rfl

/-- Whatever holds of the header after the identification stage, of the listed fields, holds at the end. -/
theorem uhRest_ids (h : Header) (sh : SeqHeader) (u : UHeader) (er : Bool) (st : FrameState) (P : UHeader → Prop)
    (hP : ∀ a b, idsOf a = idsOf b → P b → P a) (hE : Ensures (uhIds h sh u er st) (fun p => P p.1)) :
    Ensures (uhRest h sh u er st) (fun p => P p.1) := by
  unfold uhRest
  refine Ensures.bind hE fun p hp => ?_
  obtain ⟨u1, st1⟩ := p
  dsimp only at hp ⊢
  refine Ensures.bind (P := fun p => P p.1) (Ensures.ite (fun _ => (uhIntra_ids sh u1 st1).mono fun p h => hP _ _ h hp)
    fun _ => (uhInter_ids sh u1 er st1).mono fun p h => hP _ _ h hp) fun p hp2 => ?_
  obtain ⟨u2, st2⟩ := p
  dsimp only at hp2 ⊢
  refine Ensures.bindT fun dfe => Ensures.ite (fun _ => Ensures.fail _) fun _ =>
    Ensures.ite (fun _ => Ensures.fail _) fun _ => ?_
  refine Ensures.bind (P := fun p => P p.1) ((uhQuant_ids sh _ _).mono fun p h => hP _ _ (h.trans rfl) hp2) fun p hp3 => ?_
  obtain ⟨u3, st3⟩ := p
  exact (uhFilters_ids sh u3 er st3).mono fun p h => hP _ _ h hp3

/-- A property of the fields above that every stage establishes holds of every returned header that does not show
an existing frame. -/
theorem header_ids (h : Header) (sh : SeqHeader) (st : FrameState) (P : UHeader → Prop)
    (hP : ∀ a b, idsOf a = idsOf b → P b → P a)
    (hE : ∀ u er, Ensures (uhIds h sh u er st) (fun p => P p.1)) (s : BitStream) (hne : ¬ ShowsExisting sh s)
    (u : UHeader) (st' : FrameState) (s' : BitStream)
    (hr : newUncompressedHeader h sh st s = .ok ((u, st'), s')) : P u := by
  unfold newUncompressedHeader at hr
  split at hr
  · exact uhRest_ids h sh _ _ st P hP (hE _ _) _ _ _ hr
  · rename_i hred
    obtain ⟨se, s1, h1, h2⟩ := BM.bind_eq_ok.mp hr
    obtain ⟨rest, hu, -⟩ := flag_ok h1
    cases se with
    | true => exact absurd ⟨by simpa using hred, by rw [hu]; rfl⟩ hne
    | false =>
      simp only [Bool.false_eq_true, if_false] at h2
      obtain ⟨⟨u1, er⟩, s2, h3, h4⟩ := BM.bind_eq_ok.mp h2
      exact uhRest_ids h sh _ _ st P hP (hE _ _) _ _ _ h4

/-! ## C75: screen content tools -/

/-- C75 is false of the code: when the sequence header forces screen content tools off, every frame header turns
them on. -/
theorem C75_screen_content_refuted (h : Header) (sh : SeqHeader) (hf : sh.seqForceScreenContentTools = 0)
    (st : FrameState) (s : BitStream) (hne : ¬ ShowsExisting sh s) (u : UHeader) (st' : FrameState) (s' : BitStream)
    (hr : newUncompressedHeader h sh st s = .ok ((u, st'), s')) : u.allowScreenContentTools = 1 := by
  refine header_ids h sh st (fun u => u.allowScreenContentTools = 1) (fun a b hab hb => ?_) (fun u er => ?_) s hne u st' s' hr
  · simp only [idsOf, Prod.mk.injEq] at hab; rw [hab.2.1]; exact hb
  · unfold uhIds
    refine Ensures.bindT fun _ => Ensures.bind (P := fun p => p.1 = 1) ?_ fun p hp => ?_
    · unfold uhScreenContent
      rw [if_neg (by omega), BM.pure_bind]
      exact Ensures.bindT fun _ => Ensures.pure (P := fun p : Nat × Bool => p.1 = 1) rfl
    · obtain ⟨sct, imv⟩ := p
      dsimp only at hp ⊢
      refine Ensures.bindT fun p => ?_
      obtain ⟨id, st1⟩ := p
      dsimp only
      exact Ensures.bindT fun _ => Ensures.bindT fun _ => Ensures.bindT fun _ => Ensures.bindT fun _ =>
        Ensures.bindT fun _ => Ensures.pure (P := fun p : UHeader × FrameState => p.1.allowScreenContentTools = 1) hp

/-- C75 (partial): forced on (1) gives 1, and the choice left to the frame (2) gives the coded bit; a frame that is
intra forces integer motion vectors. -/
theorem C75_screen_content_partial (sh : SeqHeader) (fi : Bool) (s : BitStream) :
    (sh.seqForceScreenContentTools = 1 → ∀ p s', uhScreenContent sh fi s = .ok (p, s') → p.1 = 1) ∧
    (sh.seqForceScreenContentTools = 2 → ∀ b rest, unread s = bit b ++ rest →
      ∀ p s', uhScreenContent sh fi s = .ok (p, s') → p.1 = b.toNat) ∧
    ∀ p s', uhScreenContent sh fi s = .ok (p, s') → fi = true → p.2 = true := by
  refine ⟨fun h p s' hr => ?_, fun h b rest hu p s' hr => ?_, fun p s' hr => ((uhScreenContent_good sh fi).2 _ _ _ hr).2⟩
  · unfold uhScreenContent at hr
    rw [if_neg (by omega), BM.pure_bind] at hr
    obtain ⟨_, _, -, h2⟩ := BM.bind_eq_ok.mp hr
    cases h2; rfl
  · unfold uhScreenContent at hr
    rw [if_pos h, BM.bind_ok (F1_bit b s rest hu)] at hr
    obtain ⟨_, _, -, h2⟩ := BM.bind_eq_ok.mp hr
    cases h2; rfl

/-! ## C76: refresh flags -/

/-- C76 is false of the code: every shown frame, also an inter or intra-only frame, refreshes all eight slots
whatever the stream codes. -/
theorem C76_refresh_flags_refuted (h : Header) (sh : SeqHeader) (st : FrameState) (s : BitStream)
    (hne : ¬ ShowsExisting sh s) (u : UHeader) (st' : FrameState) (s' : BitStream)
    (hr : newUncompressedHeader h sh st s = .ok ((u, st'), s')) (hshow : u.showFrame = true) :
    u.refreshFrameFlags = 255 := by
  refine header_ids h sh st (fun u => u.showFrame = true → u.refreshFrameFlags = 255) (fun a b hab hb ha => ?_)
    (fun u er => ?_) s hne u st' s' hr hshow
  · simp only [idsOf, Prod.mk.injEq] at hab
    obtain ⟨-, -, -, -, -, -, -, h1, -, h2, -⟩ := hab
    rw [h1]; exact hb (h2 ▸ ha)
  · unfold uhIds
    refine Ensures.bindT fun _ => Ensures.bindT fun p => ?_
    obtain ⟨sct, imv⟩ := p
    dsimp only
    refine Ensures.bindT fun p => ?_
    obtain ⟨id, st1⟩ := p
    dsimp only
    refine Ensures.bindT fun _ => Ensures.bindT fun _ => Ensures.bindT fun _ => Ensures.bindT fun _ => ?_
    refine Ensures.bind (P := fun rf => u.showFrame = true → rf = 255) ?_ fun rf hrf =>
      Ensures.pure (P := fun p : UHeader × FrameState => p.1.showFrame = true → p.1.refreshFrameFlags = 255) hrf
    unfold uhRefresh
    refine Ensures.bind (P := fun rf => u.showFrame = true → rf = 255) ?_ fun rf hrf => ?_
    · exact Ensures.ite (fun _ => Ensures.pure (P := fun rf => u.showFrame = true → rf = 255) fun _ => rfl)
        fun hn => fun _ _ _ _ hs => absurd (Or.inr (Or.inr hs)) hn
    · exact Ensures.ite (fun _ => Ensures.bindT fun _ => Ensures.fail _) fun _ => Ensures.pure (P := fun rf => u.showFrame = true → rf = 255) hrf

/-- C76 is false of the code for key frames that are not shown, too: AV1 codes the slots in eight bits, of which the code reads none, and it
refreshes all slots. -/
theorem C76_hidden_key_refuted (sh : SeqHeader) (u : UHeader) (er : Bool) (hi : u.frameIsIntra = true) (ht : u.frameType = 0) (s : BitStream) (v : Nat)
    (hv : v < 255) (rest : List Bool) (_hs : unread s = encF 8 v ++ rest) :
    uhRefresh sh u er s = .ok (255, s) ∧ (255 : Nat) ≠ v ∧ s ≠ s.advance 8 := by
  refine ⟨?_, by omega, fun h => ?_⟩
  · unfold uhRefresh
    rw [if_pos (by simp [ht]), hi]
    rfl
  · have := congrArg BitStream.pos h
    simp [BitStream.advance] at this

/-- C76 (partial): switch frames and key frames refresh all slots without coding it (as AV1 requires for shown
key frames), and a frame that is not shown and not a key or switch frame refreshes the slots it codes. -/
theorem C76_refresh_flags_partial (sh : SeqHeader) (u : UHeader) (er : Bool) (s : BitStream) :
    ((u.frameType = 3 ∨ u.frameType = 0) → ∀ rf s', uhRefresh sh u er s = .ok (rf, s') → rf = 255 ∧ s' = s) ∧
    (u.frameType ≠ 3 → u.frameType ≠ 0 → u.showFrame = false → (er = false ∨ sh.enableOrderHint = false) →
      ∀ v rest, v < 256 → unread s = encF 8 v ++ rest → uhRefresh sh u er s = .ok (v, s.advance 8)) := by
  refine ⟨fun h rf s' hr => ?_, fun h1 h2 h3 h4 v rest hv hu => ?_⟩
  · unfold uhRefresh at hr
    rw [if_pos (by tauto), BM.pure_bind] at hr
    split at hr
    · obtain ⟨_, _, -, h2⟩ := BM.bind_eq_ok.mp hr
      cases h2
    · cases hr; exact ⟨rfl, rfl⟩
  · have : Reads (uhRefresh sh u er) (encF 8 v) v := by
      unfold uhRefresh
      rw [if_neg (by simp [h1, h2, h3])]
      refine Reads.bind (b2 := []) (Reads.F (by omega)) ?_ |>.congr (by simp)
      rw [if_neg (by rcases h4 with h | h <;> simp [h])]
      exact Reads.pure _
    simpa using this s rest hu

/-! ## C77: reference indices -/

/-- C77 is false of the code: after the three bits of a reference index three more bits are read, and they are
what is returned. -/
theorem C77_ref_idx_refuted (sh : SeqHeader) (hi : sh.frameIdNumbersPresent = false) (v w : Nat) (hv : v < 8)
    (hw : w < 8) (s : BitStream) (rest : List Bool) (hs : unread s = encF 3 v ++ encF 3 w ++ rest) :
    uhRefIdx sh s = .ok (w, s.advance 6) := by
  have : Reads (uhRefIdx sh) (encF 3 v ++ encF 3 w) w := by
    unfold uhRefIdx
    refine Reads.bind (Reads.F hv) (Reads.bind (b2 := []) (Reads.F hw) ?_ |>.congr (by simp))
    rw [if_neg (by simp [hi])]
    exact Reads.pure _
  simpa using this s rest hs

/-- C77 (partial): what is returned is always a slot. -/
theorem C77_ref_idx_partial (sh : SeqHeader) (s : BitStream) (v : Nat) (s' : BitStream)
    (h : uhRefIdx sh s = .ok (v, s')) : v < 8 := uhRefIdx_ensures sh s v s' h

/-! ## C78: primary reference frame -/

/-- C78 is false of the code: no header that names a primary reference frame is ever returned. -/
theorem C78_primary_ref_refuted (h : Header) (sh : SeqHeader) (hs : SeqSupported sh) (st : FrameState)
    (hst : StateShape st) (s : BitStream) (hne : ¬ ShowsExisting sh s) (u : UHeader) (st' : FrameState)
    (s' : BitStream) (hr : newUncompressedHeader h sh st s = .ok ((u, st'), s')) : u.primaryRefFrame = 7 :=
  (header_result h sh hs st hst s hne u st' s' hr).2.2.1

/-! ## C79: frame ids -/

/-- C79 is false of the code: with frame ids in the sequence no header is ever returned, except those showing an
existing frame. -/
theorem C79_frame_ids_refuted (h : Header) (sh : SeqHeader) (hi : sh.frameIdNumbersPresent = true)
    (st : FrameState) (s : BitStream) (hne : ¬ ShowsExisting sh s) (u : UHeader) (st' : FrameState)
    (s' : BitStream) : newUncompressedHeader h sh st s ≠ .ok ((u, st'), s') := by
  intro hr
  refine header_ids h sh st (fun _ => False) (fun a b hab hb => hb) (fun u er => ?_) s hne u st' s' hr
  unfold uhIds
  refine Ensures.bindT fun _ => Ensures.bindT fun p => ?_
  obtain ⟨sct, imv⟩ := p
  dsimp only
  refine Ensures.bind (P := fun _ => False) ?_ fun p hp => hp.elim
  unfold uhFrameId
  rw [if_pos hi]
  refine Ensures.bindT fun id => ?_
  have : ∀ rv, markRefFrames [] id (sh.deltaFrameIdLengthMinusTwo + 2) (idLen sh) rv = .error .index := fun rv => rfl
  rw [this]
  intro s a s' h'
  obtain ⟨_, _, h1, -⟩ := BM.bind_eq_ok.mp h'
  cases h1

/-- C79 (partial): a header that shows an existing frame reads the id on the coded number of bits. -/
theorem C79_frame_ids_partial (sh : SeqHeader) (hi : sh.frameIdNumbersPresent = true)
    (hm : sh.decoderModelInfoPresent = false) (hg : sh.filmGrainParamsPresent = false) (st : FrameState)
    (hst : StateShape st) (idx id : Nat) (hx : idx < 8)
    (hid : id < 2 ^ (sh.additionalFrameIdLengthMinusOne + sh.deltaFrameIdLengthMinusTwo + 3)) (s : BitStream)
    (rest : List Bool) (hs : unread s = encF 3 idx ++
      encF (sh.additionalFrameIdLengthMinusOne + sh.deltaFrameIdLengthMinusTwo + 3) id ++ rest) :
    ∃ u, uhShowExisting sh st s = .ok ((u, st),
        s.advance (3 + (sh.additionalFrameIdLengthMinusOne + sh.deltaFrameIdLengthMinusTwo + 3))) ∧
      u.frameToShowMapIdx = idx ∧ u.displayFrameId = id := by
  have hget : goGet st.refFrameType (idx : Nat) = .ok (st.refFrameType.getD idx 0) := by
    unfold goGet
    rw [if_neg (by omega), Int.toNat_natCast, List.getElem?_eq_getElem (by rw [hst.types]; exact hx)]
    simp [List.getD, List.getElem?_eq_getElem (show idx < st.refFrameType.length by rw [hst.types]; exact hx)]
  have hl : idLen sh = sh.additionalFrameIdLengthMinusOne + sh.deltaFrameIdLengthMinusTwo + 3 := by
    unfold idLen; rw [if_pos hi]
  have hR : Reads (uhShowExisting sh st) (encF 3 idx ++
      encF (sh.additionalFrameIdLengthMinusOne + sh.deltaFrameIdLengthMinusTwo + 3) id)
      (({ frameToShowMapIdx := idx, framePresentationTime := 0, displayFrameId := id,
               frameType := st.refFrameType.getD idx 0,
               refreshImageFlags := if st.refFrameType.getD idx 0 = 0 then 255 else 0 } : UHeader), st) := by
    unfold uhShowExisting
    refine Reads.bind (Reads.F hx) ?_
    unfold temporalPoint
    rw [if_neg (by simp [hm]), BM.pure_bind, if_pos hi, hl]
    refine Reads.bind (b2 := []) (Reads.F hid) ?_ |>.congr (by simp)
    rw [hget]
    simp only [BM.lift_ok, BM.pure_bind]
    rw [if_neg (by simp [hg])]
    exact Reads.pure _
  have := hR s rest hs
  rw [List.length_append, encF_length, encF_length] at this
  exact ⟨_, this, rfl, rfl⟩

end Gov1
