import Verif.Lemmas.Total
import Verif.Props.Obu
/-!
# C22: temporal unit framing and termination (internal/parser/parser.go)
-/
namespace Gov1
open Spec

/-! ## Termination -/

theorem terminates_uvlc : Terminates uvlc := fun s => C06_uvlc_terminates s

theorem terminates_colorConfig (p : Nat) : Terminates (newColorConfig p) := by
  unfold newColorConfig ccBitDepth ccDescription ccSubsampling
  repeat terminates_step

theorem terminates_opPointLoop (k i : Nat) (s : SeqHeader) (l : List Nat) :
    Terminates (opPointLoop k i s l) := by
  induction k generalizing i s l with
  | zero => exact Terminates.pure _
  | succ k ih =>
    unfold opPointLoop
    refine Terminates.bind ?_ fun _ => ih _ _ _
    unfold opPointStep operatingParametersInfo
    repeat terminates_step

theorem terminates_sequenceHeader (st : State) : Terminates (newSequenceHeader st) := by
  unfold newSequenceHeader seqBody seqTiming seqFrameSize seqTools seqScreenContent newTimingInfo
  repeat first
    | exact terminates_colorConfig _ | exact terminates_opPointLoop _ _ _ _
    | exact terminates_uvlc | terminates_step

/-- The payload parsers of the other packages go forward and terminate. -/
structure Codec.WellBehaved (C : Codec) : Prop where
  uhForward : ∀ h sh st, Forward (C.parseUH h sh st)
  uhTerminates : ∀ h sh st, Terminates (C.parseUH h sh st)
  tgForward : ∀ sz st uh sh, Forward (C.tileGroup sz st uh sh)
  tgTerminates : ∀ sz st uh sh, Terminates (C.tileGroup sz st uh sh)

theorem terminates_padding : Terminates paddingObu := by
  have key : ∀ (f : Nat) (s : BitStream), 8 * s.data.length < 8 * (f + 1) + s.pos →
      paddingLoop (f + 1) s ≠ .error .hang := by
    intro f
    induction f with
    | zero =>
      intro s hs h
      unfold paddingLoop at h
      have e : F 8 s = .error .index := by
        rw [F_eq, if_neg]
        rw [unread_length]; omega
      rw [BM.bind_error e] at h
      cases h
    | succ f ih =>
      intro s hs h
      unfold paddingLoop at h
      cases hr : F 8 s with
      | error e =>
        rw [BM.bind_error hr] at h
        exact Terminates.F 8 s (by rw [hr]; cases h; rfl)
      | ok r =>
        obtain ⟨v, s1⟩ := r
        rw [BM.bind_ok hr] at h
        obtain ⟨-, -, rfl⟩ := F_ok hr
        split at h
        · exact ih _ (by simp; omega) h
        · cases h
  intro s h
  unfold paddingObu at h
  cases hr : paddingLoop (s.data.length + 1) s with
  | error e =>
    rw [BM.bind_error hr] at h
    exact key s.data.length s (by omega) (by rw [hr]; cases h; rfl)
  | ok r =>
    obtain ⟨v, s1⟩ := r
    rw [BM.bind_ok hr, BM.getPos_bind] at h
    cases h


theorem terminates_frameHeader {C : Codec} (hC : C.WellBehaved) (h : Header) (sh : SeqHeader)
    (st : State × C.R) : Terminates (parseFrameHeader C h sh st) := by
  unfold parseFrameHeader
  repeat first | exact hC.uhTerminates _ _ _ | terminates_step

theorem terminates_payload {C : Codec} (hC : C.WellBehaved) (o : Obu C) (st : State × C.R) :
    Terminates (obuPayload C o st) := by
  unfold obuPayload newFrame byteAlignment
  repeat first
    | exact terminates_sequenceHeader _ | exact terminates_frameHeader hC _ _ _
    | exact terminates_padding | exact hC.tgTerminates _ _ _ _ | exact Terminates.byteAlignLoop _
    | terminates_step

theorem terminates_header : Terminates newHeader := by
  unfold newHeader newExtensionHeader; repeat terminates_step

theorem terminates_newObu {C : Codec} (hC : C.WellBehaved) (sz : Int) (st : State × C.R)
    (sh : SeqHeader) (uh : C.UH) : Terminates (newObu C sz st sh uh) := by
  unfold newObu
  repeat first
    | exact terminates_header | exact terminates_payload hC _ _ | terminates_step

/-! ### position -/

theorem paddingLoop_forward (fuel : Nat) (s s' : BitStream) (h : paddingLoop fuel s = .ok ((), s')) :
    s'.data = s.data ∧ s.pos + 8 ≤ s'.pos := by
  have := paddingLoop_past [] (by simp) fuel s s' (unread s) rfl h
  simpa using this

theorem forward_padding : Forward paddingObu := by
  intro s a s' h
  unfold paddingObu at h
  obtain ⟨u, s1, h1, h2⟩ := BM.bind_eq_ok.mp h
  rw [BM.getPos_bind] at h2
  simp only [BM.setPos] at h2
  cases h2
  have := paddingLoop_forward _ _ _ h1
  simp only
  exact ⟨this.1, by omega⟩

theorem forward_frameHeader {C : Codec} (hC : C.WellBehaved) (h : Header) (sh : SeqHeader)
    (st : State × C.R) : Forward (parseFrameHeader C h sh st) := by
  unfold parseFrameHeader
  refine Forward.ite (Forward.fail _) (Forward.bind (hC.uhForward _ _ _) fun _ => ?_)
  exact Forward.ite (Forward.fail _) (Forward.pure _)

theorem forward_payload {C : Codec} (hC : C.WellBehaved) (o : Obu C) (st : State × C.R) :
    Forward (obuPayload C o st) := by
  unfold obuPayload newFrame
  repeat first
    | exact (C07_sequenceHeader_streaming _).forward | exact forward_frameHeader hC _ _ _
    | exact forward_padding | exact hC.tgForward _ _ _ _ | exact Streaming.byteAlignment.forward
    | exact Forward.pure _ | exact Forward.fail _ | exact Forward.getPos
    | (refine Forward.bind ?_ (fun _ => ?_))
    | (refine Forward.ite ?_ ?_)

theorem newHeader_pos {s s' : BitStream} {h : Header} (e : newHeader s = .ok (h, s')) :
    s'.data = s.data ∧ s'.pos = s.pos + (if h.extensionFlag then 16 else 8) := by
  unfold newHeader at e
  obtain ⟨a1, s1, e1, e⟩ := BM.bind_eq_ok.mp e
  obtain ⟨a2, s2, e2, e⟩ := BM.bind_eq_ok.mp e
  obtain ⟨a3, s3, e3, e⟩ := BM.bind_eq_ok.mp e
  obtain ⟨a4, s4, e4, e⟩ := BM.bind_eq_ok.mp e
  obtain ⟨a5, s5, e5, e⟩ := BM.bind_eq_ok.mp e
  obtain ⟨-, -, rfl⟩ := flag_ok e1
  obtain ⟨-, -, rfl⟩ := F_ok e2
  obtain ⟨-, -, rfl⟩ := flag_ok e3
  obtain ⟨-, -, rfl⟩ := flag_ok e4
  obtain ⟨-, -, rfl⟩ := flag_ok e5
  split at e
  · rename_i hx
    obtain ⟨x, s6, e6, e⟩ := BM.bind_eq_ok.mp e
    unfold newExtensionHeader at e6
    obtain ⟨b1, t1, f1, e6⟩ := BM.bind_eq_ok.mp e6
    obtain ⟨b2, t2, f2, e6⟩ := BM.bind_eq_ok.mp e6
    obtain ⟨b3, t3, f3, e6⟩ := BM.bind_eq_ok.mp e6
    obtain ⟨-, -, rfl⟩ := F_ok f1
    obtain ⟨-, -, rfl⟩ := F_ok f2
    obtain ⟨-, -, rfl⟩ := F_ok f3
    cases e6
    cases e
    simp [hx]
  · rename_i hx
    cases e
    simp [hx]

/-- An OBU never moves the stream back, however small its announced length. -/
theorem newObu_forward {C : Codec} (hC : C.WellBehaved) (sz : Int) (hsz : 0 ≤ sz) (st : State × C.R)
    (sh : SeqHeader) (uh : C.UH) : Forward (newObu C sz st sh uh) := by
  intro s r s' e
  unfold newObu at e
  obtain ⟨h, s1, e1, e⟩ := BM.bind_eq_ok.mp e
  obtain ⟨d1, p1⟩ := newHeader_pos e1
  obtain ⟨size, s2, e2, e⟩ := BM.bind_eq_ok.mp e
  have hsize : s2.data = s.data ∧ (s.pos : Int) ≤ s2.pos ∧ (s.pos : Int) ≤ s2.pos + size * 8 := by
    split at e2
    · obtain ⟨n, s3, e3, e2⟩ := BM.bind_eq_ok.mp e2
      have := Streaming.leb128.forward _ _ _ e3
      cases e2
      refine ⟨this.1.trans d1, ?_, ?_⟩ <;> split at p1 <;> omega
    · cases e2
      refine ⟨d1, ?_, ?_⟩ <;> split at p1 <;> simp_all <;> omega
  rw [BM.getPos_bind] at e
  split at e
  · simp only [BM.setPos_bind, BM.pure_apply] at e
    cases e
    exact ⟨hsize.1, by simp only; omega⟩
  · obtain ⟨⟨o, st'⟩, s3, e3, e⟩ := BM.bind_eq_ok.mp e
    obtain ⟨d3, p3⟩ := forward_payload hC _ _ _ _ _ e3
    dsimp only at e
    rw [BM.getPos_bind] at e
    split at e
    · obtain ⟨u, s4, e4, e⟩ := BM.bind_eq_ok.mp e
      obtain ⟨d4, p4⟩ := (Streaming.trailingBits _).forward _ _ _ e4
      cases e
      exact ⟨d4.trans (d3.trans hsize.1), by omega⟩
    · cases e
      exact ⟨d3.trans hsize.1, by omega⟩

theorem frameUnitLoop_ok {C : Codec} (hC : C.WellBehaved) (fuel : Nat) (sz : Int) (hf : sz.toNat ≤ fuel)
    (st : State × C.R) (p : Parser C) : Terminates (frameUnitLoop C fuel sz st p) ∧
      Forward (frameUnitLoop C fuel sz st p) := by
  induction fuel generalizing sz st p with
  | zero =>
    unfold frameUnitLoop
    rw [if_neg (by omega)]
    exact ⟨Terminates.pure _, Forward.pure _⟩
  | succ fuel ih =>
    unfold frameUnitLoop
    split
    · dsimp only
      have step : ∀ (s : BitStream) (a : Nat) (s1 : BitStream), leb128 s = .ok (a, s1) →
          Terminates (do
            let (o, st) ← newObu C a st p.sequenceHeader p.uncompressedHeader
            let p := { p with obus := p.obus ++ [o] }
            let p :=
              if o.header.type = OBU_SEQUENCE_HEADER then { p with sequenceHeader := o.sequenceHeader }
              else if o.header.type = OBU_FRAME_HEADER then
                { p with uncompressedHeader := o.uncompressedHeader }
              else p
            frameUnitLoop C fuel (sz - s1.leb - a) st p) ∧
          Forward (do
            let (o, st) ← newObu C a st p.sequenceHeader p.uncompressedHeader
            let p := { p with obus := p.obus ++ [o] }
            let p :=
              if o.header.type = OBU_SEQUENCE_HEADER then { p with sequenceHeader := o.sequenceHeader }
              else if o.header.type = OBU_FRAME_HEADER then
                { p with uncompressedHeader := o.uncompressedHeader }
              else p
            frameUnitLoop C fuel (sz - s1.leb - a) st p) := by
        intro s a s1 e
        have hb := C04_leb128_bounds _ _ _ e
        constructor
        · exact Terminates.bind (terminates_newObu hC _ _ _ _) fun r => (ih _ (by omega) _ _).1
        · exact Forward.bind (newObu_forward hC _ (by omega) _ _ _) fun r => (ih _ (by omega) _ _).2
      constructor
      · refine Terminates.bind' Terminates.leb128 fun s a s1 e => ?_
        rw [BM.getLeb_bind]
        exact (step s a s1 e).1 s1
      · intro s r s' e
        obtain ⟨a, s1, e1, e⟩ := BM.bind_eq_ok.mp e
        rw [BM.getLeb_bind] at e
        obtain ⟨d1, p1⟩ := Streaming.leb128.forward _ _ _ e1
        obtain ⟨d2, p2⟩ := (step s a s1 e1).2 s1 r s' e
        exact ⟨d2.trans d1, Nat.le_trans p1 p2⟩
    · exact ⟨Terminates.pure _, Forward.pure _⟩

theorem temporalUnitLoop_ok {C : Codec} (hC : C.WellBehaved) (fuel : Nat) (sz : Int)
    (hf : sz.toNat ≤ fuel) (p : Parser C) : Terminates (temporalUnitLoop C fuel sz p) ∧
      Forward (temporalUnitLoop C fuel sz p) := by
  induction fuel generalizing sz p with
  | zero =>
    unfold temporalUnitLoop
    rw [if_neg (by omega)]
    exact ⟨Terminates.pure _, Forward.pure _⟩
  | succ fuel ih =>
    unfold temporalUnitLoop
    split
    · dsimp only
      constructor
      · refine Terminates.bind' Terminates.leb128 fun s a s1 e => ?_
        have hb := C04_leb128_bounds _ _ _ e
        rw [BM.getLeb_bind]
        exact Terminates.bind (frameUnitLoop_ok hC _ _ (Nat.le_refl _) _ _).1
          (fun r => (ih _ (by omega) _).1) s1
      · intro s r s' e
        obtain ⟨a, s1, e1, e⟩ := BM.bind_eq_ok.mp e
        have hb := C04_leb128_bounds _ _ _ e1
        rw [BM.getLeb_bind] at e
        obtain ⟨d1, p1⟩ := Streaming.leb128.forward _ _ _ e1
        obtain ⟨d2, p2⟩ := Forward.bind (frameUnitLoop_ok hC _ _ (Nat.le_refl _) _ _).2
          (fun r => (ih _ (by omega) _).2) s1 r s' e
        exact ⟨d2.trans d1, Nat.le_trans p1 p2⟩
    · exact ⟨Terminates.pure _, Forward.pure _⟩

theorem bitstreamLoop_succ (C : Codec) (f : Nat) (p : Parser C) (s : BitStream) :
    bitstreamLoop C (f + 1) p s = if moreData s then (do
        let sz ← leb128
        let p ← temporalUnit C sz p
        bitstreamLoop C f p) s else .ok (p, s) := by
  rw [bitstreamLoop]

theorem bitstreamLoop_ok {C : Codec} (hC : C.WellBehaved) (f : Nat) (p : Parser C) (s : BitStream)
    (hs : 8 * s.data.length ≤ 8 * f + s.pos) : bitstreamLoop C (f + 1) p s ≠ .error .hang := by
  induction f generalizing p s with
  | zero =>
    rw [bitstreamLoop_succ]
    split
    · have e : leb128 s = .error .index := by
        unfold leb128
        rw [setLeb_bind]
        unfold lebLoop
        refine BM.bind_error ?_
        rw [F_eq, if_neg]
        rw [unread_length]; simp only; omega
      rw [BM.bind_error e]
      intro h; cases h
    · intro h; cases h
  | succ f ih =>
    rw [bitstreamLoop_succ]
    split
    · intro h
      cases hr : leb128 s with
      | error e =>
        rw [BM.bind_error hr] at h
        exact Terminates.leb128 s (by rw [hr]; cases h; rfl)
      | ok r =>
        obtain ⟨n, s1⟩ := r
        rw [BM.bind_ok hr] at h
        have hb := C04_leb128_bounds _ _ _ hr
        have hfw := Streaming.leb128.forward _ _ _ hr
        have tu := temporalUnitLoop_ok hC n ((n : Nat) : Int) (by omega) p
        have hn : temporalUnit C n p = temporalUnitLoop C n n p := by unfold temporalUnit; simp
        rw [hn] at h
        cases hr2 : temporalUnitLoop C n n p s1 with
        | error e =>
          rw [BM.bind_error hr2] at h
          exact tu.1 s1 (by rw [hr2]; cases h; rfl)
        | ok r =>
          obtain ⟨p', s2⟩ := r
          rw [BM.bind_ok hr2] at h
          have := tu.2 _ _ _ hr2
          refine ih p' s2 ?_ h
          rw [this.1, hfw.1]
          omega
    · intro h; cases h

/-- C22: parsing terminates on every byte string (by returning or by panicking), provided the frame
header and tile group parsers go forward and terminate. -/
theorem C22_parser_terminates (C : Codec) (hC : C.WellBehaved) (data : List UInt8) :
    parseStream C (newBitStream data) ≠ .error .hang := by
  intro h
  unfold parseStream at h
  cases hr : bitstreamLoop C ((newBitStream data).data.length + 2) { rest := C.startR, uncompressedHeader := C.zeroUH }
      (newBitStream data) with
  | error e =>
    rw [BM.bind_error hr] at h
    exact bitstreamLoop_ok hC ((newBitStream data).data.length + 1) _ (newBitStream data) (by omega)
      (by rw [hr]; cases h; rfl)
  | ok r =>
    rw [BM.bind_ok (a := r.1) (s' := r.2) (by rw [hr])] at h
    cases h

/-- C22: parsing an OBU never moves the stream backwards and never changes the data. -/
theorem C22_obu_forward (C : Codec) (hC : C.WellBehaved) (sz : Int) (hsz : 0 ≤ sz) (st : State × C.R)
    (sh : SeqHeader) (uh : C.UH) (s s' : BitStream) (r : Obu C × (State × C.R))
    (h : newObu C sz st sh uh s = .ok (r, s')) : s'.data = s.data ∧ s.pos ≤ s'.pos :=
  newObu_forward hC sz hsz st sh uh s r s' h


/-! ## Exact framing -/

theorem encUnit_length {k : Nat} {b : List Bool} (hv : ValidUnit k b) :
    (encUnit k b).length = 8 * (k + b.length / 8) := by
  obtain ⟨h1, h2, h3, h4⟩ := hv
  unfold encUnit
  rw [List.length_append, encLeb_length]
  omega

theorem leb_unit {k : Nat} {b : List Bool} (hv : ValidUnit k b) {s : BitStream} {rest : List Bool}
    (hs : unread s = encUnit k b ++ rest) :
    leb128 s = .ok (b.length / 8, { data := s.data, pos := s.pos + 8 * k, leb := k }) ∧
    unread { data := s.data, pos := s.pos + 8 * k, leb := k } = b ++ rest := by
  obtain ⟨h1, h2, h3, h4⟩ := hv
  unfold encUnit at hs
  rw [List.append_assoc] at hs
  refine ⟨C04_leb128_roundtrip k _ h1 h2 h4 s _ hs, ?_⟩
  have := unread_drop hs
  rw [encLeb_length] at this
  rw [← this]
  unfold unread
  simp only [advance_data, advance_pos]
  congr 1
  omega

theorem frameUnit_mod {C : Codec} {st : State × C.R} {p p' : Parser C} {l : List (Nat × List Bool)}
    (h : FrameUnitRun C st p l p') : (encFrameUnit l).length % 8 = 0 := by
  induction h with
  | nil => rfl
  | cons hv _ _ ih => unfold encFrameUnit; rw [List.length_append, encUnit_length hv]; omega

theorem temporalUnit_mod {C : Codec} {p p' : Parser C} {l : List (Nat × List (Nat × List Bool))}
    (h : TemporalUnitRun C p l p') : (encTemporalUnit l).length % 8 = 0 := by
  induction h with
  | nil => rfl
  | cons hv _ _ ih => unfold encTemporalUnit; rw [List.length_append, encUnit_length hv]; omega

theorem unread_at {s s' : BitStream} {a rest : List Bool} (h : unread s = a ++ rest)
    (hd : s'.data = s.data) (hp : s'.pos = s.pos + a.length) : unread s' = rest := by
  rw [← unread_drop h]
  unfold unread BitStream.advance
  rw [hd, hp]

theorem frameUnitLoop_exact {C : Codec} {st : State × C.R} {p p' : Parser C}
    {l : List (Nat × List Bool)} (h : FrameUnitRun C st p l p') (fuel : Nat) (sz : Int)
    (hsz : sz = ((encFrameUnit l).length / 8 : Nat)) (hf : sz.toNat ≤ fuel) (s : BitStream)
    (rest : List Bool) (h8 : s.pos % 8 = 0) (hs : unread s = encFrameUnit l ++ rest) :
    ∃ s', frameUnitLoop C fuel sz st p s = .ok (p', s') ∧ s'.data = s.data ∧
      s'.pos = s.pos + (encFrameUnit l).length := by
  induction h generalizing fuel sz s with
  | nil =>
    subst hsz
    refine ⟨s, ?_, rfl, by simp [encFrameUnit]⟩
    unfold frameUnitLoop
    rw [if_neg (by simp [encFrameUnit])]
    rfl
  | @cons st st' p p' k b l o hv ho hl ih =>
    have hlen := encUnit_length hv
    have hmod := frameUnit_mod hl
    unfold encFrameUnit at hsz hs ⊢
    rw [List.length_append] at hsz
    rw [List.append_assoc] at hs
    have hk := hv.1
    obtain ⟨f, rfl⟩ : ∃ f, fuel = f + 1 := ⟨fuel - 1, by omega⟩
    unfold frameUnitLoop
    rw [if_pos (by omega)]
    dsimp only
    obtain ⟨e1, u1⟩ := leb_unit hv hs
    obtain ⟨s2, e2, d2, p2⟩ := ho _ _ (by show (s.pos + 8 * k) % 8 = 0; omega) u1
    have u2 := unread_at u1 d2 p2
    rw [BM.bind_ok e1, BM.getLeb_bind, BM.bind_ok e2]
    dsimp only
    have hp : (if o.header.type = OBU_SEQUENCE_HEADER then
          { p with obus := p.obus ++ [o], sequenceHeader := o.sequenceHeader }
        else if o.header.type = OBU_FRAME_HEADER then
          { p with obus := p.obus ++ [o], uncompressedHeader := o.uncompressedHeader }
        else { p with obus := p.obus ++ [o] }) = afterObu p o := by
      unfold afterObu
      simp only [OBU_SEQUENCE_HEADER, OBU_FRAME_HEADER]
      by_cases h1 : o.header.type = 1
      · have : ¬ o.header.type = 3 := by omega
        simp [h1]
      · by_cases h3 : o.header.type = 3 <;> simp [h1, h3]
    rw [hp]
    have hb8 := hv.2.2.1
    obtain ⟨s3, e3, d3, p3⟩ := ih f (sz - k - ((b.length / 8 : Nat) : Int))
      (by rw [hsz, hlen]; omega) (by omega) s2 (by rw [p2]; show (s.pos + 8 * k + _) % 8 = 0; omega) u2
    refine ⟨s3, e3, d3.trans d2, ?_⟩
    rw [p3, p2, List.length_append, hlen]
    simp only
    omega

theorem temporalUnitLoop_exact {C : Codec} {p p' : Parser C}
    {l : List (Nat × List (Nat × List Bool))} (h : TemporalUnitRun C p l p') (fuel : Nat) (sz : Int)
    (hsz : sz = ((encTemporalUnit l).length / 8 : Nat)) (hf : sz.toNat ≤ fuel) (s : BitStream)
    (rest : List Bool) (h8 : s.pos % 8 = 0) (hs : unread s = encTemporalUnit l ++ rest) :
    ∃ s', temporalUnitLoop C fuel sz p s = .ok (p', s') ∧ s'.data = s.data ∧
      s'.pos = s.pos + (encTemporalUnit l).length := by
  induction h generalizing fuel sz s with
  | nil =>
    subst hsz
    refine ⟨s, ?_, rfl, by simp [encTemporalUnit]⟩
    unfold temporalUnitLoop
    rw [if_neg (by simp [encTemporalUnit])]
    rfl
  | @cons p p1 p' k fu l hv hfu hl ih =>
    have hlen := encUnit_length hv
    have hmod := temporalUnit_mod hl
    unfold encTemporalUnit at hsz hs ⊢
    rw [List.length_append] at hsz
    rw [List.append_assoc] at hs
    have hk := hv.1
    obtain ⟨f, rfl⟩ : ∃ f, fuel = f + 1 := ⟨fuel - 1, by omega⟩
    unfold temporalUnitLoop
    rw [if_pos (by omega)]
    dsimp only
    obtain ⟨e1, u1⟩ := leb_unit hv hs
    obtain ⟨s2, e2, d2, p2⟩ := frameUnitLoop_exact hfu ((encFrameUnit fu).length / 8)
      (((encFrameUnit fu).length / 8 : Nat) : Int) rfl (by omega) _ _ (by show (s.pos + 8 * k) % 8 = 0; omega) u1
    have u2 := unread_at u1 d2 p2
    have e2' : frameUnit C (((encFrameUnit fu).length / 8 : Nat) : Int) p
        { data := s.data, pos := s.pos + 8 * k, leb := k } = .ok (p1, s2) := by
      unfold frameUnit; rw [Int.toNat_natCast]; exact e2
    rw [BM.bind_ok e1, BM.getLeb_bind, BM.bind_ok e2']
    have hb8 := hv.2.2.1
    obtain ⟨s3, e3, d3, p3⟩ := ih f (sz - k - (((encFrameUnit fu).length / 8 : Nat) : Int))
      (by rw [hsz, hlen]; omega) (by omega) s2 (by rw [p2]; show (s.pos + 8 * k + _) % 8 = 0; omega) u2
    refine ⟨s3, e3, d3.trans d2, ?_⟩
    rw [p3, p2, List.length_append, hlen]
    simp only
    omega

theorem bitstreamLoop_exact {C : Codec} {p p' : Parser C}
    {l : List (Nat × List (Nat × List (Nat × List Bool)))} (h : StreamRun C p l p') (fuel : Nat)
    (s : BitStream) (hf : (encStream l).length < 8 * fuel) (hs : unread s = encStream l)
    (h8 : s.pos % 8 = 0) (hin : s.pos ≤ 8 * s.data.length) :
    ∃ s', bitstreamLoop C fuel p s = .ok (p', s') ∧ s'.data = s.data ∧
      s'.pos = 8 * s.data.length := by
  induction h generalizing fuel s with
  | nil =>
    have hl := congrArg List.length hs
    rw [unread_length] at hl
    simp only [encStream, List.length_nil] at hl
    refine ⟨s, ?_, rfl, by omega⟩
    unfold bitstreamLoop
    rw [if_neg]
    unfold moreData
    simp only [bne_iff_ne, ne_eq, Decidable.not_not]
    omega
  | @cons p p1 p' k t l hv ht hl ih =>
    have hlen := encUnit_length hv
    have hl' := congrArg List.length hs
    rw [unread_length] at hl'
    unfold encStream at hs hf hl'
    rw [List.length_append] at hf hl'
    have hk := hv.1
    obtain ⟨f, rfl⟩ : ∃ f, fuel = f + 1 := ⟨fuel - 1, by omega⟩
    rw [bitstreamLoop_succ, if_pos]
    · obtain ⟨e1, u1⟩ := leb_unit hv hs
      obtain ⟨s2, e2, d2, p2⟩ := temporalUnitLoop_exact ht ((encTemporalUnit t).length / 8)
        (((encTemporalUnit t).length / 8 : Nat) : Int) rfl (by omega) _ _ (by show (s.pos + 8 * k) % 8 = 0; omega) u1
      have u2 := unread_at u1 d2 p2
      have e2' : temporalUnit C (((encTemporalUnit t).length / 8 : Nat) : Int) p
          { data := s.data, pos := s.pos + 8 * k, leb := k } = .ok (p1, s2) := by
        unfold temporalUnit; rw [Int.toNat_natCast]; exact e2
      rw [BM.bind_ok e1, BM.bind_ok e2']
      have hb8 := hv.2.2.1
      simp only at p2 d2
      obtain ⟨s3, e3, d3, p3⟩ := ih f s2 (by omega) u2 (by omega) (by rw [d2]; omega)
      exact ⟨s3, e3, d3.trans d2, by rw [p3, d2]⟩
    · unfold moreData
      simp only [bne_iff_ne, ne_eq]
      omega

/-- C22: a byte string that is a sequence of temporal units, frame units and OBUs, every OBU of which
parses within its announced length, is consumed exactly to its end, and the OBUs come out in order
with the state and headers threaded as `StreamRun` says. -/
theorem C22_stream_exact (C : Codec) (data : List UInt8)
    (tus : List (Nat × List (Nat × List (Nat × List Bool)))) (p : Parser C)
    (hdata : bytesBits data = encStream tus)
    (hrun : StreamRun C { rest := C.startR, uncompressedHeader := C.zeroUH } tus p) :
    ∃ s', parseStream C (newBitStream data) = .ok (p.obus, s') ∧ s'.data = data ∧
      s'.pos = 8 * data.length := by
  have hl := congrArg List.length hdata
  rw [bytesBits_length] at hl
  obtain ⟨s', e, d, q⟩ := bitstreamLoop_exact hrun (data.length + 2) (newBitStream data)
    (by omega) (by simpa [unread, newBitStream] using hdata) rfl (by simp [newBitStream])
  refine ⟨s', ?_, d, q⟩
  unfold parseStream
  rw [BM.bind_ok (show bitstreamLoop C ((newBitStream data).data.length + 2) _ _ = _ from e)]
  rfl

/-- witness: one temporal unit with one frame unit holding a temporal delimiter and a padding OBU -/
example : ∃ p : Parser exCodec, StreamRun exCodec { rest := (), uncompressedHeader := (0 : Nat) }
    [(1, [(2, [(1, encObu ⟨false, 2, false, true, false, ⟨0, 0, 0⟩⟩ 1 []),
               (1, encObu ⟨false, 15, false, true, false, ⟨0, 0, 0⟩⟩ 1 [9, 0])])])] p ∧
    bytesBits [0x0A, 0x88, 0x00, 0x02, 0x12, 0x00, 0x04, 0x7A, 0x02, 0x09, 0x00] =
      encStream [(1, [(2, [(1, encObu ⟨false, 2, false, true, false, ⟨0, 0, 0⟩⟩ 1 []),
               (1, encObu ⟨false, 15, false, true, false, ⟨0, 0, 0⟩⟩ 1 [9, 0])])])] ∧
    p.obus.map (fun o => o.header.type) = [2, 15] := by
  have fr : ∀ (t : Nat) (pl : List UInt8) (sz : Int), t < 16 → pl.length < 128 →
      WellFramed ⟨false, t, false, true, false, ⟨0, 0, 0⟩⟩ 1 pl sz := by
    intro t pl sz h1 h2
    refine ⟨⟨h1, by simp⟩, ⟨by decide, by decide⟩, by simpa using h2, ?_⟩
    intro h; cases h
  refine ⟨{ afterObu (C := exCodec) (afterObu (C := exCodec) { rest := (), uncompressedHeader := (0 : Nat) }
      ⟨((0 : Nat) : Int), ⟨false, 2, false, true, false, ⟨0, 0, 0⟩⟩, {}, (0 : Nat), (0 : Nat)⟩)
      ⟨((2 : Nat) : Int), ⟨false, 15, false, true, false, ⟨0, 0, 0⟩⟩, {}, (0 : Nat), (0 : Nat)⟩ with rest := () },
    .cons ⟨by decide, by decide, by decide, by decide⟩
    (.cons ⟨by decide, by decide, by decide, by decide⟩
      (.cons (st' := ({}, ())) ⟨by decide, by decide, by decide, by decide⟩ ?_
        (.cons (st' := ({}, ())) ⟨by decide, by decide, by decide, by decide⟩ ?_ (.nil _ _))) (.nil _)) (.nil _),
    by decide +kernel, rfl⟩
  · intro s rest _ hs
    obtain ⟨s', h1, h2, h3⟩ := C17_temporal_delimiter exCodec _ _ {} (0 : Nat) _ rfl 1 []
      (fr 2 [] _ (by decide) (by decide)) s rest hs
    exact ⟨s', h1, h2, h3⟩
  · intro s rest _ hs
    obtain ⟨s', h1, h2, h3⟩ := C20_padding_partial exCodec _ ({}, ()) {} (0 : Nat) _ rfl 1 [9, 0]
      (fr 15 [9, 0] _ (by decide) (by decide)) s rest hs (Or.inr (Or.inr (Or.inl rfl))) (by decide)
    exact ⟨s', h1, h2, h3⟩

/-- witness: the codec of the examples is well behaved -/
example : exCodec.WellBehaved := by
  refine ⟨fun h sh st => ?_, fun h sh st => ?_, fun sz st uh sh => ?_, fun sz st uh sh => ?_⟩
  · exact Forward.bind (Streaming.F _).forward fun _ => Forward.pure _
  · exact Terminates.bind (Terminates.F _) fun _ => Terminates.pure _
  · exact Forward.bind (Streaming.F _).forward fun _ => Forward.pure _
  · exact Terminates.bind (Terminates.F _) fun _ => Terminates.pure _


/-! ## C59, C60 -/

/-- C59 is false of the code: a repetition of the pending frame header (`redundant_frame_header`, or a
second copy in a frame header OBU), legal in AV1, makes the parser panic for every payload. -/
theorem C59_redundant_header_refuted (C : Codec) (sz : Int) (st : State × C.R) (sh : SeqHeader)
    (uh : C.UH) (h : Header) (ht : h.type = 3 ∨ h.type = 7) (k : Nat) (payload : List UInt8)
    (hf : WellFramed h k payload sz) (s : BitStream) (rest : List Bool)
    (hs : unread s = encObu h k payload ++ rest)
    (hsel : Selected st.1.operatingPointIdc h) (hseen : st.1.seenFrameHeader = true) :
    ∀ r s', newObu C sz st sh uh s ≠ .ok (r, s') := by
  intro r s' e
  rw [C19_repeat_not_reparsed C sz st sh uh h (by omega) k payload hf s rest hs hsel hseen] at e
  cases e

/-- C60 is false of the code: the operating point chosen by a sequence header is forgotten at the next
frame unit.  Whatever has been parsed before (`p` is arbitrary), a frame unit that starts with an OBU of
an unknown type carrying *any* layer extension is not skipped but panics. -/
theorem C60_operating_point_persistence_refuted (C : Codec) (p : Parser C) (sz : Int) (hsz : 0 < sz)
    (kb : Nat) (h : Header) (ht : h.type = 0 ∨ h.type = 5 ∨ (8 ≤ h.type ∧ h.type ≤ 14)) (k : Nat)
    (payload : List UInt8) (hv : ValidUnit kb (encObu h k payload))
    (hf : WellFramed h k payload (((encObu h k payload).length / 8 : Nat) : Int))
    (s : BitStream) (rest : List Bool) (hs : unread s = encUnit kb (encObu h k payload) ++ rest) :
    frameUnit C sz p s = .error (.explicit "not implemented") := by
  obtain ⟨e1, u1⟩ := leb_unit hv hs
  unfold frameUnit
  obtain ⟨f, hfu⟩ : ∃ f, sz.toNat = f + 1 := ⟨sz.toNat - 1, by omega⟩
  rw [hfu]
  unfold frameUnitLoop
  rw [if_pos hsz]
  dsimp only
  rw [BM.bind_ok e1, BM.getLeb_bind]
  refine BM.bind_error ?_
  exact C21_unknown_types_refuted C _ ({}, C.newR p.rest) _ _ h ht k payload hf _ rest u1
    (Or.inr (Or.inr (Or.inl rfl)))

/-- C60, the part that holds: within one frame unit the operating point set by a sequence header OBU is
used by the OBUs after it (here: any OBU outside it is skipped, state untouched). -/
theorem C60_operating_point_persistence_partial (C : Codec) (sz1 sz2 : Int) (st : State × C.R)
    (sh : SeqHeader) (uh : C.UH)
    (h1 : Header) (ht1 : h1.type = 1) (k1 : Nat) (pl1 : List UInt8) (hf1 : WellFramed h1 k1 pl1 sz1)
    (q : SeqHeader) (level0 : Nat) (timing : Bool) (idc : Nat) (hq : ValidDialect q level0 timing idc)
    (hred : q.reducedStillPictureHeader = false)
    (trailing : List Bool) (hpay : bytesBits pl1 = encDialect q level0 timing idc ++ trailing)
    (htr : trailing ≠ [])
    (h2 : Header) (k2 : Nat) (pl2 : List UInt8) (hf2 : WellFramed h2 k2 pl2 sz2)
    (hout : ¬ Selected idc h2)
    (s : BitStream) (rest : List Bool)
    (hs : unread s = encObu h1 k1 pl1 ++ (encObu h2 k2 pl2 ++ rest)) :
    ∃ o1 o2 s', (do
        let (o1, st) ← newObu C sz1 st sh uh
        let (o2, st) ← newObu C sz2 st sh uh
        pure (o1, o2, st)) s = .ok ((o1, o2, ({ st.1 with operatingPointIdc := idc }, st.2)), s') := by
  have len : (encObu h1 k1 pl1).length = 8 * (obuOverhead h1 k1 + pl1.length) := by
    have := hf1.leb
    unfold encObu obuOverhead encHeader
    cases h1.extensionFlag <;> cases h1.hasSizeField <;>
      simp [bit, encLeb_length, bytesBits_length] <;> omega
  obtain ⟨s1, e1, d1, q1⟩ := C17_sequence_header C sz1 st sh uh h1 ht1 k1 pl1 hf1 s _ hs q level0 timing
    idc hq trailing hpay htr
  have hu : unread s1 = encObu h2 k2 pl2 ++ rest := unread_at hs d1 (by rw [q1, len])
  simp only [hred, Bool.false_eq_true, if_false] at e1
  have hsplit : (h2.type ≠ 1 ∧ h2.type ≠ 2) ∧ idc ≠ 0 ∧ h2.extensionFlag = true ∧ ¬ InOperatingPoint idc h2 := by
    refine ⟨⟨fun e => hout (Or.inl e), fun e => hout (Or.inr (Or.inl e))⟩,
      fun e => hout (Or.inr (Or.inr (Or.inl e))), ?_, fun e => hout (Or.inr (Or.inr (Or.inr (Or.inr e))))⟩
    cases hx : h2.extensionFlag with
    | true => rfl
    | false => exact absurd (Or.inr (Or.inr (Or.inr (Or.inl hx)))) hout
  obtain ⟨s2, e2, -, -⟩ := C18_dropped C sz2 ({ st.1 with operatingPointIdc := idc }, st.2) sh uh h2 k2
    pl2 hf2 s1 rest hu hsplit.1 hsplit.2.1 hsplit.2.2.1 hsplit.2.2.2
  refine ⟨⟨pl1.length, h1, q, uh, C.zeroTG⟩, ⟨pl2.length, h2, sh, uh, C.zeroTG⟩, s2, ?_⟩
  rw [BM.bind_ok e1]
  dsimp only
  rw [BM.bind_ok e2]
  rfl

/-- witness for C60: operating point 0x101 does not contain layers (1, 2) -/
example : ¬ Selected 0x101 (exHdr 5) ∧ ValidUnit 1 (encObu (exHdr 5) 1 [1, 2]) := by
  refine ⟨?_, by decide, by decide, by decide, by decide⟩
  rw [← dropObu_iff]; decide

end Gov1
