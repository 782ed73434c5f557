import Verif.Props.SequenceAv1
import Verif.Props.HeaderStream
import Verif.Props.InEffect
import Verif.Props.StreamFails
/-! # C204: AV1's streams are misread -/

namespace Gov1
open Spec

variable {C : Codec}

/-- The parser only adds OBUs. -/
theorem unit_adds (fuel : Nat) (sz : Int) (st : State × C.R) (p : Parser C) : Ensures (frameUnitLoop C fuel sz st p) (fun q => p.obus <+: q.obus) := by
  induction fuel generalizing sz st p with
  | zero =>
    unfold frameUnitLoop
    exact Ensures.ite (fun _ => Ensures.fail _) (fun _ => Ensures.pure (List.prefix_refl _))
  | succ n ih =>
    unfold frameUnitLoop
    refine Ensures.ite (fun _ => ?_) (fun _ => Ensures.pure (List.prefix_refl _))
    refine Ensures.bindT fun len => Ensures.bindT fun k => ?_
    dsimp only
    refine Ensures.bindT fun x => (ih _ _ _).mono fun q hq => ?_
    have h1 : p.obus <+: p.obus ++ [x.1] := List.prefix_append _ _
    refine h1.trans ?_
    split at hq
    · exact hq
    · split at hq <;> exact hq

theorem temporal_adds (fuel : Nat) (sz : Int) (p : Parser C) : Ensures (temporalUnitLoop C fuel sz p) (fun q => p.obus <+: q.obus) := by
  induction fuel generalizing sz p with
  | zero =>
    unfold temporalUnitLoop
    exact Ensures.ite (fun _ => Ensures.fail _) (fun _ => Ensures.pure (List.prefix_refl _))
  | succ n ih =>
    unfold temporalUnitLoop
    refine Ensures.ite (fun _ => ?_) (fun _ => Ensures.pure (List.prefix_refl _))
    refine Ensures.bindT fun len => Ensures.bindT fun k => ?_
    exact Ensures.bind (unit_adds _ _ _ p) fun q hq => (ih _ _).mono fun r hr => hq.trans hr

theorem stream_adds (fuel : Nat) (p : Parser C) : Ensures (bitstreamLoop C fuel p) (fun q => p.obus <+: q.obus) := by
  induction fuel generalizing p with
  | zero =>
    intro s a s' h
    unfold bitstreamLoop at h
    split at h
    · cases h
    · cases h; exact List.prefix_refl _
  | succ n ih =>
    intro s a s' h
    unfold bitstreamLoop at h
    split at h
    · exact (Ensures.bindT fun sz => Ensures.bind (temporal_adds _ _ p) fun q hq => (ih q).mono fun r hr => hq.trans hr) s a s' h
    · cases h; exact List.prefix_refl _

/-- If the OBU is read, it satisfies `P`. -/
def ObuMeets (C : Codec) (st : State × C.R) (sh : SeqHeader) (uh : C.UH) (b : List Bool) (P : Obu C → Prop) : Prop :=
  ∀ (s : BitStream) (rest : List Bool), unread s = b ++ rest → ∀ o st' s', newObu C ((b.length / 8 : Nat) : Int) st sh uh s = .ok ((o, st'), s') → P o

/-- A frame unit of an OBU that is read and one that satisfies `P` if it is. -/
theorem unit_meets {st st' : State × C.R} {p : Parser C} {k1 k2 : Nat} {b1 b2 : List Bool} {l : List (Nat × List Bool)} {o1 : Obu C} {P : Obu C → Prop} (hv1 : ValidUnit k1 b1) (hv2 : ValidUnit k2 b2)
    (h1 : ObuParses C st p.sequenceHeader p.uncompressedHeader b1 o1 st') (h2 : ObuMeets C st' (afterObu p o1).sequenceHeader (afterObu p o1).uncompressedHeader b2 P) (fuel : Nat) (sz : Int)
    (hsz : (((encFrameUnit ((k1, b1) :: (k2, b2) :: l)).length / 8 : Nat) : Int) ≤ sz) (hf : sz.toNat ≤ fuel) (s : BitStream) (rest : List Bool) (h8 : s.pos % 8 = 0)
    (hs : unread s = encFrameUnit ((k1, b1) :: (k2, b2) :: l) ++ rest) (q : Parser C) (s' : BitStream) (e : frameUnitLoop C fuel sz st p s = .ok (q, s')) :
    ∃ o, P o ∧ (p.obus ++ [o1, o]) <+: q.obus := by
  have l1 := encUnit_length hv1
  have l2 := encUnit_length hv2
  unfold encFrameUnit encFrameUnit at hsz hs
  rw [List.length_append, List.length_append] at hsz
  rw [List.append_assoc] at hs
  have hk1 := hv1.1
  have hk2 := hv2.1
  obtain ⟨f, rfl⟩ : ∃ f, fuel = f + 1 := ⟨fuel - 1, by omega⟩
  unfold frameUnitLoop at e
  rw [if_pos (by omega)] at e
  dsimp only at e
  obtain ⟨e1, u1⟩ := leb_unit hv1 hs
  obtain ⟨s2, e2, d2, p2⟩ := h1 _ _ (by show (s.pos + 8 * k1) % 8 = 0; omega) u1
  have u2 := unread_at u1 d2 p2
  rw [BM.bind_ok e1, BM.getLeb_bind, BM.bind_ok e2] at e
  dsimp only at e
  have hp : (if o1.header.type = OBU_SEQUENCE_HEADER then
        { p with obus := p.obus ++ [o1], sequenceHeader := o1.sequenceHeader }
      else if o1.header.type = OBU_FRAME_HEADER then
        { p with obus := p.obus ++ [o1], uncompressedHeader := o1.uncompressedHeader }
      else { p with obus := p.obus ++ [o1] }) = afterObu p o1 := by
    unfold afterObu
    simp only [OBU_SEQUENCE_HEADER, OBU_FRAME_HEADER]
    by_cases h1 : o1.header.type = 1
    · have : ¬ o1.header.type = 3 := by omega
      simp [h1]
    · by_cases h3 : o1.header.type = 3 <;> simp [h1, h3]
  rw [hp] at e
  have hb1 := hv1.2.2.1
  obtain ⟨f, rfl⟩ : ∃ g, f = g + 1 := ⟨f - 1, by omega⟩
  unfold frameUnitLoop at e
  rw [if_pos (by omega)] at e
  dsimp only at e
  rw [List.append_assoc] at u2
  obtain ⟨e3, u3⟩ := leb_unit hv2 u2
  rw [BM.bind_ok e3, BM.getLeb_bind] at e
  obtain ⟨⟨o, st2⟩, s4, e4, e5⟩ := BM.bind_eq_ok.mp e
  refine ⟨o, h2 _ _ u3 _ _ _ e4, ?_⟩
  have := unit_adds _ _ _ _ _ _ _ e5
  refine List.IsPrefix.trans (l₂ := p.obus ++ [o1] ++ [o]) (by simp) ?_
  split at this
  · exact this
  · split at this <;> exact this

/-- A stream that starts with such a frame unit. -/
theorem stream_meets {st' : State × C.R} {kt kf k1 k2 : Nat} {b1 b2 : List Bool} {l : List (Nat × List Bool)} {fs : List (Nat × List (Nat × List Bool))}
    {ts : List (Nat × List (Nat × List (Nat × List Bool)))} {o1 : Obu C} {P : Obu C → Prop} (hv1 : ValidUnit k1 b1) (hv2 : ValidUnit k2 b2)
    (hvf : ValidUnit kf (encFrameUnit ((k1, b1) :: (k2, b2) :: l))) (hvt : ValidUnit kt (encTemporalUnit ((kf, (k1, b1) :: (k2, b2) :: l) :: fs)))
    (h1 : ObuParses C ({}, C.newR C.startR) {} C.zeroUH b1 o1 st')
    (h2 : ObuMeets C st' (if o1.header.type = 1 then o1.sequenceHeader else {}) (if o1.header.type = 3 then o1.uncompressedHeader else C.zeroUH) b2 P) (data : List UInt8)
    (hdata : bytesBits data = encStream ((kt, (kf, (k1, b1) :: (k2, b2) :: l) :: fs) :: ts)) (obus : List (Obu C)) (s' : BitStream) (e : parseStream C (newBitStream data) = .ok (obus, s')) :
    ∃ o more, P o ∧ obus = o1 :: o :: more := by
  have hlt := encUnit_length hvt
  have hlf := encUnit_length hvf
  have hk := hvt.1
  have hkf := hvf.1
  have hl := congrArg List.length hdata
  unfold encStream at hl hdata
  rw [bytesBits_length, List.length_append] at hl
  unfold parseStream at e
  obtain ⟨q, s1, e1, e2⟩ := BM.bind_eq_ok.mp e
  have e2 : q.obus = obus := congrArg Prod.fst (Except.ok.inj e2)
  have e1 : bitstreamLoop C (data.length + 1 + 1) { rest := C.startR, uncompressedHeader := C.zeroUH } (newBitStream data) = .ok (q, s1) := e1
  rw [bitstreamLoop_succ, if_pos (by unfold moreData; simp only [bne_iff_ne, ne_eq, newBitStream]; omega)] at e1
  obtain ⟨a1, u1⟩ := leb_unit hvt (s := newBitStream data) (rest := encStream ts) (by simpa [unread, newBitStream] using hdata)
  rw [BM.bind_ok a1] at e1
  obtain ⟨q1, s2, e3, e4⟩ := BM.bind_eq_ok.mp e1
  have hq := stream_adds _ _ _ _ _ e4
  unfold temporalUnit at e3
  have hlen : (encTemporalUnit ((kf, (k1, b1) :: (k2, b2) :: l) :: fs)).length = (encUnit kf (encFrameUnit ((k1, b1) :: (k2, b2) :: l))).length + (encTemporalUnit fs).length := by
    show (encUnit kf _ ++ encTemporalUnit fs).length = _
    rw [List.length_append]
  obtain ⟨f, hf⟩ : ∃ f, (((encTemporalUnit ((kf, (k1, b1) :: (k2, b2) :: l) :: fs)).length / 8 : Nat) : Int).toNat = f + 1 :=
    ⟨(encTemporalUnit ((kf, (k1, b1) :: (k2, b2) :: l) :: fs)).length / 8 - 1, by omega⟩
  rw [hf] at e3
  unfold temporalUnitLoop at e3
  rw [if_pos (by omega)] at e3
  dsimp only at e3
  have u1 : unread _ = encUnit kf (encFrameUnit ((k1, b1) :: (k2, b2) :: l)) ++ encTemporalUnit fs ++ encStream ts := u1
  rw [List.append_assoc] at u1
  obtain ⟨a2, u2⟩ := leb_unit hvf u1
  rw [BM.bind_ok a2, BM.getLeb_bind] at e3
  obtain ⟨q2, s3, e5, e6⟩ := BM.bind_eq_ok.mp e3
  have hq1 := temporal_adds _ _ _ _ _ _ e6
  unfold frameUnit at e5
  have h2' : ObuMeets C st' (afterObu (C := C) ⟨C.startR, {}, C.zeroUH, []⟩ o1).sequenceHeader (afterObu (C := C) ⟨C.startR, {}, C.zeroUH, []⟩ o1).uncompressedHeader b2 P := h2
  have h8 : (0 + 8 * kt + 8 * kf) % 8 = 0 := by omega
  have hm := unit_meets (C := C) (p := ⟨C.startR, {}, C.zeroUH, []⟩) (l := l) hv1 hv2 h1 h2' ((encFrameUnit ((k1, b1) :: (k2, b2) :: l)).length / 8)
    (((encFrameUnit ((k1, b1) :: (k2, b2) :: l)).length / 8 : Nat) : Int) (Int.le_refl _) (by omega) _ _ h8 u2 q2 s3 (by rw [← e5, Int.toNat_natCast])
  obtain ⟨o, hP, hpre⟩ := hm
  obtain ⟨more, hm⟩ := (hpre.trans hq1).trans hq
  exact ⟨o, more, hP, by rw [← e2, ← hm]; simp⟩

/-- An OBU with an AV1 sequence header. -/
theorem sequence_meets {st : State × C.R} {sh : SeqHeader} {uh : C.UH} {o : CodedObu} (ho : o.Ok 1) {bits : List Bool} (hb : Av1Sequence bits) (hpay : HoldsBits o.payload bits) :
    ObuMeets C st sh uh o.bits (fun x => x.header = o.header ∧ Tiny x.sequenceHeader) := by
  intro s rest hs x st' s' e
  obtain ⟨n, hn⟩ := hpay
  obtain ⟨e1, u1⟩ := newObu_prefix C _ st sh uh o.header o.sizeBytes o.payload ho.framed s rest hs
  rw [e1] at e
  rw [hn, List.append_assoc] at u1
  have ht : o.header.type = 1 := ho.type
  have hd : dropObu st.1.operatingPointIdc o.header = false := by simp [dropObu, ht, OBU_SEQUENCE_HEADER]
  unfold obuRest at e
  rw [hd] at e
  obtain ⟨a, s1, f1, f2⟩ := BM.bind_eq_ok.mp e
  obtain ⟨rfl, rfl⟩ : a = (afterSize s o.header o.sizeBytes).pos ∧ s1 = afterSize s o.header o.sizeBytes := by cases f1; exact ⟨rfl, rfl⟩
  simp only [Bool.false_eq_true, if_false] at f2
  obtain ⟨⟨y, sty⟩, s2, f3, f4⟩ := BM.bind_eq_ok.mp f2
  have hy : y.header = o.header ∧ Tiny y.sequenceHeader := by
    rw [obuPayload_1 _ _ _ ht] at f3
    obtain ⟨⟨r, st1⟩, s3, g1, g2⟩ := BM.bind_eq_ok.mp f3
    have := av1_tiny hb st.1 _ _ u1 (r, st1) s3 g1
    cases g2
    exact ⟨rfl, this⟩
  have hx : x = y := by
    obtain ⟨_, _, _, f5⟩ := BM.bind_eq_ok.mp f4
    split at f5
    · obtain ⟨_, _, _, f6⟩ := BM.bind_eq_ok.mp f5
      cases f6; rfl
    · cases f5; rfl
  rw [hx]; exact hy

/-- **C204** is false of the code for AV1's own sequence headers.  Of every stream that starts with a temporal delimiter and a reduced or ordinary (`Ordinary`) AV1 sequence header, whatever comes after them, the program, if it does not
panic, gets a sequence header of frames of at most 2x2 pixels, and decodes everything before the next sequence header OBU with it. -/
theorem C204_av1_refuted (C : Codec) (delimiter seq : CodedObu) (hdel : delimiter.Ok 2) (hseq : seq.Ok 1) (bits : List Bool) (hb : Av1Sequence bits)
    (hpay : HoldsBits seq.payload bits) (kt kf : Nat) (l : List (Nat × List Bool)) (fs : List (Nat × List (Nat × List Bool)))
    (ts : List (Nat × List (Nat × List (Nat × List Bool))))
    (hvf : ValidUnit kf (encFrameUnit ((delimiter.lengthBytes, delimiter.bits) :: (seq.lengthBytes, seq.bits) :: l)))
    (hvt : ValidUnit kt (encTemporalUnit ((kf, (delimiter.lengthBytes, delimiter.bits) :: (seq.lengthBytes, seq.bits) :: l) :: fs))) (data : List UInt8)
    (hdata : bytesBits data = encStream ((kt, (kf, (delimiter.lengthBytes, delimiter.bits) :: (seq.lengthBytes, seq.bits) :: l) :: fs) :: ts)) (obus : List (Obu C)) (s : BitStream)
    (e : parseStream C (newBitStream data) = .ok (obus, s)) :
    ∃ o1 o2 more, obus = o1 :: o2 :: more ∧ o2.header = seq.header ∧ o2.sequenceHeader.maxFrameWidthMinusOne ≤ 1 ∧ o2.sequenceHeader.maxFrameHeightMinusOne ≤ 1 ∧
      ∀ m x m', more = m ++ x :: m' → (∀ y ∈ m ++ [x], y.header.type ≠ 1) → x.sequenceHeader = o2.sequenceHeader := by
  obtain ⟨o1, o, more, ⟨h1, ⟨h2, h3⟩, -⟩, he⟩ : ∃ o1 o more, (o.header = seq.header ∧ Tiny o.sequenceHeader) ∧ obus = o1 :: o :: more := ⟨_, stream_meets (C := C) hdel.validUnit hseq.validUnit hvf hvt
    (hdel.parses fun s rest hs => C17_temporal_delimiter C _ _ _ _ _ hdel.type _ _ hdel.framed s rest hs) (sequence_meets hseq hb hpay) data hdata obus s e⟩
  refine ⟨o1, o, more, he, h1, h2, h3, ?_⟩
  intro m x m' hm hy
  rw [he, hm] at e
  have hk := (C194_headers_partial C data (o1 :: o :: m) m' x s e).1 (hy x (by simp))
  have hlast : ∀ (m : List (Obu C)) (l : List (Obu C)), (∀ y ∈ m, y.header.type ≠ 1) → seqAfter (l ++ m) = seqAfter l := by
    intro m
    induction m with
    | nil => intro l _; rw [List.append_nil]
    | cons y m ih =>
      intro l h
      have := ih (l ++ [y]) fun z hz => h z (List.mem_cons_of_mem _ hz)
      rw [List.append_assoc] at this
      rw [show l ++ y :: m = l ++ ([y] ++ m) from rfl, this, seqAfter_snoc, if_neg (h y (List.mem_cons_self ..))]
  rw [hk]
  have := hlast m [o1, o] fun y h => hy y (List.mem_append_left _ h)
  refine this.trans ((seqAfter_snoc [o1] o).trans (if_pos ?_))
  rw [h1]; exact hseq.type

/-- Its conditions are met by a stream of one temporal unit with the sequence header of 1920x1080 frames, which the program reads: as one of frames of one pixel. -/
example : (bareObu 2 []).Ok 2 ∧ (bareObu 1 [0, 0, 0, 66, 171, 191, 195, 115, 9, 228, 1]).Ok 1 ∧ Av1Sequence (encSequenceAv1 exHd false [⟨0, 8, 0, none, none⟩]) ∧
    HoldsBits (bareObu 1 [0, 0, 0, 66, 171, 191, 195, 115, 9, 228, 1]).payload (encSequenceAv1 exHd false [⟨0, 8, 0, none, none⟩]) ∧
    bytesBits [16, 15, 1, 16, 12, 8, 0, 0, 0, 66, 171, 191, 195, 115, 9, 228, 1] =
      encStream [(1, [(1, [(1, (bareObu 2 []).bits), (1, (bareObu 1 [0, 0, 0, 66, 171, 191, 195, 115, 9, 228, 1]).bits)])])] ∧
    (match parseStream exCodec (newBitStream [16, 15, 1, 16, 12, 8, 0, 0, 0, 66, 171, 191, 195, 115, 9, 228, 1]) with
     | .ok (obus, _) => obus.map fun o => (o.header.type, o.sequenceHeader.maxFrameWidthMinusOne, o.sequenceHeader.maxFrameHeightMinusOne)
     | .error _ => []) = [(2, 0, 0), (1, 0, 0)] := by
  refine ⟨bareObu_ok (by decide) (by decide), bareObu_ok (by decide) (by decide), ⟨exHd, by decide, .inr ⟨false, _, .inl ⟨rfl, _, rfl, by decide⟩, rfl⟩⟩, ⟨0, by decide +kernel⟩, by decide +kernel, by decide +kernel⟩

end Gov1
