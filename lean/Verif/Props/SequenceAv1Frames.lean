import Verif.Props.SequenceAv1Stream
import Verif.Props.Decoder
/-! # C204: AV1's streams come out as frames of at most 2x2 pixels -/

namespace Gov1
open Spec

/-- A frame of at most 2x2 pixels, in at most one 8x8 block of four units (0 units for the header of a frame shown again, which has no size). -/
def SmallFrame (f : FrameSize) : Prop := f.upscaledWidth ≤ 2 ∧ f.frameHeight ≤ 2 ∧ f.miCols ≤ 2 ∧ f.miRows ≤ 2

theorem frameSize_small {sh : SeqHeader} (ht : Tiny sh) (ov : Bool) : Ensures (frameSize sh ov) SmallFrame := by
  obtain ⟨⟨t1, t2⟩, t3, t4⟩ := ht
  unfold frameSize
  refine Ensures.bind (P := fun r : Nat × Nat => r.1 ≤ 2 ∧ r.2 ≤ 2) ?_ fun r hr => Ensures.bind (superRes_good sh).2 fun x hx => Ensures.pure ?_
  · refine Ensures.ite (fun _ => ?_) (fun _ => Ensures.pure ⟨by dsimp only; omega, by dsimp only; omega⟩)
    rw [t3, t4]
    exact Ensures.bind (Ensures.F _) fun w hw => Ensures.bind (Ensures.F _) fun v hv => Ensures.pure ⟨by dsimp only; omega, by dsimp only; omega⟩
  · obtain ⟨w, v⟩ := r
    obtain ⟨use, d⟩ := x
    dsimp only at hr hx ⊢
    obtain ⟨hw, hv⟩ := hr
    have hd : 8 ≤ d ∧ d ≤ 16 := by
      cases use
      · simp only [Bool.false_eq_true, if_false] at hx; omega
      · simp only [if_true] at hx; omega
    have hq : (w * 8 + d / 2) / d ≤ 2 := by
      rw [Nat.div_le_iff_le_mul_add_pred (by omega)]
      omega
    refine ⟨hw, hv, ?_, ?_⟩
    · show 2 * (((w * 8 + d / 2) / d + 7) >>> 3) ≤ 2
      rw [Nat.shiftRight_eq_div_pow]; omega
    · show 2 * ((v + 7) >>> 3) ≤ 2
      rw [Nat.shiftRight_eq_div_pow]; omega

theorem uhRest_small (h : Header) {sh : SeqHeader} (ht : Tiny sh) (u : UHeader) (er : Bool) (st : FrameState) :
    Ensures (uhRest h sh u er st) (fun x => SmallFrame x.1.size) := by
  unfold uhRest
  refine Ensures.bindT fun x => ?_
  dsimp only
  refine Ensures.bind (P := fun x : UHeader × FrameState => SmallFrame x.1.size) ?_ fun y hy => ?_
  · refine Ensures.ite (fun _ => ?_) (fun _ => ?_)
    · unfold uhIntra
      exact Ensures.bind (frameSize_small ht _) fun fs hfs => Ensures.bindT fun _ => Ensures.bindT fun _ => Ensures.pure hfs
    · unfold uhInter
      refine Ensures.bindT fun _ => Ensures.bindT fun _ => Ensures.ite (fun _ => Ensures.fail _) fun _ => ?_
      exact Ensures.bind (frameSize_small ht _) fun fs hfs => Ensures.bindT fun _ => Ensures.bindT fun _ => Ensures.bindT fun _ =>
        Ensures.bindT fun _ => Ensures.bindT fun _ => Ensures.bindT fun _ => Ensures.pure hfs
  refine Ensures.bindT fun dfe => Ensures.ite (fun _ => Ensures.fail _) fun _ => Ensures.ite (fun _ => Ensures.fail _) fun _ => ?_
  refine Ensures.bind (P := fun x : UHeader × FrameState => SmallFrame x.1.size) ?_ fun z hz => ?_
  · unfold uhQuant
    refine Ensures.bindT fun _ => Ensures.bindT fun _ => Ensures.bindT fun _ => Ensures.bindT fun _ => Ensures.bindT fun _ => Ensures.bindT fun _ => ?_
    exact Ensures.pure hy
  · unfold uhFilters
    refine Ensures.bindT fun _ => Ensures.bindT fun _ => Ensures.bindT fun _ => Ensures.bindT fun _ => Ensures.bindT fun _ => Ensures.bindT fun _ => ?_
    refine Ensures.bindT fun _ => Ensures.bindT fun _ => Ensures.bindT fun _ => Ensures.bindT fun _ => Ensures.bindT fun _ => ?_
    exact Ensures.pure hz

theorem newUncompressedHeader_small (h : Header) {sh : SeqHeader} (ht : Tiny sh) (st : FrameState) : Ensures (newUncompressedHeader h sh st) (fun x => SmallFrame x.1.size) := by
  unfold newUncompressedHeader
  refine Ensures.ite (fun _ => uhRest_small _ ht _ _ _) fun _ => ?_
  refine Ensures.bindT fun se => Ensures.ite (fun _ => ?_) fun _ => Ensures.bindT fun x => uhRest_small _ ht _ _ _
  unfold uhShowExisting
  refine Ensures.bindT fun _ => Ensures.bindT fun _ => Ensures.bindT fun _ => Ensures.bindT fun _ => ?_
  exact Ensures.ite (fun _ => Ensures.fail _) fun _ => Ensures.pure ⟨Nat.zero_le _, Nat.zero_le _, Nat.zero_le _, Nat.zero_le _⟩

variable {C : Codec} {Q : SeqHeader → Prop} {P : C.UH → Prop}

/-- An OBU's frame header is the one it is read with, or one read with its sequence header. -/
theorem newObu_either (hC : ∀ h sh st, Q sh → Ensures (C.parseUH h sh st) (fun x => P x.1)) (sz : Int) (st : State × C.R) {sh : SeqHeader} (hQ : Q sh) (u : C.UH) :
    Ensures (newObu C sz st sh u) (fun x => P x.1.uncompressedHeader ∨ x.1.uncompressedHeader = u) := by
  have hf : ∀ h (st : State × C.R), Ensures (parseFrameHeader C h sh st) (fun x => P x.1) := by
    intro h st
    unfold parseFrameHeader
    refine Ensures.ite (fun _ => Ensures.fail _) fun _ => Ensures.bind (hC _ _ _ hQ) fun x hx => ?_
    exact Ensures.ite (fun _ => Ensures.fail _) fun _ => Ensures.pure hx
  have hp : ∀ (o : Obu C) (st : State × C.R), o.sequenceHeader = sh → o.uncompressedHeader = u →
      Ensures (obuPayload C o st) (fun x => P x.1.uncompressedHeader ∨ x.1.uncompressedHeader = u) := by
    intro o st hs hu
    unfold obuPayload
    refine Ensures.ite (fun h => Ensures.bindT fun _ => Ensures.pure (.inr hu)) fun _ => ?_
    refine Ensures.ite (fun h => Ensures.pure (.inr hu)) fun _ => ?_
    refine Ensures.ite (fun h => Ensures.bind (P := fun x => P x.1) (by rw [hs]; exact hf _ _) fun x hx => Ensures.pure (.inl hx)) fun _ => ?_
    refine Ensures.ite (fun h => Ensures.bindT fun _ => Ensures.pure (.inr hu)) fun _ => ?_
    refine Ensures.ite (fun h => Ensures.bind (P := fun x => P x.1) ?_ fun x hx => Ensures.pure (.inl hx)) fun _ => ?_
    · rw [hs]
      unfold newFrame
      refine Ensures.bindT fun _ => Ensures.bind (hf _ _) fun x hx => Ensures.bindT fun _ => Ensures.bindT fun _ => ?_
      exact Ensures.bindT fun _ => Ensures.pure hx
    refine Ensures.ite (fun h => Ensures.bindT fun _ => Ensures.pure (.inr hu)) fun _ => ?_
    exact Ensures.ite (fun h => Ensures.bindT fun _ => Ensures.pure (.inr hu)) fun _ => Ensures.fail _
  unfold newObu
  refine Ensures.bindT fun h => Ensures.bindT fun size => Ensures.bindT fun pos => ?_
  dsimp only
  refine Ensures.ite (fun _ => Ensures.bindT fun _ => Ensures.pure (.inr rfl)) fun _ => ?_
  refine Ensures.bind (hp _ st rfl rfl) fun x hx => Ensures.bindT fun _ => ?_
  exact Ensures.ite (fun _ => Ensures.bindT fun _ => Ensures.pure hx) (fun _ => Ensures.pure hx)

/-- What a parser knows of its frame headers. -/
def Frames (Q : SeqHeader → Prop) (P : C.UH → Prop) (p : Parser C) : Prop :=
  (p.sequenceHeader = seqAfter p.obus ∧ p.uncompressedHeader = uhAfter p.obus) ∧
    ∀ l1 o l2, p.obus = l1 ++ o :: l2 → Q (seqAfter l1) → P o.uncompressedHeader ∨ o.uncompressedHeader = uhAfter l1

theorem frames_unit (hC : ∀ h sh st, Q sh → Ensures (C.parseUH h sh st) (fun x => P x.1)) (fuel : Nat) (sz : Int) (st : State × C.R) (p : Parser C) (hp : Frames Q P p) :
    Ensures (frameUnitLoop C fuel sz st p) (Frames Q P) := by
  induction fuel generalizing sz st p with
  | zero =>
    unfold frameUnitLoop
    exact Ensures.ite (fun _ => Ensures.fail _) (fun _ => Ensures.pure hp)
  | succ n ih =>
    unfold frameUnitLoop
    refine Ensures.ite (fun _ => ?_) (fun _ => Ensures.pure hp)
    refine Ensures.bindT fun len => Ensures.bindT fun k => ?_
    dsimp only
    have hx : Ensures (newObu C len st p.sequenceHeader p.uncompressedHeader) (fun x => Q p.sequenceHeader → P x.1.uncompressedHeader ∨ x.1.uncompressedHeader = p.uncompressedHeader) := by
      by_cases hQ : Q p.sequenceHeader
      · exact (newObu_either hC _ _ hQ _).mono fun x hx _ => hx
      · exact fun _ _ _ _ h => absurd h hQ
    refine Ensures.bind hx fun x hx => ih _ _ _ ?_
    obtain ⟨⟨h1, h2⟩, h3⟩ := hp
    rw [h1, h2] at hx
    have hs : ∀ l1 o l2, p.obus ++ [x.1] = l1 ++ o :: l2 → Q (seqAfter l1) → P o.uncompressedHeader ∨ o.uncompressedHeader = uhAfter l1 := by
      intro l1 o l2 e
      rcases List.eq_nil_or_concat l2 with rfl | ⟨l3, y, rfl⟩
      · obtain ⟨rfl, e2⟩ := List.append_inj' e rfl
        cases e2
        exact hx
      · rw [List.concat_eq_append, ← List.cons_append, ← List.append_assoc] at e
        exact h3 l1 o l3 (List.append_inj' e rfl).1
    split
    · rename_i ht
      have ht : x.1.header.type = 1 := ht
      exact ⟨⟨by rw [seqAfter_snoc, if_pos ht], by rw [uhAfter_snoc, if_neg (by omega)]; exact h2⟩, hs⟩
    · rename_i ht
      have ht : ¬ x.1.header.type = 1 := ht
      split
      · rename_i ht'
        have ht' : x.1.header.type = 3 := ht'
        exact ⟨⟨by rw [seqAfter_snoc, if_neg ht]; exact h1, by rw [uhAfter_snoc, if_pos ht']⟩, hs⟩
      · rename_i ht'
        have ht' : ¬ x.1.header.type = 3 := ht'
        exact ⟨⟨by rw [seqAfter_snoc, if_neg ht]; exact h1, by rw [uhAfter_snoc, if_neg ht']; exact h2⟩, hs⟩

theorem frames_temporal (hC : ∀ h sh st, Q sh → Ensures (C.parseUH h sh st) (fun x => P x.1)) (fuel : Nat) (sz : Int) (p : Parser C) (hp : Frames Q P p) :
    Ensures (temporalUnitLoop C fuel sz p) (Frames Q P) := by
  induction fuel generalizing sz p with
  | zero =>
    unfold temporalUnitLoop
    exact Ensures.ite (fun _ => Ensures.fail _) (fun _ => Ensures.pure hp)
  | succ n ih =>
    unfold temporalUnitLoop
    refine Ensures.ite (fun _ => ?_) (fun _ => Ensures.pure hp)
    refine Ensures.bindT fun len => Ensures.bindT fun k => ?_
    exact Ensures.bind (frames_unit hC _ _ _ p hp) fun q hq => ih _ _ hq

theorem frames_stream (hC : ∀ h sh st, Q sh → Ensures (C.parseUH h sh st) (fun x => P x.1)) (fuel : Nat) (p : Parser C) (hp : Frames Q P p) :
    Ensures (bitstreamLoop C fuel p) (Frames Q P) := by
  induction fuel generalizing p with
  | zero =>
    intro s a s' h
    unfold bitstreamLoop at h
    split at h
    · cases h
    · cases h; exact hp
  | succ n ih =>
    intro s a s' h
    unfold bitstreamLoop at h
    split at h
    · exact (Ensures.bindT fun sz => Ensures.bind (frames_temporal hC _ _ p hp) fun q hq => ih q hq) s a s' h
    · cases h; exact hp

/-- In every accepted stream: if the sequence header in effect where an OBU starts satisfies `Q`, its frame header satisfies `P` or is that of the last frame header OBU. -/
theorem stream_frames (hC : ∀ h sh st, Q sh → Ensures (C.parseUH h sh st) (fun x => P x.1)) {data : List UInt8} {l1 l2 : List (Obu C)} {o : Obu C} {s : BitStream}
    (h : parseStream C (newBitStream data) = .ok (l1 ++ o :: l2, s)) (hQ : Q (seqAfter l1)) : P o.uncompressedHeader ∨ o.uncompressedHeader = uhAfter l1 := by
  unfold parseStream at h
  obtain ⟨p, s1, h1, h2⟩ := BM.bind_eq_ok.mp h
  have hk := frames_stream hC _ _ ⟨⟨rfl, rfl⟩, by intro l1 o l2 h; cases l1 <;> cases h⟩ _ _ _ h1
  have e : p.obus = l1 ++ o :: l2 := congrArg Prod.fst (Except.ok.inj h2)
  exact hk.2 l1 o l2 e hQ

theorem seqAfter_append (m l : List (Obu C)) (h : ∀ y ∈ m, y.header.type ≠ 1) : seqAfter (l ++ m) = seqAfter l := by
  induction m generalizing l with
  | nil => rw [List.append_nil]
  | cons y m ih =>
    have := ih (l ++ [y]) fun z hz => h z (List.mem_cons_of_mem _ hz)
    rw [List.append_assoc] at this
    rw [show l ++ y :: m = l ++ ([y] ++ m) from rfl, this, seqAfter_snoc, if_neg (h y (List.mem_cons_self ..))]

/-- The frame header in effect comes from one of the OBUs, or there has been none. -/
theorem uhAfter_mem (l : List (Obu C)) : uhAfter l = C.zeroUH ∨ ∃ y ∈ l, y.header.type = 3 ∧ uhAfter l = y.uncompressedHeader := by
  unfold uhAfter lastOf
  cases e : (l.filter (fun o => decide (o.header.type = 3))).getLast? with
  | none => exact .inl rfl
  | some y =>
    have hm := List.mem_of_getLast? e
    rw [List.mem_filter] at hm
    exact .inr ⟨y, hm.1, by simpa using hm.2, rfl⟩

/-- All frame headers up to the next sequence header. -/
theorem stream_frames_all (hC : ∀ h sh st, Q sh → Ensures (C.parseUH h sh st) (fun x => P x.1)) (h0 : P C.zeroUH) {data : List UInt8} {l : List (Obu C)} (hl : ∀ y ∈ l, y.header.type ≠ 3)
    (hQ : Q (seqAfter l)) {more : List (Obu C)} {s : BitStream} (e : parseStream C (newBitStream data) = .ok (l ++ more, s)) (n : Nat) :
    ∀ m x m', m.length = n → more = m ++ x :: m' → (∀ y ∈ m, y.header.type ≠ 1) → P x.uncompressedHeader := by
  induction n using Nat.strongRecOn with
  | _ n ih =>
    intro m x m' hn hm hy
    have e' := e
    rw [hm, ← List.append_assoc] at e'
    rcases stream_frames hC e' (by rw [seqAfter_append m l hy]; exact hQ) with h | h
    · exact h
    · rw [h]
      rcases uhAfter_mem (l ++ m) with h1 | ⟨y, h1, h2, h3⟩
      · rw [h1]; exact h0
      · rw [h3]
        rcases List.mem_append.mp h1 with h1 | h1
        · exact absurd h2 (hl y h1)
        · obtain ⟨a, b, rfl⟩ := List.append_of_mem h1
          refine ih a.length ?_ a y (b ++ x :: m') rfl (by rw [hm]; simp) fun z hz => hy z (by simp [hz])
          rw [← hn, List.length_append, List.length_cons]; omega

/-- **C204** is false of the code for AV1's own streams: of every stream that starts with a temporal delimiter and a reduced or ordinary (`Ordinary`) AV1 sequence header, whatever comes after them, the decoder gets, if it does not
panic, no frame larger than 2x2 pixels up to the next sequence header OBU: not from a frame header OBU, not from a frame OBU, and with or without size fields in the frame header. -/
theorem C204_av1_frames_refuted (grow : Nat → Nat) (steps : Nat) (delimiter seq : CodedObu) (hdel : delimiter.Ok 2) (hseq : seq.Ok 1) (bits : List Bool) (hb : Av1Sequence bits)
    (hpay : HoldsBits seq.payload bits) (kt kf : Nat) (l : List (Nat × List Bool)) (fs : List (Nat × List (Nat × List Bool)))
    (ts : List (Nat × List (Nat × List (Nat × List Bool))))
    (hvf : ValidUnit kf (encFrameUnit ((delimiter.lengthBytes, delimiter.bits) :: (seq.lengthBytes, seq.bits) :: l)))
    (hvt : ValidUnit kt (encTemporalUnit ((kf, (delimiter.lengthBytes, delimiter.bits) :: (seq.lengthBytes, seq.bits) :: l) :: fs))) (data : List UInt8)
    (hdata : bytesBits data = encStream ((kt, (kf, (delimiter.lengthBytes, delimiter.bits) :: (seq.lengthBytes, seq.bits) :: l) :: fs) :: ts)) (obus : List (Obu (decoder grow steps))) (s : BitStream)
    (e : parseStream (decoder grow steps) (newBitStream data) = .ok (obus, s)) :
    ∃ o1 o2 more, obus = o1 :: o2 :: more ∧ o1.header.type = 2 ∧ o2.header.type = 1 ∧
      ∀ m x m', more = m ++ x :: m' → (∀ y ∈ m, y.header.type ≠ 1) → SmallFrame (DecUH.hdr x.uncompressedHeader).size := by
  have hm := stream_meets (C := decoder grow steps) hdel.validUnit hseq.validUnit hvf hvt
    (hdel.parses fun s rest hs => C17_temporal_delimiter (decoder grow steps) _ _ _ _ _ hdel.type _ _ hdel.framed s rest hs) (sequence_meets hseq hb hpay) data hdata obus s e
  obtain ⟨o1, o, more, h0, h1, h2, he⟩ : ∃ o1 o more, o1.header = delimiter.header ∧ o.header = seq.header ∧ Tiny o.sequenceHeader ∧ obus = o1 :: o :: more := by
    obtain ⟨o, more, ⟨h1, h2⟩, he⟩ := hm
    exact ⟨_, o, more, rfl, h1, h2, he⟩
  have ht1 : o1.header.type = 2 := by rw [h0]; exact hdel.type
  have ht2 : o.header.type = 1 := by rw [h1]; exact hseq.type
  refine ⟨o1, o, more, he, ht1, ht2, ?_⟩
  intro m x m' hm hy
  refine stream_frames_all (C := decoder grow steps) (Q := Tiny) (P := fun u => SmallFrame (DecUH.hdr u).size) ?_ ⟨Nat.zero_le _, Nat.zero_le _, Nat.zero_le _, Nat.zero_le _⟩
    (l := [o1, o]) ?_ ?_ (by rw [he] at e; exact e) m.length m x m' rfl hm hy
  · intro h sh st hQ
    show Ensures (decodeHeader h sh st) _
    unfold decodeHeader
    exact Ensures.bind (newUncompressedHeader_small h hQ _) fun x hx => Ensures.pure hx
  · intro y hy
    rcases List.mem_cons.mp hy with rfl | hy
    · omega
    · rw [List.mem_singleton.mp hy]; omega
  · have := seqAfter_snoc (C := decoder grow steps) [o1] o
    rw [if_pos ht2] at this
    show Tiny (seqAfter ([o1] ++ [o]))
    rw [this]; exact h2


/-- Its conditions are met by a stream with the sequence header of 1920x1080 frames and the header of a shown key frame, which the program reads: as one of a frame of one pixel. -/
example : (bareObu 2 []).Ok 2 ∧ (bareObu 1 [0, 0, 0, 66, 171, 191, 195, 115, 9, 228, 1]).Ok 1 ∧ Av1Sequence (encSequenceAv1 exHd false [⟨0, 8, 0, none, none⟩]) ∧
    HoldsBits (bareObu 1 [0, 0, 0, 66, 171, 191, 195, 115, 9, 228, 1]).payload (encSequenceAv1 exHd false [⟨0, 8, 0, none, none⟩]) ∧
    bytesBits [30, 29, 1, 16, 12, 8, 0, 0, 0, 66, 171, 191, 195, 115, 9, 228, 1, 13, 24, 16, 0, 0, 0, 0, 0, 0, 0, 0, 0, 0, 0] =
      encStream [(1, [(1, [(1, (bareObu 2 []).bits), (1, (bareObu 1 [0, 0, 0, 66, 171, 191, 195, 115, 9, 228, 1]).bits), (1, (bareObu 3 [16, 0, 0, 0, 0, 0, 0, 0, 0, 0, 0, 0]).bits)])])] ∧
    (match parseStream (decoder (fun _ => 8) 1000) (newBitStream [30, 29, 1, 16, 12, 8, 0, 0, 0, 66, 171, 191, 195, 115, 9, 228, 1, 13, 24, 16, 0, 0, 0, 0, 0, 0, 0, 0, 0, 0, 0]) with
     | .ok (obus, _) => obus.map fun o => (o.header.type, (DecUH.hdr o.uncompressedHeader).showFrame, (DecUH.hdr o.uncompressedHeader).size.upscaledWidth, (DecUH.hdr o.uncompressedHeader).size.frameHeight)
     | .error _ => []) = [(2, false, 0, 0), (1, false, 0, 0), (3, true, 1, 1)] := by
  refine ⟨bareObu_ok (by decide) (by decide), bareObu_ok (by decide) (by decide), ⟨exHd, by decide, .inr ⟨false, _, .inl ⟨rfl, _, rfl, by decide⟩, rfl⟩⟩, ⟨0, by decide +kernel⟩, by decide +kernel, by decide +kernel⟩

end Gov1
