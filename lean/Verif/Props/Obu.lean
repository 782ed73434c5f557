import Verif.Lemmas.Obu
import Verif.Props.SeqHeader
/-!
# C17–C21: OBU framing, operating point selection, frame header sequencing, padding, unknown types
(internal/obu/obu.go)
-/
namespace Gov1
open Spec

/-- What remains of the stream: the same data, positioned at the end of the OBU. -/
def AtEnd (s s' : BitStream) (h : Header) (k : Nat) (payload : List UInt8) : Prop :=
  s'.data = s.data ∧ s'.pos = s.pos + 8 * (obuOverhead h k + payload.length)

theorem afterSize_bits {s : BitStream} {h : Header} {k : Nat} {payload : List UInt8} {rest : List Bool}
    (hu : unread (afterSize s h k) = bytesBits payload ++ rest) :
    8 * payload.length ≤ (unread (afterSize s h k)).length := by
  rw [hu, List.length_append, bytesBits_length]; omega

/-! ## C17 framing -/

/-- C17: a temporal delimiter, whatever its extension and payload bytes, clears the frame-header flag
and is consumed exactly. -/
theorem C17_temporal_delimiter (C : Codec) (sz : Int) (st : State × C.R) (sh : SeqHeader) (uh : C.UH)
    (h : Header) (ht : h.type = 2) (k : Nat) (payload : List UInt8)
    (hf : WellFramed h k payload sz) (s : BitStream) (rest : List Bool)
    (hs : unread s = encObu h k payload ++ rest) :
    ∃ s', newObu C sz st sh uh s = .ok
        ((⟨payload.length, h, sh, uh, C.zeroTG⟩, ({ st.1 with seenFrameHeader := false }, st.2)), s') ∧
      AtEnd s s' h k payload := by
  obtain ⟨e, hu⟩ := newObu_prefix C sz st sh uh h k payload hf s rest hs
  rw [e]
  have hp : obuPayload C ⟨payload.length, h, sh, uh, C.zeroTG⟩ st (afterSize s h k)
      = .ok ((⟨payload.length, h, sh, uh, C.zeroTG⟩, ({ st.1 with seenFrameHeader := false }, st.2)), afterSize s h k) := by
    rw [obuPayload_2 _ _ _ ht]
    rfl
  rw [obuRest_exact C st _ sh uh h payload.length _ _ _ (Or.inr (Or.inl ht))
    (by simp [ht, OBU_TILE_GROUP, OBU_TILE_LIST, OBU_FRAME]) hp rfl (by omega) (fun _ => rfl)
    (afterSize_bits hu)]
  refine ⟨_, rfl, rfl, ?_⟩
  simp only [afterSize]; omega

/-- C17: a sequence header OBU whose payload starts with a header of the parser's dialect and has at
least one more bit: the header is stored, the operating point mask installed, the OBU consumed
exactly, whatever the trailing bits are and whatever operating point was selected before. -/
theorem C17_sequence_header (C : Codec) (sz : Int) (st : State × C.R) (sh : SeqHeader) (uh : C.UH)
    (h : Header) (ht : h.type = 1) (k : Nat) (payload : List UInt8)
    (hf : WellFramed h k payload sz) (s : BitStream) (rest : List Bool)
    (hs : unread s = encObu h k payload ++ rest)
    (q : SeqHeader) (level0 : Nat) (timing : Bool) (idc : Nat) (hq : ValidDialect q level0 timing idc)
    (trailing : List Bool) (hpay : bytesBits payload = encDialect q level0 timing idc ++ trailing)
    (htr : trailing ≠ []) :
    ∃ s', newObu C sz st sh uh s = .ok
        ((⟨payload.length, h, q, uh, C.zeroTG⟩,
          (if q.reducedStillPictureHeader then st.1 else { st.1 with operatingPointIdc := idc }, st.2)), s') ∧
      AtEnd s s' h k payload := by
  obtain ⟨e, hu⟩ := newObu_prefix C sz st sh uh h k payload hf s rest hs
  rw [e]
  have hu' := hu
  rw [hpay, List.append_assoc] at hu'
  have hsq := C23_dialect_roundtrip_partial st.1 q level0 timing idc hq _ _ hu'
  have hp : obuPayload C ⟨payload.length, h, sh, uh, C.zeroTG⟩ st (afterSize s h k)
      = .ok ((⟨payload.length, h, q, uh, C.zeroTG⟩,
          (if q.reducedStillPictureHeader then st.1 else { st.1 with operatingPointIdc := idc }, st.2)),
          (afterSize s h k).advance (encDialect q level0 timing idc).length) := by
    rw [obuPayload_1 _ _ _ ht, BM.bind_ok hsq]
    rfl
  have hl : (encDialect q level0 timing idc).length < 8 * payload.length := by
    have := congrArg List.length hpay
    rw [bytesBits_length, List.length_append] at this
    have := List.length_pos_iff.mpr htr
    omega
  rw [obuRest_exact C st _ sh uh h payload.length _ _ _ (Or.inl ht)
    (by simp [ht, OBU_TILE_GROUP, OBU_TILE_LIST, OBU_FRAME]) hp rfl (by simp; omega) (by omega)
    (afterSize_bits hu)]
  refine ⟨_, rfl, rfl, ?_⟩
  simp only [afterSize]; omega

/-- C17: a (redundant) frame header OBU in the selected operating point, with no frame header pending,
whose payload starts with bits the frame header parser accepts and has at least one more bit: parsed,
recorded as pending, and consumed exactly. -/
theorem C17_frame_header (C : Codec) (sz : Int) (st : State × C.R) (sh : SeqHeader) (uh : C.UH)
    (h : Header) (ht : h.type = 3 ∨ h.type = 7) (k : Nat) (payload : List UInt8)
    (hf : WellFramed h k payload sz) (s : BitStream) (rest : List Bool)
    (hs : unread s = encObu h k payload ++ rest)
    (hsel : Selected st.1.operatingPointIdc h) (hseen : st.1.seenFrameHeader = false)
    (u : C.UH) (st1 : State × C.R) (bits trailing : List Bool)
    (hparse : Reads (C.parseUH h sh ({ st.1 with seenFrameHeader := true }, st.2)) bits (u, st1))
    (hshow : C.showExisting u = false)
    (hpay : bytesBits payload = bits ++ trailing) (htr : trailing ≠ []) :
    ∃ s', newObu C sz st sh uh s = .ok
        ((⟨payload.length, h, sh, if h.type = 3 then u else uh, C.zeroTG⟩,
          ({ st1.1 with tileNum := 0, seenFrameHeader := true }, st1.2)), s') ∧
      AtEnd s s' h k payload := by
  obtain ⟨e, hu⟩ := newObu_prefix C sz st sh uh h k payload hf s rest hs
  rw [e]
  have hu' := hu
  rw [hpay, List.append_assoc] at hu'
  have hfh : parseFrameHeader C h sh st (afterSize s h k)
      = .ok ((u, ({ st1.1 with tileNum := 0, seenFrameHeader := true }, st1.2)),
          (afterSize s h k).advance bits.length) := by
    unfold parseFrameHeader
    rw [hseen]
    simp only [Bool.false_eq_true, if_false]
    rw [BM.bind_ok (hparse _ _ hu')]
    simp [hshow]
  have hp : obuPayload C ⟨payload.length, h, sh, uh, C.zeroTG⟩ st (afterSize s h k)
      = .ok ((⟨payload.length, h, sh, if h.type = 3 then u else uh, C.zeroTG⟩,
          ({ st1.1 with tileNum := 0, seenFrameHeader := true }, st1.2)),
          (afterSize s h k).advance bits.length) := by
    rcases ht with ht | ht
    · rw [obuPayload_3 _ _ _ ht, BM.bind_ok hfh, if_pos ht]
      rfl
    · rw [obuPayload_7 _ _ _ ht, BM.bind_ok hfh, if_neg (by omega)]
      rfl
  have hl : bits.length < 8 * payload.length := by
    have := congrArg List.length hpay
    rw [bytesBits_length, List.length_append] at this
    have := List.length_pos_iff.mpr htr
    omega
  rw [obuRest_exact C st _ sh uh h payload.length _ _ _ hsel
    (by rcases ht with ht | ht <;> simp [ht, OBU_TILE_GROUP, OBU_TILE_LIST, OBU_FRAME]) hp rfl
    (by simp; omega) (by omega) (afterSize_bits hu)]
  refine ⟨_, rfl, rfl, ?_⟩
  simp only [afterSize]; omega

/-! ## C18 operating point selection -/

/-- C18: an OBU outside the selected operating point is skipped in full: its payload is not
interpreted (any bytes do), the decoder state and the stored headers are unchanged, and the stream
ends at the end of the OBU. -/
theorem C18_dropped (C : Codec) (sz : Int) (st : State × C.R) (sh : SeqHeader) (uh : C.UH)
    (h : Header) (k : Nat) (payload : List UInt8)
    (hf : WellFramed h k payload sz) (s : BitStream) (rest : List Bool)
    (hs : unread s = encObu h k payload ++ rest)
    (htype : h.type ≠ 1 ∧ h.type ≠ 2) (hidc : st.1.operatingPointIdc ≠ 0)
    (hext : h.extensionFlag = true) (hout : ¬ InOperatingPoint st.1.operatingPointIdc h) :
    ∃ s', newObu C sz st sh uh s = .ok
        ((⟨payload.length, h, sh, uh, C.zeroTG⟩, st), s') ∧
      AtEnd s s' h k payload := by
  obtain ⟨e, hu⟩ := newObu_prefix C sz st sh uh h k payload hf s rest hs
  rw [e]
  have hd : dropObu st.1.operatingPointIdc h = true := by
    rw [dropObu_iff]
    rintro (h1 | h1 | h1 | h1 | h1)
    · exact htype.1 h1
    · exact htype.2 h1
    · exact hidc h1
    · rw [hext] at h1; cases h1
    · exact hout h1
  unfold obuRest
  rw [BM.getPos_bind, hd, if_pos rfl]
  simp only [BM.setPos_bind, BM.pure_apply]
  refine ⟨_, rfl, rfl, ?_⟩
  simp only [afterSize]
  omega

/-- C18: nothing else is skipped (sequence headers, temporal delimiters and frame headers: the C17
theorems).  A tile group OBU that has no extension, or belongs to the operating point, or arrives
while no operating point is selected, is handed to the tile group parser with its payload size; its
result and state are kept and its panics are not swallowed. -/
theorem C18_selected_tile_group (C : Codec) (sz : Int) (st : State × C.R) (sh : SeqHeader) (uh : C.UH)
    (h : Header) (ht : h.type = 4) (k : Nat) (payload : List UInt8)
    (hf : WellFramed h k payload sz) (s : BitStream) (rest : List Bool)
    (hs : unread s = encObu h k payload ++ rest)
    (hsel : Selected st.1.operatingPointIdc h) :
    newObu C sz st sh uh s =
      match C.tileGroup payload.length st uh sh (afterSize s h k) with
      | .ok ((tg, st'), s') =>
        .ok ((⟨payload.length, h, sh, uh, tg⟩, st'), s')
      | .error e => .error e := by
  obtain ⟨e, hu⟩ := newObu_prefix C sz st sh uh h k payload hf s rest hs
  rw [e]
  have hdrop := dropObu_selected hsel
  unfold obuRest
  rw [BM.getPos_bind, hdrop]
  simp only [Bool.false_eq_true, if_false]
  rw [obuPayload_4 _ _ _ ht]
  simp only [ht, OBU_TILE_GROUP, ne_eq, not_true_eq_false, false_and, and_false, if_false]
  cases hr : C.tileGroup payload.length st uh sh (afterSize s h k) with
  | error e => rw [BM.bind_error (BM.bind_error hr)]
  | ok r =>
    obtain ⟨⟨tg, st'⟩, s'⟩ := r
    rw [BM.bind_ok (show _ = Except.ok _ from by rw [BM.bind_ok hr]; rfl)]
    simp

/-! ## C19 frame header sequencing -/

/-- C19: while a frame header is pending, a (redundant) frame header OBU is never parsed as a new
header: the call does not return. -/
theorem C19_repeat_not_reparsed (C : Codec) (sz : Int) (st : State × C.R) (sh : SeqHeader) (uh : C.UH)
    (h : Header) (ht : h.type = 3 ∨ h.type = 7 ∨ h.type = 6) (k : Nat) (payload : List UInt8)
    (hf : WellFramed h k payload sz) (s : BitStream) (rest : List Bool)
    (hs : unread s = encObu h k payload ++ rest)
    (hsel : Selected st.1.operatingPointIdc h) (hseen : st.1.seenFrameHeader = true) :
    newObu C sz st sh uh s = .error (.explicit "not implemented") := by
  obtain ⟨e, hu⟩ := newObu_prefix C sz st sh uh h k payload hf s rest hs
  rw [e]
  have hdrop := dropObu_selected hsel
  have hfh : ∀ s, parseFrameHeader C h sh st s = .error (.explicit "not implemented") := by
    intro s; unfold parseFrameHeader; rw [hseen]; rfl
  unfold obuRest
  rw [BM.getPos_bind, hdrop]
  simp only [Bool.false_eq_true, if_false]
  refine BM.bind_error ?_
  rcases ht with ht | ht | ht
  · rw [obuPayload_3 _ _ _ ht]; exact BM.bind_error (hfh _)
  · rw [obuPayload_7 _ _ _ ht]; exact BM.bind_error (hfh _)
  · rw [obuPayload_6 _ _ _ ht]
    refine BM.bind_error ?_
    unfold newFrame
    rw [BM.getPos_bind]
    exact BM.bind_error (hfh _)

/-- C19: after a temporal delimiter, whatever was pending before, a frame header OBU in the selected
operating point is parsed afresh from its own bits. -/
theorem C19_fresh_after_delimiter (C : Codec) (sz1 sz2 : Int) (st : State × C.R) (sh : SeqHeader)
    (uh : C.UH) (h1 h2 : Header) (ht1 : h1.type = 2) (ht2 : h2.type = 3) (k1 k2 : Nat)
    (p1 p2 : List UInt8) (hf1 : WellFramed h1 k1 p1 sz1) (hf2 : WellFramed h2 k2 p2 sz2)
    (s : BitStream) (rest : List Bool)
    (hs : unread s = encObu h1 k1 p1 ++ (encObu h2 k2 p2 ++ rest))
    (hsel : Selected st.1.operatingPointIdc h2)
    (u : C.UH) (st1 : State × C.R) (bits trailing : List Bool)
    (hparse : Reads (C.parseUH h2 sh ({ st.1 with seenFrameHeader := true }, st.2)) bits (u, st1))
    (hshow : C.showExisting u = false)
    (hpay : bytesBits p2 = bits ++ trailing) (htr : trailing ≠ []) :
    ∃ o1 o2 s', (do
        let (o1, st) ← newObu C sz1 st sh uh
        let (o2, st) ← newObu C sz2 st sh uh
        pure (o1, o2, st)) s = .ok ((o1, o2, ({ st1.1 with tileNum := 0, seenFrameHeader := true }, st1.2)), s') ∧
      o2.uncompressedHeader = u ∧ s'.data = s.data ∧
      s'.pos = s.pos + (encObu h1 k1 p1).length + (encObu h2 k2 p2).length := by
  have len : ∀ (h : Header) (k : Nat) (p : List UInt8), WellFramed h k p (if h.type = 2 then sz1 else sz2) →
      (encObu h k p).length = 8 * (obuOverhead h k + p.length) := by
    intro h k p hf
    have := hf.leb
    unfold encObu obuOverhead encHeader
    cases h.extensionFlag <;> cases h.hasSizeField <;>
      simp [bit, encLeb_length, bytesBits_length] <;> omega
  obtain ⟨s1, e1, d1, q1⟩ := C17_temporal_delimiter C sz1 st sh uh h1 ht1 k1 p1 hf1 s _ hs
  have hu : unread s1 = encObu h2 k2 p2 ++ rest := by
    have := unread_drop hs
    rw [len h1 k1 p1 (by rw [if_pos ht1]; exact hf1)] at this
    rw [← this]
    unfold unread; rw [d1, q1]; rfl
  obtain ⟨s2, e2, d2, q2⟩ := C17_frame_header C sz2 ({ st.1 with seenFrameHeader := false }, st.2) sh uh
    h2 (Or.inl ht2) k2 p2 hf2 s1 rest hu hsel rfl u st1 bits trailing hparse hshow hpay htr
  refine ⟨⟨p1.length, h1, sh, uh, C.zeroTG⟩, ⟨p2.length, h2, sh, if h2.type = 3 then u else uh, C.zeroTG⟩,
    s2, ?_, ?_, ?_, ?_⟩
  · rw [BM.bind_ok e1]
    dsimp only
    rw [BM.bind_ok e2]
    rfl
  · simp only [ht2, if_true]
  · rw [d2, d1]
  · rw [q2, q1, len h1 k1 p1 (by rw [if_pos ht1]; exact hf1),
      len h2 k2 p2 (by rw [if_neg (by omega)]; exact hf2)]

/-! ## C20 padding -/

theorem byteBits_val (b : UInt8) : bitsVal (byteBits b) = b.toNat := by
  have h : encF 8 b.toNat = byteBits b := rfl
  rw [← h, bitsVal_encF]
  exact Nat.mod_eq_of_lt b.toNat_lt

theorem F8_byte {s : BitStream} {b : UInt8} {rest : List Bool} (h : unread s = byteBits b ++ rest) :
    F 8 s = .ok (b.toNat, s.advance 8) := by
  have := F_append h
  rw [byteBits_val, byteBits_length] at this
  exact this

theorem paddingLoop_run (pre : List UInt8) (hpre : ∀ b ∈ pre, b ≠ 0) (fuel : Nat)
    (hfuel : pre.length < fuel) (s : BitStream) (rest : List Bool)
    (hs : unread s = bytesBits pre ++ (byteBits 0 ++ rest)) :
    paddingLoop fuel s = .ok ((), s.advance (8 * (pre.length + 1))) := by
  induction pre generalizing s fuel with
  | nil =>
    obtain ⟨f, rfl⟩ : ∃ f, fuel = f + 1 := ⟨fuel - 1, by simp at hfuel; omega⟩
    unfold paddingLoop
    rw [BM.bind_ok (F8_byte (b := 0) hs)]
    rfl
  | cons b pre ih =>
    obtain ⟨f, rfl⟩ : ∃ f, fuel = f + 1 := ⟨fuel - 1, by simp at hfuel; omega⟩
    rw [bytesBits_cons, List.append_assoc] at hs
    unfold paddingLoop
    rw [BM.bind_ok (F8_byte hs)]
    have hb : b.toNat ≠ 0 := by
      intro h0
      exact hpre b (by simp) (UInt8.toNat_inj.mp (by simpa using h0))
    have hb' : (b.toNat != 0) = true := by simpa using hb
    have hd : unread (s.advance 8) = _ := unread_drop hs
    rw [hb', if_pos rfl, ih (fun x hx => hpre x (by simp [hx])) f (by simp at hfuel; omega) _ hd]
    simp only [advance_advance, List.length_cons]
    congr 3; omega

/-- A run of padding over bytes that are all non-zero goes past all of them. -/
theorem paddingLoop_past (pre : List UInt8) (hpre : ∀ b ∈ pre, b ≠ 0) (fuel : Nat)
    (s s' : BitStream) (rest : List Bool)
    (hs : unread s = bytesBits pre ++ rest) (h : paddingLoop fuel s = .ok ((), s')) :
    s'.data = s.data ∧ s.pos + 8 * (pre.length + 1) ≤ s'.pos := by
  induction pre generalizing s fuel with
  | nil =>
    cases fuel with
    | zero => cases h
    | succ f =>
      clear hs hpre
      induction f generalizing s with
      | zero =>
        unfold paddingLoop at h
        obtain ⟨v, s1, h1, h2⟩ := BM.bind_eq_ok.mp h
        obtain ⟨-, -, rfl⟩ := F_ok h1
        split at h2
        · cases h2
        · cases h2; simp
      | succ f ih =>
        unfold paddingLoop at h
        obtain ⟨v, s1, h1, h2⟩ := BM.bind_eq_ok.mp h
        obtain ⟨-, -, rfl⟩ := F_ok h1
        split at h2
        · have := ih _ h2
          simp at this ⊢
          exact ⟨this.1, by omega⟩
        · cases h2; simp
  | cons b pre ih =>
    cases fuel with
    | zero => cases h
    | succ f =>
      rw [bytesBits_cons, List.append_assoc] at hs
      unfold paddingLoop at h
      rw [BM.bind_ok (F8_byte hs)] at h
      have hb : b.toNat ≠ 0 := by
        intro h0
        exact hpre b (by simp) (UInt8.toNat_inj.mp (by simpa using h0))
      have hb' : (b.toNat != 0) = true := by simpa using hb
      rw [hb', if_pos rfl] at h
      have := ih (fun x hx => hpre x (by simp [hx])) f _ (unread_drop hs) h
      simp at this ⊢
      exact ⟨this.1, by omega⟩

theorem split_first_zero (payload : List UInt8) (hz : (0 : UInt8) ∈ payload) :
    ∃ pre post, payload = pre ++ 0 :: post ∧ ∀ b ∈ pre, b ≠ (0 : UInt8) := by
  induction payload with
  | nil => cases hz
  | cons b l ih =>
    by_cases hb : b = 0
    · exact ⟨[], l, by rw [hb]; rfl, by simp⟩
    · obtain ⟨pre, post, h1, h2⟩ := ih (by
        rcases List.mem_cons.mp hz with h | h
        · exact absurd h.symm hb
        · exact h)
      refine ⟨b :: pre, post, by rw [h1]; rfl, ?_⟩
      intro x hx
      rcases List.mem_cons.mp hx with h | h
      · rw [h]; exact hb
      · exact h2 x h

/-- C20, the part that holds: a padding OBU in the selected operating point whose payload contains a
zero byte is skipped exactly, with no effect on the decoder state or stored headers. -/
theorem C20_padding_partial (C : Codec) (sz : Int) (st : State × C.R) (sh : SeqHeader) (uh : C.UH)
    (h : Header) (ht : h.type = 15) (k : Nat) (payload : List UInt8)
    (hf : WellFramed h k payload sz) (s : BitStream) (rest : List Bool)
    (hs : unread s = encObu h k payload ++ rest)
    (hsel : Selected st.1.operatingPointIdc h) (hz : (0 : UInt8) ∈ payload) :
    ∃ s', newObu C sz st sh uh s = .ok
        ((⟨payload.length, h, sh, uh, C.zeroTG⟩, st), s') ∧
      AtEnd s s' h k payload := by
  obtain ⟨e, hu⟩ := newObu_prefix C sz st sh uh h k payload hf s rest hs
  rw [e]
  obtain ⟨pre, post, hpp, hpre⟩ := split_first_zero payload hz
  have hu2 : unread (afterSize s h k) = bytesBits pre ++ (byteBits 0 ++ (bytesBits post ++ rest)) := by
    rw [hu, hpp, bytesBits_append, bytesBits_cons]; simp [List.append_assoc]
  have hlen := congrArg List.length hu2
  rw [unread_length] at hlen
  simp only [List.length_append, bytesBits_length, byteBits_length] at hlen
  have hpad : paddingObu (afterSize s h k) = .ok ((), (afterSize s h k).advance (8 * pre.length)) := by
    unfold paddingObu
    rw [BM.bind_ok (paddingLoop_run pre hpre _ (by omega) _ _ hu2), BM.getPos_bind]
    simp only [BM.setPos, BitStream.advance]
    congr 3
  have hp : obuPayload C ⟨payload.length, h, sh, uh, C.zeroTG⟩ st (afterSize s h k)
      = .ok ((⟨payload.length, h, sh, uh, C.zeroTG⟩, st), (afterSize s h k).advance (8 * pre.length)) := by
    rw [obuPayload_15 _ _ _ ht, BM.bind_ok hpad]
    rfl
  have hpl : payload.length = pre.length + 1 + post.length := by rw [hpp]; simp; omega
  rw [obuRest_exact C st _ sh uh h payload.length _ _ _ hsel
    (by simp [ht, OBU_TILE_GROUP, OBU_TILE_LIST, OBU_FRAME]) hp rfl (by simp; omega) (by omega)
    (afterSize_bits hu)]
  refine ⟨_, rfl, rfl, ?_⟩
  simp only [afterSize]; omega

/-- C20 is false of the code: *every* non-empty padding OBU without a zero byte in it (AV1 padding
normally ends in the trailing byte 0x80) is overrun — if the call returns at all, the stream is past
the end of the OBU. -/
theorem C20_padding_refuted (C : Codec) (sz : Int) (st : State × C.R) (sh : SeqHeader) (uh : C.UH)
    (h : Header) (ht : h.type = 15) (k : Nat) (payload : List UInt8)
    (hf : WellFramed h k payload sz) (s : BitStream) (rest : List Bool)
    (hs : unread s = encObu h k payload ++ rest)
    (hsel : Selected st.1.operatingPointIdc h) (hne : payload ≠ []) (hz : (0 : UInt8) ∉ payload)
    (r : Obu C × (State × C.R)) (s' : BitStream) (hr : newObu C sz st sh uh s = .ok (r, s')) :
    s.pos + 8 * (obuOverhead h k + payload.length) < s'.pos := by
  obtain ⟨e, hu⟩ := newObu_prefix C sz st sh uh h k payload hf s rest hs
  rw [e] at hr
  have hdrop := dropObu_selected hsel
  unfold obuRest at hr
  rw [BM.getPos_bind, hdrop] at hr
  simp only [Bool.false_eq_true, if_false] at hr
  rw [obuPayload_15 _ _ _ ht] at hr
  obtain ⟨⟨o, st'⟩, s1, h1, h2⟩ := BM.bind_eq_ok.mp hr
  obtain ⟨u1, s2, h3, h4⟩ := BM.bind_eq_ok.mp h1
  cases h4
  unfold paddingObu at h3
  obtain ⟨u2, s3, h5, h6⟩ := BM.bind_eq_ok.mp h3
  rw [BM.getPos_bind] at h6
  simp only [BM.setPos] at h6
  cases h6
  have hp := paddingLoop_past payload (fun b hb h0 => hz (h0 ▸ hb)) _ _ _ _ hu h5
  simp only [BM.getPos_bind] at h2
  have hpos := List.length_pos_iff.mpr hne
  rw [if_pos ⟨by omega, by simp [ht, OBU_TILE_GROUP, OBU_TILE_LIST, OBU_FRAME]⟩] at h2
  obtain ⟨u3, s4, h7, h8⟩ := BM.bind_eq_ok.mp h2
  cases h8
  rw [C08_trailing_bits_nonpositive _ (by omega)] at h7
  split at h7
  · cases h7
    simp only [advance_pos]
    have := hp.2
    simp only [afterSize] at this
    omega
  · cases h7

/-! ## C21 unknown types -/

/-- C21 is false of the code: metadata, tile lists and every reserved OBU type in the selected
operating point make the parser panic, whatever their size and payload. -/
theorem C21_unknown_types_refuted (C : Codec) (sz : Int) (st : State × C.R) (sh : SeqHeader) (uh : C.UH)
    (h : Header) (ht : h.type = 0 ∨ h.type = 5 ∨ (8 ≤ h.type ∧ h.type ≤ 14)) (k : Nat)
    (payload : List UInt8) (hf : WellFramed h k payload sz) (s : BitStream) (rest : List Bool)
    (hs : unread s = encObu h k payload ++ rest) (hsel : Selected st.1.operatingPointIdc h) :
    newObu C sz st sh uh s = .error (.explicit "not implemented") := by
  obtain ⟨e, hu⟩ := newObu_prefix C sz st sh uh h k payload hf s rest hs
  rw [e]
  have hdrop := dropObu_selected hsel
  unfold obuRest
  rw [BM.getPos_bind, hdrop]
  simp only [Bool.false_eq_true, if_false]
  refine BM.bind_error ?_
  rw [obuPayload_other _ _ _ ht]
  rfl

/-- C21, the part that holds: outside the selected operating point they are skipped like any OBU. -/
theorem C21_unknown_types_partial (C : Codec) (sz : Int) (st : State × C.R) (sh : SeqHeader) (uh : C.UH)
    (h : Header) (ht : h.type = 0 ∨ h.type = 5 ∨ (8 ≤ h.type ∧ h.type ≤ 14)) (k : Nat)
    (payload : List UInt8) (hf : WellFramed h k payload sz) (s : BitStream) (rest : List Bool)
    (hs : unread s = encObu h k payload ++ rest) (hsel : ¬ Selected st.1.operatingPointIdc h) :
    ∃ s', newObu C sz st sh uh s = .ok
        ((⟨payload.length, h, sh, uh, C.zeroTG⟩, st), s') ∧
      AtEnd s s' h k payload := by
  refine C18_dropped C sz st sh uh h k payload hf s rest hs ⟨by omega, by omega⟩ ?_ ?_ ?_
  · intro h0; exact hsel (Or.inr (Or.inr (Or.inl h0)))
  · cases hx : h.extensionFlag with
    | true => rfl
    | false => exact absurd (Or.inr (Or.inr (Or.inr (Or.inl hx)))) hsel
  · intro hin; exact hsel (Or.inr (Or.inr (Or.inr (Or.inr hin))))

/-! ## Witnesses -/

/-- A codec whose frame header is one byte with the bit pattern kept, and whose tile group consumes
its size. -/
def exCodec : Codec where
  UH := Nat
  TG := Nat
  R := Unit
  zeroUH := 0
  zeroTG := 0
  startR := ()
  newR := id
  parseUH := fun _ _ st => do let v ← F 8; pure (v, st)
  showExisting := fun _ => false
  tileGroup := fun sz st _ _ => do let v ← F (8 * sz.toNat); pure (v, st)

def exHdr (t : Nat) : Header := ⟨false, t, true, true, false, ⟨1, 2, 0⟩⟩

theorem exFramed (t : Nat) (ht : t < 16) (p : List UInt8) (hp : p.length < 128) (sz : Int) :
    WellFramed (exHdr t) 1 p sz := by
  refine ⟨⟨ht, ?_⟩, ⟨by decide, by decide⟩, by simpa using hp, ?_⟩
  · simp [exHdr]
  · intro h; cases h

/-- What an observer sees of a call of `newObu exCodec`: size, type, header, tile group, state, position. -/
def exView (r : Except Fault ((Obu exCodec × (State × Unit)) × BitStream)) :
    Option (Int × Header × Nat × Nat × State × Nat) :=
  match r with
  | .ok ((o, st), s) => some (o.size, o.header, o.uncompressedHeader, o.tileGroup, st.1, s.pos)
  | .error _ => none

/-- a dropped metadata OBU: temporal layer 1 is not in operating point 0x401 -/
example : exView (newObu exCodec 0 ({ operatingPointIdc := 0x401 }, ()) {} (7 : Nat)
    ⟨[0x2E, 0x30, 0x02, 0xAB, 0xCD, 0x55], 0, 0⟩)
    = some (2, exHdr 5, 7, 0, { operatingPointIdc := 0x401 }, 40) := by decide +kernel

example : ¬ Selected 0x401 (exHdr 5) ∧ Selected 0x402 (exHdr 5) := by
  constructor
  · rw [← dropObu_iff]; decide
  · exact Or.inr (Or.inr (Or.inr (Or.inr ⟨by decide, by decide⟩)))

/-- the hypotheses of C17/C19 are met: a delimiter then a frame header with one trailing byte -/
example : Reads (exCodec.parseUH (exHdr 3) {} ({ seenFrameHeader := true }, ())) (encF 8 0x99)
    ((0x99 : Nat), ({ seenFrameHeader := true }, ())) ∧
    bytesBits [0x99, 0x80] = encF 8 0x99 ++ [true, false, false, false, false, false, false, false] ∧
    exView ((do
        let (_, st) ← newObu exCodec 0 ({ seenFrameHeader := true }, ()) {} (7 : Nat)
        newObu exCodec 0 st {} (7 : Nat) : BM _)
      ⟨[0x16, 0x30, 0x00, 0x1E, 0x30, 0x02, 0x99, 0x80], 0, 0⟩)
      = some (2, exHdr 3, 0x99, 0, { seenFrameHeader := true }, 64) := by
  refine ⟨?_, by decide, by decide +kernel⟩
  exact Reads.bindLast (Reads.F (by decide))

/-- a padding OBU ending in 0x80 without zero bytes swallows the following byte -/
example : exView (newObu exCodec 0 ({}, ()) {} (7 : Nat) ⟨[0x7A, 0x02, 0xFF, 0x80, 0x00, 0x80], 0, 0⟩)
    = some (2, ⟨false, 15, false, true, false, ⟨0, 0, 0⟩⟩, 7, 0, {}, 33) := by decide +kernel

/-- one with a zero byte is skipped exactly -/
example : exView (newObu exCodec 0 ({}, ()) {} (7 : Nat) ⟨[0x7A, 0x03, 0xFF, 0x00, 0x80, 0x80], 0, 0⟩)
    = some (3, ⟨false, 15, false, true, false, ⟨0, 0, 0⟩⟩, 7, 0, {}, 40) := by decide +kernel

end Gov1
