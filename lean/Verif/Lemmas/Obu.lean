import Verif.Spec.Obu
import Verif.Lemmas.Ensures
import Verif.Props.BitStream
import Verif.Props.Headers
/-! # Lemmas on the OBU layer -/
namespace Gov1
open Spec

theorem shift_even_iff (idc k : Nat) : ((idc >>> k) % 2 == 0) = !idc.testBit k := by
  rw [shift_mod_two]; cases idc.testBit k <;> rfl

theorem dropObu_iff (idc : Nat) (h : Header) : dropObu idc h = true ↔ ¬ Selected idc h := by
  unfold dropObu Selected InOperatingPoint
  rw [shift_even_iff, shift_even_iff]
  simp [OBU_SEQUENCE_HEADER, OBU_TEMPORAL_DELIMITER]
  cases h.extensionFlag <;> cases idc.testBit h.extensionHeader.temporalID <;>
    cases idc.testBit (h.extensionHeader.spatialID + 8) <;> simp [and_assoc]

/-- The part of `NewObu` after the header and size have been read. -/
def obuRest (C : Codec) (st : State × C.R) (sh : SeqHeader) (uh : C.UH) (h : Header) (size : Int) :
    BM (Obu C × (State × C.R)) := do
  let startPosition ← BM.getPos
  let o : Obu C := { size := size, header := h, sequenceHeader := sh, uncompressedHeader := uh,
                     tileGroup := C.zeroTG }
  if dropObu st.1.operatingPointIdc h then do
    BM.setPos ((startPosition : Int) + size * 8).toNat
    pure (o, st)
  else do
    let (o, st) ← obuPayload C o st
    let endPosition ← BM.getPos
    if size > 0 ∧ h.type ≠ OBU_TILE_GROUP ∧ h.type ≠ OBU_TILE_LIST ∧ h.type ≠ OBU_FRAME then do
      trailingBits (size * 8 - ((endPosition : Int) - startPosition))
      pure (o, st)
    else pure (o, st)

theorem newObu_prefix (C : Codec) (sz : Int) (st : State × C.R) (sh : SeqHeader) (uh : C.UH)
    (h : Header) (k : Nat) (payload : List UInt8) (hf : WellFramed h k payload sz)
    (s : BitStream) (rest : List Bool) (hs : unread s = encObu h k payload ++ rest) :
    newObu C sz st sh uh s = obuRest C st sh uh h payload.length (afterSize s h k) ∧
      unread (afterSize s h k) = bytesBits payload ++ rest := by
  unfold encObu at hs
  rw [List.append_assoc, List.append_assoc] at hs
  have hh := C16_header_roundtrip h hf.header s _ hs
  have hlen : (encHeader h).length = if h.extensionFlag then 16 else 8 := by
    unfold encHeader; cases h.extensionFlag <;> simp [bit]
  have hu := unread_drop hs
  rw [hlen] at hu
  unfold newObu
  rw [BM.bind_ok hh]
  cases hz : h.hasSizeField with
  | true =>
    rw [if_pos rfl]
    rw [hz, if_pos rfl] at hu
    have hl := C04_leb128_roundtrip k payload.length hf.leb.1 hf.leb.2 hf.fits _ _ hu
    have e : (do let n ← leb128; pure (n : Int) : BM Int) (s.advance (if h.extensionFlag then 16 else 8))
        = .ok ((payload.length : Int), afterSize s h k) := by
      rw [BM.bind_ok hl]
      simp only [BM.pure_apply]
      congr 2
      unfold afterSize obuOverhead
      simp only [advance_data, advance_pos, hz, if_true]
      cases h.extensionFlag <;> simp <;> omega
    rw [BM.bind_ok e]
    refine ⟨rfl, ?_⟩
    have h3 := unread_drop hu
    rw [encLeb_length] at h3
    rw [← h3]
    unfold afterSize obuOverhead unread
    simp only [hz, if_true, advance_data, advance_pos]
    congr 1
    have := hf.leb
    cases h.extensionFlag <;> simp <;> omega
  | false =>
    rw [if_neg (by simp)]
    have hi := hf.implied hz
    have e : (sz - 1 - (if h.extensionFlag then 1 else 0) : Int) = (payload.length : Int) := by
      rw [hi]; unfold obuOverhead; rw [hz]
      cases h.extensionFlag <;> simp <;> omega
    have e2 : s.advance (if h.extensionFlag then 16 else 8) = afterSize s h k := by
      unfold BitStream.advance afterSize obuOverhead; rw [hz]
      cases h.extensionFlag <;> simp
    rw [BM.pure_bind, e, e2]
    refine ⟨rfl, ?_⟩
    rw [hz, e2] at hu
    simpa using hu

/-- A selected OBU whose payload parser stops inside the payload is consumed exactly. -/
theorem obuRest_exact (C : Codec) (st st' : State × C.R) (sh : SeqHeader) (uh : C.UH) (h : Header)
    (n : Nat) (o' : Obu C) (s s3 : BitStream) (hsel : Selected st.1.operatingPointIdc h)
    (ht : h.type ≠ OBU_TILE_GROUP ∧ h.type ≠ OBU_TILE_LIST ∧ h.type ≠ OBU_FRAME)
    (hp : obuPayload C { size := n, header := h, sequenceHeader := sh, uncompressedHeader := uh,
                         tileGroup := C.zeroTG } st s = .ok ((o', st'), s3))
    (hd : s3.data = s.data) (hn : 0 < n → s3.pos < s.pos + 8 * n)
    (h0 : n = 0 → s3.pos = s.pos)
    (hlen : 8 * n ≤ (unread s).length) :
    obuRest C st sh uh h n s = .ok ((o', st'), { s3 with pos := s.pos + 8 * n }) := by
  unfold obuRest
  have hdrop : dropObu st.1.operatingPointIdc h = false := by
    cases hd : dropObu st.1.operatingPointIdc h with
    | false => rfl
    | true => exact absurd hsel ((dropObu_iff _ _).mp hd)
  rw [BM.getPos_bind, hdrop]
  simp only [Bool.false_eq_true, if_false]
  rw [BM.bind_ok hp]
  simp only [BM.getPos_bind]
  by_cases hz : n = 0
  · subst hz
    rw [if_neg (by simp)]
    have := h0 rfl
    simp [← this]
  · rw [if_pos ⟨by omega, ht⟩]
    have hn' := hn (by omega)
    have e : ((n : Int) * 8 - ((s3.pos : Int) - s.pos)) = ((s.pos + 8 * n - s3.pos : Nat) : Int) := by omega
    have hb : trailingBits ((n : Int) * 8 - ((s3.pos : Int) - s.pos)) s3
        = .ok ((), s3.advance (s.pos + 8 * n - s3.pos)) := by
      rw [e, C08_trailing_bits _ (by omega), if_pos]
      rw [unread_length] at hlen ⊢
      rw [hd]; omega
    rw [BM.bind_ok hb]
    simp only [BM.pure_apply, BitStream.advance]
    congr 3
    omega


section types
variable (C : Codec) (o : Obu C) (st : State × C.R)

theorem obuPayload_1 (ht : o.header.type = 1) : obuPayload C o st = (do
    let (sh, s1) ← newSequenceHeader st.1
    pure ({ o with sequenceHeader := sh }, (s1, st.2))) := by
  unfold obuPayload; simp only [ht, OBU_SEQUENCE_HEADER, if_true]

theorem obuPayload_2 (ht : o.header.type = 2) :
    obuPayload C o st = pure (o, ({ st.1 with seenFrameHeader := false }, st.2)) := by
  unfold obuPayload
  simp only [ht, OBU_SEQUENCE_HEADER, OBU_TEMPORAL_DELIMITER, if_true, Nat.reduceEqDiff, if_false]

theorem obuPayload_3 (ht : o.header.type = 3) : obuPayload C o st = (do
    let (uh, st) ← parseFrameHeader C o.header o.sequenceHeader st
    pure ({ o with uncompressedHeader := uh }, st)) := by
  unfold obuPayload
  simp only [ht, OBU_SEQUENCE_HEADER, OBU_TEMPORAL_DELIMITER, OBU_FRAME_HEADER, if_true,
    Nat.reduceEqDiff, if_false]

theorem obuPayload_7 (ht : o.header.type = 7) : obuPayload C o st = (do
    let (_, st) ← parseFrameHeader C o.header o.sequenceHeader st
    pure (o, st)) := by
  unfold obuPayload
  simp only [ht, OBU_SEQUENCE_HEADER, OBU_TEMPORAL_DELIMITER, OBU_FRAME_HEADER,
    OBU_REDUNDANT_FRAME_HEADER, if_true, Nat.reduceEqDiff, if_false]

theorem obuPayload_6 (ht : o.header.type = 6) : obuPayload C o st = (do
    let (uh, tg, st) ← newFrame C o.size o.header o.sequenceHeader st
    pure ({ o with uncompressedHeader := uh, tileGroup := tg }, st)) := by
  unfold obuPayload
  simp only [ht, OBU_SEQUENCE_HEADER, OBU_TEMPORAL_DELIMITER, OBU_FRAME_HEADER, OBU_FRAME,
    OBU_REDUNDANT_FRAME_HEADER, if_true, Nat.reduceEqDiff, if_false]

theorem obuPayload_15 (ht : o.header.type = 15) : obuPayload C o st = (do
    paddingObu
    pure (o, st)) := by
  unfold obuPayload
  simp only [ht, OBU_SEQUENCE_HEADER, OBU_TEMPORAL_DELIMITER, OBU_FRAME_HEADER, OBU_FRAME, OBU_PADDING,
    OBU_REDUNDANT_FRAME_HEADER, if_true, Nat.reduceEqDiff, if_false]

theorem obuPayload_4 (ht : o.header.type = 4) : obuPayload C o st = (do
    let (tg, st) ← C.tileGroup o.size st o.uncompressedHeader o.sequenceHeader
    pure ({ o with tileGroup := tg }, st)) := by
  unfold obuPayload
  simp only [ht, OBU_SEQUENCE_HEADER, OBU_TEMPORAL_DELIMITER, OBU_FRAME_HEADER, OBU_FRAME, OBU_PADDING,
    OBU_REDUNDANT_FRAME_HEADER, OBU_TILE_GROUP, if_true, Nat.reduceEqDiff, if_false]

theorem obuPayload_other (ht : o.header.type = 0 ∨ o.header.type = 5 ∨ (8 ≤ o.header.type ∧ o.header.type ≤ 14)) :
    obuPayload C o st = BM.fail (.explicit "not implemented") := by
  have n1 : ¬ o.header.type = 1 := by omega
  have n2 : ¬ o.header.type = 2 := by omega
  have n3 : ¬ o.header.type = 3 := by omega
  have n4 : ¬ o.header.type = 4 := by omega
  have n6 : ¬ o.header.type = 6 := by omega
  have n7 : ¬ o.header.type = 7 := by omega
  have n15 : ¬ o.header.type = 15 := by omega
  unfold obuPayload
  simp only [OBU_SEQUENCE_HEADER, OBU_TEMPORAL_DELIMITER, OBU_FRAME_HEADER, OBU_FRAME, OBU_PADDING,
    OBU_REDUNDANT_FRAME_HEADER, OBU_TILE_GROUP, n1, n2, n3, n4, n6, n7, n15, if_false]

end types

theorem dropObu_selected {idc : Nat} {h : Header} (hsel : Selected idc h) : dropObu idc h = false := by
  cases hd : dropObu idc h with
  | false => rfl
  | true => exact absurd hsel ((dropObu_iff _ _).mp hd)

end Gov1
