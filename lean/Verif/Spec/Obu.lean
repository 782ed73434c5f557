import Verif.Spec.Headers
import Verif.Model.Obu
/-! # Reference framing of OBUs, frame units and temporal units (AV1 specification 5.3 and Annex B) -/
namespace Gov1.Spec

/-- AV1 5.3.1 `open_bitstream_unit`: header, optional LEB128 payload size (on `lebBytes` bytes), payload. -/
def encObu (h : Header) (lebBytes : Nat) (payload : List UInt8) : List Bool :=
  encHeader h ++ (if h.hasSizeField then encLeb (lebBytes - 1) payload.length else []) ++
  bytesBits payload

/-- Bytes before the payload. -/
def obuOverhead (h : Header) (lebBytes : Nat) : Nat :=
  1 + (if h.extensionFlag then 1 else 0) + (if h.hasSizeField then lebBytes else 0)

/-- A well-formed OBU of total length `sz` bytes: the header fields fit, the size field (if any) can
hold the payload length, and without one the payload is what the length `sz` leaves. -/
structure WellFramed (h : Header) (lebBytes : Nat) (payload : List UInt8) (sz : Int) : Prop where
  header : ValidHeader h
  leb : 1 ≤ lebBytes ∧ lebBytes ≤ 8
  fits : payload.length < 128 ^ lebBytes
  implied : h.hasSizeField = false → sz = obuOverhead h lebBytes + payload.length

/-- Stream after the header and size field of an OBU. -/
def afterSize (s : BitStream) (h : Header) (lebBytes : Nat) : BitStream :=
  { data := s.data, pos := s.pos + 8 * obuOverhead h lebBytes,
    leb := if h.hasSizeField then lebBytes else s.leb }

/-- AV1 5.3.1/7.4: an OBU with an extension belongs to the operating point `idc` iff both its
temporal and its spatial layer bits are set. -/
def InOperatingPoint (idc : Nat) (h : Header) : Prop :=
  idc.testBit h.extensionHeader.temporalID = true ∧ idc.testBit (h.extensionHeader.spatialID + 8) = true

/-- An OBU the decoder must process: everything except extension-carrying OBUs (other than sequence
headers and temporal delimiters) outside the selected operating point. -/
def Selected (idc : Nat) (h : Header) : Prop :=
  h.type = 1 ∨ h.type = 2 ∨ idc = 0 ∨ h.extensionFlag = false ∨ InOperatingPoint idc h

end Gov1.Spec

namespace Gov1.Spec

/-- A length-prefixed unit: LEB128 length in bytes (on `k` bytes), then the contents. -/
def encUnit (k : Nat) (bits : List Bool) : List Bool := encLeb (k - 1) (bits.length / 8) ++ bits

/-- The contents are whole bytes and their number fits the length field. -/
def ValidUnit (k : Nat) (bits : List Bool) : Prop :=
  1 ≤ k ∧ k ≤ 8 ∧ bits.length % 8 = 0 ∧ bits.length / 8 < 128 ^ k

/-- AV1 Annex B `frame_unit`: a list of length-prefixed OBUs. -/
def encFrameUnit : List (Nat × List Bool) → List Bool
  | [] => []
  | (k, b) :: l => encUnit k b ++ encFrameUnit l

/-- AV1 Annex B `temporal_unit`: a list of length-prefixed frame units. -/
def encTemporalUnit : List (Nat × List (Nat × List Bool)) → List Bool
  | [] => []
  | (k, f) :: l => encUnit k (encFrameUnit f) ++ encTemporalUnit l

/-- AV1 Annex B `bitstream`: a list of length-prefixed temporal units. -/
def encStream : List (Nat × List (Nat × List (Nat × List Bool))) → List Bool
  | [] => []
  | (k, t) :: l => encUnit k (encTemporalUnit t) ++ encStream l

/-- The OBU bits `b` are parsed, in decoder state `st` with stored headers `sh`, `uh`, to `o` and new
state `st'`, consuming exactly `b`, at whatever byte of a stream they start. -/
def ObuParses (C : Codec) (st : State × C.R) (sh : SeqHeader) (uh : C.UH) (b : List Bool)
    (o : Obu C) (st' : State × C.R) : Prop :=
  ∀ (s : BitStream) (rest : List Bool), s.pos % 8 = 0 → unread s = b ++ rest →
    ∃ s', newObu C ((b.length / 8 : Nat) : Int) st sh uh s = .ok ((o, st'), s') ∧
      s'.data = s.data ∧ s'.pos = s.pos + b.length

/-- The parser after an OBU: the OBU is appended, a sequence or frame header is remembered. -/
def afterObu {C : Codec} (p : Parser C) (o : Obu C) : Parser C where
  rest := p.rest
  obus := p.obus ++ [o]
  sequenceHeader := if o.header.type = 1 then o.sequenceHeader else p.sequenceHeader
  uncompressedHeader := if o.header.type = 3 then o.uncompressedHeader else p.uncompressedHeader

/-- The OBUs of a frame unit parse one after the other, threading the state. -/
inductive FrameUnitRun (C : Codec) : State × C.R → Parser C → List (Nat × List Bool) → Parser C → Prop
  | nil (st : State × C.R) (p : Parser C) : FrameUnitRun C st p [] { p with rest := st.2 }
  | cons {st st' : State × C.R} {p p' : Parser C} {k : Nat} {b : List Bool} {l : List (Nat × List Bool)}
      {o : Obu C} (hv : ValidUnit k b)
      (ho : ObuParses C st p.sequenceHeader p.uncompressedHeader b o st')
      (hl : FrameUnitRun C st' (afterObu p o) l p') : FrameUnitRun C st p ((k, b) :: l) p'

/-- The frame units of a temporal unit parse one after the other, each from a fresh state (but for package-level variables). -/
inductive TemporalUnitRun (C : Codec) :
    Parser C → List (Nat × List (Nat × List Bool)) → Parser C → Prop
  | nil (p : Parser C) : TemporalUnitRun C p [] p
  | cons {p p1 p' : Parser C} {k : Nat} {f : List (Nat × List Bool)}
      {l : List (Nat × List (Nat × List Bool))} (hv : ValidUnit k (encFrameUnit f))
      (hf : FrameUnitRun C ({}, C.newR p.rest) p f p1) (hl : TemporalUnitRun C p1 l p') :
      TemporalUnitRun C p ((k, f) :: l) p'

/-- The temporal units of a stream parse one after the other. -/
inductive StreamRun (C : Codec) :
    Parser C → List (Nat × List (Nat × List (Nat × List Bool))) → Parser C → Prop
  | nil (p : Parser C) : StreamRun C p [] p
  | cons {p p1 p' : Parser C} {k : Nat} {t : List (Nat × List (Nat × List Bool))}
      {l : List (Nat × List (Nat × List (Nat × List Bool)))} (hv : ValidUnit k (encTemporalUnit t))
      (ht : TemporalUnitRun C p t p1) (hl : StreamRun C p1 l p') : StreamRun C p ((k, t) :: l) p'

end Gov1.Spec
