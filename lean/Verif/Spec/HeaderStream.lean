import Verif.Spec.KeyHeader
import Verif.Spec.Obu

/-!
# Streams of headers (AV1 5.3, Annex B)

A stream of temporal units, each of any number of frames: delimiters and the sequence header, in any order, then the frame header.
-/

namespace Gov1.Spec

/-- An OBU and the numbers of bytes of its size field and of its length in the frame unit. -/
structure CodedObu where
  header : Header
  payload : List UInt8
  sizeBytes : Nat := 1
  lengthBytes : Nat := 1

namespace CodedObu

/-- The bits of the OBU. -/
def bits (o : CodedObu) : List Bool := encObu o.header o.sizeBytes o.payload

/-- A well-formed OBU of type `t`. -/
structure Ok (o : CodedObu) (t : Nat) : Prop where
  type : o.header.type = t
  framed : WellFramed o.header o.sizeBytes o.payload ((o.bits.length / 8 : Nat) : Int)
  length : 1 ≤ o.lengthBytes ∧ o.lengthBytes ≤ 8 ∧ o.bits.length / 8 < 128 ^ o.lengthBytes

end CodedObu

/-- The payload is `bits`, then the trailing bits: a one and zeros to the end. -/
def HoldsBits (payload : List UInt8) (bits : List Bool) : Prop :=
  ∃ n, bytesBits payload = bits ++ true :: List.replicate n false

/-- An OBU before the frame header of a frame unit: a temporal delimiter or the sequence header. -/
def Lead (sh : SeqHeader) (level0 : Nat) (timing : Bool) (idc : Nat) (o : CodedObu) : Prop :=
  o.Ok 2 ∨ (o.Ok 1 ∧ HoldsBits o.payload (encDialect sh level0 timing idc))

/-- A frame unit: the choices of the frame header, its OBU, the OBUs before it, and the number of bytes of the length of the unit. -/
structure CodedFrame where
  key : KeyHeader
  pre : List CodedObu := []
  frame : CodedObu
  unitBytes : Nat := 1

namespace CodedFrame

/-- The OBUs with their lengths. -/
def obus (f : CodedFrame) : List (Nat × List Bool) :=
  (f.pre ++ [f.frame]).map fun o => (o.lengthBytes, o.bits)

/-- The sequence header is among them. -/
def HasSequence (f : CodedFrame) : Prop :=
  ∃ o ∈ f.pre, o.header.type = 1

/-- The frame header is coded in the frame header OBU, with `w` bits for the sharpness, and the length fits. -/
structure Ok (w : Nat) (sh : SeqHeader) (f : CodedFrame) : Prop where
  frame : f.frame.Ok 3
  key : f.key.Valid sh
  payload : HoldsBits f.frame.payload (f.key.enc w sh)
  fits : ValidUnit f.unitBytes (encFrameUnit f.obus)

end CodedFrame

/-- A temporal unit: its frames and the number of bytes of its length. -/
structure CodedTemporal where
  frames : List CodedFrame
  bytes : Nat := 1

/-- The frame units with their lengths. -/
def CodedTemporal.units (t : CodedTemporal) : List (Nat × List (Nat × List Bool)) :=
  t.frames.map fun f => (f.unitBytes, f.obus)

/-- The bits of the stream. -/
def encHeaders (ts : List CodedTemporal) : List Bool :=
  encStream (ts.map fun t => (t.bytes, t.units))

end Gov1.Spec
