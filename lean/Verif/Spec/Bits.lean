import Verif.Model.BitStream
/-!
# Specification vocabulary: bit sequences and reference encoders

Nothing here refers to the decoder's functions; only the `BitStream` record is used, to say which
bits are still unread.
-/
namespace Gov1

/-- The 8 bits of a byte, most significant first. -/
def byteBits (b : UInt8) : List Bool :=
  [b.toNat.testBit 7, b.toNat.testBit 6, b.toNat.testBit 5, b.toNat.testBit 4,
   b.toNat.testBit 3, b.toNat.testBit 2, b.toNat.testBit 1, b.toNat.testBit 0]

/-- All bits of a byte string, in stream order. -/
def bytesBits (d : List UInt8) : List Bool := d.flatMap byteBits

/-- The bits a stream has not consumed yet. -/
def unread (s : BitStream) : List Bool := (bytesBits s.data).drop s.pos

/-- The stream after consuming `n` more bits. -/
def BitStream.advance (s : BitStream) (n : Nat) : BitStream := { s with pos := s.pos + n }

/-- Reference encoder of AV1 `f(n)`: `v` on exactly `n` bits, most significant first. -/
def encF : Nat → Nat → List Bool
  | 0, _ => []
  | n + 1, v => v.testBit n :: encF n v

/-- The number an MSB-first bit string denotes. -/
def bitsVal : List Bool → Nat
  | [] => 0
  | b :: bs => b.toNat * 2 ^ bs.length + bitsVal bs

/-- Reference encoder of AV1 `su(n)`: two's complement on `n` bits. -/
def encSu (n : Nat) (v : Int) : List Bool := encF n (v % (2 ^ n : Int)).toNat

/-- Reference encoder of AV1 `ns(n)` (non-symmetric, AV1 specification 4.10.7): with
`w = ⌊log2 n⌋+1` and `m = 2^w - n`, the values below `m` take `w-1` bits and the others `w`. -/
def encNs (n v : Nat) : List Bool :=
  let w := Nat.log2 n + 1
  let m := 2 ^ w - n
  if v < m then encF (w - 1) v else encF w (v + m)

/-- Reference encoder of AV1 `le(n)`: `n` bytes, least significant first. -/
def encLe : Nat → Nat → List Bool
  | 0, _ => []
  | n + 1, v => encF 8 (v % 256) ++ encLe n (v / 256)

/-- Reference encoder of LEB128 on exactly `n+1` bytes: 7 bits per byte, least significant group
first, continuation bit set on all but the last byte. -/
def encLeb : Nat → Nat → List Bool
  | 0, v => false :: encF 7 (v % 128)
  | n + 1, v => true :: encF 7 (v % 128) ++ encLeb n (v / 128)

/-- Reference encoder of AV1 `uvlc()` (exponential Golomb): `v+1` in binary, preceded by as many
zeros as it has bits after its leading one. -/
def encUvlc (v : Nat) : List Bool :=
  let k := Nat.log2 (v + 1)
  List.replicate k false ++ encF (k + 1) (v + 1)

end Gov1
