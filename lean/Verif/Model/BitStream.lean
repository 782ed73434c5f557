import Verif.Go
/-!
# Model of internal/bitstream/bitstream.go

Go `int` is modelled by unbounded `Nat`/`Int`: every value read here is below `2^63`
(`F` is called in /repo with widths of at most 32, `Leb128` yields at most 56 bits).
-/
namespace Gov1

/-- internal/bitstream/bitstream.go:9-13 `BitStream{Data, Position, Leb128Bytes}`. -/
structure BitStream where
  data : List UInt8
  pos : Nat
  leb : Nat
  deriving DecidableEq, Repr

/-- internal/bitstream/bitstream.go:15-20 `NewBitStream`. -/
def newBitStream (data : List UInt8) : BitStream := { data := data, pos := 0, leb := 0 }

/-- A Go function with a `*bitstream.BitStream` argument: it mutates the stream and may panic. -/
@[reducible] def BM (α : Type) := BitStream → Except Fault (α × BitStream)

namespace BM
/-- plain return -/
protected def pure {α : Type} (a : α) : BM α := fun s => .ok (a, s)
/-- statement sequencing; a panic aborts the rest -/
protected def bind {α β : Type} (m : BM α) (k : α → BM β) : BM β := fun s =>
  match m s with
  | .ok (a, s') => k a s'
  | .error e => .error e
/-- a panic -/
def fail {α : Type} (e : Fault) : BM α := fun _ => .error e
/-- a call that does not touch the stream -/
def lift {α : Type} (r : Res α) : BM α := fun s =>
  match r with
  | .ok a => .ok (a, s)
  | .error e => .error e
/-- read `b.Position` -/
def getPos : BM Nat := fun s => .ok (s.pos, s)
/-- assign `b.Position` -/
def setPos (p : Nat) : BM Unit := fun s => .ok ((), { s with pos := p })
/-- read `b.Leb128Bytes` -/
def getLeb : BM Nat := fun s => .ok (s.leb, s)

instance : Monad BM where
  pure := BM.pure
  bind := BM.bind

end BM

/-- internal/bitstream/bitstream.go:34-36 `readBit`: the bit at `Position`, most significant bit of
each byte first; indexing past the data panics.  (The Go detour through `math.Floor(float64)` is
exact for positions below `2^53`.) -/
def readBit (s : BitStream) : Res Nat :=
  match s.data[s.pos / 8]? with
  | some b => .ok ((b.toNat >>> (8 - s.pos % 8 - 1)) % 2)
  | none => .error .index

/-- One iteration of the loop of `F` (bitstream.go:25-28): read a bit, then advance. -/
def readBit1 : BM Nat := fun s =>
  match readBit s with
  | .ok x => .ok (x, { s with pos := s.pos + 1 })
  | .error e => .error e

/-- Loop of internal/bitstream/bitstream.go:23-31 `F` with accumulator `x`. -/
def fLoop : Nat → Nat → BM Nat
  | 0, x => pure x
  | n + 1, x => do
    let b ← readBit1
    fLoop n (2 * x + b)

/-- internal/bitstream/bitstream.go:23-31 `F(n)`.  A negative `n` reads nothing, which callers
model by `Int.toNat`. -/
def F (n : Nat) : BM Nat := fLoop n 0

/-- internal/bitstream/bitstream.go:38-40 `MoreDataInBistream`. -/
def moreData (s : BitStream) : Bool := s.pos / 8 != s.data.length

/-- The zero-counting loop of internal/bitstream/bitstream.go:46-52 in `Uvlc`.  Each iteration
consumes a bit, so the loop ends by finding a one or by panicking at the end of the data; the fuel
is the number of bits in the whole stream plus one, and running out of it is the `hang` fault
(proved impossible). -/
def uvlcZeros : Nat → Nat → BM Nat
  | 0, _ => BM.fail .hang
  | fuel + 1, z => do
    let done ← F 1
    if done != 0 then pure z else uvlcZeros fuel (z + 1)

/-- internal/bitstream/bitstream.go:43-59 `Uvlc`. -/
def uvlc : BM Nat := fun s =>
  (do
    let leadingZeros ← uvlcZeros (8 * s.data.length + 1) 0
    if leadingZeros ≥ 32 then pure ((1 <<< 32) - 1)
    else do
      let v ← F leadingZeros
      pure (v + (1 <<< leadingZeros) - 1)) s

/-- Assign `b.Leb128Bytes`. -/
def setLeb (n : Nat) : BM Unit := fun s => .ok ((), { s with leb := n })

/-- Loop of internal/bitstream/bitstream.go:65-74 in `Leb128`: `i` counts up, `k = 8 - i`. -/
def lebLoop : Nat → Nat → Nat → BM Nat
  | 0, _, value => pure value
  | k + 1, i, value => do
    let byte ← F 8
    let value := value ||| ((byte &&& 0x7f) <<< (i * 7))
    let n ← BM.getLeb
    setLeb (n + 1)
    if (byte &&& 0x80) != 0 then lebLoop k (i + 1) value else pure value

/-- internal/bitstream/bitstream.go:62-77 `Leb128`. -/
def leb128 : BM Nat := do
  setLeb 0
  lebLoop 8 0 0

/-- internal/bitstream/bitstream.go:80-90 `TrailingBits(nbBits)`: one bit is read even when
`nbBits ≤ 0`, then one more while the decremented counter is positive. -/
def trailingBits (nbBits : Int) : BM Unit := do
  let _ ← F 1
  let _ ← F (nbBits - 1).toNat
  pure ()

/-- internal/bitstream/bitstream.go:93-97 `ByteAlignment`; at most 7 iterations, so the loop is
unfolded with fuel 8. -/
def byteAlignLoop : Nat → BM Unit
  | 0 => pure ()
  | k + 1 => do
    let p ← BM.getPos
    if p &&& 7 != 0 then do
      let _ ← F 1
      byteAlignLoop k
    else pure ()

/-- internal/bitstream/bitstream.go:93-97 `ByteAlignment`. -/
def byteAlignment : BM Unit := byteAlignLoop 8

/-- Go `1 << uint(n-1)`: for `n = 0` the count wraps to `2^64-1` and the result is `0`. -/
def suSignMask (n : Nat) : Nat := if n = 0 then 0 else 1 <<< (n - 1)

/-- internal/bitstream/bitstream.go:100-109 `Su(n)`. -/
def su (n : Nat) : BM Int := do
  let value ← F n
  let signMask := suSignMask n
  if (value &&& signMask) != 0 then pure ((value : Int) - 2 * signMask)
  else pure (value : Int)

/-- Loop of internal/util/util.go:70-77 `FloorLog2` for non-negative `x`: `(number of shifts
until zero) - 1`. -/
def shiftsToZero : Nat → Nat
  | 0 => 0
  | x + 1 => shiftsToZero ((x + 1) / 2) + 1
  decreasing_by omega

/-- internal/util/util.go:70-77 `FloorLog2`, for `x ≥ 0` (`-1` on `0`).  For negative `x` the Go
loop does not terminate (`x >> 1` converges to `-1`); see `floorLog2Int`. -/
def floorLog2 (x : Nat) : Int := (shiftsToZero x : Int) - 1

/-- internal/util/util.go:70-77 `FloorLog2` on a Go `int`. -/
def floorLog2Int (x : Int) : Res Int := if x < 0 then .error .hang else .ok (floorLog2 x.toNat)

/-- internal/bitstream/bitstream.go:112-121 `Ns(n)` on a Go `int`: `w = FloorLog2(n)+1 ≥ 0`, so the
shift never panics; `F(w-1)` with `w = 0` reads nothing. -/
def ns (n : Int) : BM Int := do
  let l ← BM.lift (floorLog2Int n)
  let w := (l + 1).toNat
  let m : Int := (1 <<< w : Nat) - n
  let v ← F (w - 1)
  if (v : Int) < m then pure (v : Int)
  else do
    let extraBit ← F 1
    pure (((v <<< 1 : Nat) : Int) - m + extraBit)

/-- Loop of internal/bitstream/bitstream.go:126-129 in `Le`. -/
def leLoop : Nat → Nat → Nat → BM Nat
  | 0, _, t => pure t
  | k + 1, i, t => do
    let byte ← F 8
    leLoop k (i + 1) (t + (byte <<< (i * 8)))

/-- internal/bitstream/bitstream.go:124-131 `Le(n)`. -/
def le (n : Nat) : BM Nat := leLoop n 0 0

/-- internal/bitstream/bitstream.go:133-136 `S()`. -/
def bitS : BM Nat := BM.fail (.explicit "not implemented: S()")

end Gov1
