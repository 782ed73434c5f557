import Verif.Spec.Bits
import Verif.Model.Symbol
/-!
# Specification of adaptive arithmetic coding

The reference *encoder* below is the textbook range coder with unbounded integers, driven by the same
cumulative distributions as the decoder.  It does not use any function of the decoder model.
-/
namespace Gov1.Spec

/-- A cumulative distribution of `N` symbols (`1 ≤ N ≤ 16`) followed by an adaptation counter: the
`N` entries are at least 1, non-decreasing, end with `2^15`; the counter is at most 32. -/
structure ValidCdf (cdf : List Int) : Prop where
  len : 2 ≤ cdf.length ∧ cdf.length ≤ 17
  first : 1 ≤ cdf.getD 0 0
  mono : ∀ i j, i ≤ j → j + 1 < cdf.length → cdf.getD i 0 ≤ cdf.getD j 0
  last : cdf.getD (cdf.length - 2) 0 = 2 ^ 15
  cnt : 0 ≤ cdf.getD (cdf.length - 1) 0 ∧ cdf.getD (cdf.length - 1) 0 ≤ 32

/-- Number of symbols of a CDF array. -/
def symbols (cdf : List Int) : Nat := cdf.length - 1

/-- Lower end of the sub-interval of symbol `s` within a range of size `R` (AV1 8.2.6): the inverse
cumulative probability scaled to the range, plus a minimum of 4 for each later symbol. -/
def lowEnd (R : Int) (cdf : List Int) (s : Nat) : Int :=
  (R / 256 * ((2 ^ 15 - cdf.getD s 0) / 64)) / 2 + 4 * ((symbols cdf : Int) - s - 1)

/-- Upper end of the sub-interval of symbol `s`: the whole range, or the lower end of the previous
symbol. -/
def highEnd (R : Int) (cdf : List Int) (s : Nat) : Int := if s = 0 then R else lowEnd R cdf (s - 1)

/-- Adaptation rate of a CDF (AV1 8.2.6). -/
def adaptRate (cdf : List Int) : Nat :=
  3 + (if cdf.getD (symbols cdf) 0 > 15 then 1 else 0) + (if cdf.getD (symbols cdf) 0 > 31 then 1 else 0)
    + min (Nat.log2 (symbols cdf)) 2

/-- A CDF after coding `s`: entries below `s` decay towards 0, the others towards `2^15`; the counter
saturates at 32. -/
def adapted (cdf : List Int) (s : Nat) : List Int :=
  cdf.mapIdx fun i c =>
    if i + 1 < symbols cdf then
      if i < s then c - c / 2 ^ adaptRate cdf else c + (2 ^ 15 - c) / 2 ^ adaptRate cdf
    else if i = symbols cdf then (if c < 32 then c + 1 else c)
    else c

/-- State of the reference encoder: the current interval `[low, low+range)` at a resolution of
`15 + bits` bits. -/
structure Enc where
  low : Int
  range : Int
  bits : Nat

/-- Initial encoder interval: everything. -/
def encInit : Enc := ⟨0, 2 ^ 15, 0⟩

/-- Encode one symbol: narrow to the symbol's sub-interval, then double until the range has 16 bits. -/
def encSymbol (e : Enc) (cdf : List Int) (s : Nat) : Enc :=
  let width := highEnd e.range cdf s - lowEnd e.range cdf s
  let b := 15 - Nat.log2 width.toNat
  ⟨(e.low + lowEnd e.range cdf s) * 2 ^ b, width * 2 ^ b, e.bits + b⟩

/-- The CDF in use: one of the adaptive contexts, or the fixed even one of a raw bit. -/
def pick (cdfs : List (List Int)) : Option Nat → List Int
  | some i => cdfs.getD i []
  | none => [2 ^ 14, 2 ^ 15, 0]

/-- The contexts after coding `s` with context choice `k`. -/
def updated (disable : Bool) (cdfs : List (List Int)) (k : Option Nat) (s : Nat) : List (List Int) :=
  match k with
  | some i => if disable then cdfs else cdfs.set i (adapted (cdfs.getD i []) s)
  | none => cdfs

/-- Encode a message.  `sel` chooses the context of each symbol from the symbols coded before it. -/
def encode (disable : Bool) (sel : List Nat → Option Nat) :
    List Nat → List Nat → List (List Int) → Enc → Enc × List (List Int)
  | [], _, cdfs, e => (e, cdfs)
  | s :: msg, hist, cdfs, e =>
    encode disable sel msg (hist ++ [s]) (updated disable cdfs (sel hist) s)
      (encSymbol e (pick cdfs (sel hist)) s)

/-- The message is codable: each chosen context exists and each symbol is one of its symbols. -/
def Codable (disable : Bool) (sel : List Nat → Option Nat) :
    List Nat → List Nat → List (List Int) → Prop
  | [], _, _ => True
  | s :: msg, hist, cdfs =>
    (∀ i, sel hist = some i → i < cdfs.length) ∧ s < symbols (pick cdfs (sel hist)) ∧
    Codable disable sel msg (hist ++ [s]) (updated disable cdfs (sel hist) s)

/-- The first `n` bits of some data followed by zeros. -/
def padBits (bits : List Bool) (n : Nat) : List Bool := (bits ++ List.replicate n false).take n

/-- The bits `code` of a tile carry the final interval of the encoder: read at the encoder's
resolution (zero bits assumed after the end) and complemented, they denote a point of it. -/
def Carries (code : List Bool) (e : Enc) : Prop :=
  e.low ≤ 2 ^ (15 + e.bits) - 1 - bitsVal (padBits code (15 + e.bits)) ∧
  2 ^ (15 + e.bits) - 1 - bitsVal (padBits code (15 + e.bits)) < e.low + e.range

end Gov1.Spec

namespace Gov1

/-- A client decoding `n` symbols: the context of each is chosen by `sel` from the symbols decoded so
far (`none`: a raw bit, `literal.readBool`); the context arrays are updated in place. -/
def decodeMany (disable : Bool) (sel : List Nat → Option Nat) :
    Nat → List Nat → List (List Int) → Sym → BM (List Nat × List (List Int) × Sym)
  | 0, hist, cdfs, st => pure (hist, cdfs, st)
  | n + 1, hist, cdfs, st =>
    match sel hist with
    | some i => do
      let cdf ← BM.lift (goGet cdfs i)
      let (s, cdf, st) ← readSymbol disable cdf st
      decodeMany disable sel n (hist ++ [s]) (cdfs.set i cdf) st
    | none => do
      let (s, st) ← readBool disable st
      decodeMany disable sel n (hist ++ [s]) cdfs st

end Gov1
