import Verif.Model.Util
/-!
# Model of internal/symbol/symbol.go, internal/literal/literal.go and of the numeric part of
`initSymbol` / `exitSymbol` (internal/tilegroup/tile_group.go)

CDF arrays are lists of Go `int`s: `N` cumulative values and a counter.  A CDF passed to `ReadSymbol`
is mutated in place in Go; here the new contents are returned.
-/
namespace Gov1

/-- internal/state/state.go: the fields `SymbolRange`, `SymbolValue`, `SymbolMaxBits`. -/
structure Sym where
  range : Int
  value : Int
  maxBits : Int
  deriving DecidableEq, Repr

/-- Loop of internal/symbol/symbol.go:25-35.  The list is `cdf[symbol:]` (counter included: the Go
loop would index it), `prev` the last `cur`.  Returns `(symbol, prev, cur)` at the `break`; indexing
past the slice panics. -/
def symLoop (R V : Int) (N : Nat) : List Int → Nat → Int → Res (Nat × Int × Int)
  | [], _, _ => .error .index
  | c :: rest, symbol, prev =>
    let f := (1 <<< 15 : Nat) - c
    let cur := ((R >>> (8 : Nat)) * (f >>> (6 : Nat))) >>> (1 : Nat)
    let cur := cur + 4 * ((N : Int) - symbol - 1)
    if V ≥ cur then .ok (symbol, prev, cur) else symLoop R V N rest (symbol + 1) cur

/-- Loop of internal/symbol/symbol.go:51-61 over `cdf[i:]`, `k = N-1-i` iterations left. -/
def adaptLoop (rate : Nat) (symbol : Nat) : Nat → Nat → Int → List Int → List Int
  | 0, _, _, cs => cs
  | _ + 1, _, _, [] => []
  | k + 1, i, tmp, c :: cs =>
    let tmp : Int := if i = symbol then ((1 <<< 15 : Nat) : Int) else tmp
    let c := if tmp < c then c - ((c - tmp) >>> rate) else c + ((tmp - c) >>> rate)
    c :: adaptLoop rate symbol k (i + 1) tmp cs

/-- Go `util.Int(bool)` (internal/util/util.go:164-169). -/
def intOf (b : Bool) : Int := if b then 1 else 0

/-- internal/symbol/symbol.go:48-63: the adaptation of `cdf` (with `N = len(cdf)-1 ≥ 1`).  The rate
is non-negative for every counter value. -/
def adaptCdf (symbol : Nat) (cdf : List Int) : Res (List Int) := do
  let N := cdf.length - 1
  let cnt ← goGet cdf N
  let lg ← floorLog2Int N
  let rate := 3 + intOf (cnt > 15) + intOf (cnt > 31) + minI lg 2
  let cdf := adaptLoop rate.toNat symbol (N - 1) 0 0 cdf
  goSet cdf N (cnt + intOf (cnt < 32))

/-- internal/symbol/symbol.go:14-66 `ReadSymbol(cdf, state, b, uh)`; `disable` is
`uh.DisableCdfUpdate`.  Returns the symbol, the new contents of `cdf` and the new decoder state.
The XOR operands are never negative (`SymbolValue ≥ cur` at the break), so `Nat` XOR is exact. -/
def readSymbol (disable : Bool) (cdf : List Int) (st : Sym) : BM (Nat × List Int × Sym) := do
  let N : Int := (cdf.length : Int) - 1
  if N < 1 then BM.fail (.explicit "Violated precondition") else do
  let last ← BM.lift (goGet cdf (N - 1))
  if last ≠ (1 <<< 15 : Nat) then BM.fail (.explicit "Violated precondition") else do
  let (symbol, prev, cur) ← BM.lift (symLoop st.range st.value N.toNat cdf 0 st.range)
  let range := prev - cur
  let value := st.value - cur
  let lg ← BM.lift (floorLog2Int range)
  let bits := 15 - lg
  if bits < 0 then BM.fail .shift else do
  let range := range <<< bits.toNat
  let numBits := minI bits (maxI 0 st.maxBits)
  let newData ← F numBits.toNat
  let paddedData := newData <<< (bits - numBits).toNat
  let value : Int := ((paddedData ^^^ (((value.toNat + 1) <<< bits.toNat) - 1) : Nat) : Int)
  let st : Sym := { range := range, value := value, maxBits := st.maxBits - bits }
  let cdf ← if disable then pure cdf else BM.lift (adaptCdf symbol cdf)
  pure (symbol, cdf, st)

/-- internal/literal/literal.go:32-40 `readBool`: a fresh CDF, discarded afterwards. -/
def readBool (disable : Bool) (st : Sym) : BM (Nat × Sym) := do
  let (symbol, _, st) ← readSymbol disable [(1 <<< 14 : Nat), (1 <<< 15 : Nat), 0] st
  pure (symbol, st)

/-- Loop of internal/literal/literal.go:11-18 `L`. -/
def litLoop (disable : Bool) : Nat → Nat → Sym → BM (Nat × Sym)
  | 0, x, st => pure (x, st)
  | n + 1, x, st => do
    let (b, st) ← readBool disable st
    litLoop disable n (2 * x + b) st

/-- internal/literal/literal.go:11-18 `L(n)`; a negative `n` reads nothing. -/
def lit (disable : Bool) (n : Int) (st : Sym) : BM (Nat × Sym) := litLoop disable n.toNat 0 st

/-- internal/literal/literal.go:21-30 `NS(n)`. -/
def litNs (disable : Bool) (n : Int) (st : Sym) : BM (Int × Sym) := do
  let l ← BM.lift (floorLog2Int n)
  let w := l + 1
  let m : Int := (1 <<< w.toNat : Nat) - n
  let (v, st) ← lit disable (w - 1) st
  if (v : Int) < m then pure ((v : Int), st)
  else do
    let (extraBit, st) ← lit disable 1 st
    pure (((v <<< 1 : Nat) : Int) - m + extraBit, st)

/-- internal/tilegroup/tile_group.go:472-480 (first part of `initSymbol(sz)`): the arithmetic decoder
state.  The rest of the function (482-579) makes the tile contexts refer to the frame contexts, see
`Verif.Model.Cdfs`. -/
def initSymbol (sz : Int) : BM Sym := do
  let numBits := minI (sz * 8) 15
  let buf ← F numBits.toNat
  let paddedBuf := buf <<< (15 - numBits).toNat
  pure { value := ((((1 <<< 15) - 1) ^^^ paddedBuf : Nat) : Int),
         range := (1 <<< 15 : Nat), maxBits := 8 * sz - 15 }

/-- internal/tilegroup/tile_group.go:583-589 (first part of `exitSymbol`): the conformance check and
the jump to the end of the tile data. -/
def exitSymbol (st : Sym) : BM Unit := do
  if st.maxBits < -14 then BM.fail (.explicit "Violating bitstream conformance!") else do
  let p ← BM.getPos
  BM.setPos (p + (maxI 0 st.maxBits).toNat)

end Gov1
