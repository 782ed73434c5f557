import Verif.Model.Symbol
/-!
# Programs that read symbols

The block-level syntax functions of internal/tilegroup interact with the tile data only by reading
symbols: `symbol.ReadSymbol(state.Tile<name>Cdf[i]...[j], ...)` and the raw bits of `literal.L`.  They are
modelled as values of `Rd`: a program that returns, panics, or asks for a symbol and goes on with the
reply.  `Rd.exec` runs a program with the arithmetic decoder of `Verif.Model.Symbol` on a bit stream;
`Rd.run` runs it on a list of replies.  `Verif.Props.Rd` proves that they agree.
-/
namespace Gov1

/-- A program reading symbols. -/
inductive Rd (α : Type) : Type where
  /-- return -/
  | ret (a : α)
  /-- panic (or, for `Fault.hang`, an endless loop) -/
  | fail (f : Fault)
  /-- `symbol.ReadSymbol(state.Tile<t>Cdf[idx...], state, b, uh)` -/
  | sym (t : String) (idx : List Int) (k : Nat → Rd α)
  /-- internal/literal/literal.go:32-40 `readBool` -/
  | bit (k : Nat → Rd α)

namespace Rd

/-- Sequencing. -/
protected def bind {α β : Type} : Rd α → (α → Rd β) → Rd β
  | ret a, f => f a
  | fail e, _ => fail e
  | sym t idx k, f => sym t idx (fun s => (k s).bind f)
  | bit k, f => bit (fun s => (k s).bind f)

instance : Monad Rd where
  pure := ret
  bind := Rd.bind

/-- A call that reads nothing. -/
def lift {α : Type} : Res α → Rd α
  | .ok a => ret a
  | .error e => fail e

/-- `symbol.ReadSymbol(state.Tile<t>Cdf[idx...], ...)`. -/
def read (t : String) (idx : List Int) : Rd Nat := sym t idx ret

/-- internal/literal/literal.go:32-40 `readBool`. -/
def readBit : Rd Nat := bit ret

/-- Loop of internal/literal/literal.go:11-18 `L`. -/
def litLoop : Nat → Nat → Rd Nat
  | 0, x => ret x
  | n + 1, x => bit (fun b => litLoop n (2 * x + b))

/-- internal/literal/literal.go:11-18 `L(n)`; a non-positive `n` reads nothing. -/
def lit (n : Int) : Rd Nat := litLoop n.toNat 0

/-- internal/literal/literal.go:21-30 `NS(n)`. -/
def litNs (n : Int) : Rd Int := do
  let l ← lift (floorLog2Int n)
  let w := l + 1
  let m : Int := (1 <<< w.toNat : Nat) - n
  let v ← lit (w - 1)
  if (v : Int) < m then ret (v : Int)
  else do
    let extraBit ← lit 1
    ret (((v <<< 1 : Nat) : Int) - m + extraBit)

end Rd

/-- Where the CDF arrays are: `slot t idx` is the position of the array `state.Tile<t>Cdf[idx...]` in the
store, `none` if the Go index expression panics (or the array cannot be read); `count t idx` is its number
of symbols. -/
structure Layout where
  slot : String → List Int → Option Nat
  count : String → List Int → Option Nat

/-- Run a program on a list of replies, each within the range of its CDF (a reply out of range, or none
left, counts as an index fault).  Returns the replies not used. -/
def Rd.run {α : Type} (L : Layout) : Rd α → List Nat → Res (α × List Nat)
  | ret a, l => .ok (a, l)
  | fail e, _ => .error e
  | sym _ _ _, [] => .error .index
  | sym t idx k, s :: l =>
    match L.count t idx with
    | some n => if s < n then (k s).run L l else .error .index
    | none => .error .index
  | bit _, [] => .error .index
  | bit k, s :: l => if s < 2 then (k s).run L l else .error .index

/-- Run a program with the arithmetic decoder: `cdfs` are the contents of the CDF arrays. -/
def Rd.exec {α : Type} (L : Layout) (disable : Bool) :
    Rd α → List (List Int) → Sym → BM (α × List (List Int) × Sym)
  | ret a, cdfs, st => pure (a, cdfs, st)
  | fail e, _, _ => BM.fail e
  | sym t idx k, cdfs, st =>
    match L.slot t idx with
    | none => BM.fail .index
    | some i => do
      let cdf ← BM.lift (goGet cdfs i)
      let (s, cdf, st) ← readSymbol disable cdf st
      (k s).exec L disable (cdfs.set i cdf) st
  | bit k, cdfs, st => do
    let (s, st) ← readBool disable st
    (k s).exec L disable cdfs st

end Gov1
