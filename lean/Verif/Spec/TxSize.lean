/-!
# Transform sizes

Written from AV1 5.11.15-5.11.17 and 8.3.2, independently of the decoder.
-/
namespace Gov1.Spec

/-- Splitting a transform of width and height `(w, h)`: the longer side is halved, both sides of a square; 4x4 stays. -/
def txHalves (d : Nat × Nat) : Nat × Nat :=
  if d = (4, 4) then d
  else if d.1 = d.2 then (d.1 / 2, d.2 / 2)
  else if d.1 > d.2 then (d.1 / 2, d.2)
  else (d.1, d.2 / 2)

/-- `n` splits. -/
def txSplits : Nat → Nat × Nat → Nat × Nat
  | 0, d => d
  | n + 1, d => txSplits n (txHalves d)

/-- The largest transform of a block. -/
def txMax (d : Nat × Nat) : Nat × Nat := (min 64 d.1, min 64 d.2)

/-- What the neighbour above (or left) contributes to the context of `tx_depth`: the extent of the block if it is inter coded,
otherwise that of its transform, and 0 if there is none. -/
def txNeighbour (avail inter : Bool) (block tx : Nat) : Nat := if !avail then 0 else if inter then block else tx

/-- AV1 reads `tx_depth` for a block (larger than 4x4, not lossless, `TX_MODE_SELECT`) unless it reads the transform tree. -/
def txReadsDepth (skip inter : Bool) : Bool := !skip || !inter

end Gov1.Spec
