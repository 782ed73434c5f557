import Verif.Model.TileGroup
/-!
# Model of internal/tilegroup/decode_partition.go and of the block size tables of
internal/shared/constants.go

`σ` is all decoder state the partition recursion does not look at (arithmetic decoder, contexts, frame
buffers).  How a partition symbol is read and how a block is decoded are parameters; the recursion
returns, besides the state, the list of what it did, in order.
-/
namespace Gov1

/-- internal/shared/constants.go:28-129 `Partition_Subsize[partition][bSize]`.  `BLOCK_INVALID` is 3 in
this code base. -/
def partitionSubsize : List (List Nat) := [
  [0, 3, 3, 3, 3, 3, 6, 3, 3, 9, 3, 3, 12, 3, 3, 15, 3, 3, 3, 3, 3, 3],
  [3, 3, 3, 2, 3, 3, 5, 3, 3, 8, 3, 3, 11, 3, 3, 14, 3, 3, 3, 3, 3, 3],
  [3, 3, 3, 1, 3, 3, 4, 3, 3, 7, 3, 3, 10, 3, 3, 13, 3, 3, 3, 3, 3, 3],
  [3, 3, 3, 0, 3, 3, 3, 3, 3, 6, 3, 3, 9, 3, 3, 12, 3, 3, 3, 3, 3, 3],
  [3, 3, 3, 2, 3, 3, 5, 3, 3, 8, 3, 3, 11, 3, 3, 14, 3, 3, 3, 3, 3, 3],
  [3, 3, 3, 2, 3, 3, 5, 3, 3, 8, 3, 3, 11, 3, 3, 14, 3, 3, 3, 3, 3, 3],
  [3, 3, 3, 1, 3, 3, 4, 3, 3, 7, 3, 3, 10, 3, 3, 13, 3, 3, 3, 3, 3, 3],
  [3, 3, 3, 1, 3, 3, 4, 3, 3, 7, 3, 3, 10, 3, 3, 13, 3, 3, 3, 3, 3, 3],
  [3, 3, 3, 3, 3, 3, 17, 3, 3, 19, 3, 3, 21, 3, 3, 3, 3, 3, 3, 3, 3, 3],
  [3, 3, 3, 3, 3, 3, 16, 3, 3, 18, 3, 3, 20, 3, 3, 3, 3, 3, 3, 3, 3, 3]]

/-- internal/shared/constants.go:189-192 `NUM_4X4_BLOCKS_WIDE`. -/
def num4x4Wide : List Nat := [1, 1, 2, 2, 2, 4, 4, 4, 8, 8, 8, 16, 16, 16, 32, 32, 1, 4, 2, 8, 4, 16]
/-- internal/shared/constants.go:194-197 `NUM_4X4_BLOCKS_HIGH`. -/
def num4x4High : List Nat := [1, 2, 1, 2, 4, 2, 4, 8, 4, 8, 16, 8, 16, 32, 16, 32, 4, 1, 8, 2, 16, 4]
/-- internal/shared/constants.go:186 `MI_WIDTH_LOG2`. -/
def miWidthLog2 : List Nat := [0, 0, 1, 1, 1, 2, 2, 2, 3, 3, 3, 4, 4, 4, 5, 5, 0, 2, 1, 3, 2, 4]
/-- internal/shared/constants.go:187 `MI_HEIGHT_LOG2`. -/
def miHeightLog2 : List Nat := [0, 1, 0, 1, 2, 1, 2, 3, 2, 3, 4, 3, 4, 5, 4, 5, 2, 0, 3, 1, 4, 2]

/-- What the partition recursion does. -/
inductive Ev where
  /-- the partition of the block of size `b` at `(r, c)` was decided to be `p` -/
  | part (b r c p : Nat)
  /-- `decodeBlock(r, c, size)` -/
  | block (r c size : Nat)
  deriving DecidableEq, Repr

/-- Statements in sequence, concatenating their events. -/
def seqB {σ : Type} : List (σ → BM (σ × List Ev)) → σ → BM (σ × List Ev)
  | [], x => pure (x, [])
  | f :: fs, x => do
    let (x, e) ← f x
    let (x, es) ← seqB fs x
    pure (x, e ++ es)

/-- The sums of internal/tilegroup/decode_partition.go:132-141 and 176-185: entries `i` minus entries
`i-1` of the partition CDF. -/
def psum (cdf : List Int) : List Int → Res Int
  | [] => .ok 0
  | i :: is => do
    let a ← goGet cdf i
    let b ← goGet cdf (i - 1)
    let t ← psum cdf is
    .ok (a - b + t)

/-- internal/tilegroup/decode_partition.go:132-147 `splitOrVertElement` and 176-191
`splitOrHorzElement`, from the chosen partition CDF on: `idx` are the entries summed.  Lines 145/189
write `cdf[3]` of a slice of length 3. -/
def splitOrCdf (cdf : List Int) (idx : List Int) : Res (List Int) := do
  let p ← psum cdf idx
  let c ← goSet ([0, 0, 0] : List Int) 0 (((1 <<< 15 : Nat) : Int) - p)
  let c ← goSet c 1 ((1 <<< 15 : Nat) : Int)
  goSet c 3 0

/-- Entries of `splitOrHorzElement` (decode_partition.go:176-185). -/
def horzIdx (b : Nat) : List Int := [2, 3, 4, 6, 7] ++ (if b = 15 then [] else [9])
/-- Entries of `splitOrVertElement` (decode_partition.go:132-141). -/
def vertIdx (b : Nat) : List Int := [1, 3, 4, 5, 6] ++ (if b = 15 then [] else [8])

/-- The operations the recursion uses: `readPart b r c` is `partitionElement` (decode_partition.go:194-213),
`partCdf b r c` the CDF chosen at lines 119-130/163-174 (its computation can panic too), `block r c size`
is `decodeBlock`. -/
structure PartOps (σ : Type) where
  readPart : Nat → Nat → Nat → σ → BM (Nat × σ)
  partCdf : Nat → Nat → Nat → σ → Res (List Int)
  readSplit : List Int → σ → BM (Nat × σ)
  block : Nat → Nat → Nat → σ → BM σ

/-- `decodeBlock` as an event. -/
def blockEv {σ : Type} (ops : PartOps σ) (r c size : Nat) (x : σ) : BM (σ × List Ev) := do
  let x ← ops.block r c size x
  pure (x, [Ev.block r c size])

/-- internal/tilegroup/decode_partition.go:28-50: the choice of the partition. -/
def choosePart {σ : Type} (ops : PartOps σ) (b r c : Nat) (hasRows hasCols : Bool) (x : σ) : BM (Nat × σ) := do
  if b < 3 then pure (0, x)
  else if hasRows ∧ hasCols then ops.readPart b r c x
  else if hasCols then do
    let cdf ← BM.lift (ops.partCdf b r c x)
    let cdf ← BM.lift (splitOrCdf cdf (horzIdx b))
    let (v, x) ← ops.readSplit cdf x
    pure (if v ≠ 0 then 3 else 1, x)
  else if hasRows then do
    let cdf ← BM.lift (ops.partCdf b r c x)
    let cdf ← BM.lift (splitOrCdf cdf (vertIdx b))
    let (v, x) ← ops.readSplit cdf x
    pure (if v ≠ 0 then 3 else 2, x)
  else pure (3, x)

/-- internal/tilegroup/decode_partition.go:52-107: what is done for partition `p`.  `rec` is the
recursive call. -/
def partSteps {σ : Type} (ops : PartOps σ) (rec : Nat → Nat → Nat → σ → BM (σ × List Ev))
    (miRows p r c half quarter sub split : Nat) (hasRows hasCols : Bool) : List (σ → BM (σ × List Ev)) :=
  if p = 0 then [blockEv ops r c sub]
  else if p = 1 then
    [blockEv ops (r + half) c sub] ++ (if hasRows then [blockEv ops (r + half) c sub] else [])
  else if p = 2 then
    [blockEv ops r c sub] ++ (if hasCols then [blockEv ops r (c + half) sub] else [])
  else if p = 3 then
    [rec r c sub, rec r (c + half) sub, rec (r + half) c sub, rec (r + half) (c + half) sub]
  else if p = 4 then
    [blockEv ops r c split, blockEv ops r (c + half) split, blockEv ops (r + half) c split]
  else if p = 5 then
    [blockEv ops r c sub, blockEv ops (r + half) c split, blockEv ops (r + half) (c + half) split]
  else if p = 6 then
    [blockEv ops r c split, blockEv ops (r + half) c split, blockEv ops r (c + half) sub]
  else if p = 7 then
    [blockEv ops r c sub, blockEv ops r (c + half) split, blockEv ops (r + half) (c + half) sub]
  else if p = 8 then
    [blockEv ops (r + quarter * 0) c sub, blockEv ops (r + quarter * 1) c sub,
      blockEv ops (r + quarter * 2) c sub] ++
      (if r + quarter * 3 < miRows then [blockEv ops (r + quarter * 3) c sub] else [])
  else
    [blockEv ops r (c + quarter * 0) sub, blockEv ops r (c + quarter * 1) sub,
      blockEv ops r (c + quarter * 2) sub] ++
      (if c + quarter * 3 < miRows then [blockEv ops r (c + quarter * 3) sub] else [])

/-- internal/tilegroup/decode_partition.go:14-108 `decodePartition(r, c, bSize)`.  The recursion is on
`fuel`; block sizes shrink, so `bSize + 1` is enough for the sizes it is called with (running out is the
fault `hang`, proved impossible).  `AvailU`/`AvailL` (lines 19-20) are part of `σ`. -/
def decodePartition {σ : Type} (ops : PartOps σ) (miRows miCols : Nat) :
    Nat → Nat → Nat → Nat → σ → BM (σ × List Ev)
  | 0, _, _, _, _ => BM.fail .hang
  | fuel + 1, r, c, b, x => do
    if r ≥ miRows ∨ c ≥ miCols then pure (x, [])
    else do
      let num ← BM.lift (goGet num4x4Wide b)
      let half := num >>> 1
      let quarter := half >>> 1
      let hasRows := decide (r + half < miRows)
      let hasCols := decide (c + half < miCols)
      let (p, x) ← choosePart ops b r c hasRows hasCols x
      let row ← BM.lift (goGet partitionSubsize p)
      let sub ← BM.lift (goGet row b)
      let row ← BM.lift (goGet partitionSubsize 3)
      let split ← BM.lift (goGet row b)
      let (x, es) ← seqB (partSteps ops (decodePartition ops miRows miCols fuel) miRows p r c half quarter
        sub split hasRows hasCols) x
      pure (x, Ev.part b r c p :: es)

/-! ## A tile -/

/-- internal/tilegroup/tile_group.go:760-765: one superblock.  `pre` is lines 761-764 (flags, CDEF index and loop restoration syntax), then the partition tree;
the partitions read and the blocks decoded are added to a log. -/
def sbEvents {σ : Type} (ops : PartOps (Sym × σ)) (pre : Nat → Nat → σ → Sym → BM (Sym × σ)) (miRows miCols size : Nat) (r c : Nat)
    (x : σ × List Ev) (st : Sym) : BM (Sym × (σ × List Ev)) := do
  let (st, y) ← pre r c x.1 st
  let ((st, y), es) ← decodePartition ops miRows miCols (size + 1) r c size (st, y)
  pure (st, (y, x.2 ++ es))

/-- The decoding of a tile, with the log of the partitions and blocks. -/
def tileEvents {σ : Type} (use128 : Bool) (miCols miRows : Nat) (reset : σ → σ) (ops : PartOps (Sym × σ)) (pre : Nat → Nat → σ → Sym → BM (Sym × σ)) (run : TileRun)
    (x : σ × List Ev) (st : Sym) : BM (Sym × (σ × List Ev)) :=
  decodeTile use128 miCols miRows (fun x => (reset x.1, x.2)) (sbEvents ops pre miRows miCols (sbSizeArg use128)) run x st

end Gov1
