import Verif.Spec.Bits

/-!
# The coding of the tile layout (AV1 5.9.15 `tile_info`), 64x64 superblocks

Sizes are in superblocks; the positions a decoder reports are in units of 4 samples, 16 to a superblock.
-/

namespace Gov1.Spec

/-- The number of bits that number `n` things. -/
def log2Up (n : Nat) : Nat := if n ≤ 1 then 0 else Nat.log2 (n - 1) + 1

/-- How often something of size `n` must be halved so that no part is larger than `part`. -/
def halvings (part n : Nat) : Nat := log2Up ((n + part - 1) / part)

/-- An encoder's choice of tiles. -/
inductive TileLayout where
  /-- all columns and all rows of one size: the frame is halved this often in each direction -/
  | uniform (colsLog2 rowsLog2 : Nat)
  /-- the widths of the columns and the heights of the rows -/
  | explicit (widths heights : List Nat)

/-- What an encoder writes into `tile_info`. -/
structure TileCoding where
  layout : TileLayout
  /-- the tile whose probabilities are kept -/
  contextTile : Nat := 0
  /-- the number of bytes of a tile size -/
  sizeBytes : Nat := 4

/-- Superblocks that `mi` units of 4 samples take. -/
def superblocks (mi : Nat) : Nat := (mi + 15) / 16

/-- A tile is at most 64 superblocks wide. -/
def minColsLog2 (sbCols : Nat) : Nat := halvings 64 sbCols

/-- A tile has at most 2304 superblocks. -/
def minTilesLog2 (sbCols sbRows : Nat) : Nat := max (minColsLog2 sbCols) (halvings 2304 (sbRows * sbCols))

/-- There are at most 64 columns, and at most 64 rows. -/
def maxLog2 (sb : Nat) : Nat := log2Up (min sb 64)

/-- The height a row may have, given the widths of the columns. -/
def maxHeight (sbCols sbRows : Nat) (widths : List Nat) : Nat :=
  max ((if minTilesLog2 sbCols sbRows = 0 then sbRows * sbCols else sbRows * sbCols / 2 ^ (minTilesLog2 sbCols sbRows + 1)) / widths.foldr max 0) 1

/-- One bit for each step above the least number, and one to stop before the greatest. -/
def encSteps (lo hi v : Nat) : List Bool := List.replicate (v - lo) true ++ if v < hi then [false] else []

/-- Each size, knowing what remains and the limit. -/
def encSizes (limit : Nat) : List Nat → List Bool
  | [] => []
  | w :: ws => encNs (min (w + ws.sum) limit) (w - 1) ++ encSizes limit ws

/-- The size of uniform tiles. -/
def uniformSize (sb log2 : Nat) : Nat := (sb + 2 ^ log2 - 1) / 2 ^ log2

/-- Sizes of the parts of a uniform split: all of one size but the last. -/
def uniformParts (sb log2 : Nat) : Nat := (sb + uniformSize sb log2 - 1) / uniformSize sb log2

namespace TileLayout

/-- Numbers of bits for a column and a row. -/
def logs : TileLayout → Nat × Nat
  | uniform c r => (c, r)
  | explicit w h => (log2Up w.length, log2Up h.length)

/-- Numbers of columns and rows. -/
def counts (sbCols sbRows : Nat) : TileLayout → Nat × Nat
  | uniform c r => (uniformParts sbCols c, uniformParts sbRows r)
  | explicit w h => (w.length, h.length)

/-- Where column `k` starts. -/
def colStart (sbCols : Nat) (t : TileLayout) (k : Nat) : Nat :=
  match t with
  | uniform c _ => k * uniformSize sbCols c
  | explicit w _ => (w.take k).sum

/-- Where row `k` starts. -/
def rowStart (sbRows : Nat) (t : TileLayout) (k : Nat) : Nat :=
  match t with
  | uniform _ r => k * uniformSize sbRows r
  | explicit _ h => (h.take k).sum

/-- The layout can be coded. -/
def Valid (sbCols sbRows : Nat) : TileLayout → Prop
  | uniform c r => (minColsLog2 sbCols ≤ c ∧ c ≤ maxLog2 sbCols) ∧ minTilesLog2 sbCols sbRows - c ≤ r ∧ r ≤ maxLog2 sbRows
  | explicit w h => ((∀ x ∈ w, 1 ≤ x ∧ x ≤ 64) ∧ w.sum = sbCols) ∧ (∀ x ∈ h, 1 ≤ x ∧ x ≤ maxHeight sbCols sbRows w) ∧ h.sum = sbRows

instance (a b : Nat) (t : TileLayout) : Decidable (t.Valid a b) := by cases t <;> (unfold Valid; infer_instance)

/-- The bits of the layout. -/
def enc (sbCols sbRows : Nat) : TileLayout → List Bool
  | uniform c r => [true] ++ (encSteps (minColsLog2 sbCols) (maxLog2 sbCols) c ++ encSteps (minTilesLog2 sbCols sbRows - c) (maxLog2 sbRows) r)
  | explicit w h => [false] ++ (encSizes 64 w ++ encSizes (maxHeight sbCols sbRows w) h)

end TileLayout

namespace TileCoding

/-- The bits of `tile_info`. -/
def enc (miCols miRows : Nat) (t : TileCoding) : List Bool :=
  t.layout.enc (superblocks miCols) (superblocks miRows) ++
  if t.layout.logs = (0, 0) then [] else encF (t.layout.logs.1 + t.layout.logs.2) t.contextTile ++ encF 2 (t.sizeBytes - 1)

/-- The choices can be coded. -/
structure Valid (miCols miRows : Nat) (t : TileCoding) : Prop where
  layout : t.layout.Valid (superblocks miCols) (superblocks miRows)
  tile : t.contextTile < 2 ^ (t.layout.logs.1 + t.layout.logs.2)
  bytes : 1 ≤ t.sizeBytes ∧ t.sizeBytes ≤ 4

/-- The boundaries of the columns, in units. -/
def colEdges (miCols : Nat) (t : TileCoding) : List Nat :=
  ((List.range (t.layout.counts (superblocks miCols) 0).1).map fun k => 16 * t.layout.colStart (superblocks miCols) k) ++ [miCols]

/-- The boundaries of the rows, in units. -/
def rowEdges (miRows : Nat) (t : TileCoding) : List Nat :=
  ((List.range (t.layout.counts 0 (superblocks miRows)).2).map fun k => 16 * t.layout.rowStart (superblocks miRows) k) ++ [miRows]

end TileCoding

end Gov1.Spec
