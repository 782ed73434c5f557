import Verif.Spec.Bits
import Verif.Model.TileGroup
/-!
# Specification of a tile group's layout

Written from the AV1 specification 5.11.1 (`tile_group_obu`); uses only the record types of the model.
-/
namespace Gov1.Spec

/-- How a tile group says which tiles it contains: with a single tile nothing is coded; otherwise a
flag, and when it is set the first and last tile number on `TileColsLog2 + TileRowsLog2` bits each.
The absence of numbers means all tiles. -/
inductive CodesRange (t : Tiles) : List Bool → Nat → Int → Prop
  | single (h : t.tileCols * t.tileRows ≤ 1) :
      CodesRange t [] 0 ((t.tileCols * t.tileRows : Nat) - 1)
  | all (h : 1 < t.tileCols * t.tileRows) :
      CodesRange t [false] 0 ((t.tileCols * t.tileRows : Nat) - 1)
  | some (h : 1 < t.tileCols * t.tileRows) (first last : Nat)
      (hf : first < 2 ^ (t.tileColsLog2 + t.tileRowsLog2))
      (hl : last < 2 ^ (t.tileColsLog2 + t.tileRowsLog2)) :
      CodesRange t (true :: (encF (t.tileColsLog2 + t.tileRowsLog2) first
        ++ encF (t.tileColsLog2 + t.tileRowsLog2) last)) first last

/-- Number of bytes needed for `n` bits. -/
def bytesFor (n : Nat) : Nat := (n + 7) / 8

/-- The tiles lie one after the other between the bit positions `p` and `e` of the data: each tile but
the last is preceded by its size minus one on `tsb` little-endian bytes, the last one takes what is
left; no tile is empty. -/
def Layout (data : List UInt8) (tsb : Nat) : List TileRun → Nat → Nat → Prop
  | [], p, e => e = p
  | [r], p, e => r.start = p ∧ 1 ≤ r.size ∧ (e : Int) = p + 8 * r.size
  | r :: r' :: rs, p, e =>
      1 ≤ r.size ∧
      (∃ rest, (bytesBits data).drop p = encLe tsb (r.size - 1).toNat ++ rest) ∧
      r.size ≤ 256 ^ tsb ∧
      r.start = p + 8 * tsb ∧
      Layout data tsb (r' :: rs) (p + 8 * tsb + 8 * r.size.toNat) e

/-- The tile has the bounds of tile number `num` in raster order. -/
def HasBounds (t : Tiles) (r : TileRun) : Prop :=
  t.miRowStarts[r.num / t.tileCols]? = Option.some r.rowStart ∧
  t.miRowStarts[r.num / t.tileCols + 1]? = Option.some r.rowEnd ∧
  t.miColStarts[r.num % t.tileCols]? = Option.some r.colStart ∧
  t.miColStarts[r.num % t.tileCols + 1]? = Option.some r.colEnd

/-- The 4x4 unit at row `y`, column `x` belongs to the tile. -/
def InRun (r : TileRun) (y x : Nat) : Prop :=
  r.rowStart ≤ y ∧ y < r.rowEnd ∧ r.colStart ≤ x ∧ x < r.colEnd

end Gov1.Spec
