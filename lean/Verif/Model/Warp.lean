import Verif.Model.TxBlock
import Verif.Model.InterTables
/-!
# Samples for local warps, and wedge masks

internal/tilegroup/inter_block_mode_info.go:268-395 (`findWarpSamples`, `addSample`) and internal/wedgemask/wedge_mask.go.
-/
namespace Gov1

/-! ## Samples -/

/-- What `findWarpSamples` reads. -/
structure WarpCtx where
  miRow : Nat := 0
  miCol : Nat := 0
  miRows : Nat := 0
  miCols : Nat := 0
  /-- the tile: `MiRowStart, MiRowEnd, MiColStart, MiColEnd` -/
  rowStart : Nat := 0
  rowEnd : Nat := 0
  colStart : Nat := 0
  colEnd : Nat := 0
  miSize : Nat := 0
  availU : Bool := false
  availL : Bool := false
  /-- `state.RefFrame[0]` -/
  refFrame0 : Int := 0
  /-- `state.RefFrames, state.MiSizes` -/
  refFrames : List (List (Int × Int)) := []
  miSizes : List (List Nat) := []
  /-- `t.Mvs` (first vector) -/
  mvs : List (List ((Int × Int) × (Int × Int))) := []

/-- `t.NumSamples, t.NumSamplesScanned`. -/
structure Samples where
  num : Nat := 0
  scanned : Nat := 0
deriving DecidableEq, Repr

/-- internal/tilegroup/util.go:9-14 `isInside`. -/
def insideTile (c : WarpCtx) (r k : Int) : Bool :=
  decide (k ≥ c.colStart) && decide (k < c.colEnd) && decide (r ≥ c.rowStart) && decide (r < c.rowEnd)

/-- inter_block_mode_info.go:352-386: the sample of a cell that matches.  `cand` is a slice that is never made, the first assignment
(line 367) panics; what follows is not reached.  `x & ^(n - 1)` is the multiple of the power of two `n` below `x`. -/
def takeSample (c : WarpCtx) (r k : Int) : Res Samples := do
  let sz ← gget c.miSizes r k
  let w4 ← goGet num4x4Wide sz
  let h4 ← goGet num4x4High sz
  let _ ← gget c.mvs (r / h4 * h4) (k / w4 * w4)
  .error .index

/-- inter_block_mode_info.go:342-353: the checks of the references of the cell; `LEAST_SQUARES_SAMPLES_MAX` is 8, `NONE` -1. -/
def sampleCell (c : WarpCtx) (r k : Int) (s : Samples) : Res Samples := do
  let rf ← gget c.refFrames r k
  if rf.1 = 0 then pure s
  else if rf.1 ≠ c.refFrame0 then pure s
  else if rf.2 ≠ -1 then pure s
  else takeSample c r k

/-- inter_block_mode_info.go:329-395 `addSample`. -/
def addSample (c : WarpCtx) (dr dc : Int) (s : Samples) : Res Samples :=
  if s.scanned ≥ 8 then pure s
  else if !insideTile c (c.miRow + dr) (c.miCol + dc) then pure s
  else sampleCell c (c.miRow + dr) (c.miCol + dc) s

/-- inter_block_mode_info.go:294-300: the blocks above, if the block is wider than the first of them. -/
def scanAbove (c : WarpCtx) (w4 : Nat) : Nat → Nat → Samples → Res Samples
  | 0, i, s => if (i : Int) < min (w4 : Int) ((c.miCols : Int) - c.miCol) then .error .hang else pure s
  | fuel + 1, i, s =>
    if (i : Int) < min (w4 : Int) ((c.miCols : Int) - c.miCol) then do
      let sz ← gget c.miSizes ((c.miRow : Int) - 1) ((c.miCol + i : Nat) : Int)
      let srcW ← goGet num4x4Wide sz
      let s ← addSample c (-1) i s
      scanAbove c w4 fuel (i + min w4 srcW) s
    else pure s

/-- inter_block_mode_info.go:317-323: the blocks to the left. -/
def scanLeft (c : WarpCtx) (h4 : Nat) : Nat → Nat → Samples → Res Samples
  | 0, i, s => if (i : Int) < min (h4 : Int) ((c.miRows : Int) - c.miRow) then .error .hang else pure s
  | fuel + 1, i, s =>
    if (i : Int) < min (h4 : Int) ((c.miRows : Int) - c.miRow) then do
      let sz ← gget c.miSizes ((c.miRow + i : Nat) : Int) ((c.miCol : Int) - 1)
      let srcH ← goGet num4x4High sz
      let s ← addSample c i (-1) s
      scanLeft c h4 fuel (i + min h4 srcH) s
    else pure s

/-- inter_block_mode_info.go:279-302: the samples above, with `doTopLeft` and `doTopRight`.  `MiCol & (srcW - 1)` is the remainder of the
division by the power of two `srcW`. -/
def warpAbove (c : WarpCtx) (w4 : Nat) (s : Samples) : Res (Samples × Bool × Bool) :=
  if c.availU then do
    let sz ← gget c.miSizes ((c.miRow : Int) - 1) (c.miCol : Int)
    let srcW ← goGet num4x4Wide sz
    if w4 ≤ srcW then do
      let s ← addSample c (-1) 0 s
      pure (s, decide (c.miCol % srcW = 0), decide ((srcW : Int) - (c.miCol % srcW : Nat) ≤ w4))
    else do
      let s ← scanAbove c w4 w4 0 s
      pure (s, true, true)
  else pure (s, true, true)

/-- inter_block_mode_info.go:303-325: the samples to the left, with `doTopLeft`. -/
def warpLeft (c : WarpCtx) (h4 : Nat) (tl : Bool) (s : Samples) : Res (Samples × Bool) :=
  if c.availL then do
    let sz ← gget c.miSizes (c.miRow : Int) ((c.miCol : Int) - 1)
    let srcH ← goGet num4x4High sz
    if h4 ≤ srcH then do
      let s ← addSample c 0 (-1) s
      pure (s, tl && decide (c.miRow % srcH = 0))
    else do
      let s ← scanLeft c h4 h4 0 s
      pure (s, tl)
  else pure (s, tl)

/-- inter_block_mode_info.go:268-343 `findWarpSamples`, the sample at the top left. -/
def warpTopLeft (c : WarpCtx) (tl : Bool) (s : Samples) : Res Samples :=
  if tl then addSample c (-1) (-1) s else pure s

/-- inter_block_mode_info.go:327-336: the corners. -/
def warpCorners (c : WarpCtx) (w4 h4 : Nat) (tl tr : Bool) (s : Samples) : Res Samples := do
  let s ← warpTopLeft c tl s
  if tr && decide (max w4 h4 ≤ 16) then addSample c (-1) w4 s else pure s

/-- inter_block_mode_info.go:268-343 `findWarpSamples`. -/
def findWarpSamples (c : WarpCtx) : Res Samples := do
  let w4 ← goGet num4x4Wide c.miSize
  let h4 ← goGet num4x4High c.miSize
  let a ← warpAbove c w4 {}
  let l ← warpLeft c h4 a.2.1 a.1
  let s ← warpCorners c w4 h4 l.2 a.2.2 l.1
  pure (if s.num = 0 ∧ s.scanned > 0 then { s with num := 1 } else s)

/-! ## Wedge masks -/

/-- wedge_mask.go:20 `Wedge_Bits`. -/
def wedgeBits : List Nat := [0, 0, 0, 4, 4, 4, 4, 4, 4, 4, 0, 0, 0, 0, 0, 0, 0, 0, 4, 4, 0, 0]

/-- wedge_mask.go:43-76 `Wedge_Codebook`: direction, offsets in eighths of the width and height; 0 `WEDGE_HORIZONTAL`, 1 `WEDGE_VERTICAL`,
2 `WEDGE_OBLIQUE27`, 3 `WEDGE_OBLIQUE63`, 4 `WEDGE_OBLIQUE117`, 5 `WEDGE_OBLIQUE153`. -/
def wedgeCodebook : List (List (Nat × Nat × Nat)) := [
  [(2, 4, 4), (3, 4, 4), (4, 4, 4), (5, 4, 4), (0, 4, 2), (0, 4, 4), (0, 4, 6), (1, 4, 4),
   (2, 4, 2), (2, 4, 6), (5, 4, 2), (5, 4, 6), (3, 2, 4), (3, 6, 4), (4, 2, 4), (4, 6, 4)],
  [(2, 4, 4), (3, 4, 4), (4, 4, 4), (5, 4, 4), (1, 2, 4), (1, 4, 4), (1, 6, 4), (0, 4, 4),
   (2, 4, 2), (2, 4, 6), (5, 4, 2), (5, 4, 6), (3, 2, 4), (3, 6, 4), (4, 2, 4), (4, 6, 4)],
  [(2, 4, 4), (3, 4, 4), (4, 4, 4), (5, 4, 4), (0, 4, 2), (0, 4, 6), (1, 2, 4), (1, 6, 4),
   (2, 4, 2), (2, 4, 6), (5, 4, 2), (5, 4, 6), (3, 2, 4), (3, 6, 4), (4, 2, 4), (4, 6, 4)]]

/-- wedge_mask.go:142-153 `blockShape`. -/
def blockShape (sz : Nat) : Res Nat := do
  let w4 ← goGet num4x4Wide sz
  let h4 ← goGet num4x4High sz
  pure (if h4 > w4 then 0 else if h4 < w4 then 1 else 2)

/-- wedge_mask.go:130-140 `getWedgeDirection`, `getWedgeXoff`, `getWedgeYoff`. -/
def wedgeEntry (sz index : Nat) : Res (Nat × Nat × Nat) := do
  let s ← blockShape sz
  gget wedgeCodebook (s : Int) (index : Int)

/-- Go `MasterMask[d][i][j] = v`. -/
def mset (M : List (List (List Int))) (d i j : Nat) (v : Int) : Res (List (List (List Int))) := do
  let m ← goGet M d
  let m ← gset m i j v
  goSet M d m

/-- Go `MasterMask[d][i][j]`. -/
def mget (M : List (List (List Int))) (d i j : Nat) : Res Int := do
  let m ← goGet M d
  gget m i j

/-- wedge_mask.go:86-92: two rows (`2 n`, `2 n + 1`) of the column `j`; `shift` is `16 - n` before the decrement. -/
def masterRows (j n : Nat) (M : List (List (List Int))) : Res (List (List (List Int))) := do
  let e ← goGet wedgeObliqueEven (clip3 0 63 ((j : Int) - (16 - (n : Int))))
  let M ← mset M 3 (2 * n) j e
  let o ← goGet wedgeObliqueOdd (clip3 0 63 ((j : Int) - (16 - (n : Int) - 1)))
  let M ← mset M 3 (2 * n + 1) j o
  let v ← goGet wedgeVertical j
  let M ← mset M 1 (2 * n) j v
  mset M 1 (2 * n + 1) j v

/-- wedge_mask.go:97-103: the other directions, at (`i`, `j`). -/
def masterTurn (i j : Nat) (M : List (List (List Int))) : Res (List (List (List Int))) := do
  let m ← mget M 3 i j
  let M ← mset M 2 j i m
  let M ← mset M 4 i (63 - j) (64 - m)
  let M ← mset M 5 (63 - j) i (64 - m)
  let v ← mget M 1 i j
  mset M 0 j i v

/-- wedge_mask.go:83-105: both loops over `MasterMask`. -/
def masterMasks (M : List (List (List Int))) : Res (List (List (List Int))) := do
  let M ← forN (fun j M => forN (fun n M => masterRows j n M) 32 0 M) 64 0 M
  forN (fun i M => forN (fun j M => masterTurn i j M) 64 0 M) 64 0 M

/-- wedge_mask.go:80-128 `InitialiseWedgeMaskTable`: `var MasterMask [][][]int` is nil, so only the loops over it are modelled. -/
def initWedge : Res (List (List (List Int))) := masterMasks []

end Gov1
