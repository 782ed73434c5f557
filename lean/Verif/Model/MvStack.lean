import Verif.Model.Mv
/-!
# The stack of motion vector candidates

internal/tilegroup/find_mv_stack.go.
-/
namespace Gov1

/-- A cell with the two vectors of a block. -/
abbrev MvPair := MVec × MVec

/-- What the process reads. -/
structure MvEnv where
  hdr : MvHdr := {}
  tile : TileBox := {}
  miRow : Nat := 0
  miCol : Nat := 0
  miSize : Nat := 0
  miRows : Nat := 0
  miCols : Nat := 0
  /-- `state.RefFrame` -/
  refFrame : Int × Int := (0, 0)
  /-- `state.MiSizes, state.RefFrames` -/
  miSizes : List (List Nat) := []
  refFrames : List (List (Int × Int)) := []
  /-- `t.IsInters, t.YModes, t.Mvs` -/
  isInters : List (List Int) := []
  yModes : List (List Int) := []
  mvs : List (List MvPair) := []
  /-- `state.GmType, uh.GmParams` -/
  gmType : List Int := []
  gmParams : List (List Int) := []
  /-- `uh.RefFrameSignBias` -/
  signBias : List Bool := []
  /-- `uh.UseRefFrameMvs` -/
  useRefFrameMvs : Bool := false
  /-- `t.MotionFieldMvs`: a nil slice, nothing assigns it -/
  motionField : List (List (List MVec)) := []

/-- What the process changes. -/
structure MvSt where
  /-- `t.NumMvFound, t.NewMvCount, t.FoundMatch` -/
  num : Nat := 0
  newCount : Nat := 0
  found : Nat := 0
  /-- `t.GlobalMvs` -/
  globals : MvPair := ((0, 0), (0, 0))
  /-- `t.RefStackMv` ([2][2][2]int), `t.WeightStack` ([8]int), `t.DrlCtxStack` ([1]int) -/
  stack : List MvPair := List.replicate 2 ((0, 0), (0, 0))
  weights : List Int := List.replicate 8 0
  drl : List Nat := [0]
  /-- `t.ZeroMvContext, t.NewMvContext, t.RefMvContext, t.CloseMatches, t.TotalMatches` -/
  zeroCtx : Nat := 0
  newCtx : Nat := 0
  refCtx : Nat := 0
  close : Nat := 0
  total : Nat := 0

/-- The loops over the stack of find_mv_stack.go (435-440, 337-342, 681-685): the first entry that `p` accepts. -/
def stackFind (stack : List MvPair) (p : MvPair → Bool) : Nat → Nat → Res (Option Nat)
  | 0, _ => .ok none
  | n + 1, i => do
    let e ← goGet stack (i : Int)
    if p e then pure (some i) else stackFind stack p n (i + 1)

/-- Go `t.WeightStack[i] += w`. -/
def addWeight (i : Nat) (w : Int) (s : MvSt) : Res MvSt := do
  let o ← goGet s.weights (i : Int)
  let ws ← goSet s.weights (i : Int) (o + w)
  pure { s with weights := ws }

/-- find_mv_stack.go:442-446, 345-349: append a candidate (`MAX_REF_MV_STACK_SIZE` is 8); only the first vector of the entry. -/
def pushOne (mv : MVec) (w : Int) (s : MvSt) : Res MvSt :=
  if s.num < 8 then do
    let o ← goGet s.stack (s.num : Int)
    let st ← goSet s.stack (s.num : Int) (mv, o.2)
    let ws ← goSet s.weights (s.num : Int) w
    pure { s with stack := st, weights := ws, num := s.num + 1 }
  else pure s

/-- find_mv_stack.go:474-479, 385-390: append a pair of vectors. -/
def pushTwo (mv : MvPair) (w : Int) (s : MvSt) : Res MvSt :=
  if s.num < 8 then do
    let st ← goSet s.stack (s.num : Int) mv
    let ws ← goSet s.weights (s.num : Int) w
    pure { s with stack := st, weights := ws, num := s.num + 1 }
  else pure s

/-- find_mv_stack.go:422: whether the global vector replaces the candidate. -/
def useGlobal (e : MvEnv) (mode : Int) (large : Bool) : Res Bool :=
  if mode = 16 ∨ mode = 24 then do
    let t ← goGet e.gmType e.refFrame.1
    pure (decide (t > 1) && large)
  else pure false

/-- find_mv_stack.go:421-426: `candMv`. -/
def candMv (e : MvEnv) (r c : Int) (list : Nat) (g : Bool) (s : MvSt) : Res MVec :=
  if g then pure s.globals.1
  else do
    let p ← gget e.mvs r c
    pure (nth2 p list)

/-- find_mv_stack.go:435-446: raise the weight of the candidate or append it. -/
def addOrPush (mv : MVec) (w : Int) (s : MvSt) : Res MvSt := do
  let i ← stackFind s.stack (fun p => decide (p.1 = mv)) s.num 0
  match i with
  | some i => addWeight i w s
  | none => pushOne mv w s

/-- find_mv_stack.go:416-447 `searchStackProcess`. -/
def searchStack (e : MvEnv) (r c : Int) (list : Nat) (w : Int) (s : MvSt) : Res MvSt := do
  let mode ← gget e.yModes r c
  let sz ← gget e.miSizes r c
  let bw ← goGet blockWidth (sz : Int)
  let bh ← goGet blockHeight (sz : Int)
  let g ← useGlobal e mode (decide (min bw bh ≥ 8))
  let mv ← candMv e r c list g s
  addOrPush (lowerPrecision e.hdr mv) w { s with newCount := s.newCount + (if hasNewmv mode then 1 else 0), found := 1 }

/-- find_mv_stack.go:456-458: one list of the loop. -/
def globalPart (e : MvEnv) (ref : Int) (g v : MVec) : Res MVec := do
  let t ← goGet e.gmType ref
  pure (if t > 1 then g else v)

/-- find_mv_stack.go:454-460: global vectors of `GLOBAL_GLOBALMV`. -/
def globalPair (e : MvEnv) (mode : Int) (p : MvPair) (s : MvSt) : Res MvPair :=
  if mode = 24 then do
    let a ← globalPart e e.refFrame.1 s.globals.1 p.1
    let b ← globalPart e e.refFrame.2 s.globals.2 p.2
    pure (a, b)
  else pure p

/-- find_mv_stack.go:469-471. -/
def raiseIf (x p : MvPair) (w : Int) (i : Nat) (s : MvSt) : Res MvSt := if x = p then addWeight i w s else pure s

/-- find_mv_stack.go:468-472: raise the weights of all equal entries. -/
def raiseEqual (p : MvPair) (w : Int) : Nat → Nat → MvSt → Res MvSt
  | 0, _, s => pure s
  | n + 1, i, s => do
    let x ← goGet s.stack (i : Int)
    let s ← raiseIf x p w i s
    raiseEqual p w n (i + 1) s

/-- find_mv_stack.go:450-485 `compoundSearchStackProcess`.  Lines 462-464 have no effect: the results are not used.  `NewMvCount`
(lines 481-483) is raised before instead of after the append. -/
def compoundSearch (e : MvEnv) (r c : Int) (w : Int) (s : MvSt) : Res MvSt := do
  let p ← gget e.mvs r c
  let mode ← gget e.yModes r c
  let p ← globalPair e mode p s
  let s ← raiseEqual p w s.num 0 { s with found := 1, newCount := s.newCount + (if hasNewmv mode then 1 else 0) }
  pushTwo p w s

/-- find_mv_stack.go:403-407: one turn of the loop over the lists of the candidate. -/
def searchIfSame (e : MvEnv) (r c : Int) (w : Int) (list : Nat) (s : MvSt) : Res MvSt := do
  let f ← gget e.refFrames r c
  if nth2 f list = e.refFrame.1 then searchStack e r c list w s else pure s

/-- find_mv_stack.go:409-411. -/
def compoundIfSame (e : MvEnv) (r c : Int) (w : Int) (s : MvSt) : Res MvSt := do
  let f ← gget e.refFrames r c
  if f = e.refFrame then compoundSearch e r c w s else pure s

/-- find_mv_stack.go:402-412. -/
def addInterCandidate (e : MvEnv) (r c : Int) (compound : Bool) (w : Int) (s : MvSt) : Res MvSt :=
  if !compound then do
    let s ← searchIfSame e r c w 0 s
    searchIfSame e r c w 1 s
  else compoundIfSame e r c w s

/-- find_mv_stack.go:397-413 `addRefMvCandidate`. -/
def addRefMvCandidate (e : MvEnv) (r c : Int) (compound : Bool) (w : Int) (s : MvSt) : Res MvSt := do
  let i ← gget e.isInters r c
  if i = 0 then pure s else addInterCandidate e r c compound w s

/-! ## Scans -/

/-- find_mv_stack.go:221-227 and 256-262: `len`. -/
def scanLen (n4 cand : Nat) (far : Bool) : Nat :=
  let l := min n4 cand
  let l := if far then max 2 l else l
  if n4 ≥ 16 then max 4 l else l

/-- find_mv_stack.go:213-231: the loop of `scanRowProcess`; every turn advances by at least 1, `fuel = end4` suffices. -/
def scanRowLoop (e : MvEnv) (compound : Bool) (bw4 : Nat) (far : Bool) (r c0 end4 : Int) : Nat → Nat → MvSt → Res MvSt
  | 0, i, s => if (i : Int) < end4 then .error .hang else pure s
  | fuel + 1, i, s =>
    if (i : Int) < end4 then
      if isInside e.tile r (c0 + i) then do
        let sz ← gget e.miSizes r (c0 + i)
        let n ← goGet num4x4Wide (sz : Int)
        let s ← addRefMvCandidate e r (c0 + i) compound ((scanLen bw4 n far : Int) * 2) s
        scanRowLoop e compound bw4 far r c0 end4 fuel (i + scanLen bw4 n far) s
      else pure s
    else pure s

/-- find_mv_stack.go:200-232 `scanRowProcess`; `far` is `Abs(deltaRow) > 1`, the same before and after line 207 as `deltaRow` is -1, -3 or -5. -/
def scanRow (e : MvEnv) (deltaRow : Int) (compound : Bool) (s : MvSt) : Res MvSt := do
  let bw4 ← goGet num4x4Wide e.miSize
  let end4 := min (min (bw4 : Int) ((e.miCols : Int) - e.miCol)) 16
  let far := decide (deltaRow.natAbs > 1)
  let dr := if far then deltaRow + ((e.miRow % 2 : Nat) : Int) else deltaRow
  let dc : Int := if far then 1 - ((e.miCol % 2 : Nat) : Int) else 0
  scanRowLoop e compound bw4 far (e.miRow + dr) (e.miCol + dc) end4 end4.toNat 0 s

/-- find_mv_stack.go:248-266: the loop of `scanColProcess`. -/
def scanColLoop (e : MvEnv) (compound : Bool) (bh4 : Nat) (far : Bool) (r0 c end4 : Int) : Nat → Nat → MvSt → Res MvSt
  | 0, i, s => if (i : Int) < end4 then .error .hang else pure s
  | fuel + 1, i, s =>
    if (i : Int) < end4 then
      if isInside e.tile (r0 + i) c then do
        let sz ← gget e.miSizes (r0 + i) c
        let n ← goGet num4x4High (sz : Int)
        let s ← addRefMvCandidate e (r0 + i) c compound ((scanLen bh4 n far : Int) * 2) s
        scanColLoop e compound bh4 far r0 c end4 fuel (i + scanLen bh4 n far) s
      else pure s
    else pure s

/-- find_mv_stack.go:235-267 `scanColProcess`. -/
def scanCol (e : MvEnv) (deltaCol : Int) (compound : Bool) (s : MvSt) : Res MvSt := do
  let bh4 ← goGet num4x4High e.miSize
  let end4 := min (min (bh4 : Int) ((e.miRows : Int) - e.miRow)) 16
  let far := decide (deltaCol.natAbs > 1)
  let dc := if far then deltaCol + ((e.miCol % 2 : Nat) : Int) else deltaCol
  let dr : Int := if far then 1 - ((e.miRow % 2 : Nat) : Int) else 0
  scanColLoop e compound bh4 far (e.miRow + dr) (e.miCol + dc) end4 end4.toNat 0 s

/-- find_mv_stack.go:270-279 `scanPointProcess`. -/
def scanPoint (e : MvEnv) (deltaRow deltaCol : Int) (compound : Bool) (s : MvSt) : Res MvSt :=
  if isInside e.tile (e.miRow + deltaRow) (e.miCol + deltaCol) then do
    let f ← gget e.refFrames (e.miRow + deltaRow) (e.miCol + deltaCol)
    if f.1 ≠ 0 then addRefMvCandidate e (e.miRow + deltaRow) (e.miCol + deltaCol) compound 4 s else pure s
  else pure s

/-! ## Temporal candidates -/

/-- `t.MotionFieldMvs[ref][y8][x8]`. -/
def motionAt (e : MvEnv) (ref : Int) (y8 x8 : Int) : Res MVec := do
  let g ← goGet e.motionField ref
  gget g y8 x8

/-- find_mv_stack.go:343-349 and 383-390.  The loop above it declares its own `idx`: the one tested here is 0. -/
def temporalAdd (push : MvSt → Res MvSt) (s : MvSt) : Res MvSt := if 0 < s.num then addWeight 0 2 s else push s

/-- find_mv_stack.go:327-334 and 362-372: `ZeroMvContext` at the first position. -/
def temporalZero (first far : Bool) (s : MvSt) : MvSt := if first then { s with zeroCtx := if far then 1 else 0 } else s

/-- Two vectors differ by 2 pixels or more. -/
def mvFar (a b : MVec) : Bool := decide ((a.1 - b.1).natAbs ≥ 16) || decide ((a.2 - b.2).natAbs ≥ 16)

/-- find_mv_stack.go:319-349: single prediction. -/
def temporalOne (e : MvEnv) (first : Bool) (y8 x8 : Int) (s : MvSt) : Res MvSt := do
  let v ← motionAt e e.refFrame.1 y8 x8
  if v.1 = -32768 then pure s
  else do
    let s := temporalZero first (mvFar v s.globals.1) s
    let _ ← stackFind s.stack (fun p => decide (p.1 = v)) s.num 0
    temporalAdd (pushOne v 2) s

/-- find_mv_stack.go:355-390: compound prediction, after the first vector was found. -/
def temporalTwo (e : MvEnv) (first : Bool) (v : MVec) (y8 x8 : Int) (s : MvSt) : Res MvSt := do
  let w ← motionAt e e.refFrame.2 y8 x8
  if w.1 = -32768 then pure s
  else do
    let s := temporalZero first (mvFar v s.globals.1 || mvFar w s.globals.2) s
    let _ ← stackFind s.stack (fun p => decide (p = (v, w))) s.num 0
    temporalAdd (pushTwo (v, w) 2) s

/-- find_mv_stack.go:350-391: compound prediction. -/
def temporalCompound (e : MvEnv) (first : Bool) (y8 x8 : Int) (s : MvSt) : Res MvSt := do
  let v ← motionAt e e.refFrame.1 y8 x8
  if v.1 = -32768 then pure s else temporalTwo e first v y8 x8 s

/-- find_mv_stack.go:304-394 `temporalSampleProcess`. -/
def temporalSample (e : MvEnv) (deltaRow deltaCol : Nat) (compound : Bool) (s : MvSt) : Res MvSt :=
  let r := (e.miRow + deltaRow) ||| 1
  let c := (e.miCol + deltaCol) ||| 1
  if isInside e.tile (r : Int) (c : Int) then
    let first := deltaRow == 0 && deltaCol == 0
    let s := if first then { s with zeroCtx := 1 } else s
    if !compound then temporalOne e first ((r >>> 1 : Nat) : Int) ((c >>> 1 : Nat) : Int) s
    else temporalCompound e first ((r >>> 1 : Nat) : Int) ((c >>> 1 : Nat) : Int) s
  else pure s

/-- Number of turns of `for d := 0; d < Min(n4, 16); d += step` with `step` of lines 286-293. -/
def temporalSteps (n4 : Nat) : Nat × Nat := if n4 ≥ 16 then (4, 4) else (2, (min n4 16 + 1) / 2)

/-- find_mv_stack.go:282-301 `temporalScanProcess`. -/
def temporalScan (e : MvEnv) (compound : Bool) (s : MvSt) : Res MvSt := do
  let bw4 ← goGet num4x4Wide e.miSize
  let bh4 ← goGet num4x4High e.miSize
  forN (fun y s => forN (fun x s => temporalSample e (y * (temporalSteps bh4).1) (x * (temporalSteps bw4).1) compound s)
    (temporalSteps bw4).2 0 s) (temporalSteps bh4).2 0 s

/-! ## Sorting -/

/-- find_mv_stack.go:537-540: one list of an entry; the old value of entry `j` is lost, `temp` is the weight of entry `i`. -/
def swapList (temp : Int) (_vi vj : MVec) : MVec × MVec := (vj, (temp, temp))

/-- find_mv_stack.go:531-543 `swapStack`. -/
def swapStack (i j : Nat) (compound : Bool) (s : MvSt) : Res MvSt := do
  let temp ← goGet s.weights (i : Int)
  let wj ← goGet s.weights (j : Int)
  let ws ← goSet s.weights (i : Int) wj
  let ws ← goSet ws (j : Int) temp
  let a ← goGet s.stack (i : Int)
  let b ← goGet s.stack (j : Int)
  let x := swapList temp a.1 b.1
  let y := if compound then swapList temp a.2 b.2 else (a.2, b.2)
  let st ← goSet s.stack (i : Int) (x.1, y.1)
  let st ← goSet st (j : Int) (x.2, y.2)
  pure { s with weights := ws, stack := st }

/-- find_mv_stack.go:522-525: one comparison. -/
def sortStep (compound : Bool) (idx newEnd : Nat) (s : MvSt) : Res (MvSt × Nat) := do
  let a ← goGet s.weights ((idx : Int) - 1)
  let b ← goGet s.weights (idx : Int)
  if a < b then do
    let s ← swapStack (idx - 1) idx compound s
    pure (s, idx)
  else pure (s, newEnd)

/-- find_mv_stack.go:521-526: one pass; `n` turns from `idx`. -/
def sortPass (compound : Bool) : Nat → Nat → Nat → MvSt → Res (MvSt × Nat)
  | 0, _, newEnd, s => pure (s, newEnd)
  | n + 1, idx, newEnd, s => do
    let x ← sortStep compound idx newEnd s
    sortPass compound n (idx + 1) x.2 x.1

/-- find_mv_stack.go:518-529 `sortingProcess`: every pass ends at a smaller `end`, `fuel = end` suffices. -/
def sortStack (compound : Bool) (start : Nat) : Nat → Nat → MvSt → Res MvSt
  | 0, e, s => if e > start then .error .hang else pure s
  | fuel + 1, e, s =>
    if e > start then do
      let x ← sortPass compound (e - (start + 1)) (start + 1) start s
      sortStack compound start fuel x.2 x.1
    else pure s

/-! ## Extra search -/

/-- Go `if mvRow < 0 { mvRow = len(state.RefFrames) + mvRow }` (lines 578-583, 641-647; `MiSizes` is as long). -/
def mvWrap (n : Nat) (i : Int) : Int := if i < 0 then n + i else i

/-- find_mv_stack.go:676-679: mirrored if the references lie on different sides. -/
def mirrored (bias : List Bool) (a b : Int) (v : MVec) : Res MVec := do
  let x ← goGet bias a
  let y ← goGet bias b
  pure (if x ≠ y then (-v.1, -v.2) else v)

/-- find_mv_stack.go:686-690: `idx` is 0 here as well. -/
def extraPush (mv : MVec) (s : MvSt) : Res MvSt :=
  if s.num = 0 then do
    let o ← goGet s.stack 0
    let st ← goSet s.stack 0 (mv, o.2)
    let ws ← goSet s.weights 0 2
    pure { s with stack := st, weights := ws, num := 1 }
  else pure s

/-- find_mv_stack.go:672-693: one turn of the loop, single prediction. -/
def extraOne (e : MvEnv) (r c : Int) (list : Nat) (s : MvSt) : Res MvSt := do
  let f ← gget e.refFrames r c
  if nth2 f list > 0 then do
    let p ← gget e.mvs r c
    let v ← mirrored e.signBias (nth2 f list) e.refFrame.1 (nth2 p list)
    let _ ← stackFind s.stack (fun p => decide (p.1 = v)) s.num 0
    extraPush v s
  else pure s

/-- find_mv_stack.go:651-670: compound prediction.  The counts are 0 when the process starts, so the first candidate with an inter
reference is written to `t.RefIdMvs` or `t.RefDiffMvs`: nil slices, which panics. -/
def extraCompound (e : MvEnv) (r c : Int) : Res Unit := do
  let f ← gget e.refFrames r c
  if f.1 > 0 ∨ f.2 > 0 then .error .index else pure ()

/-- find_mv_stack.go:639-694 `addExtraMvCandidateProcess`. -/
def addExtra (e : MvEnv) (r c : Int) (compound : Bool) (s : MvSt) : Res MvSt :=
  let r := mvWrap e.refFrames.length r
  let c := mvWrap e.refFrames.length c
  if compound then do
    extraCompound e r c
    pure s
  else do
    let s ← extraOne e r c 0 s
    extraOne e r c 1 s

/-- find_mv_stack.go:563-569: the cell of a turn. -/
def extraCell (e : MvEnv) (pass idx : Nat) : Int × Int :=
  if pass = 0 then ((e.miRow : Int) - 1, ((e.miCol + idx : Nat) : Int)) else (((e.miRow + idx : Nat) : Int), (e.miCol : Int) - 1)

/-- find_mv_stack.go:585-589: the step. -/
def extraStep (e : MvEnv) (pass : Nat) (rc : Int × Int) : Res Nat := do
  let sz ← gget e.miSizes (mvWrap e.miSizes.length rc.1) (mvWrap e.miSizes.length rc.2)
  goGet (if pass = 0 then num4x4Wide else num4x4High) (sz : Int)

/-- find_mv_stack.go:560-590: the loop of a pass; it ends at a cell inside the tile. -/
def extraLoop (e : MvEnv) (compound : Bool) (pass : Nat) (num4x4 : Int) : Nat → Nat → MvSt → Res MvSt
  | 0, idx, s => if (idx : Int) < num4x4 ∧ s.num < 2 then .error .hang else pure s
  | fuel + 1, idx, s =>
    if (idx : Int) < num4x4 ∧ s.num < 2 then
      let rc := extraCell e pass idx
      if isInside e.tile rc.1 rc.2 then pure s
      else do
        let s ← addExtra e rc.1 rc.2 compound s
        let n ← extraStep e pass rc
        extraLoop e compound pass num4x4 fuel (idx + n) s
    else pure s

/-- find_mv_stack.go:631-635: fill with the global vector. -/
def extraFill (idx : Nat) (s : MvSt) : Res MvSt := do
  let o ← goGet s.stack (idx : Int)
  let st ← goSet s.stack (idx : Int) (s.globals.1, o.2)
  pure { s with stack := st }

/-- find_mv_stack.go:546-636 `extraSearchProcess`.  For compound prediction lines 594-609 write to `combinedMvs`, a nil slice: panic. -/
def extraSearch (e : MvEnv) (compound : Bool) (s : MvSt) : Res MvSt := do
  let bw4 ← goGet num4x4Wide e.miSize
  let bh4 ← goGet num4x4High e.miSize
  let w4 := min (min 16 (bw4 : Int)) ((e.miCols : Int) - e.miCol)
  let h4 := min (min 16 (bh4 : Int)) ((e.miRows : Int) - e.miRow)
  let n := min w4 h4
  let s ← extraLoop e compound 0 n n.toNat 0 s
  let s ← extraLoop e compound 1 n n.toNat 0 s
  if compound then .error .index
  else forN extraFill (2 - s.num) s.num s

/-! ## Contexts -/

/-- find_mv_stack.go:707-718: `z`. -/
def drlCtx (n idx : Nat) (ws : List Int) : Res Nat :=
  if idx + 1 < n then do
    let w0 ← goGet ws (idx : Int)
    let w1 ← goGet ws ((idx + 1 : Nat) : Int)
    pure (if w0 ≥ 640 then (if w1 < 640 then 1 else 0) else 2)
  else pure 0

/-- find_mv_stack.go:706-720. -/
def setDrl (idx : Nat) (s : MvSt) : Res MvSt := do
  let z ← drlCtx s.num idx s.weights
  let d ← goSet s.drl (idx : Int) z
  pure { s with drl := d }

/-- find_mv_stack.go:725-726: both components. -/
def clampVec (e : MvEnv) (bw4 bh4 bw bh : Nat) (v : MVec) : MVec :=
  (clampMv e.miRows e.miRow bh4 (128 + (bh : Int) * 8) v.1, clampMv e.miCols e.miCol bw4 (128 + (bw : Int) * 8) v.2)

/-- find_mv_stack.go:724-727: one list of an entry. -/
def clampEntry (e : MvEnv) (bw4 bh4 bw bh list idx : Nat) (s : MvSt) : Res MvSt := do
  let o ← goGet s.stack (idx : Int)
  let st ← goSet s.stack (idx : Int) (if list = 0 then (clampVec e bw4 bh4 bw bh o.1, o.2) else (o.1, clampVec e bw4 bh4 bw bh o.2))
  pure { s with stack := st }

/-- find_mv_stack.go:731-740. -/
def mvContexts (numNew : Nat) (s : MvSt) : MvSt :=
  if s.close = 0 then { s with newCtx := min s.total 1, refCtx := s.total }
  else if s.close = 1 then { s with newCtx := 3 - min numNew 1, refCtx := 2 + s.total }
  else { s with newCtx := 5 - min numNew 1, refCtx := 5 }

/-- find_mv_stack.go:697-741 `contextAndClampingProcess`. -/
def contextAndClamping (e : MvEnv) (compound : Bool) (numNew : Nat) (s : MvSt) : Res MvSt := do
  let bw ← goGet blockWidth e.miSize
  let bh ← goGet blockHeight e.miSize
  let bw4 ← goGet num4x4Wide e.miSize
  let bh4 ← goGet num4x4High e.miSize
  let s ← forN setDrl s.num 0 s
  let s ← forN (fun list s => forN (clampEntry e bw4 bh4 bw bh list) s.num 0 s) (if compound then 2 else 1) 0 s
  pure (mvContexts numNew s)

/-! ## The process -/

/-- Line 29-31. -/
def secondGlobal (e : MvEnv) (compound : Bool) (old : MVec) : Res MVec :=
  if compound then setupGlobalMv e.hdr e.gmType e.gmParams e.miRow e.miCol e.miSize e.refFrame.2 else pure old

/-- find_mv_stack.go:16-67, steps 1-14: the nearest neighbours; returns the two match flags (`foundAboveMatch, foundLeftMatch`). -/
def nearScan (e : MvEnv) (compound : Bool) (s : MvSt) : Res (MvSt × Nat × Nat) := do
  let bw4 ← goGet num4x4Wide e.miSize
  let bh4 ← goGet num4x4High e.miSize
  let g0 ← setupGlobalMv e.hdr e.gmType e.gmParams e.miRow e.miCol e.miSize e.refFrame.1
  let g1 ← secondGlobal e compound s.globals.2
  let s ← scanRow e (-1) compound { s with num := 0, newCount := 0, globals := (g0, g1), found := 0 }
  let above := s.found
  let s ← scanCol e (-1) compound { s with found := 0 }
  let left := s.found
  let s ← nearPoint e compound bw4 bh4 { s with found := 0 }
  let above := if s.found = 1 then 1 else above
  pure ({ s with close := above + left }, above, left)
where
  /-- Step 10. -/
  nearPoint (e : MvEnv) (compound : Bool) (bw4 bh4 : Nat) (s : MvSt) : Res MvSt :=
    if max bw4 bh4 ≤ 16 then scanPoint e (-1) bw4 compound s else pure s

/-- find_mv_stack.go:70-74, step 15: all nearest candidates but the last. -/
def raiseNearest (n : Nat) (s : MvSt) : Res MvSt := forN (fun i s => addWeight i 640 s) (n - 1) 0 s

/-- Step 17. -/
def temporalIfUsed (e : MvEnv) (compound : Bool) (s : MvSt) : Res MvSt := if e.useRefFrameMvs then temporalScan e compound s else pure s
/-- Step 27. -/
def rowIf (b : Bool) (e : MvEnv) (compound : Bool) (s : MvSt) : Res MvSt := if b then scanRow e (-5) compound s else pure s
/-- Step 30. -/
def colIf (b : Bool) (e : MvEnv) (compound : Bool) (s : MvSt) : Res MvSt := if b then scanCol e (-5) compound s else pure s

/-- find_mv_stack.go:84-141, steps 18-32: the far neighbours.  Step 31 sets the flag of the row above. -/
def farScan (e : MvEnv) (compound : Bool) (above left : Nat) (s : MvSt) : Res MvSt := do
  let bw4 ← goGet num4x4Wide e.miSize
  let bh4 ← goGet num4x4High e.miSize
  let s ← scanPoint e (-1) (-1) compound s
  let above := if s.found = 1 then 1 else above
  let s ← scanRow e (-3) compound { s with found := 0 }
  let above := if s.found = 1 then 1 else above
  let s ← scanCol e (-3) compound { s with found := 0 }
  let left := if s.found = 1 then 1 else left
  let s ← rowIf (decide (bh4 > 1)) e compound { s with found := 0 }
  let above := if s.found = 1 then 1 else above
  let s ← colIf (decide (bw4 > 1)) e compound { s with found := 0 }
  let above := if s.found = 1 then 1 else above
  pure { s with total := above + left }

/-- Step 35. -/
def extraIfFew (e : MvEnv) (compound : Bool) (s : MvSt) : Res MvSt := if s.num < 2 then extraSearch e compound s else pure s

/-- internal/tilegroup/find_mv_stack.go:15-156 `findMvStack`. -/
def findMvStack (e : MvEnv) (compound : Bool) (s : MvSt) : Res MvSt := do
  let x ← nearScan e compound s
  let numNearest := x.1.num
  let numNew := x.1.newCount
  let s ← raiseNearest numNearest x.1
  let s ← temporalIfUsed e compound { s with zeroCtx := 0 }
  let s ← farScan e compound x.2.1 x.2.2 s
  let s ← sortStack compound 0 numNearest numNearest s
  let s ← sortStack compound numNearest s.num s.num s
  let s ← extraIfFew e compound s
  contextAndClamping e compound numNew s

end Gov1
