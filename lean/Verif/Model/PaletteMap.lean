import Verif.Model.Palette
/-!
# The colours of a palette block

internal/tilegroup/palette_tokens.go.  The arrays `scores`, `t.ColorOrder` and `t.ColorMapY` are slices that are never allocated; here they are parameters, so that what the code would do with arrays of
the right size can be stated.  Each `b.S()`, which panics in the code, is a parameter too: `idxs` is the list of its results.
-/
namespace Gov1

/-- palette_tokens.go:88-89: `scores[neighbor] += k`. -/
def addScore (scores : List Int) (nb k : Int) : Res (List Int) := do
  let v ← goGet scores nb
  goSet scores nb (v + k)

/-- palette_tokens.go:87-90: the neighbour to the left counts 2. -/
def scoreLeft (m : List (List Int)) (r c : Nat) (s : List Int) : Res (List Int) :=
  if c > 0 then do
    let nb ← gget m r ((c : Int) - 1)
    addScore s nb 2
  else pure s

/-- palette_tokens.go:92-95: the neighbour above left counts 1. -/
def scoreAboveLeft (m : List (List Int)) (r c : Nat) (s : List Int) : Res (List Int) :=
  if r > 0 ∧ c > 0 then do
    let nb ← gget m ((r : Int) - 1) ((c : Int) - 1)
    addScore s nb 1
  else pure s

/-- palette_tokens.go:96-99: the neighbour above counts 1 (AV1: 2). -/
def scoreAbove (m : List (List Int)) (r c : Nat) (s : List Int) : Res (List Int) :=
  if r > 0 then do
    let nb ← gget m ((r : Int) - 1) c
    addScore s nb 1
  else pure s

/-- palette_tokens.go:86-99: the scores of the neighbours' colours. -/
def neighbourScores (m : List (List Int)) (r c : Nat) (s : List Int) : Res (List Int) := do
  let s ← scoreLeft m r c s
  let s ← scoreAboveLeft m r c s
  scoreAbove m r c s

/-- palette_tokens.go:102-109: `maxScore` and `maIdx`. -/
def bestScore (scores : List Int) (n i : Nat) : Res (Int × Nat) := do
  let v ← goGet scores i
  forN (fun j (x : Int × Nat) => do
    let v ← goGet scores j
    pure (if v > x.1 then (v, j) else x)) (n - (i + 1)) (i + 1) (v, i)

/-- palette_tokens.go:113-116: one turn, for `k = ma - t`: the entry before moves up. -/
def moveOne (ma t : Nat) (s : List Int × List Int) : Res (List Int × List Int) := do
  let k : Int := (ma : Int) - t
  let a ← goSet s.1 k (← goGet s.1 (k - 1))
  let b ← goSet s.2 k (← goGet s.2 (k - 1))
  pure (a, b)

/-- palette_tokens.go:110-119: the entry `ma` is put at `i`, those between move up. -/
def moveUp (i ma : Nat) (s : List Int × List Int) : Res (List Int × List Int) :=
  if ma ≠ i then do
    let v ← goGet s.1 ma
    let o ← goGet s.2 ma
    let s ← forN (moveOne ma) (ma - i) 0 s
    let a ← goSet s.1 i v
    let b ← goSet s.2 i o
    pure (a, b)
  else pure s

/-- palette_tokens.go:101-120: `scores` and `t.ColorOrder` after the partial sort. -/
def sortScores (n : Nat) (s : List Int × List Int) : Res (List Int × List Int) :=
  forN (fun i s => do
    let b ← bestScore s.1 n i
    moveUp i b.2 s) 3 0 s

/-- tile_group.go:51: `Palette_Color_Hash_Multipliers`. -/
def hashMul : List Int := [1, 2, 2]

/-- palette_tokens.go:122-125: `t.ColorContextHash`. -/
def contextHash (scores : List Int) : Res Int :=
  forN (fun i (x : Int) => do
    let s ← goGet scores i
    let k ← goGet hashMul i
    pure (x + s * k)) 3 0 0

/-- internal/tilegroup/palette_tokens.go:79-126 `getPaletteColorContext`: the new `t.ColorOrder` and `t.ColorContextHash`; `fresh` is `scores` as declared (nil in the code). -/
def colorContext (fresh order : List Int) (m : List (List Int)) (r c n : Nat) : Res (List Int × Int) := do
  let s ← paletteScores fresh order
  let sc ← neighbourScores m r c s.1
  let s ← sortScores n (sc, s.2)
  let h ← contextHash s.1
  pure (s.2, h)

/-- palette_tokens.go:24-26: one pixel; `idx` is the result of `b.S()`.  The state is `t.ColorOrder` and the colour map. -/
def mapCell (fresh : List Int) (n : Nat) (p : Nat × Nat) (idx : Nat) (s : List Int × List (List Int)) : Res (List Int × List (List Int)) := do
  let x ← colorContext fresh s.1 s.2 p.1 p.2 n
  let v ← goGet x.1 idx
  let m ← gset s.2 p.1 p.2 v
  pure (x.1, m)

/-- palette_tokens.go:22-28: the pixels after the first, with the results of `b.S()`. -/
def mapCells (fresh : List Int) (n : Nat) : List ((Nat × Nat) × Nat) → List Int × List (List Int) → Res (List Int × List (List Int))
  | [], s => pure s
  | (p, idx) :: l, s => do
    let s ← mapCell fresh n p idx s
    mapCells fresh n l s

/-- palette_tokens.go:29-33: the columns beyond the frame repeat the last one inside. -/
def fillRight (h w bw : Nat) (m : List (List Int)) : Res (List (List Int)) :=
  forN (fun i m => forN (fun j m => do gset m i j (← gget m i ((w : Int) - 1))) (bw - w) w m) h 0 m

/-- palette_tokens.go:34-38: the rows beyond the frame repeat the last one inside. -/
def fillBelow (h bh bw : Nat) (m : List (List Int)) : Res (List (List Int)) :=
  forN (fun i m => forN (fun j m => do gset m i j (← gget m ((h : Int) - 1) j)) bw 0 m) (bh - h) h m

/-- palette_tokens.go:18-39 and 41-76: the colour map of one plane, for a block of `bh` by `bw` pixels of which `h` by `w` are in the frame; `first` is the result of `b.Ns(n)`. -/
def planeMap (fresh order : List Int) (m : List (List Int)) (n h w bh bw : Nat) (first : Int) (idxs : List Nat) : Res (List (List Int)) := do
  let m ← gset m 0 0 first
  let s ← mapCells fresh n ((wave h w).tail.zip idxs) (order, m)
  let m ← fillRight h w bw s.2
  fillBelow h bh bw m

end Gov1
