import Verif.Model.Grid
/-!
# Palettes

internal/tilegroup/palette.go, `getPaletteCache`, and internal/tilegroup/palette_tokens.go.
-/
namespace Gov1

/-! ## The cache -/

/-- The variables of `getPaletteCache` that change. -/
structure CacheSt where
  aboveIdx : Nat := 0
  leftIdx : Nat := 0
  n : Nat := 0
  /-- `t.PaletteCache` -/
  cache : List Int
deriving Repr, DecidableEq

/-- palette.go:164-167, 171-174, 184-187: `if n == 0 || v != t.PaletteCache[n-1] { t.PaletteCache[n] = v; n++ }`. -/
def cachePush (s : CacheSt) (v : Int) : Res CacheSt :=
  if s.n = 0 then do
    let c ← goSet s.cache 0 v
    pure { s with n := 1, cache := c }
  else do
    let last ← goGet s.cache ((s.n : Int) - 1)
    if v ≠ last then do
      let c ← goSet s.cache s.n v
      pure { s with n := s.n + 1, cache := c }
    else pure s

/-- palette.go:163-180: one turn of the first loop, for the colours `a` and `l` of the two palettes. -/
def cacheTurn (s : CacheSt) (a l : Int) : Res CacheSt :=
  if l < a then do
    let s ← cachePush s l
    pure { s with leftIdx := s.leftIdx + 1 }
  else do
    let s ← cachePush s a
    pure { s with aboveIdx := s.aboveIdx + 1, leftIdx := if l = a then s.leftIdx + 1 else s.leftIdx }

/-- palette.go:159-180: the first loop; each turn ends one colour at least, `fuel` is a bound for the turns. -/
def cacheMerge (above left : List Int) (aboveN leftN : Nat) : Nat → CacheSt → Res CacheSt
  | 0, s => if s.aboveIdx < aboveN ∧ s.leftIdx < leftN then .error .hang else pure s
  | fuel + 1, s =>
    if s.aboveIdx < aboveN ∧ s.leftIdx < leftN then do
      let a ← goGet above s.aboveIdx
      let l ← goGet left s.leftIdx
      let s ← cacheTurn s a l
      cacheMerge above left aboveN leftN fuel s
    else pure s

/-- palette.go:181-189: the second loop.  There is no such loop for the left palette. -/
def cacheRest (above : List Int) (aboveN : Nat) (s : CacheSt) : Res CacheSt :=
  forN (fun i s => do
    let v ← goGet above i
    let s ← cachePush { s with aboveIdx := s.aboveIdx + 1 } v
    pure s) (aboveN - s.aboveIdx) s.aboveIdx s

/-- palette.go:155-190: the loops of `getPaletteCache`, for the `aboveN` and `leftN` first colours of the two palettes; the result has the cache and its size. -/
def mergeCache (above left : List Int) (aboveN leftN : Nat) (cache : List Int) : Res CacheSt := do
  let s ← cacheMerge above left aboveN leftN (aboveN + leftN) { cache := cache }
  cacheRest above aboveN s

/-- palette.go:143-148: the number of colours above, only inside a row of superblocks of 64. -/
def paletteAbove (sizes : List (List Nat)) (miRow miCol : Nat) : Res Nat := if (miRow * 4) % 64 ≠ 0 then gget sizes ((miRow : Int) - 1) miCol else pure 0

/-- palette.go:150-153: the number of colours to the left. -/
def paletteLeft (sizes : List (List Nat)) (miRow miCol : Nat) (availL : Bool) : Res Nat := if availL then gget sizes miRow ((miCol : Int) - 1) else pure 0

/-- internal/tilegroup/palette.go:141-190 `getPaletteCache(plane)`; `sizes` is `t.PaletteSizes[plane]`, `above` and `left` are the colours of the cells above and to the left,
`cache` is `t.PaletteCache`, a slice that is never allocated. -/
def getPaletteCache (sizes : List (List Nat)) (above left cache : List Int) (miRow miCol : Nat) (availL : Bool) : Res CacheSt := do
  let aboveN ← paletteAbove sizes miRow miCol
  let leftN ← paletteLeft sizes miRow miCol availL
  mergeCache above left aboveN leftN cache

/-! ## The colour map -/

/-- palette_tokens.go:22-23: the cells `(row, column)` of turn `i` of the outer loop, in the order of the inner loop. -/
def waveDiag (h w i : Nat) : List (Nat × Nat) :=
  let hi : Int := min (i : Int) ((w : Int) - 1)
  let lo : Int := max 0 ((i : Int) - h + 1)
  (List.range (hi + 1 - lo).toNat).map fun k => (i - (hi.toNat - k), hi.toNat - k)

/-- palette_tokens.go:19, 22-28: the cells of the on-screen part, in the order they are decoded. -/
def wave (h w : Nat) : List (Nat × Nat) := (0, 0) :: ((List.range (h + w - 2)).map (· + 1)).flatMap (waveDiag h w)

/-- palette_tokens.go:13-16: the size of the on-screen part of a block. -/
def onscreen (size pos total : Nat) : Nat := min size ((total - pos) * 4)

/-- palette_tokens.go:44-57: sizes for chroma: block height, block width, on-screen height and width; the on-screen height is shifted by `SubsamplingX`. -/
def chromaMap (bh bw oh ow subX subY : Nat) : Nat × Nat × Nat × Nat :=
  let bh' := bh >>> subY
  let bw' := bw >>> subX
  let oh' := oh >>> subX
  let ow' := ow >>> subX
  (if bh' < 4 then bh' + 2 else bh', if bw' < 4 then bw' + 2 else bw', if bh' < 4 then oh' + 2 else oh', if bw' < 4 then ow' + 2 else ow')

/-- palette_tokens.go:80-84: the first loop of `getPaletteColorContext` on `scores` and `t.ColorOrder`; `var scores []int` is nil (the rest: Model/PaletteMap). -/
def paletteScores (scores order : List Int) : Res (List Int × List Int) :=
  forN (fun i (s : List Int × List Int) => do
    let a ← goSet s.1 i 0
    let b ← goSet s.2 i i
    pure (a, b)) 8 0 (scores, order)

end Gov1
