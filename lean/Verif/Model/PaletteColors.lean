import Verif.Model.ModeInfo
import Verif.Model.Palette
/-!
# The colours of a palette

internal/tilegroup/palette.go:15-140 in full.  `b.S()`, which panics in the code, is the parameter `S`; `t.PaletteColorsY`, `U`, `V` and `t.PaletteCache`, nil slices in the code, are parameters.
-/
namespace Gov1

/-- palette.go:35-42 and 76-83: colours of the cache that are used again; `s` is the array they are stored in and `idx`. -/
def palFromCache (n : Nat) (cache : List Int) : Nat → Nat → List Int × Nat → Rd (List Int × Nat)
  | 0, _, s => pure s
  | k + 1, i, s =>
    if s.2 < n then do
      let u ← Rd.lit 1
      if u ≠ 0 then do
        let v ← Rd.lift (goGet cache i)
        let c ← Rd.lift (goSet s.1 s.2 v)
        palFromCache n cache k (i + 1) (c, s.2 + 1)
      else palFromCache n cache k (i + 1) s
    else pure s

/-- palette.go:44-47 and 85-88: the first colour that is not from the cache. -/
def palFirst (bd n : Nat) (s : List Int × Nat) : Rd (List Int × Nat) :=
  if s.2 < n then do
    let v ← Rd.lit bd
    let c ← Rd.lift (goSet s.1 s.2 v)
    pure (c, s.2 + 1)
  else pure s

/-- palette.go:49-54 and 90-95: the width of the differences. -/
def palBits (minBits : Int) (n idx : Nat) : Rd Int :=
  if idx < n then do
    let e ← Rd.lit 2
    pure (minBits + e)
  else pure 0

/-- palette.go:56-63 (`plus` 1) and 97-103 (`plus` 0): the remaining colours, as differences.  `fuel` bounds the turns. -/
def palDeltas (bd n : Nat) (plus : Int) : Nat → Int → List Int × Nat → Rd (List Int × Nat)
  | 0, _, s => if s.2 < n then .fail .hang else pure s
  | fuel + 1, bits, s =>
    if s.2 < n then do
      let d ← Rd.lit bits
      let p ← Rd.lift (goGet s.1 ((s.2 : Int) - 1))
      let v := clip1 (p + (d + plus)) bd
      let c ← Rd.lift (goSet s.1 s.2 v)
      palDeltas bd n plus fuel (min bits (ceilLog2 ((2 ^ bd : Nat) - v - 1))) (c, s.2 + 1)
    else pure s

/-- palette.go:33-64: the luma colours, for `n = t.PaletteSizeY`; the cache has `cacheN` entries. -/
def palLuma (bd n cacheN : Nat) (cache colors : List Int) : Rd (List Int) := do
  let s ← palFromCache n cache cacheN 0 (colors, 0)
  let s ← palFirst bd n s
  let bits ← palBits ((bd : Int) - 1) n s.2
  let s ← palDeltas bd n 1 n bits s
  Rd.lift (sortSeg s.1 0 ((n : Int) - 1))

/-- palette.go:74-104: the U colours, for `n = t.PaletteSizeUV`: those of the cache are stored in `t.PaletteColorsY` (line 80). -/
def palU (bd n cacheN : Nat) (cache colorsY colorsU : List Int) : Rd (List Int × List Int) := do
  let s ← palFromCache n cache cacheN 0 (colorsY, 0)
  let u ← palFirst bd n (colorsU, s.2)
  let bits ← palBits ((bd : Int) - 3) n u.2
  let u ← palDeltas bd n 0 n bits u
  let u ← Rd.lift (sortSeg u.1 0 ((n : Int) - 1))
  pure (s.1, u)

/-- palette.go:117-122: the sign of a V difference, read unless it is zero. -/
def palSign (d : Nat) : Rd Nat := if d ≠ 0 then Rd.lit 1 else pure 0

/-- palette.go:115-132: the V colours from the index `idx` on, as differences. -/
def palVDeltas (bd : Nat) (bits : Int) : Nat → Nat → List Int → Rd (List Int)
  | 0, _, c => pure c
  | k + 1, idx, c => do
    let d ← Rd.lit bits
    let neg ← palSign d
    let p ← Rd.lift (goGet c ((idx : Int) - 1))
    let val : Int := p + (if neg ≠ 0 then -(d : Int) else d)
    let val := if val < 0 then val + (2 ^ bd : Nat) else val
    let val := if val ≥ (2 ^ bd : Nat) then val - (2 ^ bd : Nat) else val
    let c ← Rd.lift (goSet c idx (clip1 val bd))
    palVDeltas bd bits k (idx + 1) c

/-- palette.go:134-136: the V colours, each by itself. -/
def palVDirect (bd : Nat) : Nat → Nat → List Int → Rd (List Int)
  | 0, _, c => pure c
  | k + 1, idx, c => do
    let v ← Rd.lit bd
    let c ← Rd.lift (goSet c idx v)
    palVDirect bd k (idx + 1) c

/-- palette.go:106-137: the V colours. -/
def palV (bd n : Nat) (colorsV : List Int) : Rd (List Int) := do
  let delta ← Rd.lit 1
  if delta ≠ 0 then do
    let e ← Rd.lit 2
    let v ← Rd.lit bd
    let c ← Rd.lift (goSet colorsV 0 v)
    palVDeltas bd ((bd : Int) - 4 + e) (n - 1) 1 c
  else palVDirect bd n 0 colorsV

/-- What `paletteModeInfo` leaves in `t`. -/
structure PalRes where
  sizeY : Nat := 0
  sizeUV : Nat := 0
  colorsY : List Int := []
  colorsU : List Int := []
  colorsV : List Int := []
deriving Repr, DecidableEq

/-- palette.go:18-66: luma.  `cache0` is the result of `t.getPaletteCache(0, state)`. -/
def palYFull (S : Rd Nat) (bd : Nat) (b : MiBlk) (yMode : Nat) (sizes : List (List Int)) (cache0 : Res CacheSt) (bSizeCtx : Int) (r : PalRes) : Rd PalRes :=
  if yMode = 0 then do
    let ctx ← Rd.lift (palCtx b sizes)
    let has ← Rd.read "PaletteYMode" [bSizeCtx, (ctx : Int)]
    if has ≠ 0 then do
      let n ← S
      let c ← Rd.lift cache0
      let y ← palLuma bd (n + 2) c.n c.cache r.colorsY
      pure { r with sizeY := n + 2, colorsY := y }
    else pure r
  else pure r

/-- palette.go:68-139: chroma.  `cache1` is the result of `t.getPaletteCache(1, state)`. -/
def palUVFull (S : Rd Nat) (bd : Nat) (b : MiBlk) (uvMode : Nat) (cache1 : Res CacheSt) (r : PalRes) : Rd PalRes :=
  if b.hasChroma ∧ uvMode = 0 then do
    let has ← S
    if has ≠ 0 then do
      let n ← S
      let c ← Rd.lift cache1
      let (y, u) ← palU bd (n + 2) c.n c.cache r.colorsY r.colorsU
      let v ← palV bd (n + 2) r.colorsV
      pure { r with sizeUV := n + 2, colorsY := y, colorsU := u, colorsV := v }
    else pure r
  else pure r

/-- internal/tilegroup/palette.go:15-140 `paletteModeInfo`, in full. -/
def paletteFull (S : Rd Nat) (bd : Nat) (b : MiBlk) (yMode uvMode : Nat) (sizes : List (List Int)) (cache0 cache1 : Res CacheSt) (r : PalRes) : Rd PalRes := do
  let wl ← Rd.lift (goGet miWidthLog2 b.miSize)
  let hl ← Rd.lift (goGet miHeightLog2 b.miSize)
  let r ← palYFull S bd b yMode sizes cache0 ((wl : Int) + (hl : Int) - 2) r
  palUVFull S bd b uvMode cache1 r

end Gov1
