import Verif.Go
/-! # Small specification of the deblocking filter (AV1 specification 7.14) -/
namespace Gov1.Spec

/-- Saturation to signed numbers of `b` bits. -/
def satS (b : Nat) (v : Int) : Int := max (-2 ^ (b - 1)) (min (2 ^ (b - 1) - 1) v)

/-- Saturation to pixel values of `b` bits. -/
def satP (b : Nat) (v : Int) : Int := max 0 (min (2 ^ b - 1) v)

/-- The four pixels `p1 p0 | q0 q1` next to an edge. -/
structure Edge4 where
  p1 : Int
  p0 : Int
  q0 : Int
  q1 : Int

/-- The narrow filter (7.14.6.3) in terms of pixel values: the correction is three times the step (plus the outer
difference where the variance is high), an eighth of it is added on the left and subtracted on the right, and half as
much on the outer pixels unless the variance is high.  `/` rounds down. -/
def narrow (b : Nat) (hev : Bool) (e : Edge4) : Edge4 :=
  let f := satS b ((if hev then satS b (e.p1 - e.q1) else 0) + 3 * (e.q0 - e.p0))
  let f1 := satS b (f + 4) / 8
  let f2 := satS b (f + 3) / 8
  let a := (f1 + 1) / 2
  { p1 := if hev then e.p1 else satP b (e.p1 + a)
    p0 := satP b (e.p0 + f2)
    q0 := satP b (e.q0 - f1)
    q1 := if hev then e.q1 else satP b (e.q1 - a) }

/-- The filter level (7.14.5): frame level plus block delta, plus the delta of the segment if any, plus the deltas for
the reference frame and mode if enabled, scaled by 2 from level 32 on; each sum clamped to 0..63.  `ref = none` is an
intra block. -/
def lfLevel (frameLevel blockDelta : Int) (segDelta : Option Int) (deltas : Option (Int × Option Int)) : Int :=
  let cl (v : Int) : Int := max 0 (min 63 v)
  let l := cl (blockDelta + frameLevel)
  let l := match segDelta with | some d => cl (l + d) | none => l
  match deltas with
  | none => l
  | some (r, m) => cl (l + 2 ^ (l / 32).toNat * (r + m.getD 0))

/-- The limit of the filter (7.14.4). -/
def lfLimit (sharpness : Nat) (lvl : Int) : Int :=
  if sharpness = 0 then max 1 lvl
  else max 1 (min (9 - sharpness) (if sharpness > 4 then lvl / 4 else lvl / 2))

/-- The filter length across an edge between transforms of `prev` and `cur` samples across it (7.14.3). -/
def lfSize (plane prev cur : Nat) : Nat := min (if plane = 0 then 16 else 8) (min prev cur)

/-- An edge at pixel `(x, y)` lies inside a picture of `w` by `h` pixels, not on its border (7.14.2). `across` is true for
horizontal edges. -/
def LfInside (w h : Int) (across : Bool) (x y : Int) : Prop :=
  x < w ∧ y < h ∧ (if across then y ≠ 0 else x ≠ 0)

/-- The edges filtered (7.14.2): those of transforms; inside a block only if it has coefficients or is intra coded.
`p` is the position across the edge, `block` and `tx` the sizes of the block and of the transform in that direction. -/
def LfSelected (p block tx : Nat) (skipped intra : Bool) : Prop :=
  tx ∣ p ∧ (block ∣ p ∨ skipped = false ∨ intra = true)

end Gov1.Spec
