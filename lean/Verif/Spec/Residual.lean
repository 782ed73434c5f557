/-!
# Order of the transform blocks, and prediction of chroma from luma

Written from AV1 5.11.34 (`residual`) and 7.11.4, 7.11.5, independently of the decoder.
-/
namespace Gov1.Spec

/-- One plane of a block: its top left pixel, its size, the size of its transform blocks and the size of a chunk (64x64 luma
pixels). -/
structure PlaneArea where
  x0 : Nat
  y0 : Nat
  w : Nat
  h : Nat
  tw : Nat
  th : Nat
  cw : Nat
  ch : Nat

/-- Top left pixels of the transform blocks of a chunk of a plane, in raster order. -/
def chunkBlocks (a : PlaneArea) (cy cx : Nat) : List (Nat × Nat) :=
  (List.range (min a.ch a.h / a.th)).flatMap fun i => (List.range (min a.cw a.w / a.tw)).map fun j => (a.x0 + cx * a.cw + j * a.tw, a.y0 + cy * a.ch + i * a.th)

/-- The order of AV1: chunk by chunk, in each chunk plane by plane.  Plane, left, top. -/
def txOrder (wc hc : Nat) (areas : List PlaneArea) : List (Nat × Nat × Nat) :=
  (List.range hc).flatMap fun cy => (List.range wc).flatMap fun cx => areas.zipIdx.flatMap fun a => (chunkBlocks a.1 cy cx).map fun p => (a.2, p.1, p.2)

/-- The luma value that belongs to a chroma pixel, in eighths: the sum of the luma pixels it covers, scaled; the last column and
row of the available luma are repeated. -/
def cflLumaVal (luma : Nat → Nat → Int) (sx sy maxW maxH px py : Nat) : Int :=
  let y := min (py * 2 ^ sy) (maxH - 2 ^ sy)
  let x := min (px * 2 ^ sx) (maxW - 2 ^ sx)
  8 / 2 ^ (sx + sy) * ((List.range (2 ^ sy)).map fun dy => ((List.range (2 ^ sx)).map fun dx => luma (y + dy) (x + dx)).sum).sum

end Gov1.Spec
