import Verif.Go
/-!
# Specification of the transforms

The forward Walsh-Hadamard transform is the one an AV1 encoder applies to a row or column of a lossless
residual block (integer lifting, libaom `av1_fwht4x4`).  It does not use any function of the decoder model.
-/
namespace Gov1.Spec

/-- Forward WHT of four residuals; floor division by 2 is the only rounding. -/
def forwardWht (x0 x1 x2 x3 : Int) : Int × Int × Int × Int :=
  let a := x0 + x1
  let d := x3 - x2
  let e := (a - d) / 2
  let b := e - x1
  let c := e - x2
  (a - c, c, d + b, b)

/-- AV1 7.13.2.1: the butterfly rotation of a pair by an angle with the given cosine and sine (times
4096), before rounding. -/
def rotate (x y c s : Int) : Int × Int := (x * c - y * s, x * s + y * c)

/-- One-dimensional transforms. -/
inductive Kind1 | dct | adst | flipAdst | identity
  deriving DecidableEq

/-- The transform of the columns and of the rows for each transform type, in the order of AV1's table. -/
def kinds : List (Kind1 × Kind1) :=
  [(.dct, .dct), (.adst, .dct), (.dct, .adst), (.adst, .adst), (.flipAdst, .dct), (.dct, .flipAdst), (.flipAdst, .flipAdst),
   (.adst, .flipAdst), (.flipAdst, .adst), (.identity, .identity), (.dct, .identity), (.identity, .dct), (.adst, .identity),
   (.identity, .adst), (.flipAdst, .identity), (.identity, .flipAdst)]

/-- The shift after the row transforms of a block of `2^lw` by `2^lh` coefficients: it grows with the area, up to 2, or up
to 1 for the blocks that are scaled by 1/sqrt 2 because one side is twice the other. -/
def rowShift (lw lh : Nat) : Nat := min (if lw = lh + 1 ∨ lh = lw + 1 then 1 else 2) ((lw + lh - 4) / 2)

end Gov1.Spec
