import Verif.Go
/-! # Small specification of dequantisation (AV1 specification 7.12.3) -/
namespace Gov1.Spec

/-- The magnitude of `coef * q`, reduced to 24 bits, divided by `denom` rounding down, with the sign of the
product, clamped to the signed numbers of `8 + bitDepth` bits. -/
def dequant (bitDepth denom : Nat) (coef q : Int) : Int :=
  let mag : Nat := (coef * q).natAbs % 2 ^ 24 / denom
  max (-2 ^ (7 + bitDepth)) (min (2 ^ (7 + bitDepth) - 1) (if coef * q < 0 then -(mag : Int) else mag))

/-- Width and height in samples of the coded coefficients of each transform size: at most 32. -/
def codedDims : List (Nat × Nat) :=
  [(4, 4), (8, 8), (16, 16), (32, 32), (32, 32), (4, 8), (8, 4), (8, 16), (16, 8), (16, 32), (32, 16),
   (32, 32), (32, 32), (4, 16), (16, 4), (8, 32), (32, 8), (16, 32), (32, 16)]

/-- The denominator: 1 up to 256 samples (and 8x32, 32x8), 4 for 64x64, 32x64 and 64x32, else 2. -/
def denomOf : List Nat := [1, 1, 1, 2, 4, 1, 1, 1, 1, 2, 2, 4, 4, 1, 1, 1, 1, 2, 2]

/-- The transform size with width and height exchanged. -/
def transposedTx : List Nat := [0, 1, 2, 3, 4, 6, 5, 8, 7, 10, 9, 12, 11, 14, 13, 16, 15, 18, 17]

end Gov1.Spec
