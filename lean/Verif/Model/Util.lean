import Verif.Model.BitStream
/-! # Model of internal/util/util.go -/
namespace Gov1

/-- internal/util/util.go:10-21 `Equals` on `[2]T`. -/
def equals2 {α : Type} [DecidableEq α] (a b : α × α) : Bool := a.1 == b.1 && a.2 == b.2

/-- Insertion into a sorted list (see `sortInts`). -/
def insertInt (x : Int) : List Int → List Int
  | [] => [x]
  | y :: ys => if x ≤ y then x :: y :: ys else y :: insertInt x ys

/-- The Go library's `sort.Ints`, modelled by insertion sort (the sorted permutation of a list of
integers is unique, so the algorithm does not matter). -/
def sortInts : List Int → List Int
  | [] => []
  | x :: xs => insertInt x (sortInts xs)

/-- internal/util/util.go:23-28 `Sort(arr, i1, i2)`.  `arrTmp := arr[i1:i2+1]` aliases `arr`, so
`sort.Ints` sorts the segment in place and the `copy` of the segment onto itself changes nothing.
Simplification: the slice bound is checked against the length, not the capacity. -/
def sortSeg (arr : List Int) (i1 i2 : Int) : Res (List Int) :=
  if i1 < 0 ∨ i2 + 1 < i1 ∨ (arr.length : Int) < i2 + 1 then .error .index
  else
    let a := i1.toNat
    let n := (i2 + 1 - i1).toNat
    .ok (arr.take a ++ sortInts ((arr.drop a).take n) ++ arr.drop (a + n))

/-- Doubling loop shared by `TileLog2` (util.go:32-35, `cur = blkSize << k`) and `CeilLog2`
(util.go:46-49, `cur = p`, `k = i`). -/
def doubleLoop (cur target k : Nat) : Nat :=
  if 0 < cur ∧ cur < target then doubleLoop (2 * cur) target (k + 1) else k
  termination_by target - cur

/-- internal/util/util.go:31-37 `TileLog2(blkSize, target)`.  For `blkSize ≤ 0` below the target the
loop condition stays true (for a negative block size, until the 64-bit shift overflows): modelled as
`hang`. -/
def tileLog2 (blkSize target : Int) : Res Nat :=
  if blkSize < target then
    if blkSize ≤ 0 then .error .hang else .ok (doubleLoop blkSize.toNat target.toNat 0)
  else .ok 0

/-- internal/util/util.go:39-52 `CeilLog2`. -/
def ceilLog2 (x : Int) : Nat := if x < 2 then 0 else doubleLoop 2 x.toNat 1

/-- internal/util/util.go:54-60 `Min`. -/
def minI (x y : Int) : Int := if x ≤ y then x else y
/-- internal/util/util.go:62-68 `Max`. -/
def maxI (x y : Int) : Int := if x ≥ y then x else y
/-- internal/util/util.go:79-85 `Abs`. -/
def absI (x : Int) : Int := if x ≥ 0 then x else -x

/-- internal/util/util.go:87-93 `Round2(x, n)` for `n ≥ 0` (a negative `n` panics in Go: negative
shift; no caller in /repo passes one). -/
def round2 (x : Int) (n : Nat) : Int := if n = 0 then x else (x + (1 <<< (n - 1) : Nat)) >>> n

/-- internal/util/util.go:95-101 `Round2Signed`: the non-negative branch rounds the constant `2`. -/
def round2Signed (x : Int) (n : Nat) : Int := if x ≥ 0 then round2 2 n else -(round2 (-x) n)

/-- internal/util/util.go:103-111 `InverseRecenter(r, v)`; Go `v & 1 != 0` is oddness, also for
negative two's complement `v`. -/
def inverseRecenter (r v : Int) : Int :=
  if v > 2 * r then v
  else if v % 2 ≠ 0 then r - ((v + 1) >>> (1 : Nat))
  else r + (v >>> (1 : Nat))

/-- internal/util/util.go:113-123 `Clip3(x, y, z)`. -/
def clip3 (x y z : Int) : Int := if z < x then x else if z > y then y else z

/-- internal/util/util.go:125-127 `Clip1(x, bitDepth)`: the first parameter is not used; the bound
is `int(math.Pow(2, bitDepth-1))`, that is `2^(bitDepth-1)`, and `0` (truncated `0.5`) at depth 0. -/
def clip1 (_x : Int) (bitDepth : Nat) : Int :=
  clip3 0 (if bitDepth = 0 then 0 else 2 ^ (bitDepth - 1)) 2

/-- internal/util/util.go:129-158 `NegDeinterleave(diff, ref, max)`. -/
def negDeinterleave (diff ref max : Int) : Int :=
  if ¬ (ref = 1) then diff
  else if ref ≥ max - 1 then max - diff - 1
  else if 2 * ref < max then
    if diff ≤ 2 * ref then
      if diff % 2 = 1 then ref + ((diff + 1) >>> (1 : Nat)) else ref - (diff >>> (1 : Nat))
    else diff
  else
    if diff ≤ 2 * (max - ref - 1) then
      if diff % 2 = 1 then ref + ((diff + 1) >>> (1 : Nat)) else ref - (diff >>> (1 : Nat))
    else max - diff + 1

/-- internal/util/util.go:171-178 `HasNewmv`, with the mode numbers of internal/shared/constants.go
(`NEWMV = 17, NEAREST_NEWMV = 20, NEW_NEARESTMV = 21, NEAR_NEWMV = 22, NEW_NEARMV = 23,
NEW_NEWMV = 25`). -/
def hasNewmv (mode : Int) : Bool :=
  mode == 17 || mode == 25 || mode == 22 || mode == 23 || mode == 20 || mode == 21

/-- internal/util/util.go:180-182 `LsProduct`. -/
def lsProduct (a b : Int) : Int := ((a * b) >>> (2 : Nat)) + (a + b)

/-- internal/util/util.go:199-208 the `Obmc_Mask_*` tables. -/
def obmcMask2 : List Int := [45, 64]
/-- internal/util/util.go:200 -/
def obmcMask4 : List Int := [39, 50, 59, 64]
/-- internal/util/util.go:201 -/
def obmcMask8 : List Int := [36, 42, 48, 53, 57, 61, 64, 64]
/-- internal/util/util.go:202 -/
def obmcMask16 : List Int := [34, 37, 40, 43, 46, 49, 52, 54, 56, 58, 60, 61, 64, 64, 64, 64]
/-- internal/util/util.go:203-208 -/
def obmcMask32 : List Int :=
  [3, 35, 36, 38, 40, 41, 43, 44, 45, 47, 48, 50, 51, 52, 53, 55,
   56, 57, 58, 59, 60, 60, 61, 62, 64, 64, 64, 64, 64, 64, 64, 64]

/-- internal/util/util.go:184-197 `GetObmcMask`. -/
def getObmcMask (length : Int) : List Int :=
  if length = 2 then obmcMask2 else if length = 4 then obmcMask4
  else if length = 8 then obmcMask8 else if length = 16 then obmcMask16 else obmcMask32

/-- internal/util/util.go:210-212 `CountUnitsInFrame(unitSize, frameSize)`; Go division truncates and
panics on zero. -/
def countUnitsInFrame (unitSize frameSize : Int) : Res Int :=
  if unitSize = 0 then .error .div
  else .ok (maxI ((frameSize + (unitSize >>> (1 : Nat))).tdiv unitSize) 1)

/-- internal/util/util.go:214-223 `Cos128_Lookup`. -/
def cos128Lookup : List Int :=
  [4096, 4095, 4091, 4085, 4076, 4065, 4052, 4036,
   4017, 3996, 3973, 3948, 3920, 3889, 3857, 3822,
   3784, 3745, 3703, 3659, 3612, 3564, 3513, 3461,
   3406, 3349, 3290, 3229, 3166, 3102, 3035, 2967,
   2896, 2824, 2751, 2675, 2598, 2520, 2440, 2359,
   2276, 2191, 2106, 2019, 1931, 1842, 1751, 1660,
   1567, 1474, 1380, 1285, 1189, 1092, 995, 897,
   799, 700, 601, 501, 401, 301, 201, 101, 0]

/-- internal/util/util.go:225-238 `Cos128`: the conditions are joined by `||`, so the first one always
holds; `angle & 255` is `angle mod 256` in two's complement. -/
def cos128 (angle : Int) : Res Int :=
  let angle2 := angle % 256
  if angle2 ≥ 0 ∨ angle2 ≤ 64 then goGet cos128Lookup angle2
  else if angle2 ≥ 64 ∨ angle2 ≤ 128 then (goGet cos128Lookup (128 - angle2)).map (· * -1)
  else if angle2 ≥ 128 ∨ angle2 ≤ 192 then (goGet cos128Lookup (angle2 - 128)).map (· * -1)
  else (goGet cos128Lookup (256 - angle2)).map (· * -1)

/-- internal/util/util.go:240-242 `Sin128`. -/
def sin128 (angle : Int) : Res Int := cos128 (angle - 64)

/-- Loop of internal/util/util.go:244-252 `Brev`: `i` counts up, `k = numBits - i`. -/
def brevLoop (numBits x : Nat) : Nat → Nat → Nat → Nat
  | 0, _, t => t
  | k + 1, i, t => brevLoop numBits x k (i + 1) (t + ((x >>> 1) % 2) <<< (numBits - 1 - i))

/-- internal/util/util.go:244-252 `Brev(numBits, x)` for `x ≥ 0`: every iteration takes bit 1 of
`x` (`x >> 1`, not `x >> i`). -/
def brev (numBits x : Nat) : Nat := brevLoop numBits x numBits 0 0

end Gov1
