import Verif.Model.Util
/-!
# Model of internal/tilegroup/transform.go

`T` is the Go slice `t.T`; a copy `copyT := t.T` of a slice shares its elements, so the permutations
below read entries that the same loop has already overwritten, exactly as the Go code does.
-/
namespace Gov1

/-- internal/tilegroup/residual.go:76-78 `TX_WIDTH_LOG2`. -/
def txWidthLog2 : List Nat := [2, 3, 4, 5, 6, 2, 3, 3, 4, 4, 5, 5, 6, 2, 4, 3, 5, 4, 6]
/-- internal/tilegroup/residual.go:80-82 `TX_HEIGHT_LOG2`. -/
def txHeightLog2 : List Nat := [2, 3, 4, 5, 6, 3, 2, 4, 3, 5, 4, 6, 5, 4, 2, 5, 3, 6, 4]
/-- internal/tilegroup/transform.go:8-11 `Transform_Row_Shift`. -/
def transformRowShift : List Nat := [0, 1, 2, 2, 2, 0, 0, 1, 1, 1, 1, 1, 1, 1, 1, 2, 2, 2, 2]

/-- internal/tilegroup/transform.go:107-119 `b(a, b, angle, flag, r)`; `r` is not used.  Only
`flag = 0` and `flag = 1` occur; line 116 subtracts where AV1 adds. -/
def butterfly (T : List Int) (a b angle : Int) (flag : Bool) : Res (List Int) := do
  let ta ← goGet T a
  let c ← cos128 angle
  let tb ← goGet T b
  let s ← sin128 angle
  let x := ta * c - tb * s
  let y := ta * s - tb * c
  let T ← goSet T a (round2 x 12)
  let T ← goSet T b (round2 y 12)
  if flag then do
    let tmp ← goGet T a
    let tb ← goGet T b
    let T ← goSet T a tb
    goSet T b tmp
  else .ok T

/-- Lines 128-129 of internal/tilegroup/transform.go: clamping to `r` bits, signed.  `r` is always
positive. -/
def clampBits (r : Nat) (x : Int) : Int := clip3 (-(1 <<< (r - 1) : Nat)) ((1 <<< (r - 1) : Nat) - 1) x

/-- internal/tilegroup/transform.go:121-130 `h(a, b, flag, r)`. -/
def hadamard (T : List Int) (a b : Int) (flag : Bool) (r : Nat) : Res (List Int) := do
  let (a, b) := if flag then (b, a) else (a, b)
  let x ← goGet T a
  let y ← goGet T b
  let T ← goSet T a (clampBits r (x + y))
  goSet T b (clampBits r (x - y))

/-- One step of a transform. -/
inductive Op where
  | b (a b angle : Int) (flag : Bool)
  | h (a b : Int) (flag : Bool)

/-- A sequence of butterflies and Hadamard rotations. -/
def runOps (r : Nat) : List Op → List Int → Res (List Int)
  | [], T => .ok T
  | .b a b angle flag :: ops, T => do
    let T ← butterfly T a b angle flag
    runOps r ops T
  | .h a b flag :: ops, T => do
    let T ← hadamard T a b flag r
    runOps r ops T

/-- Go `for i := 0; i <= n; i++`, collecting the steps of the body. -/
def upTo (n : Nat) (f : Nat → List Op) : List Op := (List.range (n + 1)).flatMap f
/-- Steps made only under a condition. -/
def onlyIf (c : Bool) (l : List Op) : List Op := if c then l else []

/-- internal/tilegroup/transform.go:144-338: the steps of `inverseDCT(n, r)` after the permutation, in
order; `rev` is the bit reversal `util.Brev`. -/
def dctPlan (rev : Nat → Nat → Nat) (n : Nat) : List Op :=
  onlyIf (n == 6) (upTo 15 fun i => [.b (32 + i) (63 - i) (63 - 4 * rev 4 i) false]) ++
  onlyIf (n ≥ 5) (upTo 7 fun i => [.b (16 + i) (31 - i) (6 + (rev 3 (7 - i) <<< 3 : Nat)) false]) ++
  onlyIf (n == 6) (upTo 15 fun i => [.h (32 + i * 2) (33 + i * 2) (i % 2 == 1)]) ++
  onlyIf (n ≥ 4) (upTo 3 fun i => [.b (8 + i) (15 - i) (12 + (rev 2 (3 - i) <<< 4 : Nat)) false]) ++
  onlyIf (n ≥ 5) (upTo 7 fun i => [.h (16 + 2 * i) (17 + 2 * i) (i % 2 == 1)]) ++
  onlyIf (n == 6) (upTo 3 fun i => upTo 1 fun j =>
    [.b (62 - i * 4 - j) (33 + i * 4 + j) (60 - 16 * rev 2 i + 64 * j) true]) ++
  onlyIf (n ≥ 3) (upTo 1 fun i => [.b (4 + i) (7 - i) (56 - 32 * i) false]) ++
  onlyIf (n ≥ 4) (upTo 3 fun i => [.h (8 + 2 * i) (9 + 2 * i) (i % 2 == 1)]) ++
  onlyIf (n ≥ 5) (upTo 1 fun i => upTo 1 fun j =>
    [.b (30 - 4 * i - j) (17 + 4 * i + j) (24 + (j <<< 6 : Nat) + ((1 - i) <<< 5 : Nat)) true]) ++
  onlyIf (n == 6) (upTo 7 fun i => upTo 1 fun j => [.h (32 + i * 4 + j) (35 + i * 4 - j) (i % 2 == 1)]) ++
  (upTo 1 fun i => [.b (2 * i) (2 * i + 1) (32 + 16 * i) (1 - i == 1)]) ++
  onlyIf (n ≥ 3) (upTo 1 fun i => [.h (4 + 2 * i) (5 + 2 * i) (i == 1)]) ++
  onlyIf (n ≥ 4) (upTo 1 fun i => [.b (14 - i) (9 + i) (48 + 64 * i) true]) ++
  onlyIf (n ≥ 5) (upTo 3 fun i => upTo 1 fun j => [.h (16 + 4 * i + j) (19 + 4 * i - j) (i % 2 == 1)]) ++
  onlyIf (n == 6) (upTo 1 fun i => upTo 3 fun j =>
    [.b (61 - i * 8 - j) (34 + i * 8 + j) (56 - i * 32 + (j >>> 1 : Nat) * 64) true]) ++
  (upTo 1 fun i => [.h i (3 - i) false]) ++
  onlyIf (n ≥ 3) [.b 6 5 32 true] ++
  onlyIf (n ≥ 4) (upTo 1 fun i => upTo 1 fun j => [.h (8 + 4 * i + j) (11 + 4 * i - j) (i == 1)]) ++
  onlyIf (n ≥ 5) (upTo 3 fun i => [.b (29 - i) (18 + i) (48 + (i >>> 1 : Nat) * 64) true]) ++
  onlyIf (n == 6) (upTo 3 fun i => upTo 3 fun j => [.h (32 + 8 * i + j) (39 + 8 * i - j) (i % 2 == 1)]) ++
  onlyIf (n ≥ 3) (upTo 3 fun i => [.h i (7 - i) false]) ++
  onlyIf (n ≥ 4) (upTo 1 fun i => [.b (13 - i) (10 + i) 32 true]) ++
  onlyIf (n ≥ 5) (upTo 1 fun i => upTo 3 fun j => [.h (16 + i * 8 + j) (23 + i * 8 - j) (i == 1)]) ++
  onlyIf (n == 6) (upTo 7 fun i => [.b (59 - i) (36 + i) (if i < 4 then 48 else 112) true]) ++
  onlyIf (n ≥ 4) (upTo 7 fun i => [.h i (15 - i) false]) ++
  onlyIf (n ≥ 5) (upTo 3 fun i => [.b (27 - i) (20 + i) 32 true]) ++
  onlyIf (n == 6) (upTo 7 fun i => [.h (32 + i) (47 - i) false, .h (48 + i) (63 - i) true]) ++
  onlyIf (n ≥ 5) (upTo 15 fun i => [.h i (31 - i) false]) ++
  onlyIf (n == 6) (upTo 7 fun i => [.b (55 - i) (40 + i) 32 true]) ++
  onlyIf (n == 6) (upTo 31 fun i => [.h i (63 - i) false])

/-- internal/tilegroup/transform.go:144-338: the steps with the bit reversal of internal/util/util.go. -/
def dctOps (n : Nat) : List Op := dctPlan brev n

/-- Loop `T[i] = g(copyT[src i])` for `i = i0 ..`, `k` iterations, where `copyT` is the same array. -/
def permuteLoop (src : Nat → Nat) (g : Nat → Int → Int) : Nat → Nat → List Int → Res (List Int)
  | 0, _, T => .ok T
  | k + 1, i, T => do
    let v ← goGet T (src i)
    let T ← goSet T i (g i v)
    permuteLoop src g k (i + 1) T

/-- internal/tilegroup/transform.go:133-138 `inverseDCTArrayPermutation(n)`. -/
def dctPermutation (n : Nat) (T : List Int) : Res (List Int) :=
  permuteLoop (brev n) (fun _ v => v) (1 <<< n) 0 T

/-- internal/tilegroup/transform.go:141-339 `inverseDCT(n, r)`. -/
def inverseDct (n r : Nat) (T : List Int) : Res (List Int) := do
  let T ← dctPermutation n T
  runOps r (dctOps n) T

/-- internal/tilegroup/transform.go:347-352: where entry `i` comes from. -/
def adstInIdx (n i : Nat) : Nat := if i % 2 = 1 then i - 1 else (1 <<< n) - i - 1

/-- internal/tilegroup/transform.go:342-354 `inverseADSTInputArrayPermutation(n)`. -/
def adstInput (n : Nat) (T : List Int) : Res (List Int) :=
  permuteLoop (adstInIdx n) (fun _ v => v) (1 <<< n) 0 T

/-- internal/tilegroup/transform.go:362-366: where entry `i` comes from (`n ≤ 4`). -/
def adstOutIdx (n i : Nat) : Nat :=
  let a := (i >>> 3) % 2
  let b := ((i >>> 2) % 2) ^^^ ((i >>> 3) % 2)
  let c := ((i >>> 1) % 2) ^^^ ((i >>> 2) % 2)
  let d := (i % 2) ^^^ ((i >>> 1) % 2)
  ((d <<< 3) ||| (c <<< 2) ||| (b <<< 1) ||| a) >>> (4 - n)

/-- internal/tilegroup/transform.go:368: whether entry `i` is negated. -/
def adstOutNeg (i : Nat) : Bool := i % 2 == 1

/-- internal/tilegroup/transform.go:357-375 `inverseADSTOutputArrayPermutation(n)` (`n ≤ 4`). -/
def adstOutput (n : Nat) (T : List Int) : Res (List Int) :=
  permuteLoop (adstOutIdx n) (fun i v => if adstOutNeg i then -v else v) (1 <<< n) 0 T

/-- internal/tilegroup/transform.go:383-412 `inverseADST4(r)`: the first statement reads `t.T[0]` and
assigns to `s[0]` of the empty slice `s`; either panics, so nothing after it is reached. -/
def inverseAdst4 (T : List Int) : Res (List Int) := do
  let t0 ← goGet T 0
  let _ ← goSet ([] : List Int) 0 (1321 * t0)
  .ok T

/-- internal/tilegroup/transform.go:417-437: the steps of `inverseADST8` between the permutations. -/
def adst8Ops : List Op :=
  (upTo 3 fun i => [.b (2 * i) (2 * i + 1) (60 - 16 * i) true]) ++
  (upTo 3 fun i => [.h i (4 + i) false]) ++
  (upTo 1 fun i => [.b (4 + 3 * i) (5 + i) (48 - 32 * i) true]) ++
  (upTo 1 fun i => upTo 1 fun j => [.h (4 * j + i) (2 + 4 * j + i) false]) ++
  (upTo 1 fun i => [.b (2 + 4 * i) (3 + 4 * i) 32 true])

/-- internal/tilegroup/transform.go:415-440 `inverseADST8(r)`; line 439 permutes 16 entries. -/
def inverseAdst8 (r : Nat) (T : List Int) : Res (List Int) := do
  let T ← adstInput 3 T
  let T ← runOps r adst8Ops T
  adstOutput 4 T

/-- internal/tilegroup/transform.go:445-478: the steps of `inverseADST16` between the permutations. -/
def adst16Ops : List Op :=
  (upTo 7 fun i => [.b (2 * i) (2 * i + 1) (62 - 8 * i) true]) ++
  (upTo 7 fun i => [.h i (8 + i) false]) ++
  (upTo 1 fun i => [.b (8 + 2 * i) (9 + 2 * i) (56 - 32 * i) true,
    .b (13 + 2 * i) (12 + 2 * i) (8 + 32 * i) true]) ++
  (upTo 3 fun i => upTo 1 fun j => [.h (8 * j + i) (4 + 8 * j + i) false]) ++
  (upTo 1 fun i => upTo 1 fun j => [.b (4 + 8 * j + 3 * i) (5 + 8 * j + i) (48 - 32 * i) true]) ++
  (upTo 1 fun i => upTo 3 fun j => [.h (4 * j + i) (2 + 4 * j + i) false]) ++
  (upTo 3 fun i => [.b (2 + 4 * i) (3 + 4 * i) 32 true])

/-- internal/tilegroup/transform.go:443-481 `inverseADST16(r)`. -/
def inverseAdst16 (r : Nat) (T : List Int) : Res (List Int) := do
  let T ← adstInput 4 T
  let T ← runOps r adst16Ops T
  adstOutput 4 T

/-- internal/tilegroup/transform.go:484-493 `inverseADST(n, r)`. -/
def inverseAdst (n r : Nat) (T : List Int) : Res (List Int) :=
  if n = 2 then inverseAdst4 T else if n = 3 then inverseAdst8 r T else inverseAdst16 r T

/-- internal/tilegroup/transform.go:496-512 `inverseWalshHadamardTransform(shift)`. -/
def inverseWht (shift : Nat) (T : List Int) : Res (List Int) := do
  let a := (← goGet T 0) >>> shift
  let c := (← goGet T 1) >>> shift
  let d := (← goGet T 2) >>> shift
  let b := (← goGet T 3) >>> shift
  let a := a + c
  let d := d - b
  let e := (a - d) >>> (1 : Nat)
  let b := e - b
  let c := e - c
  let a := a - b
  let d := d + c
  let T ← goSet T 0 a
  let T ← goSet T 1 b
  let T ← goSet T 2 c
  goSet T 3 d

/-- Loop `for i := i0; i < i0+k; i++ { T[i] = f(T[i]) }`. -/
def mapLoop (f : Int → Int) : Nat → Nat → List Int → Res (List Int)
  | 0, _, T => .ok T
  | k + 1, i, T => do
    let v ← goGet T i
    let T ← goSet T i (f v)
    mapLoop f k (i + 1) T

/-- internal/tilegroup/transform.go:515-553 `inverseIdentityTransform(n)` and the four functions it
calls. -/
def inverseIdentity (n : Nat) (T : List Int) : Res (List Int) :=
  if n = 2 then mapLoop (fun x => round2 (x * 5793) 12) 4 0 T
  else if n = 3 then mapLoop (fun x => x * 2) 8 0 T
  else if n = 4 then mapLoop (fun x => round2 (x * 11586) 12) 16 0 T
  else mapLoop (fun x => x * 4) 32 0 T

/-- internal/tilegroup/transform.go:48-68: the row transform.  Types: `DCT_DCT = 0, ADST_DCT = 1,
DCT_ADST = 2, ADST_ADST = 3, FLIPADST_DCT = 4, DCT_FLIPADST = 5, FLIPADST_FLIPADST = 6,
ADST_FLIPADST = 7, FLIPADST_ADST = 8, IDTX = 9, V_DCT = 10, H_DCT = 11, V_ADST = 12, H_ADST = 13,
V_FLIPADST = 14, H_FLIPADST = 15`. -/
def rowTransform (lossless : Bool) (ty n r : Nat) (T : List Int) : Res (List Int) :=
  if lossless then inverseWht 2 T
  else if ty = 0 ∨ ty = 1 ∨ ty = 4 ∨ ty = 11 then inverseDct n r T
  else if ty = 2 ∨ ty = 3 ∨ ty = 5 ∨ ty = 6 ∨ ty = 7 ∨ ty = 8 ∨ ty = 13 ∨ ty = 15 then inverseAdst n r T
  else inverseIdentity n T

/-- internal/tilegroup/transform.go:81-99: the column transform. -/
def colTransform (lossless : Bool) (ty n r : Nat) (T : List Int) : Res (List Int) :=
  if lossless then inverseWht 0 T
  else if ty = 0 ∨ ty = 2 ∨ ty = 5 ∨ ty = 10 then inverseDct n r T
  else if ty = 1 ∨ ty = 3 ∨ ty = 4 ∨ ty = 6 ∨ ty = 7 ∨ ty = 8 ∨ ty = 12 ∨ ty = 14 then inverseAdst n r T
  else inverseIdentity n T

/-- Go write `m[i][j] = v` to a slice of slices. -/
def setCell (m : List (List Int)) (i j : Nat) (v : Int) : Res (List (List Int)) := do
  let row ← goGet m i
  let row ← goSet row j v
  goSet m i row

/-- internal/tilegroup/transform.go:35-41, `k` iterations from `j`: load a row.  `deq` is the
`[64][64]int` array `t.Dequant` as a function. -/
def loadRow (deq : Nat → Nat → Int) (i : Nat) : Nat → Nat → List Int → Res (List Int)
  | 0, _, T => .ok T
  | k + 1, j, T => do
    let T ← goSet T j (if i < 32 ∧ j < 32 then deq i j else 0)
    loadRow deq i k (j + 1) T

/-- internal/tilegroup/transform.go:69-71: store a row. -/
def storeRow (rowShift : Nat) (i : Nat) (T : List Int) : Nat → Nat → List (List Int) → Res (List (List Int))
  | 0, _, R => .ok R
  | k + 1, j, R => do
    let v ← goGet T j
    let R ← setCell R i j (round2 v rowShift)
    storeRow rowShift i T k (j + 1) R

/-- internal/tilegroup/transform.go:42-46: scaling by 1/sqrt 2 of 2:1 rectangular blocks. -/
def rectScale (log2W log2H : Nat) (T : List Int) : Res (List Int) :=
  if log2W = log2H + 1 ∨ log2H = log2W + 1 then
    mapLoop (fun x => round2 (x * 2896) 12) (1 <<< log2W) 0 T
  else .ok T

/-- internal/tilegroup/transform.go:34-72: the row pass. -/
def rowPass (lossless : Bool) (ty log2W log2H rowShift r : Nat) (deq : Nat → Nat → Int) :
    Nat → Nat → List Int → List (List Int) → Res (List Int × List (List Int))
  | 0, _, T, R => .ok (T, R)
  | k + 1, i, T, R => do
    let T ← loadRow deq i (1 <<< log2W) 0 T
    let T ← rectScale log2W log2H T
    let T ← rowTransform lossless ty log2W r T
    let R ← storeRow rowShift i T (1 <<< log2W) 0 R
    rowPass lossless ty log2W log2H rowShift r deq k (i + 1) T R

/-- Inner loop of internal/tilegroup/transform.go:74-78. -/
def clampRow (c : Nat) (i : Nat) : Nat → Nat → List (List Int) → Res (List (List Int))
  | 0, _, R => .ok R
  | k + 1, j, R => do
    let row ← goGet R i
    let v ← goGet row j
    let R ← setCell R i j (clampBits c v)
    clampRow c i k (j + 1) R

/-- internal/tilegroup/transform.go:74-78: clamping between the passes. -/
def clampPass (c w : Nat) : Nat → Nat → List (List Int) → Res (List (List Int))
  | 0, _, R => .ok R
  | k + 1, i, R => do
    let R ← clampRow c i w 0 R
    clampPass c w k (i + 1) R

/-- internal/tilegroup/transform.go:101-103: store column `j`; the value stored in every row is
`Round2(T[j], colShift)`. -/
def storeCol (colShift j : Nat) (T : List Int) : Nat → Nat → List (List Int) → Res (List (List Int))
  | 0, _, R => .ok R
  | k + 1, i, R => do
    let v ← goGet T j
    let R ← setCell R i j (round2 v colShift)
    storeCol colShift j T k (i + 1) R

/-- internal/tilegroup/transform.go:80-104: the column pass; the column is never loaded into `T`. -/
def colPass (lossless : Bool) (ty log2H colShift r : Nat) :
    Nat → Nat → List Int → List (List Int) → Res (List Int × List (List Int))
  | 0, _, T, R => .ok (T, R)
  | k + 1, j, T, R => do
    let T ← colTransform lossless ty log2H r T
    let R ← storeCol colShift j T (1 <<< log2H) 0 R
    colPass lossless ty log2H colShift r k (j + 1) T R

/-- internal/tilegroup/transform.go:19-24: `rowShift`. -/
def rowShiftOf (lossless : Bool) (txSz : Nat) : Res Nat :=
  if lossless then .ok 0 else goGet transformRowShift txSz

/-- internal/tilegroup/transform.go:14-105 `InverseTranform(txSz)`; `ty` is `t.PlaneTxType`, `T` and
`R` are `t.T` and `t.Residual` before the call. -/
def inverseTransform (lossless : Bool) (ty txSz bitDepth : Nat) (deq : Nat → Nat → Int) (T : List Int)
    (R : List (List Int)) : Res (List Int × List (List Int)) := do
  let log2W ← goGet txWidthLog2 txSz
  let log2H ← goGet txHeightLog2 txSz
  let rowShift ← rowShiftOf lossless txSz
  let colShift := if lossless then 0 else 4
  let rowRange := bitDepth + 8
  let colRange := if bitDepth + 6 ≥ 16 then bitDepth + 6 else 16
  let (T, R) ← rowPass lossless ty log2W log2H rowShift rowRange deq (1 <<< log2H) 0 T R
  let R ← clampPass colRange (1 <<< log2W) (1 <<< log2H) 0 R
  colPass lossless ty log2H colShift colRange (1 <<< log2W) 0 T R

end Gov1
