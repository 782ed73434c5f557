/-!
# Specification of the coefficient code

The symbols that carry the coefficients of one block, given as the magnitudes in scan order, the last of them
not zero.  Written from the syntax tables of AV1 (5.11.39) independently of the decoder: the position of the
last coefficient, then the levels up to 15 from the last to the first, then for each coefficient from the first
to the last its sign and what exceeds 14 in Exp-Golomb code.
-/
namespace Gov1.Spec

/-- `n` bits of `x`, most significant first. -/
def bitsMsb : Nat → Nat → List Nat
  | 0, _ => []
  | n + 1, x => x / 2 ^ n % 2 :: bitsMsb n x

/-- Number of coded coefficients, `e ≥ 1`: the class of `e` (1, 2, 3-4, 5-8, ...), then the offset in it. -/
def eobCode (e : Nat) : List Nat :=
  if e = 1 then [0] else (Nat.log2 (e - 1) + 1) :: bitsMsb (Nat.log2 (e - 1)) (e - 1 - 2 ^ Nat.log2 (e - 1))

/-- The part of a level above 3, in at most `n` symbols of 0..3; 3 means "and more". -/
def brCode : Nat → Nat → List Nat
  | 0, _ => []
  | n + 1, r => if r < 3 then [r] else 3 :: brCode n (r - 3)

/-- A level up to 15 (larger ones count as 15); the last one is known not to be zero. -/
def levelCode (last : Bool) (a : Nat) : List Nat :=
  (min a 3 - (if last then 1 else 0)) :: (if a < 3 then [] else brCode 4 (min a 15 - 3))

/-- The levels of the coefficients `n-1, ..., 0`. -/
def levelsCode (a : Nat → Nat) (eob : Nat) : Nat → List Nat
  | 0 => []
  | c + 1 => levelCode (decide (c + 1 = eob)) (a c) ++ levelsCode a eob c

/-- Exp-Golomb code of `x ≥ 1`: as many zeros as `x` has bits after the first, then `x`. -/
def golombCode (x : Nat) : List Nat := List.replicate (Nat.log2 x) 0 ++ 1 :: bitsMsb (Nat.log2 x) x

/-- The DC sign (only of the first coefficient) and the excess over 14 of coefficient `c`. -/
def tailCode (neg : Bool) (c a : Nat) : List Nat :=
  (if c = 0 ∧ a ≠ 0 then [if neg then 1 else 0] else []) ++ (if a ≤ 14 then [] else golombCode (a - 14))

/-- The same for the coefficients `c, ..., c+n-1`. -/
def tailsCode (a : Nat → Nat) (neg : Bool) : Nat → Nat → List Nat
  | 0, _ => []
  | n + 1, c => tailCode neg c (a c) ++ tailsCode a neg n (c + 1)

/-- All the symbols of a block with coefficients after its transform type. -/
def blockCode (a : Nat → Nat) (neg : Bool) (eob : Nat) : List Nat :=
  eobCode eob ++ levelsCode a eob eob ++ tailsCode a neg eob 0

/-- The coefficient `c` a block carries: the sign applies to the first one. -/
def coefOf (a : Nat → Nat) (neg : Bool) (c : Nat) : Int := if c = 0 ∧ neg then -(a c : Int) else a c

/-- Width and height of each transform size, in the order of `codedArea` (Spec/Scan.lean). -/
def txDims : List (Nat × Nat) :=
  [(4, 4), (8, 8), (16, 16), (32, 32), (64, 64), (4, 8), (8, 4), (8, 16), (16, 8), (16, 32), (32, 16),
   (32, 64), (64, 32), (4, 16), (16, 4), (8, 32), (32, 8), (16, 64), (64, 16)]

/-- The transform types AV1 allows for a `w` by `h` block (numbers as in AV1: 0 is DCT_DCT, 9 IDTX, 10 and 11
V_DCT and H_DCT, 12 to 15 the one-dimensional ADSTs). -/
def allowedTypes (inter reduced : Bool) (w h : Nat) : List Nat :=
  if max w h > 32 then [0]
  else if inter then
    if reduced ∨ max w h = 32 then [0, 9] else if min w h = 16 then List.range 12 else List.range 16
  else if max w h = 32 then [0]
  else if reduced ∨ min w h = 16 then [0, 1, 2, 3, 9] else [0, 1, 2, 3, 9, 10, 11]

end Gov1.Spec
