import Verif.Spec.Coeffs
/-!
# Motion vectors

Written from AV1 5.11.26, 5.11.30-5.11.32, 7.10.2.1, 7.10.2.10 and 7.10.2.14, independently of the decoder.
-/
namespace Gov1.Spec

/-! ## Coding of a difference -/

/-- The class of a component `v ≠ 0`: 0 up to 16, then `c` for `|v| - 1` from `2^(c+3)` to `2^(c+4) - 1`. -/
def mvClass (v : Int) : Nat := if v.natAbs ≤ 16 then 0 else Nat.log2 (v.natAbs - 1) - 3

/-- Whole pixels within the class. -/
def mvOffset (v : Int) : Nat := if v.natAbs ≤ 16 then (v.natAbs - 1) / 8 else (v.natAbs - 1 - 2 ^ (mvClass v + 3)) / 8

/-- Bits, the lowest first. -/
def bitsLsb : Nat → Nat → List Nat
  | 0, _ => []
  | n + 1, x => x % 2 :: bitsLsb n (x / 2)

/-- The replies that code a component: sign, class, whole pixels within the class (one bit for class 0, `c` bits from the lowest for
class `c`), quarters (unless vectors are whole pixels), eighths (with high precision). -/
def mvCompCode (forceInteger highPrecision : Bool) (v : Int) : List Nat :=
  (if v < 0 then 1 else 0) :: mvClass v :: ((if v.natAbs ≤ 16 then [mvOffset v] else bitsLsb (mvClass v) (mvOffset v)) ++
    ((if forceInteger then [] else [(v.natAbs - 1) % 8 / 2]) ++ (if highPrecision then [(v.natAbs - 1) % 2] else [])))

/-- Which components can be coded. -/
def mvCodable (forceInteger highPrecision : Bool) (v : Int) : Prop :=
  v ≠ 0 ∧ v.natAbs ≤ 2 ^ 14 ∧ (highPrecision = false → 2 ∣ v.natAbs) ∧ (forceInteger = true → 8 ∣ v.natAbs)

/-- The replies that code a difference: which components are not 0 (1 the column, 2 the row, 3 both), then these. -/
def mvCode (forceInteger highPrecision : Bool) (d : Int × Int) : List Nat :=
  ((if d.1 ≠ 0 then 2 else 0) + (if d.2 ≠ 0 then 1 else 0)) ::
    ((if d.1 ≠ 0 then mvCompCode forceInteger highPrecision d.1 else []) ++ (if d.2 ≠ 0 then mvCompCode forceInteger highPrecision d.2 else []))

/-! ## Modes -/

/-- The prediction of one vector. -/
inductive MvPred where
  | nearest | near | global | new
deriving DecidableEq, Repr

/-- The modes of inter blocks, in the order of their codes from 14: what each says of the first and of the second vector. -/
def interModes : List (MvPred × Option MvPred) :=
  [(.nearest, none), (.near, none), (.global, none), (.new, none),
   (.nearest, some .nearest), (.near, some .near), (.nearest, some .new), (.new, some .nearest), (.near, some .new), (.new, some .near),
   (.global, some .global), (.new, some .new)]

/-- The code of the prediction of one vector. -/
def MvPred.code : MvPred → Nat
  | .nearest => 14 | .near => 15 | .global => 16 | .new => 17

/-! ## Precision and global motion -/

/-- `r` is `v` rounded to a multiple of `n`, halves and (for `n = 2`) odd values towards 0. -/
def roundsTo (n : Nat) (v r : Int) : Prop := (n : Int) ∣ r ∧ 2 * (r.natAbs : Int) ≤ 2 * v.natAbs + (n - 1) ∧ 2 * (v.natAbs : Int) ≤ 2 * r.natAbs + n ∧ (0 ≤ v → 0 ≤ r) ∧ (v ≤ 0 → r ≤ 0)

/-- `x / 2^n` rounded to nearest, halves away from 0. -/
def roundSigned (x : Int) (n : Nat) : Int := if 0 ≤ x then (x + 2 ^ (n - 1)) / 2 ^ n else -((-x + 2 ^ (n - 1)) / 2 ^ n)

/-- Displacement, in 1/65536 pixel, of the pixel `(x, y)` under a warp with six parameters: row and column. -/
def warpShift (p : Nat → Int) (x y : Int) : Int × Int :=
  (p 4 * x + (p 5 - 2 ^ 16) * y + p 1, (p 2 - 2 ^ 16) * x + p 3 * y + p 0)

/-- The vector of global motion of type `typ` (0 identity, 1 translation, else a warp) before its precision is lowered. -/
def specGm (hp : Bool) (typ : Nat) (p : Nat → Int) (x y : Int) : Int × Int :=
  if typ = 0 then (0, 0)
  else if typ = 1 then (p 0 / 2 ^ 13, p 1 / 2 ^ 13)
  else if hp then (roundSigned (warpShift p x y).1 13, roundSigned (warpShift p x y).2 13)
  else (roundSigned (warpShift p x y).1 14 * 2, roundSigned (warpShift p x y).2 14 * 2)

end Gov1.Spec
