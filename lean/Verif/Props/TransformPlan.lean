import Verif.Model.Transform
import Verif.Model.Reconstruct
import Verif.Spec.Dct
import Verif.Spec.Transform
import Verif.Props.Transform
/-!
# The sequence of rotations of the inverse DCT and ADST (C88)

As it stands no inverse DCT or ADST of the code returns (`C88_dct_refuted`, `C88_adst_refuted`: the cosine table panics).
The order, the operands and the angles of the steps are right all the same: carried out with real numbers, exact
rotations and a bit reversal that reverses bits, they compute the textbook transforms, for every size and input.

The proof is by reflection: a row of the transform matrix is a list of integer combinations of `cos (π a / 128)`,
`0 ≤ a < 64`, over a power of two; the matrix is computed by the kernel and compared with the textbook one.
-/
namespace Gov1
open Real

/-- One step with real numbers: rotation by `angle * π / 128` (the two results exchanged if `flag`), or sum and difference. -/
noncomputable def exactStep (T : Int → ℝ) : Op → Int → ℝ
  | .b a b angle flag =>
    let x := T a * cos (π * angle / 128) - T b * sin (π * angle / 128)
    let y := T a * sin (π * angle / 128) + T b * cos (π * angle / 128)
    Function.update (Function.update T a (if flag then y else x)) b (if flag then x else y)
  | .h a b flag =>
    if flag then Function.update (Function.update T b (T b + T a)) a (T b - T a)
    else Function.update (Function.update T a (T a + T b)) b (T a - T b)

/-- The steps in order. -/
noncomputable def exactRun (ops : List Op) (T : Int → ℝ) : Int → ℝ := ops.foldl exactStep T

/-! ## Integer combinations of cosines -/

/-- `Σ c * cos (π a / 128)` over the entries `(a, c)`, which are sorted by `a`. -/
abbrev CosSum := List (Nat × Int)

/-- The value. -/
noncomputable def CosSum.ev (l : CosSum) : ℝ := (l.map fun e => (e.2 : ℝ) * cos (π * e.1 / 128)).sum

/-- Add one term. -/
def CosSum.ins (a : Nat) (c : Int) : CosSum → CosSum
  | [] => [(a, c)]
  | (b, d) :: l =>
    if Nat.blt a b then (a, c) :: (b, d) :: l
    else if Nat.beq a b then (if c + d = 0 then l else (a, c + d) :: l)
    else (b, d) :: CosSum.ins a c l

theorem CosSum.ev_cons (e : Nat × Int) (l : CosSum) : CosSum.ev (e :: l) = (e.2 : ℝ) * cos (π * e.1 / 128) + CosSum.ev l := by
  simp [CosSum.ev]

theorem CosSum.ev_ins (a : Nat) (c : Int) (l : CosSum) : (CosSum.ins a c l).ev = (c : ℝ) * cos (π * a / 128) + l.ev := by
  induction l with
  | nil => simp [CosSum.ins, CosSum.ev]
  | cons e l ih =>
    obtain ⟨b, d⟩ := e
    unfold CosSum.ins
    split
    · rw [CosSum.ev_cons]
    · split
      · rename_i h
        have h : a = b := Nat.eq_of_beq_eq_true h
        subst h
        split
        · rename_i h0
          rw [CosSum.ev_cons]
          have h0 : (c : ℝ) + d = 0 := by exact_mod_cast h0
          have : (c : ℝ) * cos (π * a / 128) + d * cos (π * a / 128) = 0 := by rw [← add_mul, h0, zero_mul]
          dsimp only
          linarith
        · rw [CosSum.ev_cons, CosSum.ev_cons]
          push_cast
          ring
      · rw [CosSum.ev_cons, ih, CosSum.ev_cons]
        ring

/-- Add `c * cos (π t / 128)` for any `t`, brought to an angle below a quarter turn. -/
def CosSum.insAng (t : Int) (c : Int) (l : CosSum) : CosSum :=
  let a := (t % 256).toNat
  if Nat.blt a 64 then CosSum.ins a c l
  else if Nat.beq a 64 then l
  else if Nat.ble a 128 then CosSum.ins (128 - a) (-c) l
  else if Nat.blt a 192 then CosSum.ins (a - 128) (-c) l
  else if Nat.beq a 192 then l
  else CosSum.ins (256 - a) c l

theorem cos_mod (t : Int) : cos (π * t / 128) = cos (π * ((t % 256).toNat : Nat) / 128) := by
  have h0 : 0 ≤ t % 256 := Int.emod_nonneg _ (by decide)
  have e : (t : ℝ) = ((t % 256).toNat : ℝ) + 256 * ((t / 256 : Int) : ℝ) := by
    have h1 : ((t % 256).toNat : Int) = t % 256 := Int.toNat_of_nonneg h0
    have h2 : t = t % 256 + 256 * (t / 256) := (Int.emod_add_mul_ediv t 256).symm
    have h3 : ((t % 256).toNat : ℝ) = ((t % 256 : Int) : ℝ) := by exact_mod_cast congrArg (Int.cast (R := ℝ)) h1
    rw [h3]
    exact_mod_cast h2
  rw [e, show π * (((t % 256).toNat : ℝ) + 256 * ((t / 256 : Int) : ℝ)) / 128 =
    π * ((t % 256).toNat : ℝ) / 128 + ((t / 256 : Int) : ℝ) * (2 * π) by ring, cos_add_int_mul_two_pi]

theorem CosSum.ev_insAng (t : Int) (c : Int) (l : CosSum) : (CosSum.insAng t c l).ev = (c : ℝ) * cos (π * t / 128) + l.ev := by
  rw [cos_mod t]
  have hlt : (t % 256).toNat < 256 := by have := Int.emod_lt_of_pos t (show (0:Int) < 256 by decide); omega
  unfold CosSum.insAng
  dsimp only
  generalize (t % 256).toNat = a at hlt
  split
  · exact CosSum.ev_ins _ _ _
  · rename_i h1
    split
    · rename_i h
      have h : a = 64 := Nat.eq_of_beq_eq_true h
      rw [h, show π * ((64 : Nat) : ℝ) / 128 = π / 2 by push_cast; ring, cos_pi_div_two]; simp
    · split
      · rename_i h
        have h : a ≤ 128 := Nat.le_of_ble_eq_true h
        rw [CosSum.ev_ins, Nat.cast_sub h, show π * (((128 : Nat) : ℝ) - a) / 128 = π - π * a / 128 by push_cast; ring, cos_pi_sub]
        push_cast; ring
      · rename_i h2
        have h2 : 128 < a := by rcases Nat.lt_or_ge 128 a with h | h; exact h; exact absurd (Nat.ble_eq_true_of_le h) h2
        split
        · rw [CosSum.ev_ins, Nat.cast_sub h2.le, show π * ((a : ℝ) - (128 : Nat)) / 128 = π * a / 128 - π by push_cast; ring, cos_sub_pi]
          push_cast; ring
        · split
          · rename_i h
            have h : a = 192 := Nat.eq_of_beq_eq_true h
            rw [h, show π * ((192 : Nat) : ℝ) / 128 = π / 2 + π by push_cast; ring, cos_add_pi, cos_pi_div_two]; simp
          · rw [CosSum.ev_ins, Nat.cast_sub hlt.le, show π * (((256 : Nat) : ℝ) - a) / 128 = 2 * π - π * a / 128 by push_cast; ring, cos_two_pi_sub]

/-- `acc + 2 m cos (π θ / 128) * l`. -/
def CosSum.addMul (θ m : Int) (l acc : CosSum) : CosSum :=
  l.foldr (fun e acc => CosSum.insAng (e.1 + θ) (m * e.2) (CosSum.insAng (e.1 - θ) (m * e.2) acc)) acc

theorem CosSum.ev_addMul (θ m : Int) (l acc : CosSum) : (CosSum.addMul θ m l acc).ev = 2 * cos (π * θ / 128) * (m * l.ev) + acc.ev := by
  induction l with
  | nil => simp [CosSum.addMul, CosSum.ev]
  | cons e l ih =>
    have : CosSum.addMul θ m (e :: l) acc = CosSum.insAng (e.1 + θ) (m * e.2) (CosSum.insAng (e.1 - θ) (m * e.2) (CosSum.addMul θ m l acc)) := rfl
    rw [this, CosSum.ev_insAng, CosSum.ev_insAng, ih, CosSum.ev_cons]
    push_cast
    rw [show π * ((e.1 : ℝ) + θ) / 128 = π * e.1 / 128 + π * θ / 128 by ring,
      show π * ((e.1 : ℝ) - θ) / 128 = π * e.1 / 128 - π * θ / 128 by ring, cos_add, cos_sub]
    ring

/-- `m * l + acc`. -/
def CosSum.addScaled (m : Int) (l acc : CosSum) : CosSum := l.foldr (fun e acc => CosSum.ins e.1 (m * e.2) acc) acc

theorem CosSum.ev_addScaled (m : Int) (l acc : CosSum) : (CosSum.addScaled m l acc).ev = m * l.ev + acc.ev := by
  induction l with
  | nil => simp [CosSum.addScaled, CosSum.ev]
  | cons e l ih =>
    have : CosSum.addScaled m (e :: l) acc = CosSum.ins e.1 (m * e.2) (CosSum.addScaled m l acc) := rfl
    rw [this, CosSum.ev_ins, ih, CosSum.ev_cons]
    push_cast
    ring

/-! ## Rows of the matrix -/

/-- A row: the coefficients of `X 0, X 1, ..`, over `2 ^ k`. -/
structure CRow where
  k : Nat
  cs : List CosSum

/-- The value of the coefficients at positions `j, j + 1, ..`. -/
noncomputable def evList (X : Nat → ℝ) : Nat → List CosSum → ℝ
  | _, [] => 0
  | j, l :: ls => X j * l.ev + evList X (j + 1) ls

/-- The value of a row. -/
noncomputable def CRow.ev (X : Nat → ℝ) (r : CRow) : ℝ := evList X 0 r.cs / 2 ^ r.k

/-- Position by position, for rows of the same length. -/
def zip2 (f : CosSum → CosSum → CosSum) : List CosSum → List CosSum → List CosSum
  | a :: l, b :: m => f a b :: zip2 f l m
  | _, _ => []

theorem zip2_length (f : CosSum → CosSum → CosSum) : ∀ l m : List CosSum, l.length = m.length → (zip2 f l m).length = l.length
  | [], [], _ => rfl
  | a :: l, b :: m, h => by simp only [zip2, List.length_cons]; rw [zip2_length f l m (by simpa using h)]

theorem ev_zip2 (X : Nat → ℝ) (f : CosSum → CosSum → CosSum) (u v : ℝ) (hf : ∀ a b, (f a b).ev = u * a.ev + v * b.ev) :
    ∀ (l m : List CosSum) (j : Nat), l.length = m.length → evList X j (zip2 f l m) = u * evList X j l + v * evList X j m
  | [], [], _, _ => by simp [zip2, evList]
  | a :: l, b :: m, j, h => by
    simp only [zip2, evList]
    rw [ev_zip2 X f u v hf l m (j + 1) (by simpa using h), hf]
    ring

/-- `u * r + v * s` where the multiples of the two sums are computed by `f` times `2 ^ d`. -/
def CRow.comb (d : Nat) (f : Int → Int → CosSum → CosSum → CosSum) (r s : CRow) : CRow :=
  let m := Nat.max r.k s.k
  ⟨m + d, zip2 (f ((2 ^ (m - r.k) : Nat) : Int) ((2 ^ (m - s.k) : Nat) : Int)) r.cs s.cs⟩

theorem CRow.ev_comb (X : Nat → ℝ) (d : Nat) (f : Int → Int → CosSum → CosSum → CosSum) (u v : ℝ) (r s : CRow)
    (hf : ∀ m n a b, (f m n a b).ev = 2 ^ d * (u * (m * a.ev) + v * (n * b.ev))) (h : r.cs.length = s.cs.length) :
    (CRow.comb d f r s).ev X = u * r.ev X + v * s.ev X := by
  unfold CRow.ev CRow.comb
  dsimp only
  have hr : r.k ≤ Nat.max r.k s.k := Nat.le_max_left ..
  have hs : s.k ≤ Nat.max r.k s.k := Nat.le_max_right ..
  generalize Nat.max r.k s.k = m at hr hs
  rw [ev_zip2 X _ (2 ^ d * u * 2 ^ (m - r.k)) (2 ^ d * v * 2 ^ (m - s.k)) (by
    intro a b
    rw [hf]
    push_cast
    ring) _ _ 0 h]
  have e1 : (2 : ℝ) ^ m = 2 ^ (m - r.k) * 2 ^ r.k := by rw [← pow_add, Nat.sub_add_cancel hr]
  have e2 : (2 : ℝ) ^ m = 2 ^ (m - s.k) * 2 ^ s.k := by rw [← pow_add, Nat.sub_add_cancel hs]
  rw [add_div]
  congr 1
  · rw [pow_add, e1]
    field_simp
  · rw [pow_add, e2]
    field_simp

/-! ## Steps on matrices -/

/-- `p cos θ - q sin θ`, times two. -/
def rotX (θ : Int) (m n : Int) (p q : CosSum) : CosSum := CosSum.addMul θ m p (CosSum.addMul (θ + 64) n q [])
/-- `p sin θ + q cos θ`, times two. -/
def rotY (θ : Int) (m n : Int) (p q : CosSum) : CosSum := CosSum.addMul (θ - 64) m p (CosSum.addMul θ n q [])
/-- `p + q`. -/
def sumC (m n : Int) (p q : CosSum) : CosSum := CosSum.addScaled m p (CosSum.addScaled n q [])
/-- `p - q`. -/
def diffC (m n : Int) (p q : CosSum) : CosSum := CosSum.addScaled m p (CosSum.addScaled (-n) q [])

theorem ev_nil : CosSum.ev [] = 0 := by simp [CosSum.ev]

theorem cos_plus64 (θ : Int) : cos (π * ((θ + 64 : Int) : ℝ) / 128) = - sin (π * θ / 128) := by
  push_cast
  rw [show π * ((θ : ℝ) + 64) / 128 = π * θ / 128 + π / 2 by ring, cos_add_pi_div_two]

theorem cos_minus64 (θ : Int) : cos (π * ((θ - 64 : Int) : ℝ) / 128) = sin (π * θ / 128) := by
  push_cast
  rw [show π * ((θ : ℝ) - 64) / 128 = π * θ / 128 - π / 2 by ring, cos_sub_pi_div_two]

theorem ev_rotX (θ m n : Int) (p q : CosSum) :
    (rotX θ m n p q).ev = 2 ^ 1 * (cos (π * θ / 128) * (m * p.ev) + (- sin (π * θ / 128)) * (n * q.ev)) := by
  unfold rotX
  rw [CosSum.ev_addMul, CosSum.ev_addMul, cos_plus64, ev_nil]; ring

theorem ev_rotY (θ m n : Int) (p q : CosSum) :
    (rotY θ m n p q).ev = 2 ^ 1 * (sin (π * θ / 128) * (m * p.ev) + cos (π * θ / 128) * (n * q.ev)) := by
  unfold rotY
  rw [CosSum.ev_addMul, CosSum.ev_addMul, cos_minus64, ev_nil]; ring

theorem ev_sumC (m n : Int) (p q : CosSum) : (sumC m n p q).ev = 2 ^ 0 * (1 * (m * p.ev) + 1 * (n * q.ev)) := by
  unfold sumC
  rw [CosSum.ev_addScaled, CosSum.ev_addScaled, ev_nil]; ring

theorem ev_diffC (m n : Int) (p q : CosSum) : (diffC m n p q).ev = 2 ^ 0 * (1 * (m * p.ev) + (-1) * (n * q.ev)) := by
  unfold diffC
  rw [CosSum.ev_addScaled, CosSum.ev_addScaled, ev_nil]; push_cast; ring

/-- Rows `a` and `b` replaced. -/
def setRows (M : List CRow) (a b : Int) (x y : CRow) : List CRow := (M.set a.toNat x).set b.toNat y

/-- One step; `none` if the operands are equal or outside. -/
def symStep (M : List CRow) (op : Op) : Option (List CRow) :=
  match op with
  | .b a b θ flag =>
    if a < 0 ∨ b < 0 ∨ a = b then none
    else match M[a.toNat]?, M[b.toNat]? with
      | some r, some s =>
        let x := CRow.comb 1 (rotX θ) r s
        let y := CRow.comb 1 (rotY θ) r s
        some (if flag then setRows M a b y x else setRows M a b x y)
      | _, _ => none
  | .h a b flag =>
    if a < 0 ∨ b < 0 ∨ a = b then none
    else match M[a.toNat]?, M[b.toNat]? with
      | some r, some s =>
        some (if flag then setRows M b a (CRow.comb 0 sumC s r) (CRow.comb 0 diffC s r)
          else setRows M a b (CRow.comb 0 sumC r s) (CRow.comb 0 diffC r s))
      | _, _ => none

/-- The matrix gives the values of the array. -/
def Gives (X : Nat → ℝ) (L : Nat) (M : List CRow) (T : Int → ℝ) : Prop :=
  ∀ i : Nat, ∀ r, M[i]? = some r → r.cs.length = L ∧ T (i : Int) = r.ev X

theorem comb_length {d : Nat} {f : Int → Int → CosSum → CosSum → CosSum} {r s : CRow} {L : Nat} (hr : r.cs.length = L)
    (hs : s.cs.length = L) : (CRow.comb d f r s).cs.length = L := by
  unfold CRow.comb
  rw [zip2_length _ _ _ (by rw [hr, hs]), hr]

theorem gives_setRows {X : Nat → ℝ} {L : Nat} {M : List CRow} {T : Int → ℝ} (h : Gives X L M T) {a b : Int} (ha : 0 ≤ a) (hb : 0 ≤ b)
    {x y : CRow} {u v : ℝ} (hx : x.cs.length = L ∧ u = x.ev X) (hy : y.cs.length = L ∧ v = y.ev X) :
    Gives X L (setRows M a b x y) (Function.update (Function.update T a u) b v) := by
  intro i r hr
  unfold setRows at hr
  by_cases hib : (i : Int) = b
  · have : i = b.toNat := by omega
    subst this
    rw [hib, Function.update_self]
    rw [List.getElem?_set_self'] at hr
    cases hq : (M.set a.toNat x)[b.toNat]? with
    | none => rw [hq] at hr; simp at hr
    | some q => rw [hq] at hr; simp at hr; subst hr; exact hy
  · rw [Function.update_of_ne hib]
    rw [List.getElem?_set_ne (by omega)] at hr
    by_cases hia : (i : Int) = a
    · have : i = a.toNat := by omega
      subst this
      rw [hia, Function.update_self]
      rw [List.getElem?_set_self'] at hr
      cases hq : M[a.toNat]? with
      | none => rw [hq] at hr; simp at hr
      | some q => rw [hq] at hr; simp at hr; subst hr; exact hx
    · rw [Function.update_of_ne hia]
      rw [List.getElem?_set_ne (by omega)] at hr
      exact h i r hr

theorem symStep_ok {X : Nat → ℝ} {L : Nat} {M M' : List CRow} {T : Int → ℝ} {op : Op} (h : Gives X L M T) (hs : symStep M op = some M') :
    Gives X L M' (exactStep T op) := by
  cases op with
  | b a b θ flag =>
    unfold symStep at hs
    dsimp only at hs
    split at hs
    · cases hs
    · rename_i hab
      split at hs
      · rename_i r s hr hsr
        have h1 := h a.toNat r hr
        have h2 := h b.toNat s hsr
        rw [Int.toNat_of_nonneg (by omega)] at h1 h2
        have hx := CRow.ev_comb X 1 (rotX θ) _ _ r s (ev_rotX θ) (by rw [h1.1, h2.1])
        have hy := CRow.ev_comb X 1 (rotY θ) _ _ r s (ev_rotY θ) (by rw [h1.1, h2.1])
        have lx : (CRow.comb 1 (rotX θ) r s).cs.length = L := comb_length h1.1 h2.1
        have ly : (CRow.comb 1 (rotY θ) r s).cs.length = L := comb_length h1.1 h2.1
        cases hs
        unfold exactStep
        dsimp only
        rw [h1.2, h2.2]
        cases flag
        · simp only [Bool.false_eq_true, if_false]
          exact gives_setRows h (by omega) (by omega) ⟨lx, by rw [hx]; ring⟩ ⟨ly, by rw [hy]; ring⟩
        · simp only [if_true]
          exact gives_setRows h (by omega) (by omega) ⟨ly, by rw [hy]; ring⟩ ⟨lx, by rw [hx]; ring⟩
      · cases hs
  | h a b flag =>
    unfold symStep at hs
    dsimp only at hs
    split at hs
    · cases hs
    · rename_i hab
      split at hs
      · rename_i r s hr hsr
        have h1 := h a.toNat r hr
        have h2 := h b.toNat s hsr
        rw [Int.toNat_of_nonneg (by omega)] at h1 h2
        cases hs
        unfold exactStep
        dsimp only
        rw [h1.2, h2.2]
        cases flag
        · simp only [Bool.false_eq_true, if_false]
          exact gives_setRows h (by omega) (by omega)
            ⟨comb_length h1.1 h2.1, by rw [CRow.ev_comb X 0 sumC _ _ r s ev_sumC (by rw [h1.1, h2.1])]; ring⟩
            ⟨comb_length h1.1 h2.1, by rw [CRow.ev_comb X 0 diffC _ _ r s ev_diffC (by rw [h1.1, h2.1])]; ring⟩
        · simp only [if_true]
          exact gives_setRows h (by omega) (by omega)
            ⟨comb_length h2.1 h1.1, by rw [CRow.ev_comb X 0 sumC _ _ s r ev_sumC (by rw [h1.1, h2.1])]; ring⟩
            ⟨comb_length h2.1 h1.1, by rw [CRow.ev_comb X 0 diffC _ _ s r ev_diffC (by rw [h1.1, h2.1])]; ring⟩
      · cases hs

/-- The steps in order. -/
def symRun : List Op → List CRow → Option (List CRow)
  | [], M => some M
  | op :: ops, M => match symStep M op with
    | some M' => symRun ops M'
    | none => none

theorem symRun_ok {X : Nat → ℝ} {L : Nat} : ∀ {ops : List Op} {M M' : List CRow} {T : Int → ℝ}, Gives X L M T → symRun ops M = some M' →
    Gives X L M' (exactRun ops T)
  | [], M, M', T, h, hs => by
    simp only [symRun, Option.some.injEq] at hs
    subst hs
    exact h
  | op :: ops, M, M', T, h, hs => by
    unfold symRun at hs
    split at hs
    · rename_i M1 h1
      exact symRun_ok (ops := ops) (T := exactStep T op) (symStep_ok h h1) hs
    · cases hs

/-- The coefficients of `X p` among `N`. -/
def unitRow (N p : Nat) : CRow := ⟨0, (List.range N).map fun j => if Nat.beq j p then [(0, 1)] else []⟩

theorem evList_unit (X : Nat → ℝ) (p : Nat) : ∀ (N o : Nat), o ≤ p → p < o + N →
    evList X o ((List.range' o N).map fun j => if Nat.beq j p then [(0, 1)] else []) = X p := by
  have zero : ∀ (N o : Nat), p < o → evList X o ((List.range' o N).map fun j => if Nat.beq j p then [(0, 1)] else []) = 0 := by
    intro N
    induction N with
    | zero => intro o _; simp [evList]
    | succ N ih =>
      intro o ho
      rw [List.range'_succ, List.map_cons, evList, ih (o + 1) (by omega), if_neg (by rw [Nat.beq_eq]; omega), ev_nil]
      simp
  intro N
  induction N with
  | zero => intro o h1 h2; omega
  | succ N ih =>
    intro o h1 h2
    rw [List.range'_succ, List.map_cons, evList]
    by_cases h : o = p
    · subst h
      rw [zero N (o + 1) (by omega), if_pos (by rw [Nat.beq_eq])]
      simp [CosSum.ev]
    · rw [ih (o + 1) (by omega) (by omega), if_neg (by rw [Nat.beq_eq]; exact h), ev_nil]
      simp

theorem gives_units (X : Nat → ℝ) (N : Nat) (src : Nat → Nat) (hsrc : ∀ i < N, src i < N) :
    Gives X N ((List.range N).map fun i => unitRow N (src i)) (fun i => X (src i.toNat)) := by
  intro i r hr
  rw [List.getElem?_map] at hr
  obtain ⟨i', hi', rfl⟩ := Option.map_eq_some_iff.mp hr
  obtain ⟨hlt, he⟩ := List.getElem?_eq_some_iff.mp hi'
  rw [List.getElem_range] at he
  rw [List.length_range] at hlt
  subst he
  refine ⟨by simp [unitRow], ?_⟩
  unfold CRow.ev unitRow
  dsimp only
  rw [List.range_eq_range', evList_unit X _ N 0 (by omega) (by have := hsrc i hlt; omega)]
  simp

/-! ## Comparison with the textbook matrix -/

/-- Row of the cosines of `ang 0, ang 1, ..`, over `2 ^ K`. -/
def wantRow (K N : Nat) (ang : Nat → Int) : List CosSum := (List.range N).map fun j => CosSum.insAng (ang j) ((2 ^ K : Nat) : Int) []

theorem evList_want (X : Nat → ℝ) (K : Nat) (ang : Nat → Int) : ∀ (N o : Nat),
    evList X o ((List.range' o N).map fun j => CosSum.insAng (ang j) ((2 ^ K : Nat) : Int) []) =
      2 ^ K * ∑ j ∈ Finset.Ico o (o + N), X j * cos (π * (ang j : ℝ) / 128)
  | 0, o => by simp [evList]
  | N + 1, o => by
    rw [List.range'_succ, List.map_cons, evList, evList_want X K ang N (o + 1), CosSum.ev_insAng, ev_nil,
      Finset.sum_eq_sum_Ico_succ_bot (show o < o + (N + 1) by omega), show o + 1 + N = o + (N + 1) by omega]
    push_cast
    ring

/-- Row `out k` of the computed matrix is that of the cosines of `ang k j`. -/
def checkPlan (ops : List Op) (N : Nat) (src out : Nat → Nat) (ang : Nat → Nat → Int) : Bool :=
  match symRun ops ((List.range N).map fun i => unitRow N (src i)) with
  | none => false
  | some M => (List.range N).all fun k => match M[out k]? with
    | none => false
    | some r => decide (r.cs = wantRow r.k N (ang k))

theorem checkPlan_ok {ops : List Op} {N : Nat} {src out : Nat → Nat} {ang : Nat → Nat → Int} (h : checkPlan ops N src out ang = true)
    (hsrc : ∀ i < N, src i < N) (X : Nat → ℝ) (k : Nat) (hk : k < N) :
    exactRun ops (fun i => X (src i.toNat)) (out k : Int) = ∑ j ∈ Finset.Ico 0 N, X j * cos (π * (ang k j : ℝ) / 128) := by
  unfold checkPlan at h
  split at h
  · cases h
  · rename_i M hM
    have hg := symRun_ok (gives_units X N src hsrc) hM
    have hc := List.all_eq_true.mp h k (List.mem_range.mpr hk)
    split at hc
    · cases hc
    · rename_i r hr
      have hc := of_decide_eq_true hc
      rw [(hg (out k) r hr).2, CRow.ev, hc, wantRow, List.range_eq_range', evList_want X r.k (ang k) N 0, Nat.zero_add]
      field_simp

/-- Bit reversal, from the lowest bit up. -/
def fastRev : Nat → Nat → Nat
  | 0, _ => 0
  | n + 1, x => x % 2 * 2 ^ n + fastRev n (x / 2)

theorem bitRev_fast (n x : Nat) : Spec.bitRev n x = fastRev n x := by
  induction n generalizing x with
  | zero => rfl
  | succ n ih =>
    unfold fastRev Spec.bitRev
    rw [Finset.sum_range_succ', ← ih]
    unfold Spec.bitRev
    rw [add_comm]
    congr 1
    · rw [Nat.testBit_zero]
      rcases Nat.mod_two_eq_zero_or_one x with h | h <;> simp [h]
    · refine Finset.sum_congr rfl fun i hi => ?_
      rw [Nat.testBit_succ, show n + 1 - 1 - (i + 1) = n - 1 - i by omega]

theorem bitRev_fun : Spec.bitRev = fastRev := by funext n x; exact bitRev_fast n x

/-- Angle of the DCT, in units of `π / 128`. -/
def dctAng (n k j : Nat) : Int := if j = 0 then 32 else (((2 * k + 1) * j * 2 ^ (6 - n) : Nat) : Int)

/-- Angle of the ADST, in units of `π / 128`. -/
def adstAng (n k j : Nat) : Int := (((2 * k + 1) * (2 * j + 1) * 2 ^ (5 - n) : Nat) : Int) - 64

theorem check2 : checkPlan (dctPlan fastRev 2) 4 (fastRev 2) id (dctAng 2) = true := by decide +kernel
theorem check3 : checkPlan (dctPlan fastRev 3) 8 (fastRev 3) id (dctAng 3) = true := by decide +kernel
theorem check4 : checkPlan (dctPlan fastRev 4) 16 (fastRev 4) id (dctAng 4) = true := by decide +kernel
theorem check5 : checkPlan (dctPlan fastRev 5) 32 (fastRev 5) id (dctAng 5) = true := by decide +kernel
theorem check6 : checkPlan (dctPlan fastRev 6) 64 (fastRev 6) id (dctAng 6) = true := by decide +kernel

/-- Angle of the ADST at the output position `k`, negated as the code negates it. -/
def adstAngOut (n k j : Nat) : Int := adstAng n k j + if adstOutNeg k then 128 else 0

theorem checkA3 : checkPlan adst8Ops 8 (adstInIdx 3) (adstOutIdx 3) (adstAngOut 3) = true := by decide +kernel
theorem checkA4 : checkPlan adst16Ops 16 (adstInIdx 4) (adstOutIdx 4) (adstAngOut 4) = true := by decide +kernel

theorem fastRev_lt (n : Nat) : ∀ x, fastRev n x < 2 ^ n := by
  induction n with
  | zero => intro x; exact Nat.one_pos
  | succ n ih =>
    intro x
    unfold fastRev
    have := ih (x / 2)
    have h2 : x % 2 < 2 := Nat.mod_lt _ (by decide)
    have : x % 2 * 2 ^ n ≤ 1 * 2 ^ n := Nat.mul_le_mul_right _ (by omega)
    rw [Nat.pow_succ]
    omega

theorem checkDct (n : Nat) (hn : 2 ≤ n ∧ n ≤ 6) : checkPlan (dctPlan fastRev n) (2 ^ n) (fastRev n) id (dctAng n) = true := by
  rcases (show n = 2 ∨ n = 3 ∨ n = 4 ∨ n = 5 ∨ n = 6 by omega) with rfl | rfl | rfl | rfl | rfl
  · exact check2
  · exact check3
  · exact check4
  · exact check5
  · exact check6

/-- **C88, part that holds: the steps of the inverse DCT.**  For every size 4, 8, 16, 32, 64 and all real inputs, the
permutation and the steps of the code, with exact rotations and a true bit reversal, are the inverse DCT. -/
theorem C88_dct_plan_partial (n : Nat) (hn : 2 ≤ n ∧ n ≤ 6) (X : Nat → ℝ) (k : Nat) (hk : k < 2 ^ n) :
    exactRun (dctPlan Spec.bitRev n) (fun i => X (Spec.bitRev n i.toNat)) (k : Int) = Spec.idct n X k := by
  rw [bitRev_fun]
  have h := checkPlan_ok (checkDct n hn) (fun i _ => fastRev_lt n i) X k hk
  rw [id_eq] at h
  rw [h, Finset.sum_eq_sum_Ico_succ_bot (Nat.two_pow_pos n)]
  unfold Spec.idct
  refine congrArg₂ (· + ·) ?_ ?_
  · have h32 : (dctAng n k 0 : ℝ) = 32 := by unfold dctAng; rw [if_pos rfl]; norm_num
    have hs : cos (π * (dctAng n k 0 : ℝ) / 128) = √(1 / 2) := by
      rw [h32, show π * (32 : ℝ) / 128 = π / 4 by ring, cos_pi_div_four, Real.sqrt_div zero_le_one, Real.sqrt_one,
        div_eq_div_iff (by norm_num) (by positivity), one_mul, Real.mul_self_sqrt (by norm_num)]
    rw [hs]
  · refine Finset.sum_congr rfl fun j hj => ?_
    have hj1 : j ≠ 0 := by have := (Finset.mem_Ico.mp hj).1; omega
    have hd : (dctAng n k j : ℝ) = (2 * k + 1) * j * 2 ^ (6 - n) := by unfold dctAng; rw [if_neg hj1]; push_cast; rfl
    have e : (2 : ℝ) ^ (6 - n) * 2 ^ (n + 1) = 128 := by rw [← pow_add, show 6 - n + (n + 1) = 7 by omega]; norm_num
    have ha : π * (dctAng n k j : ℝ) / 128 = π * (2 * k + 1) * j / 2 ^ (n + 1) := by
      rw [hd, ← e]
      field_simp
    rw [ha]

/-- **C88, part that holds: the steps of the inverse ADST of 8 and 16 points**, with exact rotations, between the
permutations of that size and the code's changes of sign. -/
theorem C88_adst_plan_partial (n : Nat) (ops : List Op) (hn : (n = 3 ∧ ops = adst8Ops) ∨ (n = 4 ∧ ops = adst16Ops)) (X : Nat → ℝ)
    (k : Nat) (hk : k < 2 ^ n) :
    (if adstOutNeg k then -1 else 1) * exactRun ops (fun i => X (adstInIdx n i.toNat)) (adstOutIdx n k : Int) = Spec.iadst n X k := by
  have h : exactRun ops (fun i => X (adstInIdx n i.toNat)) (adstOutIdx n k : Int) =
      ∑ j ∈ Finset.Ico 0 (2 ^ n), X j * cos (π * (adstAngOut n k j : ℝ) / 128) := by
    rcases hn with ⟨rfl, rfl⟩ | ⟨rfl, rfl⟩
    · exact checkPlan_ok checkA3 (by decide) X k hk
    · exact checkPlan_ok checkA4 (by decide) X k hk
  have hn' : n ≤ 5 := by omega
  rw [h, Finset.mul_sum]
  unfold Spec.iadst
  rw [Finset.range_eq_Ico]
  refine Finset.sum_congr rfl fun j _ => ?_
  have e : (2 : ℝ) ^ (5 - n) * 2 ^ (n + 2) = 128 := by rw [← pow_add, show 5 - n + (n + 2) = 7 by omega]; norm_num
  have key : cos (π * (adstAng n k j : ℝ) / 128) = sin (π * (2 * k + 1) * (2 * j + 1) / 2 ^ (n + 2)) := by
    unfold adstAng
    rw [cos_minus64]
    congr 1
    push_cast
    rw [← e]
    field_simp
  rw [← key]
  unfold adstAngOut
  cases adstOutNeg k
  · simp
  · rw [if_pos rfl, if_pos rfl, show π * ((adstAng n k j + 128 : Int) : ℝ) / 128 = π * (adstAng n k j : ℝ) / 128 + π by push_cast; ring, cos_add_pi]
    ring

/-- The first output of the four-point transform of `(1, 1, 0, 0)`. -/
example : exactRun (dctPlan Spec.bitRev 2) (fun i => (fun j => if j ≤ 1 then (1 : ℝ) else 0) (Spec.bitRev 2 i.toNat)) ((0 : Nat) : Int) =
    √(1 / 2) + cos (π / 8) := by
  rw [C88_dct_plan_partial 2 (by decide) (fun j => if j ≤ 1 then (1 : ℝ) else 0) 0 (by decide)]
  unfold Spec.idct
  rw [show (2 ^ 2 : Nat) = 4 by rfl, Finset.sum_eq_sum_Ico_succ_bot (by decide), Finset.sum_eq_sum_Ico_succ_bot (by decide),
    Finset.sum_eq_sum_Ico_succ_bot (by decide)]
  norm_num

/-- The angle of a rotation. -/
def opAngle : Option Op → Int
  | some (.b _ _ t _) => t
  | _ => 0

/-- **C88 is false for another reason**: the bit reversal of the code is not one, and with it the steps of the 16-point
transform rotate by other angles. -/
theorem C88_plan_refuted : dctOps 4 ≠ dctPlan Spec.bitRev 4 := by
  intro h
  rw [bitRev_fun] at h
  have e : opAngle (dctOps 4)[1]? = opAngle (dctPlan fastRev 4)[1]? := by rw [h]
  exact absurd e (by decide +kernel)

/-! ## The parts of the two-dimensional transform (C90) and of the reconstruction (C92) -/

/-- The one-dimensional transform of a kind. -/
def transform1 (k : Spec.Kind1) (n r : Nat) (T : List Int) : Res (List Int) :=
  match k with
  | .dct => inverseDct n r T
  | .adst | .flipAdst => inverseAdst n r T
  | .identity => inverseIdentity n T

/-- **C90, part that holds: the kinds of transform** of rows and columns are those of the transform type, for all sizes
and arrays; in lossless mode both are the Walsh-Hadamard transform. -/
theorem C90_kinds_partial (ty : Nat) (kc kr : Spec.Kind1) (h : Spec.kinds[ty]? = some (kc, kr)) (n r : Nat) (T : List Int) :
    rowTransform false ty n r T = transform1 kr n r T ∧ colTransform false ty n r T = transform1 kc n r T ∧
    rowTransform true ty n r T = inverseWht 2 T ∧ colTransform true ty n r T = inverseWht 0 T := by
  have hlt : ty < 16 := (List.getElem?_eq_some_iff.mp h).1
  refine ⟨?_, ?_, rfl, rfl⟩
  all_goals
    rcases (show ty = 0 ∨ ty = 1 ∨ ty = 2 ∨ ty = 3 ∨ ty = 4 ∨ ty = 5 ∨ ty = 6 ∨ ty = 7 ∨ ty = 8 ∨ ty = 9 ∨ ty = 10 ∨ ty = 11 ∨ ty = 12 ∨
      ty = 13 ∨ ty = 14 ∨ ty = 15 by omega) with
      rfl | rfl | rfl | rfl | rfl | rfl | rfl | rfl | rfl | rfl | rfl | rfl | rfl | rfl | rfl | rfl <;>
      · cases h; rfl

/-- **C92, part that holds: the flips.**  Rows are mirrored exactly for the types whose columns use the flipped ADST, and
columns for those whose rows do. -/
theorem C92_flips_partial (ty : Nat) (kc kr : Spec.Kind1) (h : Spec.kinds[ty]? = some (kc, kr)) :
    flipUD ty = decide (kc = .flipAdst) ∧ flipLR ty = decide (kr = .flipAdst) := by
  have hlt : ty < 16 := (List.getElem?_eq_some_iff.mp h).1
  have key : ∀ t, t < 16 → ∀ k, Spec.kinds[t]? = some k → flipUD t = decide (k.1 = .flipAdst) ∧ flipLR t = decide (k.2 = .flipAdst) := by
    intro t ht k hk
    rcases (show t = 0 ∨ t = 1 ∨ t = 2 ∨ t = 3 ∨ t = 4 ∨ t = 5 ∨ t = 6 ∨ t = 7 ∨ t = 8 ∨ t = 9 ∨ t = 10 ∨ t = 11 ∨ t = 12 ∨
      t = 13 ∨ t = 14 ∨ t = 15 by omega) with
      rfl | rfl | rfl | rfl | rfl | rfl | rfl | rfl | rfl | rfl | rfl | rfl | rfl | rfl | rfl | rfl <;>
      · cases hk; exact ⟨rfl, rfl⟩
  exact key ty hlt _ h

/-- **C90, part that holds: the shift after the rows**, for every size. -/
theorem C90_row_shift_partial (t lw lh : Nat) (hw : txWidthLog2[t]? = some lw) (hh : txHeightLog2[t]? = some lh) :
    rowShiftOf false t = .ok (Spec.rowShift lw lh) ∧ rowShiftOf true t = .ok 0 := by
  have hlt : t < 19 := (List.getElem?_eq_some_iff.mp hw).1
  have key : ∀ t, t < 19 → rowShiftOf false t = .ok (Spec.rowShift (txWidthLog2.getD t 0) (txHeightLog2.getD t 0)) := by decide +kernel
  have := key t hlt
  rw [List.getD_eq_getElem?_getD, List.getD_eq_getElem?_getD, hw, hh] at this
  exact ⟨this, rfl⟩

/-- **C90, part that holds: blocks twice as wide as high, or as high as wide, are scaled by 1/sqrt 2**, the others not. -/
theorem C90_rect_partial (lw lh : Nat) (T : List Int) (hT : 2 ^ lw ≤ T.length) :
    rectScale lw lh T = .ok (if lw = lh + 1 ∨ lh = lw + 1 then (T.take (2 ^ lw)).map (fun x => round2 (x * 2896) 12) ++ T.drop (2 ^ lw) else T) := by
  unfold rectScale
  by_cases h : lw = lh + 1 ∨ lh = lw + 1
  · rw [if_pos h, if_pos h, Nat.one_shiftLeft]
    have := mapLoop_eq (fun x => round2 (x * 2896) 12) (2 ^ lw) [] (T.take (2 ^ lw)) (T.drop (2 ^ lw)) (by rw [List.length_take]; omega)
    simpa using this
  · rw [if_neg h, if_neg h]

example : rectScale 2 3 [4096, 0, 0, 0] = .ok [2896, 0, 0, 0] ∧ rectScale 2 2 [4096, 0, 0, 0] = .ok [4096, 0, 0, 0] := ⟨rfl, rfl⟩

end Gov1
