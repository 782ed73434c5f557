import Verif.Model.Transform
import Verif.Spec.Transform
import Verif.Props.TileGroup
import Mathlib.Tactic.SplitIfs
import Mathlib.Tactic.Ring
import Mathlib.Tactic.Linarith
/-! # C47, C86-C90: inverse transforms -/
namespace Gov1
open Spec

theorem shiftRight_int (x : Int) (n : Nat) : x >>> n = x / 2 ^ n := by
  rw [Int.shiftRight_eq_div_pow]; norm_cast

/-- Inversion of a Go statement sequence that returned. -/
theorem Res.bind_inv {α β : Type} {m : Res α} {f : α → Res β} {b : β} (h : (m >>= f) = .ok b) :
    ∃ a, m = .ok a ∧ f a = .ok b := by
  cases m with
  | error e => cases h
  | ok a => exact ⟨a, rfl, h⟩

/-! ## C47 Walsh-Hadamard -/

theorem inverseWht_eq (shift : Nat) (t0 t1 t2 t3 : Int) (rest : List Int) :
    inverseWht shift (t0 :: t1 :: t2 :: t3 :: rest) =
      let a := t0 / 2 ^ shift + t1 / 2 ^ shift
      let d := t2 / 2 ^ shift - t3 / 2 ^ shift
      let e := (a - d) / 2
      let b := e - t3 / 2 ^ shift
      let c := e - t1 / 2 ^ shift
      .ok ((a - b) :: b :: c :: (d + c) :: rest) := by
  simp only [inverseWht, goGet, goSet, bind, Except.bind, shiftRight_int]
  simp

/-- **C47.**  The inverse WHT undoes the forward WHT of lossless coding, for all four residuals and for
every scaling of the coefficients by a power of two matched by `shift` (2 in the row pass, 0 in the
column pass); entries beyond the fourth are untouched. -/
theorem C47_wht_inverts (x0 x1 x2 x3 : Int) (shift : Nat) (rest : List Int) :
    let y := forwardWht x0 x1 x2 x3
    inverseWht shift (y.1 * 2 ^ shift :: y.2.1 * 2 ^ shift :: y.2.2.1 * 2 ^ shift :: y.2.2.2 * 2 ^ shift :: rest)
      = .ok (x0 :: x1 :: x2 :: x3 :: rest) := by
  intro y
  have hp : (2 : Int) ^ shift ≠ 0 := by positivity
  rw [inverseWht_eq]
  simp only [y, forwardWht, Int.mul_ediv_cancel _ hp]
  congr 2
  · omega
  congr 1
  · omega
  congr 1
  · omega
  congr 1
  omega

/-- **C47.**  Every quadruple of coefficients is the forward WHT of exactly what the inverse WHT returns:
the pair is a bijection, so no information is lost. -/
theorem C47_wht_onto (t0 t1 t2 t3 : Int) (rest : List Int) :
    ∃ x0 x1 x2 x3, inverseWht 0 (t0 :: t1 :: t2 :: t3 :: rest) = .ok (x0 :: x1 :: x2 :: x3 :: rest) ∧
      forwardWht x0 x1 x2 x3 = (t0, t1, t2, t3) := by
  rw [inverseWht_eq]
  refine ⟨_, _, _, _, rfl, ?_⟩
  simp only [forwardWht, Int.pow_zero, Int.ediv_one, Prod.mk.injEq]
  refine ⟨?_, ?_, ?_, ?_⟩ <;> omega

example : forwardWht 7 (-3) 12 5 = (11, -7, 1, 8) ∧ inverseWht 2 [44, -28, 4, 32, 99] = .ok [7, -3, 12, 5, 99] := by
  decide

/-! ## C86 Hadamard rotation -/

theorem clampBits_range (r : Nat) (hr : 1 ≤ r) (x : Int) :
    -2 ^ (r - 1) ≤ clampBits r x ∧ clampBits r x ≤ 2 ^ (r - 1) - 1 := by
  have e : ((1 <<< (r - 1) : Nat) : Int) = 2 ^ (r - 1) := by rw [Nat.one_shiftLeft]; norm_cast
  have hp : (0 : Int) < 2 ^ (r - 1) := by positivity
  rw [clampBits, e]
  exact ⟨(C11_clip3_nearest _ _ x (by omega)).1, (C11_clip3_nearest _ _ x (by omega)).2.1⟩

theorem clampBits_id (r : Nat) (x : Int) (h1 : -2 ^ (r - 1) ≤ x) (h2 : x ≤ 2 ^ (r - 1) - 1) : clampBits r x = x := by
  have e : ((1 <<< (r - 1) : Nat) : Int) = 2 ^ (r - 1) := by rw [Nat.one_shiftLeft]; norm_cast
  rw [clampBits, e]
  exact C11_clip3_id _ _ _ h1 h2

theorem goGet_lt {α : Type} [Inhabited α] {l : List α} {i : Nat} (h : i < l.length) : goGet l i = .ok (l[i]'h) := by
  rw [goGet, if_neg (by omega)]
  simp [List.getElem?_eq_getElem h]

theorem goSet_lt {α : Type} {l : List α} {i : Nat} (v : α) (h : i < l.length) : goSet l i v = .ok (l.set i v) := by
  rw [goSet, if_neg (by omega)]
  simp [h]

/-- **C86.**  A Hadamard rotation of two different entries replaces them by their sum and difference,
clamped to `r` signed bits (sum and difference exchanged roles of the operands when flipped), and leaves
everything else alone; both results fit in `r` bits, and are exact when they fit unclamped. -/
theorem C86_hadamard (T : List Int) (a b : Nat) (r : Nat) (hr : 1 ≤ r) (hab : a ≠ b) (ha : a < T.length)
    (hb : b < T.length) (flag : Bool) :
    ∃ T', hadamard T a b flag r = .ok T' ∧ T'.length = T.length ∧
      (∀ i, i ≠ a → i ≠ b → T'[i]? = T[i]?) ∧
      (∀ i, i = a ∨ i = b → ∃ v, T'[i]? = some v ∧ -2 ^ (r - 1) ≤ v ∧ v ≤ 2 ^ (r - 1) - 1) ∧
      (-2 ^ (r - 1) ≤ T[a] + T[b] → T[a] + T[b] ≤ 2 ^ (r - 1) - 1 →
        T'[if flag then b else a]? = some (T[a] + T[b])) ∧
      (∀ d, d = (if flag then T[b] - T[a] else T[a] - T[b]) → -2 ^ (r - 1) ≤ d → d ≤ 2 ^ (r - 1) - 1 →
        T'[if flag then a else b]? = some d) := by
  cases flag
  · refine ⟨(T.set a (clampBits r (T[a] + T[b]))).set b (clampBits r (T[a] - T[b])), ?_, by simp, ?_, ?_, ?_, ?_⟩
    · simp only [hadamard, goGet_lt ha, goGet_lt hb, bind, Except.bind, goSet_lt _ ha, Bool.false_eq_true, if_false]
      rw [goSet_lt _ (by simpa using hb)]
    · intro i h1 h2
      rw [List.getElem?_set_ne (Ne.symm h2), List.getElem?_set_ne (Ne.symm h1)]
    · intro i hi
      rcases hi with rfl | rfl
      · refine ⟨clampBits r (T[i] + T[b]), ?_, clampBits_range r hr _⟩
        rw [List.getElem?_set_ne (Ne.symm hab), List.getElem?_set_self ha]
      · refine ⟨clampBits r (T[a] - T[i]), ?_, clampBits_range r hr _⟩
        rw [List.getElem?_set_self (by simpa using hb)]
    · intro h1 h2
      simp only [Bool.false_eq_true, if_false]
      rw [List.getElem?_set_ne (Ne.symm hab), List.getElem?_set_self ha, clampBits_id _ _ h1 h2]
    · rintro d rfl h1 h2
      simp only [Bool.false_eq_true, if_false] at h1 h2 ⊢
      rw [List.getElem?_set_self (by simpa using hb), clampBits_id _ _ h1 h2]
  · refine ⟨(T.set b (clampBits r (T[b] + T[a]))).set a (clampBits r (T[b] - T[a])), ?_, by simp, ?_, ?_, ?_, ?_⟩
    · simp only [hadamard, goGet_lt ha, goGet_lt hb, bind, Except.bind, goSet_lt _ hb, if_true]
      rw [goSet_lt _ (by simpa using ha)]
    · intro i h1 h2
      rw [List.getElem?_set_ne (Ne.symm h1), List.getElem?_set_ne (Ne.symm h2)]
    · intro i hi
      rcases hi with rfl | rfl
      · refine ⟨clampBits r (T[b] - T[i]), ?_, clampBits_range r hr _⟩
        rw [List.getElem?_set_self (by simpa using ha)]
      · refine ⟨clampBits r (T[i] + T[a]), ?_, clampBits_range r hr _⟩
        rw [List.getElem?_set_ne hab, List.getElem?_set_self hb]
    · intro h1 h2
      simp only [if_true]
      rw [List.getElem?_set_ne hab, List.getElem?_set_self hb, clampBits_id _ _ (by omega) (by omega), Int.add_comm]
    · rintro d rfl h1 h2
      simp only [if_true] at h1 h2 ⊢
      rw [List.getElem?_set_self (by simpa using ha), clampBits_id _ _ h1 h2]

example : hadamard [100, 30, -5] 0 1 false 8 = .ok [127, 70, -5] := by decide

/-! ## C87 butterfly rotation -/

theorem cos128_ok {angle v : Int} (h : cos128 angle = .ok v) : 0 ≤ angle % 256 ∧ angle % 256 ≤ 64 := by
  have h0 : 0 ≤ angle % 256 := Int.emod_nonneg _ (by decide)
  refine ⟨h0, ?_⟩
  simp only [cos128] at h
  rw [if_pos (Or.inl h0)] at h
  obtain ⟨n, hn⟩ : ∃ n : Nat, angle % 256 = n := ⟨_, (Int.toNat_of_nonneg h0).symm⟩
  rw [hn] at h
  have := goGet_ok h
  have hl : n < cos128Lookup.length := by
    by_contra hc
    rw [List.getElem?_eq_none (by omega)] at this
    cases this
  have : cos128Lookup.length = 65 := rfl
  omega

/-- **C87 is false**: a rotation by any angle other than a quarter turn never returns, whatever the
array. -/
theorem C87_rotation_refuted (T : List Int) (a b angle : Int) (flag : Bool) (hangle : angle % 256 ≠ 64) :
    ∀ T', butterfly T a b angle flag ≠ .ok T' := by
  intro T' h
  simp only [butterfly, bind, Except.bind] at h
  split at h
  · cases h
  split at h
  · cases h
  rename_i c hc
  split at h
  · cases h
  split at h
  · cases h
  rename_i s hs
  have h1 := cos128_ok hc
  have h2 := cos128_ok hs
  omega

/-- **C87**, what holds: for a quarter turn (angle 64) the rotation is the AV1 one. -/
theorem C87_rotation_partial (T : List Int) (a b : Nat) (angle : Int) (hangle : angle % 256 = 64) (hab : a ≠ b)
    (ha : a < T.length) (hb : b < T.length) :
    butterfly T a b angle false = .ok ((T.set a ((rotate T[a] T[b] 0 4096).1 / 4096)).set b
      ((rotate T[a] T[b] 0 4096).2 / 4096)) := by
  have hc : cos128 angle = .ok 0 := by
    simp only [cos128, hangle]
    rfl
  have hs : sin128 angle = .ok 4096 := by
    have : (angle - 64) % 256 = 0 := by omega
    simp only [sin128, cos128, this]
    rfl
  simp only [butterfly, goGet_lt ha, goGet_lt hb, hc, hs, bind, Except.bind, goSet_lt _ ha, Bool.false_eq_true, if_false]
  rw [goSet_lt _ (by simpa using hb)]
  have r1 : ∀ x : Int, round2 x 12 = (x + 2048) / 4096 := by
    intro x
    rw [round2, if_neg (by decide), shiftRight_int]
    rfl
  rw [r1, r1]
  simp only [rotate]
  generalize T[a] = p
  generalize T[b] = q
  rw [show (p * 0 - q * 4096 + 2048) / 4096 = (p * 0 - q * 4096) / 4096 by omega,
    show (p * 4096 - q * 0 + 2048) / 4096 = (p * 4096 + q * 0) / 4096 by omega]

example : butterfly [7, 9, 1] 0 2 64 false = .ok [-1, 9, 7] := by decide

/-! ## C88 DCT and ADST -/

/-- A rotation by something else than a quarter turn. -/
def BadOp : Op → Prop
  | .b _ _ angle _ => angle % 256 ≠ 64
  | .h .. => False

theorem runOps_bad (r : Nat) (ops : List Op) (h : ∃ op ∈ ops, BadOp op) (T T' : List Int) :
    runOps r ops T ≠ .ok T' := by
  induction ops generalizing T with
  | nil => simp at h
  | cons op ops ih =>
    intro hrun
    obtain ⟨op', hmem, hbad⟩ := h
    cases op with
    | b a b angle flag =>
      simp only [runOps, bind, Except.bind] at hrun
      split at hrun
      · cases hrun
      rename_i T1 h1
      rcases List.mem_cons.mp hmem with rfl | hmem
      · exact C87_rotation_refuted T a b angle flag hbad T1 h1
      · exact ih ⟨op', hmem, hbad⟩ _ hrun
    | h a b flag =>
      simp only [runOps, bind, Except.bind] at hrun
      split at hrun
      · cases hrun
      rcases List.mem_cons.mp hmem with rfl | hmem
      · exact hbad
      · exact ih ⟨op', hmem, hbad⟩ _ hrun

/-- **C88 is false**: no inverse DCT, of whatever size, array and clamping range, ever returns. -/
theorem C88_dct_refuted (n r : Nat) (T : List Int) : ∀ T', inverseDct n r T ≠ .ok T' := by
  intro T' h
  simp only [inverseDct, bind, Except.bind] at h
  split at h
  · cases h
  refine runOps_bad r _ ⟨.b 0 1 32 true, ?_, by simp [BadOp]⟩ _ _ h
  unfold dctOps dctPlan
  iterate 19 refine List.mem_append_left _ ?_
  refine List.mem_append_right _ ?_
  exact List.mem_cons_self ..

/-- **C88 is false**: no inverse ADST ever returns. -/
theorem C88_adst_refuted (n r : Nat) (T : List Int) : ∀ T', inverseAdst n r T ≠ .ok T' := by
  intro T' h
  simp only [inverseAdst] at h
  split at h
  · simp only [inverseAdst4, bind, Except.bind, goSet] at h
    split at h
    · cases h
    · simp at h
  split at h
  · simp only [inverseAdst8, bind, Except.bind] at h
    split at h
    · cases h
    split at h
    · cases h
    rename_i h1
    refine runOps_bad r _ ⟨.b 0 1 60 true, ?_, by simp [BadOp]⟩ _ _ h1
    simp [adst8Ops, upTo, List.range_succ]
  · simp only [inverseAdst16, bind, Except.bind] at h
    split at h
    · cases h
    split at h
    · cases h
    rename_i h1
    refine runOps_bad r _ ⟨.b 0 1 62 true, ?_, by simp [BadOp]⟩ _ _ h1
    simp [adst16Ops, upTo, List.range_succ]

/-! ## C89 identity transforms -/

theorem mapLoop_eq (f : Int → Int) (k : Nat) : ∀ (pre mid post : List Int), mid.length = k →
    mapLoop f k pre.length (pre ++ mid ++ post) = .ok (pre ++ mid.map f ++ post) := by
  induction k with
  | zero =>
    intro pre mid post h
    rw [List.length_eq_zero_iff] at h
    subst h
    rfl
  | succ k ih =>
    intro pre mid post h
    cases mid with
    | nil => simp at h
    | cons m mid =>
      have hl : pre.length < (pre ++ m :: mid ++ post).length := by simp
      simp only [mapLoop, goGet_lt hl, goSet_lt _ hl, bind, Except.bind]
      have e : (pre ++ m :: mid ++ post).set pre.length (f ((pre ++ m :: mid ++ post)[pre.length]'hl))
          = (pre ++ [f m]) ++ mid ++ post := by simp
      rw [e]
      have := ih (pre ++ [f m]) mid post (by simpa using h)
      simp only [List.length_append, List.length_singleton] at this
      rw [this]
      simp

/-- **C89.**  The identity transform of size `2^n` (`n = 2 .. 5`) scales the first `2^n` entries by
`sqrt 2 * 2^((n-3))`, to within the rounding of a 12-bit fixed-point factor (5793 for `sqrt 2`, 11586 for
`2 sqrt 2`; the factors 2 and 4 are exact), entry by entry, and leaves the rest alone. -/
theorem C89_identity (n : Nat) (hn : 2 ≤ n ∧ n ≤ 5) (T : List Int) (hT : 2 ^ n ≤ T.length) :
    ∃ T', inverseIdentity n T = .ok T' ∧ T'.length = T.length ∧ (∀ i, 2 ^ n ≤ i → T'[i]? = T[i]?) ∧
      ∀ i x, i < 2 ^ n → T[i]? = some x → ∃ y, T'[i]? = some y ∧
        (n = 2 → -2 ^ 11 < 2 ^ 12 * y - 5793 * x ∧ 2 ^ 12 * y - 5793 * x ≤ 2 ^ 11) ∧
        (n = 3 → y = 2 * x) ∧
        (n = 4 → -2 ^ 11 < 2 ^ 12 * y - 11586 * x ∧ 2 ^ 12 * y - 11586 * x ≤ 2 ^ 11) ∧
        (n = 5 → y = 4 * x) := by
  have key : ∀ (f : Int → Int), mapLoop f (2 ^ n) 0 T = .ok ((T.take (2 ^ n)).map f ++ T.drop (2 ^ n)) := by
    intro f
    have := mapLoop_eq f (2 ^ n) [] (T.take (2 ^ n)) (T.drop (2 ^ n)) (by simp [hT])
    simpa using this
  have r1 : ∀ x : Int, round2 x 12 = (x + 2048) / 4096 := by
    intro x
    rw [round2, if_neg (by decide), shiftRight_int]
    rfl
  have fin : ∀ (f : Int → Int), inverseIdentity n T = .ok ((T.take (2 ^ n)).map f ++ T.drop (2 ^ n)) →
      (∀ x, (n = 2 → -2 ^ 11 < 2 ^ 12 * f x - 5793 * x ∧ 2 ^ 12 * f x - 5793 * x ≤ 2 ^ 11) ∧
        (n = 3 → f x = 2 * x) ∧
        (n = 4 → -2 ^ 11 < 2 ^ 12 * f x - 11586 * x ∧ 2 ^ 12 * f x - 11586 * x ≤ 2 ^ 11) ∧
        (n = 5 → f x = 4 * x)) →
      ∃ T', inverseIdentity n T = .ok T' ∧ T'.length = T.length ∧ (∀ i, 2 ^ n ≤ i → T'[i]? = T[i]?) ∧
      ∀ i x, i < 2 ^ n → T[i]? = some x → ∃ y, T'[i]? = some y ∧
        (n = 2 → -2 ^ 11 < 2 ^ 12 * y - 5793 * x ∧ 2 ^ 12 * y - 5793 * x ≤ 2 ^ 11) ∧
        (n = 3 → y = 2 * x) ∧
        (n = 4 → -2 ^ 11 < 2 ^ 12 * y - 11586 * x ∧ 2 ^ 12 * y - 11586 * x ≤ 2 ^ 11) ∧
        (n = 5 → y = 4 * x) := by
    intro f h1 h2
    refine ⟨_, h1, by simp; omega, ?_, ?_⟩
    · intro i hi
      rw [List.getElem?_append_right (by simp; omega)]
      simp only [List.length_map, List.length_take, List.getElem?_drop]
      congr 1
      omega
    · intro i x hi hx
      refine ⟨f x, ?_, h2 x⟩
      rw [List.getElem?_append_left (by simp; omega), List.getElem?_map, List.getElem?_take_of_lt hi, hx]
      rfl
  obtain ⟨h2, h5⟩ := hn
  rcases (show n = 2 ∨ n = 3 ∨ n = 4 ∨ n = 5 by omega) with rfl | rfl | rfl | rfl
  · exact fin _ (key _) (fun x => ⟨fun _ => by rw [r1]; omega, by omega, by omega, by omega⟩)
  · exact fin _ (key _) (fun x => ⟨by omega, fun _ => by omega, by omega, by omega⟩)
  · exact fin _ (key _) (fun x => ⟨by omega, by omega, fun _ => by rw [r1]; omega, by omega⟩)
  · exact fin _ (key _) (fun x => ⟨by omega, by omega, by omega, fun _ => by omega⟩)

example : inverseIdentity 2 [100, -100, 3, 0, 55] = .ok [141, -141, 4, 0, 55] := by decide

/-! ## C90 two-dimensional transform -/

/-- **C90 is false**: the work array of a tile group is never allocated (`t.T` is nil in every
`TileGroup`, and the only assignments are to its elements), so no inverse transform ever returns:
whatever the block size, type, bit depth and coefficients, and even if the residual array were there. -/
theorem C90_unallocated_refuted (lossless : Bool) (ty txSz bitDepth : Nat) (deq : Nat → Nat → Int)
    (R : List (List Int)) : ∀ res, inverseTransform lossless ty txSz bitDepth deq [] R ≠ .ok res := by
  intro res h
  rw [inverseTransform] at h
  obtain ⟨w, hw, h⟩ := Res.bind_inv h
  obtain ⟨hh, hheight, h⟩ := Res.bind_inv h
  obtain ⟨rs, -, h⟩ := Res.bind_inv h
  obtain ⟨⟨T1, R1⟩, h, -⟩ := Res.bind_inv h
  have hpos : ∃ k, 1 <<< hh = k + 1 := ⟨1 <<< hh - 1, by
    have : 0 < 1 <<< hh := by rw [Nat.one_shiftLeft]; positivity
    omega⟩
  have wpos : ∃ k, 1 <<< w = k + 1 := ⟨1 <<< w - 1, by
    have : 0 < 1 <<< w := by rw [Nat.one_shiftLeft]; positivity
    omega⟩
  obtain ⟨k, hk⟩ := hpos
  obtain ⟨l, hl⟩ := wpos
  rw [hk, rowPass, hl] at h
  simp [loadRow, goSet, bind, Except.bind] at h

theorem goSet_inv {α : Type} {l l' : List α} {i : Nat} {v : α} (h : goSet l i v = .ok l') :
    i < l.length ∧ l' = l.set i v := by
  rw [goSet, if_neg (by omega)] at h
  split at h
  · cases h; exact ⟨by simpa using ‹_›, rfl⟩
  · cases h

/-- Contents of a cell of a slice of slices. -/
def cell (R : List (List Int)) (i j : Nat) : Option Int := R[i]?.bind (·[j]?)

theorem setCell_inv {R R' : List (List Int)} {i j : Nat} {v : Int} (h : setCell R i j v = .ok R') :
    cell R' i j = some v ∧ ∀ i' j', (i', j') ≠ (i, j) → cell R' i' j' = cell R i' j' := by
  simp only [setCell, bind, Except.bind] at h
  split at h
  · cases h
  rename_i row hrow
  split at h
  · cases h
  rename_i row' hrow'
  have g := goGet_ok hrow
  obtain ⟨h1, rfl⟩ := goSet_inv hrow'
  obtain ⟨h2, rfl⟩ := goSet_inv h
  constructor
  · simp [cell, List.getElem?_set_self h2, List.getElem?_set_self h1]
  · intro i' j' hne
    by_cases hi : i' = i
    · subst hi
      have hj : j' ≠ j := fun hj => hne (by rw [hj])
      simp [cell, List.getElem?_set_self h2, g, List.getElem?_set_ne (Ne.symm hj)]
    · simp [cell, List.getElem?_set_ne (Ne.symm hi)]

theorem storeCol_inv {c j : Nat} {T : List Int} : ∀ (k i : Nat) (R R' : List (List Int)),
    storeCol c j T k i R = .ok R' →
    (∀ i', i ≤ i' → i' < i + k → ∃ t, T[j]? = some t ∧ cell R' i' j = some (round2 t c)) ∧
    (∀ i' j', (j' ≠ j ∨ i' < i ∨ i + k ≤ i') → cell R' i' j' = cell R i' j') := by
  intro k
  induction k with
  | zero =>
    intro i R R' h
    cases h
    exact ⟨fun i' _ _ => by omega, fun _ _ _ => rfl⟩
  | succ k ih =>
    intro i R R' h
    simp only [storeCol, bind, Except.bind] at h
    split at h
    · cases h
    rename_i v hv
    split at h
    · cases h
    rename_i R1 hR1
    obtain ⟨s1, s2⟩ := setCell_inv hR1
    obtain ⟨k1, k2⟩ := ih _ _ _ h
    have g := goGet_ok hv
    constructor
    · intro i' h1 h2
      by_cases he : i' = i
      · subst he
        exact ⟨v, g, by rw [k2 _ _ (Or.inr (Or.inl (by omega))), s1]⟩
      · exact k1 i' (by omega) (by omega)
    · intro i' j' hc
      rw [k2 _ _ (by omega), s2 _ _ (by intro he; cases he; omega)]

theorem colPass_inv {lossless : Bool} {ty log2H c r : Nat} : ∀ (k j : Nat) (T T' : List Int) (R R' : List (List Int)),
    colPass lossless ty log2H c r k j T R = .ok (T', R') →
    (∀ j', j ≤ j' → j' < j + k → ∀ i, i < 1 <<< log2H → cell R' i j' = cell R' 0 j' ∧ (cell R' i j').isSome) ∧
    (∀ i' j', (j' < j ∨ j + k ≤ j') → cell R' i' j' = cell R i' j') := by
  intro k
  induction k with
  | zero =>
    intro j T T' R R' h
    cases h
    exact ⟨fun j' _ _ => by omega, fun _ _ _ => rfl⟩
  | succ k ih =>
    intro j T T' R R' h
    simp only [colPass, bind, Except.bind] at h
    split at h
    · cases h
    rename_i T1 hT1
    split at h
    · cases h
    rename_i R1 hR1
    obtain ⟨s1, s2⟩ := storeCol_inv _ _ _ _ hR1
    obtain ⟨k1, k2⟩ := ih _ _ _ _ _ h
    constructor
    · intro j' h1 h2 i hi
      by_cases he : j' = j
      · subst he
        rw [k2 _ _ (by omega), k2 _ _ (by omega)]
        obtain ⟨t, ht, hc⟩ := s1 i (by omega) (by omega)
        obtain ⟨t', ht', hc'⟩ := s1 0 (by omega) (by omega)
        rw [ht] at ht'
        cases ht'
        rw [hc, hc']
        exact ⟨rfl, rfl⟩
      · exact k1 j' (by omega) (by omega) i hi
    · intro i' j' hc
      rw [k2 _ _ (by omega), s2 _ _ (by omega)]

/-- **C90 is false** even with the arrays allocated: whenever the transform returns, all rows of the
residual block are equal, whatever the coefficients: the column transform is applied to the wrong data. -/
theorem C90_columns_refuted (lossless : Bool) (ty txSz bitDepth : Nat) (deq : Nat → Nat → Int) (T T' : List Int)
    (R R' : List (List Int)) (h : inverseTransform lossless ty txSz bitDepth deq T R = .ok (T', R'))
    (i j : Nat) (hi : i < 2 ^ txHeightLog2.getD txSz 0) (hj : j < 2 ^ txWidthLog2.getD txSz 0) :
    cell R' i j = cell R' 0 j ∧ (cell R' i j).isSome := by
  rw [inverseTransform] at h
  obtain ⟨w, hw, h⟩ := Res.bind_inv h
  obtain ⟨hh, hheight, h⟩ := Res.bind_inv h
  obtain ⟨rs, -, h⟩ := Res.bind_inv h
  obtain ⟨⟨T1, R1⟩, -, h⟩ := Res.bind_inv h
  obtain ⟨R2, -, h⟩ := Res.bind_inv h
  have g1 := goGet_ok hw
  have g2 := goGet_ok hheight
  have e1 : txWidthLog2.getD txSz 0 = w := by simp [List.getD, g1]
  have e2 : txHeightLog2.getD txSz 0 = hh := by simp [List.getD, g2]
  rw [e1] at hj
  rw [e2] at hi
  exact (colPass_inv _ _ _ _ _ _ h).1 j (by omega) (by rw [Nat.one_shiftLeft]; omega) i (by rw [Nat.one_shiftLeft]; exact hi)

/-- With the arrays allocated, a lossless 4x4 block does go through; its four rows come out equal. -/
example : ∃ T' R', inverseTransform true 0 0 8 (fun i j => (4 * (i + 2 * j + i * j) : Nat))
    (List.replicate 64 0) (List.replicate 64 (List.replicate 64 0)) = .ok (T', R') ∧
    cell R' 3 1 = cell R' 0 1 := by
  refine ⟨_, _, rfl, ?_⟩
  decide +kernel

end Gov1
