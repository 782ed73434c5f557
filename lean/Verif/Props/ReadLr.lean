import Verif.Model.LoopRestoration
import Verif.Props.CdefIdx
import Verif.Props.Util
import Verif.Props.LoopRestoration
import Verif.Spec.FrameHeader
/-!
# C114: reading the loop restoration parameters

Every superblock carries the parameters of the restoration units whose top left corner it contains; each parameter is coded
as a difference to the previous one with a subexponential code.
-/
namespace Gov1
open Spec

/-! ## Which units are read with which superblock -/

/-- Ceiling of a quotient, as the code computes it. -/
theorem ceil_lt {a d u : Nat} (hd : 0 < d) : u < (a + d - 1) / d ↔ u * d < a := by
  constructor
  · intro h
    have h2 : (u + 1) * d ≤ a + d - 1 := (Nat.le_div_iff_mul_le hd).mp h
    rw [Nat.add_mul, Nat.one_mul] at h2
    omega
  · intro h
    have h2 : (u + 1) * d ≤ a + d - 1 := by rw [Nat.add_mul, Nat.one_mul]; omega
    exact (Nat.le_div_iff_mul_le hd).mpr h2

/-- Unit `u` begins inside superblock `i`, of `n` 4x4 units with `num / den` restoration units each. -/
theorem unit_in {n num den i u : Nat} (hd : 0 < den) :
    ((i * n * num + den - 1) / den ≤ u ∧ u < ((i * n + n) * num + den - 1) / den) ↔ i * n * num ≤ u * den ∧ u * den < (i * n + n) * num := by
  rw [ceil_lt hd, ← Nat.not_lt, ceil_lt hd, Nat.not_lt]

/-- Exactly one superblock contains the beginning of unit `u`. -/
theorem unit_once {n num den u I : Nat} (hn : 0 < n) (hq : 0 < num) (hI : u * den < I * n * num) :
    ∃! i : Nat, i < I ∧ i * n * num ≤ u * den ∧ u * den < (i * n + n) * num := by
  have hnq : 0 < n * num := Nat.mul_pos hn hq
  refine ⟨u * den / (n * num), ⟨?_, ?_, ?_⟩, ?_⟩
  · rw [Nat.div_lt_iff_lt_mul hnq, ← Nat.mul_assoc]; exact hI
  · rw [Nat.mul_assoc]; exact Nat.div_mul_le_self _ _
  · have := Nat.lt_div_mul_add (a := u * den) hnq
    rw [Nat.add_mul, Nat.mul_assoc]; exact this
  · rintro j ⟨-, h1, h2⟩
    symm
    rw [Nat.div_eq_iff hnq]
    rw [Nat.add_mul, Nat.mul_assoc] at h2
    rw [Nat.mul_assoc] at h1
    omega

/-- Superblock `(i, j)` of `size` by `size` 4x4 units reads unit `(u, v)`. -/
def ReadsUnit (c : WrapCtx) (denom : Option Nat) (us size i j u v : Nat) : Prop :=
  ∃ a b a' b', lrUnitRange c denom us (i * size) (j * size) (size, size) = .ok ((a, b), (a', b')) ∧ a ≤ u ∧ u < b ∧ a' ≤ v ∧ v < b'

/-- Number of units of a chroma plane in a dimension of `n` luma pixels. -/
def unitsOf (us n s : Nat) : Nat := max ((planeDim n s + us / 2) / us) 1

theorem planeDim_mul (n s : Nat) (h : s ≤ 1) (m : Nat) (hm : n ≤ m * 4) : planeDim n s ≤ m * (4 >>> s) := by
  unfold planeDim
  rcases (show s = 0 ∨ s = 1 by omega) with rfl | rfl
  · simpa using hm
  · rw [Nat.shiftRight_eq_div_pow, show (4 >>> 1 : Nat) = 2 from rfl]; omega

theorem four_shift_pos (s : Nat) (h : s ≤ 1) : 0 < 4 >>> s := by
  rcases (show s = 0 ∨ s = 1 by omega) with rfl | rfl <;> decide

theorem units_le {us n s m u : Nat} (hu : 0 < us) (hs : s ≤ 1) (hn : 0 < n) (hm : n ≤ m * 4) (h : u < unitsOf us n s) : u * us < m * (4 >>> s) := by
  have h1 := planeDim_mul n s hs m hm
  have hpos : 0 < planeDim n s := by
    unfold planeDim
    rcases (show s = 0 ∨ s = 1 by omega) with rfl | rfl
    · simpa using hn
    · rw [Nat.shiftRight_eq_div_pow]; omega
  unfold unitsOf at h
  by_cases hz : u = 0
  · subst hz; omega
  · have h2 : u < (planeDim n s + us / 2) / us := by omega
    have h3 : (u + 1) * us ≤ planeDim n s + us / 2 := (Nat.le_div_iff_mul_le hu).mp h2
    rw [Nat.add_mul, Nat.one_mul] at h3
    omega

/-- **C114 (chroma units, no super resolution).**  Every restoration unit of a chroma plane (of every plane, if there is no
subsampling) is read with exactly one superblock of the frame: `I` by `J` superblocks of `size` by `size` 4x4 units. -/
theorem C114_units_partial (c : WrapCtx) (hx : c.subX ≤ 1) (hy : c.subY ≤ 1) (us size I J u v : Nat) (hus : 0 < us) (hsz : 0 < size)
    (hh : 0 < c.frameHeight) (hw : 0 < c.upscaledWidth) (hI : c.frameHeight ≤ I * size * 4) (hJ : c.upscaledWidth ≤ J * size * 4)
    (hu : u < unitsOf us c.frameHeight c.subY) (hv : v < unitsOf us c.upscaledWidth c.subX) :
    ∃! ij : Nat × Nat, (ij.1 < I ∧ ij.2 < J) ∧ ReadsUnit c none us size ij.1 ij.2 u v := by
  have key : ∀ i j, ReadsUnit c none us size i j u v ↔
      (i * size * (4 >>> c.subY) ≤ u * us ∧ u * us < (i * size + size) * (4 >>> c.subY)) ∧
      (j * size * (4 >>> c.subX) ≤ v * us ∧ v * us < (j * size + size) * (4 >>> c.subX)) := by
    intro i j
    rw [← unit_in hus, ← unit_in hus]
    unfold ReadsUnit lrUnitRange
    have e : ∀ n, countUnits us n = .ok (max ((n + us / 2) / us) 1) := by
      intro n; unfold countUnits; rw [if_neg (by omega), Nat.shiftRight_eq_div_pow]
    rw [e, Res.ok_bind, e, Res.ok_bind]
    dsimp only
    unfold unitsOf at hu hv
    constructor
    · rintro ⟨a, b, a', b', he, h1, h2, h3, h4⟩
      cases he
      exact ⟨⟨h1, by omega⟩, ⟨h3, by omega⟩⟩
    · rintro ⟨⟨h1, h2⟩, ⟨h3, h4⟩⟩
      exact ⟨_, _, _, _, rfl, h1, by omega, h3, by omega⟩
  obtain ⟨i, ⟨i1, i2⟩, iu⟩ := unit_once (n := size) (num := 4 >>> c.subY) (den := us) (u := u) (I := I) hsz (four_shift_pos _ hy)
    (by rw [Nat.mul_assoc] at hI ⊢; rw [← Nat.mul_assoc] at hI ⊢; exact units_le hus hy hh hI hu)
  obtain ⟨j, ⟨j1, j2⟩, ju⟩ := unit_once (n := size) (num := 4 >>> c.subX) (den := us) (u := v) (I := J) hsz (four_shift_pos _ hx)
    (units_le hus hx hw hJ hv)
  refine ⟨(i, j), ⟨⟨i1, j1⟩, (key i j).mpr ⟨i2, j2⟩⟩, ?_⟩
  rintro ⟨i', j'⟩ ⟨⟨a1, a2⟩, h⟩
  obtain ⟨b1, b2⟩ := (key i' j').mp h
  rw [iu i' ⟨a1, b1⟩, ju j' ⟨a2, b2⟩]

/-- A 352x288 frame in 4:2:0 has 3 by 3 units of 64 in the chroma planes. -/
example : unitsOf 64 352 1 = 3 ∧ unitsOf 64 288 1 = 2 ∧ (288 ≤ 5 * 16 * 4 ∧ 352 ≤ 6 * 16 * 4) := by decide

/-- **C114 fails for the luma plane of a subsampled frame**: the unit of the last block row (as the filter counts units) is
read with no superblock, for every frame at least three units high. -/
theorem C114_luma_refuted (c : WrapCtx) (hy : c.subY = 1) (us : Nat) (hus : 0 < us) (hh : 3 * us ≤ c.frameHeight) (row col : Nat)
    (hrow : (row + 1) * 4 ≥ c.frameHeight) (size : Nat) (denom : Option Nat) (uv : Nat × Nat) (hu : lrUnit c us 0 row col = .ok uv) :
    ∀ i j, ¬ ReadsUnit c denom us size i j uv.1 uv.2 := by
  rintro i j ⟨a, b, a', b', he, h1, h2, h3, h4⟩
  have e : ∀ n, countUnits us n = .ok (max ((n + us / 2) / us) 1) := by
    intro n; unfold countUnits; rw [if_neg (by omega), Nat.shiftRight_eq_div_pow]
  unfold lrUnit at hu
  unfold lrUnitRange at he
  dsimp only at hu
  rw [e, Res.ok_bind, e, Res.ok_bind] at hu he
  have hb : b ≤ max ((planeDim c.frameHeight c.subY + us / 2) / us) 1 := by
    have := congrArg (fun r => match r with | Except.ok p => p.1.2 | _ => 0) he
    dsimp only at this
    rw [← this]
    exact Nat.min_le_left _ _
  have hu1 : uv.1 = min (max ((planeDim c.frameHeight 0 + us / 2) / us) 1 - 1) ((row * 4 + 8) / us) := by
    have := congrArg (fun r => match r with | Except.ok p => p.1 | _ => 0) hu
    dsimp only at this
    rw [← this]
    rfl
  rw [hy] at hb
  have p1 : planeDim c.frameHeight 1 = (c.frameHeight + 1) / 2 := by unfold planeDim; rw [Nat.shiftRight_eq_div_pow]
  have p0 : planeDim c.frameHeight 0 = c.frameHeight := by unfold planeDim; simp
  rw [p1] at hb
  rw [p0] at hu1
  -- quotients
  have q1 := Nat.div_add_mod ((c.frameHeight + 1) / 2 + us / 2) us
  have q2 := Nat.mod_lt ((c.frameHeight + 1) / 2 + us / 2) hus
  have q3 : (((c.frameHeight + 1) / 2 + us / 2) / us + 1) ≤ (c.frameHeight + us / 2) / us := by
    refine (Nat.le_div_iff_mul_le hus).mpr ?_
    rw [Nat.add_mul, Nat.mul_comm, Nat.one_mul]
    omega
  have q4 : (c.frameHeight + us / 2) / us ≤ (row * 4 + 8) / us + 1 := by
    have h5 : (c.frameHeight + us / 2) / us ≤ (row * 4 + 8 + us) / us := Nat.div_le_div_right (by omega)
    rw [Nat.add_div_right _ hus] at h5
    exact h5
  have q5 : 1 ≤ ((c.frameHeight + 1) / 2 + us / 2) / us := (Nat.le_div_iff_mul_le hus).mpr (by omega)
  omega

example : lrUnit { frameHeight := 256, upscaledWidth := 256, subX := 1, subY := 1 } 64 0 63 0 = .ok (3, 0) := by decide +kernel

/-! ## Types -/

/-- **C114 fails for frames with a single filter type**: if the frame uses only the Wiener filter or only the self guided filter,
reading any unit panics. -/
theorem C114_type_refuted (L : Layout) {ft : Int} (hf : ft = 1 ∨ ft = 2) (fuel plane row col : Nat) (p : LrUnitParams) (msg : List Nat) :
    (readLrUnit fuel ft plane row col p).run L msg = .error (.explicit "not implemented: S()") := by
  unfold readLrUnit readLrType
  rw [if_pos hf]
  rfl

/-- **C114 fails for Wiener units**: in a frame that allows both filters, a Wiener unit panics. -/
theorem C114_wiener_refuted (L : Layout) (fuel plane row col : Nat) (p : LrUnitParams) (msg : List Nat) (r : LrUnitParams × List Nat) :
    (readLrUnit fuel 3 plane row col p).run L (1 :: msg) ≠ .ok r := by
  intro h
  unfold readLrUnit readLrType at h
  rw [if_neg (by decide)] at h
  obtain ⟨t, m, h1, h⟩ := Rd.run_bind.mp h
  obtain ⟨n, s, l, -, hs, -, h1⟩ := Rd.run_sym.mp h1
  cases hs
  cases h1
  obtain ⟨_, _, -, h⟩ := Rd.run_bind.mp h
  obtain ⟨_, _, -, h⟩ := Rd.run_bind.mp h
  obtain ⟨_, _, -, h⟩ := Rd.run_bind.mp h
  rw [if_pos rfl] at h
  cases h

/-! ## Values -/

/-- AV1's subexponential code of `v < n` (bits, most significant first): buckets of `2^k, 2^k, 2^(k+1), 2^(k+2), ...` values, each
announced by a flag, the rest coded uniformly. -/
def encSubexpBoolAux (n k v : Nat) : Nat → Nat → Nat → List Nat
  | 0, _, _ => []
  | fuel + 1, i, mk =>
    let b2 := if i = 0 then k else k + i - 1
    if n ≤ mk + 3 * 2 ^ b2 then (encNs (n - mk) (v - mk)).map Bool.toNat
    else if mk + 2 ^ b2 ≤ v then 1 :: encSubexpBoolAux n k v fuel (i + 1) (mk + 2 ^ b2)
    else 0 :: bitsMsb b2 (v - mk)

/-- The code of `v < n`. -/
def encSubexpBool (n k v : Nat) : List Nat := encSubexpBoolAux n k v n 0 0

/-- What the loop reads: `j` flags, then `k` bits, give `j * 2^k + x`. -/
theorem subexpBoolLoop_says (L : Layout) (k j : Nat) : ∀ (fuel mk x : Nat), j < fuel → x < 2 ^ k →
    (subexpBoolLoop k fuel mk).Says L (List.replicate j 1 ++ 0 :: bitsMsb k x) ((x : Int) + (mk + j * 2 ^ k : Nat)) := by
  induction j with
  | zero =>
    intro fuel mk x hf hx
    obtain ⟨fuel, rfl⟩ : ∃ f, fuel = f + 1 := ⟨fuel - 1, by omega⟩
    rw [subexpBoolLoop]
    refine Rd.Says.bind (m := [0]) (Rd.Says.lit1 (s := 0) (by decide)) ?_
    rw [if_neg (by decide)]
    have := Rd.Says.bind (f := fun v : Nat => Rd.ret ((v : Int) + mk)) (lit_says (L := L) hx) (Rd.Says.ret ((x : Int) + mk))
    rw [List.append_nil] at this
    rw [Nat.zero_mul, Nat.add_zero]
    exact this
  | succ j ih =>
    intro fuel mk x hf hx
    obtain ⟨fuel, rfl⟩ : ∃ f, fuel = f + 1 := ⟨fuel - 1, by omega⟩
    rw [subexpBoolLoop]
    refine Rd.Says.bind (m := [1]) (Rd.Says.lit1 (s := 1) (by decide)) ?_
    rw [if_pos (by decide)]
    have := ih fuel (mk + 2 ^ k) x (by omega) hx
    rw [show mk + (j + 1) * 2 ^ k = mk + 2 ^ k + j * 2 ^ k by ring]
    exact this

/-- **C114 (subexponential codes, the first two buckets).**  The codes of values below `2^(k+1)` are read as AV1 says. -/
theorem C114_subexp_partial (L : Layout) (n k v fuel : Nat) (hn : 4 * 2 ^ k < n) (hv : v < 2 * 2 ^ k) (hf : 2 ≤ fuel) :
    (decodeSubexpBool fuel n k).Says L (encSubexpBool n k v) v := by
  have hpos := Nat.two_pow_pos k
  unfold decodeSubexpBool
  have hc : ¬ ((n : Int) ≤ 3 * 2 ^ k) := by
    have : ((3 * 2 ^ k : Nat) : Int) < n := by exact_mod_cast (by omega : 3 * 2 ^ k < n)
    push_cast at this
    omega
  rw [if_neg hc]
  unfold encSubexpBool
  obtain ⟨m, rfl⟩ : ∃ m, n = m + 2 := ⟨n - 2, by omega⟩
  rw [encSubexpBoolAux]
  rw [if_pos rfl, if_neg (by omega)]
  by_cases h : 2 ^ k ≤ v
  · rw [if_pos (by omega), encSubexpBoolAux]
    rw [if_neg (show ¬ (0 + 1 = 0) by decide)]
    rw [show k + (0 + 1) - 1 = k by omega, if_neg (by omega), if_neg (by omega)]
    have := subexpBoolLoop_says L k 1 fuel 0 (v - 2 ^ k) (by omega) (by omega)
    rw [Nat.zero_add, Nat.one_mul, show ((v - 2 ^ k : Nat) : Int) + (2 ^ k : Nat) = v by omega] at this
    rw [Nat.zero_add]
    exact this
  · rw [if_neg (by omega)]
    have := subexpBoolLoop_says L k 0 fuel 0 v (by omega) (by omega)
    simpa using this

example : encSubexpBool 128 4 20 = [1, 0, 0, 1, 0, 0] ∧ encSubexpBool 128 4 100 = [1, 1, 1, 1, 0, 0, 1, 0, 0] := by decide +kernel

namespace Rd

/-- Reads raw bits only. -/
def NoSym {α : Type} : Rd α → Prop
  | ret _ => True
  | fail _ => True
  | sym _ _ _ => False
  | bit k => ∀ s, (k s).NoSym

theorem NoSym.bind {α β : Type} {p : Rd α} {f : α → Rd β} (h : p.NoSym) (hf : ∀ a, (f a).NoSym) : (p >>= f).NoSym := by
  induction p with
  | ret a => exact hf a
  | fail e => trivial
  | sym t idx k => cases h
  | bit k ih => exact fun s => ih s (h s)

theorem NoSym.run {α : Type} {p : Rd α} (h : p.NoSym) (L L' : Layout) (msg : List Nat) : p.run L msg = p.run L' msg := by
  induction p generalizing msg with
  | ret a => rfl
  | fail e => rfl
  | sym t idx k => cases h
  | bit k ih =>
    cases msg with
    | nil => rfl
    | cons s l =>
      show (if s < 2 then (k s).run L l else _) = (if s < 2 then (k s).run L' l else _)
      rw [ih s (h s) l]

theorem noSym_lit (n : Int) : (lit n).NoSym := by
  unfold lit
  generalize n.toNat = m
  generalize 0 = x
  induction m generalizing x with
  | zero => trivial
  | succ m ih => exact fun s => ih (2 * x + s)

end Rd

theorem noSym_subexp (k fuel mk : Nat) : (subexpBoolLoop k fuel mk).NoSym := by
  induction fuel generalizing mk with
  | zero => trivial
  | succ f ih =>
    rw [subexpBoolLoop]
    refine Rd.NoSym.bind (Rd.noSym_lit 1) (fun a => ?_)
    split
    · exact ih _
    · exact Rd.NoSym.bind (Rd.noSym_lit k) (fun _ => trivial)

/-- Fuel: more does not change what is read. -/
theorem subexp_fuel (L : Layout) (k : Nat) : ∀ (fuel mk : Nat) (msg : List Nat) (r : Int × List Nat),
    (subexpBoolLoop k fuel mk).run L msg = .ok r → ∀ g, msg.length < g → (subexpBoolLoop k g mk).run L msg = .ok r := by
  intro fuel
  induction fuel with
  | zero => intro mk msg r h; cases h
  | succ f ih =>
    intro mk msg r h g hg
    obtain ⟨g, rfl⟩ : ∃ g', g = g' + 1 := ⟨g - 1, by omega⟩
    rw [subexpBoolLoop] at h ⊢
    obtain ⟨more, m, h1, h2⟩ := Rd.run_bind.mp h
    refine Rd.run_bind.mpr ⟨more, m, h1, ?_⟩
    split at h2
    · rename_i hm
      rw [if_pos hm]
      refine ih _ _ _ h2 g ?_
      have : m.length < msg.length := by
        cases msg with
        | nil => cases h1
        | cons a l =>
          have h1 : (if a < 2 then Rd.run L (Rd.litLoop 0 (2 * 0 + a)) l else .error .index) = .ok (more, m) := h1
          split at h1
          · cases h1; simp
          · cases h1
      omega
    · rename_i hm
      rw [if_neg hm]; exact h2

/-- **C114 fails for all other codes**: for each of the four kinds of values (three Wiener taps, self guided weights) AV1's
code of a value from the third bucket on is not read as this value. -/
theorem C114_subexp_refuted (L : Layout) (nk : Nat × Nat) (hnk : nk = (16, 1) ∨ nk = (32, 2) ∨ nk = (64, 3) ∨ nk = (128, 4)) (v fuel : Nat)
    (h1 : 2 * 2 ^ nk.2 ≤ v) (h2 : v < nk.1) : ¬ (decodeSubexpBool fuel nk.1 nk.2).Says L (encSubexpBool nk.1 nk.2 v) v := by
  intro h
  have hc : ¬ ((nk.1 : Int) ≤ 3 * 2 ^ nk.2) := by rcases hnk with rfl | rfl | rfl | rfl <;> decide
  unfold decodeSubexpBool Rd.Says at h
  rw [if_neg hc] at h
  have hlen : (encSubexpBool nk.1 nk.2 v).length < 12 := by
    have : ∀ nk ∈ [((16, 1) : Nat × Nat), (32, 2), (64, 3), (128, 4)], ∀ v : Nat, v < nk.1 → (encSubexpBool nk.1 nk.2 v).length < 12 := by decide +kernel
    exact this nk (by rcases hnk with rfl | rfl | rfl | rfl <;> decide) v h2
  have h := subexp_fuel L nk.2 fuel 0 _ _ h 12 hlen
  rw [(noSym_subexp nk.2 12 0).run L ⟨fun _ _ => none, fun _ _ => none⟩] at h
  have key : ∀ nk ∈ [((16, 1) : Nat × Nat), (32, 2), (64, 3), (128, 4)], ∀ v : Nat, v < nk.1 → 2 * 2 ^ nk.2 ≤ v →
      (match (subexpBoolLoop nk.2 12 0).run ⟨fun _ _ => none, fun _ _ => none⟩ (encSubexpBool nk.1 nk.2 v) with
        | .ok (x, []) => decide (x ≠ v)
        | _ => true) = true := by decide +kernel
  have := key nk (by rcases hnk with rfl | rfl | rfl | rfl <;> decide) v h2 h1
  rw [h] at this
  simp at this

example : ∃ v : Nat, 2 * 2 ^ 4 ≤ v ∧ v < 128 := ⟨40, by decide⟩

/-- **C114 fails for the range**: values of every size can be read, although AV1's are below `n`. -/
theorem C114_range_refuted (L : Layout) (n k j x : Nat) (hn : 3 * 2 ^ k < n) (hx : x < 2 ^ k) :
    ∃ fuel msg, (decodeSubexpBool fuel n k).Says L msg ((j * 2 ^ k + x : Nat) : Int) := by
  refine ⟨j + 1, List.replicate j 1 ++ 0 :: bitsMsb k x, ?_⟩
  unfold decodeSubexpBool
  have hc : ¬ ((n : Int) ≤ 3 * 2 ^ k) := by
    have : ((3 * 2 ^ k : Nat) : Int) < n := by exact_mod_cast hn
    push_cast at this
    omega
  rw [if_neg hc]
  have := subexpBoolLoop_says L k j (j + 1) 0 x (by omega) hx
  rw [show ((j * 2 ^ k + x : Nat) : Int) = (x : Int) + (0 + j * 2 ^ k : Nat) by push_cast; ring]
  exact this

example (L : Layout) : ∃ fuel msg, (decodeSubexpBool fuel ((128 : Nat) : Int) 4).Says L msg ((1000 * 2 ^ 4 + 3 : Nat) : Int) :=
  C114_range_refuted L 128 4 1000 3 (by decide) (by decide)

/-! ## A self guided unit -/

/-- Code of weight `v` in `[low, low + n)` with prediction `r`. -/
def weightCode (low : Int) (n : Nat) (r v : Int) : Nat :=
  if (r - low) * 2 ≤ n then (recenter (r - low) (v - low)).toNat else (recenter (n - 1 - (r - low)) (n - 1 - (v - low))).toNat

theorem decodeSigned_says (L : Layout) {low : Int} {n k fuel : Nat} {r v : Int} (hn : 4 * 2 ^ k < n) (hf : 2 ≤ fuel)
    (hr : low ≤ r ∧ r < low + n) (hv : low ≤ v ∧ v < low + n) (hc : weightCode low n r v < 2 * 2 ^ k) :
    (decodeSignedBool fuel low (low + n) k r).Says L (encSubexpBool n k (weightCode low n r v)) v := by
  unfold decodeSignedBool decodeUnsignedBool
  have e : low + (n : Int) - low = n := by omega
  rw [e]
  have h1 := C114_subexp_partial L n k _ fuel hn hc hf
  have fin : ∀ m w, (decodeSubexpBool fuel (n : Int) k).Says L m ((w : Nat) : Int) → w = weightCode low n r v →
      ((do
        let v ← decodeSubexpBool fuel (n : Int) k
        if (r - low) * 2 ≤ (n : Int) then Rd.ret (inverseRecenter (r - low) v) else Rd.ret ((n : Int) - 1 - inverseRecenter ((n : Int) - 1 - (r - low)) v)) >>=
        fun x => Rd.ret (x + low)).Says L m v := by
    intro m w hm hw
    have h2 : (do
        let v ← decodeSubexpBool fuel (n : Int) k
        if (r - low) * 2 ≤ (n : Int) then Rd.ret (inverseRecenter (r - low) v) else Rd.ret ((n : Int) - 1 - inverseRecenter ((n : Int) - 1 - (r - low)) v) : Rd Int).Says L
        (m ++ []) (v - low) := by
      refine Rd.Says.bind hm ?_
      subst hw
      unfold weightCode
      by_cases hh : (r - low) * 2 ≤ (n : Int)
      · rw [if_pos hh, if_pos hh]
        have h12 := C12_inverseRecenter_roundtrip (r - low) (v - low) (by omega) (by omega)
        rw [Int.toNat_of_nonneg h12.2, h12.1]
        exact Rd.Says.ret _
      · rw [if_neg hh, if_neg hh]
        have h12 := C12_inverseRecenter_roundtrip ((n : Int) - 1 - (r - low)) ((n : Int) - 1 - (v - low)) (by omega) (by omega)
        rw [Int.toNat_of_nonneg h12.2, h12.1, show (n : Int) - 1 - ((n : Int) - 1 - (v - low)) = v - low by omega]
        exact Rd.Says.ret _
    rw [List.append_nil] at h2
    have h3 := Rd.Says.bind (f := fun x => Rd.ret (x + low)) h2 (Rd.Says.ret (v - low + low))
    rw [List.append_nil, show v - low + low = v by omega] at h3
    exact h3
  exact fin _ _ h1 rfl

/-- The two weights `w0, w1` of a unit with parameter set `set`, given the previous ones, and their code.  A weight whose radius is 0 is
not coded: the first is then 0, the second follows from the first. -/
structure WeightsCoded (set : Nat) (ref0 ref1 w0 w1 : Int) (msg : List Nat) : Prop where
  ref : (-96 ≤ ref0 ∧ ref0 ≤ 31) ∧ (-32 ≤ ref1 ∧ ref1 ≤ 95)
  range : (-96 ≤ w0 ∧ w0 ≤ 31) ∧ (-32 ≤ w1 ∧ w1 ≤ 95)
  code : ∃ m0 m1, msg = m0 ++ m1 ∧
    (if at2 sgrParams set 0 = some 0 then w0 = 0 ∧ m0 = []
      else weightCode (-96) 128 ref0 w0 < 32 ∧ m0 = encSubexpBool 128 4 (weightCode (-96) 128 ref0 w0)) ∧
    (if at2 sgrParams set 2 = some 0 then w1 = max (-32) (min 95 (128 - w0)) ∧ m1 = []
      else weightCode (-32) 128 ref1 w1 < 32 ∧ m1 = encSubexpBool 128 4 (weightCode (-32) 128 ref1 w1))

theorem readXqd_says (L : Layout) {plane set i fuel : Nat} {p : LrUnitParams} {radius ref ref0 v : Int} {m : List Nat} (hi : i < 2)
    (hr : at2 sgrParams set (i * 2) = some radius) (h1 : at2 p.refXqd plane i = some ref) (h0 : at2 p.refXqd plane 0 = some ref0)
    (hx : Shape 3 2 p.xqd) (hrx : Shape 3 2 p.refXqd) (hp : plane < 3)
    (hv : (readXqdValue fuel i radius ref ref0).Says L m v) :
    ∃ p', (readXqd fuel plane set i p).Says L m p' ∧ p'.lrType = p.lrType ∧ p'.sgrSet = p.sgrSet ∧ Shape 3 2 p'.xqd ∧ Shape 3 2 p'.refXqd ∧
      (∀ a b, at2 p'.xqd a b = if (a, b) = (plane, i) then some v else at2 p.xqd a b) ∧
      (∀ a b, at2 p'.refXqd a b = if (a, b) = (plane, i) then some v else at2 p.refXqd a b) := by
  obtain ⟨x', e1, s1, a1, b1⟩ := gset_ok hx (i := plane) (j := i) hp hi v
  obtain ⟨r', e2, s2, a2, b2⟩ := gset_ok hrx (i := plane) (j := i) hp hi v
  refine ⟨{ p with xqd := x', refXqd := r' }, ?_, rfl, rfl, s1, s2, ?_, ?_⟩
  · unfold readXqd
    refine Rd.Says.lift (by have := gget_at2 hr; push_cast at this; exact this) ?_
    refine Rd.Says.lift (gget_at2 h1) ?_
    refine Rd.Says.lift (gget_at2 h0) ?_
    have := Rd.Says.bind (f := fun v => Rd.lift (gset p.xqd (plane : Int) (i : Int) v) >>= fun xqd => Rd.lift (gset p.refXqd (plane : Int) (i : Int) v) >>=
      fun refXqd => Rd.ret { p with xqd := xqd, refXqd := refXqd }) hv (m' := []) (b := { p with xqd := x', refXqd := r' })
      (Rd.Says.lift e1 (Rd.Says.lift e2 (Rd.Says.ret _)))
    rw [List.append_nil] at this
    exact this
  · intro a b
    split
    · rename_i h; cases h; exact a1
    · rename_i h; exact b1 a b h
  · intro a b
    split
    · rename_i h; cases h; exact a2
    · rename_i h; exact b2 a b h

/-- **C114 (self guided units).**  In a frame that allows both filters, a unit of a one unit plane coded as self guided with AV1's
code (weights in the first two buckets) is read: type, parameter set and weights are those coded, and the weights become
the prediction for the next unit. -/
theorem C114_sgr_partial (L : Layout) (hL : L.count "RestorationType" [] = some 3) {plane fuel set : Nat} (hp : plane < 3) (hset : set < 16) (hf : 2 ≤ fuel)
    {p : LrUnitParams} (ht : Pic 1 1 p.lrType) (hs : Pic 1 1 p.sgrSet) (hx : Shape 3 2 p.xqd) (hrx : Shape 3 2 p.refXqd)
    {ref0 ref1 w0 w1 : Int} (h0 : at2 p.refXqd plane 0 = some ref0) (h1 : at2 p.refXqd plane 1 = some ref1) {msg : List Nat}
    (hw : WeightsCoded set ref0 ref1 w0 w1 msg) :
    ∃ p', (readLrUnit fuel 3 plane 0 0 p).Says L (2 :: (bitsMsb 4 set ++ msg)) p' ∧
      at3 p'.lrType plane 0 0 = some 2 ∧ at3 p'.sgrSet plane 0 0 = some (set : Int) ∧
      at2 p'.xqd plane 0 = some w0 ∧ at2 p'.xqd plane 1 = some w1 ∧ at2 p'.refXqd plane 0 = some w0 ∧ at2 p'.refXqd plane 1 = some w1 := by
  obtain ⟨l, e1, s1, -, a1⟩ := ht.plane hp
  obtain ⟨l', e2, s2, v2, -⟩ := gset_ok s1 (i := 0) (j := 0) (by decide) (by decide) (2 : Int)
  obtain ⟨g1, g2⟩ := pic_set ht hp s2
  obtain ⟨q, e3, s3, -, a3⟩ := hs.plane hp
  obtain ⟨q', e4, s4, v4, -⟩ := gset_ok s3 (i := 0) (j := 0) (by decide) (by decide) (set : Int)
  obtain ⟨g3, g4⟩ := pic_set hs hp s4
  obtain ⟨m0, m1, rfl, c0, c1⟩ := hw.code
  -- radii
  obtain ⟨r0, hr0⟩ : ∃ r, at2 sgrParams set 0 = some r := by
    have : ∀ s : Nat, s < 16 → (at2 sgrParams s 0).isSome := by decide
    exact Option.isSome_iff_exists.mp (this set hset)
  obtain ⟨r1, hr1⟩ : ∃ r, at2 sgrParams set 2 = some r := by
    have : ∀ s : Nat, s < 16 → (at2 sgrParams s 2).isSome := by decide
    exact Option.isSome_iff_exists.mp (this set hset)
  rw [hr0] at c0
  rw [hr1] at c1
  -- first weight
  have hv0 : (readXqdValue fuel 0 r0 ref0 ref0).Says L m0 w0 := by
    unfold readXqdValue
    by_cases h : r0 = 0
    · subst h
      rw [if_pos rfl] at c0
      rw [if_neg (by decide), if_neg (by decide), c0.1, c0.2]
      exact Rd.Says.ret 0
    · rw [if_neg (by simpa using h)] at c0
      rw [if_pos h, c0.2]
      have := decodeSigned_says L (low := -96) (n := 128) (k := 4) (fuel := fuel) (r := ref0) (v := w0) (by decide) hf
        (by have := hw.ref.1; omega) (by have := hw.range.1; omega) c0.1
      exact this
  obtain ⟨p1, x1, t1, t2, t3, t4, t5, t6⟩ := readXqd_says L (plane := plane) (set := set) (i := 0) (fuel := fuel)
    (p := { p with lrType := p.lrType.set plane l', sgrSet := p.sgrSet.set plane q' }) (by decide) hr0 h0 h0 hx hrx hp hv0
  -- second weight
  have hv1 : (readXqdValue fuel 1 r1 ref1 w0).Says L m1 w1 := by
    unfold readXqdValue
    by_cases h : r1 = 0
    · subst h
      rw [if_pos rfl] at c1
      rw [if_neg (by decide), if_pos rfl, c1.1, c1.2]
      have : clip3 (xqdMin 1) (xqdMax 1) (128 - w0) = max (-32) (min 95 (128 - w0)) := clip3_minmax (by decide)
      rw [this]
      exact Rd.Says.ret _
    · rw [if_neg (by simpa using h)] at c1
      rw [if_pos h, c1.2]
      have := decodeSigned_says L (low := -32) (n := 128) (k := 4) (fuel := fuel) (r := ref1) (v := w1) (by decide) hf
        (by have := hw.ref.2; omega) (by have := hw.range.2; omega) c1.1
      exact this
  obtain ⟨p2, x2, u1, u2, u3, u4, u5, u6⟩ := readXqd_says L (plane := plane) (set := set) (i := 1) (fuel := fuel) (p := p1) (by decide) hr1
    (by rw [t6, if_neg (by simp)]; exact h1) (by rw [t6, if_pos rfl]) t3 t4 hp hv1
  refine ⟨p2, ?_, ?_, ?_, ?_, ?_, ?_, ?_⟩
  · unfold readLrUnit readLrType
    rw [if_neg (by decide)]
    refine Rd.Says.bind (m := [2]) (Rd.Says.read hL (s := 2) (by decide)) ?_
    refine Rd.Says.lift e1 ?_
    refine Rd.Says.lift e2 ?_
    refine Rd.Says.lift (goSet_lt' l' (by rw [ht.1]; exact hp)) ?_
    rw [if_neg (by decide), if_pos rfl]
    unfold readSgr
    refine Rd.Says.bind (lit_says (n := 4) (x := set) (by omega)) ?_
    refine Rd.Says.lift e3 ?_
    refine Rd.Says.lift e4 ?_
    refine Rd.Says.lift (goSet_lt' q' (by rw [hs.1]; exact hp)) ?_
    exact Rd.Says.bind x1 x2
  · rw [u1, t1]; dsimp only; rw [g2, if_pos rfl]; exact v2
  · rw [u2, t2]; dsimp only; rw [g4, if_pos rfl]; exact v4
  · rw [u5, if_neg (by simp), t5, if_pos rfl]
  · rw [u5, if_pos rfl]
  · rw [u6, if_neg (by simp), t6, if_pos rfl]
  · rw [u6, if_pos rfl]

/-- A unit with set 14 (only the first weight is coded): -30 after -32. -/
example : WeightsCoded 14 (-32) 31 (-30) 95 (encSubexpBool 128 4 (weightCode (-96) 128 (-32) (-30))) where
  ref := by decide
  range := by decide
  code := ⟨_, [], (List.append_nil _).symm, by rw [if_neg (by decide)]; exact ⟨by decide, rfl⟩, by rw [if_pos (by decide)]; decide⟩

end Gov1
