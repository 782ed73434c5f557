import Verif.Model.CdfLayout
import Verif.Props.Cdfs
import Verif.Props.Rd
/-! # C94, C95: the contexts of a tile -/
namespace Gov1
open Spec

theorem ravel_lt {ds : List Nat} {is : List Int} {k : Nat} (h : ravel ds is = some k) : k < ds.prod := by
  induction ds generalizing is k with
  | nil =>
    cases is with
    | nil => cases h; simp
    | cons i is => cases h
  | cons d ds ih =>
    cases is with
    | nil => cases h
    | cons i is =>
      simp only [ravel] at h
      split at h
      · rename_i hi
        cases hr : ravel ds is with
        | none => rw [hr] at h; cases h
        | some r =>
          rw [hr] at h
          simp only [Option.map_some, Option.some.injEq] at h
          have := ih hr
          rw [List.prod_cons, ← h]
          have h1 : i.toNat + 1 ≤ d := by omega
          calc i.toNat * ds.prod + r < i.toNat * ds.prod + ds.prod := by omega
            _ = (i.toNat + 1) * ds.prod := by rw [Nat.add_mul, Nat.one_mul]
            _ ≤ d * ds.prod := Nat.mul_le_mul_right _ h1
      · cases h

theorem ragRow_lt {l : List Nat} {j c : Int} {k : Nat} (h : ragRow l j c = some k) : k < l.sum := by
  induction l generalizing j k with
  | nil => cases h
  | cons n ns ih =>
    simp only [ragRow] at h
    rw [List.sum_cons]
    split at h
    · split at h
      · cases h; omega
      · cases h
    · cases hr : ragRow ns (j - 1) c with
      | none => rw [hr] at h; cases h
      | some r =>
        rw [hr] at h
        simp only [Option.map_some, Option.some.injEq] at h
        have := ih hr
        omega

theorem rag_lt {l : List (List Nat)} {i j c : Int} {k : Nat} (h : rag l i j c = some k) : k < (l.map List.sum).sum := by
  induction l generalizing i k with
  | nil => cases h
  | cons n ns ih =>
    simp only [rag] at h
    rw [List.map_cons, List.sum_cons]
    split at h
    · have := ragRow_lt h; omega
    · cases hr : rag ns (i - 1) j c with
      | none => rw [hr] at h; cases h
      | some r =>
        rw [hr] at h
        simp only [Option.map_some, Option.some.injEq] at h
        have := ih hr
        omega

theorem dims_ravel_lt {ds : Dims} {is : List Int} {k : Nat} (h : ds.ravel is = some k) : k < ds.size := by
  cases ds with
  | box ds => exact ravel_lt h
  | ragged l =>
    simp only [Dims.ravel] at h
    split at h
    · exact rag_lt h
    · cases h

/-- The check of the shape of one table. -/
def chkTab (x : Tab) : Bool :=
  decide (x.rows.length = x.dims.size) &&
  x.rows.all (fun l => decide (l.length = x.count + 1) && decide (l.length ≤ 17) && checkCdf 0 l)

theorem tabs_checked : ∀ k : Fin 4, (cdfTabs k).all chkTab = true := by decide +kernel

theorem locate_store {xs : List Tab} (hc : ∀ x ∈ xs, chkTab x = true) {d : String} {b : Nat} {x : Tab}
    (h : locate d xs = some (b, x)) (r : Nat) (hr : r < x.dims.size) :
    ∃ h1 : b + r < (xs.flatMap (fun x => x.rows.map (fun l => l.map Int.ofNat))).length,
      symbols (xs.flatMap (fun x => x.rows.map (fun l => l.map Int.ofNat)))[b + r] = x.count := by
  induction xs generalizing b with
  | nil => cases h
  | cons y ys ih =>
    have hy := hc y List.mem_cons_self
    simp only [chkTab, Bool.and_eq_true, decide_eq_true_eq] at hy
    simp only [locate] at h
    simp only [List.flatMap_cons]
    split at h
    · simp only [Option.some.injEq, Prod.mk.injEq] at h
      obtain ⟨hb, hx⟩ := h
      subst hb hx
      have hlen : r < (y.rows.map (fun l => l.map Int.ofNat)).length := by rw [List.length_map]; omega
      refine ⟨by rw [List.length_append]; omega, ?_⟩
      have e : (0 : Nat) + r = r := by omega
      simp only [e]
      rw [List.getElem_append_left hlen, List.getElem_map]
      have hrow : y.rows[r]'(by omega) ∈ y.rows := List.getElem_mem _
      have := List.all_eq_true.mp hy.2 _ hrow
      simp only [Bool.and_eq_true, decide_eq_true_eq] at this
      simp only [symbols, List.length_map]
      omega
    · cases hl : locate d ys with
      | none => rw [hl] at h; cases h
      | some p =>
        rw [hl] at h
        simp only [Option.map_some, Option.some.injEq, Prod.mk.injEq] at h
        obtain ⟨b', x'⟩ := p
        obtain ⟨h1, h2⟩ := h
        dsimp only at h1 h2
        subst h2
        obtain ⟨h3, h4⟩ := ih (fun x hx => hc x (List.mem_cons_of_mem _ hx)) hl
        have e : b + r = (y.rows.map (fun l => l.map Int.ofNat)).length + (b' + r) := by rw [List.length_map]; omega
        refine ⟨by rw [List.length_append]; omega, ?_⟩
        simp only [e]
        rw [List.getElem_append_right (by omega)]
        simp only [Nat.add_sub_cancel_left]
        exact h4

theorem store_valid (k : Fin 4) : AllValid (cdfStore k) := by
  intro c hc
  simp only [cdfStore, List.mem_flatMap, List.mem_map] at hc
  obtain ⟨x, hx, l, hl, rfl⟩ := hc
  have := List.all_eq_true.mp (tabs_checked k) x hx
  simp only [chkTab, Bool.and_eq_true, decide_eq_true_eq] at this
  have := List.all_eq_true.mp this.2 l hl
  simp only [Bool.and_eq_true, decide_eq_true_eq] at this
  exact (checkCdf_fresh l this.1.2 this.2).1

/-- **C94.**  At the start of a tile of a frame with the default contexts, for every quantizer class, every
context name and every index list within the dimensions of that context there is a valid distribution with
the declared number of symbols. -/
theorem C94_layout_fits (k : Fin 4) : (cdfLayout k).Fits (cdfStore k) := by
  refine ⟨store_valid k, ?_, ?_⟩
  · intro t idx n h
    simp only [cdfLayout] at h ⊢
    cases hf : cdfFind k t idx with
    | none => rw [hf] at h; cases h
    | some p =>
      rw [hf] at h
      simp only [Option.map_some, Option.some.injEq] at h ⊢
      refine ⟨p.1, rfl, ?_⟩
      simp only [cdfFind] at hf
      split at hf
      · cases hf
      · split at hf
        · cases hf
        · split at hf
          · cases hf
          · rename_i b x hloc
            cases hr : x.dims.ravel _ with
            | none => rw [hr] at hf; cases hf
            | some r =>
              rw [hr] at hf
              simp only [Option.map_some, Option.some.injEq] at hf
              subst hf
              obtain ⟨h1, h2⟩ := locate_store (List.all_eq_true.mp (tabs_checked k)) hloc r (dims_ravel_lt hr)
              exact ⟨h1, h2.trans h⟩
  · intro t idx i h
    simp only [cdfLayout] at h ⊢
    cases hf : cdfFind k t idx with
    | none => rw [hf] at h; cases h
    | some p => exact ⟨p.2, rfl⟩

/-- The dimensions (aliased, proper) and the number of symbols of a context. -/
def cdfInfo (k : Fin 4) (t : String) : Option (List Nat × Dims × Nat) :=
  match findName t cdfNames with
  | none => none
  | some (pre, d) => (locate d (cdfTabs k)).map (fun r => (pre, r.2.dims, r.2.count))

/-- Counting symbols of a context from its dimensions. -/
theorem count_eq (k : Fin 4) {t : String} {pre : List Nat} {dims : Dims} {n : Nat}
    (h : cdfInfo k t = some (pre, dims, n)) (idx : List Int) :
    (cdfLayout k).count t idx =
      match stripPre pre idx with
      | none => none
      | some is => (dims.ravel is).map (fun _ => n) := by
  simp only [cdfInfo] at h
  simp only [cdfLayout, cdfFind]
  cases hf : findName t cdfNames with
  | none => rw [hf] at h; cases h
  | some p =>
    obtain ⟨pre', d⟩ := p
    rw [hf] at h
    dsimp only at h ⊢
    cases hl : locate d (cdfTabs k) with
    | none => rw [hl] at h; cases h
    | some q =>
      rw [hl] at h
      simp only [Option.map_some, Option.some.injEq, Prod.mk.injEq] at h
      obtain ⟨e1, e2, e3⟩ := h
      subst e1
      cases stripPre pre' idx with
      | none => rfl
      | some is =>
        dsimp only
        rw [e2, e3, Option.map_map]
        rfl

theorem count0 (k : Fin 4) {t : String} {n : Nat} (h : cdfInfo k t = some ([], .box [], n)) :
    (cdfLayout k).count t [] = some n := by
  rw [count_eq k h]; rfl

theorem count1 (k : Fin 4) {t : String} {a n : Nat} (h : cdfInfo k t = some ([], .box [a], n)) {i : Int}
    (hi : 0 ≤ i ∧ i < a) : (cdfLayout k).count t [i] = some n := by
  rw [count_eq k h]; simp [stripPre, ravel, Dims.ravel, hi]

theorem count2 (k : Fin 4) {t : String} {a b n : Nat} (h : cdfInfo k t = some ([], .box [a, b], n)) {i j : Int}
    (hi : 0 ≤ i ∧ i < a) (hj : 0 ≤ j ∧ j < b) : (cdfLayout k).count t [i, j] = some n := by
  rw [count_eq k h]; simp [stripPre, ravel, Dims.ravel, hi, hj]

theorem count3 (k : Fin 4) {t : String} {a b c n : Nat} (h : cdfInfo k t = some ([], .box [a, b, c], n)) {i j l : Int}
    (hi : 0 ≤ i ∧ i < a) (hj : 0 ≤ j ∧ j < b) (hl : 0 ≤ l ∧ l < c) : (cdfLayout k).count t [i, j, l] = some n := by
  rw [count_eq k h]; simp [stripPre, ravel, Dims.ravel, hi, hj, hl]

/-- **C94, base level contexts** (missing: class 3, see below).  For the quantizer classes 0, 1 and 2 every
base level context AV1 uses (5 size classes, luma and chroma, 42 neighbourhoods) exists, with 4 symbols. -/
theorem C94_coeff_base_partial (k : Fin 4) (hk : k ≠ 3) (i j c : Int) (hi : 0 ≤ i ∧ i < 5) (hj : 0 ≤ j ∧ j < 2)
    (hc : 0 ≤ c ∧ c < 42) : (cdfLayout k).count "CoeffBase" [i, j, c] = some 4 := by
  have : ∀ k : Fin 4, k ≠ 3 → cdfInfo k "CoeffBase" = some ([], .box [5, 2, 42], 4) := by decide +kernel
  exact count3 k (this k hk) hi hj hc

/-- **C94 is false of the code** for base quantizer indices above 120 (class 3): the table of chroma 4x4
blocks has only 4 of the 42 base level contexts (a stray part of 4 rows was inserted at
`DEFAULT_COEFF_BASE_CDF[3][0][1]`), so reading any of the other contexts panics. -/
theorem C94_coeff_base_refuted (c : Int) (hc : 4 ≤ c) : (cdfLayout 3).count "CoeffBase" [0, 1, c] = none ∧
    (cdfLayout 3).slot "CoeffBase" [0, 1, c] = none := by
  have h : cdfInfo 3 "CoeffBase" = some ([], .ragged [[42, 4, 42], [42, 42], [42, 42], [42, 42], [42, 42]], 4) := by
    decide +kernel
  have h1 : (cdfLayout 3).count "CoeffBase" [0, 1, c] = none := by
    rw [count_eq 3 h]
    simp [stripPre, Dims.ravel, rag, ragRow]
    intro _; omega
  refine ⟨h1, ?_⟩
  simp only [cdfLayout, Option.map_eq_none_iff] at h1 ⊢
  exact h1

/-- Non-vacuity of C94: the coefficient context `[4][1][41]` exists and has four symbols; index 42 is out of
range. -/
example : (cdfLayout 2).count "CoeffBase" [4, 1, 41] = some 4 ∧ (cdfLayout 2).count "CoeffBase" [4, 1, 42] = none := by
  decide +kernel

/-- **C95 is false of the code.**  Contexts that AV1 keeps apart are one and the same array, for every
quantizer class: the motion vector contexts of normal and of intra block copy blocks, of the horizontal and
vertical component, and the delta loop filter contexts of different filters. -/
theorem C95_contexts_distinct_refuted (k : Fin 4) :
    (cdfLayout k).slot "MvJoint" [0] = (cdfLayout k).slot "MvJoint" [1] ∧
    (cdfLayout k).slot "MvSign" [0, 0] = (cdfLayout k).slot "MvSign" [0, 1] ∧
    (cdfLayout k).slot "DeltaLFMulti" [0] = (cdfLayout k).slot "DeltaLFMulti" [3] ∧
    (cdfLayout k).slot "DeltaLFMulti" [0] = (cdfLayout k).slot "DeltaLF" [] ∧
    ((cdfLayout k).slot "DeltaLF" []).isSome ∧ ((cdfLayout k).slot "MvJoint" [0]).isSome ∧
    ((cdfLayout k).slot "MvSign" [0, 0]).isSome := by
  revert k; decide +kernel

end Gov1
