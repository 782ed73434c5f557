import Verif.Model.Cdef
import Verif.Spec.Cdef
import Verif.Lemmas.Grid
import Mathlib.Algebra.BigOperators.Intervals
import Mathlib.Algebra.Order.BigOperators.Group.Finset
import Mathlib.Algebra.Order.BigOperators.Ring.Finset
import Mathlib.Algebra.Order.Ring.Int
import Mathlib.Tactic.Ring
import Mathlib.Tactic.Linarith
import Mathlib.Tactic.IntervalCases
/-! # C105: the direction search of CDEF -/
set_option linter.unusedSimpArgs false
namespace Gov1
open Spec

/-- The array `p` of 8 by 15 entries has the values `f`. -/
def Rep (p : List (List Int)) (f : Nat → Nat → Int) : Prop :=
  Shape 8 15 p ∧ ∀ d k, d < 8 → k < 15 → at2 p d k = some (f d k)

theorem Rep.congr {p : List (List Int)} {f g : Nat → Nat → Int} (h : Rep p f)
    (e : ∀ d k, d < 8 → k < 15 → f d k = g d k) : Rep p g :=
  ⟨h.1, fun d k hd hk => by rw [h.2 d k hd hk, e d k hd hk]⟩

theorem Rep.get {p : List (List Int)} {f : Nat → Nat → Int} (h : Rep p f) {d k : Nat} (hd : d < 8) (hk : k < 15)
    {i j : Int} (hi : i = d) (hj : j = k) : gget p i j = .ok (f d k) := by
  subst hi hj; exact gget_at2 (h.2 d k hd hk)

theorem Rep.add {p : List (List Int)} {f : Nat → Nat → Int} (h : Rep p f) (x : Int) {d k : Nat} (hd : d < 8) (hk : k < 15)
    {i j : Int} (hi : i = d) (hj : j = k) :
    ∃ p', gadd p i j x = .ok p' ∧ Rep p' (fun d' k' => f d' k' + if d' = d ∧ k' = k then x else 0) := by
  obtain ⟨p', h1, h2, h3, h4⟩ := gset_ok h.1 hd hk (f d k + x)
  refine ⟨p', ?_, h2, ?_⟩
  · rw [gadd, h.get hd hk hi hj, Res.ok_bind, hi, hj]; exact h1
  · intro d' k' hd' hk'
    show _ = some (f d' k' + if d' = d ∧ k' = k then x else 0)
    by_cases he : d' = d ∧ k' = k
    · rw [if_pos he, he.1, he.2]; exact h3
    · rw [if_neg he, h4 _ _ (by simpa using he), h.2 _ _ hd' hk', add_zero]

theorem cdefAddPixel_ok {p : List (List Int)} {f : Nat → Nat → Int} (h : Rep p f) (x : Int) {i j : Nat} (hi : i < 8) (hj : j < 8) :
    ∃ p', cdefAddPixel x i j p = .ok p' ∧ Rep p' (fun d k => f d k + if cdefLine d i j = k then x else 0) := by
  obtain ⟨p0, e0, h⟩ := h.add x (d := 0) (k := i + j) (by omega) (by omega) (i := 0) rfl rfl
  obtain ⟨p1, e1, h⟩ := h.add x (d := 1) (k := i + j / 2) (by omega) (by omega) (i := 1) rfl rfl
  obtain ⟨p2, e2, h⟩ := h.add x (d := 2) (k := i) (by omega) (by omega) (i := 2) rfl rfl
  obtain ⟨p3, e3, h⟩ := h.add x (d := 3) (k := 3 + i - j / 2) (by omega) (by omega) (i := 3)
    (j := 3 + (i : Int) - ((j / 2 : Nat) : Int)) rfl (by omega)
  obtain ⟨p4, e4, h⟩ := h.add x (d := 4) (k := 7 + i - j) (by omega) (by omega) (i := 4)
    (j := 7 + (i : Int) - (j : Int)) rfl (by omega)
  obtain ⟨p5, e5, h⟩ := h.add x (d := 5) (k := 3 + j - i / 2) (by omega) (by omega) (i := 5)
    (j := 3 - ((i / 2 : Nat) : Int) + (j : Int)) rfl (by omega)
  obtain ⟨p6, e6, h⟩ := h.add x (d := 6) (k := j) (by omega) (by omega) (i := 6) rfl rfl
  obtain ⟨p7, e7, h⟩ := h.add x (d := 7) (k := i / 2 + j) (by omega) (by omega) (i := 7) rfl rfl
  refine ⟨p7, ?_, h.congr ?_⟩
  · rw [cdefAddPixel, e0, Res.ok_bind, e1, Res.ok_bind, e2, Res.ok_bind, e3, Res.ok_bind, e4, Res.ok_bind, e5, Res.ok_bind,
      e6, Res.ok_bind, e7]
  · intro d k hd _
    interval_cases d <;> simp [cdefLine, eq_comm]

/-- The block of pixels the search works on: 8-bit values around 0. -/
def cdefPx (b : Nat) (g : Nat → Nat → Int) (i j : Nat) : Int := g i j / 2 ^ (b - 8) - 128

theorem zero_at : ∀ d < 8, ∀ k < 15, at2 (List.replicate 8 (List.replicate 15 (0 : Int))) d k = some 0 := by decide +kernel

theorem cdefPartial_ok (b : Nat) {F : List (List Int)} {x0 y0 : Nat} (g : Nat → Nat → Int) (hg : ∀ i j, i < 8 → j < 8 → at2 F (y0 + i) (x0 + j) = some (g i j)) :
    ∃ p, cdefPartial b F x0 y0 = .ok p ∧ Rep p (fun d k => ∑ q ∈ cdefLinePixels d k, cdefPx b g q.1 q.2) := by
  set G : Nat → Nat → Nat → Nat → Int := fun d k i j => if cdefLine d i j = k then cdefPx b g i j else 0 with hG
  have hinner : ∀ i p f, i < 8 → Rep p f → ∃ p', forN (fun j p => do
      let v ← gget F ((y0 + i : Nat) : Int) ((x0 + j : Nat) : Int)
      cdefAddPixel ((v >>> (b - 8)) - 128) i j p) 8 0 p = .ok p' ∧
      Rep p' (fun d k => f d k + ∑ j ∈ Finset.range 8, G d k i j) := by
    intro i p f hi hp
    obtain ⟨p', e, h⟩ := forN_total (f := fun j p => do
      let v ← gget F ((y0 + i : Nat) : Int) ((x0 + j : Nat) : Int)
      cdefAddPixel ((v >>> (b - 8)) - 128) i j p)
      (fun j p => Rep p (fun d k => f d k + ∑ j' ∈ Finset.range j, G d k i j')) (n := 8) (i0 := 0) (s := p)
      (by
        intro j t _ hj ht
        obtain ⟨p', e, h⟩ := cdefAddPixel_ok ht (cdefPx b g i j) hi (show j < 8 by omega)
        refine ⟨p', ?_, h.congr ?_⟩
        · rw [gget_at2 (hg i j hi (by omega)), Res.ok_bind]
          rw [cdefPx, show g i j / 2 ^ (b - 8) = g i j >>> (b - 8) by rw [Int.shiftRight_eq_div_pow]; norm_cast] at e
          exact e
        · intro d k _ _
          rw [Finset.sum_range_succ, hG]
          ring)
      (hp.congr (by simp))
    exact ⟨p', e, by simpa using h⟩
  obtain ⟨p, e, h⟩ := forN_total (f := fun i p => forN (fun j p => do
      let v ← gget F ((y0 + i : Nat) : Int) ((x0 + j : Nat) : Int)
      cdefAddPixel ((v >>> (b - 8)) - 128) i j p) 8 0 p)
    (fun i p => Rep p (fun d k => ∑ i' ∈ Finset.range i, ∑ j ∈ Finset.range 8, G d k i' j)) (n := 8) (i0 := 0)
    (s := List.replicate 8 (List.replicate 15 0))
    (by
      intro i t _ hi ht
      obtain ⟨p', e, h⟩ := hinner i t _ (by omega) ht
      exact ⟨p', e, h.congr (fun d k _ _ => (Finset.sum_range_succ (fun i' => ∑ j ∈ Finset.range 8, G d k i' j) i).symm)⟩)
    ⟨Shape.replicate _ _ _, fun d k hd hk => by rw [zero_at d hd k hk]; simp⟩
  refine ⟨p, e, h.congr ?_⟩
  intro d k _ _
  rw [cdefLinePixels, Finset.sum_filter, Finset.sum_product, Nat.zero_add]

/-! ## Costs -/

/-- The lengths of the lines. -/
def lineLens : List (List Nat) :=
  [[1, 2, 3, 4, 5, 6, 7, 8, 7, 6, 5, 4, 3, 2, 1], [2, 4, 6, 8, 8, 8, 8, 8, 6, 4, 2, 0, 0, 0, 0],
   [8, 8, 8, 8, 8, 8, 8, 8, 0, 0, 0, 0, 0, 0, 0], [2, 4, 6, 8, 8, 8, 8, 8, 6, 4, 2, 0, 0, 0, 0],
   [1, 2, 3, 4, 5, 6, 7, 8, 7, 6, 5, 4, 3, 2, 1], [2, 4, 6, 8, 8, 8, 8, 8, 6, 4, 2, 0, 0, 0, 0],
   [8, 8, 8, 8, 8, 8, 8, 8, 0, 0, 0, 0, 0, 0, 0], [2, 4, 6, 8, 8, 8, 8, 8, 6, 4, 2, 0, 0, 0, 0]]

theorem lineLens_eq : ∀ d < 8, ∀ k < 15, (cdefLinePixels d k).card = (lineLens.getD d []).getD k 0 := by decide +kernel

theorem cost_unfold (px : Nat → Nat → Int) (d : Nat) (hd : d < 8) : cdefCost px d =
    ∑ k ∈ Finset.range 15, ((840 / (lineLens.getD d []).getD k 0 : Nat) : Int) * (∑ q ∈ cdefLinePixels d k, px q.1 q.2) ^ 2 := by
  rw [cdefCost]
  refine Finset.sum_congr rfl fun k hk => ?_
  rw [lineLens_eq d hd k (Finset.mem_range.mp hk)]

/-- A loop that adds up. -/
theorem forN_sum {f : Nat → Int → Res Int} {t : Nat → Int} {n : Nat} {s : Int}
    (h : ∀ i s, i < n → f i s = .ok (s + t i)) : forN f n 0 s = .ok (s + ∑ i ∈ Finset.range n, t i) := by
  obtain ⟨s', e, h'⟩ := forN_total (f := f) (fun i u => u = s + ∑ j ∈ Finset.range i, t j) (n := n) (i0 := 0) (s := s)
    (by
      intro i u _ hi hu
      exact ⟨_, h i u (by omega), by rw [hu, Finset.sum_range_succ]; ring⟩)
    (by simp)
  rw [e, h', Nat.zero_add]

theorem cdefCosts_ok {p : List (List Int)} {px : Nat → Nat → Int}
    (h : Rep p (fun d k => ∑ q ∈ cdefLinePixels d k, px q.1 q.2)) :
    cdefCosts p = .ok ((List.range 8).map (cdefCost px)) := by
  have hdiag : ∀ d, d = 0 ∨ d = 4 → cdefCostDiag p d = .ok (cdefCost px d) := by
    intro d hd
    have hd8 : d < 8 := by omega
    have hl : lineLens.getD d [] = [1, 2, 3, 4, 5, 6, 7, 8, 7, 6, 5, 4, 3, 2, 1] := by rcases hd with rfl | rfl <;> rfl
    rw [cost_unfold px d hd8, hl]
    generalize hP : (fun d k => ∑ q ∈ cdefLinePixels d k, px q.1 q.2) = P at h
    have hP' : ∀ k, ∑ q ∈ cdefLinePixels d k, px q.1 q.2 = P d k := fun k => by rw [← hP]
    simp only [hP']
    have g := fun (k : Nat) (hk : k < 15) (j : Int) (hj : j = k) => h.get hd8 hk (i := d) rfl hj
    rw [cdefCostDiag, forN_sum (t := fun i => (P d i * P d i + P d (14 - i) * P d (14 - i)) * divTable.getD (i + 1) 0) ?_,
      Res.ok_bind, g 7 (by omega) 7 rfl, Res.ok_bind, show goGet divTable 8 = .ok 105 from rfl, Res.ok_bind]
    · refine congrArg Except.ok ?_
      simp only [Finset.sum_range_succ, Finset.sum_range_zero, divTable, List.getD_cons_zero, List.getD_cons_succ,
        List.getD_nil, Nat.add_zero, Nat.reduceSub, Nat.reduceDiv, Nat.reduceAdd, Nat.cast_ofNat]
      ring
    · intro i s hi
      rw [g i (by omega) _ rfl, Res.ok_bind, g (14 - i) (by omega) _ (by omega), Res.ok_bind]
      interval_cases i <;> rfl
  have hhv : ∀ d, d = 2 ∨ d = 6 → cdefCostHV p d = .ok (cdefCost px d) := by
    intro d hd
    have hd8 : d < 8 := by omega
    have hl : lineLens.getD d [] = [8, 8, 8, 8, 8, 8, 8, 8, 0, 0, 0, 0, 0, 0, 0] := by rcases hd with rfl | rfl <;> rfl
    rw [cost_unfold px d hd8, hl]
    generalize hP : (fun d k => ∑ q ∈ cdefLinePixels d k, px q.1 q.2) = P at h
    have hP' : ∀ k, ∑ q ∈ cdefLinePixels d k, px q.1 q.2 = P d k := fun k => by rw [← hP]
    simp only [hP']
    have g := fun (k : Nat) (hk : k < 15) (j : Int) (hj : j = k) => h.get hd8 hk (i := d) rfl hj
    rw [cdefCostHV, forN_sum (t := fun i => P d i * P d i) ?_, Res.ok_bind, show goGet divTable 8 = .ok 105 from rfl, Res.ok_bind]
    · refine congrArg Except.ok ?_
      simp only [Finset.sum_range_succ, Finset.sum_range_zero, List.getD_cons_zero, List.getD_cons_succ,
        List.getD_nil, Nat.add_zero, Nat.reduceSub, Nat.reduceDiv, Nat.reduceAdd, Nat.cast_ofNat, Nat.div_zero, Nat.cast_zero]
      ring
    · intro i s hi
      rw [g i (by omega) _ rfl, Res.ok_bind]
      rfl
  have hodd : ∀ d, d = 1 ∨ d = 3 ∨ d = 5 ∨ d = 7 → cdefCostOdd p d = .ok (cdefCost px d) := by
    intro d hd
    have hd8 : d < 8 := by omega
    have hl : lineLens.getD d [] = [2, 4, 6, 8, 8, 8, 8, 8, 6, 4, 2, 0, 0, 0, 0] := by
      rcases hd with rfl | rfl | rfl | rfl <;> rfl
    rw [cost_unfold px d hd8, hl]
    generalize hP : (fun d k => ∑ q ∈ cdefLinePixels d k, px q.1 q.2) = P at h
    have hP' : ∀ k, ∑ q ∈ cdefLinePixels d k, px q.1 q.2 = P d k := fun k => by rw [← hP]
    simp only [hP']
    have g := fun (k : Nat) (hk : k < 15) (j : Int) (hj : j = k) => h.get hd8 hk (i := d) rfl hj
    rw [cdefCostOdd, forN_sum (t := fun i => P d (3 + i) * P d (3 + i)) ?_, Res.ok_bind, show goGet divTable 8 = .ok 105 from rfl,
      Res.ok_bind, forN_sum (t := fun i => (P d i * P d i + P d (10 - i) * P d (10 - i)) * divTable.getD (2 * i + 2) 0) ?_]
    · refine congrArg Except.ok ?_
      simp only [Finset.sum_range_succ, Finset.sum_range_zero, divTable, List.getD_cons_zero, List.getD_cons_succ,
        List.getD_nil, Nat.add_zero, Nat.reduceSub, Nat.reduceDiv, Nat.reduceAdd, Nat.cast_ofNat, Nat.div_zero, Nat.cast_zero,
        Nat.reduceMul]
      ring
    · intro i s hi
      rw [g i (by omega) _ rfl, Res.ok_bind, g (10 - i) (by omega) _ (by omega), Res.ok_bind]
      interval_cases i <;> rfl
    · intro i s hi
      rw [g (3 + i) (by omega) _ rfl, Res.ok_bind]
      rfl
  rw [cdefCosts, hdiag 0 (by simp), Res.ok_bind, hodd 1 (by simp), Res.ok_bind, hhv 2 (by simp), Res.ok_bind, hodd 3 (by simp),
    Res.ok_bind, hdiag 4 (by simp), Res.ok_bind, hodd 5 (by simp), Res.ok_bind, hhv 6 (by simp), Res.ok_bind, hodd 7 (by simp),
    Res.ok_bind]
  rfl

theorem cost_nonneg (px : Nat → Nat → Int) (d : Nat) : 0 ≤ cdefCost px d :=
  Finset.sum_nonneg fun k _ => mul_nonneg (by positivity) (sq_nonneg _)

/-- The search for the largest entry. -/
theorem cdefBest_ok (f : Nat → Int) (h0 : ∀ d, 0 ≤ f d) :
    ∃ d, cdefBest ((List.range 8).map f) = .ok (f d, d) ∧ d < 8 ∧ (∀ e, e < 8 → f e ≤ f d) ∧ ∀ e, e < d → f e < f d := by
  obtain ⟨s, e, h⟩ := forN_total (f := fun i (s : Int × Nat) => do
      let v ← goGet ((List.range 8).map f) (i : Int)
      pure (if v > s.1 then (v, i) else s))
    (fun i s => s.2 < 8 ∧ (i = 0 → s = (0, 0)) ∧ (0 < i → (s.1 = f s.2)) ∧ (∀ e, e < i → f e ≤ s.1) ∧ (∀ e, e < s.2 → f e < s.1))
    (n := 8) (i0 := 0) (s := ((0 : Int), (0 : Nat)))
    (by
      intro i t _ hi ⟨h1, h2, h3, h4, h5⟩
      have hg : goGet ((List.range 8).map f) (i : Int) = .ok (f i) := by
        rw [goGet_lt' (by simp; omega)]; simp
      refine ⟨if f i > t.1 then (f i, i) else t, by rw [hg, Res.ok_bind]; rfl, ?_⟩
      by_cases hc : f i > t.1
      · rw [if_pos hc]
        refine ⟨by simp; omega, by omega, fun _ => rfl, ?_, ?_⟩
        · intro e he
          rcases Nat.lt_or_ge e i with h | h
          · exact (h4 e h).trans (le_of_lt hc)
          · rw [show e = i by omega]
        · intro e he
          exact lt_of_le_of_lt (h4 e he) hc
      · rw [if_neg hc]
        refine ⟨h1, by omega, fun _ => ?_, ?_, h5⟩
        · rcases Nat.eq_zero_or_pos i with h | h
          · have := h2 h; subst h; rw [this] at hc ⊢
            have := h0 0
            simp only at hc ⊢; omega
          · exact h3 h
        · intro e he
          rcases Nat.lt_or_ge e i with h | h
          · exact h4 e h
          · rw [show e = i by omega]; omega)
    ⟨by decide, fun _ => rfl, by omega, by omega, by simp⟩
  obtain ⟨h1, -, h3, h4, h5⟩ := h
  have h3 := h3 (by omega)
  refine ⟨s.2, ?_, h1, ?_, ?_⟩
  · rw [← h3]; exact e
  · intro e he; rw [← h3]; exact h4 e (by omega)
  · intro e he; rw [← h3]; exact h5 e he

/-- **C105.**  For every picture and every 8x8 block inside it, the search returns, the direction is the one of the
specification, and the variance is the cost of that direction less the cost of the perpendicular one, divided by 1024;
it is never negative. -/
theorem C105_direction (b : Nat) {F : List (List Int)} (r c : Nat) (g : Nat → Nat → Int) (hg : ∀ i j, i < 8 → j < 8 → at2 F (r * 4 + i) (c * 4 + j) = some (g i j)) :
    ∃ d v, cdefDirection b F r c = .ok (d, v) ∧ CdefDirIs (cdefPx b g) d ∧
      v = (cdefCost (cdefPx b g) d - cdefCost (cdefPx b g) ((d + 4) % 8)) / 1024 ∧ 0 ≤ v := by
  obtain ⟨p, e, h⟩ := cdefPartial_ok b g hg
  obtain ⟨d, e', hd, hmax, hfirst⟩ := cdefBest_ok (cdefCost (cdefPx b g)) (cost_nonneg _)
  refine ⟨d, _, ?_, ⟨hd, hmax, hfirst⟩, rfl, ?_⟩
  · rw [cdefDirection, e, Res.ok_bind, cdefCosts_ok h, Res.ok_bind, e', Res.ok_bind]
    have hg : goGet ((List.range 8).map (cdefCost (cdefPx b g))) (((d + 4) % 8 : Nat) : Int)
        = .ok (cdefCost (cdefPx b g) ((d + 4) % 8)) := by
      rw [goGet_lt' (by simp; omega)]; simp
    show (goGet _ (((d + 4) % 8 : Nat) : Int) >>= _) = _
    rw [hg, Res.ok_bind]
    refine congrArg Except.ok (Prod.ext rfl ?_)
    show (_ : Int) >>> (10 : Nat) = _
    rw [Int.shiftRight_eq_div_pow]; rfl
  · have := hmax ((d + 4) % 8) (by omega)
    omega

/-! ## What the search finds -/

/-- The energy of the block. -/
def energy (px : Nat → Nat → Int) : Int := ∑ q ∈ block8, px q.1 q.2 ^ 2

theorem line_lt : ∀ d < 8, ∀ q ∈ block8, cdefLine d q.1 q.2 < 15 := by decide +kernel

theorem energy_lines (px : Nat → Nat → Int) (d : Nat) (hd : d < 8) :
    energy px = ∑ k ∈ Finset.range 15, ∑ q ∈ cdefLinePixels d k, px q.1 q.2 ^ 2 := by
  rw [energy]
  exact (Finset.sum_fiberwise_of_maps_to (fun q hq => Finset.mem_range.mpr (line_lt d hd q hq)) _).symm

theorem len_dvd : ∀ d < 8, ∀ k < 15, (cdefLinePixels d k).card = 0 ∨ 840 / (cdefLinePixels d k).card * (cdefLinePixels d k).card = 840 := by
  decide +kernel

/-- The square of a sum is at most the number of terms times the sum of squares, with equality for equal terms only. -/
theorem sum_sq_defect (s : Finset (Nat × Nat)) (x : Nat × Nat → Int) :
    ∑ i ∈ s, ((s.card : Int) * x i - ∑ j ∈ s, x j) ^ 2 =
      s.card * (s.card * ∑ i ∈ s, x i ^ 2 - (∑ i ∈ s, x i) ^ 2) := by
  have : ∀ i, ((s.card : Int) * x i - ∑ j ∈ s, x j) ^ 2 =
      (s.card : Int) ^ 2 * x i ^ 2 - 2 * s.card * (∑ j ∈ s, x j) * x i + (∑ j ∈ s, x j) ^ 2 := fun i => by ring
  simp only [this]
  rw [Finset.sum_add_distrib, Finset.sum_sub_distrib, ← Finset.mul_sum, ← Finset.mul_sum, Finset.sum_const, nsmul_eq_mul]
  ring

/-- On one line. -/
theorem line_le (px : Nat → Nat → Int) (d k : Nat) (hd : d < 8) (hk : k < 15) :
    ((840 / (cdefLinePixels d k).card : Nat) : Int) * (∑ q ∈ cdefLinePixels d k, px q.1 q.2) ^ 2 ≤
      840 * ∑ q ∈ cdefLinePixels d k, px q.1 q.2 ^ 2 ∧
    (((840 / (cdefLinePixels d k).card : Nat) : Int) * (∑ q ∈ cdefLinePixels d k, px q.1 q.2) ^ 2 =
      840 * ∑ q ∈ cdefLinePixels d k, px q.1 q.2 ^ 2 ↔
        ∀ q ∈ cdefLinePixels d k, ∀ q' ∈ cdefLinePixels d k, px q.1 q.2 = px q'.1 q'.2) := by
  have hdef := sum_sq_defect (cdefLinePixels d k) (fun q => px q.1 q.2)
  have hdvd := len_dvd d hd k hk
  generalize cdefLinePixels d k = s at *
  rcases hdvd with h0 | h1
  · rw [Finset.card_eq_zero] at h0
    subst h0; simp
  · set n := s.card with hn
    set m := 840 / n with hm
    have hnpos : 0 < n := by rcases Nat.eq_zero_or_pos n with h | h; · rw [h] at h1; omega
                             · exact h
    have hmpos : 0 < m := by rcases Nat.eq_zero_or_pos m with h | h; · rw [h] at h1; omega
                             · exact h
    have h840 : (840 : Int) = m * n := by exact_mod_cast h1.symm
    rw [h840]
    have hn' : (0 : Int) < n := by exact_mod_cast hnpos
    have hm' : (0 : Int) < m := by exact_mod_cast hmpos
    have hD : 0 ≤ (n : Int) * ∑ q ∈ s, px q.1 q.2 ^ 2 - (∑ q ∈ s, px q.1 q.2) ^ 2 := by
      by_contra hc
      have : (n : Int) * (n * ∑ q ∈ s, px q.1 q.2 ^ 2 - (∑ q ∈ s, px q.1 q.2) ^ 2) < 0 :=
        mul_neg_of_pos_of_neg hn' (by omega)
      rw [← hdef] at this
      exact absurd (Finset.sum_nonneg fun (i : Nat × Nat) (_ : i ∈ s) => sq_nonneg ((n : Int) * px i.1 i.2 - ∑ j ∈ s, px j.1 j.2)) (by omega)
    refine ⟨by nlinarith, ⟨fun he => ?_, fun he => ?_⟩⟩
    · have hz : (n : Int) * ∑ q ∈ s, px q.1 q.2 ^ 2 - (∑ q ∈ s, px q.1 q.2) ^ 2 = 0 := by
        have : (m : Int) * ((n : Int) * ∑ q ∈ s, px q.1 q.2 ^ 2 - (∑ q ∈ s, px q.1 q.2) ^ 2) = 0 := by
          rw [mul_sub, he]; ring
        rcases mul_eq_zero.mp this with h | h
        · omega
        · exact h
      rw [hz, mul_zero] at hdef
      have hall := (Finset.sum_eq_zero_iff_of_nonneg (fun i _ => sq_nonneg _)).mp hdef
      intro q hq q' hq'
      have e1 := pow_eq_zero_iff (two_ne_zero) |>.mp (hall q hq)
      have e2 := pow_eq_zero_iff (two_ne_zero) |>.mp (hall q' hq')
      have : (n : Int) * px q.1 q.2 = n * px q'.1 q'.2 := by omega
      exact Int.eq_of_mul_eq_mul_left (by omega) this
    · obtain ⟨q0, hq0⟩ : s.Nonempty := Finset.card_pos.mp hnpos
      have e1 : ∑ q ∈ s, px q.1 q.2 = n * px q0.1 q0.2 := by
        rw [Finset.sum_congr rfl (fun q hq => he q hq q0 hq0), Finset.sum_const, nsmul_eq_mul]
      have e2 : ∑ q ∈ s, px q.1 q.2 ^ 2 = n * px q0.1 q0.2 ^ 2 := by
        rw [Finset.sum_congr rfl (fun q hq => by rw [he q hq q0 hq0]), Finset.sum_const, nsmul_eq_mul]
      rw [e1, e2]; ring

/-- The cost of a direction is at most 840 times the energy, and is equal to that for the directions along which the
block is constant. -/
theorem cost_le (px : Nat → Nat → Int) (d : Nat) (hd : d < 8) :
    cdefCost px d ≤ 840 * energy px ∧ (cdefCost px d = 840 * energy px ↔ AlongDir px d) := by
  rw [energy_lines px d hd, Finset.mul_sum, cdefCost]
  have hle := fun k (hk : k ∈ Finset.range 15) => (line_le px d k hd (Finset.mem_range.mp hk)).1
  refine ⟨Finset.sum_le_sum hle, ?_⟩
  rw [Finset.sum_eq_sum_iff_of_le hle]
  constructor
  · intro h i j i' j' hi hj hi' hj' he
    have hmem : ∀ a b, a < 8 → b < 8 → (a, b) ∈ block8 := fun a b ha hb =>
      Finset.mem_product.mpr ⟨Finset.mem_range.mpr ha, Finset.mem_range.mpr hb⟩
    have hk := line_lt d hd (i, j) (hmem i j hi hj)
    exact (line_le px d _ hd hk).2.mp (h _ (Finset.mem_range.mpr hk)) (i, j) (Finset.mem_filter.mpr ⟨hmem i j hi hj, rfl⟩)
      (i', j') (Finset.mem_filter.mpr ⟨hmem i' j' hi' hj', he.symm⟩)
  · intro h k hk
    refine (line_le px d k hd (Finset.mem_range.mp hk)).2.mpr fun q hq q' hq' => ?_
    simp only [cdefLinePixels, Finset.mem_filter, Finset.mem_product, Finset.mem_range] at hq hq'
    exact h _ _ _ _ hq.1.1 hq.1.2 hq'.1.1 hq'.1.2 (hq.2.trans hq'.2.symm)

/-- **C105, directional blocks.**  If the block is constant along some direction, the search returns a direction along
which it is constant. -/
theorem C105_directional (px : Nat → Nat → Int) (d e : Nat) (hd : CdefDirIs px d) (he : e < 8) (ha : AlongDir px e) :
    AlongDir px d := by
  obtain ⟨h8, hmax, -⟩ := hd
  refine (cost_le px d h8).2.mp (le_antisymm (cost_le px d h8).1 ?_)
  rw [← (cost_le px e he).2.mpr ha]
  exact hmax e he

/-- **C105, flat blocks.**  For a flat block the direction is 0 and the variance 0, whatever the level. -/
theorem C105_flat (b : Nat) {F : List (List Int)} (r c : Nat) (v : Int) (hg : ∀ i j, i < 8 → j < 8 → at2 F (r * 4 + i) (c * 4 + j) = some v) :
    cdefDirection b F r c = .ok (0, 0) := by
  obtain ⟨d, w, h, ⟨h8, -, hfirst⟩, hw, -⟩ := C105_direction b r c (fun _ _ => v) hg
  have hall : ∀ e, e < 8 → cdefCost (cdefPx b fun _ _ => v) e = 840 * energy (cdefPx b fun _ _ => v) := fun e he =>
    (cost_le _ e he).2.mpr (fun _ _ _ _ _ _ _ _ _ => rfl)
  have h0 : d = 0 := by
    rcases Nat.eq_zero_or_pos d with h | h
    · exact h
    · have := hfirst 0 h
      rw [hall 0 (by omega), hall d h8] at this
      omega
  subst h0
  rw [hall 0 (by omega), hall _ (by omega), sub_self] at hw
  rw [h, hw]; rfl

/-- A block of diagonal stripes of slope 1: the search finds direction 4, along which it is constant, and a positive
variance. -/
example : cdefDirection 8 ((List.range 8).map fun i => (List.range 8).map fun j => if (i + 8 - j) % 4 < 2 then 100 else 160) 0 0
    = .ok (4, 44775) := by decide +kernel

/-- **C105, tables.**  The offsets of the filter follow the lines of the search: the far pixel on a side lies on the same
line as the pixel itself. -/
theorem C105_offsets (d i j i' j' : Nat) (hd : d < 8) (hi : i < 8) (hj : j < 8) (hi' : i' < 8) (hj' : j' < 8)
    (e : (i' : Int) = i + (cdefOffset d 1).1) (e' : (j' : Int) = j + (cdefOffset d 1).2) :
    cdefLine d i j = cdefLine d i' j' := by
  interval_cases d <;> simp only [cdefOffset, cdefLine] at * <;> omega

end Gov1
