import Verif.Model.Scan
import Verif.Spec.Scan
import Verif.Lemmas.Grid
import Mathlib.Data.List.Perm.Subperm
/-! # C50: scan orders -/
namespace Gov1
open Spec

/-- Neighbours increase. -/
def chkAsc (key : Nat → Nat) : List Nat → Bool
  | [] => true
  | [_] => true
  | a :: b :: l => decide (key a < key b) && chkAsc key (b :: l)

theorem chkAsc_pairwise {key : Nat → Nat} {l : List Nat} (h : chkAsc key l = true) : Ordered key l := by
  induction l with
  | nil => exact List.Pairwise.nil
  | cons a l ih =>
    cases l with
    | nil => exact List.pairwise_singleton _ _
    | cons b l =>
      simp only [chkAsc, Bool.and_eq_true, decide_eq_true_eq] at h
      have hp := ih h.2
      refine List.Pairwise.cons ?_ hp
      intro c hc
      rw [List.mem_cons] at hc
      rcases hc with rfl | hc
      · exact h.1
      · have := List.rel_of_pairwise_cons hp hc
        omega

theorem isScan_of {w h : Nat} {key : Nat → Nat} {l : List Nat} (ho : Ordered key l) (hlen : l.length = w * h)
    (hlt : l.all (fun p => decide (p < w * h)) = true) : IsScan w h l := by
  have hnd : l.Nodup := ho.imp (fun h e => by subst e; omega)
  have hsub : l ⊆ List.range (w * h) := by
    intro p hp
    have := List.all_eq_true.mp hlt p hp
    simpa using this
  exact (List.subperm_of_subset hnd hsub).perm_of_length_le (by simp [hlen])

/-- The check of one table. -/
def chkScan (w h : Nat) (key : Nat → Nat) (l : List Nat) : Bool :=
  chkAsc key l && decide (l.length = w * h) && l.all (fun p => decide (p < w * h))

theorem chkScan_sound {w h : Nat} {key : Nat → Nat} {l : List Nat} (hc : chkScan w h key l = true) :
    IsScan w h l ∧ Ordered key l := by
  simp only [chkScan, Bool.and_eq_true, decide_eq_true_eq] at hc
  have ho := chkAsc_pairwise hc.1.1
  exact ⟨isScan_of ho hc.1.2 hc.2, ho⟩

/-- The key AV1 prescribes for a transform type on a `w` by `h` coded area: rows for the vertical types,
columns for the horizontal types, antidiagonals otherwise. -/
def scanKey (w h ty : Nat) : Nat → Nat :=
  if vertical ty then rowKey w else if horizontal ty then colKey w h else defaultKey w h

theorem default_ok : ∀ txSz < 19, txSz ≠ 17 → txSz ≠ 18 →
    chkScan (codedArea.getD txSz (0, 0)).1 (codedArea.getD txSz (0, 0)).2
      (defaultKey (codedArea.getD txSz (0, 0)).1 (codedArea.getD txSz (0, 0)).2) (getDefaultScan txSz) = true := by
  decide +kernel

theorem tall_ok : chkScan 16 32 (defaultKey 16 32) defaultScan16x32 = true := by decide +kernel
theorem wide_ok : chkScan 32 16 (diagKey 16 32 (fun _ => false)) defaultScan16x32 = true := by decide +kernel
theorem wide_bad : chkAsc (defaultKey 32 16) defaultScan16x32 = false := by decide +kernel

theorem square_ok : chkScan 32 32 (defaultKey 32 32) defaultScan32x32 = true := by decide +kernel

theorem mrow_ok : ∀ txSz < 19, (codedArea.getD txSz (0, 0)).1 ≤ 16 → (codedArea.getD txSz (0, 0)).2 ≤ 16 →
    chkScan (codedArea.getD txSz (0, 0)).1 (codedArea.getD txSz (0, 0)).2
      (rowKey (codedArea.getD txSz (0, 0)).1) (getMrowScan txSz) = true := by
  decide +kernel

theorem mcol_ok : ∀ txSz < 19, (codedArea.getD txSz (0, 0)).1 ≤ 16 → (codedArea.getD txSz (0, 0)).2 ≤ 16 →
    chkScan (codedArea.getD txSz (0, 0)).1 (codedArea.getD txSz (0, 0)).2
      (colKey (codedArea.getD txSz (0, 0)).1 (codedArea.getD txSz (0, 0)).2) (getMcolScan txSz) = true := by
  decide +kernel

theorem getScan_eq (txSz : Nat) (ty : Nat) (h : txSz < 19) (h17 : txSz ≠ 17) (h18 : txSz ≠ 18) :
    getScan txSz ty = .ok (if txSz = 4 ∨ txSz = 11 ∨ txSz = 12 then defaultScan32x32
      else if vertical ty then getMrowScan txSz else if horizontal ty then getMcolScan txSz
      else getDefaultScan txSz) := by
  rw [getScan, if_neg h17, if_neg h18]
  have hup : ∀ t < 19, t ≠ 17 → t ≠ 18 → ∃ v, goGet txSizeSqrUp (t : Nat) = .ok v ∧ (v = 4 ↔ (t = 4 ∨ t = 11 ∨ t = 12)) := by
    intro t ht a b
    refine ⟨txSizeSqrUp.getD t 0, ?_⟩
    revert t
    decide +kernel
  obtain ⟨v, hv, hiff⟩ := hup txSz h h17 h18
  simp only [hv, Res.ok_bind]
  by_cases h4 : v = 4
  · rw [if_pos h4, if_pos (hiff.mp h4)]
  · rw [if_neg h4, if_neg (fun hh => h4 (hiff.mpr hh))]
    have e9 : ((ty : Int) = 9) ↔ ty = 9 := by omega
    have e10 : ((ty : Int) = 10) ↔ ty = 10 := by omega
    have e11 : ((ty : Int) = 11) ↔ ty = 11 := by omega
    have e12 : ((ty : Int) = 12) ↔ ty = 12 := by omega
    have e13 : ((ty : Int) = 13) ↔ ty = 13 := by omega
    have e14 : ((ty : Int) = 14) ↔ ty = 14 := by omega
    have e15 : ((ty : Int) = 15) ↔ ty = 15 := by omega
    simp only [e9, e10, e11, e12, e13, e14, e15, vertical, horizontal, Bool.or_eq_true, beq_iff_eq, or_assoc]
    by_cases g9 : ty = 9
    · subst g9; simp
    · rw [if_neg g9]
      split
      · rfl
      · split <;> rfl

/-- **C50, every coefficient once.**  For every transform size and every transform type in use at that size,
the scan visits each position of the coded area exactly once. -/
theorem C50_positions (txSz ty : Nat) (hs : txSz < 19)
    (h1d : (vertical ty ∨ horizontal ty) → (codedArea.getD txSz (0, 0)).1 ≤ 16 ∧ (codedArea.getD txSz (0, 0)).2 ≤ 16) :
    ∃ scan, getScan txSz ty = .ok scan ∧
      IsScan (codedArea.getD txSz (0, 0)).1 (codedArea.getD txSz (0, 0)).2 scan := by
  by_cases h17 : txSz = 17
  · subst h17; exact ⟨_, rfl, (chkScan_sound tall_ok).1⟩
  by_cases h18 : txSz = 18
  · subst h18; exact ⟨_, rfl, (chkScan_sound wide_ok).1⟩
  refine ⟨_, getScan_eq txSz ty hs h17 h18, ?_⟩
  split
  · rename_i h
    rcases h with rfl | rfl | rfl <;> exact (chkScan_sound square_ok).1
  · split
    · rename_i hv
      exact (chkScan_sound (mrow_ok txSz hs (h1d (.inl hv)).1 (h1d (.inl hv)).2)).1
    · split
      · rename_i hh
        exact (chkScan_sound (mcol_ok txSz hs (h1d (.inr hh)).1 (h1d (.inr hh)).2)).1
      · exact (chkScan_sound (default_ok txSz hs h17 h18)).1

/-- **C50, the order, all sizes but 64x16** (missing: 64x16, see `C50_order_refuted`).  The scan is row by
row for vertical types, column by column for horizontal types, and the antidiagonal zigzag otherwise. -/
theorem C50_order_partial (txSz ty : Nat) (hs : txSz < 18)
    (h1d : (vertical ty ∨ horizontal ty) → (codedArea.getD txSz (0, 0)).1 ≤ 16 ∧ (codedArea.getD txSz (0, 0)).2 ≤ 16) :
    ∃ scan, getScan txSz ty = .ok scan ∧
      Ordered (scanKey (codedArea.getD txSz (0, 0)).1 (codedArea.getD txSz (0, 0)).2 ty) scan := by
  by_cases h17 : txSz = 17
  · subst h17
    refine ⟨_, rfl, ?_⟩
    rw [scanKey, if_neg (fun h => by have := (h1d (.inl h)).2; simp [codedArea] at this),
      if_neg (fun h => by have := (h1d (.inr h)).2; simp [codedArea] at this)]
    exact (chkScan_sound tall_ok).2
  have h18 : txSz ≠ 18 := by omega
  refine ⟨_, getScan_eq txSz ty (by omega) h17 h18, ?_⟩
  split
  · rename_i h
    rw [scanKey]
    rw [if_neg (fun h' => by have := (h1d (.inl h')).2; rcases h with rfl | rfl | rfl <;> simp [codedArea] at this),
      if_neg (fun h' => by have := (h1d (.inr h')).2; rcases h with rfl | rfl | rfl <;> simp [codedArea] at this)]
    rcases h with rfl | rfl | rfl <;> exact (chkScan_sound square_ok).2
  · rw [scanKey]
    split
    · rename_i hv
      exact (chkScan_sound (mrow_ok txSz (by omega) (h1d (.inl hv)).1 (h1d (.inl hv)).2)).2
    · split
      · rename_i hh
        exact (chkScan_sound (mcol_ok txSz (by omega) (h1d (.inr hh)).1 (h1d (.inr hh)).2)).2
      · exact (chkScan_sound (default_ok txSz (by omega) h17 h18)).2

/-- **C50, the order is wrong for 64x16**: whatever the type, the scan returned for a 64x16 block is not in
the antidiagonal order of its 32 by 16 coded area (it is the scan of 16x32). -/
theorem C50_order_refuted (ty : Int) :
    ∃ scan, getScan 18 ty = .ok scan ∧ ¬ Ordered (defaultKey 32 16) scan ∧ Ordered (defaultKey 16 32) scan := by
  refine ⟨_, rfl, ?_, (chkScan_sound tall_ok).2⟩
  intro h
  have : chkAsc (defaultKey 32 16) defaultScan16x32 = true := by
    have key : ∀ l, Ordered (defaultKey 32 16) l → chkAsc (defaultKey 32 16) l = true := by
      intro l
      induction l with
      | nil => intro _; rfl
      | cons a l ih =>
        intro h
        cases l with
        | nil => rfl
        | cons b l =>
          have h1 := List.rel_of_pairwise_cons h (List.mem_cons_self)
          simp only [chkAsc, Bool.and_eq_true, decide_eq_true_eq]
          exact ⟨h1, ih (List.Pairwise.of_cons h)⟩
    exact key _ h
  rw [wide_bad] at this
  cases this

/-- Non-vacuity: a horizontal type on 8x16 meets the hypotheses; its scan goes down the columns. -/
example : (horizontal 11 = true) ∧ (codedArea.getD 7 (0, 0)) = (8, 16) ∧
    (getScan 7 11).toOption.map (·.take 4) = some [0, 8, 16, 24] := by decide +kernel

end Gov1
