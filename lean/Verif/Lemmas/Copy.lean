import Verif.Model.Wrapup
import Verif.Lemmas.Grid
/-! # Copies of rectangles between arrays -/
namespace Gov1

/-- `D` is `dst` with the top left rectangle replaced by that of `src`. -/
def Copied {α : Type} (src dst : List (List α)) (h w : Nat) (D : List (List α)) : Prop :=
  ∀ y x, at2 D y x = if y < h ∧ x < w then at2 src y x else at2 dst y x

/-- Both arrays have all cells of the rectangle. -/
def Room {α : Type} (src dst : List (List α)) (h w : Nat) : Prop :=
  ∀ y x, y < h → x < w → (at2 src y x).isSome ∧ (at2 dst y x).isSome

theorem copyCell_inv {α : Type} {src D D' : List (List α)} {y x : Nat}
    (h : (do let v ← gget src (y : Int) (x : Int); gset D (y : Int) (x : Int) v) = .ok D') :
    (at2 src y x).isSome ∧ (at2 D y x).isSome ∧ at2 D' y x = at2 src y x ∧
    (∀ a b, (a, b) ≠ (y, x) → at2 D' a b = at2 D a b) ∧ (∀ H W, Shape H W D → Shape H W D') := by
  obtain ⟨v, h1, h2⟩ := Res.inv h
  obtain ⟨-, -, h1⟩ := gget_inv h1
  obtain ⟨-, -, g1, g2, g3, g4⟩ := gset_inv h2
  simp only [Int.toNat_natCast] at h1 g1 g2 g3
  exact ⟨by rw [h1]; rfl, g1, by rw [g2, h1], g3, g4⟩

theorem copyCell_ok {α : Type} {src D : List (List α)} {y x : Nat} (h1 : (at2 src y x).isSome) (h2 : (at2 D y x).isSome) :
    ∃ D', (do let v ← gget src (y : Int) (x : Int); gset D (y : Int) (x : Int) v) = .ok D' := by
  obtain ⟨v, hv⟩ := Option.isSome_iff_exists.mp h1
  rw [gget_at2 hv, Res.ok_bind]
  exact gset_lt v h2

/-- Cells done form a set `S`; the general invariant of the copy loops. -/
def CopyInv {α : Type} (src dst : List (List α)) (S : Nat → Nat → Prop) (D : List (List α)) : Prop :=
  (∀ y x, S y x → at2 D y x = at2 src y x ∧ (at2 src y x).isSome ∧ (at2 dst y x).isSome) ∧ (∀ y x, ¬ S y x → at2 D y x = at2 dst y x) ∧
  (∀ H W, Shape H W dst → Shape H W D)

theorem CopyInv.step {α : Type} {src dst D D' : List (List α)} {S S' : Nat → Nat → Prop} {y x : Nat} (h : CopyInv src dst S D)
    (hc : (do let v ← gget src (y : Int) (x : Int); gset D (y : Int) (x : Int) v) = .ok D') (hn : ¬ S y x)
    (hS : ∀ a b, S' a b ↔ S a b ∨ (a = y ∧ b = x)) : CopyInv src dst S' D' := by
  obtain ⟨c1, c2, c3, c4, c5⟩ := copyCell_inv hc
  obtain ⟨h1, h2, h3⟩ := h
  refine ⟨?_, ?_, fun H W hs => c5 H W (h3 H W hs)⟩
  · intro a b hab
    by_cases he : (a, b) = (y, x)
    · cases he
      exact ⟨c3, c1, by rw [← h2 _ _ hn]; exact c2⟩
    · rcases (hS a b).mp hab with h | ⟨rfl, rfl⟩
      · rw [c4 a b he]; exact h1 a b h
      · exact absurd rfl he
  · intro a b hab
    have hne : (a, b) ≠ (y, x) := by
      intro he; cases he; exact hab ((hS _ _).mpr (Or.inr ⟨rfl, rfl⟩))
    rw [c4 a b hne]
    exact h2 a b (fun h => hab ((hS a b).mpr (Or.inl h)))

theorem CopyInv.congr {α : Type} {src dst D : List (List α)} {S S' : Nat → Nat → Prop} (h : CopyInv src dst S D)
    (hS : ∀ a b, S' a b ↔ S a b) : CopyInv src dst S' D := by
  obtain ⟨h1, h2, h3⟩ := h
  exact ⟨fun a b hab => h1 a b ((hS a b).mp hab), fun a b hab => h2 a b (fun h => hab ((hS a b).mpr h)), h3⟩

theorem CopyInv.start {α : Type} (src dst : List (List α)) {S : Nat → Nat → Prop} (hS : ∀ a b, ¬ S a b) : CopyInv src dst S dst :=
  ⟨fun a b h => absurd h (hS a b), fun _ _ _ => rfl, fun _ _ h => h⟩

theorem CopyInv.copied {α : Type} {src dst D : List (List α)} {h w : Nat} (hc : CopyInv src dst (fun a b => a < h ∧ b < w) D) :
    Copied src dst h w D ∧ Room src dst h w ∧ (∀ H W, Shape H W dst → Shape H W D) := by
  obtain ⟨h1, h2, h3⟩ := hc
  refine ⟨fun y x => ?_, fun y x hy hx => (h1 y x ⟨hy, hx⟩).2, h3⟩
  by_cases hh : y < h ∧ x < w
  · rw [if_pos hh, (h1 y x hh).1]
  · rw [if_neg hh, h2 y x hh]

theorem copyCols_inv {α : Type} {src dst D : List (List α)} {h w : Nat} (hc : copyCols src h w dst = .ok D) :
    Copied src dst h w D ∧ Room src dst h w ∧ (∀ H W, Shape H W dst → Shape H W D) := by
  have := forN_inv (fun x D => CopyInv src dst (fun a b => a < h ∧ b < x) D) (by
    intro x t t' _ _ hP ht
    have := forN_inv (fun y D => CopyInv src dst (fun a b => (a < h ∧ b < x) ∨ (a < y ∧ b = x)) D) (by
      intro y u u' _ hy hQ hu
      refine hQ.step hu (by omega) ?_
      intro a b; omega) ht (hP.congr (by intro a b; omega))
    refine this.congr ?_
    intro a b; omega) hc (CopyInv.start src dst (by intro a b; omega))
  refine CopyInv.copied (this.congr ?_)
  intro a b; omega

theorem copyRows_inv {α : Type} {src dst D : List (List α)} {h w : Nat} (hc : copyRows src h w dst = .ok D) :
    Copied src dst h w D ∧ Room src dst h w ∧ (∀ H W, Shape H W dst → Shape H W D) := by
  have := forN_inv (fun y D => CopyInv src dst (fun a b => a < y ∧ b < w) D) (by
    intro y t t' _ _ hP ht
    have := forN_inv (fun x D => CopyInv src dst (fun a b => (a < y ∧ b < w) ∨ (a = y ∧ b < x)) D) (by
      intro x u u' _ hy hQ hu
      refine hQ.step hu (by omega) ?_
      intro a b; omega) ht (hP.congr (by intro a b; omega))
    refine this.congr ?_
    intro a b; omega) hc (CopyInv.start src dst (by intro a b; omega))
  refine CopyInv.copied (this.congr ?_)
  intro a b; omega

theorem keep_some {α : Type} {src D D' dst : List (List α)} {y x : Nat}
    (h : (do let v ← gget src (y : Int) (x : Int); gset D (y : Int) (x : Int) v) = .ok D')
    (hP : ∀ a b, (at2 dst a b).isSome → (at2 D a b).isSome) : ∀ a b, (at2 dst a b).isSome → (at2 D' a b).isSome := by
  obtain ⟨c1, -, c3, c4, -⟩ := copyCell_inv h
  intro a b hab
  by_cases he : (a, b) = (y, x)
  · cases he; rw [c3]; exact c1
  · rw [c4 a b he]; exact hP a b hab

theorem copyCols_total {α : Type} {src dst : List (List α)} {h w : Nat} (hr : Room src dst h w) : ∃ D, copyCols src h w dst = .ok D := by
  have hstep : ∀ x t, 0 ≤ x → x < 0 + w → (∀ a b, (at2 dst a b).isSome → (at2 t a b).isSome) →
      ∃ t', forN (fun y D => do let v ← gget src (y : Int) (x : Int); gset D (y : Int) (x : Int) v) h 0 t = .ok t' ∧
        ∀ a b, (at2 dst a b).isSome → (at2 t' a b).isSome := by
    intro x t _ hx hP
    refine forN_total (fun _ t => ∀ a b, (at2 dst a b).isSome → (at2 t a b).isSome) ?_ hP
    intro y u _ hy hQ
    have hrr := hr y x (by omega) (by omega)
    obtain ⟨u', hu⟩ := copyCell_ok hrr.1 (hQ _ _ hrr.2)
    exact ⟨u', hu, keep_some hu hQ⟩
  obtain ⟨D, hD, -⟩ := forN_total (fun _ t => ∀ a b, (at2 dst a b).isSome → (at2 t a b).isSome) hstep (fun _ _ h => h)
  exact ⟨D, hD⟩

theorem copyRows_total {α : Type} {src dst : List (List α)} {h w : Nat} (hr : Room src dst h w) : ∃ D, copyRows src h w dst = .ok D := by
  have hstep : ∀ y t, 0 ≤ y → y < 0 + h → (∀ a b, (at2 dst a b).isSome → (at2 t a b).isSome) →
      ∃ t', forN (fun x D => do let v ← gget src (y : Int) (x : Int); gset D (y : Int) (x : Int) v) w 0 t = .ok t' ∧
        ∀ a b, (at2 dst a b).isSome → (at2 t' a b).isSome := by
    intro y t _ hy hP
    refine forN_total (fun _ t => ∀ a b, (at2 dst a b).isSome → (at2 t a b).isSome) ?_ hP
    intro x u _ hx hQ
    have hrr := hr y x (by omega) (by omega)
    obtain ⟨u', hu⟩ := copyCell_ok hrr.1 (hQ _ _ hrr.2)
    exact ⟨u', hu, keep_some hu hQ⟩
  obtain ⟨D, hD, -⟩ := forN_total (fun _ t => ∀ a b, (at2 dst a b).isSome → (at2 t a b).isSome) hstep (fun _ _ h => h)
  exact ⟨D, hD⟩

theorem Room.of_shape {α : Type} {src dst : List (List α)} {h w H W H' W' : Nat} (hs : Shape H W src) (hd : Shape H' W' dst)
    (h1 : h ≤ H) (h2 : w ≤ W) (h3 : h ≤ H') (h4 : w ≤ W') : Room src dst h w := by
  intro y x hy hx
  obtain ⟨a, ha⟩ := hs.at2 (i := y) (j := x) (by omega) (by omega)
  obtain ⟨b, hb⟩ := hd.at2 (i := y) (j := x) (by omega) (by omega)
  rw [ha, hb]; exact ⟨rfl, rfl⟩

end Gov1
