import Verif.Lemmas.Total
import Verif.Lemmas.Reads
/-! # Loops with fuel: the amount of fuel does not matter once it suffices -/
namespace Gov1

/-- More fuel gives the same answer, unless the answer was that fuel ran out. -/
def FuelStable {α : Type} (m : Nat → BM α) : Prop :=
  ∀ f f' s, f ≤ f' → m f s ≠ .error .hang → m f' s = m f s

/-- A loop run with enough fuel is streaming if it is with each amount of fuel. -/
theorem Streaming.fuel {α : Type} {m : Nat → BM α} {g : BitStream → Nat}
    (h1 : ∀ f, Streaming (m f)) (h2 : FuelStable m) (h3 : ∀ s, m (g s) s ≠ .error .hang) :
    Streaming (fun s => m (g s) s) := by
  intro s a s' h
  obtain ⟨d, p, e, k⟩ := h1 (g s) s a s' h
  refine ⟨d, p, e, fun t hp hl hu => ?_⟩
  have ht := k t hp hl hu
  rcases Nat.le_total (g s) (g t) with hle | hle
  · have := h2 (g s) (g t) t hle (by rw [ht]; intro hh; cases hh)
    show m (g t) t = _
    rw [this, ht]
  · have := h2 (g t) (g s) t hle (h3 t)
    show m (g t) t = _
    rw [← this, ht]

/-- Reading a flag uses up one bit. -/
theorem flag_uses {s s' : BitStream} {b : Bool} (h : flag s = .ok (b, s')) :
    (unread s').length + 1 = (unread s).length := by
  unfold flag at h
  obtain ⟨v, s1, e1, e2⟩ := BM.bind_eq_ok.mp h
  cases e2
  rw [F_eq] at e1
  split at e1
  · cases e1; rw [unread_advance, List.length_drop]; omega
  · cases e1

end Gov1
