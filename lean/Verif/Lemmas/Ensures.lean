import Verif.Lemmas.Reads
/-! # Postconditions of readers -/
namespace Gov1

/-- Whenever the reader returns, the value satisfies `P`. -/
def Ensures {α : Type} (m : BM α) (P : α → Prop) : Prop :=
  ∀ (s : BitStream) (a : α) (s' : BitStream), m s = .ok (a, s') → P a

namespace Ensures

theorem pure {α : Type} {P : α → Prop} {a : α} (h : P a) : Ensures (Pure.pure a : BM α) P := by
  intro s a' s' hs; cases hs; exact h

theorem bind {α β : Type} {m : BM α} {k : α → BM β} {P : α → Prop} {Q : β → Prop}
    (hm : Ensures m P) (hk : ∀ a, P a → Ensures (k a) Q) : Ensures (m >>= k) Q := by
  intro s c s' h
  obtain ⟨a, s1, h1, h2⟩ := BM.bind_eq_ok.mp h
  exact hk a (hm s a s1 h1) s1 c s' h2

theorem bindT {α β : Type} {m : BM α} {k : α → BM β} {Q : β → Prop}
    (hk : ∀ a, Ensures (k a) Q) : Ensures (m >>= k) Q :=
  bind (P := fun _ => True) (fun _ _ _ _ => trivial) fun a _ => hk a

theorem mono {α : Type} {m : BM α} {P Q : α → Prop} (hm : Ensures m P) (h : ∀ a, P a → Q a) :
    Ensures m Q := fun s a s' hs => h a (hm s a s' hs)

theorem and {α : Type} {m : BM α} {P Q : α → Prop} (hm : Ensures m P) (hn : Ensures m Q) :
    Ensures m (fun a => P a ∧ Q a) := fun s a s' hs => ⟨hm s a s' hs, hn s a s' hs⟩

theorem F (n : Nat) : Ensures (Gov1.F n) (fun v => v < 2 ^ n) := fun _ _ _ h => (F_ok h).1

theorem fail {α : Type} {P : α → Prop} (e : Fault) : Ensures (BM.fail e : BM α) P := by
  intro s a s' h; cases h

theorem lift {α : Type} {r : Res α} {P : α → Prop} (h : ∀ a, r = .ok a → P a) :
    Ensures (BM.lift r) P := by
  cases r with
  | ok a => exact pure (h a rfl)
  | error e => exact fail e

theorem ite {α : Type} {P : α → Prop} {c : Prop} [Decidable c] {m n : BM α}
    (hm : c → Ensures m P) (hn : ¬ c → Ensures n P) : Ensures (if c then m else n) P := by
  split
  · exact hm ‹_›
  · exact hn ‹_›

theorem true {α : Type} (m : BM α) : Ensures m (fun _ => True) := fun _ _ _ _ => trivial

end Ensures

/-- The reader never returns: it panics (or hangs) on every stream. -/
def NeverReturns {α : Type} (m : BM α) : Prop := ∀ s a s', m s ≠ .ok (a, s')

end Gov1
