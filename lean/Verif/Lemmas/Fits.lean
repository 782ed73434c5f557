import Verif.Lemmas.Total
import Verif.Props.BitStream
import Mathlib.Tactic.SplitIfs
/-! # Readers that succeed whenever enough bits are left -/
namespace Gov1

/-- With at least `n` bits left the reader returns a value satisfying `P`, consuming at most `n`. -/
def Fits {α : Type} (m : BM α) (n : Nat) (P : α → Prop) : Prop :=
  ∀ s : BitStream, n ≤ (unread s).length → ∃ a k, k ≤ n ∧ m s = .ok (a, s.advance k) ∧ P a

namespace Fits

theorem pure {α : Type} {P : α → Prop} {a : α} (h : P a) (n : Nat) : Fits (Pure.pure a : BM α) n P :=
  fun _ _ => ⟨a, 0, Nat.zero_le _, rfl, h⟩

theorem bind {α β : Type} {m : BM α} {k : α → BM β} {n1 n2 : Nat} {P : α → Prop} {Q : β → Prop}
    (hm : Fits m n1 P) (hk : ∀ a, P a → Fits (k a) n2 Q) : Fits (m >>= k) (n1 + n2) Q := by
  intro s hs
  obtain ⟨a, k1, hk1, h1, hP⟩ := hm s (by omega)
  obtain ⟨b, k2, hk2, h2, hQ⟩ := hk a hP (s.advance k1) (by
    rw [unread_advance, List.length_drop]; omega)
  exact ⟨b, k1 + k2, by omega, by rw [BM.bind_ok h1, h2, advance_advance], hQ⟩

theorem mono {α : Type} {m : BM α} {n n' : Nat} {P Q : α → Prop} (hm : Fits m n P) (hn : n ≤ n')
    (h : ∀ a, P a → Q a) : Fits m n' Q := by
  intro s hs
  obtain ⟨a, k, h1, h2, h3⟩ := hm s (by omega)
  exact ⟨a, k, by omega, h2, h a h3⟩

theorem F (n : Nat) : Fits (Gov1.F n) n (fun v => v < 2 ^ n) := by
  intro s hs
  have h1 : Gov1.F n s = .ok (bitsVal ((unread s).take n), s.advance n) := by rw [F_eq, if_pos hs]
  exact ⟨_, n, Nat.le_refl _, h1, (F_ok h1).1⟩

theorem flag : Fits Gov1.flag 1 (fun _ => True) := by
  have := bind (k := fun v => (Pure.pure (v != 0) : BM Bool)) (F 1) (n2 := 0) (Q := fun _ => True)
    (fun v _ => pure trivial 0)
  exact this

theorem lift {α : Type} {P : α → Prop} {r : Res α} {a : α} (hr : r = .ok a) (h : P a) (n : Nat) :
    Fits (BM.lift r) n P := by
  subst hr; exact pure h n

theorem ite {α : Type} {P : α → Prop} {c : Prop} [Decidable c] {m n : BM α} {k : Nat}
    (hm : c → Fits m k P) (hn : ¬ c → Fits n k P) : Fits (if c then m else n) k P := by
  split
  · exact hm ‹_›
  · exact hn ‹_›

/-- What a reader that succeeds returns is what it returns. -/
theorem apply {α : Type} {m : BM α} {n : Nat} {P : α → Prop} (hm : Fits m n P) {s s' : BitStream}
    {a : α} (hs : n ≤ (unread s).length) (h : m s = .ok (a, s')) : P a := by
  obtain ⟨b, k, _, h1, h2⟩ := hm s hs
  rw [h1] at h; cases h; exact h2

theorem and_ensures {α : Type} {m : BM α} {n : Nat} {P Q : α → Prop} (hm : Fits m n P)
    (hq : Ensures m Q) : Fits m n (fun a => P a ∧ Q a) := by
  intro s hs
  obtain ⟨a, k, h1, h2, h3⟩ := hm s hs
  exact ⟨a, k, h1, h2, h3, hq _ _ _ h2⟩

theorem su (n : Nat) : Fits (Gov1.su n) n (fun _ => True) := by
  unfold Gov1.su
  have := bind (n2 := 0) (F n) (k := fun value => if (value &&& suSignMask n) != 0 then
    (Pure.pure ((value : Int) - 2 * suSignMask n) : BM Int) else Pure.pure (value : Int))
    (Q := fun _ => True) (fun v _ => by split <;> exact pure trivial 0)
  exact this

theorem ns (n : Nat) (hn : 0 < n) : Fits (Gov1.ns n) (Nat.log2 n + 1) (fun _ => True) := by
  intro s hs
  rw [ns_eq n hn]
  have hF : ∀ (k : Nat) (t : BitStream), k ≤ (unread t).length → ∃ v, Gov1.F k t = .ok (v, t.advance k) :=
    fun k t ht => ⟨_, by rw [F_eq, if_pos ht]⟩
  obtain ⟨v, hv⟩ := hF (Nat.log2 n) s (by omega)
  rw [BM.bind_ok hv]
  split
  · exact ⟨_, Nat.log2 n, by omega, rfl, trivial⟩
  · obtain ⟨x, hx⟩ := hF 1 (s.advance (Nat.log2 n)) (by rw [unread_advance, List.length_drop]; omega)
    rw [BM.bind_ok hx]
    exact ⟨_, Nat.log2 n + 1, by omega, by rw [← advance_advance]; rfl, trivial⟩

end Fits

/-- Both: the reader returns when `n` bits are left, and whenever it returns the value satisfies `P`. -/
def Good {α : Type} (m : BM α) (n : Nat) (P : α → Prop) : Prop := Fits m n P ∧ Ensures m P

namespace Good

theorem pure {α : Type} {P : α → Prop} {a : α} (h : P a) (n : Nat) : Good (Pure.pure a : BM α) n P :=
  ⟨Fits.pure h n, Ensures.pure h⟩

theorem bind {α β : Type} {m : BM α} {k : α → BM β} {n1 n2 : Nat} {P : α → Prop} {Q : β → Prop}
    (hm : Good m n1 P) (hk : ∀ a, P a → Good (k a) n2 Q) : Good (m >>= k) (n1 + n2) Q :=
  ⟨Fits.bind hm.1 fun a h => (hk a h).1, Ensures.bind hm.2 fun a h => (hk a h).2⟩

/-- `bind` when the total is given. -/
theorem bind' {α β : Type} {m : BM α} {k : α → BM β} {n : Nat} (n1 n2 : Nat) {P : α → Prop}
    {Q : β → Prop} (hm : Good m n1 P) (hk : ∀ a, P a → Good (k a) n2 Q) (hn : n1 + n2 ≤ n) :
    Good (m >>= k) n Q :=
  ⟨(Fits.bind hm.1 fun a h => (hk a h).1).mono hn fun _ h => h,
    Ensures.bind hm.2 fun a h => (hk a h).2⟩

theorem mono {α : Type} {m : BM α} {n n' : Nat} {P Q : α → Prop} (hm : Good m n P) (hn : n ≤ n')
    (h : ∀ a, P a → Q a) : Good m n' Q := ⟨hm.1.mono hn h, hm.2.mono h⟩

theorem F (n : Nat) : Good (Gov1.F n) n (fun v => v < 2 ^ n) := ⟨Fits.F n, Ensures.F n⟩

theorem flag : Good Gov1.flag 1 (fun _ => True) := ⟨Fits.flag, Ensures.true _⟩

theorem su (n : Nat) (hn : 1 ≤ n) : Good (Gov1.su n) n (fun v => -(2 ^ (n - 1)) ≤ v ∧ v < 2 ^ (n - 1)) := by
  have h2 : Ensures (Gov1.su n) (fun v => -(2 ^ (n - 1)) ≤ v ∧ v < 2 ^ (n - 1)) :=
    fun s v s' h => C02_su_range n hn s s' v h
  exact ⟨((Fits.su n).and_ensures h2).mono (Nat.le_refl _) fun _ h => h.2, h2⟩

theorem ns (n : Nat) (hn : 0 < n) : Good (Gov1.ns n) (Nat.log2 n + 1) (fun v => 0 ≤ v ∧ v < n) := by
  have h2 : Ensures (Gov1.ns n) (fun v => 0 ≤ v ∧ v < n) := fun s v s' h => C03_ns_range n hn s s' v h
  exact ⟨((Fits.ns n hn).and_ensures h2).mono (Nat.le_refl _) fun _ h => h.2, h2⟩

theorem lift {α : Type} {P : α → Prop} {r : Res α} {a : α} (hr : r = .ok a) (h : P a) (n : Nat) :
    Good (BM.lift r) n P := by
  subst hr; exact pure h n

theorem ite {α : Type} {P : α → Prop} {c : Prop} [Decidable c] {m n : BM α} {k : Nat}
    (hm : c → Good m k P) (hn : ¬ c → Good n k P) : Good (if c then m else n) k P := by
  split
  · exact hm ‹_›
  · exact hn ‹_›

end Good
end Gov1
