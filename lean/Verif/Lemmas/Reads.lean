import Verif.Lemmas.Streaming
import Verif.Lemmas.Descriptors
import Verif.Spec.Headers
/-! # Combinators for round-trip proofs -/
namespace Gov1

/-- On any stream that starts with `bits`, the reader returns `a` and consumes exactly `bits`. -/
def Reads {α : Type} (m : BM α) (bits : List Bool) (a : α) : Prop :=
  ∀ (s : BitStream) (rest : List Bool), unread s = bits ++ rest →
    m s = .ok (a, s.advance bits.length)

namespace Reads

theorem pure {α : Type} (a : α) : Reads (Pure.pure a : BM α) [] a := fun _ _ _ => rfl

theorem bind {α β : Type} {m : BM α} {k : α → BM β} {b1 b2 : List Bool} {a : α} {c : β}
    (hm : Reads m b1 a) (hk : Reads (k a) b2 c) : Reads (m >>= k) (b1 ++ b2) c := by
  intro s rest h
  rw [List.append_assoc] at h
  rw [BM.bind_ok (hm s _ h), hk _ rest (unread_drop h), advance_advance, List.length_append]

theorem bind0 {α β : Type} {m : BM α} {k : α → BM β} {b2 : List Bool} {a : α} {c : β}
    (hm : Reads m [] a) (hk : Reads (k a) b2 c) : Reads (m >>= k) b2 c := by
  have := bind hm hk; simpa using this

/-- last statement of a block -/
theorem bindLast {α β : Type} {m : BM α} {f : α → β} {b : List Bool} {a : α}
    (hm : Reads m b a) : Reads (m >>= fun x => Pure.pure (f x)) b (f a) := by
  have := bind (k := fun x => Pure.pure (f x)) hm (pure (f a)); simpa using this

theorem F {n v : Nat} (h : v < 2 ^ n) : Reads (Gov1.F n) (encF n v) v := by
  intro s rest hs
  rw [F_enc hs, Nat.mod_eq_of_lt h, encF_length]

theorem flag (b : Bool) : Reads Gov1.flag (Spec.bit b) b := by
  intro s rest hs
  have := F_append hs
  simp only [Spec.bit, List.length_singleton] at this ⊢
  rw [Gov1.flag, BM.bind_ok this]
  cases b <;> rfl

theorem congr {α : Type} {m : BM α} {b b' : List Bool} {a : α} (h : Reads m b a) (e : b = b') :
    Reads m b' a := e ▸ h

end Reads

theorem Streaming.flag : Streaming Gov1.flag := Streaming.bind (Streaming.F 1) fun _ => Streaming.pure _

/-- Inversion: a successful read of a flag consumed that flag. -/
theorem flag_ok {s s' : BitStream} {b : Bool} (h : flag s = .ok (b, s')) :
    ∃ rest, unread s = Spec.bit b ++ rest ∧ s' = s.advance 1 := by
  rw [flag] at h
  obtain ⟨v, s1, h1, h2⟩ := BM.bind_eq_ok.mp h
  rw [F_eq] at h1
  split at h1
  · rename_i hl
    cases hu : unread s with
    | nil => rw [hu] at hl; simp at hl
    | cons x rest =>
      rw [hu] at h1
      simp [bitsVal] at h1 h2
      obtain ⟨rfl, rfl⟩ := h1
      obtain ⟨rfl, rfl⟩ := h2
      refine ⟨rest, ?_, rfl⟩
      cases x <;> rfl
  · cases h1

theorem F_ok {n v : Nat} {s s' : BitStream} (h : F n s = .ok (v, s')) :
    v < 2 ^ n ∧ (∃ rest, unread s = encF n v ++ rest) ∧ s' = s.advance n := by
  rw [F_eq] at h
  split at h
  · rename_i hl
    cases h
    have hlen : ((unread s).take n).length = n := by simp [hl]
    refine ⟨?_, ⟨(unread s).drop n, ?_⟩, rfl⟩
    · have := bitsVal_lt ((unread s).take n); rwa [hlen] at this
    · have := encF_bitsVal ((unread s).take n)
      rw [hlen] at this
      rw [this, List.take_append_drop]
  · cases h

/-- Whenever the reader returns `a`, the bits it consumed satisfy `R · a`. -/
def Yields {α : Type} (m : BM α) (R : List Bool → α → Prop) : Prop :=
  ∀ (s : BitStream) (a : α) (s' : BitStream), m s = .ok (a, s') →
    ∃ bits rest, unread s = bits ++ rest ∧ s' = s.advance bits.length ∧ R bits a

namespace Yields

theorem pure {α : Type} {R : List Bool → α → Prop} {a : α} (h : R [] a) :
    Yields (Pure.pure a : BM α) R := by
  intro s a' s' hs
  cases hs
  exact ⟨[], unread s, rfl, rfl, h⟩

theorem bind {α β : Type} {m : BM α} {k : α → BM β} {R : List Bool → α → Prop}
    {S : List Bool → β → Prop} (hm : Yields m R)
    (hk : ∀ a bits, R bits a → Yields (k a) (fun bits' c => S (bits ++ bits') c)) :
    Yields (m >>= k) S := by
  intro s c s' h
  obtain ⟨a, s1, h1, h2⟩ := BM.bind_eq_ok.mp h
  obtain ⟨b1, r1, u1, rfl, hR⟩ := hm s a s1 h1
  obtain ⟨b2, r2, u2, rfl, hS⟩ := hk a b1 hR _ c s' h2
  rw [unread_drop u1] at u2
  subst u2
  exact ⟨b1 ++ b2, r2, by rw [u1, List.append_assoc], by simp, hS⟩

theorem mono {α : Type} {m : BM α} {R S : List Bool → α → Prop} (hm : Yields m R)
    (h : ∀ bits a, R bits a → S bits a) : Yields m S := by
  intro s a s' hs
  obtain ⟨b, r, h1, h2, h3⟩ := hm s a s' hs
  exact ⟨b, r, h1, h2, h _ _ h3⟩

theorem F (n : Nat) : Yields (Gov1.F n) (fun bits v => bits = encF n v ∧ v < 2 ^ n) := by
  intro s a s' h
  obtain ⟨h1, ⟨r, h2⟩, h3⟩ := F_ok h
  exact ⟨_, r, h2, by simpa using h3, rfl, h1⟩

theorem flag : Yields Gov1.flag (fun bits b => bits = Spec.bit b) := by
  intro s a s' h
  obtain ⟨r, h1, h2⟩ := flag_ok h
  exact ⟨_, r, h1, by simpa [Spec.bit] using h2, rfl⟩

theorem fail {α : Type} {R : List Bool → α → Prop} (e : Fault) : Yields (BM.fail e : BM α) R := by
  intro s a s' h; cases h

theorem ite {α : Type} {R : List Bool → α → Prop} {c : Prop} [Decidable c] {m n : BM α}
    (hm : c → Yields m R) (hn : ¬ c → Yields n R) : Yields (if c then m else n) R := by
  split
  · exact hm ‹_›
  · exact hn ‹_›

end Yields

end Gov1
