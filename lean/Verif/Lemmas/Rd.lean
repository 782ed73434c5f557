import Verif.Model.Rd
import Verif.Props.Symbol
/-! # Reasoning about programs that read symbols -/
namespace Gov1
open Spec

namespace Rd

theorem bind_assoc' {α β γ : Type} (p : Rd α) (f : α → Rd β) (g : β → Rd γ) :
    (p.bind f).bind g = p.bind (fun a => (f a).bind g) := by
  induction p with
  | ret a => rfl
  | fail e => rfl
  | sym t idx k ih => simp only [Rd.bind]; congr; funext s; exact ih s
  | bit k ih => simp only [Rd.bind]; congr; funext s; exact ih s

@[simp] theorem ret_bind {α β : Type} (a : α) (f : α → Rd β) : (ret a >>= f) = f a := rfl
@[simp] theorem pure_bind {α β : Type} (a : α) (f : α → Rd β) : ((pure a : Rd α) >>= f) = f a := rfl
@[simp] theorem fail_bind {α β : Type} (e : Fault) (f : α → Rd β) : ((fail e : Rd α) >>= f) = fail e := rfl
@[simp] theorem sym_bind {α β : Type} (t : String) (idx : List Int) (k : Nat → Rd α) (f : α → Rd β) :
    (sym t idx k >>= f) = sym t idx (fun s => k s >>= f) := rfl
@[simp] theorem bit_bind {α β : Type} (k : Nat → Rd α) (f : α → Rd β) :
    (bit k >>= f) = bit (fun s => k s >>= f) := rfl

/-- Total correctness for every reply in range: the program never panics and its result satisfies `Q`. -/
def Post {α : Type} (L : Layout) : Rd α → (α → Prop) → Prop
  | ret a, Q => Q a
  | fail _, _ => False
  | sym t idx k, Q => ∃ n, L.count t idx = some n ∧ ∀ s, s < n → (k s).Post L Q
  | bit k, Q => ∀ s, s < 2 → (k s).Post L Q

/-- Partial correctness: whenever the program returns, the result satisfies `Q`. -/
def Wlp {α : Type} (L : Layout) : Rd α → (α → Prop) → Prop
  | ret a, Q => Q a
  | fail _, _ => True
  | sym t idx k, Q => ∀ n, L.count t idx = some n → ∀ s, s < n → (k s).Wlp L Q
  | bit k, Q => ∀ s, s < 2 → (k s).Wlp L Q

/-- Safety for every reply in range: the program never panics, and if it returns the result satisfies `Q`;
it may run out of fuel (`Fault.hang`, an unbounded loop of the code). -/
def Safe {α : Type} (L : Layout) : Rd α → (α → Prop) → Prop
  | ret a, Q => Q a
  | fail e, _ => e = .hang
  | sym t idx k, Q => ∃ n, L.count t idx = some n ∧ ∀ s, s < n → (k s).Safe L Q
  | bit k, Q => ∀ s, s < 2 → (k s).Safe L Q

variable {L : Layout}

theorem Safe.mono {α : Type} {p : Rd α} {Q Q' : α → Prop} (h : p.Safe L Q) (hq : ∀ a, Q a → Q' a) :
    p.Safe L Q' := by
  induction p with
  | ret a => exact hq a h
  | fail e => exact h
  | sym t idx k ih => obtain ⟨n, h1, h2⟩ := h; exact ⟨n, h1, fun s hs => ih s (h2 s hs)⟩
  | bit k ih => exact fun s hs => ih s (h s hs)

theorem Safe.bind {α β : Type} {p : Rd α} {f : α → Rd β} {Q : β → Prop}
    (h : p.Safe L (fun a => (f a).Safe L Q)) : (p >>= f).Safe L Q := by
  induction p with
  | ret a => exact h
  | fail e => exact h
  | sym t idx k ih => obtain ⟨n, h1, h2⟩ := h; exact ⟨n, h1, fun s hs => ih s (h2 s hs)⟩
  | bit k ih => exact fun s hs => ih s (h s hs)

theorem Safe.seq {α β : Type} {p : Rd α} {f : α → Rd β} {Q : α → Prop} {R : β → Prop} (h : p.Safe L Q)
    (hf : ∀ a, Q a → (f a).Safe L R) : (p >>= f).Safe L R := (h.mono hf).bind

theorem Post.safe {α : Type} {p : Rd α} {Q : α → Prop} (h : p.Post L Q) : p.Safe L Q := by
  induction p with
  | ret a => exact h
  | fail e => cases h
  | sym t idx k ih => obtain ⟨n, h1, h2⟩ := h; exact ⟨n, h1, fun s hs => ih s (h2 s hs)⟩
  | bit k ih => exact fun s hs => ih s (h s hs)

theorem Safe.read {t : String} {idx : List Int} {n : Nat} (h : L.count t idx = some n) {Q : Nat → Prop}
    (hq : ∀ s, s < n → Q s) : (Rd.read t idx).Safe L Q := ⟨n, h, hq⟩

theorem Safe.lift {α : Type} {r : Res α} {a : α} (h : r = .ok a) {Q : α → Prop} (hq : Q a) :
    (Rd.lift r).Safe L Q := by rw [h]; exact hq

theorem Post.mono {α : Type} {p : Rd α} {Q Q' : α → Prop} (h : p.Post L Q) (hq : ∀ a, Q a → Q' a) :
    p.Post L Q' := by
  induction p with
  | ret a => exact hq a h
  | fail e => exact h
  | sym t idx k ih => obtain ⟨n, h1, h2⟩ := h; exact ⟨n, h1, fun s hs => ih s (h2 s hs)⟩
  | bit k ih => exact fun s hs => ih s (h s hs)

theorem Wlp.mono {α : Type} {p : Rd α} {Q Q' : α → Prop} (h : p.Wlp L Q) (hq : ∀ a, Q a → Q' a) :
    p.Wlp L Q' := by
  induction p with
  | ret a => exact hq a h
  | fail e => trivial
  | sym t idx k ih => exact fun n h1 s hs => ih s (h n h1 s hs)
  | bit k ih => exact fun s hs => ih s (h s hs)

theorem Post.bind {α β : Type} {p : Rd α} {f : α → Rd β} {Q : β → Prop}
    (h : p.Post L (fun a => (f a).Post L Q)) : (p >>= f).Post L Q := by
  induction p with
  | ret a => exact h
  | fail e => exact h
  | sym t idx k ih => obtain ⟨n, h1, h2⟩ := h; exact ⟨n, h1, fun s hs => ih s (h2 s hs)⟩
  | bit k ih => exact fun s hs => ih s (h s hs)

theorem Wlp.bind {α β : Type} {p : Rd α} {f : α → Rd β} {Q : β → Prop}
    (h : p.Wlp L (fun a => (f a).Wlp L Q)) : (p >>= f).Wlp L Q := by
  induction p with
  | ret a => exact h
  | fail e => trivial
  | sym t idx k ih => exact fun n h1 s hs => ih s (h n h1 s hs)
  | bit k ih => exact fun s hs => ih s (h s hs)

theorem Safe.wlp {α : Type} {p : Rd α} {Q : α → Prop} (h : p.Safe L Q) : p.Wlp L Q := by
  induction p with
  | ret a => exact h
  | fail e => trivial
  | sym t idx k ih =>
    obtain ⟨n, h1, h2⟩ := h
    intro m hm s hs
    rw [h1] at hm
    cases hm
    exact ih s (h2 s hs)
  | bit k ih => exact fun s hs => ih s (h s hs)

theorem Post.wlp {α : Type} {p : Rd α} {Q : α → Prop} (h : p.Post L Q) : p.Wlp L Q := by
  induction p with
  | ret a => exact h
  | fail e => trivial
  | sym t idx k ih =>
    obtain ⟨n, h1, h2⟩ := h
    intro m hm s hs
    rw [h1] at hm
    cases hm
    exact ih s (h2 s hs)
  | bit k ih => exact fun s hs => ih s (h s hs)

theorem run_sym {α : Type} {t : String} {idx : List Int} {k : Nat → Rd α} {msg : List Nat} {r : α × List Nat} :
    (sym t idx k).run L msg = .ok r ↔
      ∃ n s l, L.count t idx = some n ∧ msg = s :: l ∧ s < n ∧ (k s).run L l = .ok r := by
  cases msg with
  | nil =>
    constructor
    · intro h
      simp only [Rd.run] at h
      cases h
    · rintro ⟨n, s, l, -, h, -⟩; cases h
  | cons s l =>
    cases hc : L.count t idx with
    | none =>
      constructor
      · intro h
        simp only [Rd.run, hc] at h
        cases h
      · rintro ⟨n, s, l, h, -⟩; cases h
    | some n =>
      simp only [Rd.run, hc]
      constructor
      · intro h
        split at h
        · exact ⟨n, s, l, rfl, rfl, ‹_›, h⟩
        · cases h
      · rintro ⟨n', s', l', h1, h2, h3, h4⟩
        cases h1; cases h2
        rw [if_pos h3]; exact h4

theorem run_bit {α : Type} {k : Nat → Rd α} {msg : List Nat} {r : α × List Nat} :
    (bit k).run L msg = .ok r ↔ ∃ s l, msg = s :: l ∧ s < 2 ∧ (k s).run L l = .ok r := by
  cases msg with
  | nil =>
    constructor
    · intro h
      simp only [Rd.run] at h
      cases h
    · rintro ⟨s, l, h, -⟩; cases h
  | cons s l =>
    simp only [Rd.run]
    constructor
    · intro h
      split at h
      · exact ⟨s, l, rfl, ‹_›, h⟩
      · cases h
    · rintro ⟨s', l', h2, h3, h4⟩
      cases h2
      rw [if_pos h3]; exact h4

theorem Wlp.of_run {α : Type} {p : Rd α} {Q : α → Prop} (h : p.Wlp L Q) {msg rest : List Nat} {a : α}
    (hr : p.run L msg = .ok (a, rest)) : Q a := by
  induction p generalizing msg with
  | ret a => cases hr; exact h
  | fail e => cases hr
  | sym t idx k ih =>
    obtain ⟨n, s, l, h1, rfl, h3, h4⟩ := run_sym.mp hr
    exact ih s (h n h1 s h3) h4
  | bit k ih =>
    obtain ⟨s, l, rfl, h3, h4⟩ := run_bit.mp hr
    exact ih s (h s h3) h4

theorem run_bind {α β : Type} {p : Rd α} {f : α → Rd β} {msg : List Nat} {r : β × List Nat} :
    (p >>= f).run L msg = .ok r ↔
      ∃ a mid, p.run L msg = .ok (a, mid) ∧ (f a).run L mid = .ok r := by
  induction p generalizing msg with
  | ret a =>
    constructor
    · intro h; exact ⟨a, msg, rfl, h⟩
    · rintro ⟨a', mid, h1, h2⟩; cases h1; exact h2
  | fail e =>
    constructor
    · intro h; cases h
    · rintro ⟨a', mid, h1, h2⟩; cases h1
  | sym t idx k ih =>
    rw [sym_bind, run_sym]
    constructor
    · rintro ⟨n, s, l, h1, h2, h3, h4⟩
      obtain ⟨a, mid, h5, h6⟩ := (ih s).mp h4
      exact ⟨a, mid, run_sym.mpr ⟨n, s, l, h1, h2, h3, h5⟩, h6⟩
    · rintro ⟨a, mid, h5, h6⟩
      obtain ⟨n, s, l, h1, h2, h3, h4⟩ := run_sym.mp h5
      exact ⟨n, s, l, h1, h2, h3, (ih s).mpr ⟨a, mid, h4, h6⟩⟩
  | bit k ih =>
    rw [bit_bind, run_bit]
    constructor
    · rintro ⟨s, l, h2, h3, h4⟩
      obtain ⟨a, mid, h5, h6⟩ := (ih s).mp h4
      exact ⟨a, mid, run_bit.mpr ⟨s, l, h2, h3, h5⟩, h6⟩
    · rintro ⟨a, mid, h5, h6⟩
      obtain ⟨s, l, h2, h3, h4⟩ := run_bit.mp h5
      exact ⟨s, l, h2, h3, (ih s).mpr ⟨a, mid, h4, h6⟩⟩

/-- More replies behind change nothing. -/
theorem run_append {α : Type} {p : Rd α} {msg rest : List Nat} {a : α} (h : p.run L msg = .ok (a, rest))
    (more : List Nat) : p.run L (msg ++ more) = .ok (a, rest ++ more) := by
  induction p generalizing msg with
  | ret a => cases h; rfl
  | fail e => cases h
  | sym t idx k ih =>
    obtain ⟨n, s, l, h1, rfl, h3, h4⟩ := run_sym.mp h
    exact run_sym.mpr ⟨n, s, l ++ more, h1, rfl, h3, ih s h4⟩
  | bit k ih =>
    obtain ⟨s, l, rfl, h3, h4⟩ := run_bit.mp h
    exact run_bit.mpr ⟨s, l ++ more, rfl, h3, ih s h4⟩

/-- The replies left over are a suffix of the replies given. -/
theorem run_suffix {α : Type} {p : Rd α} {msg rest : List Nat} {a : α} (h : p.run L msg = .ok (a, rest)) :
    ∃ used, msg = used ++ rest ∧ p.run L used = .ok (a, []) := by
  induction p generalizing msg with
  | ret a => cases h; exact ⟨[], rfl, rfl⟩
  | fail e => cases h
  | sym t idx k ih =>
    obtain ⟨n, s, l, h1, rfl, h3, h4⟩ := run_sym.mp h
    obtain ⟨u, rfl, hu⟩ := ih s h4
    exact ⟨s :: u, rfl, run_sym.mpr ⟨n, s, u, h1, rfl, h3, hu⟩⟩
  | bit k ih =>
    obtain ⟨s, l, rfl, h3, h4⟩ := run_bit.mp h
    obtain ⟨u, rfl, hu⟩ := ih s h4
    exact ⟨s :: u, rfl, run_bit.mpr ⟨s, u, rfl, h3, hu⟩⟩

end Rd
end Gov1
