import Verif.Lemmas.Ensures
/-! # Readers that go forward and terminate -/
namespace Gov1

/-- Whenever the reader returns, the data is unchanged and the position has not moved back. -/
def Forward {α : Type} (m : BM α) : Prop :=
  ∀ (s : BitStream) (a : α) (s' : BitStream), m s = .ok (a, s') → s'.data = s.data ∧ s.pos ≤ s'.pos

/-- The reader terminates on every stream: it returns or panics. -/
def Terminates {α : Type} (m : BM α) : Prop := ∀ s : BitStream, m s ≠ .error .hang

theorem Streaming.forward {α : Type} {m : BM α} (h : Streaming m) : Forward m :=
  fun s a s' hs => ⟨(h s a s' hs).1, (h s a s' hs).2.1⟩

namespace Forward

theorem pure {α : Type} (a : α) : Forward (Pure.pure a : BM α) := (Streaming.pure a).forward
theorem fail {α : Type} (e : Fault) : Forward (BM.fail e : BM α) := (Streaming.fail e).forward
theorem lift {α : Type} (r : Res α) : Forward (BM.lift r) := (Streaming.lift r).forward
theorem getPos : Forward BM.getPos := Streaming.getPos.forward
theorem getLeb : Forward BM.getLeb := Streaming.getLeb.forward

theorem bind {α β : Type} {m : BM α} {k : α → BM β} (hm : Forward m) (hk : ∀ a, Forward (k a)) :
    Forward (m >>= k) := by
  intro s b s2 h
  obtain ⟨a, s1, h1, h2⟩ := BM.bind_eq_ok.mp h
  obtain ⟨d1, p1⟩ := hm s a s1 h1
  obtain ⟨d2, p2⟩ := hk a s1 b s2 h2
  exact ⟨d2.trans d1, Nat.le_trans p1 p2⟩

theorem ite {α : Type} {c : Prop} [Decidable c] {m n : BM α} (hm : Forward m) (hn : Forward n) :
    Forward (if c then m else n) := by split <;> assumption

end Forward

namespace Terminates

theorem pure {α : Type} (a : α) : Terminates (Pure.pure a : BM α) := by intro s h; cases h
theorem fail {α : Type} {e : Fault} (he : e ≠ .hang) : Terminates (BM.fail e : BM α) := by
  intro s h; cases h; exact he rfl
theorem lift {α : Type} {r : Res α} (hr : r ≠ .error .hang) : Terminates (BM.lift r) := by
  cases r with
  | ok a => exact pure a
  | error e => exact fail fun h => hr (by rw [h])
theorem getPos : Terminates BM.getPos := by intro s h; cases h
theorem getLeb : Terminates BM.getLeb := by intro s h; cases h
theorem setPos (p : Nat) : Terminates (BM.setPos p) := by intro s h; cases h
theorem setLeb (p : Nat) : Terminates (Gov1.setLeb p) := by intro s h; cases h

theorem bind {α β : Type} {m : BM α} {k : α → BM β} (hm : Terminates m) (hk : ∀ a, Terminates (k a)) :
    Terminates (m >>= k) := by
  intro s h
  cases hr : m s with
  | error e =>
    rw [BM.bind_error hr] at h
    exact hm s (by rw [hr]; cases h; rfl)
  | ok r =>
    obtain ⟨a, s1⟩ := r
    rw [BM.bind_ok hr] at h
    exact hk a s1 h

/-- with what the first step ensures -/
theorem bind' {α β : Type} {m : BM α} {k : α → BM β} (hm : Terminates m)
    (hk : ∀ s a s1, m s = .ok (a, s1) → k a s1 ≠ .error .hang) :
    Terminates (m >>= k) := by
  intro s h
  cases hr : m s with
  | error e =>
    rw [BM.bind_error hr] at h
    exact hm s (by rw [hr]; cases h; rfl)
  | ok r =>
    obtain ⟨a, s1⟩ := r
    rw [BM.bind_ok hr] at h
    exact hk s a s1 hr h

theorem ite {α : Type} {c : Prop} [Decidable c] {m n : BM α} (hm : Terminates m) (hn : Terminates n) :
    Terminates (if c then m else n) := by split <;> assumption

theorem F (n : Nat) : Terminates (Gov1.F n) := by
  intro s h
  rw [F_eq] at h
  split at h <;> cases h

theorem flag : Terminates Gov1.flag := bind (F 1) fun _ => pure _

theorem goSet_ne {α : Type} (l : List α) (i : Int) (x : α) : goSet l i x ≠ .error .hang := by
  unfold goSet; split
  · intro h; cases h
  · split <;> intro h <;> cases h

theorem goGet_ne {α : Type} (l : List α) (i : Int) : goGet l i ≠ .error .hang := by
  unfold goGet; split
  · intro h; cases h
  · split <;> intro h <;> cases h

theorem lebLoop (k i v : Nat) : Terminates (Gov1.lebLoop k i v) := by
  induction k generalizing i v with
  | zero => exact pure _
  | succ k ih =>
    unfold Gov1.lebLoop
    exact bind (F 8) fun _ => bind getLeb fun _ => bind (setLeb _) fun _ => ite (ih _ _) (pure _)

theorem leb128 : Terminates Gov1.leb128 := bind (setLeb _) fun _ => lebLoop _ _ _

theorem trailingBits (n : Int) : Terminates (Gov1.trailingBits n) :=
  bind (F 1) fun _ => bind (F _) fun _ => pure _

theorem byteAlignLoop (k : Nat) : Terminates (Gov1.byteAlignLoop k) := by
  induction k with
  | zero => exact pure _
  | succ k ih =>
    unfold Gov1.byteAlignLoop
    exact bind getPos fun _ => ite (bind (F 1) fun _ => ih) (pure _)

end Terminates

/-- Discharges `Terminates` goals by structural decomposition. -/
macro "terminates_step" : tactic =>
  `(tactic| first
    | exact Terminates.pure _ | exact Terminates.fail (by intro h; cases h)
    | exact Terminates.lift (Terminates.goSet_ne _ _ _) | exact Terminates.lift (Terminates.goGet_ne _ _)
    | exact Terminates.F _ | exact Terminates.getPos | exact Terminates.getLeb
    | exact Terminates.setPos _ | exact Terminates.flag | exact Terminates.leb128
    | exact Terminates.trailingBits _
    | assumption
    | (refine Terminates.bind ?_ (fun _ => ?_))
    | (refine Terminates.ite ?_ ?_)
    | split
    | dsimp only)

end Gov1
