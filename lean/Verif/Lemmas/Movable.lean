import Verif.Lemmas.Fuel
import Verif.Lemmas.MapBM
import Verif.Props.Tiles
/-! # Readers whose result does not depend on where in the stream their bits stand -/
namespace Gov1

/-- Each time the reader returns, it has consumed some bits, changed nothing else, and gives the same answer on every stream that goes on with the same bits, at every
position. -/
def Movable {α : Type} (m : BM α) : Prop :=
  ∀ (s : BitStream) (a : α) (s' : BitStream), m s = .ok (a, s') →
    ∃ n, s' = s.advance n ∧ n ≤ (unread s).length ∧ ∀ t : BitStream, (unread t).take n = (unread s).take n → m t = .ok (a, t.advance n)

namespace Movable

theorem pure {α : Type} (a : α) : Movable (Pure.pure a : BM α) := by
  intro s a' s' h
  cases h
  exact ⟨0, (advance_zero s).symm, Nat.zero_le _, fun t _ => by rw [advance_zero]; rfl⟩

theorem fail {α : Type} (e : Fault) : Movable (BM.fail e : BM α) := by
  intro s a' s' h; cases h

theorem lift {α : Type} (r : Res α) : Movable (BM.lift r) := by
  cases r with
  | ok a => exact pure a
  | error e => exact fail e

theorem bind {α β : Type} {m : BM α} {k : α → BM β} (hm : Movable m) (hk : ∀ a, Movable (k a)) : Movable (m >>= k) := by
  intro s b s2 h
  obtain ⟨a, s1, h1, h2⟩ := BM.bind_eq_ok.mp h
  obtain ⟨n1, rfl, l1, f1⟩ := hm s a s1 h1
  obtain ⟨n2, rfl, l2, f2⟩ := hk a _ b s2 h2
  rw [unread_advance, List.length_drop] at l2
  refine ⟨n1 + n2, (advance_advance ..), by omega, fun t ht => ?_⟩
  have e1 := congrArg (List.take n1) ht
  rw [List.take_take, List.take_take, Nat.min_eq_left (by omega)] at e1
  rw [BM.bind_ok (f1 t e1)]
  have e2 := congrArg (List.drop n1) ht
  rw [List.drop_take, List.drop_take, Nat.add_sub_cancel_left] at e2
  rw [f2 (t.advance n1) (by rw [unread_advance, unread_advance]; exact e2), advance_advance]

theorem F (n : Nat) : Movable (Gov1.F n) := by
  intro s a s' h
  rw [F_eq] at h
  split at h
  · rename_i hn
    cases h
    refine ⟨n, rfl, hn, fun t ht => ?_⟩
    have : n ≤ (unread t).length := by
      have := congrArg List.length ht
      rw [List.length_take, List.length_take] at this
      omega
    rw [F_eq, if_pos this, ht]
  · cases h

theorem ite {α : Type} {c : Prop} [Decidable c] {m n : BM α} (hm : Movable m) (hn : Movable n) : Movable (if c then m else n) := by split <;> assumption

theorem map {α β : Type} {m : BM α} (f : α → β) (hm : Movable m) : Movable (f <$> m) := by
  have : f <$> m = m >>= fun a => Pure.pure (f a) := rfl
  rw [this]; exact bind hm fun a => pure _

end Movable

/-- Discharges `Movable` goals by structural decomposition. -/
macro "movable_step" : tactic =>
  `(tactic| first
    | exact Movable.pure _ | exact Movable.fail _ | exact Movable.lift _
    | exact Movable.F _
    | assumption
    | (refine Movable.bind ?_ (fun _ => ?_))
    | (refine Movable.map _ ?_)
    | (refine Movable.ite ?_ ?_)
    | split
    | dsimp only)

namespace Movable

theorem flag : Movable Gov1.flag := bind (F 1) fun _ => pure _
theorem su (n : Nat) : Movable (Gov1.su n) := by unfold Gov1.su; repeat movable_step
theorem ns (n : Int) : Movable (Gov1.ns n) := by unfold Gov1.ns; repeat movable_step

theorem mapBM {ι α : Type} {f : ι → BM α} (h : ∀ i, Movable (f i)) (l : List ι) : Movable (Gov1.mapBM f l) := by
  induction l with
  | nil => exact pure _
  | cons i l ih =>
    unfold Gov1.mapBM
    exact bind (h i) fun _ => bind ih fun _ => pure _

theorem fuel {α : Type} {m : Nat → BM α} {g : BitStream → Nat} (h1 : ∀ f, Movable (m f)) (h2 : FuelStable m) (h3 : ∀ s, m (g s) s ≠ .error .hang) :
    Movable (fun s => m (g s) s) := by
  intro s a s' h
  obtain ⟨n, e, l, k⟩ := h1 (g s) s a s' h
  refine ⟨n, e, l, fun t hu => ?_⟩
  have ht := k t hu
  rcases Nat.le_total (g s) (g t) with hle | hle
  · have := h2 (g s) (g t) t hle (by rw [ht]; intro hh; cases hh)
    show m (g t) t = _
    rw [this, ht]
  · have := h2 (g t) (g s) t hle (h3 t)
    show m (g t) t = _
    rw [← this, ht]

theorem incLoop (k v : Nat) : Movable (Gov1.incLoop k v) := by
  induction k generalizing v with
  | zero => exact pure _
  | succ k ih => unfold Gov1.incLoop; exact bind flag fun _ => ite (ih _) (pure _)

theorem decLoop (fuel bound v : Nat) : Movable (Gov1.decLoop fuel bound v) := by
  induction fuel generalizing v with
  | zero => unfold Gov1.decLoop; exact ite (fail _) (pure _)
  | succ k ih =>
    unfold Gov1.decLoop
    exact ite (bind flag fun _ => ite (ih _) (pure _)) (pure _)

theorem sizesLoop (sb shift M fuel a i w : Nat) (l : List Nat) : Movable (Gov1.sizesLoop sb shift M fuel a i w l) := by
  induction fuel generalizing a i w l with
  | zero => unfold Gov1.sizesLoop; exact ite (fail _) (pure _)
  | succ k ih =>
    unfold Gov1.sizesLoop
    exact ite (bind (lift _) fun _ => bind (ns _) fun _ => ih _ _ _ _) (pure _)

theorem tileInfo (use128 : Bool) (miCols miRows old : Nat) : Movable (newTileInfo use128 miCols miRows old) := by
  unfold newTileInfo uniformTiles explicitTiles
  repeat first
    | exact Movable.flag | exact Movable.incLoop _ _ | exact Movable.sizesLoop _ _ _ _ _ _ _ _
    | exact Movable.fuel (m := fun f => Gov1.decLoop f _ _) (fun f => Movable.decLoop f _ _)
        (fun f f' s h1 h2 => decLoop_stable _ f _ f' s h1 h2)
        (fun s => decLoop_terminates _ _ _ s (by rw [unread_length]; omega))
    | movable_step

end Movable
end Gov1
