import Verif.Spec.Streaming
import Verif.Lemmas.BitStream
/-! # Closure properties of `Streaming` -/
namespace Gov1
namespace Streaming

theorem pure {α : Type} (a : α) : Streaming (Pure.pure a : BM α) := by
  intro s a' s' h
  simp at h
  obtain ⟨rfl, rfl⟩ := h
  refine ⟨rfl, Nat.le_refl _, Or.inr rfl, ?_⟩
  intro t hp hl _
  simp [← hp, ← hl]

theorem fail {α : Type} (e : Fault) : Streaming (BM.fail e : BM α) := by
  intro s a' s' h; simp at h

theorem lift {α : Type} (r : Res α) : Streaming (BM.lift r) := by
  cases r with
  | ok a => exact pure a
  | error e => exact fail e

theorem getPos : Streaming BM.getPos := by
  intro s a' s' h
  simp [BM.getPos] at h
  obtain ⟨rfl, rfl⟩ := h
  refine ⟨rfl, Nat.le_refl _, Or.inr rfl, ?_⟩
  intro t hp hl _
  simp [BM.getPos, ← hp, ← hl]

theorem getLeb : Streaming BM.getLeb := by
  intro s a' s' h
  simp [BM.getLeb] at h
  obtain ⟨rfl, rfl⟩ := h
  refine ⟨rfl, Nat.le_refl _, Or.inr rfl, ?_⟩
  intro t hp hl _
  simp [BM.getLeb, ← hp, ← hl]

theorem setLeb (n : Nat) : Streaming (Gov1.setLeb n) := by
  intro s a' s' h
  simp [Gov1.setLeb] at h
  subst h
  refine ⟨rfl, Nat.le_refl _, Or.inr rfl, ?_⟩
  intro t hp hl _
  simp [Gov1.setLeb, ← hp]

theorem bind {α β : Type} {m : BM α} {k : α → BM β} (hm : Streaming m)
    (hk : ∀ a, Streaming (k a)) : Streaming (m >>= k) := by
  intro s b s2 h
  obtain ⟨a, s1, h1, h2⟩ := BM.bind_eq_ok.mp h
  obtain ⟨d1, p1, e1, f1⟩ := hm s a s1 h1
  obtain ⟨d2, p2, e2, f2⟩ := hk a s1 b s2 h2
  refine ⟨d2.trans d1, Nat.le_trans p1 p2, ?_, ?_⟩
  · rw [d1] at e2; omega
  · intro t hp hl hu
    have hlen : ∀ (L M : List Bool) (i j : Nat), i ≤ j → L.take j = M.take j → L.take i = M.take i := by
      intro L M i j hij hLM
      have := congrArg (List.take i) hLM
      simpa [List.take_take, Nat.min_eq_left hij] using this
    have h1t := f1 t hp hl (hlen _ _ _ _ (by omega) hu)
    rw [BM.bind_ok h1t]
    refine f2 _ rfl rfl ?_
    have h3 := congrArg (List.drop (s1.pos - s.pos)) hu
    rw [List.drop_take, List.drop_take] at h3
    have e4 : s2.pos - s.pos - (s1.pos - s.pos) = s2.pos - s1.pos := by omega
    rw [e4] at h3
    have e5 : unread { t with pos := s1.pos, leb := s1.leb } = (unread t).drop (s1.pos - s.pos) := by
      simp only [unread, List.drop_drop]; congr 1; omega
    have e6 : unread s1 = (unread s).drop (s1.pos - s.pos) := by
      simp only [unread, List.drop_drop, d1]; congr 1; omega
    rw [e5, e6]; exact h3

theorem F (n : Nat) : Streaming (Gov1.F n) := by
  intro s a s' h
  rw [F_eq] at h
  split at h
  · rename_i hn
    cases h
    have hlen := unread_length s
    refine ⟨rfl, by simp, by simp; omega, ?_⟩
    intro t hp hl hu
    simp only [advance_pos, Nat.add_sub_cancel_left] at hu
    have : n ≤ (unread t).length := by
      have := congrArg List.length hu
      simp at this
      omega
    rw [F_eq, if_pos this, hu]
    simp [BitStream.advance, hp, hl]
  · cases h

theorem ite {α : Type} {c : Prop} [Decidable c] {m n : BM α} (hm : Streaming m) (hn : Streaming n) :
    Streaming (if c then m else n) := by split <;> assumption

theorem map {α β : Type} {m : BM α} (f : α → β) (hm : Streaming m) : Streaming (f <$> m) := by
  have : f <$> m = m >>= fun a => Pure.pure (f a) := rfl
  rw [this]; exact bind hm fun a => pure _

end Streaming

/-- Discharges `Streaming` goals by structural decomposition. -/
macro "streaming_step" : tactic =>
  `(tactic| first
    | exact Streaming.pure _ | exact Streaming.fail _ | exact Streaming.lift _
    | exact Streaming.F _ | exact Streaming.getPos | exact Streaming.getLeb
    | exact Streaming.setLeb _
    | assumption
    | (refine Streaming.bind ?_ (fun _ => ?_))
    | (refine Streaming.map _ ?_)
    | (refine Streaming.ite ?_ ?_)
    | split
    | dsimp only)

namespace Streaming

theorem su (n : Nat) : Streaming (Gov1.su n) := by unfold Gov1.su; repeat streaming_step
theorem ns (n : Int) : Streaming (Gov1.ns n) := by unfold Gov1.ns; repeat streaming_step
theorem leLoop (n i t : Nat) : Streaming (Gov1.leLoop n i t) := by
  induction n generalizing i t with
  | zero => exact pure _
  | succ n ih => unfold Gov1.leLoop; exact bind (F 8) fun _ => ih _ _
theorem le (n : Nat) : Streaming (Gov1.le n) := leLoop _ _ _
theorem lebLoop (n i t : Nat) : Streaming (Gov1.lebLoop n i t) := by
  induction n generalizing i t with
  | zero => exact pure _
  | succ n ih =>
    unfold Gov1.lebLoop
    refine bind (F 8) fun _ => bind getLeb fun _ => bind (setLeb _) fun _ => ite (ih _ _) (pure _)
theorem leb128 : Streaming Gov1.leb128 := bind (setLeb _) fun _ => lebLoop _ _ _
theorem trailingBits (n : Int) : Streaming (Gov1.trailingBits n) := by
  unfold Gov1.trailingBits; repeat streaming_step
theorem byteAlignLoop (n : Nat) : Streaming (Gov1.byteAlignLoop n) := by
  induction n with
  | zero => exact pure _
  | succ n ih =>
    unfold Gov1.byteAlignLoop
    exact bind getPos fun _ => ite (bind (F 1) fun _ => ih) (pure _)
theorem byteAlignment : Streaming Gov1.byteAlignment := byteAlignLoop _
theorem bitS : Streaming Gov1.bitS := fail _

theorem uvlcZeros (n z : Nat) : Streaming (Gov1.uvlcZeros n z) := by
  induction n generalizing z with
  | zero => exact fail _
  | succ n ih => unfold Gov1.uvlcZeros; exact bind (F 1) fun _ => ite (pure _) (ih _)

end Streaming
end Gov1
