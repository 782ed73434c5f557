import Verif.Lemmas.Movable
import Verif.Props.SeqHeader
/-! # The sequence header does not depend on where it stands -/
namespace Gov1
namespace Movable

theorem uvlcZeros (n z : Nat) : Movable (Gov1.uvlcZeros n z) := by
  induction n generalizing z with
  | zero => exact fail _
  | succ n ih => unfold Gov1.uvlcZeros; exact bind (F 1) fun _ => ite (pure _) (ih _)

theorem uvlcZeros_stable : ∀ (f z : Nat) (f' : Nat) (s : BitStream), f ≤ f' → Gov1.uvlcZeros f z s ≠ .error .hang → Gov1.uvlcZeros f' z s = Gov1.uvlcZeros f z s := by
  intro f
  induction f with
  | zero => intro z f' s _ h; exact absurd rfl h
  | succ f ih =>
    intro z f' s hf h
    obtain ⟨g, rfl⟩ : ∃ g, f' = g + 1 := ⟨f' - 1, by omega⟩
    unfold Gov1.uvlcZeros at h ⊢
    rw [BM.bind_apply] at h ⊢
    rw [BM.bind_apply]
    cases hfl : Gov1.F 1 s with
    | error e => rfl
    | ok p =>
      obtain ⟨b, s1⟩ := p
      rw [hfl] at h
      dsimp only at h ⊢
      split
      · rfl
      · rename_i hb
        rw [if_neg hb] at h
        exact ih (z + 1) g s1 (by omega) h

theorem uvlc : Movable Gov1.uvlc := by
  have : Gov1.uvlc = ((fun s => Gov1.uvlcZeros (8 * s.data.length + 1) 0 s : BM Nat) >>= fun leadingZeros =>
      if leadingZeros ≥ 32 then Pure.pure ((1 <<< 32) - 1)
      else Gov1.F leadingZeros >>= fun v => Pure.pure (v + (1 <<< leadingZeros) - 1)) := rfl
  rw [this]
  refine bind (Movable.fuel (m := fun f => Gov1.uvlcZeros f 0) (fun f => uvlcZeros f 0) (fun f f' s h1 h2 => uvlcZeros_stable f 0 f' s h1 h2) fun s h => ?_)
    fun _ => ite (pure _) (bind (F _) fun _ => pure _)
  rcases zeros_split (unread s) with ⟨k, rest, hs⟩ | hs
  · rw [uvlcZeros_run k _ 0 s _ hs (uvlc_fuel s k _ hs)] at h
    cases h
  · rw [uvlcZeros_all _ _ _ s hs (by rw [unread_length]; omega)] at h
    cases h

theorem colorConfig (p : Nat) : Movable (newColorConfig p) := by
  unfold newColorConfig ccBitDepth ccDescription ccSubsampling
  repeat first | exact Movable.flag | movable_step

theorem timingInfo : Movable newTimingInfo := by
  unfold newTimingInfo
  repeat first | exact Movable.flag | exact Movable.uvlc | movable_step

theorem opPointStep (s : SeqHeader) (l : List Nat) (i : Nat) : Movable (Gov1.opPointStep s l i) := by
  unfold Gov1.opPointStep operatingParametersInfo
  repeat first | exact Movable.flag | movable_step

theorem opPointLoop (k i : Nat) (s : SeqHeader) (l : List Nat) : Movable (Gov1.opPointLoop k i s l) := by
  induction k generalizing i s l with
  | zero => exact Movable.pure _
  | succ k ih =>
    unfold Gov1.opPointLoop
    exact Movable.bind (Movable.opPointStep _ _ _) fun _ => ih _ _ _

end Movable

/-- C07: the sequence header is determined by its bits, wherever they stand. -/
theorem C07_sequenceHeader_anywhere (st : State) : Movable (newSequenceHeader st) := by
  unfold newSequenceHeader seqBody seqTiming seqFrameSize seqTools seqScreenContent
  repeat first
    | exact Movable.flag | exact Movable.colorConfig _ | exact Movable.timingInfo
    | exact Movable.opPointLoop _ _ _ _ | movable_step

end Gov1
