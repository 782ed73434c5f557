import Verif.Spec.Bits
/-! # What it means for a reader to be a well-behaved streaming reader -/
namespace Gov1

/-- A reader is *streaming* when, each time it returns,
* it has not modified the data,
* it has not moved backwards, and has not moved past the end of the data,
* its result and final position are determined by the bits it consumed: any other stream at the
  same position that starts with the same consumed bits gives the same answer. -/
def Streaming {α : Type} (m : BM α) : Prop :=
  ∀ (s : BitStream) (a : α) (s' : BitStream), m s = .ok (a, s') →
    s'.data = s.data ∧ s.pos ≤ s'.pos ∧ (s'.pos ≤ 8 * s.data.length ∨ s'.pos = s.pos) ∧
    ∀ t : BitStream, t.pos = s.pos → t.leb = s.leb →
      (unread t).take (s'.pos - s.pos) = (unread s).take (s'.pos - s.pos) →
      m t = .ok (a, { t with pos := s'.pos, leb := s'.leb })

end Gov1
