import Verif.Model.Obu
import Verif.Lemmas.Ensures
/-! # Facts about the state and the OBUs read so far -/
namespace Gov1

/-- A relation between the OBUs read so far and the state, kept by every parser.  OBUs without tiles have the zero tile group. -/
structure Codec.Hist (C : Codec) (I : List (Obu C) → State × C.R → Prop) : Prop where
  free : ∀ l s s' r, I l (s, r) → I l (s', r)
  start : I [] ({}, C.newR C.startR)
  fresh : ∀ l s r, I l (s, r) → I l ({}, C.newR r)
  skip : ∀ l st o, I l st → o.tileGroup = C.zeroTG → I (l ++ [o]) st
  uh : ∀ l h sh st, I l st → Ensures (C.parseUH h sh st) (fun x => I l x.2)
  tg : ∀ l sz st u sh, I l st → Ensures (C.tileGroup sz st u sh) (fun x => ∀ o : Obu C, o.sequenceHeader = sh → o.uncompressedHeader = u → o.tileGroup = x.1 → I (l ++ [o]) x.2)

variable {C : Codec} {I : List (Obu C) → State × C.R → Prop}

namespace Codec.Hist
variable (hK : C.Hist I)
include hK

theorem frameHeader (l : List (Obu C)) (h : Header) (sh : SeqHeader) (st : State × C.R) (hS : I l st) : Ensures (parseFrameHeader C h sh st) (fun x => I l x.2) := by
  unfold parseFrameHeader
  refine Ensures.ite (fun _ => Ensures.fail _) (fun _ => ?_)
  refine Ensures.bind (hK.uh l h sh _ (hK.free _ _ _ _ hS)) fun x hx => ?_
  dsimp only
  exact Ensures.ite (fun _ => Ensures.fail _) (fun _ => Ensures.pure (hK.free _ _ _ _ hx))

theorem payload (l : List (Obu C)) (o : Obu C) (st : State × C.R) (hS : I l st) (hz : o.tileGroup = C.zeroTG) : Ensures (obuPayload C o st) (fun x => I (l ++ [x.1]) x.2) := by
  unfold obuPayload
  refine Ensures.ite (fun _ => ?_) (fun _ => ?_)
  · exact Ensures.bindT fun x => Ensures.pure (hK.skip _ _ _ (hK.free _ _ _ _ hS) hz)
  refine Ensures.ite (fun _ => Ensures.pure (hK.skip _ _ _ (hK.free _ _ _ _ hS) hz)) (fun _ => ?_)
  refine Ensures.ite (fun _ => ?_) (fun _ => ?_)
  · exact Ensures.bind (hK.frameHeader _ _ _ st hS) fun x hx => Ensures.pure (hK.skip _ _ _ hx hz)
  refine Ensures.ite (fun _ => ?_) (fun _ => ?_)
  · exact Ensures.bind (hK.frameHeader _ _ _ st hS) fun x hx => Ensures.pure (hK.skip _ _ _ hx hz)
  refine Ensures.ite (fun ht => ?_) (fun _ => ?_)
  · refine Ensures.bind (P := fun x : C.UH × C.TG × (State × C.R) => ∀ o' : Obu C, o'.sequenceHeader = o.sequenceHeader → o'.uncompressedHeader = x.1 → o'.tileGroup = x.2.1 → I (l ++ [o']) x.2.2) ?_
      fun x hx => Ensures.pure (hx _ rfl rfl rfl)
    unfold newFrame
    refine Ensures.bindT fun _ => Ensures.bind (hK.frameHeader l _ _ st hS) fun x hx => Ensures.bindT fun _ => Ensures.bindT fun _ => ?_
    exact Ensures.bind (hK.tg _ _ _ _ _ hx) fun y hy => Ensures.pure hy
  refine Ensures.ite (fun _ => ?_) (fun _ => ?_)
  · exact Ensures.bindT fun _ => Ensures.pure (hK.skip _ _ _ hS hz)
  refine Ensures.ite (fun ht => ?_) (fun _ => Ensures.fail _)
  exact Ensures.bind (hK.tg _ _ st _ _ hS) fun x hx => Ensures.pure (hx _ rfl rfl rfl)

theorem obu (l : List (Obu C)) (sz : Int) (st : State × C.R) (sh : SeqHeader) (u : C.UH) (hS : I l st) : Ensures (newObu C sz st sh u) (fun x => I (l ++ [x.1]) x.2) := by
  unfold newObu
  refine Ensures.bindT fun h => Ensures.bindT fun size => Ensures.bindT fun pos => ?_
  dsimp only
  refine Ensures.ite (fun _ => Ensures.bindT fun _ => Ensures.pure (hK.skip _ _ _ hS rfl)) (fun _ => ?_)
  refine Ensures.bind (hK.payload l _ st hS rfl) fun x hx => Ensures.bindT fun _ => ?_
  exact Ensures.ite (fun _ => Ensures.bindT fun _ => Ensures.pure hx) (fun _ => Ensures.pure hx)

theorem unitLoop (fuel : Nat) (sz : Int) (st : State × C.R) (p : Parser C) (hS : I p.obus st) : Ensures (frameUnitLoop C fuel sz st p) (fun q => I q.obus ({}, C.newR q.rest)) := by
  induction fuel generalizing sz st p with
  | zero =>
    unfold frameUnitLoop
    exact Ensures.ite (fun _ => Ensures.fail _) (fun _ => Ensures.pure (hK.fresh _ st.1 st.2 hS))
  | succ n ih =>
    unfold frameUnitLoop
    refine Ensures.ite (fun _ => ?_) (fun _ => Ensures.pure (hK.fresh _ st.1 st.2 hS))
    refine Ensures.bindT fun len => Ensures.bindT fun k => ?_
    dsimp only
    refine Ensures.bind (hK.obu p.obus len st _ _ hS) fun x hx => ?_
    refine ih _ _ _ ?_
    split
    · exact hx
    · split
      · exact hx
      · exact hx

theorem temporalLoop (fuel : Nat) (sz : Int) (p : Parser C) (hP : I p.obus ({}, C.newR p.rest)) : Ensures (temporalUnitLoop C fuel sz p) (fun q => I q.obus ({}, C.newR q.rest)) := by
  induction fuel generalizing sz p with
  | zero =>
    unfold temporalUnitLoop
    exact Ensures.ite (fun _ => Ensures.fail _) (fun _ => Ensures.pure hP)
  | succ n ih =>
    unfold temporalUnitLoop
    refine Ensures.ite (fun _ => ?_) (fun _ => Ensures.pure hP)
    refine Ensures.bindT fun len => Ensures.bindT fun k => ?_
    exact Ensures.bind (hK.unitLoop _ _ _ p hP) fun q hq => ih _ _ hq

theorem streamLoop (fuel : Nat) (p : Parser C) (hP : I p.obus ({}, C.newR p.rest)) : Ensures (bitstreamLoop C fuel p) (fun q => I q.obus ({}, C.newR q.rest)) := by
  induction fuel generalizing p with
  | zero =>
    intro s a s' h
    unfold bitstreamLoop at h
    split at h
    · cases h
    · cases h; exact hP
  | succ n ih =>
    intro s a s' h
    unfold bitstreamLoop at h
    split at h
    · exact (Ensures.bindT fun sz => Ensures.bind (hK.temporalLoop _ _ p hP) fun q hq => ih q hq) s a s' h
    · cases h; exact hP

/-- What is known after a stream. -/
theorem stream : Ensures (parseStream C) (fun l => ∃ r, I l ({}, C.newR r)) := by
  intro s a s' h
  unfold parseStream at h
  exact Ensures.bind (Q := fun l => ∃ r, I l ({}, C.newR r)) (hK.streamLoop _ _ hK.start) (fun p hp => Ensures.pure ⟨p.rest, hp⟩) s a s' h

end Codec.Hist
end Gov1
