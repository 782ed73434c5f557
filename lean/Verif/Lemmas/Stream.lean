import Verif.Model.Obu
import Verif.Lemmas.Ensures
/-! # Invariants of a whole stream -/
namespace Gov1

/-- Facts about the state, the sequence header, the frame header and the tile group that every parser keeps. -/
structure Codec.Keeps (C : Codec) (S : State × C.R → Prop) (Q : SeqHeader → Prop) (U : C.UH → Prop) (T : SeqHeader → C.UH → C.TG → Prop) : Prop where
  /-- only the part of the state that `Codec` knows matters -/
  free : ∀ s s' r, S (s, r) → S (s', r)
  start : S ({}, C.newR C.startR)
  fresh : ∀ s r, S (s, r) → S ({}, C.newR r)
  seq0 : Q {}
  seq : ∀ s, Ensures (newSequenceHeader s) (fun x => Q x.1)
  uh0 : U C.zeroUH
  tg0 : ∀ sh u, Q sh → U u → T sh u C.zeroTG
  uh : ∀ h sh st, S st → Q sh → Ensures (C.parseUH h sh st) (fun x => U x.1 ∧ S x.2)
  tg : ∀ sz st u sh, S st → Q sh → U u → Ensures (C.tileGroup sz st u sh) (fun x => T sh u x.1 ∧ S x.2)

variable {C : Codec} {S : State × C.R → Prop} {Q : SeqHeader → Prop} {U : C.UH → Prop} {T : SeqHeader → C.UH → C.TG → Prop}

/-- What holds of an OBU. -/
def ObuFacts (Q : SeqHeader → Prop) (U : C.UH → Prop) (T : SeqHeader → C.UH → C.TG → Prop) (o : Obu C) : Prop :=
  Q o.sequenceHeader ∧ U o.uncompressedHeader ∧ T o.sequenceHeader o.uncompressedHeader o.tileGroup

namespace Codec.Keeps
variable (hK : C.Keeps S Q U T)
include hK

theorem frameHeader (h : Header) (sh : SeqHeader) (st : State × C.R) (hS : S st) (hQ : Q sh) :
    Ensures (parseFrameHeader C h sh st) (fun x => U x.1 ∧ S x.2) := by
  unfold parseFrameHeader
  refine Ensures.ite (fun _ => Ensures.fail _) (fun _ => ?_)
  refine Ensures.bind (hK.uh h sh _ (hK.free _ _ _ hS) hQ) fun x hx => ?_
  dsimp only
  refine Ensures.ite (fun _ => Ensures.fail _) (fun _ => Ensures.pure ?_)
  exact ⟨hx.1, hK.free _ _ _ hx.2⟩

theorem frame (sz : Int) (h : Header) (sh : SeqHeader) (st : State × C.R) (hS : S st) (hQ : Q sh) :
    Ensures (newFrame C sz h sh st) (fun x => U x.1 ∧ T sh x.1 x.2.1 ∧ S x.2.2) := by
  unfold newFrame
  refine Ensures.bindT fun _ => ?_
  refine Ensures.bind (hK.frameHeader h sh st hS hQ) fun x hx => ?_
  refine Ensures.bindT fun _ => ?_
  refine Ensures.bindT fun _ => ?_
  refine Ensures.bind (hK.tg _ _ _ sh hx.2 hQ hx.1) fun y hy => Ensures.pure ?_
  exact ⟨hx.1, hy.1, hy.2⟩

theorem payload (o : Obu C) (st : State × C.R) (hS : S st) (hO : ObuFacts Q U T o) (hz : o.tileGroup = C.zeroTG) :
    Ensures (obuPayload C o st) (fun x => ObuFacts Q U T x.1 ∧ S x.2) := by
  obtain ⟨hQ, hU, hT⟩ := hO
  unfold obuPayload
  refine Ensures.ite (fun _ => ?_) (fun _ => ?_)
  · refine Ensures.bind (hK.seq st.1) fun x hx => Ensures.pure ⟨⟨hx, hU, ?_⟩, hK.free _ _ _ hS⟩
    show T x.1 o.uncompressedHeader o.tileGroup
    rw [hz]; exact hK.tg0 _ _ hx hU
  refine Ensures.ite (fun _ => Ensures.pure ⟨⟨hQ, hU, hT⟩, hK.free _ _ _ hS⟩) (fun _ => ?_)
  refine Ensures.ite (fun _ => ?_) (fun _ => ?_)
  · refine Ensures.bind (hK.frameHeader _ _ st hS hQ) fun x hx => Ensures.pure ⟨⟨hQ, hx.1, ?_⟩, hx.2⟩
    show T o.sequenceHeader x.1 o.tileGroup
    rw [hz]; exact hK.tg0 _ _ hQ hx.1
  refine Ensures.ite (fun _ => ?_) (fun _ => ?_)
  · exact Ensures.bind (hK.frameHeader _ _ st hS hQ) fun x hx => Ensures.pure ⟨⟨hQ, hU, hT⟩, hx.2⟩
  refine Ensures.ite (fun _ => ?_) (fun _ => ?_)
  · exact Ensures.bind (hK.frame _ _ _ st hS hQ) fun x hx => Ensures.pure ⟨⟨hQ, hx.1, hx.2.1⟩, hx.2.2⟩
  refine Ensures.ite (fun _ => ?_) (fun _ => ?_)
  · exact Ensures.bindT fun _ => Ensures.pure ⟨⟨hQ, hU, hT⟩, hS⟩
  refine Ensures.ite (fun _ => ?_) (fun _ => Ensures.fail _)
  exact Ensures.bind (hK.tg _ st _ _ hS hQ hU) fun x hx => Ensures.pure ⟨⟨hQ, hU, hx.1⟩, hx.2⟩

theorem obu (sz : Int) (st : State × C.R) (sh : SeqHeader) (u : C.UH) (hS : S st) (hQ : Q sh) (hU : U u) :
    Ensures (newObu C sz st sh u) (fun x => ObuFacts Q U T x.1 ∧ S x.2) := by
  unfold newObu
  refine Ensures.bindT fun h => Ensures.bindT fun size => Ensures.bindT fun pos => ?_
  dsimp only
  have h0 : ObuFacts Q U T ({ size := size, header := h, sequenceHeader := sh, uncompressedHeader := u, tileGroup := C.zeroTG } : Obu C) :=
    ⟨hQ, hU, hK.tg0 _ _ hQ hU⟩
  refine Ensures.ite (fun _ => Ensures.bindT fun _ => Ensures.pure ⟨h0, hS⟩) (fun _ => ?_)
  refine Ensures.bind (hK.payload _ st hS h0 rfl) fun x hx => Ensures.bindT fun _ => ?_
  exact Ensures.ite (fun _ => Ensures.bindT fun _ => Ensures.pure hx) (fun _ => Ensures.pure hx)

/-- The facts about a parser. -/
def _root_.Gov1.ParserFacts (S : State × C.R → Prop) (Q : SeqHeader → Prop) (U : C.UH → Prop) (T : SeqHeader → C.UH → C.TG → Prop) (p : Parser C) : Prop :=
  S ({}, C.newR p.rest) ∧ Q p.sequenceHeader ∧ U p.uncompressedHeader ∧ ∀ o ∈ p.obus, ObuFacts Q U T o

theorem unitLoop (fuel : Nat) (sz : Int) (st : State × C.R) (p : Parser C) (hS : S st) (hP : ParserFacts S Q U T p) :
    Ensures (frameUnitLoop C fuel sz st p) (ParserFacts S Q U T) := by
  induction fuel generalizing sz st p with
  | zero =>
    unfold frameUnitLoop
    refine Ensures.ite (fun _ => Ensures.fail _) (fun _ => Ensures.pure ⟨hK.fresh st.1 st.2 hS, hP.2⟩)
  | succ n ih =>
    unfold frameUnitLoop
    refine Ensures.ite (fun _ => ?_) (fun _ => Ensures.pure ⟨hK.fresh st.1 st.2 hS, hP.2⟩)
    refine Ensures.bindT fun len => Ensures.bindT fun k => ?_
    dsimp only
    refine Ensures.bind (hK.obu len st _ _ hS hP.2.1 hP.2.2.1) fun x hx => ?_
    have hobus : ∀ o ∈ p.obus ++ [x.1], ObuFacts Q U T o := by
      intro o ho
      rcases List.mem_append.mp ho with h | h
      · exact hP.2.2.2 o h
      · rw [List.mem_singleton.mp h]; exact hx.1
    refine ih _ _ _ hx.2 ?_
    split
    · exact ⟨hP.1, hx.1.1, hP.2.2.1, hobus⟩
    · split
      · exact ⟨hP.1, hP.2.1, hx.1.2.1, hobus⟩
      · exact ⟨hP.1, hP.2.1, hP.2.2.1, hobus⟩

theorem temporalLoop (fuel : Nat) (sz : Int) (p : Parser C) (hP : ParserFacts S Q U T p) :
    Ensures (temporalUnitLoop C fuel sz p) (ParserFacts S Q U T) := by
  induction fuel generalizing sz p with
  | zero =>
    unfold temporalUnitLoop
    exact Ensures.ite (fun _ => Ensures.fail _) (fun _ => Ensures.pure hP)
  | succ n ih =>
    unfold temporalUnitLoop
    refine Ensures.ite (fun _ => ?_) (fun _ => Ensures.pure hP)
    refine Ensures.bindT fun len => Ensures.bindT fun k => ?_
    exact Ensures.bind (hK.unitLoop _ _ _ p hP.1 hP) fun q hq => ih _ _ hq

theorem streamLoop (fuel : Nat) (p : Parser C) (hP : ParserFacts S Q U T p) :
    Ensures (bitstreamLoop C fuel p) (ParserFacts S Q U T) := by
  induction fuel generalizing p with
  | zero =>
    intro s a s' h
    unfold bitstreamLoop at h
    split at h
    · cases h
    · cases h; exact hP
  | succ n ih =>
    intro s a s' h
    unfold bitstreamLoop at h
    split at h
    · exact (Ensures.bindT fun sz => Ensures.bind (hK.temporalLoop _ _ p hP) fun q hq => ih q hq) s a s' h
    · cases h; exact hP

/-- Every OBU of a stream satisfies the facts. -/
theorem stream : Ensures (parseStream C) (fun l => ∀ o ∈ l, ObuFacts Q U T o) := by
  intro s a s' h
  unfold parseStream at h
  refine Ensures.bind (Q := fun l => ∀ o ∈ l, ObuFacts Q U T o) (hK.streamLoop _ _ ?_) (fun p hp => Ensures.pure hp.2.2.2) s a s' h
  exact ⟨hK.start, hK.seq0, hK.uh0, by intro o ho; cases ho⟩

end Codec.Keeps
end Gov1
