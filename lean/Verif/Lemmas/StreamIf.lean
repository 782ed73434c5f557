import Verif.Model.Obu
import Verif.Lemmas.Ensures
/-! # Invariants of the streams whose tile groups all have sequence headers of one kind -/
namespace Gov1

/-- A fact about the state that every parser keeps, tile groups at least under the sequence headers `G`; they give tile groups with `T`. -/
structure Codec.KeepsIf (C : Codec) (S : State × C.R → Prop) (G : SeqHeader → Prop) (T : SeqHeader → C.UH → C.TG → Prop) : Prop where
  free : ∀ s s' r, S (s, r) → S (s', r)
  start : S ({}, C.newR C.startR)
  fresh : ∀ s r, S (s, r) → S ({}, C.newR r)
  tg0 : ∀ sh u, T sh u C.zeroTG
  uh : ∀ h sh st, S st → Ensures (C.parseUH h sh st) (fun x => S x.2)
  tg : ∀ sz st u sh, S st → G sh → Ensures (C.tileGroup sz st u sh) (fun x => T sh u x.1 ∧ S x.2)

variable {C : Codec} {S : State × C.R → Prop} {G : SeqHeader → Prop} {T : SeqHeader → C.UH → C.TG → Prop}

/-- If it is one of a type that carries tiles, the OBU has a sequence header `G`. -/
def GoodObu (G : SeqHeader → Prop) (o : Obu C) : Prop := o.header.type = OBU_FRAME ∨ o.header.type = OBU_TILE_GROUP → G o.sequenceHeader

/-- `T` of the parts of an OBU. -/
def TObu (T : SeqHeader → C.UH → C.TG → Prop) (o : Obu C) : Prop := T o.sequenceHeader o.uncompressedHeader o.tileGroup

namespace Codec.KeepsIf
variable (hK : C.KeepsIf S G T)
include hK

theorem frameHeader (h : Header) (sh : SeqHeader) (st : State × C.R) (hS : S st) : Ensures (parseFrameHeader C h sh st) (fun x => S x.2) := by
  unfold parseFrameHeader
  refine Ensures.ite (fun _ => Ensures.fail _) (fun _ => ?_)
  refine Ensures.bind (hK.uh h sh _ (hK.free _ _ _ hS)) fun x hx => ?_
  dsimp only
  exact Ensures.ite (fun _ => Ensures.fail _) (fun _ => Ensures.pure (hK.free _ _ _ hx))

theorem payload (o : Obu C) (st : State × C.R) (hS : S st) (hz : o.tileGroup = C.zeroTG) : Ensures (obuPayload C o st) (fun x => GoodObu G x.1 → TObu T x.1 ∧ S x.2) := by
  have h0 : TObu T o := by unfold TObu; rw [hz]; exact hK.tg0 _ _
  unfold obuPayload
  refine Ensures.ite (fun _ => ?_) (fun _ => ?_)
  · refine Ensures.bindT fun x => Ensures.pure fun _ => ⟨?_, hK.free _ _ _ hS⟩
    show T _ _ o.tileGroup
    rw [hz]; exact hK.tg0 _ _
  refine Ensures.ite (fun _ => Ensures.pure fun _ => ⟨h0, hK.free _ _ _ hS⟩) (fun _ => ?_)
  refine Ensures.ite (fun _ => ?_) (fun _ => ?_)
  · refine Ensures.bind (hK.frameHeader _ _ st hS) fun x hx => Ensures.pure fun _ => ⟨?_, hx⟩
    show T _ _ o.tileGroup
    rw [hz]; exact hK.tg0 _ _
  refine Ensures.ite (fun _ => ?_) (fun _ => ?_)
  · exact Ensures.bind (hK.frameHeader _ _ st hS) fun x hx => Ensures.pure fun _ => ⟨h0, hx⟩
  refine Ensures.ite (fun ht => ?_) (fun _ => ?_)
  · by_cases hg : G o.sequenceHeader
    · refine Ensures.bind (P := fun x : C.UH × C.TG × (State × C.R) => T o.sequenceHeader x.1 x.2.1 ∧ S x.2.2) ?_ fun x hx => Ensures.pure fun _ => hx
      unfold newFrame
      refine Ensures.bindT fun _ => Ensures.bind (hK.frameHeader _ _ st hS) fun x hx => Ensures.bindT fun _ => Ensures.bindT fun _ => ?_
      exact Ensures.bind (hK.tg _ _ _ _ hx hg) fun y hy => Ensures.pure hy
    · exact Ensures.bindT fun x => Ensures.pure fun h => absurd (h (Or.inl ht)) hg
  refine Ensures.ite (fun _ => ?_) (fun _ => ?_)
  · exact Ensures.bindT fun _ => Ensures.pure fun _ => ⟨h0, hS⟩
  refine Ensures.ite (fun ht => ?_) (fun _ => Ensures.fail _)
  by_cases hg : G o.sequenceHeader
  · exact Ensures.bind (hK.tg _ st _ _ hS hg) fun x hx => Ensures.pure fun _ => hx
  · exact Ensures.bindT fun x => Ensures.pure fun h => absurd (h (Or.inr ht)) hg

theorem obu (sz : Int) (st : State × C.R) (sh : SeqHeader) (u : C.UH) (hS : S st) : Ensures (newObu C sz st sh u) (fun x => GoodObu G x.1 → TObu T x.1 ∧ S x.2) := by
  unfold newObu
  refine Ensures.bindT fun h => Ensures.bindT fun size => Ensures.bindT fun pos => ?_
  dsimp only
  refine Ensures.ite (fun _ => Ensures.bindT fun _ => Ensures.pure fun _ => ⟨hK.tg0 _ _, hS⟩) (fun _ => ?_)
  refine Ensures.bind (hK.payload _ st hS rfl) fun x hx => Ensures.bindT fun _ => ?_
  exact Ensures.ite (fun _ => Ensures.bindT fun _ => Ensures.pure hx) (fun _ => Ensures.pure hx)

/-- What is known of a parser that has read OBUs. -/
def _root_.Gov1.ParserIf (S : State × C.R → Prop) (T : SeqHeader → C.UH → C.TG → Prop) (p : Parser C) : Prop := S ({}, C.newR p.rest) ∧ ∀ o ∈ p.obus, TObu T o

theorem unitLoop (fuel : Nat) (sz : Int) (st : State × C.R) (p : Parser C) (hS : (∀ o ∈ p.obus, GoodObu G o) → S st ∧ ParserIf S T p) :
    Ensures (frameUnitLoop C fuel sz st p) (fun q => (∀ o ∈ p.obus, o ∈ q.obus) ∧ ((∀ o ∈ q.obus, GoodObu G o) → ParserIf S T q)) := by
  induction fuel generalizing sz st p with
  | zero =>
    unfold frameUnitLoop
    refine Ensures.ite (fun _ => Ensures.fail _) (fun _ => Ensures.pure ⟨fun o ho => ho, fun hg => ?_⟩)
    obtain ⟨h1, h2⟩ := hS hg
    exact ⟨hK.fresh st.1 st.2 h1, h2.2⟩
  | succ n ih =>
    unfold frameUnitLoop
    refine Ensures.ite (fun _ => ?_) (fun _ => Ensures.pure ⟨fun o ho => ho, fun hg => ?_⟩)
    · refine Ensures.bindT fun len => Ensures.bindT fun k => ?_
      dsimp only
      refine Ensures.bind (P := fun x : Obu C × (State × C.R) => (∀ o ∈ p.obus, GoodObu G o) → GoodObu G x.1 → TObu T x.1 ∧ S x.2) (fun s x s' h hg => hK.obu len st _ _ (hS hg).1 s x s' h) fun x hx => ?_
      have hobus : ∀ q : Parser C, q.obus = p.obus ++ [x.1] → q.rest = p.rest → (∀ o ∈ q.obus, GoodObu G o) → S x.2 ∧ ParserIf S T q := by
        intro q hq hr hg
        rw [hq] at hg
        have hp : ∀ o ∈ p.obus, GoodObu G o := fun o ho => hg o (List.mem_append_left _ ho)
        obtain ⟨h1, h2⟩ := hx hp (hg x.1 (List.mem_append_right _ (List.mem_singleton.mpr rfl)))
        refine ⟨h2, by rw [hr]; exact (hS hp).2.1, fun o ho => ?_⟩
        rw [hq] at ho
        rcases List.mem_append.mp ho with ho | ho
        · exact (hS hp).2.2 o ho
        · rw [List.mem_singleton.mp ho]; exact h1
      have hsub : ∀ q : Parser C, q.obus = p.obus ++ [x.1] → ∀ o ∈ p.obus, o ∈ q.obus := fun q hq o ho => by rw [hq]; exact List.mem_append_left _ ho
      refine (ih _ _ _ ?_).mono fun q hq => ⟨fun o ho => hq.1 o ?_, hq.2⟩
      · split
        · exact hobus _ rfl rfl
        · split
          · exact hobus _ rfl rfl
          · exact hobus _ rfl rfl
      · split
        · exact hsub _ rfl o ho
        · split
          · exact hsub _ rfl o ho
          · exact hsub _ rfl o ho
    · obtain ⟨h1, h2⟩ := hS hg
      exact ⟨hK.fresh st.1 st.2 h1, h2.2⟩

theorem temporalLoop (fuel : Nat) (sz : Int) (p : Parser C) (hP : (∀ o ∈ p.obus, GoodObu G o) → ParserIf S T p) :
    Ensures (temporalUnitLoop C fuel sz p) (fun q => (∀ o ∈ p.obus, o ∈ q.obus) ∧ ((∀ o ∈ q.obus, GoodObu G o) → ParserIf S T q)) := by
  induction fuel generalizing sz p with
  | zero =>
    unfold temporalUnitLoop
    exact Ensures.ite (fun _ => Ensures.fail _) (fun _ => Ensures.pure ⟨fun _ h => h, hP⟩)
  | succ n ih =>
    unfold temporalUnitLoop
    refine Ensures.ite (fun _ => ?_) (fun _ => Ensures.pure ⟨fun _ h => h, hP⟩)
    refine Ensures.bindT fun len => Ensures.bindT fun k => ?_
    refine Ensures.bind (hK.unitLoop _ _ _ p fun hg => ⟨(hP hg).1, hP hg⟩) fun q hq => ?_
    exact (ih _ _ hq.2).mono fun r hr => ⟨fun o ho => hr.1 o (hq.1 o ho), hr.2⟩

theorem streamLoop (fuel : Nat) (p : Parser C) (hP : (∀ o ∈ p.obus, GoodObu G o) → ParserIf S T p) :
    Ensures (bitstreamLoop C fuel p) (fun q => (∀ o ∈ q.obus, GoodObu G o) → ParserIf S T q) := by
  induction fuel generalizing p with
  | zero =>
    intro s a s' h
    unfold bitstreamLoop at h
    split at h
    · cases h
    · cases h; exact hP
  | succ n ih =>
    intro s a s' h
    unfold bitstreamLoop at h
    split at h
    · exact (Ensures.bindT fun sz => Ensures.bind (hK.temporalLoop _ _ p hP) fun q hq => ih q hq.2) s a s' h
    · cases h; exact hP

/-- Every OBU of a stream all of whose OBUs with tiles have a sequence header `G`. -/
theorem stream : Ensures (parseStream C) (fun l => (∀ o ∈ l, GoodObu G o) → ∀ o ∈ l, TObu T o) := by
  intro s a s' h
  unfold parseStream at h
  refine Ensures.bind (Q := fun l => (∀ o ∈ l, GoodObu G o) → ∀ o ∈ l, TObu T o) (hK.streamLoop _ _ ?_) (fun p hp => Ensures.pure fun hg => (hp hg).2) s a s' h
  exact fun _ => ⟨hK.start, by intro o ho; cases ho⟩

end Codec.KeepsIf
end Gov1
