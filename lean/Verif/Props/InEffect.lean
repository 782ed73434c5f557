import Verif.Props.StreamComplete
import Verif.Props.Obu
import Verif.Lemmas.Ensures
/-!
# C194: the headers in effect

Which sequence header and which frame header an OBU of a stream is decoded with.
-/
namespace Gov1

namespace Spec

/-- The last OBU of a type. -/
def lastOf {C : Codec} (type : Nat) (l : List (Obu C)) : Option (Obu C) := (l.filter (fun o => o.header.type = type)).getLast?

/-- The sequence header in effect after some OBUs: that of the last sequence header OBU (type 1). -/
def seqAfter {C : Codec} (l : List (Obu C)) : SeqHeader := ((lastOf 1 l).map (fun o => o.sequenceHeader)).getD {}

/-- The frame header in effect after some OBUs: that of the last frame header OBU (type 3). -/
def uhAfter {C : Codec} (l : List (Obu C)) : C.UH := ((lastOf 3 l).map (fun o => o.uncompressedHeader)).getD C.zeroUH

/-- An OBU is decoded with the headers in effect, unless it brings its own: a sequence header OBU (1) a sequence header, a frame header (3) or frame OBU (6) a frame header. -/
def InEffect {C : Codec} (l1 : List (Obu C)) (o : Obu C) : Prop :=
  (o.header.type ≠ 1 → o.sequenceHeader = seqAfter l1) ∧ (o.header.type ≠ 3 → o.header.type ≠ 6 → o.uncompressedHeader = uhAfter l1)

end Spec
open Spec

variable {C : Codec}

theorem lastOf_snoc (type : Nat) (l : List (Obu C)) (o : Obu C) : lastOf type (l ++ [o]) = if o.header.type = type then some o else lastOf type l := by
  unfold lastOf
  rw [List.filter_append]
  split
  · rename_i h
    simp [h]
  · rename_i h
    simp [h]

theorem seqAfter_snoc (l : List (Obu C)) (o : Obu C) : seqAfter (l ++ [o]) = if o.header.type = 1 then o.sequenceHeader else seqAfter l := by
  unfold seqAfter
  rw [lastOf_snoc]
  split <;> rfl

theorem uhAfter_snoc (l : List (Obu C)) (o : Obu C) : uhAfter (l ++ [o]) = if o.header.type = 3 then o.uncompressedHeader else uhAfter l := by
  unfold uhAfter
  rw [lastOf_snoc]
  split <;> rfl

/-- Reading an OBU. -/
theorem newObu_headers (sz : Int) (st : State × C.R) (sh : SeqHeader) (u : C.UH) : Ensures (newObu C sz st sh u) (fun x =>
    (x.1.header.type ≠ 1 → x.1.sequenceHeader = sh) ∧ (x.1.header.type ≠ 3 → x.1.header.type ≠ 6 → x.1.uncompressedHeader = u)) := by
  have hp : ∀ (o : Obu C) (st : State × C.R), Ensures (obuPayload C o st) (fun x => x.1.header = o.header ∧
      (o.header.type ≠ 1 → x.1.sequenceHeader = o.sequenceHeader) ∧ (o.header.type ≠ 3 → o.header.type ≠ 6 → x.1.uncompressedHeader = o.uncompressedHeader)) := by
    intro o st
    unfold obuPayload
    refine Ensures.ite (fun h => Ensures.bindT fun _ => Ensures.pure ⟨rfl, fun h' => absurd h h', fun _ _ => rfl⟩) fun _ => ?_
    refine Ensures.ite (fun h => Ensures.pure ⟨rfl, fun _ => rfl, fun _ _ => rfl⟩) fun _ => ?_
    refine Ensures.ite (fun h => Ensures.bindT fun _ => Ensures.pure ⟨rfl, fun _ => rfl, fun h' => absurd h h'⟩) fun _ => ?_
    refine Ensures.ite (fun h => Ensures.bindT fun _ => Ensures.pure ⟨rfl, fun _ => rfl, fun _ _ => rfl⟩) fun _ => ?_
    refine Ensures.ite (fun h => Ensures.bindT fun _ => Ensures.pure ⟨rfl, fun _ => rfl, fun _ h' => absurd h h'⟩) fun _ => ?_
    refine Ensures.ite (fun h => Ensures.bindT fun _ => Ensures.pure ⟨rfl, fun _ => rfl, fun _ _ => rfl⟩) fun _ => ?_
    exact Ensures.ite (fun h => Ensures.bindT fun _ => Ensures.pure ⟨rfl, fun _ => rfl, fun _ _ => rfl⟩) fun _ => Ensures.fail _
  unfold newObu
  refine Ensures.bindT fun h => Ensures.bindT fun size => Ensures.bindT fun pos => ?_
  dsimp only
  refine Ensures.ite (fun _ => Ensures.bindT fun _ => Ensures.pure ⟨fun _ => rfl, fun _ _ => rfl⟩) fun _ => ?_
  refine Ensures.bind (hp _ st) fun x hx => Ensures.bindT fun _ => ?_
  obtain ⟨h1, h2, h3⟩ := hx
  have : (x.1.header.type ≠ 1 → x.1.sequenceHeader = sh) ∧ (x.1.header.type ≠ 3 → x.1.header.type ≠ 6 → x.1.uncompressedHeader = u) := by
    rw [h1]; exact ⟨h2, h3⟩
  exact Ensures.ite (fun _ => Ensures.bindT fun _ => Ensures.pure this) (fun _ => Ensures.pure this)

/-- What a parser knows. -/
def Knows (p : Parser C) : Prop := p.sequenceHeader = seqAfter p.obus ∧ p.uncompressedHeader = uhAfter p.obus ∧ ∀ l1 o l2, p.obus = l1 ++ o :: l2 → InEffect l1 o

theorem knows_unit (fuel : Nat) (sz : Int) (st : State × C.R) (p : Parser C) (hp : Knows p) : Ensures (frameUnitLoop C fuel sz st p) Knows := by
  induction fuel generalizing sz st p with
  | zero =>
    unfold frameUnitLoop
    exact Ensures.ite (fun _ => Ensures.fail _) (fun _ => Ensures.pure hp)
  | succ n ih =>
    unfold frameUnitLoop
    refine Ensures.ite (fun _ => ?_) (fun _ => Ensures.pure hp)
    refine Ensures.bindT fun len => Ensures.bindT fun k => ?_
    dsimp only
    refine Ensures.bind (newObu_headers len st _ _) fun x hx => ih _ _ _ ?_
    obtain ⟨h1, h2, h3⟩ := hp
    have hs : ∀ l1 o l2, p.obus ++ [x.1] = l1 ++ o :: l2 → InEffect l1 o := by
      intro l1 o l2 e
      rcases List.eq_nil_or_concat l2 with rfl | ⟨l3, y, rfl⟩
      · have := List.append_inj' e rfl
        obtain ⟨rfl, e2⟩ := this
        cases e2
        exact ⟨fun h => (hx.1 h).trans h1, fun h h' => (hx.2 h h').trans h2⟩
      · rw [List.concat_eq_append, ← List.cons_append, ← List.append_assoc] at e
        exact h3 l1 o l3 (List.append_inj' e rfl).1
    split
    · rename_i ht
      have ht : x.1.header.type = 1 := ht
      exact ⟨by rw [seqAfter_snoc, if_pos ht], by rw [uhAfter_snoc, if_neg (by omega)]; exact h2, hs⟩
    · rename_i ht
      have ht : ¬ x.1.header.type = 1 := ht
      split
      · rename_i ht'
        have ht' : x.1.header.type = 3 := ht'
        exact ⟨by rw [seqAfter_snoc, if_neg ht]; exact h1, by rw [uhAfter_snoc, if_pos ht'], hs⟩
      · rename_i ht'
        have ht' : ¬ x.1.header.type = 3 := ht'
        exact ⟨by rw [seqAfter_snoc, if_neg ht]; exact h1, by rw [uhAfter_snoc, if_neg ht']; exact h2, hs⟩

theorem knows_temporal (fuel : Nat) (sz : Int) (p : Parser C) (hp : Knows p) : Ensures (temporalUnitLoop C fuel sz p) Knows := by
  induction fuel generalizing sz p with
  | zero =>
    unfold temporalUnitLoop
    exact Ensures.ite (fun _ => Ensures.fail _) (fun _ => Ensures.pure hp)
  | succ n ih =>
    unfold temporalUnitLoop
    refine Ensures.ite (fun _ => ?_) (fun _ => Ensures.pure hp)
    refine Ensures.bindT fun len => Ensures.bindT fun k => ?_
    exact Ensures.bind (knows_unit _ _ _ p hp) fun q hq => ih _ _ hq

theorem knows_stream (fuel : Nat) (p : Parser C) (hp : Knows p) : Ensures (bitstreamLoop C fuel p) Knows := by
  induction fuel generalizing p with
  | zero =>
    intro s a s' h
    unfold bitstreamLoop at h
    split at h
    · cases h
    · cases h; exact hp
  | succ n ih =>
    intro s a s' h
    unfold bitstreamLoop at h
    split at h
    · exact (Ensures.bindT fun sz => Ensures.bind (knows_temporal _ _ p hp) fun q hq => ih q hq) s a s' h
    · cases h; exact hp

/-- C194: in every accepted stream, for every OBU: the sequence header it is decoded with is that of the last sequence header OBU before it, in whatever unit; the frame header a tile group is decoded
with is that of the last frame header OBU before it. -/
theorem C194_headers_partial (C : Codec) (data : List UInt8) (l1 l2 : List (Obu C)) (o : Obu C) (s : BitStream) (h : parseStream C (newBitStream data) = .ok (l1 ++ o :: l2, s)) : InEffect l1 o := by
  unfold parseStream at h
  obtain ⟨p, s1, h1, h2⟩ := BM.bind_eq_ok.mp h
  have hk := knows_stream (C := C) _ _ ⟨rfl, rfl, by intro l1 o l2 h; cases l1 <;> cases h⟩ _ _ _ h1
  have e : p.obus = l1 ++ o :: l2 := congrArg Prod.fst (Except.ok.inj h2)
  exact hk.2.2 l1 o l2 e

/-- C194 is false of the code where the frame header comes in a frame OBU (type 6, header and first tiles together): the tile groups (type 4) of the rest of that frame are decoded with the header of the
last frame header OBU before the frame OBU, whatever the frame OBU says. -/
theorem C194_frame_refuted (C : Codec) (data : List UInt8) (l0 l3 l2 : List (Obu C)) (x o : Obu C) (s : BitStream)
    (h : parseStream C (newBitStream data) = .ok ((l0 ++ x :: l3) ++ o :: l2, s)) (hx : x.header.type = 6) (ho : o.header.type = 4) (h3 : ∀ y ∈ l3, y.header.type ≠ 3) :
    o.uncompressedHeader = uhAfter l0 := by
  have h1 := (C194_headers_partial C data _ l2 o s h).2 (by omega) (by omega)
  rw [h1]
  unfold uhAfter lastOf
  have hf : (x :: l3).filter (fun o => decide (o.header.type = 3)) = [] := by
    rw [List.filter_eq_nil_iff]
    intro y hy
    rcases List.mem_cons.mp hy with rfl | hy
    · simp [hx]
    · simpa using h3 y hy
  rw [List.filter_append, hf, List.append_nil]

/-- Non-vacuity: a frame OBU with the header 0x55, then a tile group: it is decoded with the header 0 (none). -/
example : ∃ x o : Obu exCodec, ∃ s, parseStream exCodec (newBitStream [10, 9, 4, 0x32, 0x02, 0x55, 0x77, 3, 0x22, 0x01, 0x66]) = .ok ([x, o], s) ∧ x.header.type = 6 ∧ o.header.type = 4 ∧
    x.uncompressedHeader = (0x55 : Nat) ∧ o.uncompressedHeader = (0 : Nat) ∧ o.tileGroup = (0x66 : Nat) := by
  have h : (match parseStream exCodec (newBitStream [10, 9, 4, 0x32, 0x02, 0x55, 0x77, 3, 0x22, 0x01, 0x66]) with
      | .ok ([x, o], _) => x.header.type == 6 && o.header.type == 4 && @BEq.beq Nat _ x.uncompressedHeader 0x55 && @BEq.beq Nat _ o.uncompressedHeader 0 && @BEq.beq Nat _ o.tileGroup 0x66
      | _ => false) = true := by decide +kernel
  split at h
  · rename_i x o s e
    simp only [Bool.and_eq_true] at h
    obtain ⟨⟨⟨⟨h1, h2⟩, h3⟩, h4⟩, h5⟩ := h
    exact ⟨x, o, s, e, eq_of_beq h1, eq_of_beq h2, eq_of_beq (α := Nat) h3, eq_of_beq (α := Nat) h4, eq_of_beq (α := Nat) h5⟩
  · cases h

/-- Non-vacuity with the real decoder: a sequence header, a frame header and a tile group. -/
example : ∃ (data : List UInt8) (o1 o2 o3 : Obu (decoder (fun _ => 8) 1000)), Decodes (fun _ => 8) 1000 data [o1, o2, o3] ∧ o3.header.type = 4 ∧
    o3.uncompressedHeader = o2.uncompressedHeader ∧ o3.sequenceHeader = o1.sequenceHeader := by
  obtain ⟨data, o1, o2, o3, -, -, ⟨s, hd⟩, -, -, -, -, -, -, -, t1, t2, t3, -⟩ := stream_of_describes demo_describes
  obtain ⟨h1, h2⟩ := C194_headers_partial _ data [o1, o2] [] o3 s hd
  refine ⟨data, o1, o2, o3, ⟨s, hd⟩, t3, (h2 (by omega) (by omega)).trans ?_, (h1 (by omega)).trans ?_⟩
  · unfold uhAfter lastOf; simp [t1, t2]
  · unfold seqAfter lastOf; simp [t1, t2]

end Gov1
