import Verif.Spec.SequenceAv1
import Verif.Props.SeqHeader
/-! # C23: AV1's sequence headers are misread -/

namespace Gov1
open Spec

/-- On streams that start with `bits`, a result satisfies `P`. -/
def EnsuresAt {α : Type} (m : BM α) (bits : List Bool) (P : α → Prop) : Prop :=
  ∀ (s : BitStream) (rest : List Bool), unread s = bits ++ rest → ∀ a s', m s = .ok (a, s') → P a

theorem Ensures.at {α : Type} {m : BM α} {P : α → Prop} (h : Ensures m P) (bits : List Bool) : EnsuresAt m bits P :=
  fun s _ _ a s' e => h s a s' e

theorem EnsuresAt.bind {α β : Type} {m : BM α} {k : α → BM β} {bits : List Bool} {P : α → Prop} {Q : β → Prop} (hm : EnsuresAt m bits P)
    (hk : ∀ a, P a → Ensures (k a) Q) : EnsuresAt (m >>= k) bits Q := by
  intro s rest hs b s' e
  obtain ⟨a, s1, h1, h2⟩ := BM.bind_eq_ok.mp e
  exact hk a (hm s rest hs a s1 h1) s1 b s' h2

theorem Reads.bindAt {α β : Type} {m : BM α} {k : α → BM β} {b1 b2 : List Bool} {a : α} {Q : β → Prop} (hm : Reads m b1 a) (hk : EnsuresAt (k a) b2 Q) :
    EnsuresAt (m >>= k) (b1 ++ b2) Q := by
  intro s rest hs b s' e
  rw [List.append_assoc] at hs
  rw [BM.bind_ok (hm s _ hs)] at e
  exact hk _ rest (unread_drop hs) b s' e

/-- Frames of at most two pixels in each direction, whose headers have one bit for each size. -/
def Tiny (h : SeqHeader) : Prop := (h.maxFrameWidthMinusOne ≤ 1 ∧ h.maxFrameHeightMinusOne ≤ 1) ∧ h.frameWidthBitsMinusOne = 0 ∧ h.frameHeightBitsMinusOne = 0

theorem seqFrameSize_tiny (h : SeqHeader) : EnsuresAt (seqFrameSize h) (encF 4 0 ++ encF 4 0) Tiny := by
  unfold seqFrameSize
  refine Reads.bindAt (Reads.F (by decide)) ?_
  have e : encF 4 0 = encF 4 0 ++ [] := rfl
  rw [e]
  refine Reads.bindAt (Reads.F (by decide)) (Ensures.at ?_ _)
  refine Ensures.bind (Ensures.F _) fun w hw => Ensures.bind (Ensures.F _) fun v hv => ?_
  have ht : (w ≤ 1 ∧ v ≤ 1) ∧ (0 : Nat) = 0 ∧ (0 : Nat) = 0 := ⟨⟨by omega, by omega⟩, rfl, rfl⟩
  refine Ensures.bindT fun _ => Ensures.ite (fun _ => ?_) (fun _ => Ensures.pure ht)
  exact Ensures.bindT fun _ => Ensures.bindT fun _ => Ensures.pure ht

theorem seqTools_tiny {h : SeqHeader} (ht : Tiny h) : Ensures (seqTools h) Tiny := by
  unfold seqTools
  refine Ensures.bindT fun _ => Ensures.bindT fun _ => Ensures.bindT fun _ => Ensures.ite (fun _ => ?_) (fun _ => Ensures.pure ht)
  refine Ensures.bindT fun _ => Ensures.bindT fun _ => Ensures.bindT fun _ => Ensures.bindT fun _ => Ensures.bindT fun oh => ?_
  refine Ensures.bind (P := Tiny) ?_ ?_
  · exact Ensures.ite (fun _ => Ensures.bindT fun _ => Ensures.bindT fun _ => Ensures.pure ht) (fun _ => Ensures.pure ht)
  · intro r hr
    exact Ensures.bindT fun _ => Ensures.ite (fun _ => Ensures.bindT fun _ => Ensures.pure hr) (fun _ => Ensures.pure hr)

/-- Bits after which the parser takes the size fields for one bit each. -/
def tinyPrefix (profile : Nat) (still : Bool) (level : Nat) : List Bool :=
  encF 3 profile ++ (bit still ++ (bit false ++ (encF 5 level ++ (bit false ++ (encF 4 0 ++ encF 4 0)))))

theorem newSequenceHeader_tiny (st : State) {profile level : Nat} (still : Bool) (hp : profile < 8) (hl : level < 32) :
    EnsuresAt (newSequenceHeader st) (tinyPrefix profile still level) (fun r => Tiny r.1) := by
  unfold newSequenceHeader tinyPrefix
  refine Reads.bindAt (Reads.F (by simpa using hp)) (Reads.bindAt (Reads.flag _) (Reads.bindAt (Reads.flag _) (Reads.bindAt (Reads.F (by simpa using hl)) ?_)))
  refine EnsuresAt.bind (P := fun r : SeqHeader × State => Tiny r.1) ?_ fun r hr => ?_
  · simp only [Bool.not_false, if_true]
    unfold seqBody
    refine Reads.bindAt (Reads.flag _) ?_
    simp only [Bool.false_eq_true, if_false]
    refine Reads.bindAt (b1 := []) (Reads.pure _) (Reads.bindAt (b1 := []) (a := 0) (fun _ _ _ => rfl) ?_)
    exact EnsuresAt.bind (seqFrameSize_tiny _) fun r hr => Ensures.bind (seqTools_tiny hr) fun r hr => Ensures.pure hr
  · exact Ensures.bindT fun _ => Ensures.bindT fun _ => Ensures.bindT fun _ => Ensures.bindT fun _ => Ensures.bindT fun _ => Ensures.pure hr

/-- An ordinary AV1 header: no timing information and one operating point with a mask below 32 (0 unless the stream is scalable), or a display tick of fewer than 2^19 time units. -/
def Ordinary (h : SeqHeader) (timing : Bool) (ops : List OperatingPoint) : Prop :=
  (timing = false ∧ ∃ o, ops = [o] ∧ o.idc < 32) ∨ (timing = true ∧ h.timingInfo.numUnitsInDisplayTick < 2 ^ 19)

theorem encSequenceAv1_prefix (h : SeqHeader) (timing : Bool) (ops : List OperatingPoint) (ho : Ordinary h timing ops) :
    ∃ level tail, level < 32 ∧ encSequenceAv1 h timing ops = tinyPrefix h.seqProfile h.stillPicture level ++ tail := by
  rcases ho with ⟨rfl, o, rfl, hi⟩ | ⟨rfl, hn⟩
  · have ht : ∀ i, 5 ≤ i → o.idc.testBit i = false := fun i hi' => Nat.testBit_lt_two_pow (Nat.lt_of_lt_of_le hi (Nat.pow_le_pow_right (n := 2) (by decide) hi'))
    cases hd : h.initialDisplayDelayPresent
    · refine ⟨0, ?_, by decide, ?_⟩
      rotate_left
      · unfold encSequenceAv1 tinyPrefix
        simp only [List.append_assoc, List.flatMap_cons, encOperatingPoint, hd]
        congr 1
        simp only [bit, encF, ht 11 (by decide), ht 10 (by decide), ht 9 (by decide), ht 8 (by decide), ht 7 (by decide), ht 6 (by decide), ht 5 (by decide), if_false, Bool.false_eq_true,
          List.cons_append, List.nil_append, List.length_singleton, Nat.sub_self, Nat.zero_testBit]
        rfl
    · refine ⟨8, ?_, by decide, ?_⟩
      rotate_left
      · unfold encSequenceAv1 tinyPrefix
        simp only [List.append_assoc, List.flatMap_cons, encOperatingPoint, hd]
        congr 1
        simp only [bit, encF, ht 11 (by decide), ht 10 (by decide), ht 9 (by decide), ht 8 (by decide), ht 7 (by decide), ht 6 (by decide), ht 5 (by decide), if_true, if_false, Bool.false_eq_true,
          List.cons_append, List.nil_append, List.length_singleton, Nat.sub_self, Nat.zero_testBit]
        rfl
  · have ht : ∀ i, 19 ≤ i → h.timingInfo.numUnitsInDisplayTick.testBit i = false := fun i hi' => Nat.testBit_lt_two_pow (Nat.lt_of_lt_of_le hn (Nat.pow_le_pow_right (n := 2) (by decide) hi'))
    refine ⟨16, ?_, by decide, ?_⟩
    rotate_left
    · unfold encSequenceAv1 tinyPrefix encTiming
      simp only [List.append_assoc, if_true]
      congr 1
      simp only [bit, encF, ht 31 (by decide), ht 30 (by decide), ht 29 (by decide), ht 28 (by decide), ht 27 (by decide), ht 26 (by decide), ht 25 (by decide), ht 24 (by decide), ht 23 (by decide),
        ht 22 (by decide), ht 21 (by decide), ht 20 (by decide), ht 19 (by decide), List.cons_append, List.nil_append, Nat.zero_testBit]
      rfl

/-- **C23** is false of the code: from every ordinary AV1 sequence header (`Ordinary`) the parser gets, if it does not panic, a header of a frame of at most 2x2 pixels. -/
theorem C23_av1_refuted (h : SeqHeader) (timing : Bool) (ops : List OperatingPoint) (ho : Ordinary h timing ops) (hp : h.seqProfile < 8)
    (st : State) (s : BitStream) (rest : List Bool) (hs : unread s = encSequenceAv1 h timing ops ++ rest) (r : SeqHeader) (st' : State) (s' : BitStream)
    (e : newSequenceHeader st s = .ok ((r, st'), s')) : r.maxFrameWidthMinusOne ≤ 1 ∧ r.maxFrameHeightMinusOne ≤ 1 := by
  obtain ⟨level, tail, hl, he⟩ := encSequenceAv1_prefix h timing ops ho
  rw [he, List.append_assoc] at hs
  exact (newSequenceHeader_tiny st h.stillPicture hp hl s _ hs _ s' e).1

/-- Reduced headers come out with frames of one pixel. -/
theorem newSequenceHeader_reduced (st : State) {profile : Nat} (still : Bool) (hp : profile < 8) :
    EnsuresAt (newSequenceHeader st) (encF 3 profile ++ (bit still ++ bit true)) (fun r => (r.1.maxFrameWidthMinusOne = 0 ∧ r.1.maxFrameHeightMinusOne = 0) ∧ r.1.frameWidthBitsMinusOne = 0 ∧ r.1.frameHeightBitsMinusOne = 0) := by
  unfold newSequenceHeader
  have e : bit true = bit true ++ [] := rfl
  rw [e]
  refine Reads.bindAt (Reads.F (by simpa using hp)) (Reads.bindAt (Reads.flag _) (Reads.bindAt (Reads.flag _) (Ensures.at (Ensures.bindT fun lv => ?_) _)))
  refine Ensures.bind (P := fun r : SeqHeader × State => (r.1.maxFrameWidthMinusOne = 0 ∧ r.1.maxFrameHeightMinusOne = 0) ∧ r.1.frameWidthBitsMinusOne = 0 ∧ r.1.frameHeightBitsMinusOne = 0) (Ensures.pure ⟨⟨rfl, rfl⟩, rfl, rfl⟩) fun r hr => ?_
  exact Ensures.bindT fun _ => Ensures.bindT fun _ => Ensures.bindT fun _ => Ensures.bindT fun _ => Ensures.bindT fun _ => Ensures.pure hr

theorem reduced_read (h : SeqHeader) (hp : h.seqProfile < 8) (st : State) : EnsuresAt (newSequenceHeader st) (encReducedSeqHeader h)
    (fun r => (r.1.maxFrameWidthMinusOne = 0 ∧ r.1.maxFrameHeightMinusOne = 0) ∧ r.1.frameWidthBitsMinusOne = 0 ∧ r.1.frameHeightBitsMinusOne = 0) := by
  intro s rest hs r s' e
  obtain ⟨tail, ht⟩ : ∃ tail, encReducedSeqHeader h = (encF 3 h.seqProfile ++ (bit true ++ bit true)) ++ tail := ⟨_, by unfold encReducedSeqHeader; simp only [List.append_assoc]; rfl⟩
  rw [ht, List.append_assoc] at hs
  exact newSequenceHeader_reduced st true hp s _ hs _ s' e

/-- **C23**: from every reduced AV1 header the parser gets, if it does not panic, a header of a frame of one pixel. -/
theorem C23_reduced_refuted (h : SeqHeader) (hp : h.seqProfile < 8) (st : State) (s : BitStream) (rest : List Bool) (hs : unread s = encReducedSeqHeader h ++ rest) (r : SeqHeader) (st' : State) (s' : BitStream)
    (e : newSequenceHeader st s = .ok ((r, st'), s')) : r.maxFrameWidthMinusOne = 0 ∧ r.maxFrameHeightMinusOne = 0 :=
  (reduced_read h hp st s rest hs _ s' e).1

/-- The bits of an AV1 sequence header: reduced, or ordinary. -/
def Av1Sequence (bits : List Bool) : Prop :=
  ∃ h : SeqHeader, h.seqProfile < 8 ∧ (bits = encReducedSeqHeader h ∨ ∃ timing ops, Ordinary h timing ops ∧ bits = encSequenceAv1 h timing ops)

/-- Both together. -/
theorem av1_tiny {bits : List Bool} (hb : Av1Sequence bits) (st : State) : EnsuresAt (newSequenceHeader st) bits (fun r => Tiny r.1) := by
  intro s rest hs r s' e
  obtain ⟨h, hp, hb | ⟨timing, ops, ho, hb⟩⟩ := hb
  · rw [hb] at hs
    obtain ⟨⟨h1, h2⟩, h3⟩ := reduced_read h hp st s rest hs r s' e
    exact ⟨⟨Nat.le_trans (Nat.le_of_eq h1) (Nat.zero_le 1), Nat.le_trans (Nat.le_of_eq h2) (Nat.zero_le 1)⟩, h3⟩
  · obtain ⟨level, tail, hl, he⟩ := encSequenceAv1_prefix h timing ops ho
    rw [hb, he, List.append_assoc] at hs
    exact newSequenceHeader_tiny st h.stillPicture hp hl s _ hs r s' e

/-- 1920x1080, 8 bits, 4:2:0, level 4.0. -/
def exHd : SeqHeader :=
  { frameWidthBitsMinusOne := 10, frameHeightBitsMinusOne := 10, maxFrameWidthMinusOne := 1919, maxFrameHeightMinusOne := 1079, enableFilterIntra := true, enableIntraEdgeFilter := true,
    enableOrderHint := true, orderHintBits := 7, seqChooseScreenContentTools := true, seqForceScreenContentTools := 2, seqForceIntegerMv := 2, enableCdef := true,
    colorConfig := { bitDepth := 8, numPlanes := 3, colorPrimaries := 2, transferCharacteristics := 2, matrixCoefficients := 2, subsamplingX := true, subsamplingY := true } }

/-- Its conditions are met: without and with timing information (30 frames per second). -/
example : Ordinary exHd false [⟨0, 8, 0, none, none⟩] ∧ Ordinary { exHd with timingInfo := { numUnitsInDisplayTick := 1001, timeScale := 30000 } } true [⟨0, 8, 0, none, none⟩] :=
  ⟨.inl ⟨rfl, _, rfl, by decide⟩, .inr ⟨rfl, by decide⟩⟩

/-- And the parser does return: a header of one pixel. -/
example : unread (newBitStream [0, 0, 0, 66, 171, 191, 195, 115, 9, 228, 0, 0, 0, 0]) = encSequenceAv1 exHd false [⟨0, 8, 0, none, none⟩] ++ List.replicate 25 false ∧
    (match newSequenceHeader {} (newBitStream [0, 0, 0, 66, 171, 191, 195, 115, 9, 228, 0, 0, 0, 0]) with
     | .ok ((h, _), _) => (h.maxFrameWidthMinusOne, h.maxFrameHeightMinusOne)
     | .error _ => (12345, 12345)) = (0, 0) := by
  refine ⟨by decide +kernel, by decide +kernel⟩

end Gov1
