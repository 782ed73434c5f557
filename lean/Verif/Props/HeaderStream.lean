import Verif.Spec.HeaderStream
import Verif.Props.KeyHeader
import Verif.Props.StreamComplete

/-! # C204: the headers of a stream read back -/

namespace Gov1
open Spec

/-- One success of a reader that does not care where its bits stand. -/
theorem Movable.reads {α : Type} {m : BM α} (hm : Movable m) {s : BitStream} {bits rest : List Bool} {a : α} (hs : unread s = bits ++ rest)
    (e : m s = .ok (a, s.advance bits.length)) : Reads m bits a := by
  obtain ⟨n, hn, -, hk⟩ := hm s a _ e
  have : bits.length = n := by
    have := congrArg BitStream.pos hn
    simp only [advance_pos] at this
    omega
  subst this
  intro t rest' ht
  refine hk t ?_
  rw [ht, hs, List.take_left, List.take_left]

theorem Spec.CodedObu.Ok.bits_length {o : CodedObu} {t : Nat} (h : o.Ok t) : o.bits.length = 8 * (obuOverhead o.header o.sizeBytes + o.payload.length) := by
  have := h.framed.leb
  unfold CodedObu.bits encObu obuOverhead encHeader
  cases o.header.extensionFlag <;> cases o.header.hasSizeField <;>
    simp [bit, encLeb_length, bytesBits_length] <;> omega

theorem Spec.CodedObu.Ok.validUnit {o : CodedObu} {t : Nat} (h : o.Ok t) : ValidUnit o.lengthBytes o.bits :=
  ⟨h.length.1, h.length.2.1, by rw [h.bits_length]; omega, h.length.2.2⟩

theorem Spec.CodedObu.Ok.parses {C : Codec} {o : CodedObu} {t : Nat} (h : o.Ok t) {st : State × C.R} {sh : SeqHeader} {uh : C.UH} {x : Obu C} {st' : State × C.R}
    (hx : ∀ (s : BitStream) (rest : List Bool), unread s = encObu o.header o.sizeBytes o.payload ++ rest →
      ∃ s', newObu C ((o.bits.length / 8 : Nat) : Int) st sh uh s = .ok ((x, st'), s') ∧ AtEnd s s' o.header o.sizeBytes o.payload) :
    ObuParses C st sh uh o.bits x st' := by
  intro s rest _ hs
  obtain ⟨s', e, d, q⟩ := hx s rest hs
  exact ⟨s', e, d, by rw [q, h.bits_length]⟩

/-- What the code does not misread. -/
structure Readable (w : Nat) (k : KeyHeader) : Prop where
  sharp : w = 6 ∨ k.Lossless ∨ k.usesBc = true
  refs : ∀ f, k.seg = some f → ∀ row ∈ f, ∀ p, row[5]? = some p → p.2 < 4
  rows : ∀ c r, k.tiles.layout = .uniform c r → maxLog2 (superblocks (KeyHeader.units k.height)) ≤
    minTilesLog2 (superblocks (KeyHeader.units k.codedWidth)) (superblocks (KeyHeader.units k.height)) - c

/-- The frame header of an OBU. -/
theorem frame_parses (grow : Nat → Nat) (fuel w : Nat) {sh : SeqHeader} (hp : PlainSeq sh) {f : CodedFrame} (hf : f.Ok w sh) (hr : Readable w f.key)
    (st : State × DecR) (hst : StateShape st.2.fs) (hseen : st.1.seenFrameHeader = false) (hsel : Selected st.1.operatingPointIdc f.frame.header) (uh : DecUH) :
    ∃ (u : DecUH) (fs : FrameState) (st' : State × DecR), KeyHeader.Decoded sh f.key u.hdr fs ∧
      ObuParses (decoder grow fuel) st sh uh f.frame.bits ⟨f.frame.payload.length, f.frame.header, sh, u, {}⟩ st' := by
  obtain ⟨n, hn⟩ := hf.payload
  have hu : unread (newBitStream f.frame.payload) = f.key.enc w sh ++ (true :: List.replicate n false) := by
    rw [← hn]; simp [unread, newBitStream]
  obtain ⟨u, fs, e, hd⟩ := C202_key_roundtrip_partial w f.frame.header sh f.key st.2.fs _ _ hp hf.key hst hr.sharp hr.refs hr.rows hu
  have hR := (C07_uncompressedHeader_anywhere f.frame.header sh st.2.fs).reads hu e
  refine ⟨⟨u, fs.tiles.contextUpdateTileId⟩, fs, ({ st.1 with tileNum := 0, seenFrameHeader := true }, { st.2 with fs := fs }), hd, hf.frame.parses fun s rest hs => ?_⟩
  have := C17_frame_header (decoder grow fuel) ((f.frame.bits.length / 8 : Nat) : Int) st sh uh f.frame.header (.inl hf.frame.type) f.frame.sizeBytes f.frame.payload
    hf.frame.framed s rest hs hsel hseen ⟨u, fs.tiles.contextUpdateTileId⟩ ({ st.1 with seenFrameHeader := true }, { st.2 with fs := fs }) (f.key.enc w sh)
    (true :: List.replicate n false) (Reads.bindLast (f := fun x : UHeader × FrameState => ((⟨x.1, x.2.tiles.contextUpdateTileId⟩ : DecUH), (({ st.1 with seenFrameHeader := true }, { st.2 with fs := x.2 }) : State × DecR))) hR)
    hd.frame.1 hn (List.cons_ne_nil _ _)
  simp only [hf.frame.type] at this
  exact this

/-- What comes out for a frame unit: an OBU for each of those before the frame header, with the sequence header if it is one, and the frame header. -/
def FrameOut (grow : Nat → Nat) (fuel : Nat) (sh : SeqHeader) (f : CodedFrame) (l : List (Obu (decoder grow fuel))) : Prop :=
  ∃ (mid : List (Obu (decoder grow fuel))) (x : Obu (decoder grow fuel)) (fs : FrameState), l = mid ++ [x] ∧
    mid.map (·.header) = f.pre.map (·.header) ∧ (∀ m ∈ mid, m.header.type = 1 → m.sequenceHeader = sh) ∧
    x.header = f.frame.header ∧ x.sequenceHeader = sh ∧ KeyHeader.Decoded sh f.key (DecUH.hdr x.uncompressedHeader) fs

/-- The state inside a frame unit before its frame header. -/
def leadState (i : Nat) (c : CdfMem) : State × DecR := ({ operatingPointIdc := i }, { cdf := c })

theorem lead_run (grow : Nat → Nat) (fuel : Nat) {sh : SeqHeader} (hred : sh.reducedStillPictureHeader = false) {level0 idc : Nat} {timing : Bool} (hq : ValidDialect sh level0 timing idc) (c : CdfMem) :
    ∀ (pre : List CodedObu), (∀ o ∈ pre, Lead sh level0 timing idc o) → ∀ (i : Nat) (p : Parser (decoder grow fuel)),
    ∃ (mid : List (Obu (decoder grow fuel))) (j : Nat) (p1 : Parser (decoder grow fuel)),
      (∀ tail p', FrameUnitRun (decoder grow fuel) (leadState j c) p1 tail p' → FrameUnitRun (decoder grow fuel) (leadState i c) p (pre.map (fun o => (o.lengthBytes, o.bits)) ++ tail) p') ∧
      p1.obus = p.obus ++ mid ∧ mid.map (·.header) = pre.map (·.header) ∧ (∀ m ∈ mid, m.header.type = 1 → m.sequenceHeader = sh) ∧
      (j = i ∨ (j = idc ∧ ∃ o ∈ pre, o.header.type = 1)) ∧ ((p.sequenceHeader = sh ∨ ∃ o ∈ pre, o.header.type = 1) → p1.sequenceHeader = sh) := by
  intro pre
  induction pre with
  | nil => exact fun _ i p => ⟨[], i, p, fun _ _ h => h, by simp, rfl, (fun _ h => nomatch h), .inl rfl, fun h => h.elim id fun ⟨_, h, _⟩ => nomatch h⟩
  | cons o pre ih =>
    intro h i p
    have hpre := fun x hx => h x (List.mem_cons_of_mem _ hx)
    have e2 : (2 : Nat) ≠ 1 := by decide
    rcases h o (List.mem_cons_self ..) with ho | ⟨ho, n, hn⟩
    · obtain ⟨mid, j, p1, hrun, ho1, hm, hms, hj, hs1⟩ := ih hpre i (afterObu p ⟨o.payload.length, o.header, p.sequenceHeader, p.uncompressedHeader, ({} : DecTG)⟩)
      have hx : ObuParses (decoder grow fuel) (leadState i c) p.sequenceHeader p.uncompressedHeader o.bits ⟨o.payload.length, o.header, p.sequenceHeader, p.uncompressedHeader, ({} : DecTG)⟩ (leadState i c) :=
        ho.parses fun s rest hs => C17_temporal_delimiter (decoder grow fuel) _ (leadState i c) _ _ _ ho.type _ _ ho.framed s rest hs
      refine ⟨⟨o.payload.length, o.header, p.sequenceHeader, p.uncompressedHeader, ({} : DecTG)⟩ :: mid, j, p1,
        fun tail p' ht => FrameUnitRun.cons (C := decoder grow fuel) ho.validUnit hx (hrun tail p' ht),
        by rw [ho1]; exact List.append_assoc p.obus [_] mid, by rw [List.map_cons, List.map_cons, hm], ?_, ?_, ?_⟩
      · intro m hmem ht
        rcases List.mem_cons.mp hmem with rfl | hmem
        · exact absurd (ho.type.symm.trans ht) e2
        · exact hms m hmem ht
      · exact hj.imp id fun ⟨a, x, hx, hx1⟩ => ⟨a, x, List.mem_cons_of_mem _ hx, hx1⟩
      · intro hh
        refine hs1 ?_
        rcases hh with hh | ⟨x, hx, hx1⟩
        · exact .inl (by simp only [afterObu, ho.type, if_neg e2, hh])
        · rcases List.mem_cons.mp hx with rfl | hx
          · exact absurd (ho.type.symm.trans hx1) e2
          · exact .inr ⟨x, hx, hx1⟩
    · obtain ⟨mid, j, p1, hrun, ho1, hm, hms, hj, hs1⟩ := ih hpre idc (afterObu p ⟨o.payload.length, o.header, sh, p.uncompressedHeader, ({} : DecTG)⟩)
      have hx : ObuParses (decoder grow fuel) (leadState i c) p.sequenceHeader p.uncompressedHeader o.bits ⟨o.payload.length, o.header, sh, p.uncompressedHeader, ({} : DecTG)⟩ (leadState idc c) := by
        refine ho.parses fun s rest hs => ?_
        have := C17_sequence_header (decoder grow fuel) ((o.bits.length / 8 : Nat) : Int) (leadState i c)
          p.sequenceHeader p.uncompressedHeader o.header ho.type o.sizeBytes o.payload ho.framed s rest hs sh level0 timing idc hq _ hn (List.cons_ne_nil _ _)
        rw [hred] at this
        exact this
      refine ⟨⟨o.payload.length, o.header, sh, p.uncompressedHeader, ({} : DecTG)⟩ :: mid, j, p1,
        fun tail p' ht => FrameUnitRun.cons (C := decoder grow fuel) ho.validUnit hx (hrun tail p' ht),
        by rw [ho1]; exact List.append_assoc p.obus [_] mid, by rw [List.map_cons, List.map_cons, hm], ?_, ?_, ?_⟩
      · intro m hmem ht
        rcases List.mem_cons.mp hmem with rfl | hmem
        · rfl
        · exact hms m hmem ht
      · refine .inr ⟨?_, o, List.mem_cons_self .., ho.type⟩
        rcases hj with hj | hj
        · exact hj
        · exact hj.1
      · exact fun _ => hs1 (.inl (by simp only [afterObu, ho.type, if_true]))

/-- The conditions on a frame unit. -/
structure UnitOk (w : Nat) (sh : SeqHeader) (level0 : Nat) (timing : Bool) (idc : Nat) (f : CodedFrame) : Prop where
  ok : f.Ok w sh
  readable : Readable w f.key
  lead : ∀ o ∈ f.pre, Lead sh level0 timing idc o
  selected : f.HasSequence → Selected idc f.frame.header

theorem unit_run (grow : Nat → Nat) (fuel w : Nat) {sh : SeqHeader} (hp : PlainSeq sh) {level0 idc : Nat} {timing : Bool} (hq : ValidDialect sh level0 timing idc) {f : CodedFrame}
    (hf : UnitOk w sh level0 timing idc f) (p : Parser (decoder grow fuel)) (hs : p.sequenceHeader = sh ∨ f.HasSequence) :
    ∃ (p' : Parser (decoder grow fuel)) (l : List (Obu (decoder grow fuel))),
      FrameUnitRun (decoder grow fuel) ({}, (decoder grow fuel).newR p.rest) p f.obus p' ∧ p'.sequenceHeader = sh ∧ p'.obus = p.obus ++ l ∧ FrameOut grow fuel sh f l := by
  have ht : f.frame.header.type ≠ 1 := by rw [hf.ok.frame.type]; decide
  have hred : sh.reducedStillPictureHeader = false := by
    cases h : sh.reducedStillPictureHeader
    · rfl
    · obtain ⟨-, -, -, -, -, -, -, -, -, -, -, -, -, -, h1, -⟩ := hq.reduced h
      rcases hp.tools with h2 | h2 <;> omega
  obtain ⟨mid, j, p1, hrun, ho1, hm, hms, hj, hs1⟩ := lead_run grow fuel hred hq (DecR.cdf p.rest) f.pre hf.lead 0 p
  have hs1 := hs1 hs
  have hsel : Selected j f.frame.header := by
    rcases hj with rfl | ⟨rfl, h⟩
    · exact .inr (.inr (.inl rfl))
    · exact hf.selected h
  obtain ⟨u, fs, st', hd, hx⟩ := frame_parses grow fuel w hp hf.ok hf.readable (leadState j (DecR.cdf p.rest)) ⟨rfl, rfl, rfl⟩ rfl hsel p1.uncompressedHeader
  have hx' : ObuParses (decoder grow fuel) (leadState j (DecR.cdf p.rest)) p1.sequenceHeader p1.uncompressedHeader f.frame.bits ⟨f.frame.payload.length, f.frame.header, sh, u, ({} : DecTG)⟩ st' := by
    rw [hs1]; exact hx
  refine ⟨{ afterObu p1 ⟨f.frame.payload.length, f.frame.header, sh, u, ({} : DecTG)⟩ with rest := st'.2 }, mid ++ [⟨f.frame.payload.length, f.frame.header, sh, u, ({} : DecTG)⟩], ?_, ?_, ?_, mid, _, fs, rfl, hm, hms, rfl, rfl, hd⟩
  · unfold CodedFrame.obus
    rw [List.map_append]
    exact hrun _ _ (FrameUnitRun.cons (C := decoder grow fuel) hf.ok.frame.validUnit hx' (.nil _ _))
  · exact (if_neg ht).trans hs1
  · show p1.obus ++ [_] = _
    rw [ho1, List.append_assoc]

/-- A sequence header comes before the first frame header. -/
def SequenceFirst (fs : List CodedFrame) : Prop := ∀ f ∈ fs.head?, f.HasSequence

theorem temporal_run (grow : Nat → Nat) (fuel w : Nat) {sh : SeqHeader} (hp : PlainSeq sh) {level0 idc : Nat} {timing : Bool} (hq : ValidDialect sh level0 timing idc) :
    ∀ (fs : List CodedFrame), (∀ f ∈ fs, UnitOk w sh level0 timing idc f) → ∀ (p : Parser (decoder grow fuel)), (p.sequenceHeader = sh ∨ SequenceFirst fs) →
    ∃ (p' : Parser (decoder grow fuel)) (ls : List (List (Obu (decoder grow fuel)))),
      TemporalUnitRun (decoder grow fuel) p (fs.map fun f => (f.unitBytes, f.obus)) p' ∧ ((p.sequenceHeader = sh ∨ fs ≠ []) → p'.sequenceHeader = sh) ∧
      p'.obus = p.obus ++ ls.flatten ∧ List.Forall₂ (FrameOut grow fuel sh) fs ls := by
  intro fs
  induction fs with
  | nil => exact fun _ p _ => ⟨p, [], .nil p, fun h => h.elim id fun h => absurd rfl h, by simp, .nil⟩
  | cons f fs ih =>
    intro h p hs
    have hf := h f (List.mem_cons_self ..)
    obtain ⟨p1, l, r1, s1, o1, f1⟩ := unit_run grow fuel w hp hq hf p (hs.imp id fun hs => hs f rfl)
    obtain ⟨p2, ls, r2, s2, o2, f2⟩ := ih (fun g hg => h g (List.mem_cons_of_mem _ hg)) p1 (.inl s1)
    exact ⟨p2, l :: ls, .cons hf.ok.fits r1 r2, fun _ => s2 (.inl s1), by rw [o2, o1, List.append_assoc, List.flatten_cons], .cons f1 f2⟩

theorem stream_run (grow : Nat → Nat) (fuel w : Nat) {sh : SeqHeader} (hp : PlainSeq sh) {level0 idc : Nat} {timing : Bool} (hq : ValidDialect sh level0 timing idc) :
    ∀ (ts : List CodedTemporal), (∀ t ∈ ts, ValidUnit t.bytes (encTemporalUnit t.units) ∧ ∀ f ∈ t.frames, UnitOk w sh level0 timing idc f) →
    ∀ (p : Parser (decoder grow fuel)), (p.sequenceHeader = sh ∨ SequenceFirst (ts.flatMap (·.frames))) →
    ∃ (p' : Parser (decoder grow fuel)) (ls : List (List (Obu (decoder grow fuel)))), StreamRun (decoder grow fuel) p (ts.map fun t => (t.bytes, t.units)) p' ∧
      p'.obus = p.obus ++ ls.flatten ∧ List.Forall₂ (FrameOut grow fuel sh) (ts.flatMap (·.frames)) ls := by
  intro ts
  induction ts with
  | nil => exact fun _ p _ => ⟨p, [], .nil p, by simp, .nil⟩
  | cons t ts ih =>
    intro h p hs
    obtain ⟨hv, hfr⟩ := h t (List.mem_cons_self ..)
    have hs0 : p.sequenceHeader = sh ∨ SequenceFirst t.frames := by
      refine hs.imp id fun hs => ?_
      cases ht : t.frames with
      | nil => exact fun _ h => nomatch h
      | cons f fs =>
        intro g hg
        refine hs g ?_
        rw [List.flatMap_cons, ht]
        exact hg
    obtain ⟨p1, l, r1, s1, o1, f1⟩ := temporal_run grow fuel w hp hq t.frames hfr p hs0
    have hs1 : p1.sequenceHeader = sh ∨ SequenceFirst (ts.flatMap (·.frames)) := by
      rcases hs with hs | hs
      · exact .inl (s1 (.inl hs))
      · cases ht : t.frames with
        | nil => rw [List.flatMap_cons, ht] at hs; exact .inr hs
        | cons f fs => exact .inl (s1 (.inr (by rw [ht]; exact List.cons_ne_nil _ _)))
    obtain ⟨p2, ls, r2, o2, f2⟩ := ih (fun g hg => h g (List.mem_cons_of_mem _ hg)) p1 hs1
    refine ⟨p2, l ++ ls, .cons hv r1 r2, by rw [o2, o1, List.append_assoc, List.flatten_append], ?_⟩
    rw [List.flatMap_cons]
    exact List.rel_append f1 f2

/-- **C204** (partial: of the headers that the code does not misread, `Readable`, and of sequence headers in its own dialect, C23).  A stream of temporal units of any numbers of frames, each frame header after any delimiters and
copies of the sequence header, with one before the first frame header, is read to its end; out come the OBUs in order, with the sequence header and each frame header as coded. -/
theorem C204_headers_read_back_partial (grow : Nat → Nat) (fuel w : Nat) (sh : SeqHeader) (hp : PlainSeq sh) (level0 idc : Nat) (timing : Bool) (hq : ValidDialect sh level0 timing idc)
    (ts : List CodedTemporal) (ht : ∀ t ∈ ts, ValidUnit t.bytes (encTemporalUnit t.units)) (hf : ∀ t ∈ ts, ∀ f ∈ t.frames, UnitOk w sh level0 timing idc f)
    (hs : SequenceFirst (ts.flatMap (·.frames))) (data : List UInt8) (hdata : bytesBits data = encHeaders ts) :
    ∃ (ls : List (List (Obu (decoder grow fuel)))) (s : BitStream),
      parseStream (decoder grow fuel) (newBitStream data) = .ok (ls.flatten, s) ∧ s.data = data ∧ s.pos = 8 * data.length ∧
      List.Forall₂ (FrameOut grow fuel sh) (ts.flatMap (·.frames)) ls := by
  obtain ⟨p1, ls, r, o, f⟩ := stream_run grow fuel w hp hq ts (fun t h => ⟨ht t h, hf t h⟩) { rest := ({} : DecR), uncompressedHeader := ({} : DecUH) } (.inr hs)
  obtain ⟨s, e, d, q⟩ := C22_stream_exact (decoder grow fuel) data _ p1 hdata r
  rw [o, List.nil_append] at e
  exact ⟨ls, s, e, d, q, f⟩

/-- `keySeq` with what its coding needs. -/
def streamSeq : SeqHeader :=
  { keySeq with
    seqLevelIdx := [0], seqTier := [0], initialDisplayDelayPresentForThisOp := [false], seqChooseScreenContentTools := true, frameWidthBitsMinusOne := 5, frameHeightBitsMinusOne := 5,
    colorConfig := { keySeq.colorConfig with bitDepth := 8, colorPrimaries := 2, transferCharacteristics := 2, matrixCoefficients := 2 } }

theorem streamSeq_dialect : ValidDialect streamSeq 0 false 0 := by
  constructor <;> try decide
  constructor <;> decide

/-- An OBU without extension or size field. -/
def bareObu (t : Nat) (payload : List UInt8) : CodedObu := ⟨⟨false, t, false, false, false, ⟨0, 0, 0⟩⟩, payload, 1, 1⟩

theorem bareObu_ok {t : Nat} (ht : t < 16) {payload : List UInt8} (hp : payload.length < 100) : (bareObu t payload).Ok t := by
  have hl : (bareObu t payload).bits.length = 8 * (1 + payload.length) := by
    unfold bareObu CodedObu.bits encObu encHeader
    simp [bit, bytesBits_length]; omega
  refine ⟨rfl, ⟨⟨ht, by simp [bareObu]⟩, ⟨Nat.le_refl 1, by show 1 ≤ 8; decide⟩, by show payload.length < 128 ^ 1; omega, fun _ => ?_⟩, Nat.le_refl 1, by show 1 ≤ 8; decide, ?_⟩
  · rw [hl]
    show _ = ((obuOverhead _ _ : Nat) : Int) + _
    unfold obuOverhead bareObu
    simp only [Bool.false_eq_true, if_false]
    omega
  · rw [hl]
    show _ < 128 ^ 1
    omega

def streamSeqObu : CodedObu := bareObu 1 [0, 10, 191, 254, 1, 60, 192, 96]

/-- `keySample` and its 224 bits. -/
def shownFrame : CodedFrame := ⟨keySample, [], bareObu 3 [16, 22, 0, 198, 0, 98, 148, 126, 143, 242, 20, 0, 0, 0, 0, 0, 0, 0, 107, 40, 179, 13, 6, 83, 67, 249, 200, 238, 128], 1⟩

/-- The same as a hidden intra-only frame. -/
def hiddenFrame : CodedFrame := ⟨{ keySample with hidden := some (true, false, 5) }, [],
  bareObu 3 [72, 5, 5, 128, 49, 128, 24, 165, 31, 163, 252, 133, 0, 0, 0, 0, 0, 0, 0, 26, 202, 44, 195, 65, 148, 208, 254, 114, 59, 160], 1⟩

theorem streamSeq_plain : PlainSeq streamSeq := ⟨rfl, .inr rfl, rfl, rfl, rfl⟩

theorem shownFrame_key : shownFrame.key.Valid streamSeq := { keySample_valid with flags := fun _ h => (nomatch h), grain := fun _ h => (nomatch h), quant := ⟨by decide, by unfold Signed7; decide, by decide, by decide, by decide, by decide⟩ }

theorem hiddenFrame_key : hiddenFrame.key.Valid streamSeq :=
  { keySample_valid with flags := fun x h => by cases h; decide, presentation := by decide, quant := ⟨by decide, by unfold Signed7; decide, by decide, by decide, by decide, by decide⟩, grain := fun g h => (nomatch h) }

theorem shownFrame_payload : HoldsBits shownFrame.frame.payload (shownFrame.key.enc 6 streamSeq) := ⟨7, by decide +kernel⟩

theorem shownFrame_readable : Readable 6 shownFrame.key := ⟨.inl rfl, keySample_refs, fun c r h => by cases h; decide⟩

theorem shownFrame_ok (pre : List CodedObu) (h : pre = [] ∨ pre = [bareObu 2 []] ∨ pre = [bareObu 2 [], streamSeqObu]) : UnitOk 6 streamSeq 0 false 0 { shownFrame with pre := pre } := by
  refine ⟨⟨bareObu_ok (by decide) (by decide), shownFrame_key, shownFrame_payload, ?_⟩, shownFrame_readable, ?_, fun _ => .inr (.inr (.inl rfl))⟩
  · rcases h with rfl | rfl | rfl <;> (unfold ValidUnit; decide +kernel)
  · intro o ho
    have h2 : o = bareObu 2 [] ∨ o = streamSeqObu := by
      rcases h with rfl | rfl | rfl
      · exact nomatch ho
      · exact .inl (List.mem_singleton.mp ho)
      · simpa using ho
    rcases h2 with rfl | rfl
    · exact .inl (bareObu_ok (by decide) (by decide))
    · exact .inr ⟨bareObu_ok (by decide) (by decide), 5, by decide +kernel⟩

theorem hiddenFrame_ok : UnitOk 6 streamSeq 0 false 0 hiddenFrame :=
  ⟨⟨bareObu_ok (by decide) (by decide), hiddenFrame_key, ⟨5, by decide +kernel⟩, by unfold ValidUnit; decide +kernel⟩, ⟨.inl rfl, keySample_refs, fun c r h => by cases h; decide⟩,
    (fun _ h => nomatch h), (fun ⟨_, h, _⟩ => nomatch h)⟩

/-- Two temporal units: a hidden frame and a shown one after the sequence header, then a shown frame and the sequence header again. -/
def streamSample : List CodedTemporal :=
  [⟨[{ shownFrame with pre := [bareObu 2 [], streamSeqObu] }, hiddenFrame, { shownFrame with pre := [] }], 1⟩, ⟨[{ shownFrame with pre := [bareObu 2 []] }, { shownFrame with pre := [bareObu 2 [], streamSeqObu] }], 1⟩]

/-- Its conditions are met: two temporal units of five frames. -/
example (grow : Nat → Nat) (fuel : Nat) (data : List UInt8) (hdata : bytesBits data = encHeaders streamSample) :
    ∃ (ls : List (List (Obu (decoder grow fuel)))) (s : BitStream),
      parseStream (decoder grow fuel) (newBitStream data) = .ok (ls.flatten, s) ∧ s.data = data ∧ s.pos = 8 * data.length ∧
      List.Forall₂ (FrameOut grow fuel streamSeq) (streamSample.flatMap (·.frames)) ls := by
  refine C204_headers_read_back_partial grow fuel 6 streamSeq streamSeq_plain 0 0 false streamSeq_dialect streamSample ?_ ?_ ?_ data hdata
  · intro t h
    rcases List.mem_cons.mp h with rfl | h
    · unfold ValidUnit; decide +kernel
    · rw [List.mem_singleton.mp h]; unfold ValidUnit; decide +kernel
  · intro t h f hf
    rcases List.mem_cons.mp h with rfl | h
    · simp only [List.mem_cons, List.not_mem_nil, or_false] at hf
      rcases hf with rfl | rfl | rfl
      · exact shownFrame_ok _ (.inr (.inr rfl))
      · exact hiddenFrame_ok
      · exact shownFrame_ok _ (.inl rfl)
    · rw [List.mem_singleton.mp h] at hf
      simp only [List.mem_cons, List.not_mem_nil, or_false] at hf
      rcases hf with rfl | rfl
      · exact shownFrame_ok _ (.inr (.inl rfl))
      · exact shownFrame_ok _ (.inr (.inr rfl))
  · intro f hf
    cases hf
    exact ⟨streamSeqObu, List.mem_cons_of_mem _ (List.mem_cons_self ..), rfl⟩

/-- Such bytes exist. -/
example : ∃ data : List UInt8, bytesBits data = encHeaders streamSample ∧ data.length = (encHeaders streamSample).length / 8 :=
  bytes_of_bits _ (encHeaders streamSample) (by decide +kernel)

end Gov1
