import Verif.Props.TileDeltas
/-!
# C188 to C191: what a frame leaves behind for the next

The state between tile groups, over every state the program can be in.
-/
namespace Gov1

/-! ## States -/

namespace Spec

/-- The states the program can be in between two OBUs of any stream (and more: each call may get any headers).  Every frame unit starts with a zero state; only the CDF
tables stay. -/
inductive Reach (grow : Nat → Nat) (fuel : Nat) : DecR → Prop
  | start : Reach grow fuel {}
  | unit {r : DecR} : Reach grow fuel r → Reach grow fuel { cdf := r.cdf }
  | header {h : Header} {sh : SeqHeader} {s : State} {r : DecR} {b : BitStream} {u : DecUH} {s' : State} {r' : DecR} {b' : BitStream} : Reach grow fuel r →
      decodeHeader h sh (s, r) b = .ok ((u, (s', r')), b') → Reach grow fuel r'
  | group {sz : Int} {s : State} {r : DecR} {u : DecUH} {sh : SeqHeader} {b : BitStream} {t : DecTG} {s' : State} {r' : DecR} {b' : BitStream} : Reach grow fuel r →
      decodeGroup grow fuel sz (s, r) u sh b = .ok ((t, (s', r')), b') → Reach grow fuel r'

/-- What is kept in a reference slot of a frame, in terms of its headers. -/
structure Remembers (sh : SeqHeader) (uh : UHeader) (s : RefSlot) : Prop where
  valid : s.valid = 1
  width : s.upscaledWidth = uh.size.upscaledWidth ∧ s.frameWidth = uh.size.frameWidth
  height : s.frameHeight = uh.size.frameHeight
  render : s.renderWidth = uh.renderWidth ∧ s.renderHeight = uh.renderHeight
  type : s.frameType = uh.frameType
  depth : s.bitDepth = sh.colorConfig.bitDepth
  subsampling : (s.subX = 1 ↔ sh.colorConfig.subsamplingX = true) ∧ (s.subY = 1 ↔ sh.colorConfig.subsamplingY = true)
  order : s.orderHint = uh.orderHint
  hints : ∀ j, 1 ≤ j → j ≤ 7 → s.orderHints[j]? = uh.orderHints[j]?.map Int.ofNat
  motion : ∀ ref j, 1 ≤ ref → ref ≤ 7 → j ≤ 5 → at2 s.gm ref j = at2 uh.gmParams ref j

end Spec

/-- Every tile group of an accepted stream comes from a call in a state of `Spec.Reach`, with the headers of its OBU (or the OBU has none). -/
theorem group_called (grow : Nat → Nat) (fuel : Nat) (data : List UInt8) (obus : List (Obu (decoder grow fuel))) (h : Decodes grow fuel data obus) :
    ∀ o ∈ obus, groupOf o = {} ∨ ∃ sz s r u b s' r' b', Spec.Reach grow fuel r ∧ u.hdr = hdrOf o ∧
      decodeGroup grow fuel sz (s, r) u o.sequenceHeader b = .ok ((groupOf o, (s', r')), b') := by
  obtain ⟨s, h⟩ := h
  have hK : (decoder grow fuel).Keeps (fun st => Spec.Reach grow fuel st.2) (fun _ => True) (fun _ => True)
      (fun sh (u : DecUH) (t : DecTG) => t = {} ∨ ∃ (sz : Int) (s : State) (r : DecR) (v : DecUH) (b : BitStream) (s' : State) (r' : DecR) (b' : BitStream), Spec.Reach grow fuel r ∧ v.hdr = u.hdr ∧
        decodeGroup grow fuel sz (s, r) v sh b = .ok ((t, (s', r')), b')) :=
    { free := fun _ _ _ h => h
      start := Spec.Reach.unit Spec.Reach.start
      fresh := fun _ _ h => Spec.Reach.unit h
      seq0 := trivial
      seq := fun _ _ _ _ _ => trivial
      uh0 := trivial
      tg0 := fun _ _ _ _ => Or.inl rfl
      uh := fun h sh st hS _ b x b' e => ⟨trivial, Spec.Reach.header (s := st.1) hS e⟩
      tg := fun sz st u sh hS _ _ b x b' e => ⟨Or.inr ⟨sz, st.1, st.2, u, b, x.2.1, x.2.2, b', hS, rfl, e⟩, Spec.Reach.group (s := st.1) hS e⟩ }
  intro o ho
  exact (hK.stream _ _ _ h o ho).2.2

/-! ## The parts of a tile group -/

/-- A tile group, taken apart. -/
theorem decodeGroup_inv {grow : Nat → Nat} {fuel : Nat} {sz : Int} {s s' : State} {r r' : DecR} {u : DecUH} {sh : SeqHeader} {b b' : BitStream} {t : DecTG}
    (h : decodeGroup grow fuel sz (s, r) u sh b = .ok ((t, (s', r')), b')) :
    ∃ runs x log fin, tileGroup (groupTile grow fuel sh u.hdr r) r.fs.tiles sz ({ cdfs := groupCdfs r, blk := groupStart r.arr, lr := { refXqd := List.replicate 3 [0, 0] } }, []) b
        = .ok ((runs, (x, log), fin), b') ∧ t.finished = fin ∧ t.runs = runs.map TileRun.noStart ∧
      (fin = true → groupEnd sh u (tileNumAfter s runs) (groupMid u r runs x) runs x log = .ok (t, (s', r'))) ∧
      (fin = false → s' = tileNumAfter s runs ∧ r' = groupMid u r runs x ∧ t = { runs := runs.map TileRun.noStart, decoded := x.blk.tb.frames, log := log }) := by
  unfold decodeGroup at h
  obtain ⟨⟨runs, ⟨x, log⟩, fin⟩, b1, h1, h⟩ := BM.bind_eq_ok.mp h
  dsimp only at h
  refine ⟨runs, x, log, fin, ?_⟩
  cases fin with
  | true =>
    rw [if_pos rfl] at h
    obtain ⟨h2, rfl⟩ := BM.lift_inv h
    have h3 := h2
    unfold groupEnd at h3
    obtain ⟨y, -, h3⟩ := Res.inv h3
    cases h3
    exact ⟨h1, rfl, rfl, fun _ => h2, fun e => by cases e⟩
  | false =>
    rw [if_neg (by decide)] at h
    cases h
    exact ⟨h1, rfl, rfl, (fun e => by cases e), fun _ => ⟨rfl, rfl, rfl⟩⟩

/-- The end of a frame, taken apart. -/
theorem groupEnd_inv {sh : SeqHeader} {u : DecUH} {s s' : State} {r r' : DecR} {runs : List TileRun} {x : TileSt} {log : List Ev} {t : DecTG}
    (h : groupEnd sh u s r runs x log = .ok (t, (s', r'))) :
    ∃ (lr : Planes) (seg : List (List Int)) (m : RefMem Unit) (cdefFrame curFrame : Planes),
      restored (lrCtxOf sh u.hdr r.fs x.lr)
        { cdefFrame := cdefFrame, curFrame := curFrame, prevSegIds := keptIds u.hdr r.fs, shown := u.hdr.showFrame, opIdc := s.operatingPointIdc,
          grain := sh.filmGrainParamsPresent && u.hdr.filmGrain.applyGrain } = .ok lr ∧
      keepSegIds (wrapCtxOf sh u.hdr r.fs) (keptIds u.hdr r.fs) x.blk.recs.segIds = .ok seg ∧
      refUpdate { curFrameOf sh u.hdr r.fs x.blk with lr := lr, segIds := seg } () (newTileGroupStore { slots := r.slots, store := [], cdfs := List.replicate 8 () }) = .ok m ∧
      t.finished = true ∧ t.store = m.store ∧ s' = { s with seenFrameHeader := false } ∧ r'.slots = m.slots ∧
      r'.fs = syncRefs { r.fs with coeffCdfs := if u.hdr.disableFrameEndUpdateCdf then r.fs.coeffCdfs else r.savedCdfs } m.slots ∧
      r'.savedCdfs = r.savedCdfs ∧ r'.cdf = r.cdf ∧ r'.arr.deltaLF = r.arr.deltaLF := by
  unfold groupEnd at h
  obtain ⟨y, h1, h⟩ := Res.inv h
  unfold wrapup at h1
  obtain ⟨cur, -, h1⟩ := Res.inv h1
  obtain ⟨cd, -, h1⟩ := Res.inv h1
  obtain ⟨z, h2, h1⟩ := Res.inv h1
  cases h1
  unfold frameEnd at h2
  obtain ⟨lr, e1, h2⟩ := Res.inv h2
  obtain ⟨seg, e2, h2⟩ := Res.inv h2
  obtain ⟨m, e3, h2⟩ := Res.inv h2
  dsimp only at h2
  have hz : z.1 = m := by
    split at h2
    · obtain ⟨o, -, h2⟩ := Res.inv h2
      cases h2; rfl
    · cases h2; rfl
  cases h
  subst hz
  exact ⟨lr, seg, z.1, _, _, e1, e2, e3, rfl, rfl, rfl, rfl, rfl, rfl, rfl, rfl⟩

theorem testBit_iff {n i : Nat} : (n >>> i) % 2 = 1 ↔ n.testBit i = true := by
  rw [Nat.testBit, Nat.one_and_eq_mod_two]
  rcases Nat.mod_two_eq_zero_or_one (n >>> i) with h | h <;> simp [h]

/-! ## C188 -/

/-- A tile group that does not finish its frame leaves the frame open: the references, the tables the next tiles start from and the rest of what the header has set are as
before; only the quantizer index passes on. -/
theorem C188_open {grow : Nat → Nat} {fuel : Nat} {sz : Int} {s s' : State} {r r' : DecR} {u : DecUH} {sh : SeqHeader} {b b' : BitStream} {t : DecTG}
    (h : decodeGroup grow fuel sz (s, r) u sh b = .ok ((t, (s', r')), b')) (hf : t.finished = false) :
    s'.seenFrameHeader = s.seenFrameHeader ∧ r'.slots = r.slots ∧ r'.fs = { r.fs with currentQIndex := r'.fs.currentQIndex } ∧
      r'.savedCdfs = (if !u.hdr.disableFrameEndUpdateCdf && t.runs.any (fun run => run.num == u.contextUpdateTileId) then r.fs.coeffCdfs else r.savedCdfs) := by
  obtain ⟨runs, x, log, fin, -, h1, -, -, h3⟩ := decodeGroup_inv h
  obtain ⟨rfl, rfl, rfl⟩ := h3 (h1 ▸ hf)
  refine ⟨?_, rfl, rfl, ?_⟩
  · unfold tileNumAfter; split <;> rfl
  · show savedAfter u r runs = _
    unfold savedAfter
    rw [List.any_map]
    rfl

/-- The tile group that finishes a frame: the header has been used up; the slots whose bit is set in `refresh_frame_flags` hold what the headers of the frame say, the
other slots are as before; what the next frame header reads of the references (validity, type, order hint) is what the slots hold; the tables the next frame starts from
are those of this frame, or those saved after the tile `context_update_tile_id`. -/
theorem C188_finished {grow : Nat → Nat} {fuel : Nat} {sz : Int} {s s' : State} {r r' : DecR} {u : DecUH} {sh : SeqHeader} {b b' : BitStream} {t : DecTG}
    (h : decodeGroup grow fuel sz (s, r) u sh b = .ok ((t, (s', r')), b')) (hf : t.finished = true) :
    s'.seenFrameHeader = false ∧
    (∀ i, i < 8 → u.hdr.refreshFrameFlags.testBit i = true → (∃ slot, r'.slots[i]? = some slot ∧ Spec.Remembers sh u.hdr slot ∧ slot.miCols = r.fs.miCols ∧ slot.miRows = r.fs.miRows) ∧
      r'.fs.refValid[i]? = some 1 ∧ r'.fs.refFrameType[i]? = some u.hdr.frameType ∧ r'.fs.refOrderHint[i]? = some u.hdr.orderHint) ∧
    (∀ i, i < 8 → u.hdr.refreshFrameFlags.testBit i = false → r'.slots[i]? = r.slots[i]? ∧ r'.fs.refValid[i]? = r.slots[i]?.map (fun x => x.valid.toNat) ∧
      r'.fs.refFrameType[i]? = r.slots[i]?.map (fun x => x.frameType.toNat) ∧ r'.fs.refOrderHint[i]? = r.slots[i]?.map (fun x => x.orderHint.toNat)) ∧
    r'.fs.coeffCdfs = (if u.hdr.disableFrameEndUpdateCdf then r.fs.coeffCdfs
      else if t.runs.any (fun run => run.num == u.contextUpdateTileId) then r.fs.coeffCdfs else r.savedCdfs) ∧
    r'.fs = { r.fs with currentQIndex := r'.fs.currentQIndex, coeffCdfs := r'.fs.coeffCdfs, refValid := r'.fs.refValid, refFrameType := r'.fs.refFrameType,
                        refOrderHint := r'.fs.refOrderHint } := by
  obtain ⟨runs, x, log, fin, -, h1, h0, h2, -⟩ := decodeGroup_inv h
  obtain ⟨lr, seg, m, cd, cu, -, -, e3, -, -, e5, e6, e7, e8, -⟩ := groupEnd_inv (h2 (h1 ▸ hf))
  obtain ⟨g1, g2⟩ := refUpdate_inv (f := { curFrameOf sh u.hdr (groupMid u r runs x).fs x.blk with lr := lr, segIds := seg }) (goInt_le _) (goInt_le _) e3
  refine ⟨by rw [e5], fun i hi hb => ?_, fun i hi hb => ?_, ?_, by rw [e7]; rfl⟩
  · obtain ⟨slot, pic, ⟨a1, -, -⟩, d⟩ := g1 i hi (testBit_iff.mpr hb)
    have hs : r'.slots[i]? = some slot := by rw [e6]; exact a1
    refine ⟨⟨slot, hs, ?_, d.size.2.2.2.2.2.1, d.size.2.2.2.2.2.2⟩, ?_, ?_, ?_⟩
    · have hsub : ∀ c : Bool, ((goInt c : Nat) : Int) = 1 ↔ c = true := by decide
      refine { valid := d.valid, width := ⟨d.size.1, d.size.2.1⟩, height := d.size.2.2.1, render := ⟨d.size.2.2.2.1, d.size.2.2.2.2.1⟩, type := d.type, depth := d.colour.2.2,
               subsampling := ⟨?_, ?_⟩, order := d.order, hints := fun j a c => ?_, motion := fun a j => d.motion a j }
      · rw [d.colour.1]; exact hsub _
      · rw [d.colour.2.1]; exact hsub _
      · rw [d.hints j a c]
        show (u.hdr.orderHints.map Int.ofNat)[j]? = _
        rw [List.getElem?_map]
    · rw [e7]
      show (m.slots.map _)[i]? = _
      rw [List.getElem?_map, a1, Option.map_some, d.valid]; rfl
    · rw [e7]
      show (m.slots.map _)[i]? = _
      rw [List.getElem?_map, a1, Option.map_some, d.type]; rfl
    · rw [e7]
      show (m.slots.map _)[i]? = _
      rw [List.getElem?_map, a1, Option.map_some, d.order]; rfl
  · have hn : ¬ Refreshed { curFrameOf sh u.hdr (groupMid u r runs x).fs x.blk with lr := lr, segIds := seg } i := fun hr => by
      have := testBit_iff.mp hr
      rw [show (curFrameOf sh u.hdr (groupMid u r runs x).fs x.blk).refresh = u.hdr.refreshFrameFlags from rfl, hb] at this
      cases this
    have a1 : m.slots[i]? = r.slots[i]? := (g2 i hi hn).1
    refine ⟨by rw [e6]; exact a1, ?_, ?_, ?_⟩
    all_goals
      rw [e7]
      show (m.slots.map _)[i]? = _
      rw [List.getElem?_map, a1]
  · rw [e7]
    show (if u.hdr.disableFrameEndUpdateCdf then r.fs.coeffCdfs else savedAfter u r runs) = _
    unfold savedAfter
    rw [h0, List.any_map]
    cases u.hdr.disableFrameEndUpdateCdf <;> rfl

/-- What the header reads of the references is what the slots hold, always: the copies never disagree. -/
def RefsAgree (r : DecR) : Prop :=
  r.fs.refValid = r.slots.map (fun x => x.valid.toNat) ∧ r.fs.refFrameType = r.slots.map (fun x => x.frameType.toNat) ∧ r.fs.refOrderHint = r.slots.map (fun x => x.orderHint.toNat)

theorem markRefFrames_nil (cur d i : Nat) (rv : List Nat) : markRefFrames [] cur d i rv = .error .index := by
  unfold markRefFrames
  rfl

theorem uhIds_refs (h : Header) (sh : SeqHeader) (u : UHeader) (er : Bool) (st : FrameState) : Ensures (uhIds h sh u er st) (fun x => x.2 = st) := by
  unfold uhIds
  refine Ensures.bindT fun _ => Ensures.bindT fun _ => ?_
  dsimp only
  refine Ensures.bind (P := fun x : Nat × FrameState => x.2 = st) ?_ fun x hx => ?_
  · unfold uhFrameId
    refine Ensures.ite (fun _ => Ensures.bindT fun id => ?_) fun _ => Ensures.pure rfl
    refine Ensures.bind (P := fun _ => False) (Ensures.lift fun a ha => ?_) fun _ hx => hx.elim
    rw [markRefFrames_nil] at ha; cases ha
  · refine Ensures.bindT fun _ => Ensures.bindT fun _ => Ensures.bindT fun _ => Ensures.bindT fun _ => Ensures.bindT fun _ => Ensures.pure hx

/-- The part of the state that frame headers leave alone. -/
def SameRefs (a b : FrameState) : Prop := b.refValid = a.refValid ∧ b.refFrameType = a.refFrameType ∧ b.refOrderHint = a.refOrderHint ∧ b.currentQIndex = a.currentQIndex

/-- All segment ids are 0. -/
def ZeroIds (l : List (List Int)) : Prop := ∀ row ∈ l, ∀ v ∈ row, v = 0

theorem uhRest_refs (h : Header) (sh : SeqHeader) (u : UHeader) (er : Bool) (st : FrameState) :
    Ensures (uhRest h sh u er st) (fun x => SameRefs st x.2 ∧ ZeroIds x.2.prevSegmentIds) := by
  unfold uhRest
  refine Ensures.bind (uhIds_refs h sh u er st) fun x hx => ?_
  dsimp only
  rw [hx]
  refine Ensures.bind (P := fun x : UHeader × FrameState => SameRefs st x.2) ?_ fun y hy => ?_
  · refine Ensures.ite (fun _ => ?_) (fun _ => ?_)
    · unfold uhIntra
      exact Ensures.bindT fun fs => Ensures.bindT fun _ => Ensures.bindT fun _ => Ensures.pure ⟨rfl, rfl, rfl, rfl⟩
    · unfold uhInter
      refine Ensures.bindT fun _ => Ensures.bindT fun _ => Ensures.ite (fun _ => Ensures.fail _) fun _ => ?_
      exact Ensures.bindT fun fs => Ensures.bindT fun _ => Ensures.bindT fun _ => Ensures.bindT fun _ =>
        Ensures.bindT fun _ => Ensures.bindT fun _ => Ensures.bindT fun _ => Ensures.pure ⟨rfl, rfl, rfl, rfl⟩
  refine Ensures.bindT fun dfe => Ensures.ite (fun _ => Ensures.fail _) fun _ => Ensures.ite (fun _ => Ensures.fail _) fun _ => ?_
  refine Ensures.bind (P := fun x : UHeader × FrameState => SameRefs st x.2 ∧ ZeroIds x.2.prevSegmentIds) ?_ fun z hz => ?_
  · unfold uhQuant
    refine Ensures.bindT fun _ => Ensures.bindT fun _ => Ensures.bindT fun _ => Ensures.bindT fun _ => Ensures.bindT fun _ => Ensures.bindT fun _ => ?_
    refine Ensures.pure ⟨hy, fun row hr v hv => ?_⟩
    rw [List.eq_of_mem_replicate hr] at hv
    exact List.eq_of_mem_replicate hv
  · unfold uhFilters
    refine Ensures.bindT fun _ => Ensures.bindT fun _ => Ensures.bindT fun _ => Ensures.bindT fun _ => Ensures.bindT fun _ => Ensures.bindT fun _ => ?_
    refine Ensures.bindT fun _ => Ensures.bindT fun _ => Ensures.bindT fun _ => Ensures.bindT fun _ => Ensures.bindT fun _ => ?_
    exact Ensures.pure hz

theorem newUncompressedHeader_refs (h : Header) (sh : SeqHeader) (st : FrameState) (hz : ZeroIds st.prevSegmentIds) :
    Ensures (newUncompressedHeader h sh st) (fun x => SameRefs st x.2 ∧ ZeroIds x.2.prevSegmentIds) := by
  unfold newUncompressedHeader
  refine Ensures.ite (fun _ => uhRest_refs _ _ _ _ _) fun _ => ?_
  refine Ensures.bindT fun se => Ensures.ite (fun _ => ?_) fun _ => ?_
  · unfold uhShowExisting
    refine Ensures.bindT fun _ => Ensures.bindT fun _ => Ensures.bindT fun _ => Ensures.bindT fun _ => ?_
    exact Ensures.ite (fun _ => Ensures.fail _) fun _ => Ensures.pure ⟨⟨rfl, rfl, rfl, rfl⟩, hz⟩
  · exact Ensures.bindT fun x => uhRest_refs _ _ _ _ _

/-- In every state: the tables are tables, the two copies of the references agree, the segment ids of the frame before are 0. -/
theorem reach_ok {grow : Nat → Nat} {fuel : Nat} {r : DecR} (h : Spec.Reach grow fuel r) : MemOk r.cdf ∧ RefsAgree r ∧ ZeroIds r.fs.prevSegmentIds := by
  induction h with
  | start => exact ⟨memOk_start, ⟨rfl, rfl, rfl⟩, by intro row h; cases h⟩
  | unit _ ih => exact ⟨ih.1, ⟨rfl, rfl, rfl⟩, by intro row h; cases h⟩
  | @header h sh s r b u s' r' b' _ e ih =>
    obtain ⟨i1, ⟨i2, i3, i4⟩, i5⟩ := ih
    unfold decodeHeader at e
    obtain ⟨⟨uh, fs⟩, b1, e1, e⟩ := BM.bind_eq_ok.mp e
    cases e
    obtain ⟨⟨q1, q2, q3, -⟩, q4⟩ := newUncompressedHeader_refs h sh r.fs i5 _ _ _ e1
    exact ⟨i1, ⟨q1.trans i2, q2.trans i3, q3.trans i4⟩, q4⟩
  | @group sz s r u sh b t s' r' b' _ e ih =>
    obtain ⟨i1, ⟨i2, i3, i4⟩, i5⟩ := ih
    refine ⟨decodeGroup_mem grow fuel sz (s, r) u sh i1 _ _ _ e, ?_⟩
    obtain ⟨runs, x, log, fin, -, h1, -, h2, h3⟩ := decodeGroup_inv e
    cases fin with
    | false =>
      obtain ⟨rfl, rfl, rfl⟩ := h3 rfl
      exact ⟨⟨i2, i3, i4⟩, i5⟩
    | true =>
      obtain ⟨lr, seg, m, cd, cu, -, -, -, -, -, -, e6, e7, -⟩ := groupEnd_inv (h2 rfl)
      rw [RefsAgree, e6, e7]
      exact ⟨⟨rfl, rfl, rfl⟩, i5⟩

/-- With `C188_finished`: a slot that is not refreshed stays what it was, also for the next frame header. -/
theorem C188_others {grow : Nat → Nat} {fuel : Nat} {sz : Int} {s s' : State} {r r' : DecR} {u : DecUH} {sh : SeqHeader} {b b' : BitStream} {t : DecTG}
    (hr : Spec.Reach grow fuel r) (h : decodeGroup grow fuel sz (s, r) u sh b = .ok ((t, (s', r')), b')) (i : Nat) (hi : i < 8)
    (hn : ¬ (t.finished = true ∧ u.hdr.refreshFrameFlags.testBit i = true)) :
    r'.slots[i]? = r.slots[i]? ∧ r'.fs.refValid[i]? = r.fs.refValid[i]? ∧ r'.fs.refFrameType[i]? = r.fs.refFrameType[i]? ∧ r'.fs.refOrderHint[i]? = r.fs.refOrderHint[i]? := by
  obtain ⟨a1, a2, a3⟩ := (reach_ok hr).2.1
  cases hf : t.finished with
  | false =>
    obtain ⟨-, h1, h2, -⟩ := C188_open h hf
    rw [h1, h2]
    exact ⟨rfl, rfl, rfl, rfl⟩
  | true =>
    have hb : u.hdr.refreshFrameFlags.testBit i = false := by
      cases hb : u.hdr.refreshFrameFlags.testBit i
      · rfl
      · exact absurd ⟨hf, hb⟩ hn
    obtain ⟨b1, b2, b3, b4⟩ := (C188_finished h hf).2.2.1 i hi hb
    rw [a1, a2, a3, b2, b3, b4]
    refine ⟨b1, ?_, ?_, ?_⟩ <;> rw [List.getElem?_map]

/-! ## C189: the pictures of the references -/

namespace Spec

/-- The pixel is one of the picture that the headers announce. -/
def InPicture (sh : SeqHeader) (uh : UHeader) (p y x : Nat) : Prop :=
  p < sh.colorConfig.numPlanes ∧
  y < (if p > 0 ∧ sh.colorConfig.subsamplingY = true then (uh.size.frameHeight + 1) / 2 else uh.size.frameHeight) ∧
  x < (if p > 0 ∧ sh.colorConfig.subsamplingX = true then (uh.size.upscaledWidth + 1) / 2 else uh.size.upscaledWidth)

end Spec

theorem planeDim_goInt (n p : Nat) (c : Bool) : planeDim n (if p > 0 then goInt c else 0) = if p > 0 ∧ c = true then (n + 1) / 2 else n := by
  unfold planeDim
  by_cases hp : p > 0
  · rw [if_pos hp]
    cases c
    · rw [if_neg (by simp)]; rfl
    · rw [if_pos ⟨hp, rfl⟩]; exact Nat.shiftRight_eq_div_pow (n + 1) 1
  · rw [if_neg hp, if_neg (fun h => hp h.1)]; rfl

theorem planeDim_goInt' (n p : Nat) (c : Bool) : (if p = 0 then n else planeDim n (goInt c)) = if p > 0 ∧ c = true then (n + 1) / 2 else n := by
  rw [← planeDim_goInt]
  by_cases hp : p = 0
  · rw [if_pos hp, if_neg (by omega)]; rfl
  · rw [if_neg hp, if_pos (by omega)]

/-- Whatever was decoded, in every accepted stream: the picture that a finished frame stores in the slots to refresh has the value 2 everywhere (0 if the bit depth is 0), and
the pictures of all other slots are gone (zero).  So no later frame can be predicted from what was decoded. -/
theorem C189_refuted (grow : Nat → Nat) (fuel : Nat) (data : List UInt8) (obus : List (Obu (decoder grow fuel))) (h : Decodes grow fuel data obus) :
    ∀ o ∈ obus, (groupOf o).finished = true → ∀ i, i < 8 →
      ((hdrOf o).refreshFrameFlags.testBit i = true → ∃ pic, (groupOf o).store[i]? = some pic ∧ ∀ p y x, Spec.InPicture o.sequenceHeader (hdrOf o) p y x →
        at3 pic p y x = some (if o.sequenceHeader.colorConfig.bitDepth ≠ 0 then 2 else 0)) ∧
      ((hdrOf o).refreshFrameFlags.testBit i = false → (groupOf o).store[i]? = some (zeroPlanes 3 16 16)) := by
  intro o ho hf i hi
  have hd : DepthOk o.sequenceHeader := by
    obtain ⟨s, h⟩ := h
    exact ((decoder_output grow fuel).stream _ _ _ h o ho).1
  rcases group_called grow fuel data obus h o ho with h0 | ⟨sz, s, r, u, b, s', r', b', -, hu, e⟩
  · rw [h0] at hf; cases hf
  obtain ⟨runs, x, log, fin, -, h1, -, h2, -⟩ := decodeGroup_inv e
  obtain ⟨lr, seg, m, cd, cu, e1, -, e3, -, e4, -⟩ := groupEnd_inv (h2 (h1 ▸ hf))
  obtain ⟨g1, g2⟩ := refUpdate_inv (f := { curFrameOf o.sequenceHeader u.hdr (groupMid u r runs x).fs x.blk with lr := lr, segIds := seg }) (goInt_le _) (goInt_le _) e3
  rw [← hu]
  constructor
  · intro hb
    obtain ⟨slot, pic, ⟨-, a2, -⟩, d⟩ := g1 i hi (testBit_iff.mpr hb)
    refine ⟨pic, by rw [e4]; exact a2, fun p y x' ⟨hp, hy, hx⟩ => ?_⟩
    have hp3 : p < 3 := by rcases hd.1 with h | h | h <;> omega
    obtain ⟨-, f2, -⟩ := restored_flat e1
    rw [d.picture p y x' hp3]
    · rw [show ({ curFrameOf o.sequenceHeader u.hdr (groupMid u r runs x).fs x.blk with lr := lr, segIds := seg } : CurFrame).lr = lr from rfl]
      rw [f2 p y x' hp hp3]
      · rw [show (lrCtxOf o.sequenceHeader u.hdr (groupMid u r runs x).fs x.lr).bitDepth = o.sequenceHeader.colorConfig.bitDepth from rfl, clip1_depth hd.2]
      · show y < planeDim _ _
        rw [← planeDim_goInt] at hy; exact hy
      · show x' < planeDim _ _
        rw [← planeDim_goInt] at hx; exact hx
    · show y < if p = 0 then _ else planeDim _ _
      rw [← planeDim_goInt'] at hy; exact hy
    · show x' < if p = 0 then _ else planeDim _ _
      rw [← planeDim_goInt'] at hx; exact hx
  · intro hb
    have hn : ¬ Refreshed { curFrameOf o.sequenceHeader u.hdr (groupMid u r runs x).fs x.blk with lr := lr, segIds := seg } i := fun hr => by
      have := testBit_iff.mp hr
      rw [show (curFrameOf o.sequenceHeader u.hdr (groupMid u r runs x).fs x.blk).refresh = u.hdr.refreshFrameFlags from rfl, hb] at this
      cases this
    rw [e4, (g2 i hi hn).2.1]
    show (List.replicate 8 _)[i]? = _
    rw [List.getElem?_replicate, if_pos hi]

/-! ## C190, C191: what passes from block to block -/

/-- What holds after every tile holds after the last. -/
theorem tileLoop_last {σ : Type} {I J : σ → Prop} (body : TileRun → σ → Sym → BM (Sym × σ))
    (hbody : ∀ run x st s st' x' s', SymInv st → I x → body run x st s = .ok ((st', x'), s') → I x' ∧ J x')
    (t : Tiles) (e : Int) (k num : Nat) (sz : Int) (x : σ) (hx : I x) : Ensures (tileLoop body t e k num sz x) (fun r => I r.2 ∧ (r.1 ≠ [] → J r.2) ∧ (r.1 = [] → r.2 = x)) := by
  induction k generalizing num sz x with
  | zero =>
    unfold tileLoop
    exact Ensures.pure ⟨hx, fun h => absurd rfl h, fun _ => rfl⟩
  | succ k ih =>
    unfold tileLoop
    refine Ensures.ite (fun _ => Ensures.fail _) fun _ => ?_
    dsimp only
    refine Ensures.bindT fun q => Ensures.bindT fun r0 => Ensures.bindT fun r1 => Ensures.bindT fun c0 => Ensures.bindT fun c1 => Ensures.bindT fun p => ?_
    refine Ensures.bind (P := SymInv) (fun s a s' h => (initSymbol_int h).1) fun st hst => ?_
    refine Ensures.bind (P := fun y => I y.2 ∧ J y.2) (fun s a s' h => hbody _ _ _ _ _ _ _ hst hx h) fun y hy => ?_
    refine Ensures.bindT fun _ => Ensures.bind (ih _ _ _ hy.1) fun z hz => Ensures.pure ⟨hz.1, fun _ => ?_, fun h => by cases h⟩
    by_cases h : z.1 = []
    · rw [hz.2.2 h]; exact hy.2
    · exact hz.2.1 h

theorem tileGroup_last {σ : Type} {I J : σ → Prop} (body : TileRun → σ → Sym → BM (Sym × σ))
    (hbody : ∀ run x st s st' x' s', SymInv st → I x → body run x st s = .ok ((st', x'), s') → I x' ∧ J x')
    (t : Tiles) (sz : Int) (x : σ) (hx : I x) : Ensures (tileGroup body t sz x) (fun r => I r.2.1 ∧ (r.1 ≠ [] → J r.2.1) ∧ (r.1 = [] → r.2.1 = x)) := by
  unfold tileGroup
  refine Ensures.bindT fun _ => Ensures.bindT fun _ => ?_
  dsimp only
  refine Ensures.bindT fun _ => Ensures.bindT fun _ => ?_
  exact Ensures.bind (tileLoop_last body hbody _ _ _ _ _ _ hx) fun r hr => Ensures.pure hr

/-- After a tile. -/
def TileLeaves (u : UHeader) (b : BlkSt) : Prop :=
  (u.delta.deltaQPresent = false → b.info.base.curQ = u.quant.baseQIdx) ∧
  (1 ≤ u.quant.baseQIdx ∧ u.quant.baseQIdx ≤ 255 → 1 ≤ b.info.base.curQ ∧ b.info.base.curQ ≤ 255) ∧
  (u.delta.deltaQPresent = false ∨ u.delta.deltaLfPresent = false → b.info.base.deltaLF = [0, 0, 0, 0]) ∧ MiLfOk b.info.base.deltaLF

theorem group_deltas {grow : Nat → Nat} {fuel : Nat} {sz : Int} {r : DecR} {u : UHeader} {sh : SeqHeader} (hm : MemOk r.cdf) :
    Ensures (tileGroup (groupTile grow fuel sh u r) r.fs.tiles sz ({ cdfs := groupCdfs r, blk := groupStart r.arr, lr := { refXqd := List.replicate 3 [0, 0] } }, []))
      (fun y => y.2.1.1.blk.recs.segIds = sqr 64 0 ∧ (y.1 ≠ [] → TileLeaves u y.2.1.1.blk) ∧ (y.1 = [] → y.2.1.1.blk.info.base.deltaLF = r.arr.deltaLF)) := by
  refine Ensures.mono (tileGroup_last (I := fun x : TileSt × List Ev => (∀ k, cdfClass r.fs = some k → (cdfLayout k).Fits x.1.cdfs) ∧ x.1.blk.recs.segIds = sqr 64 0)
    (J := fun x => TileLeaves u x.1.blk) (groupTile grow fuel sh u r) ?_ r.fs.tiles sz _ ⟨fun k hk => ?_, rfl⟩) fun y hy => ⟨hy.1.2, hy.2.1, fun h => by rw [hy.2.2 h]; rfl⟩
  · intro run x st s st' x' s' hst hx e
    unfold groupTile at e
    cases hk : cdfClass r.fs with
    | none => rw [hk] at e; cases e
    | some k =>
      rw [hk] at e
      dsimp only at e
      obtain ⟨g1, ⟨d1, d2, d3, d4⟩, g2⟩ := realTile_deltas e ⟨hx.1 k hk, hst⟩
      refine ⟨⟨fun j hj => ?_, g2.trans hx.2⟩, d1, fun hq => d2 ⟨?_, ?_⟩, d3, d4 (show MiLfOk [0, 0, 0, 0] from ⟨rfl, by decide⟩)⟩
      · cases hj; exact g1.1
      · show 1 ≤ ((u.quant.baseQIdx : Nat) : Int)
        omega
      · show ((u.quant.baseQIdx : Nat) : Int) ≤ 255
        omega
  · show (cdfLayout k).Fits (groupCdfs r)
    unfold groupCdfs
    rw [hk]
    exact hm.fits k

/-- The quantizer index after a tile group: without `delta_q_present` it is `base_q_idx`; with it, it has stayed in 1..255.  The loop filter deltas: four of them, between -63 and
63, and all 0 unless both `delta_q_present` and `delta_lf_present` are set.  A group without tiles changes none of this. -/
theorem C190_deltas {grow : Nat → Nat} {fuel : Nat} {sz : Int} {s s' : State} {r r' : DecR} {u : DecUH} {sh : SeqHeader} {b b' : BitStream} {t : DecTG}
    (hr : Spec.Reach grow fuel r) (h : decodeGroup grow fuel sz (s, r) u sh b = .ok ((t, (s', r')), b')) :
    (t.runs ≠ [] →
      (u.hdr.delta.deltaQPresent = false → r'.fs.currentQIndex = u.hdr.quant.baseQIdx) ∧
      (1 ≤ u.hdr.quant.baseQIdx ∧ u.hdr.quant.baseQIdx ≤ 255 → 1 ≤ r'.fs.currentQIndex ∧ r'.fs.currentQIndex ≤ 255) ∧
      (u.hdr.delta.deltaQPresent = false ∨ u.hdr.delta.deltaLfPresent = false → r'.arr.deltaLF = [0, 0, 0, 0]) ∧
      r'.arr.deltaLF.length = 4 ∧ ∀ d ∈ r'.arr.deltaLF, -63 ≤ d ∧ d ≤ 63) ∧
    (t.runs = [] → r'.fs.currentQIndex = r.fs.currentQIndex ∧ r'.arr.deltaLF = r.arr.deltaLF) := by
  obtain ⟨runs, x, log, fin, h1, -, h2, h3, h4⟩ := decodeGroup_inv h
  obtain ⟨-, g1, g2⟩ := group_deltas (reach_ok hr).1 _ _ _ h1
  dsimp only at g1 g2
  have hq : r'.fs.currentQIndex = curQAfter r runs x.blk ∧ r'.arr.deltaLF = x.blk.info.base.deltaLF := by
    cases fin with
    | false =>
      obtain ⟨-, rfl, -⟩ := h4 rfl
      exact ⟨rfl, rfl⟩
    | true =>
      obtain ⟨_, _, _, _, _, -, -, -, -, -, -, -, e7, -, -, e8⟩ := groupEnd_inv (h3 rfl)
      exact ⟨by rw [e7]; rfl, e8⟩
  rw [hq.1, hq.2]
  have hrn : t.runs = [] ↔ runs = [] := by rw [h2]; exact List.map_eq_nil_iff
  constructor
  · intro hne
    have hne' : runs ≠ [] := fun h => hne (hrn.mpr h)
    have hc : curQAfter r runs x.blk = x.blk.info.base.curQ := by
      unfold curQAfter
      rw [if_neg (by rw [List.isEmpty_iff]; exact hne')]
    rw [hc]
    obtain ⟨a1, a2, a3, a4⟩ := g1 hne'
    exact ⟨a1, a2, a3, a4.1, a4.2⟩
  · intro he
    have he' := hrn.mp he
    refine ⟨?_, g2 he'⟩
    unfold curQAfter
    rw [he']; rfl

theorem gset_zero {i j : Int} {D : List (List Int)} (h : gset (sqr 64 0) i j 0 = .ok D) : D = sqr 64 0 := by
  unfold gset at h
  obtain ⟨row, h1, h⟩ := Res.inv h
  obtain ⟨row', h2, h⟩ := Res.inv h
  have hr : row = List.replicate 64 0 := by
    obtain ⟨-, h1⟩ := goGet_inv h1
    exact List.eq_of_mem_replicate (List.mem_of_getElem? h1)
  obtain ⟨-, -, rfl⟩ := goSet_inv' h2
  obtain ⟨-, -, rfl⟩ := goSet_inv' h
  rw [hr]
  have : ∀ (n m : Nat) (v : Int), (List.replicate n v).set m v = List.replicate n v := by
    intro n m v
    apply List.ext_getElem?
    intro k
    rw [List.getElem?_set, List.length_replicate, List.getElem?_replicate]
    split <;> simp_all
  rw [this]
  apply List.ext_getElem?
  intro k
  unfold sqr
  rw [List.getElem?_set, List.length_replicate, List.getElem?_replicate]
  split <;> simp_all

theorem copyRows_zero {src D : List (List Int)} {h w : Nat} (hz : ZeroIds src) (e : copyRows src h w (sqr 64 0) = .ok D) : D = sqr 64 0 := by
  unfold copyRows at e
  refine forN_inv (fun _ D => D = sqr 64 0) (fun y t t' _ _ hP ht => ?_) e rfl
  refine forN_inv (fun _ D => D = sqr 64 0) (fun x t t' _ _ hP ht => ?_) ht hP
  obtain ⟨v, h1, ht⟩ := Res.inv ht
  unfold gget at h1
  obtain ⟨row, h2, h1⟩ := Res.inv h1
  have hv : v = 0 := by
    obtain ⟨-, h2⟩ := goGet_inv h2
    obtain ⟨-, h1⟩ := goGet_inv h1
    exact hz row (List.mem_of_getElem? h2) v (List.mem_of_getElem? h1)
  rw [hv, hP] at ht
  exact gset_zero ht

theorem zeroIds_sqr : ZeroIds (sqr 64 0) := by
  intro row hr v hv
  rw [List.eq_of_mem_replicate hr] at hv
  exact List.eq_of_mem_replicate hv

/-- Every saved segment map is 0 everywhere. -/
def ZeroMaps (l : List RefSlot) : Prop := ∀ s ∈ l, s.segIds = sqr 64 0

theorem mem_of_set {α : Type} {l : List α} {i : Nat} {a x : α} (h : x ∈ l.set i a) : x ∈ l ∨ x = a := List.mem_or_eq_of_mem_set h

theorem refUpdate_ids {γ : Type} {f : CurFrame} (hz : ZeroIds f.segIds) {cdfs : γ} {m m' : RefMem γ} (h : refUpdate f cdfs m = .ok m') (hm : ZeroMaps m.slots) : ZeroMaps m'.slots := by
  unfold refUpdate at h
  refine forN_inv (fun _ (t : RefMem γ) => ZeroMaps t.slots) (fun i t t' _ _ hP ht => ?_) h hm
  split at ht
  · unfold updateSlot at ht
    obtain ⟨s0, e1, ht⟩ := Res.inv ht
    obtain ⟨pic0, e2, ht⟩ := Res.inv ht
    obtain ⟨s', e3, ht⟩ := Res.inv ht
    obtain ⟨pic', e4, ht⟩ := Res.inv ht
    obtain ⟨l1, e5, ht⟩ := Res.inv ht
    obtain ⟨st1, e6, ht⟩ := Res.inv ht
    obtain ⟨l', e7, ht⟩ := Res.inv ht
    unfold saveCdfs at ht
    obtain ⟨c1, e8, ht⟩ := Res.inv ht
    cases ht
    have h0 : s0.segIds = sqr 64 0 := hP s0 (List.mem_of_getElem? (goGet_inv e1).2)
    have hs' : s'.segIds = sqr 64 0 := by
      unfold slotArrays at e3
      obtain ⟨d1, -, e3⟩ := Res.inv e3
      obtain ⟨d2, -, e3⟩ := Res.inv e3
      obtain ⟨d3, -, e3⟩ := Res.inv e3
      obtain ⟨d4, -, e3⟩ := Res.inv e3
      obtain ⟨d5, -, e3⟩ := Res.inv e3
      obtain ⟨d6, q, e3⟩ := Res.inv e3
      cases e3
      refine copyRows_zero hz (?_ : copyRows f.segIds f.miRows f.miCols _ = _)
      exact h0 ▸ q
    have h1 : ZeroMaps l1 := by
      obtain ⟨-, -, rfl⟩ := goSet_inv' e5
      intro x hx
      rcases mem_of_set hx with hx | rfl
      · exact hP x hx
      · exact hs'
    show ZeroMaps l'
    unfold saveHints at e7
    refine forN_inv (fun _ (t : List RefSlot) => ZeroMaps t) (fun i t t' _ _ hQ ht => ?_) e7 h1
    split at ht
    · obtain ⟨y, q1, ht⟩ := Res.inv ht
      obtain ⟨-, -, rfl⟩ := goSet_inv' ht
      intro x hx
      rcases mem_of_set hx with hx | rfl
      · exact hQ x hx
      · exact hQ y (List.mem_of_getElem? (goGet_inv q1).2)
    · cases ht; exact hQ
  · cases ht; exact hP

/-- Whatever segment ids the blocks of the frames so far have been given: in every state the program can be in, all saved segment maps are 0 everywhere, and so is the map that
the next frame predicts its segment ids from. -/
theorem C191_saved_refuted {grow : Nat → Nat} {fuel : Nat} {r : DecR} (h : Spec.Reach grow fuel r) :
    (∀ slot ∈ r.slots, slot.segIds = List.replicate 64 (List.replicate 64 0)) ∧ ∀ row ∈ r.fs.prevSegmentIds, ∀ id ∈ row, id = 0 := by
  refine ⟨?_, (reach_ok h).2.2⟩
  have start : ZeroMaps (List.replicate 8 {}) := by
    intro s hs
    rw [List.eq_of_mem_replicate hs]; rfl
  show ZeroMaps r.slots
  induction h with
  | start => exact start
  | unit _ _ => exact start
  | @header h sh s r b u s' r' b' _ e ih =>
    unfold decodeHeader at e
    obtain ⟨⟨uh, fs⟩, b1, e1, e⟩ := BM.bind_eq_ok.mp e
    cases e
    exact ih
  | @group sz s r u sh b t s' r' b' hr e ih =>
    obtain ⟨runs, x, log, fin, h1, -, -, h2, h3⟩ := decodeGroup_inv e
    cases fin with
    | false =>
      obtain ⟨rfl, rfl, rfl⟩ := h3 rfl
      exact ih
    | true =>
      obtain ⟨lr, seg, m, cd, cu, -, q1, q2, -, -, -, q3, -⟩ := groupEnd_inv (h2 rfl)
      rw [q3]
      have hx : x.blk.recs.segIds = sqr 64 0 := (group_deltas (reach_ok hr).1 _ _ _ h1).1
      refine refUpdate_ids (?_ : ZeroIds seg) q2 ih
      rw [hx] at q1
      unfold keepSegIds at q1
      cases hk : keptIds u.hdr (groupMid u r runs x).fs with
      | none =>
        rw [hk] at q1
        cases q1
        exact zeroIds_sqr
      | some p =>
        rw [hk] at q1
        have hp : ZeroIds p := by
          unfold keptIds at hk
          split at hk
          · cases hk
            exact (reach_ok hr).2.2
          · cases hk
        rw [copyRows_zero hp q1]
        exact zeroIds_sqr

/-- The same within a frame: when the tiles of a group have been decoded, the map that deblocking looks the segments of the blocks up in is 0 everywhere. -/
theorem C191_deblocking_refuted {grow : Nat → Nat} {fuel : Nat} {sz : Int} {r : DecR} (hr : Spec.Reach grow fuel r) {uh : UHeader} {sh : SeqHeader} {b b' : BitStream}
    {runs : List TileRun} {x : TileSt} {log : List Ev} {fin : Bool}
    (h : tileGroup (groupTile grow fuel sh uh r) r.fs.tiles sz ({ cdfs := groupCdfs r, blk := groupStart r.arr, lr := { refXqd := List.replicate 3 [0, 0] } }, []) b =
      .ok ((runs, (x, log), fin), b')) (fs : FrameState) :
    (lfCtxOf sh uh fs x.blk).segmentIds = List.replicate 64 (List.replicate 64 0) :=
  (group_deltas (reach_ok hr).1 _ _ _ h).1

/-! ## Non-vacuity -/

/-- The two calls of `C188_open` and `C188_finished`: a group that says it ends before it starts does not finish the frame; a tile group of a stream does, after a tile of 8x8
pixels. -/
example : (decodeGroup id 5 10 ({ seenFrameHeader := true }, { fs := { tiles := ⟨[0, 16, 32], [0, 16], 2, 1, 1, 0, 0, 1⟩ } }) {} {} (newBitStream [0xc0, 0])).toOption.map (fun x => x.1.1.finished) =
    some false := by decide +kernel

example : ∃ (sz : Int) (s : State) (r : DecR) (u : DecUH) (sh : SeqHeader) (b : BitStream) (t : DecTG) (s' : State) (r' : DecR) (b' : BitStream), Spec.Reach (fun _ => 8) 1000 r ∧
    decodeGroup (fun _ => 8) 1000 sz (s, r) u sh b = .ok ((t, (s', r')), b') ∧ t.finished = true ∧ t.runs ≠ [] := by
  obtain ⟨data, o1, o2, o3, _, _, hd, -, hf, -, -, -, -, ⟨run, h1, -⟩, -⟩ := stream_of_describes demo_describes
  rcases group_called _ _ _ _ hd o3 (by simp) with h0 | ⟨sz, s, r, u, b, s', r', b', hr, -, e⟩
  · rw [h0] at hf; cases hf
  · exact ⟨sz, s, r, u, _, b, _, s', r', b', hr, e, hf, fun h => by rw [h] at h1; cases h1⟩

/-- A header that announces a frame to be shown has all slots refreshed (see also C46). -/
def ShownAll (u : UHeader) : Prop := u.showFrame = true → u.refreshFrameFlags = 255

theorem uhRest_shown (h : Header) (sh : SeqHeader) (u : UHeader) (er : Bool) (st : FrameState) : Ensures (uhRest h sh u er st) (fun x => ShownAll x.1) := by
  unfold uhRest
  refine Ensures.bind (P := fun x : UHeader × FrameState => ShownAll x.1) ?_ fun x hx => ?_
  · unfold uhIds
    refine Ensures.bindT fun _ => Ensures.bindT fun _ => ?_
    dsimp only
    refine Ensures.bindT fun _ => Ensures.bindT fun _ => Ensures.bindT fun _ => Ensures.bindT fun _ => Ensures.bindT fun _ => ?_
    refine Ensures.bind (P := fun rf => u.showFrame = true → rf = 255) ?_ fun rf hrf => Ensures.pure hrf
    unfold uhRefresh
    refine Ensures.bind (P := fun rf => u.showFrame = true → rf = 255) ?_ fun rf hrf => ?_
    · exact Ensures.ite (fun _ => Ensures.pure fun _ => rfl) fun hn => fun _ _ _ _ hs => absurd (Or.inr (Or.inr hs)) hn
    · exact Ensures.ite (fun _ => Ensures.bindT fun _ => Ensures.fail _) fun _ => Ensures.pure hrf
  dsimp only
  refine Ensures.bind (P := fun x : UHeader × FrameState => ShownAll x.1) ?_ fun y hy => ?_
  · refine Ensures.ite (fun _ => ?_) (fun _ => ?_)
    · unfold uhIntra
      exact Ensures.bindT fun fs => Ensures.bindT fun _ => Ensures.bindT fun _ => Ensures.pure hx
    · unfold uhInter
      refine Ensures.bindT fun _ => Ensures.bindT fun _ => Ensures.ite (fun _ => Ensures.fail _) fun _ => ?_
      exact Ensures.bindT fun fs => Ensures.bindT fun _ => Ensures.bindT fun _ => Ensures.bindT fun _ =>
        Ensures.bindT fun _ => Ensures.bindT fun _ => Ensures.bindT fun _ => Ensures.pure hx
  refine Ensures.bindT fun dfe => Ensures.ite (fun _ => Ensures.fail _) fun _ => Ensures.ite (fun _ => Ensures.fail _) fun _ => ?_
  refine Ensures.bind (P := fun x : UHeader × FrameState => ShownAll x.1) ?_ fun z hz => ?_
  · unfold uhQuant
    refine Ensures.bindT fun _ => Ensures.bindT fun _ => Ensures.bindT fun _ => Ensures.bindT fun _ => Ensures.bindT fun _ => Ensures.bindT fun _ => ?_
    exact Ensures.pure hy
  · unfold uhFilters
    refine Ensures.bindT fun _ => Ensures.bindT fun _ => Ensures.bindT fun _ => Ensures.bindT fun _ => Ensures.bindT fun _ => Ensures.bindT fun _ => ?_
    refine Ensures.bindT fun _ => Ensures.bindT fun _ => Ensures.bindT fun _ => Ensures.bindT fun _ => Ensures.bindT fun _ => ?_
    exact Ensures.pure hz

/-- In every accepted stream a frame that is to be shown refreshes all slots. -/
theorem shown_all (grow : Nat → Nat) (fuel : Nat) (data : List UInt8) (obus : List (Obu (decoder grow fuel))) (h : Decodes grow fuel data obus) :
    ∀ o ∈ obus, (hdrOf o).showFrame = true → (hdrOf o).refreshFrameFlags = 255 := by
  obtain ⟨s, h⟩ := h
  have hK : (decoder grow fuel).Keeps (fun _ => True) (fun _ => True) (fun u : DecUH => ShownAll u.hdr) (fun _ _ _ => True) :=
    { free := fun _ _ _ _ => trivial
      start := trivial
      fresh := fun _ _ _ => trivial
      seq0 := trivial
      seq := fun _ _ _ _ _ => trivial
      uh0 := by intro h; cases h
      tg0 := fun _ _ _ _ => trivial
      uh := fun h sh st _ _ => by
        show Ensures (decodeHeader h sh st) _
        unfold decodeHeader
        refine Ensures.bind (P := fun x => ShownAll x.1) ?_ fun x hx => Ensures.pure ⟨hx, trivial⟩
        unfold newUncompressedHeader
        refine Ensures.ite (fun _ => uhRest_shown _ _ _ _ _) fun _ => ?_
        refine Ensures.bindT fun se => Ensures.ite (fun _ => ?_) fun _ => ?_
        · unfold uhShowExisting
          refine Ensures.bindT fun _ => Ensures.bindT fun _ => Ensures.bindT fun _ => Ensures.bindT fun _ => ?_
          exact Ensures.ite (fun _ => Ensures.fail _) fun _ => Ensures.pure (by intro h; cases h)
        · exact Ensures.bindT fun x => uhRest_shown _ _ _ _ _
      tg := fun _ _ _ _ _ _ _ => fun _ _ _ _ => ⟨trivial, trivial⟩ }
  intro o ho
  exact (hK.stream _ _ _ h o ho).2.1

/-- `C189_refuted`: in the stream of `demo_describes` the pixel that was decoded is 128; all eight slots hold a 2. -/
example : ∃ (data : List UInt8) (obus : List (Obu (decoder (fun _ => 8) 1000))), Decodes (fun _ => 8) 1000 data obus ∧ ∃ o ∈ obus, (groupOf o).finished = true ∧
    at3 (groupOf o).decoded 0 0 0 = some 128 ∧ ∀ i, i < 8 → ∃ pic, (groupOf o).store[i]? = some pic ∧ at3 pic 0 0 0 = some 2 := by
  obtain ⟨data, o1, o2, o3, blk, p, hd, h1, h2, h3, -, h5, -, -, -, -, -, s1, ea, ha⟩ := stream_of_describes demo_describes
  simp only [Bool.and_eq_true, beq_iff_eq] at h5
  have hq : (newSequenceHeader {} (newBitStream [0x18, 0x02, 0])).toOption.map (fun x => (x.1.1.colorConfig.bitDepth, x.1.1.colorConfig.numPlanes)) = some (8, 1) := by decide +kernel
  rw [ha] at hq
  have hq : (o3.sequenceHeader.colorConfig.bitDepth, o3.sequenceHeader.colorConfig.numPlanes) = (8, 1) := Option.some.inj hq
  have hq1 := (Prod.ext_iff.mp hq).1
  have hq2 := (Prod.ext_iff.mp hq).2
  dsimp only at hq1 hq2
  refine ⟨data, _, hd, o3, by simp, h2, by rw [h3]; exact h5.1.1.1.1, fun i hi => ?_⟩
  obtain ⟨w, hh, -⟩ := C183_content_refuted _ _ _ _ hd o3 (by simp) h2 h1
  obtain ⟨g, -⟩ := C189_refuted _ _ _ _ hd o3 (by simp) h2 i hi
  obtain ⟨pic, g1, g2⟩ := g (by
    rw [shown_all _ _ _ _ hd o3 (by simp) h1]
    have : ∀ i, i < 8 → Nat.testBit 255 i = true := by decide
    exact this i hi)
  refine ⟨pic, g1, ?_⟩
  rw [g2 0 0 0 ⟨by rw [hq2]; decide, by rw [hh, if_neg (by simp)]; decide, by rw [w, if_neg (by simp)]; decide⟩, hq1]
  rfl

end Gov1
