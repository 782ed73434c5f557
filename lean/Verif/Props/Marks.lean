import Verif.Props.StreamSound
/-!
# The marks of transform blocks keep their shape

`LoopFilterTxSizes` and `BlockDecoded` are arrays of fixed size in the program.  The model has lists; here it is proved that decoding never changes their lengths.
-/
namespace Gov1

/-- The lengths of the arrays of the planes. -/
def markShape (ms : List TxMarks) : List (List Nat × List Nat) := ms.map fun m => (m.lfTx.map List.length, m.decoded.map List.length)

theorem goSet_lengths {α : Type} {m m' : List (List α)} {i : Int} {r row : List α} (hr : goGet m i = .ok r) (hl : row.length = r.length) (h : goSet m i row = .ok m') :
    m'.map List.length = m.map List.length := by
  obtain ⟨-, hn, rfl⟩ := goSet_inv' h
  obtain ⟨-, hg⟩ := goGet_inv hr
  rw [List.map_set, hl]
  apply List.ext_getElem
  · simp
  · intro j h1 h2
    rw [List.getElem_set]
    split
    · rename_i h; subst h
      rw [List.getElem_map]
      rw [List.getElem?_eq_getElem hn] at hg
      rw [Option.some.inj hg]
    · rfl

theorem goSet2_lengths {α : Type} {m m' : List (List α)} {i j : Int} {v : α} (h : goSet2 m i j v = .ok m') : m'.map List.length = m.map List.length := by
  unfold goSet2 at h
  obtain ⟨r, h1, h⟩ := Res.inv h
  obtain ⟨row, h2, h⟩ := Res.inv h
  refine goSet_lengths h1 ?_ h
  obtain ⟨-, -, rfl⟩ := goSet_inv' h2
  exact List.length_set ..

theorem gset_lengths {α : Type} {m m' : List (List α)} {i j : Int} {v : α} (h : gset m i j v = .ok m') : m'.map List.length = m.map List.length := by
  unfold gset at h
  obtain ⟨r, h1, h⟩ := Res.inv h
  obtain ⟨row, h2, h⟩ := Res.inv h
  refine goSet_lengths h1 ?_ h
  obtain ⟨-, -, rfl⟩ := goSet_inv' h2
  exact List.length_set ..

theorem goSet_marks {ms ms' : List TxMarks} {i : Int} {m m' : TxMarks} (hm : goGet ms i = .ok m) (h1 : m'.lfTx.map List.length = m.lfTx.map List.length)
    (h2 : m'.decoded.map List.length = m.decoded.map List.length) (h : goSet ms i m' = .ok ms') : markShape ms' = markShape ms := by
  obtain ⟨-, hn, rfl⟩ := goSet_inv' h
  obtain ⟨-, hg⟩ := goGet_inv hm
  unfold markShape
  rw [List.map_set, h1, h2]
  apply List.ext_getElem
  · simp
  · intro j h1 h2
    rw [List.getElem_set]
    split
    · rename_i h; subst h
      rw [List.getElem_map]
      rw [List.getElem?_eq_getElem hn] at hg
      rw [Option.some.inj hg]
    · rfl

theorem txMark_shape {cx : ResCtx} {plane txSz : Nat} {p : TxPos} {m m' : TxMarks} (h : txMark cx plane txSz p m = .ok m') :
    m'.lfTx.map List.length = m.lfTx.map List.length ∧ m'.decoded.map List.length = m.decoded.map List.length := by
  unfold txMark at h
  refine forN_inv (fun _ (t : TxMarks) => t.lfTx.map List.length = m.lfTx.map List.length ∧ t.decoded.map List.length = m.decoded.map List.length) ?_ h ⟨rfl, rfl⟩
  intro i t t' _ _ ht h
  refine forN_inv (fun _ (t : TxMarks) => t.lfTx.map List.length = m.lfTx.map List.length ∧ t.decoded.map List.length = m.decoded.map List.length) ?_ h ht
  intro j t t' _ _ ht h
  obtain ⟨lf, h1, h⟩ := Res.inv h
  obtain ⟨d, h2, h⟩ := Res.inv h
  rw [← Except.ok.inj h]
  exact ⟨(gset_lengths h1).trans ht.1, (gset_lengths h2).trans ht.2⟩

theorem tbLuma_marks (call : TxCall) (p : TxPos) (s : TbSt) : (tbLuma call p s).marks = s.marks := by
  unfold tbLuma; split <;> rfl

theorem tbPredict_marks {c : TbCtx} {call : TxCall} {p : TxPos} {s s' : TbSt} (h : tbPredict c call p s = .ok s') : s'.marks = s.marks := by
  unfold tbPredict at h
  split at h
  · rw [← Except.ok.inj h]
  split at h
  · obtain ⟨u, hu, rfl⟩ := map_ok h
    unfold tbPalette at hu
    obtain ⟨F, h1, hu⟩ := Res.inv hu
    obtain ⟨pal, h2, hu⟩ := Res.inv hu
    obtain ⟨G, h3, hu⟩ := Res.inv hu
    obtain ⟨fs, h4, hu⟩ := Res.inv hu
    rw [tbLuma_marks, ← Except.ok.inj hu]
  · obtain ⟨u, hu, rfl⟩ := map_ok h
    unfold tbIntra at hu
    obtain ⟨lw, h1, hu⟩ := Res.inv hu
    obtain ⟨lh, h2, hu⟩ := Res.inv hu
    obtain ⟨m, h3, hu⟩ := Res.inv hu
    obtain ⟨f, h4, hu⟩ := Res.inv hu
    obtain ⟨F, h5, hu⟩ := Res.inv hu
    obtain ⟨r, h6, hu⟩ := Res.inv hu
    obtain ⟨G, h7, hu⟩ := Res.inv hu
    obtain ⟨fs, h8, hu⟩ := Res.inv hu
    rw [tbLuma_marks, ← Except.ok.inj hu]

theorem tbQuiet_marks {c : TbCtx} {call : TxCall} {s s' : TbSt} (h : tbQuiet c call s = .ok s') : markShape s'.marks = markShape s.marks := by
  unfold tbQuiet at h
  obtain ⟨p, -, h⟩ := Res.inv h
  cases p with
  | none => rw [← Except.ok.inj h]
  | some p =>
    obtain ⟨u, h1, h⟩ := Res.inv h
    unfold tbMark at h
    obtain ⟨m, h2, h⟩ := Res.inv h
    obtain ⟨m', h3, h⟩ := Res.inv h
    obtain ⟨ms, h4, h⟩ := Res.inv h
    rw [← Except.ok.inj h]
    obtain ⟨e1, e2⟩ := txMark_shape h3
    exact (goSet_marks h2 e1 e2 h4).trans (by rw [tbPredict_marks h1])

theorem quietCalls_marks {c : TbCtx} : ∀ (calls : List TxCall) {s s' : TbSt}, quietCalls c calls s = .ok s' → markShape s'.marks = markShape s.marks
  | [], s, s', h => by rw [← Except.ok.inj h]
  | call :: t, s, s', h => by
    unfold quietCalls at h
    obtain ⟨u, h1, h⟩ := Res.inv h
    exact (quietCalls_marks t h).trans (tbQuiet_marks h1)

theorem computePrediction_marks {c : CpCtx} {s s' : TbSt} (h : computePrediction c s = .ok s') : s'.marks = s.marks := by
  unfold computePrediction at h
  refine forN_inv (fun _ (t : TbSt) => t.marks = s.marks) ?_ h rfl
  intro i t t' _ _ ht h
  unfold cpPlane at h
  obtain ⟨ps, -, h⟩ := Res.inv h
  obtain ⟨m, -, h⟩ := Res.inv h
  obtain ⟨u, h1, h⟩ := Res.inv h
  have e1 : u.marks = t.marks := by
    unfold cpIntra at h1
    split at h1
    · obtain ⟨_, -, h1⟩ := Res.inv h1
      obtain ⟨_, -, h1⟩ := Res.inv h1
      obtain ⟨_, -, h1⟩ := Res.inv h1
      obtain ⟨_, -, h1⟩ := Res.inv h1
      obtain ⟨_, -, h1⟩ := Res.inv h1
      obtain ⟨_, -, h1⟩ := Res.inv h1
      obtain ⟨_, -, h1⟩ := Res.inv h1
      obtain ⟨_, -, h1⟩ := Res.inv h1
      obtain ⟨_, -, h1⟩ := Res.inv h1
      rw [← Except.ok.inj h1]
    · rw [← Except.ok.inj h1]
  unfold cpInter at h
  split at h
  · obtain ⟨_, -, h⟩ := Res.inv h
    obtain ⟨_, -, h⟩ := Res.inv h
    obtain ⟨_, -, h⟩ := Res.inv h
    obtain ⟨_, -, h⟩ := Res.inv h
    rw [← Except.ok.inj h]
    exact e1.trans ht
  · rw [← Except.ok.inj h]
    exact e1.trans ht

theorem flagCols_lengths (xMax sbW sbH : Int) : ∀ (fuel : Nat) (y x : Int) (m : List (List Bool)) (z : Int × List (List Bool)), flagCols xMax sbW sbH fuel y x m = .ok z →
    z.2.map List.length = m.map List.length := by
  intro fuel
  induction fuel with
  | zero =>
    intro y x m z h
    unfold flagCols at h
    split at h
    · cases h
    · rw [← Except.ok.inj h]
  | succ n ih =>
    intro y x m z h
    unfold flagCols at h
    split at h
    · dsimp only at h
      obtain ⟨row, -, h⟩ := Res.inv h
      obtain ⟨m', h1, h⟩ := Res.inv h
      exact (ih _ _ _ _ h).trans (goSet2_lengths h1)
    · rw [← Except.ok.inj h]

theorem flagRows_lengths (yMax xMax sbW sbH : Int) : ∀ (fuel : Nat) (y : Int) (m m' : List (List Bool)), flagRows yMax xMax sbW sbH fuel y m = .ok m' →
    m'.map List.length = m.map List.length := by
  intro fuel
  induction fuel with
  | zero =>
    intro y m m' h
    unfold flagRows at h
    split at h
    · cases h
    · rw [← Except.ok.inj h]
  | succ n ih =>
    intro y m m' h
    unfold flagRows at h
    split at h
    · obtain ⟨z, h1, h⟩ := Res.inv h
      exact (ih _ _ _ h).trans (flagCols_lengths _ _ _ _ _ _ _ _ h1)
    · rw [← Except.ok.inj h]

theorem clearFlags_shape {h : FrHdr} {numPlanes sbSize r c : Nat} {ms ms' : List TxMarks} (e : clearFlags h numPlanes sbSize r c ms = .ok ms') : markShape ms' = markShape ms := by
  unfold clearFlags at e
  refine forN_inv (fun _ t => markShape t = markShape ms) ?_ e rfl
  intro i t t' _ _ ht e
  obtain ⟨m, h1, e⟩ := Res.inv e
  dsimp only at e
  obtain ⟨d, h2, e⟩ := Res.inv e
  refine (goSet_marks (m' := { m with decoded := d }) h1 rfl ?_ e).trans ht
  unfold clearFlagsPlane at h2
  dsimp only at h2
  obtain ⟨m1, h3, h2⟩ := Res.inv h2
  obtain ⟨row, -, h2⟩ := Res.inv h2
  exact (goSet2_lengths h2).trans (flagRows_lengths _ _ _ _ _ _ _ _ h3)

/-! ## Tiles -/

/-- Part of the decoding of a tile keeps the shape of the marks. -/
def MarkRel (k : Fin 4) (x : Sym × TileSt) (_ : List Ev) (y : Sym × TileSt) : Prop :=
  CdfGood k x → CdfGood k y ∧ markShape y.2.blk.tb.marks = markShape x.2.blk.tb.marks

theorem block_marks {k : Fin 4} {disable : Bool} {fuel : Nat} {h : FrHdr} {r c size : Nat} {b b' : BlkSt} {cdfs cdfs' : List (List Int)} {st st' : Sym} {s s' : BitStream}
    (hL : (cdfLayout k).Fits cdfs) (hi : SymInv st) (e : (decodeBlock fuel h r c size b).exec (cdfLayout k) disable cdfs st s = .ok ((b', cdfs', st'), s')) :
    markShape b'.tb.marks = markShape b.tb.marks := by
  obtain ⟨a, bw4, bh4, l, p, d⟩ := exec_wlp (decodeBlock_done _ fuel h r c size b) hL ⟨hi.1, hi.2.1⟩ ⟨hi.2.2.1, hi.2.2.2⟩ e
  obtain ⟨calls, -, q⟩ := d.resid
  have hp := computePrediction_marks d.pred
  exact (quietCalls_marks calls q).trans (congrArg markShape hp)

theorem markTree (k : Fin 4) (disable : Bool) (fuel : Nat) (h : FrHdr) : TreeRel (tileOps (cdfLayout k) disable fuel h) (MarkRel k) where
  nil x hx := ⟨hx, rfl⟩
  app h1 h2 hx := by
    obtain ⟨g1, e1⟩ := h1 hx
    obtain ⟨g2, e2⟩ := h2 g1
    exact ⟨g2, e2.trans e1⟩
  read := by
    intro b r c x s p y s' e hx
    change partOp (cdfLayout k) disable h b r c x s = _ at e
    unfold partOp at e
    obtain ⟨⟨a, cdfs, st⟩, s1, h1, e⟩ := BM.bind_eq_ok.mp e
    cases e
    obtain ⟨g1, g2, g3⟩ := exec_good hx.1 hx.2 h1
    exact ⟨⟨g1, g2⟩, rfl⟩
  forced := by intro b p r c x hp hx; exact ⟨hx, rfl⟩
  block := by
    intro r c size x s y s' e hx
    change blockOp (cdfLayout k) disable fuel h r c size x s = _ at e
    unfold blockOp execIn at e
    obtain ⟨⟨a, cdfs, st⟩, s1, h1, e⟩ := BM.bind_eq_ok.mp e
    cases e
    obtain ⟨g1, g2, g3⟩ := exec_good hx.1 hx.2 h1
    exact ⟨⟨g1, g2⟩, block_marks hx.1 hx.2 h1⟩

theorem realTile_marks {grow : Nat → Nat} {k : Fin 4} {disable : Bool} {fuel : Nat} {h : FrHdr} {lh : LrHdr} {run : TileRun} {x y : TileSt × List Ev} {st st' : Sym}
    {s s' : BitStream} (e : realTile grow k disable fuel h lh run x st s = .ok ((st', y), s')) : MarkRel k (st, x.1) [] (st', y.1) := by
  unfold realTile at e
  obtain ⟨es, -, ht⟩ := tileEvents_rel (pre := sbPre grow (cdfLayout k) disable fuel h lh) (reset := tileReset h lh.numPlanes) (markTree k disable fuel h) (fun {r c x st s y s'} e => by
      intro hx
      unfold sbPre at e
      obtain ⟨b, s1, h1, e⟩ := BM.bind_eq_ok.mp e
      unfold execIn at e
      obtain ⟨⟨a, cdfs, st⟩, s1, h2, e⟩ := BM.bind_eq_ok.mp e
      cases e
      obtain ⟨g1, g2, g3⟩ := exec_good hx.1 hx.2 h2
      refine ⟨⟨g1, g2⟩, ?_⟩
      obtain ⟨h1, -⟩ := BM.lift_inv h1
      unfold sbClear at h1
      obtain ⟨ci, -, h1⟩ := Res.inv h1
      obtain ⟨ms, h3, h1⟩ := Res.inv h1
      rw [← Except.ok.inj h1]
      exact clearFlags_shape h3) (fun st x hx => ⟨hx, rfl⟩) e
  exact ht

/-! ## Tile groups -/

/-- The flags `BlockDecoded` of the state: `[3][13][13]bool`. -/
def ArrOk (a : StArr) : Prop := a.decoded.map (fun d => d.map List.length) = List.replicate 3 (List.replicate 13 13)

/-- The shape of the marks of a tile group. -/
def marksShape : List (List Nat × List Nat) := List.replicate 3 ([2, 2], List.replicate 13 13)

theorem groupStart_marks {a : StArr} (h : ArrOk a) : markShape (groupStart a).tb.marks = marksShape := by
  have e : markShape (groupStart a).tb.marks = (a.decoded.map (fun d => d.map List.length)).map (fun d => ([2, 2], d)) := by
    show (a.decoded.map _).map _ = _
    rw [List.map_map, List.map_map]
    rfl
  rw [e, h]
  rfl

theorem group_marks (grow : Nat → Nat) (fuel : Nat) (sz : Int) (r : DecR) (u : UHeader) (sh : SeqHeader) (hm : MemOk r.cdf) (ha : ArrOk r.arr) :
    Ensures (tileGroup (groupTile grow fuel sh u r) r.fs.tiles sz ({ cdfs := groupCdfs r, blk := groupStart r.arr, lr := { refXqd := List.replicate 3 [0, 0] } }, []))
      (fun y => markShape y.2.1.1.blk.tb.marks = marksShape) := by
  cases hk : cdfClass r.fs with
  | none =>
    refine tileGroup_keeps (I := fun x : TileSt × List Ev => markShape x.1.blk.tb.marks = marksShape) (groupTile grow fuel sh u r) (by
      intro run x st s st' x' s' hst hx e
      unfold groupTile at e
      rw [hk] at e
      cases e) r.fs.tiles sz _ (groupStart_marks ha)
  | some k =>
    have hg : groupCdfs r = r.cdf.view k := by unfold groupCdfs; rw [hk]
    have := tileGroup_keeps (I := fun x : TileSt × List Ev => (cdfLayout k).Fits x.1.cdfs ∧ markShape x.1.blk.tb.marks = marksShape) (groupTile grow fuel sh u r) (by
      intro run x st s st' x' s' hst hx e
      unfold groupTile at e
      rw [hk] at e
      obtain ⟨g1, g2⟩ := realTile_marks e ⟨hx.1, hst⟩
      exact ⟨g1.1, g2.trans hx.2⟩) r.fs.tiles sz
      ({ cdfs := groupCdfs r, blk := groupStart r.arr, lr := { refXqd := List.replicate 3 [0, 0] } }, []) ⟨by rw [hg]; exact hm.fits k, groupStart_marks ha⟩
    exact fun s y s' h => (this s y s' h).2

theorem arrOk_of {cdef : Planes} {b : BlkSt} (h : markShape b.tb.marks = marksShape) : ArrOk (arrOf cdef b) := by
  have : (markShape b.tb.marks).map (·.2) = marksShape.map (·.2) := congrArg _ h
  unfold markShape at this
  rw [List.map_map] at this
  unfold ArrOk arrOf
  dsimp only
  rw [List.map_map]
  exact this

theorem lfOk_of {sh : SeqHeader} {u : UHeader} {fs : FrameState} {b : BlkSt} (h : markShape b.tb.marks = marksShape) : (lfCtxOf sh u fs b).Ok := by
  have hb : ∀ x : Bool, goInt x ≤ 1 := by decide
  refine ⟨?_, ?_, hb _, hb _⟩
  · show (b.tb.marks.map _).length = 3
    have := congrArg List.length h
    rw [List.length_map]
    unfold markShape at this
    rw [List.length_map] at this
    exact this
  · intro m hm
    obtain ⟨tm, h1, rfl⟩ := List.mem_map.mp hm
    have h2 : (tm.lfTx.map List.length, tm.decoded.map List.length) ∈ marksShape := by rw [← h]; exact List.mem_map.mpr ⟨tm, h1, rfl⟩
    have h3 := List.eq_of_mem_replicate h2
    have h4 := (Prod.ext_iff.mp h3).1
    dsimp only at h4
    refine ⟨by simpa using congrArg List.length h4, fun r hr => ?_⟩
    have : r.length ∈ tm.lfTx.map List.length := List.mem_map.mpr ⟨r, hr, rfl⟩
    rw [h4] at this
    simpa using this

/-- The deblocking filter of a finished frame changes nothing. -/
theorem deblock_same {sh : SeqHeader} {u : UHeader} {fs : FrameState} {b : BlkSt} (h : markShape b.tb.marks = marksShape) {p : Planes} (e : deblock sh u fs b = .ok p) : p = b.tb.frames := by
  unfold deblock at e
  obtain ⟨l0, -, e⟩ := Res.inv e
  obtain ⟨l1, -, e⟩ := Res.inv e
  split at e
  · exact C104_identity_refuted _ (lfOk_of h) _ _ e
  · exact (Except.ok.inj e).symm

/-- A header of the sequence that asks for 128x128 superblocks says how many planes there are. -/
def PlanesIf (sh : SeqHeader) : Prop := sh.use128x128SuperBlock = true → 0 < sh.colorConfig.numPlanes

theorem newColorConfig_planes (p : Nat) : Ensures (newColorConfig p) (fun c => 0 < c.numPlanes) := by
  unfold newColorConfig
  refine Ensures.bindT fun hb => Ensures.bindT fun r => Ensures.bindT fun mono => ?_
  dsimp only
  refine Ensures.bindT fun d => ?_
  have hn : 0 < if mono = true then 1 else 3 := by cases mono <;> simp
  refine Ensures.ite (fun _ => Ensures.bindT fun _ => Ensures.pure hn) (fun _ => ?_)
  refine Ensures.ite (fun _ => Ensures.bindT fun _ => Ensures.pure hn) (fun _ => ?_)
  exact Ensures.bindT fun _ => Ensures.bindT fun _ => Ensures.bindT fun _ => Ensures.bindT fun _ => Ensures.pure hn

theorem newSequenceHeader_planes (s : State) : Ensures (newSequenceHeader s) (fun x => PlanesIf x.1) := by
  unfold newSequenceHeader
  refine Ensures.bindT fun _ => Ensures.bindT fun _ => Ensures.bindT fun _ => Ensures.bindT fun _ => ?_
  dsimp only
  refine Ensures.bindT fun r => Ensures.bindT fun _ => Ensures.bindT fun _ => Ensures.bindT fun _ => ?_
  refine Ensures.bind (newColorConfig_planes _) fun cc hcc => Ensures.bindT fun _ => Ensures.pure ?_
  exact fun _ => hcc

theorem decodeGroup_arr (grow : Nat → Nat) (fuel : Nat) (sz : Int) (sr : State × DecR) (u : DecUH) (sh : SeqHeader) (hm : MemOk sr.2.cdf) (ha : ArrOk sr.2.arr) :
    Ensures (decodeGroup grow fuel sz sr u sh) (fun x => ArrOk x.2.2.arr ∧ x.2.2.arr.curr = x.1.decoded) := by
  unfold decodeGroup
  dsimp only
  refine Ensures.bind (group_marks grow fuel sz sr.2 u.hdr sh hm ha) fun y hy => ?_
  refine Ensures.ite (fun hf => Ensures.lift fun a e => ?_) (fun hf => Ensures.pure ⟨arrOk_of hy, rfl⟩)
  unfold groupEnd at e
  obtain ⟨w, h1, e⟩ := Res.inv e
  cases e
  refine ⟨arrOk_of (cdef := sr.2.arr.cdef) hy, ?_⟩
  unfold wrapup at h1
  obtain ⟨cur, h2, h1⟩ := Res.inv h1
  obtain ⟨_, -, h1⟩ := Res.inv h1
  obtain ⟨_, -, h1⟩ := Res.inv h1
  cases h1
  exact deblock_same hy h2

theorem decodeGroup_no128 (grow : Nat → Nat) (fuel : Nat) (sz : Int) (sr : State × DecR) (u : DecUH) (sh : SeqHeader) (ha : ArrOk sr.2.arr) (hs : FsTiles sr.2.fs) (hq : PlanesIf sh) :
    Ensures (decodeGroup grow fuel sz sr u sh) (fun x => ∀ run ∈ x.1.runs, run.rowStart < run.rowEnd → sh.use128x128SuperBlock = false) := by
  intro s0 ⟨tg, st0⟩ s0' h run hrun hne
  by_contra hsb
  replace hsb : sh.use128x128SuperBlock = true := by simpa using hsb
  unfold decodeGroup at h
  dsimp only at h
  obtain ⟨⟨runs, ⟨x, log⟩, fin⟩, s1, h1, h2⟩ := BM.bind_eq_ok.mp h
  dsimp only at h2
  obtain ⟨run', hrun', hne'⟩ : ∃ run' ∈ runs, run'.rowStart < run'.rowEnd := by
    by_cases hf : fin = true
    · rw [if_pos hf] at h2
      have h2 := (BM.lift_inv h2).1
      unfold groupEnd at h2
      obtain ⟨w, e, h2⟩ := Res.inv h2
      cases h2
      obtain ⟨run', h3, rfl⟩ := List.mem_map.mp hrun
      exact ⟨run', h3, hne⟩
    · rw [if_neg hf] at h2
      cases h2
      obtain ⟨run', h3, rfl⟩ := List.mem_map.mp hrun
      exact ⟨run', h3, hne⟩
  obtain ⟨m1, m2, t1, t2, t3, t4⟩ := group_two grow fuel sz sr.2 u.hdr sh hs _ h1 hrun' hne'
  obtain ⟨g1, size, start, st, s2, st', s3, hi, g2, g3⟩ := tileGroup_one_run _ _ _ _ t1 t2 t3 t4 s0 _ s1 h1
  dsimp only at g3
  unfold groupTile at g3
  cases hk : cdfClass sr.2.fs with
  | none => rw [hk] at g3; cases g3
  | some k =>
  rw [hk] at g3
  dsimp only at g3
  have hmk := groupStart_marks ha
  obtain ⟨m, hm0, hmf⟩ : ∃ m, (groupStart sr.2.arr).tb.marks[0]? = some m ∧ FlagShape m.decoded := by
    cases hc : (groupStart sr.2.arr).tb.marks with
    | nil => rw [hc] at hmk; cases hmk
    | cons m t =>
      rw [hc] at hmk
      refine ⟨m, rfl, ?_⟩
      have hd : m.decoded.map List.length = List.replicate 13 13 := (Prod.ext_iff.mp (List.cons.inj hmk).1).2
      refine ⟨by simpa using congrArg List.length hd, fun r hr => ?_⟩
      have : r.length ∈ m.decoded.map List.length := List.mem_map.mpr ⟨r, hr, rfl⟩
      rw [hd] at this
      exact List.eq_of_mem_replicate this
  exact C179_128_refuted (h := frHdrOf sh u.hdr sr.2.fs sr.2.slots ⟨0, size, 0, 2, 0, 2, start⟩) hsb (lh := lrHdrOf sh u.hdr sr.2.fs) (hq hsb) ⟨Nat.zero_lt_two, Nat.zero_lt_two⟩ hm0 hmf g3

theorem decoder_no128 (grow : Nat → Nat) (fuel : Nat) :
    (decoder grow fuel).Keeps (fun st => (MemOk (DecR.cdf st.2) ∧ FsTiles (DecR.fs st.2)) ∧ ArrOk (DecR.arr st.2)) PlanesIf (fun _ => True)
      (fun sh _ t => ∀ run ∈ DecTG.runs t, run.rowStart < run.rowEnd → sh.use128x128SuperBlock = false) where
  free _ _ _ h := h
  start := ⟨(decoder_stands grow fuel).start, rfl⟩
  fresh s r h := ⟨(decoder_stands grow fuel).fresh s r h.1, rfl⟩
  seq0 := by intro h; cases h
  seq := newSequenceHeader_planes
  uh0 := trivial
  tg0 sh u _ _ := by intro run h; cases h
  uh h sh st hS _ := by
    show Ensures (decodeHeader h sh st) _
    unfold decodeHeader
    exact Ensures.bind (newUncompressedHeader_tiles h sh _ hS.1.2) fun x hx => Ensures.pure ⟨trivial, ⟨hS.1.1, hx⟩, hS.2⟩
  tg sz st u sh hS hQ _ := fun s a s' h =>
    ⟨decodeGroup_no128 grow fuel sz st u sh hS.2 hS.1.2 hQ s a s' h, ((decoder_stands grow fuel).tg sz st u sh hS.1 trivial trivial s a s' h).2,
      (decodeGroup_arr grow fuel sz st u sh hS.1.1 hS.2 s a s' h).1⟩

/-! ## C185, C186 -/

/-- No picture with 128x128 superblocks is ever decoded. -/
theorem stream_no128 (grow : Nat → Nat) (fuel : Nat) (data : List UInt8) (obus : List (Obu (decoder grow fuel))) (h : Decodes grow fuel data obus) (o : Obu (decoder grow fuel)) (ho : o ∈ obus)
    (run : TileRun) (hrun : run ∈ (groupOf o).runs) (hne : run.rowStart < run.rowEnd) : o.sequenceHeader.use128x128SuperBlock = false := by
  obtain ⟨s, h⟩ := h
  exact ((decoder_no128 grow fuel).stream _ _ _ h o ho).2.2 run hrun hne

/-- C185, the converse of `C185_complete`: whatever stream the program accepts, a picture it decodes is one that symbol values accepted by the syntax stand for.  The
frame has 8x8 pixels and 64x64 superblocks; the pixels, the partition and the blocks are those of the symbols, and the output is that of the filters for them. -/
theorem C185_sound (grow : Nat → Nat) (fuel : Nat) (data : List UInt8) (obus : List (Obu (decoder grow fuel))) (h : Decodes grow fuel data obus) (o : Obu (decoder grow fuel)) (ho : o ∈ obus)
    (run : TileRun) (hrun : run ∈ (groupOf o).runs) (hne : run.rowStart < run.rowEnd) :
    o.sequenceHeader.use128x128SuperBlock = false ∧ ∃ (r : DecR) (opIdc : Nat) (k : Fin 4) (msg : List Nat) (b : BlkSt) (l : LrUnitParams) (p : Nat) (y : Planes × Planes × (RefMem Unit × Planes)),
      r.fs.miRows = 2 ∧ r.fs.miCols = 2 ∧ cdfClass r.fs = some k ∧ (headerSyntax grow fuel o.sequenceHeader (hdrOf o) r).run (cdfLayout k) msg = .ok ((b, l, p), []) ∧
      wrapup opIdc o.sequenceHeader (hdrOf o) r.fs r.slots r.arr.cdef ⟨[], b, l⟩ (zeroPlanes 3 1 1) = .ok y ∧
      (groupOf o).decoded = b.tb.frames ∧ (groupOf o).log = wholeLog p ∧ (groupOf o).out = y.2.2.2 ∧ (groupOf o).store = y.2.2.1.store := by
  have hsb := stream_no128 grow fuel data obus h o ho run hrun hne
  exact ⟨hsb, stream_sound_64 grow fuel data obus h o ho run hrun hne hsb⟩

/-- Non-vacuity of `C185_sound` and `C186_tables`: the stream of `demo_describes` is accepted and carries a tile with a row of superblocks. -/
example : ∃ (data : List UInt8) (obus : List (Obu (decoder (fun _ => 8) 1000))), Decodes (fun _ => 8) 1000 data obus ∧
    ∃ o ∈ obus, o.sequenceHeader.use128x128SuperBlock = false ∧ ∃ run ∈ (groupOf o).runs, run.rowStart < run.rowEnd := by
  obtain ⟨data, o1, o2, o3, _, _, hd, -, -, -, -, -, h1, h2, -⟩ := stream_of_describes demo_describes
  exact ⟨data, _, hd, o3, by simp, h1, h2⟩

end Gov1
