import Verif.Props.GroupEnd
/-!
# C190: the quantizer index, the loop filter deltas and the segment map over a tile group

What decoding blocks does to the state that passes from block to block: `CurrentQIndex`, `DeltaLF`, `SegmentIds`.
-/
namespace Gov1

theorem deltaQ_wlp {L : Layout} (h : MiHdr) (miSize skip : Nat) (rd : Bool) (cur : Int) :
    (readDeltaQIndex h miSize skip rd cur).Wlp L (fun q => (rd = false → q = cur) ∧ (1 ≤ cur ∧ cur ≤ 255 → 1 ≤ q ∧ q ≤ 255)) := by
  unfold readDeltaQIndex
  split
  · exact ⟨fun _ => rfl, fun h => h⟩
  · split
    · rename_i hr
      refine wlp_skip _ fun a => ?_
      split
      · refine wlp_skip _ fun s => ?_
        refine ⟨fun h => (by rw [hr] at h; cases h), fun _ => ?_⟩
        rw [clip3_eq _ _ _ (by decide)]; omega
      · exact ⟨fun _ => rfl, fun h => h⟩
    · exact ⟨fun _ => rfl, fun h => h⟩

theorem deltaLfs_wlp {L : Layout} (h : MiHdr) (n : Nat) : ∀ (i : Nat) (lf : List Int), (readDeltaLfs h n i lf).Wlp L (fun l => MiLfOk lf → MiLfOk l) := by
  induction n with
  | zero => intro i lf hl; exact hl
  | succ n ih =>
    intro i lf
    unfold readDeltaLfs
    refine Rd.Wlp.seq (Q := fun l => MiLfOk lf → MiLfOk l) ?_ fun l hl => (ih (i + 1) l).mono fun _ h' hx => h' (hl hx)
    unfold readDeltaLfOne
    refine wlp_skip _ fun a => ?_
    split
    · refine wlp_skip _ fun s => wlp_skip _ fun old => Rd.Wlp.lift fun l e hx => ?_
      obtain ⟨-, -, rfl⟩ := goSet_inv' e
      refine ⟨by simpa using hx.1, fun x hm => ?_⟩
      rcases List.mem_or_eq_of_mem_set hm with h1 | h1
      · exact hx.2 x h1
      · rw [h1, clip3_eq _ _ _ (by decide)]; omega
    · exact fun hx => hx

theorem deltaLf_wlp {L : Layout} (h : MiHdr) (miSize skip : Nat) (rd : Bool) (lf : List Int) :
    (readDeltaLf h miSize skip rd lf).Wlp L (fun l => (rd = false ∨ h.deltaLfPresent = false → l = lf) ∧ (MiLfOk lf → MiLfOk l)) := by
  unfold readDeltaLf
  split
  · exact ⟨fun _ => rfl, fun h => h⟩
  · split
    · rename_i hr
      refine (deltaLfs_wlp h _ 0 lf).mono fun l hl => ⟨fun hx => ?_, hl⟩
      rcases hx with hx | hx
      · rw [hx] at hr; cases hr.1
      · rw [hx] at hr; cases hr.2
    · exact ⟨fun _ => rfl, fun h => h⟩

/-- What mode info does to the deltas. -/
def InfoKeep (h : MiHdr) (rd : Bool) (m m' : ModeInfo) : Prop :=
  (rd = false → m'.curQ = m.curQ) ∧ (1 ≤ m.curQ ∧ m.curQ ≤ 255 → 1 ≤ m'.curQ ∧ m'.curQ ≤ 255) ∧
  (rd = false ∨ h.deltaLfPresent = false → m'.deltaLF = m.deltaLF) ∧ (MiLfOk m.deltaLF → MiLfOk m'.deltaLF)

theorem chromaModes_keep {L : Layout} (lim : Nat → Bool) (h : MiHdr) (b : MiBlk) (m : ModeInfo) :
    (chromaModes lim h b m).Wlp L (fun m' => m'.curQ = m.curQ ∧ m'.deltaLF = m.deltaLF) := by
  unfold chromaModes
  split
  · refine wlp_skip _ fun uv => wlp_skip _ fun c => wlp_skip _ fun a => ?_
    exact ⟨rfl, rfl⟩
  · exact ⟨rfl, rfl⟩

theorem intraInfo_keep {L : Layout} (h : MiHdr) (b : MiBlk) (ar : MiArr) (rd : Bool) (m : ModeInfo) : (intraFrameModeInfo h b ar rd m).Wlp L (InfoKeep h rd m) := by
  unfold intraFrameModeInfo
  refine wlp_skip _ fun s => wlp_skip _ fun cdef => ?_
  refine Rd.Wlp.seq (deltaQ_wlp h _ _ rd m.curQ) fun q hq => Rd.Wlp.seq (deltaLf_wlp h _ _ rd m.deltaLF) fun lf hlf => ?_
  split
  · trivial
  · unfold intraModes
    refine wlp_skip _ fun y => wlp_skip _ fun a => ?_
    refine Rd.Wlp.seq (chromaModes_keep _ h b _) fun m1 h1 => wlp_skip _ fun _ => wlp_skip _ fun _ => ?_
    show InfoKeep h rd m m1
    unfold InfoKeep
    rw [h1.1, h1.2]
    exact ⟨hq.1, hq.2, hlf.1, hlf.2⟩

theorem interInfo_keep {L : Layout} (h : MiHdr) (ih : InHdr) (b : MiBlk) (ar : MiArr) (e : MvEnv) (prev : List (List Int)) (rd : Bool) (m : InterInfo) :
    (interFrameModeInfo h ih b ar e prev rd m).Wlp L (fun m' => InfoKeep h rd m.base m'.base) := by
  unfold interFrameModeInfo
  refine wlp_skip _ fun n => wlp_skip _ fun id => wlp_skip _ fun sm => wlp_skip _ fun skip => wlp_skip _ fun id => wlp_skip _ fun l => wlp_skip _ fun cdef => ?_
  refine Rd.Wlp.seq (deltaQ_wlp h _ _ rd m.base.curQ) fun q hq => Rd.Wlp.seq (deltaLf_wlp h _ _ rd m.base.deltaLF) fun lf hlf => ?_
  refine wlp_skip _ fun inter => ?_
  unfold interOrIntra
  split
  · unfold interBlockModeInfo
    refine wlp_skip _ fun r => ?_
    dsimp only
    refine wlp_skip _ fun s => wlp_skip _ fun y => wlp_skip _ fun idx => wlp_skip _ fun mv => wlp_skip _ fun ii => wlp_skip _ fun mo => wlp_skip _ fun ct => wlp_skip _ fun fl => ?_
    exact ⟨hq.1, hq.2, hlf.1, hlf.2⟩
  · refine Rd.Wlp.seq (Q := fun i => i.curQ = q ∧ i.deltaLF = lf) ?_ fun i hi => ?_
    · unfold intraBlockModeInfo
      refine wlp_skip _ fun y => wlp_skip _ fun a => ?_
      exact Rd.Wlp.seq (chromaModes_keep _ h b _) fun m1 h1 => wlp_skip _ fun _ => wlp_skip _ fun _ => h1
    · show InfoKeep h rd m.base i
      unfold InfoKeep
      rw [hi.1, hi.2]
      exact ⟨hq.1, hq.2, hlf.1, hlf.2⟩

/-- What decoding a block does to the deltas and to the segment map. -/
def BlkKeep (h : FrHdr) (s s' : BlkSt) : Prop := InfoKeep h.mi s.readDeltas s.info.base s'.info.base ∧ s'.recs.segIds = s.recs.segIds ∧ s'.readDeltas = false

theorem storeBlk_segIds {r c bh bw : Nat} {v : BlkVal} {s s' : BlkRec} (e : storeBlk r c bh bw v s = .ok s') : s'.segIds = s.segIds := by
  unfold storeBlk at e
  refine forN_const (·.segIds) (fun i s s' e => ?_) bh 0 s s' e
  refine forN_const (·.segIds) (fun j s s' e => ?_) bw 0 s s' e
  unfold storeBlkCell at e
  obtain ⟨_, -, e⟩ := Res.inv e
  obtain ⟨_, -, e⟩ := Res.inv e
  obtain ⟨_, -, e⟩ := Res.inv e
  obtain ⟨_, -, e⟩ := Res.inv e
  obtain ⟨_, -, e⟩ := Res.inv e
  obtain ⟨_, -, e⟩ := Res.inv e
  obtain ⟨_, -, e⟩ := Res.inv e
  obtain ⟨_, -, e⟩ := Res.inv e
  cases e
  rfl

theorem decodeBlock_keep (L : Layout) (fuel : Nat) (h : FrHdr) (r c size : Nat) (s : BlkSt) : (decodeBlock fuel h r c size s).Wlp L (BlkKeep h s) := by
  unfold decodeBlock
  refine wlp_skip _ fun bw4 => wlp_skip _ fun bh4 => wlp_skip _ fun a => ?_
  unfold decodeBody
  refine Rd.Wlp.seq (Q := fun i => InfoKeep h.mi s.readDeltas s.info.base i.base) ?_ fun i hi => ?_
  · unfold modeInfo
    split
    · exact Rd.Wlp.seq (intraInfo_keep h.mi _ _ _ _) fun m hm => hm
    · exact interInfo_keep _ _ _ _ _ _ _ _
  refine wlp_skip _ fun t => wlp_skip _ fun l => wlp_skip _ fun m => wlp_skip _ fun p => wlp_skip _ fun p => ?_
  refine Rd.Wlp.seq (Q := fun recs => recs.segIds = s.recs.segIds) (Rd.Wlp.lift fun recs e => storeBlk_segIds e) fun recs hr => ?_
  exact ⟨hi, hr, rfl⟩

/-- What is left of the deltas and the segment map after part of a tile in which deltas may or may not be read (`rd`). -/
def DeltaKeep (h : MiHdr) (rd : Bool) (b b' : BlkSt) : Prop := InfoKeep h rd b.info.base b'.info.base ∧ b'.recs.segIds = b.recs.segIds

theorem InfoKeep.refl (h : MiHdr) (rd : Bool) (m : ModeInfo) : InfoKeep h rd m m := ⟨fun _ => rfl, fun h => h, fun _ => rfl, fun h => h⟩

theorem InfoKeep.trans {h : MiHdr} {rd : Bool} {m m' m'' : ModeInfo} (h1 : InfoKeep h rd m m') (h2 : InfoKeep h rd m' m'') : InfoKeep h rd m m'' :=
  ⟨fun e => (h2.1 e).trans (h1.1 e), fun e => h2.2.1 (h1.2.1 e), fun e => (h2.2.2.1 e).trans (h1.2.2.1 e), fun e => h2.2.2.2 (h1.2.2.2 e)⟩

/-- Inside a superblock: deltas are read at most if the frame has them. -/
def DeltaTree (k : Fin 4) (h : FrHdr) (x : Sym × TileSt) (_ : List Ev) (y : Sym × TileSt) : Prop :=
  CdfGood k x → CdfGood k y ∧ ((h.deltaQPresent = false → x.2.blk.readDeltas = false) →
    (h.deltaQPresent = false → y.2.blk.readDeltas = false) ∧ DeltaKeep h.mi h.deltaQPresent x.2.blk y.2.blk)

theorem deltaTree (k : Fin 4) (disable : Bool) (fuel : Nat) (h : FrHdr) : TreeRel (tileOps (cdfLayout k) disable fuel h) (DeltaTree k h) where
  nil x hx := ⟨hx, fun e => ⟨e, .refl _ _ _, rfl⟩⟩
  app h1 h2 hx := by
    obtain ⟨g1, e1⟩ := h1 hx
    obtain ⟨g2, e2⟩ := h2 g1
    refine ⟨g2, fun e => ?_⟩
    obtain ⟨a1, b1, c1⟩ := e1 e
    obtain ⟨a2, b2, c2⟩ := e2 a1
    exact ⟨a2, b1.trans b2, c2.trans c1⟩
  read := by
    intro b r c x s p y s' e hx
    change partOp (cdfLayout k) disable h b r c x s = _ at e
    unfold partOp at e
    obtain ⟨⟨a, cdfs, st⟩, s1, h1, e⟩ := BM.bind_eq_ok.mp e
    cases e
    obtain ⟨g1, g2, g3⟩ := exec_good hx.1 hx.2 h1
    exact ⟨⟨g1, g2⟩, fun e => ⟨e, .refl _ _ _, rfl⟩⟩
  forced := by intro b p r c x hp hx; exact ⟨hx, fun e => ⟨e, .refl _ _ _, rfl⟩⟩
  block := by
    intro r c size x s y s' e hx
    change blockOp (cdfLayout k) disable fuel h r c size x s = _ at e
    unfold blockOp execIn at e
    obtain ⟨⟨a, cdfs, st⟩, s1, h1, e⟩ := BM.bind_eq_ok.mp e
    cases e
    obtain ⟨g1, g2, g3⟩ := exec_good hx.1 hx.2 h1
    have hi := hx.2
    obtain ⟨b1, b2, b3⟩ := exec_wlp (decodeBlock_keep _ fuel h r c size x.2.blk) hx.1 ⟨hi.1, hi.2.1⟩ ⟨hi.2.2.1, hi.2.2.2⟩ h1
    refine ⟨⟨g1, g2⟩, fun e => ⟨fun _ => b3, ⟨fun hq => b1.1 (e hq), b1.2.1, fun hq => ?_, b1.2.2.2⟩, b2⟩⟩
    rcases hq with hq | hq
    · exact b1.2.2.1 (Or.inl (e hq))
    · exact b1.2.2.1 (Or.inr hq)

/-- Superblocks. -/
def DeltaRel (k : Fin 4) (h : FrHdr) (x : Sym × TileSt) (_ : List Ev) (y : Sym × TileSt) : Prop :=
  CdfGood k x → CdfGood k y ∧ DeltaKeep h.mi h.deltaQPresent x.2.blk y.2.blk

theorem sbEvents_delta {grow : Nat → Nat} {k : Fin 4} {disable : Bool} {fuel : Nat} {h : FrHdr} {lh : LrHdr} {miRows miCols size r c : Nat} {x y : TileSt × List Ev} {st st' : Sym}
    {s s' : BitStream} (e : sbEvents (tileOps (cdfLayout k) disable fuel h) (sbPre grow (cdfLayout k) disable fuel h lh) miRows miCols size r c x st s = .ok ((st', y), s')) :
    ∃ es, y.2 = x.2 ++ es ∧ DeltaRel k h (st, x.1) es (st', y.1) := by
  unfold sbEvents at e
  obtain ⟨⟨st1, y1⟩, s1, h1, e⟩ := BM.bind_eq_ok.mp e
  dsimp only at e
  obtain ⟨⟨⟨st2, y2⟩, es⟩, s2, h2, e⟩ := BM.bind_eq_ok.mp e
  cases e
  refine ⟨es, rfl, fun hx => ?_⟩
  have ht := decodePartition_rel (deltaTree k disable fuel h) _ h2
  unfold sbPre at h1
  obtain ⟨b, s3, h3, h1⟩ := BM.bind_eq_ok.mp h1
  unfold execIn at h1
  obtain ⟨⟨a, cdfs, st⟩, s4, h4, h1⟩ := BM.bind_eq_ok.mp h1
  cases h1
  obtain ⟨g1, g2, g3⟩ := exec_good hx.1 hx.2 h4
  obtain ⟨h3, -⟩ := BM.lift_inv h3
  unfold sbClear at h3
  obtain ⟨ci, -, h3⟩ := Res.inv h3
  obtain ⟨ms, -, h3⟩ := Res.inv h3
  cases h3
  obtain ⟨t1, t2⟩ := ht ⟨g1, g2⟩
  exact ⟨t1, (t2 fun e => e).2⟩

/-- A tile: the deltas of the loop filter start at 0. -/
theorem realTile_deltas {grow : Nat → Nat} {k : Fin 4} {disable : Bool} {fuel : Nat} {h : FrHdr} {lh : LrHdr} {run : TileRun} {x y : TileSt × List Ev} {st st' : Sym}
    {s s' : BitStream} (e : realTile grow k disable fuel h lh run x st s = .ok ((st', y), s')) :
    DeltaRel k h (st, tileReset h lh.numPlanes x.1) [] (st', y.1) := by
  unfold realTile tileEvents at e
  rw [decodeTile] at e
  obtain ⟨u, s1, -, e⟩ := BM.bind_eq_ok.mp e
  obtain ⟨es, -, hk⟩ := sbRows_rel (T := DeltaRel k h) (fun x hx => ⟨hx, .refl _ _ _, rfl⟩) (fun h1 h2 hx => by
    obtain ⟨g1, a1, b1⟩ := h1 hx
    obtain ⟨g2, a2, b2⟩ := h2 g1
    exact ⟨g2, a1.trans a2, b2.trans b1⟩) (fun h => sbEvents_delta h) _ _ e
  exact hk

end Gov1
