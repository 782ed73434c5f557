import Verif.Props.StreamComplete
import Verif.Props.BlockSound
import Verif.Props.TileGroup
/-!
# The probability tables over a whole run, and what decoded pictures stand for (C185, C186)
-/
namespace Gov1
open Gov1.Spec

/-! ## Reading symbols keeps the shape of the tables -/

theorem set_lengths {l : List (List Int)} {i : Nat} (hi : i < l.length) {c : List Int} (hc : c.length = (l[i]).length) : (l.set i c).map List.length = l.map List.length := by
  rw [List.map_set, hc]
  apply List.ext_getElem
  · simp
  · intro j h1 h2
    rw [List.getElem_set]
    split
    · rename_i h; subst h; simp
    · rfl

theorem exec_lengths {α : Type} (L : Layout) (disable : Bool) (p : Rd α) : ∀ (cdfs cdfs' : List (List Int)) (st st' : Sym)
    (bs bs' : BitStream) (a : α) (_ : L.Fits cdfs) (_ : SymInv st) (_ : p.exec L disable cdfs st bs = .ok ((a, cdfs', st'), bs')), cdfs'.map List.length = cdfs.map List.length := by
  induction p with
  | ret a => intro cdfs cdfs' st st' bs bs' a hL hi h; cases h; rfl
  | fail e => intro cdfs cdfs' st st' bs bs' a hL hi h; cases h
  | sym t idx k ih =>
    intro cdfs cdfs' st st' bs bs' a hL hi h
    cases hslot : L.slot t idx with
    | none => rw [Rd.exec, hslot] at h; cases h
    | some i =>
      obtain ⟨n, hn⟩ := hL.known t idx i hslot
      obtain ⟨j, hj, hlt, hsym⟩ := hL.slots t idx n hn
      rw [hslot] at hj
      cases hj
      rw [exec_sym hslot hlt] at h
      have hv : ValidCdf cdfs[i] := hL.valid _ (List.getElem_mem hlt)
      rcases readSymbol_step disable hv hi bs with ⟨s, cdf', st1, bs1, e, h1, h2, h3, h4, -, -, -⟩ | ⟨e, -⟩
      · rw [e] at h
        rw [ih s (cdfs.set i cdf') cdfs' st1 st' bs1 bs' a (hL.set hlt h2 h3) h4 h]
        exact set_lengths hlt h3
      · rw [e] at h; cases h
  | bit k ih =>
    intro cdfs cdfs' st st' bs bs' a hL hi h
    rw [exec_bit] at h
    rcases readSymbol_step disable boolCdf_valid hi bs with ⟨s, cdf', st1, bs1, e, h1, h2, h3, h4, -, -, -⟩ | ⟨e, -⟩
    · rw [e] at h
      exact ih s cdfs cdfs' st1 st' bs1 bs' a hL h4 h
    · rw [e] at h; cases h

/-- Well-formed tables and a symbol decoder in its range. -/
def CdfGood (k : Fin 4) (x : Sym × TileSt) : Prop := (cdfLayout k).Fits x.2.cdfs ∧ SymInv x.1

/-- Part of the decoding of a tile keeps the tables well-formed and of the same shape. -/
def CdfRel (k : Fin 4) (x : Sym × TileSt) (_ : List Ev) (y : Sym × TileSt) : Prop := CdfGood k x → CdfGood k y ∧ y.2.cdfs.map List.length = x.2.cdfs.map List.length

theorem exec_good {α : Type} {k : Fin 4} {disable : Bool} {p : Rd α} {cdfs cdfs' : List (List Int)} {st st' : Sym} {bs bs' : BitStream} {a : α} (hL : (cdfLayout k).Fits cdfs) (hi : SymInv st)
    (h : p.exec (cdfLayout k) disable cdfs st bs = .ok ((a, cdfs', st'), bs')) : (cdfLayout k).Fits cdfs' ∧ SymInv st' ∧ cdfs'.map List.length = cdfs.map List.length := by
  obtain ⟨-, h1, h2, h3⟩ := C93_sound _ disable _ _ _ _ _ _ _ _ hL ⟨hi.1, hi.2.1⟩ ⟨hi.2.2.1, hi.2.2.2⟩ h
  exact ⟨h1, ⟨h2.1, h2.2, h3.1, h3.2⟩, exec_lengths _ disable p _ _ _ _ _ _ _ hL hi h⟩

theorem cdfTree (k : Fin 4) (disable : Bool) (fuel : Nat) (h : FrHdr) : TreeRel (tileOps (cdfLayout k) disable fuel h) (CdfRel k) where
  nil x hx := ⟨hx, rfl⟩
  app h1 h2 hx := by
    obtain ⟨g1, e1⟩ := h1 hx
    obtain ⟨g2, e2⟩ := h2 g1
    exact ⟨g2, e2.trans e1⟩
  read := by
    intro b r c x s p y s' e hx
    change partOp (cdfLayout k) disable h b r c x s = _ at e
    unfold partOp at e
    obtain ⟨⟨a, cdfs, st⟩, s1, h1, e⟩ := BM.bind_eq_ok.mp e
    cases e
    obtain ⟨g1, g2, g3⟩ := exec_good hx.1 hx.2 h1
    exact ⟨⟨g1, g2⟩, g3⟩
  forced := by intro b p r c x hp hx; exact ⟨hx, rfl⟩
  block := by
    intro r c size x s y s' e hx
    change blockOp (cdfLayout k) disable fuel h r c size x s = _ at e
    unfold blockOp execIn at e
    obtain ⟨⟨a, cdfs, st⟩, s1, h1, e⟩ := BM.bind_eq_ok.mp e
    cases e
    obtain ⟨g1, g2, g3⟩ := exec_good hx.1 hx.2 h1
    exact ⟨⟨g1, g2⟩, g3⟩

theorem realTile_cdfs {grow : Nat → Nat} {k : Fin 4} {disable : Bool} {fuel : Nat} {h : FrHdr} {lh : LrHdr} {run : TileRun} {x y : TileSt × List Ev} {st st' : Sym}
    {s s' : BitStream} (e : realTile grow k disable fuel h lh run x st s = .ok ((st', y), s')) : CdfRel k (st, x.1) [] (st', y.1) := by
  unfold realTile at e
  obtain ⟨es, -, ht⟩ := tileEvents_rel (pre := sbPre grow (cdfLayout k) disable fuel h lh) (reset := tileReset h lh.numPlanes) (cdfTree k disable fuel h) (fun {r c x st s y s'} e => by
      intro hx
      unfold sbPre at e
      obtain ⟨b, s1, h1, e⟩ := BM.bind_eq_ok.mp e
      unfold execIn at e
      obtain ⟨⟨a, cdfs, st⟩, s1, h1, e⟩ := BM.bind_eq_ok.mp e
      cases e
      obtain ⟨g1, g2, g3⟩ := exec_good hx.1 hx.2 h1
      exact ⟨⟨g1, g2⟩, g3⟩) (fun st x hx => ⟨hx, rfl⟩) e
  exact ht

/-! ## The tables of the program -/

/-- The tables are valid CDFs and have the sizes they had at the start. -/
structure MemOk (m : CdfMem) : Prop where
  common : AllValid m.common ∧ m.common.map List.length = cdfStart.common.map List.length
  coef : ∀ k, AllValid (m.coef k) ∧ (m.coef k).map List.length = (cdfStart.coef k).map List.length

theorem fits_of_lengths {k : Fin 4} {cdfs cdfs' : List (List Int)} (h : (cdfLayout k).Fits cdfs) (hv : AllValid cdfs') (hl : cdfs'.map List.length = cdfs.map List.length) : (cdfLayout k).Fits cdfs' := by
  refine ⟨hv, fun t idx n hn => ?_, h.known⟩
  obtain ⟨i, h1, h2, h3⟩ := h.slots t idx n hn
  have hlen : cdfs'.length = cdfs.length := by simpa using congrArg List.length hl
  refine ⟨i, h1, by omega, ?_⟩
  have := List.getElem_of_eq hl (i := i) (by simp; omega)
  simp only [List.getElem_map] at this
  rw [← h3]
  unfold symbols
  rw [this]

theorem memOk_start : MemOk cdfStart := by
  have hv : ∀ k, AllValid (cdfStart.view k) := fun k => by rw [cdfStart_view]; exact (C94_layout_fits k).valid
  exact ⟨⟨fun c hc => hv 0 c (List.mem_append_left _ hc), rfl⟩, fun k => ⟨fun c hc => hv k c (List.mem_append_right _ hc), rfl⟩⟩

theorem MemOk.fits {m : CdfMem} (h : MemOk m) (k : Fin 4) : (cdfLayout k).Fits (m.view k) := by
  refine fits_of_lengths (C94_layout_fits k) (fun c hc => ?_) ?_
  · rcases List.mem_append.mp hc with hc | hc
    · exact h.common.1 c hc
    · exact (h.coef k).1 c hc
  · rw [← cdfStart_view, CdfMem.view, CdfMem.view, List.map_append, List.map_append, h.common.2, (h.coef k).2]

theorem MemOk.put {m : CdfMem} (h : MemOk m) {k : Fin 4} {l : List (List Int)} (hv : AllValid l) (hl : l.map List.length = (m.view k).map List.length) : MemOk (m.put k l) := by
  rw [CdfMem.view, List.map_append] at hl
  have hn : (m.common.map List.length).length = m.common.length := List.length_map ..
  constructor
  · refine ⟨fun c hc => hv c (List.mem_of_mem_take hc), ?_⟩
    show (l.take m.common.length).map List.length = _
    rw [List.map_take, hl, List.take_append_of_le_length (by omega), ← hn, List.take_length, h.common.2]
  · intro j
    show AllValid (if j = k then l.drop m.common.length else m.coef j) ∧ (if j = k then l.drop m.common.length else m.coef j).map List.length = _
    split
    · rename_i hj
      subst hj
      refine ⟨fun c hc => hv c (List.mem_of_mem_drop hc), ?_⟩
      rw [List.map_drop, hl, ← hn, List.drop_left, (h.coef j).2]
    · exact h.coef j

/-! ## Tile groups -/

/-- What the body of the loop keeps, the loop keeps. -/
theorem tileLoop_keeps {σ : Type} {I : σ → Prop} (body : TileRun → σ → Sym → BM (Sym × σ)) (hbody : ∀ run x st s st' x' s', SymInv st → I x → body run x st s = .ok ((st', x'), s') → I x')
    (t : Tiles) (e : Int) (k num : Nat) (sz : Int) (x : σ) (hx : I x) : Ensures (tileLoop body t e k num sz x) (fun r => I r.2) := by
  induction k generalizing num sz x with
  | zero =>
    unfold tileLoop
    exact Ensures.pure hx
  | succ k ih =>
    unfold tileLoop
    refine Ensures.ite (fun _ => Ensures.fail _) fun _ => ?_
    dsimp only
    refine Ensures.bindT fun q => Ensures.bindT fun r0 => Ensures.bindT fun r1 => Ensures.bindT fun c0 => Ensures.bindT fun c1 => Ensures.bindT fun p => ?_
    refine Ensures.bind (P := SymInv) (fun s a s' h => (initSymbol_int h).1) fun st hst => ?_
    refine Ensures.bind (P := fun y => I y.2) (fun s a s' h => hbody _ _ _ _ _ _ _ hst hx h) fun y hy => ?_
    exact Ensures.bindT fun _ => Ensures.bind (ih _ _ _ hy) fun z hz => Ensures.pure hz

theorem tileGroup_keeps {σ : Type} {I : σ → Prop} (body : TileRun → σ → Sym → BM (Sym × σ)) (hbody : ∀ run x st s st' x' s', SymInv st → I x → body run x st s = .ok ((st', x'), s') → I x')
    (t : Tiles) (sz : Int) (x : σ) (hx : I x) : Ensures (tileGroup body t sz x) (fun r => I r.2.1) := by
  unfold tileGroup
  refine Ensures.bindT fun _ => Ensures.bindT fun _ => ?_
  dsimp only
  refine Ensures.bindT fun _ => Ensures.bindT fun _ => ?_
  exact Ensures.bind (tileLoop_keeps body hbody _ _ _ _ _ _ hx) fun r hr => Ensures.pure hr

theorem decodeGroup_mem (grow : Nat → Nat) (fuel : Nat) (sz : Int) (sr : State × DecR) (u : DecUH) (sh : SeqHeader) (hm : MemOk sr.2.cdf) :
    Ensures (decodeGroup grow fuel sz sr u sh) (fun x => MemOk x.2.2.cdf) := by
  unfold decodeGroup
  dsimp only
  refine Ensures.bind (P := fun y : List TileRun × (TileSt × List Ev) × Bool => MemOk (putCdfs sr.2 y.2.1.1.cdfs)) ?_ fun y hy => ?_
  · cases hk : cdfClass sr.2.fs with
    | none =>
      unfold putCdfs
      rw [hk]
      exact fun _ _ _ _ => hm
    | some k =>
      have hg : groupCdfs sr.2 = sr.2.cdf.view k := by unfold groupCdfs; rw [hk]
      have := tileGroup_keeps (I := fun x : TileSt × List Ev => (cdfLayout k).Fits x.1.cdfs ∧ x.1.cdfs.map List.length = (sr.2.cdf.view k).map List.length)
        (groupTile grow fuel sh u.hdr sr.2) (by
          intro run x st s st' x' s' hst hx e
          unfold groupTile at e
          rw [hk] at e
          obtain ⟨g1, g2⟩ := realTile_cdfs e ⟨hx.1, hst⟩
          exact ⟨g1.1, g2.trans hx.2⟩) sr.2.fs.tiles sz
        ({ cdfs := groupCdfs sr.2, blk := groupStart sr.2.arr, lr := { refXqd := List.replicate 3 [0, 0] } }, []) (by rw [hg]; exact ⟨hm.fits k, rfl⟩)
      refine fun s y s' h => ?_
      obtain ⟨h1, h2⟩ := this s y s' h
      unfold putCdfs
      rw [hk]
      exact hm.put h1.valid h2
  · refine Ensures.ite (fun hf => Ensures.lift fun a ha => ?_) (fun hf => Ensures.pure hy)
    unfold groupEnd at ha
    obtain ⟨w, e, ha⟩ := Res.inv ha
    cases ha
    exact hy

/-- The group of a frame of one tile of 2x2 units. -/
theorem tileGroup_one_run {σ : Type} (body : TileRun → σ → Sym → BM (Sym × σ)) (t : Tiles) (sz : Int) (x : σ) (h1 : t.tileCols = 1) (h2 : t.tileRows = 1)
    (h3 : t.miColStarts = [0, 2]) (h4 : t.miRowStarts = [0, 2]) :
    Ensures (tileGroup body t sz x) (fun r => r.2.2 = true ∧ ∃ size start st s1 st' s2, SymInv st ∧ r.1 = [⟨0, size, 0, 2, 0, 2, start⟩] ∧
      body ⟨0, size, 0, 2, 0, 2, start⟩ x st s1 = .ok ((st', r.2.1), s2)) := by
  unfold tileGroup
  refine Ensures.bindT fun p0 => ?_
  refine Ensures.bind (P := fun r : Nat × Int => r = (0, 0)) ?_ fun r hr => ?_
  · unfold tileRange
    rw [h1, h2]
    refine Ensures.bindT fun pr => ?_
    rw [if_pos (Or.inl rfl)]
    exact Ensures.pure rfl
  subst hr
  dsimp only
  refine Ensures.bindT fun _ => Ensures.bindT fun p1 => ?_
  rw [h1, h2]
  refine Ensures.bind (P := fun r : List TileRun × σ => ∃ size start st s1 st' s2, SymInv st ∧ r.1 = [⟨0, size, 0, 2, 0, 2, start⟩] ∧
      body ⟨0, size, 0, 2, 0, 2, start⟩ x st s1 = .ok ((st', r.2), s2)) ?_ fun r hr => Ensures.pure ⟨rfl, hr⟩
  have hk : ((0 : Int) + 1 - ((0 : Nat) : Int)).toNat = 0 + 1 := rfl
  rw [hk, tileLoop, h1, h3, h4]
  rw [if_neg (by decide)]
  dsimp only
  have hz : ((0 : Nat) : Int) = 0 := rfl
  rw [if_pos hz]
  refine Ensures.bindT fun q => ?_
  refine Ensures.bind (P := fun v => v = 0) (Ensures.lift fun a ha => by cases ha; rfl) fun r0 e0 => ?_
  refine Ensures.bind (P := fun v => v = 2) (Ensures.lift fun a ha => by cases ha; rfl) fun r1 e1 => ?_
  refine Ensures.bind (P := fun v => v = 0) (Ensures.lift fun a ha => by cases ha; rfl) fun c0 e2 => ?_
  refine Ensures.bind (P := fun v => v = 2) (Ensures.lift fun a ha => by cases ha; rfl) fun c1 e3 => ?_
  subst e0 e1 e2 e3
  refine Ensures.bindT fun p => Ensures.bind (P := SymInv) (fun s a s' h => (initSymbol_int h).1) fun st hst => ?_
  refine Ensures.bind (P := fun y => ∃ s1 s2, body ⟨0, q.1, 0, 2, 0, 2, p⟩ x st s1 = .ok (y, s2)) (fun s a s' h => ⟨s, s', h⟩) fun y hy => ?_
  obtain ⟨s1, s2, hy⟩ := hy
  refine Ensures.bindT fun _ => ?_
  unfold tileLoop
  refine Ensures.bind (P := fun z : List TileRun × σ => z = ([], y.2)) (Ensures.pure rfl) fun z hz => Ensures.pure ⟨q.1, p, st, s1, y.1, s2, hst, ?_, ?_⟩
  · show _ :: z.1 = _
    rw [hz]
  · rw [hz]; exact hy

/-- A tile that is not empty is that of a frame of 2x2 units. -/
theorem group_two (grow : Nat → Nat) (fuel : Nat) (sz : Int) (r : DecR) (u : UHeader) (sh : SeqHeader) (hs : FsTiles r.fs) (x0 : TileSt × List Ev) {s s' : BitStream}
    {y : List TileRun × (TileSt × List Ev) × Bool} (h : tileGroup (groupTile grow fuel sh u r) r.fs.tiles sz x0 s = .ok (y, s')) {run : TileRun} (hr : run ∈ y.1)
    (hne : run.rowStart < run.rowEnd) :
    r.fs.miRows = 2 ∧ r.fs.miCols = 2 ∧ r.fs.tiles.tileCols = 1 ∧ r.fs.tiles.tileRows = 1 ∧ r.fs.tiles.miColStarts = [0, 2] ∧ r.fs.tiles.miRowStarts = [0, 2] := by
  have hran : ∃ x st s y s', groupTile grow fuel sh u r run x st s = .ok (y, s') := by
    have : Ensures (tileGroup (groupTile grow fuel sh u r) r.fs.tiles sz x0) (fun z => ∀ run ∈ z.1, ∃ x st s y s', groupTile grow fuel sh u r run x st s = .ok (y, s')) := by
      unfold tileGroup
      refine Ensures.bindT fun _ => Ensures.bindT fun _ => ?_
      dsimp only
      refine Ensures.bindT fun _ => Ensures.bindT fun _ => ?_
      exact Ensures.bind (tileLoop_ran _ _ _ _ _ _ _) fun r hr => Ensures.pure hr
    exact this s y s' h run hr
  obtain ⟨x1, st1, s1, y1, s2, hb⟩ := hran
  unfold groupTile at hb
  cases hk : cdfClass r.fs with
  | none => rw [hk] at hb; cases hb
  | some k =>
  rw [hk] at hb
  dsimp only at hb
  unfold realTile tileEvents at hb
  have hc : ¬ 3 < r.fs.miCols := fun hc => (C55_context_clearing_refuted _ _ _ hc _ _).2.1 _ _ _ _ _ _ hb
  have hr' : ¬ 3 < r.fs.miRows := fun hc => C55_left_clearing_refuted _ _ _ hc _ _ _ _ _ (by omega) _ _ _ hb
  rcases hs with h0 | ⟨e1, e2, e3⟩
  · exfalso
    unfold tileGroup at h
    obtain ⟨p0, s3, -, h⟩ := BM.bind_eq_ok.mp h
    obtain ⟨⟨a, b⟩, s4, hrg, h⟩ := BM.bind_eq_ok.mp h
    unfold tileRange at hrg
    rw [h0.1] at hrg
    rw [if_neg (by decide)] at hrg
    obtain ⟨pr, s5, h5, hrg⟩ := BM.bind_eq_ok.mp hrg
    cases h5
    rw [if_pos (Or.inr rfl)] at hrg
    cases hrg
    dsimp only at h
    obtain ⟨_, s6, -, h⟩ := BM.bind_eq_ok.mp h
    obtain ⟨_, s7, -, h⟩ := BM.bind_eq_ok.mp h
    obtain ⟨z, s8, h8, h⟩ := BM.bind_eq_ok.mp h
    have hk : (((0 : Nat) : Int) - 1 + 1 - ((0 : Nat) : Int)).toNat = 0 := rfl
    rw [hk, tileLoop] at h8
    cases h8
    cases h
    cases hr
  · have e4 := e3 (by omega) (by omega)
    exact ⟨by omega, by omega, e4⟩

/-- A group that decodes something decodes what the syntax of the frame says. -/
def Stands (grow : Nat → Nat) (fuel : Nat) (sh : SeqHeader) (uh : UHeader) (t : DecTG) : Prop :=
  ∀ run ∈ t.runs, run.rowStart < run.rowEnd → sh.use128x128SuperBlock = false →
    ∃ (r : DecR) (opIdc : Nat) (k : Fin 4) (msg : List Nat) (b : BlkSt) (l : LrUnitParams) (p : Nat) (y : Planes × Planes × (RefMem Unit × Planes)),
      r.fs.miRows = 2 ∧ r.fs.miCols = 2 ∧ cdfClass r.fs = some k ∧ (headerSyntax grow fuel sh uh r).run (cdfLayout k) msg = .ok ((b, l, p), []) ∧
      wrapup opIdc sh uh r.fs r.slots r.arr.cdef ⟨[], b, l⟩ (zeroPlanes 3 1 1) = .ok y ∧
      t.decoded = b.tb.frames ∧ t.log = wholeLog p ∧ t.out = y.2.2.2 ∧ t.store = y.2.2.1.store

theorem decodeGroup_stands (grow : Nat → Nat) (fuel : Nat) (sz : Int) (sr : State × DecR) (u : DecUH) (sh : SeqHeader) (hm : MemOk sr.2.cdf) (hs : FsTiles sr.2.fs) :
    Ensures (decodeGroup grow fuel sz sr u sh) (fun x => Stands grow fuel sh u.hdr x.1) := by
  intro s0 ⟨tg, st0⟩ s0' h run hrun hne hsb
  unfold decodeGroup at h
  dsimp only at h
  obtain ⟨⟨runs, ⟨x, log⟩, fin⟩, s1, h1, h2⟩ := BM.bind_eq_ok.mp h
  dsimp only at h2
  obtain ⟨run', hrun', hne'⟩ : ∃ run' ∈ runs, run'.rowStart < run'.rowEnd := by
    by_cases hf : fin = true
    · rw [if_pos hf] at h2
      have h2 := (BM.lift_inv h2).1
      unfold groupEnd at h2
      obtain ⟨w, e, h2⟩ := Res.inv h2
      cases h2
      obtain ⟨run', h3, rfl⟩ := List.mem_map.mp hrun
      exact ⟨run', h3, hne⟩
    · rw [if_neg hf] at h2
      cases h2
      obtain ⟨run', h3, rfl⟩ := List.mem_map.mp hrun
      exact ⟨run', h3, hne⟩
  obtain ⟨m1, m2, t1, t2, t3, t4⟩ := group_two grow fuel sz sr.2 u.hdr sh hs _ h1 hrun' hne'
  obtain ⟨g1, size, start, st, s2, st', s3, hi, g2, g3⟩ := tileGroup_one_run _ _ _ _ t1 t2 t3 t4 s0 _ s1 h1
  dsimp only at g1 g2 g3
  subst g1 g2
  rw [if_pos rfl] at h2
  unfold groupTile at g3
  cases hk : cdfClass sr.2.fs with
  | none => rw [hk] at g3; cases g3
  | some k =>
  rw [hk] at g3
  dsimp only at g3
  have hcd : groupCdfs sr.2 = sr.2.cdf.view k := by unfold groupCdfs; rw [hk]
  have hS : Small (frHdrOf sh u.hdr sr.2.fs sr.2.slots ⟨0, size, 0, 2, 0, 2, start⟩) ⟨0, size, 0, 2, 0, 2, start⟩ := ⟨m1, m2, hsb, rfl, rfl, rfl, rfl⟩
  obtain ⟨p, e1, e2⟩ := realTile_inv hS (x := groupFirst u.hdr sr.2) (log := []) (by show (cdfLayout k).Fits (groupCdfs sr.2); rw [hcd]; exact hm.fits k) ⟨hi.1, hi.2.1⟩ ⟨hi.2.2.1, hi.2.2.2⟩ g3
  obtain ⟨⟨msg, hmsg⟩, -⟩ := C93_sound _ _ _ _ _ _ _ _ _ _ (by show (cdfLayout k).Fits (groupCdfs sr.2); rw [hcd]; exact hm.fits k) ⟨hi.1, hi.2.1⟩ ⟨hi.2.2.1, hi.2.2.2⟩ e1
  have h2 := (BM.lift_inv h2).1
  unfold groupEnd at h2
  obtain ⟨w, e, h2⟩ := Res.inv h2
  cases h2
  refine ⟨sr.2, _, k, msg, x.blk, x.lr, p, w, m1, m2, hk, hmsg, e, rfl, ?_, rfl, rfl⟩
  show log = _
  rw [e2]
  rfl

theorem decoder_stands (grow : Nat → Nat) (fuel : Nat) :
    (decoder grow fuel).Keeps (fun st => MemOk (DecR.cdf st.2) ∧ FsTiles (DecR.fs st.2)) (fun _ => True) (fun _ => True) (fun sh u t => Stands grow fuel sh (DecUH.hdr u) t) where
  free _ _ _ h := h
  start := ⟨memOk_start, Or.inl ⟨rfl, rfl⟩⟩
  fresh _ _ h := ⟨h.1, Or.inl ⟨rfl, rfl⟩⟩
  seq0 := trivial
  seq _ := fun _ _ _ _ => trivial
  uh0 := trivial
  tg0 sh u _ _ := by intro run h; cases h
  uh h sh st hS _ := by
    show Ensures (decodeHeader h sh st) _
    unfold decodeHeader
    exact Ensures.bind (newUncompressedHeader_tiles h sh _ hS.2) fun x hx => Ensures.pure ⟨trivial, hS.1, hx⟩
  tg sz st u sh hS _ _ := fun s a s' h =>
    ⟨decodeGroup_stands grow fuel sz st u sh hS.1 hS.2 s a s' h, decodeGroup_mem grow fuel sz st u sh hS.1 s a s' h, (decodeGroup_runs grow fuel sz st u sh hS.2 s a s' h).2⟩

/-- `C185_sound` for 64x64 superblocks. -/
theorem stream_sound_64 (grow : Nat → Nat) (fuel : Nat) (data : List UInt8) (obus : List (Obu (decoder grow fuel))) (h : Decodes grow fuel data obus) (o : Obu (decoder grow fuel)) (ho : o ∈ obus)
    (run : TileRun) (hrun : run ∈ (groupOf o).runs) (hne : run.rowStart < run.rowEnd) (hsb : o.sequenceHeader.use128x128SuperBlock = false) :
    ∃ (r : DecR) (opIdc : Nat) (k : Fin 4) (msg : List Nat) (b : BlkSt) (l : LrUnitParams) (p : Nat) (y : Planes × Planes × (RefMem Unit × Planes)),
      r.fs.miRows = 2 ∧ r.fs.miCols = 2 ∧ cdfClass r.fs = some k ∧ (headerSyntax grow fuel o.sequenceHeader (hdrOf o) r).run (cdfLayout k) msg = .ok ((b, l, p), []) ∧
      wrapup opIdc o.sequenceHeader (hdrOf o) r.fs r.slots r.arr.cdef ⟨[], b, l⟩ (zeroPlanes 3 1 1) = .ok y ∧
      (groupOf o).decoded = b.tb.frames ∧ (groupOf o).log = wholeLog p ∧ (groupOf o).out = y.2.2.2 ∧ (groupOf o).store = y.2.2.1.store := by
  obtain ⟨s, h⟩ := h
  exact ((decoder_stands grow fuel).stream _ _ _ h o ho).2.2 run hrun hne hsb

/-! ## C186 -/

/-- C186: the tables with the probabilities are one set of package-level variables that every tile of every frame of the run adapts in place.  Whatever stream has been parsed, every table is
still a valid CDF and has the number of symbols it had at the start, so that the next tile (of any frame, of any quantizer class) finds what it needs. -/
theorem C186_tables (grow : Nat → Nat) (fuel : Nat) (data : List UInt8) (n : Nat) (p : Parser (decoder grow fuel)) (s : BitStream)
    (h : bitstreamLoop (decoder grow fuel) n { rest := (decoder grow fuel).startR, uncompressedHeader := (decoder grow fuel).zeroUH } (newBitStream data) = .ok (p, s)) :
    (∀ c ∈ (DecR.cdf p.rest).common, ValidCdf c) ∧ (DecR.cdf p.rest).common.map List.length = cdfStart.common.map List.length ∧
    ∀ k, (∀ c ∈ (DecR.cdf p.rest).coef k, ValidCdf c) ∧ ((DecR.cdf p.rest).coef k).map List.length = (cdfStart.coef k).map List.length := by
  have hK := decoder_stands grow fuel
  have := (hK.streamLoop n _ ⟨hK.start, hK.seq0, hK.uh0, by intro o ho; cases ho⟩ _ _ _ h).1
  exact ⟨this.1.common.1, this.1.common.2, this.1.coef⟩

end Gov1
