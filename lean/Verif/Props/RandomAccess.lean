import Verif.Props.StreamPixels
import Verif.Lemmas.StreamHist
import Verif.Props.Remember
/-!
# C42 over whole runs: the default probability tables are changed by the frames
-/
namespace Gov1
open Gov1.Spec

/-! ## Tables under the reads of a tile -/

/-- The adaptation counter of a table: its last entry. -/
def counter (c : List Int) : Int := c.getD (c.length - 1) 0

theorem readSymbol_table {disable : Bool} {cdf cdf' : List Int} (hv : ValidCdf cdf) {st st' : Sym} (hi : SymInv st) {bs bs' : BitStream} {s : Nat}
    (h : readSymbol disable cdf st bs = .ok ((s, cdf', st'), bs')) : cdf' = if disable then cdf else adapted cdf s := by
  obtain ⟨s0, hs, _, _, heq⟩ := readSymbol_aux disable hv hi
  rw [heq bs] at h
  cases hF : F (min (15 - Nat.log2 (highEnd st.range cdf s0 - lowEnd st.range cdf s0).toNat) st.maxBits.toNat) bs with
  | error e => rw [hF] at h; cases h
  | ok p =>
    rw [hF] at h
    cases h
    rfl

theorem counter_adapted {cdf : List Int} (hv : ValidCdf cdf) (h0 : 0 ≤ counter cdf) (s : Nat) : counter cdf ≤ counter (adapted cdf s) ∧ 1 ≤ counter (adapted cdf s) := by
  have hl := hv.len
  unfold counter at *
  rw [adapted_length, adapted_getD _ _ _ (by omega), if_neg (by simp only [symbols]; omega), if_pos (by simp only [symbols])]
  split <;> omega

/-- Reading with adaptation off changes no table. -/
theorem exec_quiet {α : Type} (L : Layout) (p : Rd α) : ∀ (cdfs cdfs' : List (List Int)) (st st' : Sym)
    (bs bs' : BitStream) (a : α) (_ : L.Fits cdfs) (_ : SymInv st) (_ : p.exec L true cdfs st bs = .ok ((a, cdfs', st'), bs')), cdfs' = cdfs := by
  induction p with
  | ret a => intro cdfs cdfs' st st' bs bs' a hL hi h; cases h; rfl
  | fail e => intro cdfs cdfs' st st' bs bs' a hL hi h; cases h
  | sym t idx k ih =>
    intro cdfs cdfs' st st' bs bs' a hL hi h
    cases hslot : L.slot t idx with
    | none => rw [Rd.exec, hslot] at h; cases h
    | some i =>
      obtain ⟨n, hn⟩ := hL.known t idx i hslot
      obtain ⟨j, hj, hlt, hsym⟩ := hL.slots t idx n hn
      rw [hslot] at hj
      cases hj
      rw [exec_sym hslot hlt] at h
      have hv : ValidCdf cdfs[i] := hL.valid _ (List.getElem_mem hlt)
      rcases readSymbol_step true hv hi bs with ⟨s, cdf', st1, bs1, e, h1, h2, h3, h4, -, -, -⟩ | ⟨e, -⟩
      · have hc := readSymbol_table hv hi e
        rw [if_pos rfl] at hc
        rw [e] at h
        rw [ih s (cdfs.set i cdf') cdfs' st1 st' bs1 bs' a (hL.set hlt h2 h3) h4 h, hc, List.set_getElem_self]
      · rw [e] at h; cases h
  | bit k ih =>
    intro cdfs cdfs' st st' bs bs' a hL hi h
    rw [exec_bit] at h
    rcases readSymbol_step true boolCdf_valid hi bs with ⟨s, cdf', st1, bs1, e, h1, h2, h3, h4, -, -, -⟩ | ⟨e, -⟩
    · rw [e] at h
      exact ih s cdfs cdfs' st1 st' bs1 bs' a hL h4 h
    · rw [e] at h; cases h

/-- No counter goes down. -/
def CntLe (l l' : List (List Int)) : Prop := ∀ i, 0 ≤ counter (l.getD i []) → counter (l.getD i []) ≤ counter (l'.getD i [])

theorem CntLe.refl (l : List (List Int)) : CntLe l l := fun _ _ => Int.le_refl _

theorem CntLe.trans {a b c : List (List Int)} (h1 : CntLe a b) (h2 : CntLe b c) : CntLe a c := fun i h => Int.le_trans (h1 i h) (h2 i (Int.le_trans h (h1 i h)))

theorem CntLe.set {l : List (List Int)} {i : Nat} (hi : i < l.length) {c : List Int} (hc : 0 ≤ counter l[i] → counter l[i] ≤ counter c) : CntLe l (l.set i c) := by
  intro j h0
  simp only [List.getD_eq_getElem?_getD, List.getElem?_set] at *
  split
  · rename_i e
    subst e
    rw [List.getElem?_eq_getElem hi] at *
    exact hc h0
  · exact Int.le_refl _

theorem exec_counters {α : Type} (L : Layout) (disable : Bool) (p : Rd α) : ∀ (cdfs cdfs' : List (List Int)) (st st' : Sym)
    (bs bs' : BitStream) (a : α) (_ : L.Fits cdfs) (_ : SymInv st) (_ : p.exec L disable cdfs st bs = .ok ((a, cdfs', st'), bs')), CntLe cdfs cdfs' := by
  induction p with
  | ret a => intro cdfs cdfs' st st' bs bs' a hL hi h; cases h; exact CntLe.refl _
  | fail e => intro cdfs cdfs' st st' bs bs' a hL hi h; cases h
  | sym t idx k ih =>
    intro cdfs cdfs' st st' bs bs' a hL hi h
    cases hslot : L.slot t idx with
    | none => rw [Rd.exec, hslot] at h; cases h
    | some i =>
      obtain ⟨n, hn⟩ := hL.known t idx i hslot
      obtain ⟨j, hj, hlt, hsym⟩ := hL.slots t idx n hn
      rw [hslot] at hj
      cases hj
      rw [exec_sym hslot hlt] at h
      have hv : ValidCdf cdfs[i] := hL.valid _ (List.getElem_mem hlt)
      rcases readSymbol_step disable hv hi bs with ⟨s, cdf', st1, bs1, e, h1, h2, h3, h4, -, -, -⟩ | ⟨e, -⟩
      · have hc := readSymbol_table hv hi e
        rw [e] at h
        refine CntLe.trans (CntLe.set hlt fun h0 => ?_) (ih s (cdfs.set i cdf') cdfs' st1 st' bs1 bs' a (hL.set hlt h2 h3) h4 h)
        rw [hc]
        split
        · exact Int.le_refl _
        · exact (counter_adapted hv h0 s).1
      · rw [e] at h; cases h
  | bit k ih =>
    intro cdfs cdfs' st st' bs bs' a hL hi h
    rw [exec_bit] at h
    rcases readSymbol_step disable boolCdf_valid hi bs with ⟨s, cdf', st1, bs1, e, h1, h2, h3, h4, -, -, -⟩ | ⟨e, -⟩
    · rw [e] at h
      exact ih s cdfs cdfs' st1 st' bs1 bs' a hL h4 h
    · rw [e] at h; cases h

/-! ## Tiles -/

/-- A relation between the tables before and after that every read keeps, every part of a tile keeps. -/
structure ReadRel (k : Fin 4) (disable : Bool) (R : List (List Int) → List (List Int) → Prop) : Prop where
  refl : ∀ l, R l l
  trans : ∀ {a b c}, R a b → R b c → R a c
  exec : ∀ {α : Type} {p : Rd α} {cdfs cdfs' : List (List Int)} {st st' : Sym} {bs bs' : BitStream} {a : α}, (cdfLayout k).Fits cdfs → SymInv st →
    p.exec (cdfLayout k) disable cdfs st bs = .ok ((a, cdfs', st'), bs') → R cdfs cdfs'

theorem readRel_quiet (k : Fin 4) : ReadRel k true (fun a b => b = a) := ⟨fun _ => rfl, fun h1 h2 => h2.trans h1, fun h1 h2 h => exec_quiet _ _ _ _ _ _ _ _ _ h1 h2 h⟩

theorem readRel_counters (k : Fin 4) (disable : Bool) : ReadRel k disable CntLe := ⟨CntLe.refl, CntLe.trans, fun h1 h2 h => exec_counters _ _ _ _ _ _ _ _ _ _ h1 h2 h⟩

def TabRel (k : Fin 4) (R : List (List Int) → List (List Int) → Prop) (x : Sym × TileSt) (_ : List Ev) (y : Sym × TileSt) : Prop := CdfGood k x → CdfGood k y ∧ R x.2.cdfs y.2.cdfs

theorem ReadRel.tree {k : Fin 4} {disable : Bool} {R : List (List Int) → List (List Int) → Prop} (hR : ReadRel k disable R) (fuel : Nat) (h : FrHdr) :
    TreeRel (tileOps (cdfLayout k) disable fuel h) (TabRel k R) where
  nil x hx := ⟨hx, hR.refl _⟩
  app h1 h2 hx := by
    obtain ⟨g1, e1⟩ := h1 hx
    obtain ⟨g2, e2⟩ := h2 g1
    exact ⟨g2, hR.trans e1 e2⟩
  read := by
    intro b r c x s p y s' e hx
    change partOp (cdfLayout k) disable h b r c x s = _ at e
    unfold partOp at e
    obtain ⟨⟨a, cdfs, st⟩, s1, h1, e⟩ := BM.bind_eq_ok.mp e
    cases e
    obtain ⟨g1, g2, -⟩ := exec_good hx.1 hx.2 h1
    exact ⟨⟨g1, g2⟩, hR.exec hx.1 hx.2 h1⟩
  forced := by intro b p r c x hp hx; exact ⟨hx, hR.refl _⟩
  block := by
    intro r c size x s y s' e hx
    change blockOp (cdfLayout k) disable fuel h r c size x s = _ at e
    unfold blockOp execIn at e
    obtain ⟨⟨a, cdfs, st⟩, s1, h1, e⟩ := BM.bind_eq_ok.mp e
    cases e
    obtain ⟨g1, g2, -⟩ := exec_good hx.1 hx.2 h1
    exact ⟨⟨g1, g2⟩, hR.exec hx.1 hx.2 h1⟩

theorem ReadRel.tile {grow : Nat → Nat} {k : Fin 4} {disable : Bool} {R : List (List Int) → List (List Int) → Prop} (hR : ReadRel k disable R) {fuel : Nat} {h : FrHdr} {lh : LrHdr} {run : TileRun}
    {x y : TileSt × List Ev} {st st' : Sym} {s s' : BitStream} (hx : CdfGood k (st, x.1)) (e : realTile grow k disable fuel h lh run x st s = .ok ((st', y), s')) : R x.1.cdfs y.1.cdfs := by
  unfold realTile at e
  obtain ⟨es, -, ht⟩ := tileEvents_rel (pre := sbPre grow (cdfLayout k) disable fuel h lh) (reset := tileReset h lh.numPlanes) (hR.tree fuel h) (fun {r c x st s y s'} e => by
      intro hx
      unfold sbPre at e
      obtain ⟨b, s1, h1, e⟩ := BM.bind_eq_ok.mp e
      unfold execIn at e
      obtain ⟨⟨a, cdfs, st⟩, s1, h1, e⟩ := BM.bind_eq_ok.mp e
      cases e
      obtain ⟨g1, g2, -⟩ := exec_good hx.1 hx.2 h1
      exact ⟨⟨g1, g2⟩, hR.exec hx.1 hx.2 h1⟩) (fun st x hx => ⟨hx, hR.refl _⟩) e
  exact (ht hx).2

theorem realTile_empty {grow : Nat → Nat} {k : Fin 4} {disable : Bool} {fuel : Nat} {h : FrHdr} {lh : LrHdr} {run : TileRun} (hr : ¬ run.rowStart < run.rowEnd) {x y : TileSt × List Ev} {st st' : Sym}
    {s s' : BitStream} (e : realTile grow k disable fuel h lh run x st s = .ok ((st', y), s')) : y.1.cdfs = x.1.cdfs := by
  unfold realTile tileEvents at e
  rw [decodeTile] at e
  obtain ⟨u1, s1, q1, e⟩ := BM.bind_eq_ok.mp e
  rw [show run.rowEnd - run.rowStart = 0 by omega] at e
  rw [sbRows] at e
  rw [if_neg hr] at e
  cases e
  rfl

/-- A tile with a row adapts a table: the one of the partition of the 8x8 block. -/
theorem realTile_used {grow : Nat → Nat} {k : Fin 4} {fuel : Nat} {h : FrHdr} {lh : LrHdr} {run : TileRun} (hs : Small h run) {x y : TileSt} (hL : (cdfLayout k).Fits x.cdfs)
    {st st' : Sym} (hi : SymInv st) {s s' : BitStream} {log log' : List Ev} (e : realTile grow k false fuel h lh run (x, log) st s = .ok ((st', (y, log')), s')) :
    CntLe x.cdfs y.cdfs ∧ ∃ i, i < commonRows k ∧ 1 ≤ counter (y.cdfs.getD i []) := by
  obtain ⟨p, e, -⟩ := realTile_inv hs hL ⟨hi.1, hi.2.1⟩ ⟨hi.2.2.1, hi.2.2.2⟩ e
  refine ⟨exec_counters _ _ _ _ _ _ _ _ _ _ hL hi e, ?_⟩
  unfold frameSyntax at e
  obtain ⟨b, c1, st1, s1, h1, e1⟩ := exec_bind_ok e
  obtain ⟨-, hc1, hst1, -⟩ := exec_lift_ok h1
  rw [hc1, hst1] at e1
  obtain ⟨l, c2, st2, s2, h2, e2⟩ := exec_bind_ok e1
  obtain ⟨q, c3, st3, s3, h3, e3⟩ := exec_bind_ok e2
  obtain ⟨f2, i2, -⟩ := exec_good hL hi h2
  obtain ⟨f3, i3, -⟩ := exec_good f2 i2 h3
  unfold readPartition at h3
  obtain ⟨⟨b', ctx⟩, c4, st4, s4, h4, h5⟩ := exec_bind_ok h3
  obtain ⟨hctx, hc4, hst4, -⟩ := exec_lift_ok h4
  rw [hc4, hst4] at h5
  obtain ⟨rfl, hlt⟩ : b' = 1 ∧ ctx < 4 := by
    unfold partCtx at hctx
    obtain ⟨bsl, a1, hctx⟩ := Res.inv hctx
    obtain ⟨a, -, hctx⟩ := Res.inv hctx
    obtain ⟨l', -, hctx⟩ := Res.inv hctx
    cases hctx
    cases a1
    exact ⟨rfl, by cases a <;> cases l' <;> decide⟩
  obtain ⟨i, hslot, hcom⟩ : ∃ i, (cdfLayout k).slot (partTable 1) [(ctx : Int)] = some i ∧ i < commonRows k := by
    have : ∀ (k : Fin 4) (c : Fin 4), ∃ i, i ≤ 120 ∧ (cdfLayout k).slot (partTable 1) [((c : Nat) : Int)] = some i ∧ i < commonRows k := by decide +kernel
    obtain ⟨i, -, h⟩ := this k ⟨ctx, hlt⟩
    exact ⟨i, h⟩
  refine ⟨i, hcom, ?_⟩
  obtain ⟨n, hn⟩ := f2.known _ _ i hslot
  obtain ⟨j, hj, hjlt, -⟩ := f2.slots _ _ n hn
  rw [hslot] at hj
  cases hj
  rw [show Rd.read (partTable 1) [(ctx : Int)] = Rd.sym (partTable 1) [(ctx : Int)] Rd.ret from rfl, exec_sym hslot hjlt] at h5
  have hv : ValidCdf c2[i] := f2.valid _ (List.getElem_mem hjlt)
  have h6 := exec_counters _ _ _ _ _ _ _ _ _ _ f3 i3 e3 i
  cases hr : readSymbol false c2[i] st2 s4 with
  | error e => rw [hr] at h5; cases h5
  | ok z =>
    obtain ⟨⟨v, c5, st5⟩, s5⟩ := z
    rw [hr] at h5
    cases h5
    have hc5 := readSymbol_table hv i2 hr
    rw [if_neg (by decide)] at hc5
    have h7 := (counter_adapted hv hv.cnt.1 q).2
    rw [← hc5] at h7
    have h8 : (c2.set i c5).getD i [] = c5 := by simp [List.getD_eq_getElem?_getD, hjlt]
    rw [h8] at h6
    exact Int.le_trans h7 (h6 (by omega))

/-! ## Tile groups -/

theorem CdfMem.put_view (m : CdfMem) (k : Fin 4) : m.put k (m.view k) = m := by
  unfold CdfMem.put CdfMem.view
  rw [List.take_left' rfl, List.drop_left' rfl]
  cases m
  simp only [CdfMem.mk.injEq, true_and]
  funext j
  split
  · rename_i h; rw [h]
  · rfl

theorem putCdfs_same (r : DecR) : putCdfs r (groupCdfs r) = r.cdf := by
  unfold putCdfs groupCdfs
  cases cdfClass r.fs with
  | none => rfl
  | some k => exact r.cdf.put_view k

theorem cntLe_take {a b : List (List Int)} (h : CntLe a b) (n : Nat) : CntLe (a.take n) (b.take n) := by
  intro i h0
  simp only [List.getD_eq_getElem?_getD, List.getElem?_take] at *
  split
  · rename_i hi
    rw [if_pos hi] at h0
    have := h i
    simp only [List.getD_eq_getElem?_getD] at this
    exact this h0
  · exact Int.le_refl _

theorem commonRows_eq (k : Fin 4) : commonRows k = cdfStart.common.length := by
  revert k; decide +kernel

/-- The loop over tiles all of a kind. -/
theorem tileLoop_if {σ : Type} {I : σ → Prop} {P : TileRun → Prop} (body : TileRun → σ → Sym → BM (Sym × σ))
    (hbody : ∀ run x st s st' x' s', P run → SymInv st → I x → body run x st s = .ok ((st', x'), s') → I x')
    (t : Tiles) (e : Int) (k num : Nat) (sz : Int) (x : σ) (hx : I x) : Ensures (tileLoop body t e k num sz x) (fun r => (∀ run ∈ r.1, P run) → I r.2) := by
  induction k generalizing num sz x with
  | zero =>
    unfold tileLoop
    exact Ensures.pure fun _ => hx
  | succ k ih =>
    unfold tileLoop
    refine Ensures.ite (fun _ => Ensures.fail _) fun _ => ?_
    dsimp only
    refine Ensures.bindT fun q => Ensures.bindT fun r0 => Ensures.bindT fun r1 => Ensures.bindT fun c0 => Ensures.bindT fun c1 => Ensures.bindT fun p => ?_
    refine Ensures.bind (P := SymInv) (fun s a s' h => (initSymbol_int h).1) fun st hst => ?_
    refine Ensures.bind (P := fun y => P ⟨num, q.1, r0, r1, c0, c1, p⟩ → I y.2) (fun s a s' h hp => hbody _ _ _ _ _ _ _ hp hst hx h) fun y hy => ?_
    refine Ensures.bindT fun _ => ?_
    by_cases hp : P ⟨num, q.1, r0, r1, c0, c1, p⟩
    · exact Ensures.bind (ih _ _ _ (hy hp)) fun z hz => Ensures.pure fun hall => hz fun run hr => hall run (List.mem_cons_of_mem _ hr)
    · exact Ensures.bindT fun z => Ensures.pure fun hall => absurd (hall _ (List.mem_cons_self ..)) hp

theorem tileGroup_if {σ : Type} {I : σ → Prop} {P : TileRun → Prop} (body : TileRun → σ → Sym → BM (Sym × σ))
    (hbody : ∀ run x st s st' x' s', P run → SymInv st → I x → body run x st s = .ok ((st', x'), s') → I x')
    (t : Tiles) (sz : Int) (x : σ) (hx : I x) : Ensures (tileGroup body t sz x) (fun r => (∀ run ∈ r.1, P run) → I r.2.1) := by
  unfold tileGroup
  refine Ensures.bindT fun _ => Ensures.bindT fun _ => ?_
  dsimp only
  refine Ensures.bindT fun _ => Ensures.bindT fun _ => ?_
  exact Ensures.bind (tileLoop_if body hbody _ _ _ _ _ _ hx) fun r hr => Ensures.pure hr

/-- The tables after a tile group are those after its last tile. -/
theorem decodeGroup_cdf {grow : Nat → Nat} {fuel : Nat} {sz : Int} {s s' : State} {r r' : DecR} {u : DecUH} {sh : SeqHeader} {b b' : BitStream} {t : DecTG}
    (h : decodeGroup grow fuel sz (s, r) u sh b = .ok ((t, (s', r')), b')) :
    ∃ runs x log fin, tileGroup (groupTile grow fuel sh u.hdr r) r.fs.tiles sz ({ cdfs := groupCdfs r, blk := groupStart r.arr, lr := { refXqd := List.replicate 3 [0, 0] } }, []) b
        = .ok ((runs, (x, log), fin), b') ∧ t.runs = runs.map TileRun.noStart ∧ r'.cdf = putCdfs r x.cdfs := by
  obtain ⟨runs, x, log, fin, h1, h2, h3, h4, h5⟩ := decodeGroup_inv h
  refine ⟨runs, x, log, fin, h1, h3, ?_⟩
  cases fin with
  | true =>
    obtain ⟨-, -, -, -, -, -, -, -, -, -, -, -, -, -, e, -⟩ := groupEnd_inv (h4 rfl)
    exact e
  | false =>
    obtain ⟨-, rfl, -⟩ := h5 rfl
    rfl

/-- A tile group without adapted tiles changes no table. -/
theorem group_quiet {grow : Nat → Nat} {fuel : Nat} {sz : Int} {s s' : State} {r r' : DecR} {u : DecUH} {sh : SeqHeader} {b b' : BitStream} {t : DecTG} (hm : MemOk r.cdf)
    (h : decodeGroup grow fuel sz (s, r) u sh b = .ok ((t, (s', r')), b')) (hq : ∀ run ∈ t.runs, run.rowStart < run.rowEnd → u.hdr.disableCdfUpdate = true) : r'.cdf = r.cdf := by
  obtain ⟨runs, x, log, fin, h1, h2, h3⟩ := decodeGroup_cdf h
  rw [h2] at hq
  have hq' : ∀ run ∈ runs, run.rowStart < run.rowEnd → u.hdr.disableCdfUpdate = true := fun run hr hn => hq run.noStart (List.mem_map_of_mem hr) hn
  suffices hx : x.cdfs = groupCdfs r by rw [h3, hx, putCdfs_same]
  refine tileGroup_if (I := fun y : TileSt × List Ev => y.1.cdfs = groupCdfs r) (P := fun run => run.rowStart < run.rowEnd → u.hdr.disableCdfUpdate = true) _ ?_ _ _ _ rfl _ _ _ h1 hq'
  intro run y st s1 st' y' s2 hp hst hy e
  unfold groupTile at e
  cases hk : cdfClass r.fs with
  | none => rw [hk] at e; cases e
  | some k =>
  rw [hk] at e
  dsimp only at e
  have hg : groupCdfs r = r.cdf.view k := by unfold groupCdfs; rw [hk]
  by_cases hne : run.rowStart < run.rowEnd
  · rw [hp hne] at e
    exact ((readRel_quiet k).tile (x := setCurQ u.hdr.quant.baseQIdx y) ⟨by show (cdfLayout k).Fits y.1.cdfs; rw [hy, hg]; exact hm.fits k, hst⟩ e).trans hy
  · exact (realTile_empty hne e).trans hy

/-- No counter of a common table goes down. -/
theorem group_counters {grow : Nat → Nat} {fuel : Nat} {sz : Int} {s s' : State} {r r' : DecR} {u : DecUH} {sh : SeqHeader} {b b' : BitStream} {t : DecTG} (hm : MemOk r.cdf)
    (h : decodeGroup grow fuel sz (s, r) u sh b = .ok ((t, (s', r')), b')) : CntLe r.cdf.common r'.cdf.common := by
  obtain ⟨runs, x, log, fin, h1, h2, h3⟩ := decodeGroup_cdf h
  rw [h3]
  unfold putCdfs
  cases hk : cdfClass r.fs with
  | none => exact CntLe.refl _
  | some k =>
  have hg : groupCdfs r = r.cdf.view k := by unfold groupCdfs; rw [hk]
  have hx : (cdfLayout k).Fits x.cdfs ∧ CntLe (r.cdf.view k) x.cdfs := by
    refine tileGroup_keeps (I := fun y : TileSt × List Ev => (cdfLayout k).Fits y.1.cdfs ∧ CntLe (r.cdf.view k) y.1.cdfs) _ ?_ _ _ _ (by rw [hg]; exact ⟨hm.fits k, CntLe.refl _⟩) _ _ _ h1
    intro run y st s1 st' y' s2 hst hy e
    unfold groupTile at e
    rw [hk] at e
    exact ⟨(realTile_cdfs e ⟨hy.1, hst⟩).1.1, hy.2.trans ((readRel_counters k _).tile (x := setCurQ u.hdr.quant.baseQIdx y) ⟨hy.1, hst⟩ e)⟩
  have := cntLe_take hx.2 r.cdf.common.length
  rw [CdfMem.view, List.take_left' rfl] at this
  exact this

/-- A group with an adapted tile adapts a table. -/
theorem group_used {grow : Nat → Nat} {fuel : Nat} {sz : Int} {s s' : State} {r r' : DecR} {u : DecUH} {sh : SeqHeader} {b b' : BitStream} {t : DecTG} (hm : MemOk r.cdf) (hs : FsTiles r.fs)
    (h : decodeGroup grow fuel sz (s, r) u sh b = .ok ((t, (s', r')), b')) (hd : u.hdr.disableCdfUpdate = false) (hsb : sh.use128x128SuperBlock = false)
    {run : TileRun} (hrun : run ∈ t.runs) (hne : run.rowStart < run.rowEnd) : ∃ i, 1 ≤ counter (r'.cdf.common.getD i []) := by
  obtain ⟨runs, x, log, fin, h1, h2, h3⟩ := decodeGroup_cdf h
  rw [h2] at hrun
  obtain ⟨run', hrun', rfl⟩ := List.mem_map.mp hrun
  obtain ⟨m1, m2, t1, t2, t3, t4⟩ := group_two grow fuel sz r u.hdr sh hs _ h1 hrun' hne
  obtain ⟨g1, size, start, st, s2, st', s3, hi, g2, g3⟩ := tileGroup_one_run _ _ _ _ t1 t2 t3 t4 _ _ _ h1
  dsimp only at g1 g2 g3
  unfold groupTile at g3
  cases hk : cdfClass r.fs with
  | none => rw [hk] at g3; cases g3
  | some k =>
  rw [hk, hd] at g3
  dsimp only at g3
  have hg : groupCdfs r = r.cdf.view k := by unfold groupCdfs; rw [hk]
  have hS : Small (frHdrOf sh u.hdr r.fs r.slots ⟨0, size, 0, 2, 0, 2, start⟩) ⟨0, size, 0, 2, 0, 2, start⟩ := ⟨m1, m2, hsb, rfl, rfl, rfl, rfl⟩
  obtain ⟨-, i, hc, h4⟩ := realTile_used hS (x := groupFirst u.hdr r) (log := []) (by show (cdfLayout k).Fits (groupCdfs r); rw [hg]; exact hm.fits k) hi g3
  refine ⟨i, ?_⟩
  rw [h3]
  unfold putCdfs
  rw [hk]
  show 1 ≤ counter ((x.cdfs.take r.cdf.common.length).getD i [])
  have hl : r.cdf.common.length = commonRows k := by
    rw [commonRows_eq]
    simpa using congrArg List.length hm.common.2
  rw [List.getD_eq_getElem?_getD, List.getElem?_take, hl, if_pos hc, ← List.getD_eq_getElem?_getD]
  exact h4

/-! ## Streams -/

namespace Spec

/-- The OBU carries a picture (a tile with rows) coded with adaptive probabilities. -/
def Adapts {grow : Nat → Nat} {fuel : Nat} (o : Obu (decoder grow fuel)) : Prop := (∃ run ∈ (groupOf o).runs, run.rowStart < run.rowEnd) ∧ (hdrOf o).disableCdfUpdate = false

end Spec

/-- What the OBUs read so far say of the tables. -/
def TabFact {grow : Nat → Nat} {fuel : Nat} (l : List (Obu (decoder grow fuel))) (r : DecR) : Prop :=
  (∀ o ∈ l, ∀ run ∈ (groupOf o).runs, run.rowStart < run.rowEnd → o.sequenceHeader.use128x128SuperBlock = false) →
    ((∀ o ∈ l, ¬ Spec.Adapts o) → r.cdf = cdfStart) ∧ ((∃ o ∈ l, Spec.Adapts o) → ∃ i, 1 ≤ counter (r.cdf.common.getD i []))

/-- The states tile groups of a stream are decoded in. -/
def TabHist (grow : Nat → Nat) (fuel : Nat) (l : List (Obu (decoder grow fuel))) (r : DecR) : Prop :=
  Spec.Reach grow fuel r ∧ FsTiles r.fs ∧ TabFact l r ∧ ∀ l1 o l2, l = l1 ++ o :: l2 → groupOf o = {} ∨ ∃ (sz : Int) (s : State) (r : DecR) (v : DecUH) (b : BitStream) (s' : State) (r' : DecR) (b' : BitStream),
    Spec.Reach grow fuel r ∧ v.hdr = hdrOf o ∧ decodeGroup grow fuel sz (s, r) v o.sequenceHeader b = .ok ((groupOf o, (s', r')), b') ∧ TabFact l1 r

theorem split_snoc {α : Type} {l l1 l2 : List α} {x o : α} (h : l ++ [x] = l1 ++ o :: l2) : (∃ l3, l = l1 ++ o :: l3) ∨ (l = l1 ∧ x = o) := by
  rcases List.eq_nil_or_concat l2 with rfl | ⟨l3, y, rfl⟩
  · have := List.append_inj' h rfl
    exact Or.inr ⟨this.1, by simpa using this.2⟩
  · rw [List.concat_eq_append, ← List.cons_append, ← List.append_assoc] at h
    exact Or.inl ⟨l3, (List.append_inj' h rfl).1⟩

theorem tabHist (grow : Nat → Nat) (fuel : Nat) : (decoder grow fuel).Hist (fun l st => TabHist grow fuel l st.2) where
  free _ _ _ _ h := h
  start := ⟨Spec.Reach.unit Spec.Reach.start, Or.inl ⟨rfl, rfl⟩, fun _ => ⟨fun _ => rfl, fun ⟨o, h, _⟩ => by cases h⟩, fun l1 o l2 h => by cases l1 <;> cases h⟩
  fresh l s r h := ⟨Spec.Reach.unit h.1, Or.inl ⟨rfl, rfl⟩, h.2.2.1, h.2.2.2⟩
  skip l st o h hz := by
    obtain ⟨h1, h2, h3, h4⟩ := h
    have hg : groupOf o = {} := hz
    have hn : ¬ Spec.Adapts o := fun ⟨⟨run, hr, _⟩, _⟩ => by rw [hg] at hr; cases hr
    refine ⟨h1, h2, fun hs => ?_, fun l1 o' l2 e => ?_⟩
    · obtain ⟨a1, a2⟩ := h3 fun o ho => hs o (List.mem_append_left _ ho)
      refine ⟨fun h => a1 fun o ho => h o (List.mem_append_left _ ho), fun ⟨o', ho, ha⟩ => a2 ?_⟩
      rcases List.mem_append.mp ho with ho | ho
      · exact ⟨o', ho, ha⟩
      · rw [List.mem_singleton.mp ho] at ha; exact absurd ha hn
    · rcases split_snoc e with ⟨l3, e⟩ | ⟨-, rfl⟩
      · exact h4 l1 o' l3 e
      · exact Or.inl hg
  uh l h sh st hS := by
    intro b x b' e
    obtain ⟨h1, h2, h3, h4⟩ := hS
    refine ⟨Spec.Reach.header (s := st.1) h1 e, ?_⟩
    change decodeHeader h sh st b = _ at e
    unfold decodeHeader at e
    obtain ⟨⟨uh, fs⟩, b1, e1, e⟩ := BM.bind_eq_ok.mp e
    cases e
    exact ⟨newUncompressedHeader_tiles h sh _ h2 _ _ _ e1, h3, h4⟩
  tg l sz st u sh hS := by
    intro b x b' e o ho1 ho2 ho3
    obtain ⟨h1, h2, h3, h4⟩ := hS
    obtain ⟨s, r⟩ := st
    obtain ⟨t, s', r'⟩ := x
    change decodeGroup grow fuel sz (s, r) u sh b = _ at e
    have hm := (reach_ok h1).1
    have hg : groupOf o = t := ho3
    have hu : (hdrOf o) = u.hdr := by unfold hdrOf; rw [ho2]
    refine ⟨Spec.Reach.group (s := s) h1 e, (decodeGroup_runs grow fuel sz (s, r) u sh h2 _ _ _ e).2, fun hs => ?_, fun l1 o' l2 e' => ?_⟩
    · obtain ⟨a1, a2⟩ := h3 fun o ho => hs o (List.mem_append_left _ ho)
      refine ⟨fun h => ?_, fun ⟨o', ho, ha⟩ => ?_⟩
      · have hq := group_quiet hm e fun run hr hne => by
          by_contra hd
          refine h o (List.mem_append_right _ (List.mem_singleton.mpr rfl)) ⟨⟨run, by rw [hg]; exact hr, hne⟩, ?_⟩
          rw [hu]; simpa using hd
        exact hq.trans (a1 fun o ho => h o (List.mem_append_left _ ho))
      · rcases List.mem_append.mp ho with ho | ho
        · obtain ⟨i, hi⟩ := a2 ⟨o', ho, ha⟩
          exact ⟨i, Int.le_trans hi (group_counters hm e i (by show 0 ≤ counter (r.cdf.common.getD i []); have : 1 ≤ counter (r.cdf.common.getD i []) := hi; omega))⟩
        · have ho := List.mem_singleton.mp ho
          subst ho
          obtain ⟨⟨run, hr, hne⟩, hd⟩ := ha
          have hsb := hs o' (List.mem_append_right _ (List.mem_singleton.mpr rfl)) run hr hne
          rw [hg] at hr
          rw [hu] at hd
          rw [ho1] at hsb
          exact group_used hm h2 e hd hsb hr hne
    · rcases split_snoc e' with ⟨l3, e'⟩ | ⟨rfl, rfl⟩
      · exact h4 l1 o' l3 e'
      · refine Or.inr ⟨sz, s, r, u, b, s', r', b', h1, hu.symm, ?_, h3⟩
        rw [ho1, hg]
        exact e

theorem cdfStart_counters (i : Nat) : counter (cdfStart.common.getD i []) = 0 := by
  have : ∀ c ∈ cdfStart.common, counter c = 0 := by decide +kernel
  rw [List.getD_eq_getElem?_getD]
  cases h : cdfStart.common[i]? with
  | none => rfl
  | some c => exact this c (List.mem_of_getElem? h)

/-- The tables tell whether an adapted picture has been decoded. -/
theorem TabFact.iff {grow : Nat → Nat} {fuel : Nat} {l : List (Obu (decoder grow fuel))} {r : DecR} (h : TabFact l r)
    (hs : ∀ o ∈ l, ∀ run ∈ (groupOf o).runs, run.rowStart < run.rowEnd → o.sequenceHeader.use128x128SuperBlock = false) :
    (r.cdf = cdfStart ↔ ∀ o ∈ l, ¬ Spec.Adapts o) ∧ ((∃ o ∈ l, Spec.Adapts o) → r.cdf.common ≠ cdfStart.common) := by
  obtain ⟨a1, a2⟩ := h hs
  have key : (∃ o ∈ l, Spec.Adapts o) → r.cdf.common ≠ cdfStart.common := fun h e => by
    obtain ⟨i, hi⟩ := a2 h
    rw [e, cdfStart_counters] at hi
    exact absurd hi (by decide)
  exact ⟨⟨fun e o ho ha => key ⟨o, ho, ha⟩ (by rw [e]), a1⟩, key⟩

/-- C42 over whole streams.  Every tile group of an accepted stream is decoded in a state in which the default tables are those of the program's start if and only if no earlier OBU of the
stream carries a picture coded with adaptive probabilities; after such a picture the tables of every quantizer class differ from the defaults, for good: the tiles of every later frame, which
all start from "the default tables", start from adapted ones. -/
theorem C42_stream_refuted (grow : Nat → Nat) (fuel : Nat) (data : List UInt8) (l1 l2 : List (Obu (decoder grow fuel))) (o : Obu (decoder grow fuel)) (h : Decodes grow fuel data (l1 ++ o :: l2)) :
    groupOf o = {} ∨ ∃ (sz : Int) (s : State) (r : DecR) (u : DecUH) (b : BitStream) (s' : State) (r' : DecR) (b' : BitStream),
      Spec.Reach grow fuel r ∧ u.hdr = hdrOf o ∧ decodeGroup grow fuel sz (s, r) u o.sequenceHeader b = .ok ((groupOf o, (s', r')), b') ∧
      (r.cdf = cdfStart ↔ ∀ o' ∈ l1, ¬ Spec.Adapts o') ∧ ((∃ o' ∈ l1, Spec.Adapts o') → r.cdf.common ≠ cdfStart.common) := by
  have hs := stream_no128 grow fuel data _ h
  obtain ⟨s, h⟩ := h
  obtain ⟨r, -, -, -, hh⟩ := (tabHist grow fuel).stream _ _ _ h
  rcases hh l1 o l2 rfl with hz | ⟨sz, s, r, v, b, s', r', b', h1, h2, h3, h4⟩
  · exact Or.inl hz
  · obtain ⟨k1, k2⟩ := h4.iff fun o' ho => hs o' (List.mem_append_left _ ho)
    exact Or.inr ⟨sz, s, r, v, b, s', r', b', h1, h2, h3, k1, k2⟩

/-- C42 at the end of a stream: the tables of the program are the defaults if and only if no picture was coded with adaptive probabilities. -/
theorem C42_end_partial (grow : Nat → Nat) (fuel : Nat) (data : List UInt8) (n : Nat) (p : Parser (decoder grow fuel)) (s : BitStream)
    (h : bitstreamLoop (decoder grow fuel) n { rest := (decoder grow fuel).startR, uncompressedHeader := (decoder grow fuel).zeroUH } (newBitStream data) = .ok (p, s)) :
    DecR.cdf p.rest = cdfStart ↔ ∀ o ∈ p.obus, ¬ Spec.Adapts o := by
  have hK := decoder_no128 grow fuel
  have h128 := (hK.streamLoop n _ ⟨hK.start, hK.seq0, hK.uh0, by intro o ho; cases ho⟩ _ _ _ h).2.2.2
  obtain ⟨-, -, hf, -⟩ := (tabHist grow fuel).streamLoop n _ (tabHist grow fuel).start _ _ _ h
  exact (hf.iff fun o ho run hr hne => (h128 o ho).2.2 run hr hne).1

/-- The stream of `describes`, with its header. -/
theorem stream_of_describes_hdr {grow : Nat → Nat} {fuel : Nat} {a b : List UInt8} {msg : List Nat} {test : BlkSt → Nat → Planes → Bool} (h : describes grow fuel a b msg test = true) :
    ∃ (data : List UInt8) (o1 o2 o3 : Obu (decoder grow fuel)) (fs : FrameState) (eb : BitStream), Decodes grow fuel data [o1, o2, o3] ∧ (∃ run ∈ (groupOf o3).runs, run.rowStart < run.rowEnd) ∧
      newUncompressedHeader (plainHeader 3) o3.sequenceHeader {} (newBitStream b) = .ok ((hdrOf o3, fs), eb) ∧ ∃ s1 ea, newSequenceHeader {} (newBitStream a) = .ok ((o3.sequenceHeader, s1), ea) := by
  unfold describes at h
  split at h
  · cases h
  rename_i q s1 ea ha
  split at h
  · cases h
  rename_i u fs eb hb
  split at h
  · cases h
  rename_i k hk
  split at h
  · cases h
  rename_i blk l p rest hm
  split at h
  · cases h
  rename_i y hw
  simp only [Bool.and_eq_true, decide_eq_true_eq, Bool.not_eq_true', List.isEmpty_iff] at h
  obtain ⟨⟨⟨⟨⟨⟨⟨⟨h1, h2⟩, h3⟩, h4⟩, h5⟩, h6⟩, h7⟩, h8⟩, h9⟩ := h
  subst h6
  obtain ⟨data, o1, o2, o3, hd, d1, -, d2, -, d3, e0, e1, e2, e3, e4, e5, -, e6⟩ := C185_complete grow fuel ha h1 hb h2 h3 h4 h5 hk hm hw h8
  exact ⟨data, o1, o2, o3, fs, eb, hd, e6, by rw [e0, e1]; exact hb, s1, ea, by rw [e0]; exact ha⟩

/-- Whether the header `b` after the sequence header `a` disables adaptation. -/
def disables (a b : List UInt8) : Option Bool :=
  (newSequenceHeader {} (newBitStream a)).toOption.bind fun x => (newUncompressedHeader (plainHeader 3) x.1.1 {} (newBitStream b)).toOption.map fun y => y.1.1.disableCdfUpdate

theorem demo_adapts : disables [0x18, 0x02, 0] [0, 0, 0] = some false := by decide +kernel

/-- Non-vacuity: the stream of `demo_describes` ends with a picture coded with adaptive probabilities, so the tables of the program are no longer the defaults. -/
example : ∃ (data : List UInt8) (l1 : List (Obu (decoder (fun _ => 8) 1000))) (o : Obu (decoder (fun _ => 8) 1000)), Decodes (fun _ => 8) 1000 data (l1 ++ o :: []) ∧ Spec.Adapts o ∧
    ∀ n p s, bitstreamLoop (decoder (fun _ => 8) 1000) n { rest := (decoder (fun _ => 8) 1000).startR, uncompressedHeader := (decoder (fun _ => 8) 1000).zeroUH } (newBitStream data) = .ok (p, s) →
      p.obus = l1 ++ o :: [] → DecR.cdf p.rest ≠ cdfStart := by
  obtain ⟨data, o1, o2, o3, fs, eb, hd, h1, h2, s1, ea, h3⟩ := stream_of_describes_hdr demo_describes
  have ha : Spec.Adapts o3 := by
    refine ⟨h1, ?_⟩
    have := demo_adapts
    unfold disables at this
    rw [h3] at this
    dsimp only [Except.toOption, Option.bind_some] at this
    rw [h2] at this
    exact Option.some.inj this
  refine ⟨data, [o1, o2], o3, hd, ha, fun n p s h hp hc => ?_⟩
  exact (C42_end_partial _ _ _ _ _ _ h).mp hc o3 (by rw [hp]; simp) ha

end Gov1
