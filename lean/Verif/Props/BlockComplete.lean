import Verif.Props.Block

/-!
# Every sequence of syntax elements of a frame can be coded (C180)

The frames that the decoder can decode have 8x8 pixels.  Their syntax is: the loop restoration syntax, one partition symbol, then the blocks of that partition.  For every list of symbol values that this
syntax accepts there are tile data from which the decoder, with its arithmetic decoding and adaptation, gets exactly these values.
-/

namespace Gov1

theorem exec_bind {α β : Type} (L : Layout) (disable : Bool) (f : α → Rd β) : ∀ (p : Rd α) (cdfs : List (List Int)) (st : Sym),
    (p >>= f).exec L disable cdfs st = (p.exec L disable cdfs st >>= fun x => (f x.1).exec L disable x.2.1 x.2.2 : BM _) := by
  intro p
  induction p with
  | ret a => intro cdfs st; rfl
  | fail e => intro cdfs st; rfl
  | sym t idx k ih =>
    intro cdfs st
    funext s
    change (Rd.sym t idx fun s => (k s).bind f).exec L disable cdfs st s = _
    rw [BM.bind_apply, Rd.exec, Rd.exec]
    cases hs : L.slot t idx with
    | none => rfl
    | some i =>
      dsimp only
      rw [BM.bind_apply, BM.bind_apply]
      cases hg : (BM.lift (goGet cdfs i) : BM _) s with
      | error e => rfl
      | ok g =>
        dsimp only
        rw [BM.bind_apply, BM.bind_apply]
        cases hr : readSymbol disable g.1 st g.2 with
        | error e => rfl
        | ok y =>
          dsimp only
          have := congrFun (ih y.1.1 (cdfs.set i y.1.2.1) y.1.2.2) y.2
          rw [BM.bind_apply] at this
          exact this
  | bit k ih =>
    intro cdfs st
    funext s
    change (Rd.bit fun s => (k s).bind f).exec L disable cdfs st s = _
    rw [BM.bind_apply, Rd.exec, Rd.exec, BM.bind_apply, BM.bind_apply]
    cases hr : readBool disable st s with
    | error e => rfl
    | ok y =>
      dsimp only
      have := congrFun (ih y.1.1 cdfs y.1.2) y.2
      rw [BM.bind_apply] at this
      exact this

theorem exec_bind_ok {α β : Type} {L : Layout} {disable : Bool} {f : α → Rd β} {p : Rd α} {cdfs : List (List Int)} {st : Sym} {s : BitStream} {r : (β × List (List Int) × Sym) × BitStream}
    (h : (p >>= f).exec L disable cdfs st s = .ok r) :
    ∃ a cdfs1 st1 s1, p.exec L disable cdfs st s = .ok ((a, cdfs1, st1), s1) ∧ (f a).exec L disable cdfs1 st1 s1 = .ok r := by
  rw [exec_bind] at h
  obtain ⟨⟨a, c1, st1⟩, s1, h1, h2⟩ := BM.bind_eq_ok.mp h
  exact ⟨a, c1, st1, s1, h1, h2⟩

theorem exec_lift_ok {α : Type} {L : Layout} {disable : Bool} {r : Res α} {cdfs cdfs' : List (List Int)} {st st' : Sym} {s s' : BitStream} {a : α}
    (h : (Rd.lift r).exec L disable cdfs st s = .ok ((a, cdfs', st'), s')) : r = .ok a ∧ cdfs' = cdfs ∧ st' = st ∧ s' = s := by
  cases r with
  | error e => cases h
  | ok b => cases h; exact ⟨rfl, rfl, rfl, rfl⟩

/-- The blocks of the partitions of the 8x8 block of a frame: row, column, block size (decode_partition.go:52-107). -/
def smallBlocks (p : Nat) : List (Nat × Nat × Nat) :=
  if p = 0 then [(0, 0, 3)] else if p = 1 then [(1, 0, 2), (1, 0, 2)] else if p = 2 then [(0, 0, 1), (0, 1, 1)] else [(0, 0, 0), (0, 1, 0), (1, 0, 0), (1, 1, 0)]

/-- The syntax of some blocks. -/
def blocksSyntax (fuel : Nat) (h : FrHdr) : List (Nat × Nat × Nat) → BlkSt → Rd BlkSt
  | [], s => pure s
  | (r, c, z) :: l, s => do
    let s ← decodeBlock fuel h r c z s
    blocksSyntax fuel h l s

/-- The syntax of a frame of 8x8 pixels: restoration, partition, blocks. -/
def frameSyntax (grow : Nat → Nat) (fuel : Nat) (h : FrHdr) (lh : LrHdr) (x : TileSt) : Rd (BlkSt × LrUnitParams × Nat) := do
  let b ← Rd.lift (sbClear grow h lh.numPlanes 0 0 (tileReset h lh.numPlanes x).blk)
  let l ← readLr fuel lh 0 0 12 (tileReset h lh.numPlanes x).lr
  let p ← readPartition h 3 0 0 b.recs.miSizes
  let b ← blocksSyntax fuel h (smallBlocks p) b
  pure (b, l, p)

/-! ## From the syntax to the tile -/

/-- Blocks one after the other. -/
def blocksRun {σ : Type} (ops : PartOps σ) : List (Nat × Nat × Nat) → σ → BM σ
  | [], x => pure x
  | (r, c, z) :: l, x => do
    let x ← ops.block r c z x
    blocksRun ops l x

theorem blocksRun_of {k : Fin 4} {disable : Bool} {fuel : Nat} {h : FrHdr} : ∀ (l : List (Nat × Nat × Nat)) {b b' : BlkSt} {cdfs cdfs' : List (List Int)} {st st' : Sym} {s s' : BitStream} (lr : LrUnitParams),
    (blocksSyntax fuel h l b).exec (cdfLayout k) disable cdfs st s = .ok ((b', cdfs', st'), s') →
    blocksRun (tileOps (cdfLayout k) disable fuel h) l (st, ⟨cdfs, b, lr⟩) s = .ok ((st', ⟨cdfs', b', lr⟩), s') := by
  intro l
  induction l with
  | nil => intro b b' cdfs cdfs' st st' s s' lr h; cases h; rfl
  | cons x l ih =>
    obtain ⟨r, c, z⟩ := x
    intro b b' cdfs cdfs' st st' s s' lr h
    rw [blocksSyntax] at h
    obtain ⟨b1, c1, st1, s1, h1, h2⟩ := exec_bind_ok h
    rw [blocksRun]
    refine BM.bind_eq_ok.mpr ⟨(st1, ⟨c1, b1, lr⟩), s1, ?_, ih lr h2⟩
    simp only [tileOps, blockOp, execIn]
    exact BM.bind_eq_ok.mpr ⟨_, _, h1, rfl⟩

theorem seqB_cons_of {σ : Type} {f : σ → BM (σ × List Ev)} {fs : List (σ → BM (σ × List Ev))} {x y z : σ} {e es : List Ev} {s t u : BitStream}
    (h1 : f x s = .ok ((y, e), t)) (h2 : seqB fs y t = .ok ((z, es), u)) : seqB (f :: fs) x s = .ok ((z, e ++ es), u) := by
  rw [seqB]
  exact BM.bind_eq_ok.mpr ⟨_, _, h1, BM.bind_eq_ok.mpr ⟨_, _, h2, rfl⟩⟩

theorem blockEv_of {σ : Type} {ops : PartOps σ} {r c z : Nat} {x y : σ} {s t : BitStream} (h : ops.block r c z x s = .ok (y, t)) : blockEv ops r c z x s = .ok ((y, [.block r c z]), t) :=
  BM.bind_eq_ok.mpr ⟨_, _, h, rfl⟩

theorem decodePartition_of {σ : Type} {ops : PartOps σ} {fuel r c b p : Nat} {x x1 x' : σ} {es : List Ev} {s s1 s' : BitStream} (hb : IsSquare b) (hr : r < 2) (hc : c < 2) (hp : p < 4)
    (hch : choosePart ops b r c (decide (r + (blockDims b).1 / 2 < 2)) (decide (c + (blockDims b).1 / 2 < 2)) x s = .ok ((p, x1), s1))
    (hs : seqB (partSteps ops (decodePartition ops 2 2 fuel) 2 p r c ((blockDims b).1 / 2) ((blockDims b).1 / 2 / 2)
        ((partitionSubsize.getD p []).getD b 0) ((partitionSubsize.getD 3 []).getD b 0) (decide (r + (blockDims b).1 / 2 < 2))
        (decide (c + (blockDims b).1 / 2 < 2))) x1 s1 = .ok ((x', es), s')) :
    decodePartition ops 2 2 (fuel + 1) r c b x s = .ok ((x', .part b r c p :: es), s') := by
  rw [decodePartition, if_neg (by omega)]
  have hnum : goGet num4x4Wide b = .ok (blockDims b).1 := by rcases hb with rfl | rfl | rfl | rfl | rfl | rfl <;> rfl
  rw [hnum]
  refine BM.bind_eq_ok.mpr ⟨_, s, rfl, ?_⟩
  dsimp only
  simp only [Nat.shiftRight_one]
  refine BM.bind_eq_ok.mpr ⟨(p, x1), s1, hch, ?_⟩
  dsimp only
  have hsub : goGet partitionSubsize (p : Nat) = .ok (partitionSubsize.getD p []) ∧ goGet (partitionSubsize.getD p []) (b : Nat) = .ok ((partitionSubsize.getD p []).getD b 0) ∧
      goGet partitionSubsize 3 = .ok (partitionSubsize.getD 3 []) ∧ goGet (partitionSubsize.getD 3 []) (b : Nat) = .ok ((partitionSubsize.getD 3 []).getD b 0) := by
    rcases (show p = 0 ∨ p = 1 ∨ p = 2 ∨ p = 3 by omega) with rfl | rfl | rfl | rfl <;> rcases hb with rfl | rfl | rfl | rfl | rfl | rfl <;> exact ⟨rfl, rfl, rfl, rfl⟩
  obtain ⟨e1, e2, e3, e4⟩ := hsub
  rw [e1]
  refine BM.bind_eq_ok.mpr ⟨_, s1, rfl, ?_⟩
  rw [e2]
  refine BM.bind_eq_ok.mpr ⟨_, s1, rfl, ?_⟩
  rw [e3]
  refine BM.bind_eq_ok.mpr ⟨_, s1, rfl, ?_⟩
  rw [e4]
  refine BM.bind_eq_ok.mpr ⟨_, s1, rfl, ?_⟩
  exact BM.bind_eq_ok.mpr ⟨_, _, hs, rfl⟩

theorem out_of {σ : Type} {ops : PartOps σ} {fuel r c z : Nat} (hrc : 2 ≤ r ∨ 2 ≤ c) (x : σ) (s : BitStream) : decodePartition ops 2 2 (fuel + 1) r c z x s = .ok ((x, []), s) := by
  rw [decodePartition, if_pos (by omega)]
  rfl

theorem corner_of {σ : Type} {ops : PartOps σ} {fuel b : Nat} (hb : b = 6 ∨ b = 9 ∨ b = 12) {x x' : σ} {es : List Ev} {s s' : BitStream}
    (h : decodePartition ops 2 2 (fuel + 1) 0 0 (b - 3) x s = .ok ((x', es), s')) :
    decodePartition ops 2 2 (fuel + 2) 0 0 b x s = .ok ((x', .part b 0 0 3 :: es), s') := by
  have hsq : IsSquare b := by unfold IsSquare; omega
  have hhalf : 2 ≤ (blockDims b).1 / 2 := by rcases hb with rfl | rfl | rfl <;> decide
  have hsub : (partitionSubsize.getD 3 []).getD b 0 = b - 3 := by rcases hb with rfl | rfl | rfl <;> rfl
  refine decodePartition_of hsq (by decide) (by decide) (by decide : 3 < 4) (x1 := x) (s1 := s) ?_ ?_
  · rw [show decide (0 + (blockDims b).1 / 2 < 2) = false from decide_eq_false (by omega), choosePart, if_neg (by omega), if_neg (by simp), if_neg (by simp), if_neg (by simp)]
    rfl
  · rw [partSteps, if_neg (by decide), if_neg (by decide), if_neg (by decide), if_pos rfl, hsub]
    have := seqB_cons_of (f := decodePartition ops 2 2 (fuel + 1) 0 0 (b - 3)) h
      (seqB_cons_of (out_of (ops := ops) (fuel := fuel) (r := 0) (c := 0 + (blockDims b).1 / 2) (z := b - 3) (by omega) x' s')
        (seqB_cons_of (out_of (ops := ops) (fuel := fuel) (r := 0 + (blockDims b).1 / 2) (c := 0) (z := b - 3) (by omega) x' s')
          (seqB_cons_of (out_of (ops := ops) (fuel := fuel) (r := 0 + (blockDims b).1 / 2) (c := 0 + (blockDims b).1 / 2) (z := b - 3) (by omega) x' s') (show seqB [] x' s' = .ok ((x', []), s') from rfl))))
    simpa using this

theorem leaf_of {σ : Type} {ops : PartOps σ} {fuel r c : Nat} (hr : r < 2) (hc : c < 2) {x x' : σ} {s s' : BitStream} (h : ops.block r c 0 x s = .ok (x', s')) :
    decodePartition ops 2 2 (fuel + 1) r c 0 x s = .ok ((x', [.part 0 r c 0, .block r c 0]), s') := by
  refine decodePartition_of (.inl rfl) hr hc (by decide : 0 < 4) (x1 := x) (s1 := s) ?_ ?_
  · rw [choosePart, if_pos (by decide)]
    rfl
  · rw [partSteps, if_pos rfl]
    exact seqB_cons_of (blockEv_of h) (show seqB [] x' s' = .ok ((x', []), s') from rfl)

theorem blocksRun_cons {σ : Type} {ops : PartOps σ} {r c z : Nat} {l : List (Nat × Nat × Nat)} {x y : σ} {s t : BitStream} (h : blocksRun ops ((r, c, z) :: l) x s = .ok (y, t)) :
    ∃ x1 s1, ops.block r c z x s = .ok (x1, s1) ∧ blocksRun ops l x1 s1 = .ok (y, t) := by
  rw [blocksRun] at h
  obtain ⟨x1, s1, h1, h2⟩ := BM.bind_eq_ok.mp h
  exact ⟨x1, s1, h1, h2⟩

theorem eight_of {σ : Type} {ops : PartOps σ} {fuel p : Nat} (hp : p < 4) {x x1 x' : σ} {s s1 s' : BitStream} (h : ops.readPart 3 0 0 x s = .ok ((p, x1), s1))
    (hl : blocksRun ops (smallBlocks p) x1 s1 = .ok (x', s')) : decodePartition ops 2 2 (fuel + 2) 0 0 3 x s = .ok ((x', .part 3 0 0 p :: smallLog p), s') := by
  refine decodePartition_of (.inr (.inl rfl)) (by decide) (by decide) hp (x1 := x1) (s1 := s1) ?_ ?_
  · rw [choosePart, if_neg (by decide), if_pos (by decide)]
    exact h
  · rcases (show p = 0 ∨ p = 1 ∨ p = 2 ∨ p = 3 by omega) with rfl | rfl | rfl | rfl
    · obtain ⟨xa, sa, h1, w1⟩ := blocksRun_cons hl
      cases w1
      exact seqB_cons_of (blockEv_of h1) (show seqB [] x' s' = .ok ((x', []), s') from rfl)
    · obtain ⟨xa, sa, h1, w1⟩ := blocksRun_cons hl
      obtain ⟨xb, sb, h2, w2⟩ := blocksRun_cons w1
      cases w2
      exact seqB_cons_of (blockEv_of h1) (seqB_cons_of (blockEv_of h2) (show seqB [] x' s' = .ok ((x', []), s') from rfl))
    · obtain ⟨xa, sa, h1, w1⟩ := blocksRun_cons hl
      obtain ⟨xb, sb, h2, w2⟩ := blocksRun_cons w1
      cases w2
      exact seqB_cons_of (blockEv_of h1) (seqB_cons_of (blockEv_of h2) (show seqB [] x' s' = .ok ((x', []), s') from rfl))
    · obtain ⟨xa, sa, h1, w1⟩ := blocksRun_cons hl
      obtain ⟨xb, sb, h2, w2⟩ := blocksRun_cons w1
      obtain ⟨xc, sc, h3, w3⟩ := blocksRun_cons w2
      obtain ⟨xd, sd, h4, w4⟩ := blocksRun_cons w3
      cases w4
      exact seqB_cons_of (leaf_of (by decide) (by decide) h1) (seqB_cons_of (leaf_of (by decide) (by decide) h2) (seqB_cons_of (leaf_of (by decide) (by decide) h3)
        (seqB_cons_of (leaf_of (by decide) (by decide) h4) (show seqB [] x' s' = .ok ((x', []), s') from rfl))))

/-- What the tile does is what the syntax says. -/
theorem realTile_of {grow : Nat → Nat} {k : Fin 4} {disable : Bool} {fuel : Nat} {h : FrHdr} {lh : LrHdr} {run : TileRun} (hs : Small h run) {x : TileSt} (hL : (cdfLayout k).Fits x.cdfs)
    {st st' : Sym} (hr : 2 ^ 15 ≤ st.range ∧ st.range < 2 ^ 16) (hv : 0 ≤ st.value ∧ st.value < st.range) {s s' : BitStream} {b : BlkSt} {l : LrUnitParams} {p : Nat} {cdfs' : List (List Int)}
    (e : (frameSyntax grow fuel h lh x).exec (cdfLayout k) disable x.cdfs st s = .ok (((b, l, p), cdfs', st'), s')) :
    realTile grow k disable fuel h lh run (x, []) st s =
      .ok ((st', (⟨cdfs', b, l⟩, [.part 12 0 0 3, .part 9 0 0 3, .part 6 0 0 3, .part 3 0 0 p] ++ smallLog p)), s') := by
  unfold frameSyntax at e
  obtain ⟨b1, c1, st1, s1, h1', e1⟩ := exec_bind_ok e
  obtain ⟨l2, c2, st2, s2, h2, e2⟩ := exec_bind_ok e1
  obtain ⟨p3, c3, st3, s3, h3, e3⟩ := exec_bind_ok e2
  obtain ⟨b4, c4, st4, s4, h4, e4⟩ := exec_bind_ok e3
  obtain ⟨h1, hc, hst, hs1⟩ := exec_lift_ok h1'
  clear e e1 e2 e3 h1'
  subst hc hst hs1
  cases e4
  obtain ⟨-, hf2, hr2, hv2⟩ := C93_sound _ disable _ _ _ _ _ _ _ _ hL hr hv h2
  have hp : p < 4 := (exec_wlp (readPartition_wlp k h 3 0 0 b1.recs.miSizes) hf2 hr2 hv2 h3).2.1 rfl
  have h8 := eight_of (ops := tileOps (cdfLayout k) disable fuel h) (fuel := 8) hp (x := (st2, ⟨c2, b1, l⟩)) (x1 := (st3, ⟨c3, b1, l⟩)) (BM.bind_eq_ok.mpr ⟨_, _, h3, rfl⟩)
    (blocksRun_of (smallBlocks p) l h4)
  have h64 := corner_of (b := 12) (fuel := 11) (.inr (.inr rfl)) (corner_of (b := 9) (fuel := 10) (.inr (.inl rfl)) (corner_of (b := 6) (fuel := 9) (.inl rfl) h8))
  unfold realTile tileEvents decodeTile
  obtain ⟨r1, r2, r3, r4⟩ := hs.run
  rw [hs.sb, hs.rows, hs.cols, r1, r2, r3, r4]
  refine BM.bind_eq_ok.mpr ⟨_, _, rfl, ?_⟩
  dsimp only
  rw [show (2 - 0 : Nat) = 2 from rfl, sbRows, if_pos (by decide)]
  dsimp only
  refine BM.bind_eq_ok.mpr ⟨_, _, rfl, ?_⟩
  rw [show (2 - 0 : Nat) = 2 from rfl, sbCols, if_pos (by decide)]
  dsimp only
  refine BM.bind_eq_ok.mpr ⟨(st', (⟨cdfs', b, l⟩, [.part 12 0 0 3, .part 9 0 0 3, .part 6 0 0 3, .part 3 0 0 p] ++ smallLog p)), s', ?_, ?_⟩
  · refine BM.bind_eq_ok.mpr ⟨(st', (⟨cdfs', b, l⟩, [.part 12 0 0 3, .part 9 0 0 3, .part 6 0 0 3, .part 3 0 0 p] ++ smallLog p)), s', ?_, rfl⟩
    unfold sbEvents
    refine BM.bind_eq_ok.mpr ⟨(st2, ⟨c2, b1, l⟩), s2, ?_, BM.bind_eq_ok.mpr ⟨_, _, h64, rfl⟩⟩
    unfold sbPre
    rw [h1]
    refine BM.bind_eq_ok.mpr ⟨_, _, rfl, ?_⟩
    unfold execIn
    rw [hs.sb]
    exact BM.bind_eq_ok.mpr ⟨_, _, h2, rfl⟩
  · rfl

/-- **C180.**  For every list of symbol values that the syntax of a frame of 8x8 pixels accepts there are tile data from which the decoder gets exactly these values: the same state of the blocks, the
same restoration parameters, and the blocks of the same partition, in this order. -/
theorem C180_complete (grow : Nat → Nat) (k : Fin 4) (disable : Bool) (fuel : Nat) {h : FrHdr} (lh : LrHdr) {run : TileRun} (hs : Small h run) (x : TileSt) (hL : (cdfLayout k).Fits x.cdfs)
    {msg : List Nat} {b : BlkSt} {l : LrUnitParams} {p : Nat} (hm : (frameSyntax grow fuel h lh x).run (cdfLayout k) msg = .ok ((b, l, p), [])) :
    ∃ (data : List UInt8) (cdfs' : List (List Int)) (st' : Sym) (s' : BitStream),
      (do let st ← initSymbol data.length
          realTile grow k disable fuel h lh run (x, []) st : BM _) (newBitStream data) =
        .ok ((st', (⟨cdfs', b, l⟩, [.part 12 0 0 3, .part 9 0 0 3, .part 6 0 0 3, .part 3 0 0 p] ++ smallLog p)), s') := by
  obtain ⟨data, cdfs', st', s', hd⟩ := C93_complete (cdfLayout k) disable _ x.cdfs hL msg _ hm
  obtain ⟨st, s1, h1, h2⟩ := BM.bind_eq_ok.mp hd
  obtain ⟨⟨i1, i2, i3, i4⟩, -⟩ := initSymbol_inv h1
  exact ⟨data, cdfs', st', s', BM.bind_eq_ok.mpr ⟨_, _, h1, realTile_of hs hL ⟨i1, i2⟩ ⟨i3, i4⟩ h2⟩⟩

/-! ## Frames that are decoded: the hypotheses of C175 to C180 are met -/

/-- The header of a key frame of 8x8 pixels. -/
def bkHdr : FrHdr := { miRows := 2, miCols := 2, tile := ⟨0, 2, 0, 2⟩, q := { baseQIdx := 100 }, seg := demoBlk.seg }

/-- The zero value of the decoder's arrays, with their real dimensions. -/
def bkSt : BlkSt :=
  { recs :=
      { segIds := sqr 64 0, isInters := sqr 2 0, skipModes := sqr 2 0, skips := sqr 2 0, txSizes := sqr 2 0, miSizes := sqr 64 0, palY := sqr 2 0, palUV := sqr 2 0,
        deltaLFs := sqr 2 [0, 0, 0, 0] },
    modes := { yModes := sqr 64 0, refFrames := sqr 64 (0, 0), uvModes := sqr 2 0 }, interTx := sqr 64 0,
    tb :=
      { frames := List.replicate 3 (sqr 16 0), marks := List.replicate 3 ⟨sqr 2 0, sqr 13 false⟩,
        coef := { quant := List.replicate 1024 0, dequant := sqr 64 0, txTypes := sqr 2 0 } } }

def bkTile : TileSt := { cdfs := cdfStore 1, blk := bkSt }

/-- The zero value is a good state to start from, for every symbol decoder that has been initialised. -/
theorem bkTile_good {sz : Nat} {bs bs' : BitStream} {st : Sym} (h : initSymbol sz bs = .ok (st, bs')) : TileGood 1 8 (st, bkTile) := by
  obtain ⟨⟨h1, h2, h3, h4⟩, -⟩ := initSymbol_inv h
  refine ⟨C94_layout_fits 1, ⟨h1, h2⟩, ⟨h3, h4⟩, ⟨fun p F hF r c v hv => ?_, fun i => ⟨le_refl _, show (0 : Int) ≤ 2 ^ 8 - 1 by decide⟩, fun i => ⟨le_refl _, show (0 : Int) ≤ 2 ^ 8 - 1 by decide⟩⟩⟩
  obtain rfl := List.eq_of_mem_replicate (List.mem_of_getElem? hF)
  have h0 : v = 0 := by
    unfold at2 at hv
    cases hr : (sqr 16 (0 : Int))[r]? with
    | none => simp [hr] at hv
    | some row =>
      rw [hr] at hv
      obtain rfl := List.eq_of_mem_replicate (List.mem_of_getElem? hr)
      exact List.eq_of_mem_replicate (List.mem_of_getElem? hv)
  subst h0
  exact ⟨le_refl _, by decide⟩

theorem bkSmall : Small bkHdr oneTile := ⟨rfl, rfl, rfl, by decide⟩

/-- What a list of symbols is decoded to: the partition, the first luma column, the block sizes recorded. -/
def bkView (m : List Nat) : Option (Nat × List (Option Int) × List (Option Nat)) :=
  match (frameSyntax (fun n => n) 32 bkHdr { types := [0, 0, 0] } bkTile).run (cdfLayout 1) m with
  | .ok ((y, _, p), []) =>
    some (p, (List.range 8).map (fun i => at3 y.tb.frames 0 i 0), [at2 y.recs.miSizes 0 0, at2 y.recs.miSizes 0 1, at2 y.recs.miSizes 1 0, at2 y.recs.miSizes 1 1])
  | _ => none

-- one block with the smooth vertical prediction
theorem bk_none : bkView [0, 1, 10, 0] = some (0, [128, 99, 74, 53, 37, 25, 19, 16].map some, [some 3, some 3, some 3, some 3]) := by decide +kernel
-- the 8x8 block is split horizontally
theorem bk_horz : bkView [1, 1, 10, 0, 1, 9, 0] = some (1, [0, 0, 0, 0, 65, 38, 22, 16].map some, [some 0, some 0, some 2, some 2]) := by decide +kernel

/-- The symbols come from tile data. -/
theorem bkView_data {m : List Nat} {p : Nat} {q : List (Option Int) × List (Option Nat)} (h : bkView m = some (p, q)) :
    ∃ (data : List UInt8) (st' : Sym) (y : TileSt) (s' : BitStream),
      (do let st ← initSymbol data.length
          realTile (fun n => n) 1 false 32 bkHdr { types := [0, 0, 0] } oneTile (bkTile, []) st : BM _) (newBitStream data) =
        .ok ((st', (y, [.part 12 0 0 3, .part 9 0 0 3, .part 6 0 0 3, .part 3 0 0 p] ++ smallLog p)), s') := by
  unfold bkView at h
  split at h
  · next y l p' hm =>
    cases h
    obtain ⟨data, cdfs', st', s', hd⟩ := C180_complete (fun n => n) 1 false 32 { types := [0, 0, 0] } bkSmall bkTile (C94_layout_fits 1) hm
    exact ⟨data, st', _, s', hd⟩
  · cases h

-- the hypotheses of C178 and C179 are met, with and without the horizontal split
example : ∃ st st' y s s' es, TileGood 1 bkHdr.bitDepth (st, bkTile) ∧
    realTile (fun n => n) 1 false 32 bkHdr { types := [0, 0, 0] } oneTile (bkTile, []) st s = .ok ((st', (y, es)), s') ∧ .part 3 0 0 1 ∉ es := by
  obtain ⟨data, st', y, s', h⟩ := bkView_data bk_none
  obtain ⟨st, s1, h1, h2⟩ := BM.bind_eq_ok.mp h
  exact ⟨st, st', y, s1, s', _, bkTile_good h1, h2, by decide⟩

example : ∃ st st' y s s' es, TileGood 1 bkHdr.bitDepth (st, bkTile) ∧
    realTile (fun n => n) 1 false 32 bkHdr { types := [0, 0, 0] } oneTile (bkTile, []) st s = .ok ((st', (y, es)), s') ∧ .part 3 0 0 1 ∈ es := by
  obtain ⟨data, st', y, s', h⟩ := bkView_data bk_horz
  obtain ⟨st, s1, h1, h2⟩ := BM.bind_eq_ok.mp h
  exact ⟨st, st', y, s1, s', _, bkTile_good h1, h2, by decide⟩

/-- What is recorded for a block of 8x8 at the origin, and two of its pixels. -/
def blk8View (m : List Nat) : Option (List (Option Nat) × List (Option Int)) :=
  match (decodeBlock 32 bkHdr 0 0 3 bkSt).run (cdfLayout 1) m with
  | .ok (y, []) => some ([at2 y.recs.miSizes 0 0, at2 y.recs.miSizes 1 1, at2 y.recs.miSizes 2 2], [at2 y.modes.yModes 0 0, at2 y.modes.yModes 1 1, at3 y.tb.frames 0 7 0, at3 y.tb.frames 1 0 0])
  | _ => none

theorem blk8_smooth : blk8View [1, 10, 0] = some ([some 3, some 3, some 0], [some 10, some 10, some 16, some 128]) := by decide +kernel

-- the hypotheses of C175, C176 and C177 are met
example : ∃ cdfs cdfs' st st' y s s', (cdfLayout 1).Fits cdfs ∧ (2 ^ 15 ≤ st.range ∧ st.range < 2 ^ 16) ∧ (0 ≤ st.value ∧ st.value < st.range) ∧
    (decodeBlock 32 bkHdr 0 0 3 bkSt).exec (cdfLayout 1) false cdfs st s = .ok ((y, cdfs', st'), s') := by
  have hv := blk8_smooth
  unfold blk8View at hv
  split at hv
  · next y hm =>
    obtain ⟨data, cdfs', st', s', hd⟩ := C93_complete (cdfLayout 1) false _ (cdfStore 1) (C94_layout_fits 1) _ _ hm
    obtain ⟨st, s1, h1, h2⟩ := BM.bind_eq_ok.mp hd
    obtain ⟨⟨i1, i2, i3, i4⟩, -⟩ := initSymbol_inv h1
    exact ⟨cdfStore 1, cdfs', st, st', y, s1, s', C94_layout_fits 1, ⟨i1, i2⟩, ⟨i3, i4⟩, h2⟩
  · cases hv

example : sizeDims 3 = some (8, 8) := by decide
example : SubOk bkHdr.mi.subX bkHdr.mi.subY 8 8 := by decide
example : (blockAvail bkHdr.tile bkHdr.mi 0 0 3).toOption.isSome := by decide
example : Shape 2 2 bkSt.recs.skips := ⟨rfl, fun _ h => by rw [List.eq_of_mem_replicate h]; rfl⟩

end Gov1
