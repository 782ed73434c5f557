import Verif.Props.BlockComplete
/-!
# What a tile is decoded to is what its syntax says

The converse of `realTile_of`: a tile of a frame of 8x8 pixels that is decoded at all is decoded as the syntax of the frame says.
-/
namespace Gov1

theorem exec_bind_of {α β : Type} {L : Layout} {disable : Bool} {f : α → Rd β} {p : Rd α} {cdfs cdfs1 : List (List Int)} {st st1 : Sym} {s s1 : BitStream} {a : α}
    {r : (β × List (List Int) × Sym) × BitStream} (h1 : p.exec L disable cdfs st s = .ok ((a, cdfs1, st1), s1)) (h2 : (f a).exec L disable cdfs1 st1 s1 = .ok r) :
    (p >>= f).exec L disable cdfs st s = .ok r := by
  rw [exec_bind]
  exact BM.bind_eq_ok.mpr ⟨_, _, h1, h2⟩

theorem blockEv_inv {σ : Type} {ops : PartOps σ} {r c z : Nat} {x y : σ} {e : List Ev} {s t : BitStream} (h : blockEv ops r c z x s = .ok ((y, e), t)) :
    ops.block r c z x s = .ok (y, t) ∧ e = [.block r c z] := by
  unfold blockEv at h
  obtain ⟨x1, s1, h1, h2⟩ := BM.bind_eq_ok.mp h
  cases h2
  exact ⟨h1, rfl⟩

theorem seqB_nil_inv {σ : Type} {x y : σ} {e : List Ev} {s t : BitStream} (h : seqB ([] : List (σ → BM (σ × List Ev))) x s = .ok ((y, e), t)) : y = x ∧ e = [] ∧ t = s := by
  cases h
  exact ⟨rfl, rfl, rfl⟩

theorem leaf_inv {σ : Type} {ops : PartOps σ} {fuel r c : Nat} (hr : r < 2) (hc : c < 2) {x x' : σ} {es : List Ev} {s s' : BitStream}
    (h : decodePartition ops 2 2 (fuel + 1) r c 0 x s = .ok ((x', es), s')) : ops.block r c 0 x s = .ok (x', s') ∧ es = [.part 0 r c 0, .block r c 0] := by
  obtain ⟨p, x1, s1, es', row, hch, hrow, rfl, hseq⟩ := decodePartition_ok (.inl rfl) hr hc h
  rw [choosePart, if_pos (by decide)] at hch
  cases hch
  cases hrow
  rw [partSteps, if_pos rfl] at hseq
  obtain ⟨x2, s2, e, es2, h1, h2, rfl⟩ := seqB_cons hseq
  obtain ⟨b1, rfl⟩ := blockEv_inv h1
  obtain ⟨rfl, rfl, rfl⟩ := seqB_nil_inv h2
  exact ⟨b1, rfl⟩

theorem eight_inv {σ : Type} {ops : PartOps σ} {fuel : Nat} {x x' : σ} {es : List Ev} {s s' : BitStream}
    (h : decodePartition ops 2 2 (fuel + 2) 0 0 3 x s = .ok ((x', es), s')) (hp4 : ∀ p y t, ops.readPart 3 0 0 x s = .ok ((p, y), t) → p < 4) :
    ∃ p x1 s1, ops.readPart 3 0 0 x s = .ok ((p, x1), s1) ∧ blocksRun ops (smallBlocks p) x1 s1 = .ok (x', s') ∧ es = .part 3 0 0 p :: smallLog p := by
  obtain ⟨p, x1, s1, es', row, hch, hrow, rfl, hseq⟩ := decodePartition_ok (.inr (.inl rfl)) (by decide) (by decide) h
  rw [choosePart, if_neg (by decide), if_pos (by decide)] at hch
  have hp : p < 4 := hp4 _ _ _ hch
  refine ⟨p, x1, s1, hch, ?_⟩
  rcases (show p = 0 ∨ p = 1 ∨ p = 2 ∨ p = 3 by omega) with rfl | rfl | rfl | rfl
  · cases hrow
    obtain ⟨x2, s2, e, es2, h1, h2, rfl⟩ := seqB_cons hseq
    obtain ⟨b1, rfl⟩ := blockEv_inv h1
    obtain ⟨rfl, rfl, rfl⟩ := seqB_nil_inv h2
    exact ⟨BM.bind_eq_ok.mpr ⟨_, _, b1, rfl⟩, rfl⟩
  · cases hrow
    obtain ⟨x2, s2, e, es2, h1, h2, rfl⟩ := seqB_cons hseq
    obtain ⟨x3, s3, e3, es3, h3, h4, rfl⟩ := seqB_cons h2
    obtain ⟨b1, rfl⟩ := blockEv_inv h1
    obtain ⟨b2, rfl⟩ := blockEv_inv h3
    obtain ⟨rfl, rfl, rfl⟩ := seqB_nil_inv h4
    exact ⟨BM.bind_eq_ok.mpr ⟨_, _, b1, BM.bind_eq_ok.mpr ⟨_, _, b2, rfl⟩⟩, rfl⟩
  · cases hrow
    obtain ⟨x2, s2, e, es2, h1, h2, rfl⟩ := seqB_cons hseq
    obtain ⟨x3, s3, e3, es3, h3, h4, rfl⟩ := seqB_cons h2
    obtain ⟨b1, rfl⟩ := blockEv_inv h1
    obtain ⟨b2, rfl⟩ := blockEv_inv h3
    obtain ⟨rfl, rfl, rfl⟩ := seqB_nil_inv h4
    exact ⟨BM.bind_eq_ok.mpr ⟨_, _, b1, BM.bind_eq_ok.mpr ⟨_, _, b2, rfl⟩⟩, rfl⟩
  · cases hrow
    obtain ⟨xa, sa, ea, fa, h1, w1, rfl⟩ := seqB_cons hseq
    obtain ⟨xb, sb, eb, fb, h2, w2, rfl⟩ := seqB_cons w1
    obtain ⟨xc, sc, ec, fc, h3, w3, rfl⟩ := seqB_cons w2
    obtain ⟨xd, sd, ed, fd, h4, w4, rfl⟩ := seqB_cons w3
    obtain ⟨rfl, rfl, rfl⟩ := seqB_nil_inv w4
    obtain ⟨b1, rfl⟩ := leaf_inv (by decide) (by decide) h1
    obtain ⟨b2, rfl⟩ := leaf_inv (by decide) (by decide) h2
    obtain ⟨b3, rfl⟩ := leaf_inv (by decide) (by decide) h3
    obtain ⟨b4, rfl⟩ := leaf_inv (by decide) (by decide) h4
    exact ⟨BM.bind_eq_ok.mpr ⟨_, _, b1, BM.bind_eq_ok.mpr ⟨_, _, b2, BM.bind_eq_ok.mpr ⟨_, _, b3, BM.bind_eq_ok.mpr ⟨_, _, b4, rfl⟩⟩⟩⟩, rfl⟩

theorem blocksRun_inv {k : Fin 4} {disable : Bool} {fuel : Nat} {h : FrHdr} : ∀ (l : List (Nat × Nat × Nat)) {x y : TileSt} {st st' : Sym} {s s' : BitStream},
    blocksRun (tileOps (cdfLayout k) disable fuel h) l (st, x) s = .ok ((st', y), s') →
    (blocksSyntax fuel h l x.blk).exec (cdfLayout k) disable x.cdfs st s = .ok ((y.blk, y.cdfs, st'), s') ∧ y.lr = x.lr := by
  intro l
  induction l with
  | nil => intro x y st st' s s' h; cases h; exact ⟨rfl, rfl⟩
  | cons z l ih =>
    obtain ⟨r, c, z⟩ := z
    intro x y st st' s s' h
    obtain ⟨⟨st1, x1⟩, s1, h1, h2⟩ := blocksRun_cons h
    simp only [tileOps, blockOp, execIn] at h1
    obtain ⟨⟨b, c1, st2⟩, s2, g1, g2⟩ := BM.bind_eq_ok.mp h1
    cases g2
    obtain ⟨i1, i2⟩ := ih h2
    exact ⟨exec_bind_of g1 i1, i2⟩

/-- What the syntax says is what the tile does. -/
theorem realTile_inv {grow : Nat → Nat} {k : Fin 4} {disable : Bool} {fuel : Nat} {h : FrHdr} {lh : LrHdr} {run : TileRun} (hs : Small h run) {x y : TileSt} (hL : (cdfLayout k).Fits x.cdfs)
    {st st' : Sym} (hr : 2 ^ 15 ≤ st.range ∧ st.range < 2 ^ 16) (hv : 0 ≤ st.value ∧ st.value < st.range) {s s' : BitStream} {log log' : List Ev}
    (e : realTile grow k disable fuel h lh run (x, log) st s = .ok ((st', (y, log')), s')) :
    ∃ p, (frameSyntax grow fuel h lh x).exec (cdfLayout k) disable x.cdfs st s = .ok (((y.blk, y.lr, p), y.cdfs, st'), s') ∧
      log' = log ++ ([.part 12 0 0 3, .part 9 0 0 3, .part 6 0 0 3, .part 3 0 0 p] ++ smallLog p) := by
  unfold realTile tileEvents at e
  rw [decodeTile] at e
  obtain ⟨u1, s1, q1, e⟩ := BM.bind_eq_ok.mp e
  obtain ⟨r1, r2, r3, r4⟩ := hs.run
  rw [hs.sb, hs.rows, hs.cols, r1, r2, r3, r4] at e
  rw [hs.cols] at q1
  cases q1
  dsimp only at e
  rw [show (2 - 0 : Nat) = 2 from rfl, sbRows, if_pos (by decide)] at e
  dsimp only at e
  obtain ⟨u2, s2, q2, e⟩ := BM.bind_eq_ok.mp e
  cases q2
  obtain ⟨⟨st3, x3⟩, s3, e3, e⟩ := BM.bind_eq_ok.mp e
  rw [show (2 - 0 : Nat) = 2 from rfl, sbCols, if_pos (by decide)] at e3
  dsimp only at e3
  obtain ⟨⟨st4, x4⟩, s4, e4, e3⟩ := BM.bind_eq_ok.mp e3
  dsimp only at e3 e
  rw [sbCols, if_neg (by decide)] at e3
  cases e3
  rw [sbRows, if_neg (by decide)] at e
  cases e
  unfold sbEvents at e4
  obtain ⟨⟨st5, y5⟩, s5, h5, e4⟩ := BM.bind_eq_ok.mp e4
  dsimp only at e4
  obtain ⟨⟨⟨st6, y6⟩, es6⟩, s6, h6, e4⟩ := BM.bind_eq_ok.mp e4
  cases e4
  unfold sbPre at h5
  obtain ⟨b1, t1, g1, h5⟩ := BM.bind_eq_ok.mp h5
  rw [hs.sb] at h5
  unfold execIn at h5
  obtain ⟨⟨l2, c2, st2⟩, t2, g2, h5⟩ := BM.bind_eq_ok.mp h5
  cases h5
  dsimp only at g1 g2
  obtain ⟨hb1, rfl⟩ : sbClear grow h lh.numPlanes 0 0 (tileReset h lh.numPlanes x).blk = .ok b1 ∧ t1 = s := by
    cases hq : sbClear grow h lh.numPlanes 0 0 (tileReset h lh.numPlanes x).blk with
    | error e => rw [hq] at g1; cases g1
    | ok b => rw [hq] at g1; cases g1; exact ⟨rfl, rfl⟩
  obtain ⟨-, hf2, hr2, hv2⟩ := C93_sound _ disable _ _ _ _ _ _ _ _ hL hr hv g2
  rw [show sbSizeArg false = 12 from rfl] at h6
  obtain ⟨e1, rfl, h7⟩ := corner (fuel := 11) (.inr (.inr rfl)) h6
  obtain ⟨e2, rfl, h8⟩ := corner (fuel := 10) (.inr (.inl rfl)) h7
  obtain ⟨e3, rfl, h9⟩ := corner (fuel := 9) (.inl rfl) h8
  obtain ⟨p, ⟨st3, x3⟩, t3, g3, g4, rfl⟩ := eight_inv (fuel := 8) h9 (by
    intro p y t hp
    obtain ⟨⟨p', c3, st3⟩, t3, g3, g4⟩ := BM.bind_eq_ok.mp hp
    cases g4
    exact (exec_wlp (readPartition_wlp k h 3 0 0 b1.recs.miSizes) hf2 hr2 hv2 g3).2.1 rfl)
  obtain ⟨⟨p', c3, st3'⟩, t3', g3, g5⟩ := BM.bind_eq_ok.mp g3
  cases g5
  obtain ⟨g6, g7⟩ := blocksRun_inv _ g4
  refine ⟨p, ?_, by simp⟩
  unfold frameSyntax
  refine exec_bind_of (cdfs1 := x.cdfs) (st1 := st) (s1 := t1) (a := b1) (by rw [hb1]; rfl) (exec_bind_of g2 (exec_bind_of g3 (exec_bind_of g6 ?_)))
  dsimp only at g7
  rw [g7]
  rfl

end Gov1
