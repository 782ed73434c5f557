import Verif.Lemmas.Fill
import Verif.Spec.TxSize
import Verif.Lemmas.CoeffRoundtrip
import Verif.Props.CdefIdx
/-!
# C115: transform sizes
-/
namespace Gov1
open Spec

/-- Width and height of a transform size. -/
def txDims (t : Nat) : Option (Nat × Nat) := (txWidth[t]?).bind (fun w => (txHeight[t]?).map (fun h => (w, h)))
/-- Width and height of a block size. -/
def sizeDims (s : Nat) : Option (Nat × Nat) := (blockWidth[s]?).bind (fun w => (blockHeight[s]?).map (fun h => (w, h)))

/-- **C115 (tables).**  For all block sizes the first transform size is the largest one AV1 allows, and the maximum depth is the
number of splits that lead to 4x4. -/
theorem C115_tables_partial : ∀ s : Fin 22, ∃ t n d, maxTxSizeRect[s.val]? = some t ∧ maxTxDepth[s.val]? = some n ∧ sizeDims s = some d ∧
    txDims t = some (txMax d) ∧ txSplits n (txMax d) = (4, 4) ∧ ∀ m : Fin n, txSplits m (txMax d) ≠ (4, 4) := by
  have : ∀ s : Fin 22, (match maxTxSizeRect[s.val]?, maxTxDepth[s.val]?, sizeDims s with
      | some t, some n, some d => decide (txDims t = some (txMax d) ∧ txSplits n (txMax d) = (4, 4) ∧ ∀ m : Fin n, txSplits m (txMax d) ≠ (4, 4))
      | _, _, _ => false) = true := by decide +kernel
  intro s
  have h := this s
  split at h
  · rename_i t n d h1 h2 h3
    exact ⟨t, n, d, h1, h2, h3, of_decide_eq_true h⟩
  · cases h

theorem split_dims : ∀ t : Fin 19, ∃ t' d, splitTxSize[t.val]? = some t' ∧ t' < 19 ∧ txDims t = some d ∧ txDims t' = some (txHalves d) := by
  have : ∀ t : Fin 19, (match splitTxSize[t.val]?, txDims t with
      | some t', some d => decide (t' < 19 ∧ txDims t' = some (txHalves d))
      | _, _ => false) = true := by decide +kernel
  intro t
  have h := this t
  split at h
  · rename_i t' d h1 h2
    have h := of_decide_eq_true h
    exact ⟨t', d, h1, h.1, h2, h.2⟩
  · cases h

theorem splitTimes_dims (n : Nat) : ∀ (t : Nat) (d : Nat × Nat), t < 19 → txDims t = some d →
    ∃ t', splitTimes n t = .ok t' ∧ t' < 19 ∧ txDims t' = some (txSplits n d) := by
  induction n with
  | zero => intro t d ht hd; exact ⟨t, rfl, ht, hd⟩
  | succ n ih =>
    intro t d ht hd
    obtain ⟨t1, d1, h1, h2, h3, h4⟩ := split_dims ⟨t, ht⟩
    have : d1 = d := by rw [hd] at h3; exact (Option.some.inj h3).symm
    subst this
    obtain ⟨t', e, h5, h6⟩ := ih t1 _ h2 h4
    refine ⟨t', ?_, h5, h6⟩
    rw [splitTimes, goGet_of' h1, Res.ok_bind]; exact e

theorem maxRect_lt : ∀ t ∈ maxTxSizeRect, t < 19 := by decide

/-- What is known of a block size. -/
theorem block_facts {s : Nat} (hs : s < 22) : ∃ t n d w4 h4, goGet maxTxSizeRect (s : Int) = .ok t ∧ goGet maxTxDepth (s : Int) = .ok n ∧
    t < 19 ∧ n ≤ 4 ∧ (0 < s → 1 ≤ n) ∧ sizeDims s = some d ∧ txDims t = some (txMax d) ∧ goGet num4x4Wide (s : Int) = .ok w4 ∧ goGet num4x4High (s : Int) = .ok h4 ∧
    d = (4 * w4, 4 * h4) ∧ 0 < w4 ∧ 0 < h4 := by
  obtain ⟨t, n, d, h1, h2, h3, h4, -⟩ := C115_tables_partial ⟨s, hs⟩
  have key : ∀ s : Fin 22, ∀ n, maxTxDepth[s.val]? = some n → n ≤ 4 ∧ (0 < s.val → 1 ≤ n) := by
    intro s n h
    have : ∀ s : Fin 22, (maxTxDepth[s.val]?.getD 0 ≤ 4 ∧ (0 < s.val → 1 ≤ maxTxDepth[s.val]?.getD 0)) := by decide
    have := this s
    rw [h] at this; exact this
  have dims : ∀ s : Fin 22, (match num4x4Wide[s.val]?, num4x4High[s.val]? with
      | some w, some h => decide (sizeDims s = some (4 * w, 4 * h) ∧ 0 < w ∧ 0 < h) | _, _ => false) = true := by decide
  have hd := dims ⟨s, hs⟩
  split at hd
  · rename_i w4 h4' hw hh
    have hd := of_decide_eq_true hd
    rw [h3] at hd
    exact ⟨t, n, d, w4, h4', goGet_of' h1, goGet_of' h2, maxRect_lt t (List.mem_of_getElem? h1), (key ⟨s, hs⟩ n h2).1, (key ⟨s, hs⟩ n h2).2, h3, h4,
      goGet_of' hw, goGet_of' hh, Option.some.inj hd.1, hd.2.1, hd.2.2⟩
  · cases hd

/-- All units of the block carry the transform size `t`, the others are as before. -/
def Recorded (cx : TxCtx) (t : Nat) (g g' : List (List Nat)) : Prop :=
  ∃ d, sizeDims cx.miSize = some d ∧ Filled cx.miRow cx.miCol (d.2 / 4) (d.1 / 4) t g g'

/-- The block lies in the array of the frame. -/
def TxCtx.Fits (cx : TxCtx) (H W : Nat) : Prop :=
  ∃ d, sizeDims cx.miSize = some d ∧ cx.miRow + d.2 / 4 ≤ H ∧ cx.miCol + d.1 / 4 ≤ W

/-- Not the case of the transform tree. -/
def TxCtx.noTree (cx : TxCtx) : Prop := ¬ (cx.txSelect = true ∧ cx.miSize > 0 ∧ cx.isInter = true ∧ (!cx.skip) = true ∧ (!cx.lossless) = true)

theorem readBlock_of {L : Layout} {cx : TxCtx} (hs : cx.miSize < 22) {H W : Nat} {g : List (List Nat)} (hg : Shape H W g) (hf : cx.Fits H W) (ht : cx.noTree)
    (old : Nat) {msg : List Nat} {t : Nat} (h : (readTxSize cx g (!cx.skip || cx.isInter)).Says L msg t) :
    ∃ g', (readBlockTxSize cx old g).Says L msg (t, g') ∧ Shape H W g' ∧ Recorded cx t g g' := by
  obtain ⟨-, -, d, w4, h4, -, -, -, -, -, hd, -, e1, e2, e3, -, -⟩ := block_facts hs
  obtain ⟨d', hd', f1, f2⟩ := hf
  rw [hd] at hd'; cases hd'
  subst e3
  simp only [Nat.mul_div_cancel_left _ (show 0 < 4 by decide)] at f1 f2
  obtain ⟨g', e, sh, fl⟩ := fillBlock_ok t hg f1 f2
  refine ⟨g', ?_, sh, _, hd, by simpa using fl⟩
  unfold readBlockTxSize
  refine Rd.Says.lift e1 (Rd.Says.lift e2 ?_)
  rw [if_neg ht]
  have := Rd.Says.bind (f := fun t => Rd.lift (fillBlock cx.miRow cx.miCol h4 w4 t g) >>= fun g => Rd.ret (t, g)) h
    (Rd.Says.lift (f := fun g => Rd.ret (t, g)) e (Rd.Says.ret (t, g')))
  rwa [List.append_nil] at this

/-- **C115 (lossless blocks).**  Nothing is read, the size is 4x4, and all units of the block record it. -/
theorem C115_lossless_partial {L : Layout} {cx : TxCtx} (hs : cx.miSize < 22) {H W : Nat} {g : List (List Nat)} (hg : Shape H W g) (hf : cx.Fits H W)
    (hl : cx.lossless = true) (old : Nat) :
    ∃ t g', (readBlockTxSize cx old g).Says L [] (t, g') ∧ txDims t = some (4, 4) ∧ Recorded cx t g g' := by
  obtain ⟨g', h1, -, h2⟩ := readBlock_of (L := L) (msg := []) (t := 0) hs hg hf (by unfold TxCtx.noTree; simp [hl]) old (by
    unfold readTxSize; rw [if_pos hl]; rfl)
  exact ⟨0, g', h1, by decide, h2⟩

/-- **C115 (`TX_MODE_LARGEST` and 4x4 blocks).**  Nothing is read, and the size is the largest of the block. -/
theorem C115_largest_partial {L : Layout} {cx : TxCtx} (hs : cx.miSize < 22) {H W : Nat} {g : List (List Nat)} (hg : Shape H W g) (hf : cx.Fits H W)
    (hl : cx.lossless = false) (hm : cx.txSelect = false ∨ cx.miSize = 0) (old : Nat) :
    ∃ t g' d, (readBlockTxSize cx old g).Says L [] (t, g') ∧ sizeDims cx.miSize = some d ∧ txDims t = some (txMax d) ∧ Recorded cx t g g' := by
  obtain ⟨t, n, d, w4, h4, e1, e2, -, -, -, hd, ht, -⟩ := block_facts hs
  obtain ⟨g', h1, -, h2⟩ := readBlock_of (L := L) (msg := []) (t := t) hs hg hf (by
      unfold TxCtx.noTree; rintro ⟨h1, h2, -⟩; rcases hm with hm | hm
      · rw [hm] at h1; cases h1
      · omega) old (by
    unfold readTxSize
    rw [if_neg (by rw [hl]; decide)]
    refine Rd.Says.lift e1 (Rd.Says.lift e2 ?_)
    rw [if_neg (by
      rintro ⟨h1, -, h2⟩; rcases hm with hm | hm
      · rw [hm] at h2; cases h2
      · omega)]
    rfl)
  exact ⟨t, g', d, h1, hd, ht, h2⟩

theorem depth_count (k : Fin 4) {n ctx : Nat} (hn1 : 1 ≤ n) (hn : n ≤ 4) (hc : ctx < 3) :
    (cdfLayout k).count (depthTable n) [(ctx : Int)] = some (if n = 1 then 2 else 3) := by
  have i8 : ∀ k, cdfInfo k "Tx8x8" = some ([], .box [3], 2) := by decide +kernel
  have i16 : ∀ k, cdfInfo k "Tx16x16" = some ([], .box [3], 3) := by decide +kernel
  have i32 : ∀ k, cdfInfo k "Tx32x32" = some ([], .box [3], 3) := by decide +kernel
  have i64 : ∀ k, cdfInfo k "Tx64x64" = some ([], .box [3], 3) := by decide +kernel
  have hc' : (0 : Int) ≤ (ctx : Int) ∧ (ctx : Int) < ((3 : Nat) : Int) := by omega
  rcases (show n = 1 ∨ n = 2 ∨ n = 3 ∨ n = 4 by omega) with rfl | rfl | rfl | rfl
  · exact count1 k (i8 k) hc'
  · exact count1 k (i16 k) hc'
  · exact count1 k (i32 k) hc'
  · exact count1 k (i64 k) hc'

/-- **C115 (coded size of intra blocks).**  In `TX_MODE_SELECT` a block with residual that is not inter coded reads one symbol, the
depth; the transform is the largest one split as often, and all units of the block record it (the context is the one the
code computes, see below). -/
theorem C115_depth_partial (k : Fin 4) {cx : TxCtx} (hs : cx.miSize < 22) (h0 : 0 < cx.miSize) {H W : Nat} {g : List (List Nat)} (hg : Shape H W g)
    (hf : cx.Fits H W) (hl : cx.lossless = false) (hm : cx.txSelect = true) (hi : cx.isInter = false) (hk : cx.skip = false) {maxTx ctx : Nat}
    (hmax : maxTxSizeRect[cx.miSize]? = some maxTx) (hctx : depthCtx cx g maxTx = .ok ctx)
    {dmax : Nat} (hdm : maxTxDepth[cx.miSize]? = some dmax) (depth : Nat) (hd : depth ≤ min 2 dmax) (old : Nat) :
    ∃ t g' d, (readBlockTxSize cx old g).Says (cdfLayout k) [depth] (t, g') ∧ sizeDims cx.miSize = some d ∧
      txDims t = some (txSplits depth (txMax d)) ∧ Recorded cx t g g' := by
  obtain ⟨t, n, d, w4, h4, e1, e2, tlt, n4, n1, hbd, ht, -⟩ := block_facts hs
  rw [goGet_of' hmax] at e1; cases e1
  rw [goGet_of' hdm] at e2; cases e2
  have n1 := n1 h0
  obtain ⟨t', hsp, -, hdims⟩ := splitTimes_dims depth maxTx _ tlt ht
  have hc3 : ctx < 3 := by
    unfold depthCtx at hctx
    obtain ⟨_, -, hctx⟩ := Res.inv hctx
    obtain ⟨_, -, hctx⟩ := Res.inv hctx
    obtain ⟨_, -, hctx⟩ := Res.inv hctx
    obtain ⟨_, -, hctx⟩ := Res.inv hctx
    cases hctx
    split <;> split <;> omega
  obtain ⟨g', h1, -, h2⟩ := readBlock_of (L := cdfLayout k) (msg := [depth]) (t := t') hs hg hf (by unfold TxCtx.noTree; simp [hi]) old (by
    unfold readTxSize
    rw [if_neg (by rw [hl]; decide)]
    refine Rd.Says.lift (goGet_of' hmax) (Rd.Says.lift (goGet_of' hdm) ?_)
    rw [if_pos ⟨h0, by rw [hk]; rfl, hm⟩]
    have h1 : (txDepthSymbol cx g maxTx dmax).Says (cdfLayout k) [depth] depth :=
      Rd.Says.lift hctx (Rd.Says.read (depth_count k n1 n4 hc3) (by split <;> omega))
    have := Rd.Says.bind h1 (f := fun d => Rd.lift (splitTimes d maxTx)) (m' := []) (b := t') (by
      show (Rd.lift (splitTimes depth maxTx)).run _ [] = _
      rw [hsp]; rfl)
    rwa [List.append_nil] at this)
  exact ⟨t', g', d, h1, hbd, hdims, h2⟩

/-! ## Context -/

/-- **C115 (context, above).**  The contribution of the neighbour above is that of AV1. -/
theorem C115_above_partial {cx : TxCtx} {g : List (List Nat)} {v : Nat} (h : depthAbove cx g = .ok v) :
    (cx.availU = false → v = txNeighbour false false 0 0) ∧
    (cx.availU = true → 1 ≤ cx.miRow ∧ ∃ i, at2 cx.isInters (cx.miRow - 1) cx.miCol = some i ∧
      ∀ bs ts bw tw, at2 cx.miSizes (cx.miRow - 1) cx.miCol = some bs → blockWidth[bs]? = some bw →
        at2 g (cx.miRow - 1) cx.miCol = some ts → txWidth[ts]? = some tw → v = txNeighbour true (i != 0) bw tw) := by
  unfold depthAbove at h
  constructor
  · intro hu; rw [hu] at h; cases h; rfl
  · intro hu
    rw [if_pos hu] at h
    obtain ⟨i, e1, h⟩ := Res.inv h
    obtain ⟨p1, -, p3⟩ := gget_inv e1
    have hr : 1 ≤ cx.miRow := by omega
    have er : ((cx.miRow : Int) - 1).toNat = cx.miRow - 1 := by omega
    have ei : ((cx.miRow : Int) - 1) = ((cx.miRow - 1 : Nat) : Int) := by omega
    rw [er] at p3
    refine ⟨hr, i, p3, ?_⟩
    intro bs ts bw tw hbs hbw hts htw
    unfold txNeighbour
    have hbW : nbBlockWidth cx ((cx.miRow : Int) - 1) cx.miCol = .ok bw := by
      unfold nbBlockWidth; rw [ei, gget_at2 hbs, Res.ok_bind, goGet_of' hbw]
    have htW : interTxWidth g ((cx.miRow : Int) - 1) cx.miCol = .ok tw := by
      unfold interTxWidth; rw [ei, gget_at2 hts, Res.ok_bind, goGet_of' htw]
    by_cases hi : i = 0
    · subst hi
      rw [if_neg (by decide)] at h
      unfold aboveTxWidth at h
      rw [if_pos rfl, hu] at h
      simp only [Bool.not_true, Bool.false_eq_true, if_false] at h
      obtain ⟨b, e2, h⟩ := Res.inv h
      have : b = false := by
        unfold skippedInter at e2
        obtain ⟨s, -, e2⟩ := Res.inv e2
        split at e2
        · rw [e1, Res.ok_bind] at e2; cases e2; rfl
        · cases e2; rfl
      subst this
      rw [if_neg (by decide), htW] at h
      cases h; rfl
    · rw [if_pos hi, hbW] at h
      cases h
      simp [hi]

/-- **C115 (context, left).**  With a left neighbour, an inter one contributes the height of its block, whatever is above; and if there
is also a block above, the contribution of the left neighbour is that of AV1. -/
theorem C115_left_partial {cx : TxCtx} {g : List (List Nat)} {v : Nat} (hl : cx.availL = true) (h : depthLeft cx g = .ok v) :
    1 ≤ cx.miCol ∧ ∃ i, at2 cx.isInters cx.miRow (cx.miCol - 1) = some i ∧
      ∀ bs ts bh th, at2 cx.miSizes cx.miRow (cx.miCol - 1) = some bs → blockHeight[bs]? = some bh →
        at2 g cx.miRow (cx.miCol - 1) = some ts → txHeight[ts]? = some th → (i ≠ 0 ∨ cx.availU = true) → v = txNeighbour true (i != 0) bh th := by
  unfold depthLeft at h
  rw [if_pos hl] at h
  obtain ⟨i, e1, h⟩ := Res.inv h
  obtain ⟨-, p1, p3⟩ := gget_inv e1
  have hr : 1 ≤ cx.miCol := by omega
  have er : ((cx.miCol : Int) - 1).toNat = cx.miCol - 1 := by omega
  have ei : ((cx.miCol : Int) - 1) = ((cx.miCol - 1 : Nat) : Int) := by omega
  rw [er, Int.toNat_natCast] at p3
  refine ⟨hr, i, p3, ?_⟩
  intro bs ts bh th hbs hbh hts hth hor
  unfold txNeighbour
  have hbH : nbBlockHeight cx cx.miRow ((cx.miCol : Int) - 1) = .ok bh := by
    unfold nbBlockHeight; rw [ei, gget_at2 hbs, Res.ok_bind, goGet_of' hbh]
  have htH : interTxHeight g cx.miRow ((cx.miCol : Int) - 1) = .ok th := by
    unfold interTxHeight; rw [ei, gget_at2 hts, Res.ok_bind, goGet_of' hth]
  by_cases hi : i = 0
  · subst hi
    have hu : cx.availU = true := hor.resolve_left (fun h => h rfl)
    rw [if_neg (by decide)] at h
    unfold depthLeftTx leftTxHeight at h
    rw [if_pos hu] at h
    split at h
    · rw [hl] at h
      simp only [Bool.not_true, Bool.false_eq_true, if_false] at h
      obtain ⟨b, e2, h⟩ := Res.inv h
      have : b = false := by
        unfold skippedInter at e2
        obtain ⟨s, -, e2⟩ := Res.inv e2
        split at e2
        · rw [e1, Res.ok_bind] at e2; cases e2; rfl
        · cases e2; rfl
      subst this
      rw [if_neg (by decide), htH] at h
      cases h; rfl
    · rw [htH] at h
      cases h; rfl
  · rw [if_pos hi, hbH] at h
    cases h
    simp [hi]

/-- A left neighbour of 16x16: as an inter block it contributes 16, as an intra block with 8x8 transforms 8. -/
example : depthLeft { miCol := 1, miRow := 0, availL := true, isInters := [[1]], miSizes := [[6]] } [[1]] = .ok 16 ∧
    depthLeft { miCol := 1, miRow := 0, availL := true, availU := true, isInters := [[0]], miSizes := [[6]], skips := [[0]] } [[1]] = .ok 8 := by decide

/-- **C115 fails for the left context in the first row of a tile**: there the left neighbour contributes 0, although AV1 takes the
height (at least 4) of the transform of an intra neighbour. -/
theorem C115_left_refuted {cx : TxCtx} {g : List (List Nat)} (hu : cx.availU = false) (hl : cx.availL = true) (hc : 1 ≤ cx.miCol)
    (hi : at2 cx.isInters cx.miRow (cx.miCol - 1) = some 0) (bh ts th : Nat) (hth : txHeight[ts]? = some th) :
    depthLeft cx g = .ok 0 ∧ txNeighbour cx.availL false bh th ≥ 4 := by
  constructor
  · unfold depthLeft
    have : ((cx.miCol : Int) - 1) = ((cx.miCol - 1 : Nat) : Int) := by omega
    rw [if_pos hl, this, gget_at2 hi, Res.ok_bind, if_neg (by decide)]
    unfold depthLeftTx
    rw [hu]; rfl
  · rw [hl]
    have : ∀ t ∈ txHeight, 4 ≤ t := by decide
    exact this th (List.mem_of_getElem? hth)

example : depthLeft { miCol := 1, availL := true, isInters := [[0]] } [[3]] = .ok 0 := by decide

/-- **C115 fails at the left edge of the frame**: below the first row, every block of the first column whose transform depth is to
be read panics. -/
theorem C115_edge_refuted {L : Layout} {cx : TxCtx} (h0 : 0 < cx.miSize) (hl : cx.lossless = false) (hm : cx.txSelect = true) (ht : cx.noTree)
    (hr : (!cx.skip || cx.isInter) = true) (hcol : cx.miCol = 0) (hrow : 0 < cx.miRow) (hu : cx.availU = true) (hL : cx.availL = false)
    (old : Nat) (g : List (List Nat)) (msg : List Nat) (r : (Nat × List (List Nat)) × List Nat) : (readBlockTxSize cx old g).run L msg ≠ .ok r := by
  intro h
  unfold readBlockTxSize at h
  obtain ⟨w4, m, -, h⟩ := Rd.run_bind.mp h
  obtain ⟨h4, m, -, h⟩ := Rd.run_bind.mp h
  rw [if_neg ht] at h
  obtain ⟨t, m', h, -⟩ := Rd.run_bind.mp h
  unfold readTxSize at h
  rw [if_neg (by rw [hl]; decide)] at h
  obtain ⟨_, _, -, h⟩ := Rd.run_bind.mp h
  obtain ⟨_, _, -, h⟩ := Rd.run_bind.mp h
  rw [if_pos ⟨h0, hr, hm⟩] at h
  obtain ⟨_, _, h, -⟩ := Rd.run_bind.mp h
  unfold txDepthSymbol at h
  obtain ⟨ctx, _, h, -⟩ := Rd.run_bind.mp h
  obtain ⟨h, -⟩ := run_lift_inv h
  unfold depthCtx at h
  obtain ⟨_, -, h⟩ := Res.inv h
  obtain ⟨_, -, h⟩ := Res.inv h
  obtain ⟨_, -, h⟩ := Res.inv h
  obtain ⟨lh, h, -⟩ := Res.inv h
  unfold depthLeft depthLeftTx at h
  rw [if_neg (by rw [hL]; decide), if_pos hu] at h
  unfold leftTxHeight at h
  rw [if_neg (by omega)] at h
  unfold interTxHeight at h
  obtain ⟨s, h, -⟩ := Res.inv h
  obtain ⟨-, h, -⟩ := gget_inv h
  omega

/-! ## Which blocks read a depth -/

/-- **C115 fails for intra blocks without residual**: AV1 codes their transform depth; the code reads nothing and takes the largest
transform. -/
theorem C115_intra_skip_refuted {L : Layout} {cx : TxCtx} (hs : cx.miSize < 22) {H W : Nat} {g : List (List Nat)} (hg : Shape H W g) (hf : cx.Fits H W)
    (hl : cx.lossless = false) (hi : cx.isInter = false) (hk : cx.skip = true) (old : Nat) :
    txReadsDepth cx.skip cx.isInter = true ∧
    ∃ t g' d, (readBlockTxSize cx old g).Says L [] (t, g') ∧ sizeDims cx.miSize = some d ∧ txDims t = some (txMax d) := by
  obtain ⟨t, n, d, w4, h4, e1, e2, -, -, -, hd, ht, -⟩ := block_facts hs
  obtain ⟨g', h1, -, -⟩ := readBlock_of (L := L) (msg := []) (t := t) hs hg hf (by unfold TxCtx.noTree; simp [hi]) old (by
    unfold readTxSize
    rw [if_neg (by rw [hl]; decide)]
    refine Rd.Says.lift e1 (Rd.Says.lift e2 ?_)
    rw [if_neg (by rw [hi, hk]; rintro ⟨-, h, -⟩; cases h)]
    rfl)
  exact ⟨by rw [hi, hk]; rfl, t, g', d, h1, hd, ht⟩

/-- **C115 fails for inter blocks without residual**: AV1 codes no transform depth for them; the code reads one. -/
theorem C115_inter_skip_refuted {L : Layout} {cx : TxCtx} (h0 : 0 < cx.miSize) (hl : cx.lossless = false) (hm : cx.txSelect = true)
    (hi : cx.isInter = true) (hk : cx.skip = true) (old : Nat) (g : List (List Nat)) (r : (Nat × List (List Nat)) × List Nat) :
    txReadsDepth cx.skip cx.isInter = false ∧ (readBlockTxSize cx old g).run L [] ≠ .ok r := by
  refine ⟨by rw [hi, hk]; rfl, fun h => ?_⟩
  unfold readBlockTxSize at h
  obtain ⟨w4, m, e1, h⟩ := Rd.run_bind.mp h
  obtain ⟨-, rfl⟩ := run_lift_inv e1
  obtain ⟨h4, m, e2, h⟩ := Rd.run_bind.mp h
  obtain ⟨-, rfl⟩ := run_lift_inv e2
  rw [if_neg (by rw [hk]; rintro ⟨-, -, -, h, -⟩; cases h)] at h
  obtain ⟨t, m', h, -⟩ := Rd.run_bind.mp h
  unfold readTxSize at h
  rw [if_neg (by rw [hl]; decide)] at h
  obtain ⟨_, _, e3, h⟩ := Rd.run_bind.mp h
  obtain ⟨-, rfl⟩ := run_lift_inv e3
  obtain ⟨_, _, e4, h⟩ := Rd.run_bind.mp h
  obtain ⟨-, rfl⟩ := run_lift_inv e4
  rw [if_pos ⟨h0, by rw [hi]; simp, hm⟩] at h
  obtain ⟨_, _, h, -⟩ := Rd.run_bind.mp h
  unfold txDepthSymbol at h
  obtain ⟨ctx, _, e5, h⟩ := Rd.run_bind.mp h
  obtain ⟨-, rfl⟩ := run_lift_inv e5
  cases h

/-- **C115 fails for the transform tree**: every inter block with residual in `TX_MODE_SELECT` panics. -/
theorem C115_tree_refuted {L : Layout} {cx : TxCtx} (hs : cx.miSize < 22) (h0 : 0 < cx.miSize) (hl : cx.lossless = false) (hm : cx.txSelect = true)
    (hi : cx.isInter = true) (hk : cx.skip = false) (hr : cx.miRow < cx.miRows) (hc : cx.miCol < cx.miCols)
    (old : Nat) (g : List (List Nat)) (msg : List Nat) :
    (readBlockTxSize cx old g).run L msg = .error (.explicit "not implemented: S()") := by
  obtain ⟨t, n, d, w4, h4, e1, e2, tlt, -, -, hd, ht, e3, e4, e5, pw, ph⟩ := block_facts hs
  have hfail : readVarTxSizes cx h4 w4 (min 64 (4 * h4) / 4) (min 64 (4 * w4) / 4) = .fail (.explicit "not implemented: S()") := by
    have one : ∀ {α : Type} {n s : Nat} (f : α → Nat → Rd α) (a : α) (_ : 0 < n) (_ : 0 < s) (_ : f a 0 = .fail (.explicit "not implemented: S()")),
        (List.range ((n + s - 1) / s)).foldlM f a = .fail (.explicit "not implemented: S()") := by
      intro α n s f a hn hs hf
      obtain ⟨m, hm⟩ : ∃ m, (n + s - 1) / s = m + 1 := ⟨(n + s - 1) / s - 1, by
        have : 1 ≤ (n + s - 1) / s := (Nat.le_div_iff_mul_le hs).mpr (by omega)
        omega⟩
      rw [hm, List.range_succ_eq_map, List.foldlM_cons, hf]; rfl
    unfold readVarTxSizes
    refine one _ _ ph (by omega) (one _ _ pw (by omega) ?_)
    unfold readVarTxSize
    rw [if_neg (by omega)]
  subst e5
  obtain ⟨tw, th⟩ : goGet txWidth (t : Int) = .ok (min 64 (4 * w4)) ∧ goGet txHeight (t : Int) = .ok (min 64 (4 * h4)) := by
    unfold txDims at ht
    cases hw : txWidth[t]? with
    | none => rw [hw] at ht; cases ht
    | some w =>
      cases hh : txHeight[t]? with
      | none => rw [hw, hh] at ht; cases ht
      | some h =>
        rw [hw, hh] at ht
        simp only [Option.bind_some, Option.map_some, Option.some.injEq, txMax, Prod.mk.injEq] at ht
        rw [goGet_of' hw, goGet_of' hh, ht.1, ht.2]; exact ⟨rfl, rfl⟩
  unfold readBlockTxSize
  rw [e3, e4]
  show Rd.run L (if _ then _ else _) msg = _
  rw [if_pos ⟨hm, h0, hi, by rw [hk]; rfl, by rw [hl]; rfl⟩, e1]
  show Rd.run L (Rd.lift (goGet txWidth (t : Int)) >>= _) msg = _
  rw [tw]
  show Rd.run L (Rd.lift (goGet txHeight (t : Int)) >>= _) msg = _
  rw [th]
  show Rd.run L (readVarTxSizes cx h4 w4 _ _ >>= _) msg = _
  rw [hfail]
  rfl

/-- **C115 fails beyond 256 pixels**: a block that reaches beyond the 64th row or column of units cannot record its size. -/
theorem C115_size_refuted {L : Layout} {cx : TxCtx} (hs : cx.miSize < 22) (ht : cx.noTree) (d : Nat × Nat) (hd : sizeDims cx.miSize = some d)
    (hbig : 64 < cx.miRow + d.2 / 4 ∨ 64 < cx.miCol + d.1 / 4) (old : Nat) (g : List (List Nat)) (hg : Shape 64 64 g) (msg : List Nat)
    (r : (Nat × List (List Nat)) × List Nat) : (readBlockTxSize cx old g).run L msg ≠ .ok r := by
  obtain ⟨-, -, d', w4, h4, -, -, -, -, -, hd', -, e1, e2, e3, p1, p2⟩ := block_facts hs
  rw [hd] at hd'; cases hd'
  have hbig : 64 < cx.miRow + h4 ∨ 64 < cx.miCol + w4 := by
    rw [e3] at hbig
    dsimp only at hbig
    omega
  intro h
  unfold readBlockTxSize at h
  rw [e1, e2] at h
  obtain ⟨_, _, h1, h⟩ := Rd.run_bind.mp h
  obtain ⟨h1, rfl⟩ := run_lift_inv h1
  cases h1
  obtain ⟨_, _, h1, h⟩ := Rd.run_bind.mp h
  obtain ⟨h1, rfl⟩ := run_lift_inv h1
  cases h1
  rw [if_neg ht] at h
  obtain ⟨t, m', -, h⟩ := Rd.run_bind.mp h
  obtain ⟨g', m'', h, -⟩ := Rd.run_bind.mp h
  obtain ⟨h, -⟩ := run_lift_inv h
  exact fillBlock_never hg p2 p1 hbig h

/-! ## Concrete blocks -/

/-- A 16x16 intra block at unit (4, 4), in a frame of which the units above and left are intra with 8x8 transforms. -/
def txExample : TxCtx where
  miRow := 4
  miCol := 4
  miSize := 6
  miRows := 8
  miCols := 8
  availU := true
  availL := true
  isInters := List.replicate 8 (List.replicate 8 0)
  skips := List.replicate 8 (List.replicate 8 0)
  miSizes := List.replicate 8 (List.replicate 8 3)

def txGrid : List (List Nat) := List.replicate 8 (List.replicate 8 1)

example : ∃ t g' d, (readBlockTxSize txExample 0 txGrid).Says (cdfLayout 0) [1] (t, g') ∧ sizeDims txExample.miSize = some d ∧
    txDims t = some (txSplits 1 (txMax d)) ∧ Recorded txExample t txGrid g' :=
  C115_depth_partial 0 (by decide) (by decide) (Shape.replicate 8 8 1) ⟨(16, 16), by decide, by decide, by decide⟩ rfl rfl rfl rfl
    (maxTx := 2) (ctx := 0) (by decide) (by decide) (dmax := 2) (by decide) 1 (by decide) 0

example : txSplits 1 (txMax (16, 16)) = (8, 8) := by decide

example : ∃ t g' d, (readBlockTxSize { txExample with skip := true } 0 txGrid).Says (cdfLayout 0) [] (t, g') ∧ sizeDims 6 = some d ∧ txDims t = some (txMax d) :=
  (C115_intra_skip_refuted (by decide) (Shape.replicate 8 8 1) ⟨(16, 16), by decide, by decide, by decide⟩ rfl rfl rfl 0).2

example (msg : List Nat) : (readBlockTxSize { txExample with isInter := true } 0 txGrid).run (cdfLayout 0) msg = .error (.explicit "not implemented: S()") :=
  C115_tree_refuted (by decide) (by decide) rfl rfl rfl rfl (by decide) (by decide) _ _ _

example (msg : List Nat) (r : (Nat × List (List Nat)) × List Nat) :
    (readBlockTxSize { txExample with miCol := 0, availL := false } 0 txGrid).run (cdfLayout 0) msg ≠ .ok r :=
  C115_edge_refuted (by decide) rfl rfl (by unfold TxCtx.noTree; decide) rfl rfl (by decide) rfl rfl _ _ _ _

end Gov1
