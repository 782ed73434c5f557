import Verif.Lemmas.CoeffRoundtrip
import Verif.Spec.CoeffCtx
/-! # C110: the contexts of the coefficient symbols -/
set_option linter.unusedSimpArgs false
set_option linter.unnecessarySeqFocus false
namespace Gov1
open Spec

/-- Quantized levels by row and column of the coded area. -/
def levelAt (quant : List Int) (w row col : Nat) : Int := quant.getD (row * w + col) 0

theorem dims_ok : ∀ t < 19, txWidth.getD t 0 = (txDims.getD t (0, 0)).1 ∧ txHeight.getD t 0 = (txDims.getD t (0, 0)).2 ∧
    (txSizeSqr.getD t 0 + txSizeSqrUp.getD t 0 + 1) >>> 1 = sizeClass (txDims.getD t (0, 0)).1 (txDims.getD t (0, 0)).2 := by
  decide +kernel

theorem cls_ok (ty : Nat) (h : ty < 16) : getTxClass (ty : Int) = (match txCls ty with | .twoD => 0 | .horiz => 1 | .vert => 2) := by
  revert ty; decide

theorem foldl_max_eq (l : List Int) (a : Int) (h : 0 ≤ a) : (l.foldl maxI a = 0 ↔ a = 0 ∧ ∀ v ∈ l, v ≤ 0) ∧
    (l.foldl maxI a ≤ 3 ↔ a ≤ 3 ∧ ∀ v ∈ l, v ≤ 3) ∧ 0 ≤ l.foldl maxI a := by
  induction l generalizing a with
  | nil => simp [h]
  | cons x l ih =>
    have hm : 0 ≤ maxI a x := by unfold maxI; split <;> omega
    obtain ⟨h1, h2, h3⟩ := ih (maxI a x) hm
    rw [List.foldl_cons, h1, h2]
    refine ⟨?_, ?_, h3⟩
    · simp only [List.mem_cons, forall_eq_or_imp]
      constructor
      · rintro ⟨e, hl⟩; unfold maxI at e; split at e <;> exact ⟨by omega, by omega, hl⟩
      · rintro ⟨e, hx, hl⟩; refine ⟨?_, hl⟩; unfold maxI; split <;> omega
    · simp only [List.mem_cons, forall_eq_or_imp]
      constructor
      · rintro ⟨e, hl⟩; unfold maxI at e; split at e <;> exact ⟨by omega, by omega, hl⟩
      · rintro ⟨e, hx, hl⟩; refine ⟨?_, hl⟩; unfold maxI; split <;> omega

theorem nextTo_succ (ctx : List Int) (p lim n : Nat) : nextTo ctx p lim (n + 1) = nextTo ctx p lim n ++ (if p + n < lim then [ctx.getD (p + n) 0] else []) := by
  unfold nextTo
  rw [List.range_succ, List.filter_append, List.map_append]
  congr 1
  split <;> simp [*]

/-- A loop over the entries next to a block is a fold over them. -/
theorem loop_nextTo {σ : Type} (step : σ → Int → σ) (ctx : List Int) (p lim n : Nat) (s0 : σ) (hlen : p + n ≤ ctx.length ∨ lim ≤ ctx.length)
    (f : Nat → σ → Res σ) (hf : ∀ k s, f k s = if (p : Int) + k < lim then (do let v ← goGet ctx ((p : Int) + k); pure (step s v)) else pure s) :
    forN f n 0 s0 = .ok ((nextTo ctx p lim n).foldl step s0) := by
  have hstep : ∀ k s, 0 ≤ k → k < 0 + n → s = (nextTo ctx p lim k).foldl step s0 → ∃ s', f k s = .ok s' ∧ s' = (nextTo ctx p lim (k + 1)).foldl step s0 := by
    intro k s hk1 hk2 hs
    rw [hf]
    by_cases hlt : p + k < lim
    · rw [if_pos (by omega), show (p : Int) + k = ((p + k : Nat) : Int) by omega, goGet_lt' (show p + k < ctx.length by omega), Res.ok_bind]
      refine ⟨_, rfl, ?_⟩
      rw [nextTo_succ, if_pos hlt, List.foldl_append, hs]
      simp [List.getD_eq_getElem?_getD, List.getElem?_eq_getElem (show p + k < ctx.length by omega)]
    · rw [if_neg (by omega)]
      refine ⟨_, rfl, ?_⟩
      rw [nextTo_succ, if_neg hlt, List.append_nil, hs]
  obtain ⟨s, e, h⟩ := forN_total (fun k s => s = (nextTo ctx p lim k).foldl step s0) hstep (show s0 = (nextTo ctx p lim 0).foldl step s0 from rfl)
  rw [e, h, Nat.zero_add]

theorem nextTo_mem {ctx : List Int} {p lim n : Nat} {v : Int} (h : v ∈ nextTo ctx p lim n) : v ∈ ctx ∨ v = 0 := by
  unfold nextTo at h
  obtain ⟨k, -, rfl⟩ := List.mem_map.mp h
  rw [List.getD_eq_getElem?_getD]
  cases e : ctx[p + k]? with
  | none => right; rfl
  | some a => left; exact List.mem_of_getElem? e

theorem maxCtx_eq {ctx : List Int} {p lim n : Nat} (hlen : p + n ≤ ctx.length) :
    maxCtx ctx p lim n = .ok ((nextTo ctx p lim n).foldl maxI 0) := by
  unfold maxCtx
  exact loop_nextTo maxI ctx p lim n 0 (Or.inl hlen) _ (fun k s => rfl)

theorem dcSum_eq {dc : List Int} {p lim n : Nat} (acc : Int) (hlen : p + n ≤ dc.length) :
    dcSum dc p lim n acc = .ok (acc + (nextTo dc p lim n).count 2 - (nextTo dc p lim n).count 1) := by
  unfold dcSum
  rw [loop_nextTo (fun a v => if v = 1 then a - 1 else if v = 2 then a + 1 else a) dc p lim n acc (Or.inl hlen) _ (fun k s => rfl)]
  congr 1
  generalize nextTo dc p lim n = l
  induction l generalizing acc with
  | nil => simp
  | cons x l ih =>
    rw [List.foldl_cons, ih, List.count_cons, List.count_cons]
    by_cases h1 : x = 1
    · subst h1; simp; omega
    · by_cases h2 : x = 2
      · subst h2; simp; omega
      · simp [h1, h2]

theorem orI_zero {a b : Int} (ha : 0 ≤ a) (hb : 0 ≤ b) : (orI a b = 0 ↔ a = 0 ∧ b = 0) ∧ 0 ≤ orI a b := by
  unfold orI
  refine ⟨?_, by omega⟩
  rw [show ((0 : Int)) = ((0 : Nat) : Int) from rfl, Int.natCast_inj, Nat.or_eq_zero_iff]
  omega

theorem orCtx_eq {level dc : List Int} {p lim n : Nat} (hl : p + n ≤ level.length) (hd : p + n ≤ dc.length)
    (nl : ∀ v ∈ level, 0 ≤ v) (nd : ∀ v ∈ dc, 0 ≤ v) :
    ∃ r, orCtx level dc p lim n = .ok r ∧ (r ≠ 0 ↔ ∃ v ∈ nextTo level p lim n ++ nextTo dc p lim n, v ≠ 0) := by
  unfold orCtx
  have hstep : ∀ (k : Nat) (s : Int), 0 ≤ k → k < 0 + n → (0 ≤ s ∧ (s ≠ 0 ↔ ∃ v ∈ nextTo level p lim k ++ nextTo dc p lim k, v ≠ 0)) →
      ∃ s', (if (p : Int) + k < lim then (do
        let v ← goGet level ((p : Int) + k)
        let u ← goGet dc ((p : Int) + k)
        pure (orI (orI s v) u) : Res Int) else pure s) = .ok s' ∧
        (0 ≤ s' ∧ (s' ≠ 0 ↔ ∃ v ∈ nextTo level p lim (k + 1) ++ nextTo dc p lim (k + 1), v ≠ 0)) := by
    intro k s _ hk ⟨h0, hs⟩
    by_cases hlt : p + k < lim
    · rw [if_pos (by omega), show (p : Int) + k = ((p + k : Nat) : Int) by omega, goGet_lt' (show p + k < level.length by omega), Res.ok_bind,
        goGet_lt' (show p + k < dc.length by omega), Res.ok_bind]
      have g1 := nl _ (List.getElem_mem (show p + k < level.length by omega))
      have g2 := nd _ (List.getElem_mem (show p + k < dc.length by omega))
      have o1 := orI_zero h0 g1
      have o2 := orI_zero o1.2 g2
      refine ⟨_, rfl, o2.2, ?_⟩
      rw [nextTo_succ, nextTo_succ, if_pos hlt, if_pos hlt, ne_eq, o2.1, o1.1]
      rw [List.getD_eq_getElem?_getD, List.getD_eq_getElem?_getD, List.getElem?_eq_getElem (show p + k < level.length by omega),
        List.getElem?_eq_getElem (show p + k < dc.length by omega)]
      generalize level[p + k] = a at *
      generalize dc[p + k] = b at *
      simp only [Option.getD_some, List.mem_append, List.mem_singleton]
      simp only [List.mem_append] at hs
      by_cases hs0 : s = 0
      · have hs' : ¬ ∃ v, (v ∈ nextTo level p lim k ∨ v ∈ nextTo dc p lim k) ∧ v ≠ 0 := by rw [← hs]; simp [hs0]
        constructor
        · intro hh
          by_cases ha : a = 0
          · exact ⟨b, by simp, fun hb => hh ⟨⟨hs0, ha⟩, hb⟩⟩
          · exact ⟨a, by simp, ha⟩
        · rintro ⟨v, hv, hne⟩ ⟨⟨-, ha⟩, hb⟩
          subst ha; subst hb
          rcases hv with (hv | rfl) | (hv | rfl)
          · exact hs' ⟨v, Or.inl hv, hne⟩
          · exact hne rfl
          · exact hs' ⟨v, Or.inr hv, hne⟩
          · exact hne rfl
      · obtain ⟨v, hv, hne⟩ := hs.mp hs0
        refine ⟨fun _ => ⟨v, ?_, hne⟩, fun _ hh => hs0 hh.1.1⟩
        rcases hv with hv | hv
        · exact Or.inl (Or.inl hv)
        · exact Or.inr (Or.inl hv)
    · rw [if_neg (by omega)]
      refine ⟨_, rfl, h0, ?_⟩
      rw [nextTo_succ, nextTo_succ, if_neg hlt, if_neg hlt, List.append_nil, List.append_nil]
      exact hs
  obtain ⟨s, e, h⟩ := forN_total (fun k (s : Int) => 0 ≤ s ∧ (s ≠ 0 ↔ ∃ v ∈ nextTo level p lim k ++ nextTo dc p lim k, v ≠ 0)) hstep
    (show (0 : Int) ≤ 0 ∧ ((0 : Int) ≠ 0 ↔ ∃ v ∈ nextTo level p lim 0 ++ nextTo dc p lim 0, v ≠ 0) from ⟨le_refl _, by simp [nextTo]⟩)
  rw [Nat.zero_add] at h
  exact ⟨s, e, h.2⟩

theorem planeLimit_eq {mi sub plane : Nat} (hs : sub ≤ 1) (he : mi % 2 = 0) : planeLimit mi sub plane = ((unitsOf mi sub plane : Nat) : Int) := by
  unfold planeLimit unitsOf
  by_cases h : plane = 0
  · rw [if_neg (by omega), if_pos h]
  · rw [if_pos (by omega), if_neg h, Nat.shiftRight_eq_div_pow]
    congr 1
    rcases (show sub = 0 ∨ sub = 1 by omega) with rfl | rfl <;> simp <;> omega

theorem busy_eq {l : List Int} (h : ∀ v ∈ l, 0 ≤ v) : busy l = (if l.foldl maxI 0 = 0 then 0 else if l.foldl maxI 0 ≤ 3 then 1 else 2) := by
  obtain ⟨h1, h2, -⟩ := foldl_max_eq l 0 (le_refl _)
  unfold busy
  have e1 : (∀ v ∈ l, v = 0) ↔ l.foldl maxI 0 = 0 := by
    rw [h1]
    exact ⟨fun hh => ⟨rfl, fun v hv => le_of_eq (hh v hv)⟩, fun hh v hv => le_antisymm (hh.2 v hv) (h v hv)⟩
  have e2 : (∀ v ∈ l, v ≤ 3) ↔ l.foldl maxI 0 ≤ 3 := by rw [h2]; simp
  simp only [e1, e2]

/-- The arrays of contexts of a plane reach the block and hold no negative entries. -/
structure CtxRow (m : List (List Int)) (plane p n : Nat) (row : List Int) : Prop where
  get : m[plane]? = some row
  len : p + n ≤ row.length
  nonneg : ∀ v ∈ row, 0 ≤ v

theorem zero_arith (a b : Int) (ha : 0 ≤ a) (hb : 0 ≤ b) :
    (if minI a 255 = 0 ∧ minI b 255 = 0 then pure 1
      else if minI a 255 = 0 ∨ minI b 255 = 0 then pure (2 + if maxI (minI a 255) (minI b 255) > 3 then 1 else 0)
      else if maxI (minI a 255) (minI b 255) ≤ 3 then pure 4
      else if minI (minI a 255) (minI b 255) ≤ 3 then pure 5
      else pure 6 : Res Nat) = .ok (match min (if a = 0 then 0 else if a ≤ 3 then 1 else 2) (if b = 0 then 0 else if b ≤ 3 then 1 else 2),
          max (if a = 0 then 0 else if a ≤ 3 then 1 else 2) (if b = 0 then 0 else if b ≤ 3 then 1 else 2) with
        | 0, 0 => 1
        | 0, 1 => 2
        | 0, _ => 3
        | 1, 1 => 4
        | 1, _ => 5
        | _, _ => 6) := by
  have e1 : (if a = 0 then 0 else if a ≤ 3 then 1 else 2 : Nat) = if minI a 255 = 0 then 0 else if minI a 255 ≤ 3 then 1 else 2 := by
    unfold minI
    by_cases hh : a ≤ 255
    · rw [if_pos hh]
    · rw [if_neg hh, if_neg (by omega), if_neg (by omega), if_neg (by omega), if_neg (by omega)]
  have e2 : (if b = 0 then 0 else if b ≤ 3 then 1 else 2 : Nat) = if minI b 255 = 0 then 0 else if minI b 255 ≤ 3 then 1 else 2 := by
    unfold minI
    by_cases hh : b ≤ 255
    · rw [if_pos hh]
    · rw [if_neg hh, if_neg (by omega), if_neg (by omega), if_neg (by omega), if_neg (by omega)]
  rw [e1, e2]
  have p1 : 0 ≤ minI a 255 := by unfold minI; split <;> omega
  have p2 : 0 ≤ minI b 255 := by unfold minI; split <;> omega
  clear e1 e2
  generalize minI a 255 = x at *
  generalize minI b 255 = y at *
  have hmx : maxI x y = max x y := by unfold maxI; split <;> omega
  have hmn : minI x y = min x y := by unfold minI; split <;> omega
  rw [hmx, hmn]
  rcases (show x = 0 ∨ (x ≠ 0 ∧ x ≤ 3) ∨ (x ≠ 0 ∧ ¬ x ≤ 3) by omega) with hx | ⟨hx, hx3⟩ | ⟨hx, hx3⟩ <;>
  rcases (show y = 0 ∨ (y ≠ 0 ∧ y ≤ 3) ∨ (y ≠ 0 ∧ ¬ y ≤ 3) by omega) with hy | ⟨hy, hy3⟩ | ⟨hy, hy3⟩ <;>
  simp only [hx, hy, if_true, if_false, true_and, and_true, false_and, and_false, true_or, or_true, false_or, or_false, *] <;>
  first
  | rfl
  | (rw [if_neg (by omega)]; rfl)
  | (rw [if_pos (by omega)]; rfl)
  | (rw [if_neg (by omega), if_pos (by omega)]; rfl)
  | (rw [if_neg (by omega), if_neg (by omega)]; rfl)

/-- **C110, all-zero flag of luma.**  For every block size, transform size, position and content of the context arrays. -/
theorem C110_all_zero_luma (c : BlkCtx) (st : CoefSt) (t x4 y4 w h bsize bw bh : Nat) (al ll : List Int)
    (hdim : txDims[t]? = some (w, h)) (hal : CtxRow st.aboveLevel 0 x4 (w / 4) al) (hll : CtxRow st.leftLevel 0 y4 (h / 4) ll)
    (hb : getPlaneResidualSize c.subX c.subY c.miSize 0 = .ok bsize) (hbw : blockWidth[bsize]? = some bw) (hbh : blockHeight[bsize]? = some bh) :
    allZeroCtx c st 0 t (w / 4) (h / 4) x4 y4 = .ok (zeroCtxLuma (decide (bw = w ∧ bh = h))
      (nextTo al x4 c.miCols (w / 4)) (nextTo ll y4 c.miRows (h / 4))) := by
  have ht : t < 19 := (List.getElem?_eq_some_iff.mp hdim).1
  have hd := dims_ok t ht
  rw [show txDims.getD t (0, 0) = (w, h) by rw [List.getD_eq_getElem?_getD, hdim]; rfl] at hd
  obtain ⟨h1, h2, -⟩ := hd
  unfold allZeroCtx
  dsimp only
  rw [Sat.tab 0 (by rw [len19.1]; exact ht), Res.ok_bind, Sat.tab 0 (by rw [len19.2.1]; exact ht), Res.ok_bind, hb, Res.ok_bind, goGet_of hbw, Res.ok_bind,
    goGet_of hbh, Res.ok_bind, goGet_of hal.get, Res.ok_bind, goGet_of hll.get, Res.ok_bind, if_pos rfl, h1, h2]
  simp only [Option.getD_some]
  rw [show planeLimit c.miCols c.subX 0 = (c.miCols : Int) from rfl, show planeLimit c.miRows c.subY 0 = (c.miRows : Int) from rfl,
    maxCtx_eq hal.len, Res.ok_bind, maxCtx_eq hll.len, Res.ok_bind]
  have na : ∀ v ∈ nextTo al x4 c.miCols (w / 4), 0 ≤ v := fun v hv => (nextTo_mem hv).elim (hal.nonneg v) (fun e => by omega)
  have nl : ∀ v ∈ nextTo ll y4 c.miRows (h / 4), 0 ≤ v := fun v hv => (nextTo_mem hv).elim (hll.nonneg v) (fun e => by omega)
  unfold zeroCtxLuma
  rw [busy_eq na, busy_eq nl]
  have pa := (foldl_max_eq (nextTo al x4 c.miCols (w / 4)) 0 (le_refl _)).2.2
  have pl := (foldl_max_eq (nextTo ll y4 c.miRows (h / 4)) 0 (le_refl _)).2.2
  generalize (nextTo al x4 c.miCols (w / 4)).foldl maxI 0 = a at *
  generalize (nextTo ll y4 c.miRows (h / 4)).foldl maxI 0 = b at *
  by_cases hcov : bw = w ∧ bh = h
  · simp [hcov]; rfl
  · rw [if_neg hcov, decide_eq_false hcov, if_neg Bool.false_ne_true]
    exact zero_arith a b pa pl


/-- **C110, all-zero flag of chroma.**  For every block, with pictures of an even number of units (all pictures of AV1). -/
theorem C110_all_zero_chroma (c : BlkCtx) (st : CoefSt) (plane t x4 y4 w h bsize bw bh : Nat) (al ll ad ld : List Int) (hpl : plane = 1 ∨ plane = 2)
    (hdim : txDims[t]? = some (w, h)) (hal : CtxRow st.aboveLevel plane x4 (w / 4) al) (hll : CtxRow st.leftLevel plane y4 (h / 4) ll)
    (had : CtxRow st.aboveDc plane x4 (w / 4) ad) (hld : CtxRow st.leftDc plane y4 (h / 4) ld)
    (hsx : c.subX ≤ 1) (hsy : c.subY ≤ 1) (hmc : c.miCols % 2 = 0) (hmr : c.miRows % 2 = 0)
    (hb : getPlaneResidualSize c.subX c.subY c.miSize plane = .ok bsize) (hbw : blockWidth[bsize]? = some bw) (hbh : blockHeight[bsize]? = some bh) :
    allZeroCtx c st plane t (w / 4) (h / 4) x4 y4 = .ok (zeroCtxChroma (decide (w * h < bw * bh))
      (nextTo al x4 (unitsOf c.miCols c.subX plane) (w / 4) ++ nextTo ad x4 (unitsOf c.miCols c.subX plane) (w / 4))
      (nextTo ll y4 (unitsOf c.miRows c.subY plane) (h / 4) ++ nextTo ld y4 (unitsOf c.miRows c.subY plane) (h / 4))) := by
  have ht : t < 19 := (List.getElem?_eq_some_iff.mp hdim).1
  have hd := dims_ok t ht
  rw [show txDims.getD t (0, 0) = (w, h) by rw [List.getD_eq_getElem?_getD, hdim]; rfl] at hd
  obtain ⟨h1, h2, -⟩ := hd
  unfold allZeroCtx
  dsimp only
  rw [Sat.tab 0 (by rw [len19.1]; exact ht), Res.ok_bind, Sat.tab 0 (by rw [len19.2.1]; exact ht), Res.ok_bind, hb, Res.ok_bind, goGet_of hbw, Res.ok_bind,
    goGet_of hbh, Res.ok_bind, goGet_of hal.get, Res.ok_bind, goGet_of hll.get, Res.ok_bind, if_neg (by omega), goGet_of had.get, Res.ok_bind,
    goGet_of hld.get, Res.ok_bind, h1, h2, planeLimit_eq hsx hmc, planeLimit_eq hsy hmr]
  obtain ⟨r1, e1, g1⟩ := orCtx_eq (lim := unitsOf c.miCols c.subX plane) hal.len had.len hal.nonneg had.nonneg
  obtain ⟨r2, e2, g2⟩ := orCtx_eq (lim := unitsOf c.miRows c.subY plane) hll.len hld.len hll.nonneg hld.nonneg
  rw [e1, Res.ok_bind, e2, Res.ok_bind]
  unfold zeroCtxChroma
  simp only [← g1, ← g2]
  show Except.ok _ = _
  congr 1
  by_cases hgt : w * h < bw * bh
  · rw [if_pos (show bw * bh > w * h from hgt), decide_eq_true hgt, if_pos rfl]; omega
  · rw [if_neg (show ¬ bw * bh > w * h from hgt), decide_eq_false hgt, if_neg Bool.false_ne_true]; omega

/-- **C110, sign of the first coefficient.** -/
theorem C110_dc_sign (c : BlkCtx) (st : CoefSt) (plane x4 y4 w4 h4 : Nat) (ad ld : List Int)
    (had : CtxRow st.aboveDc plane x4 w4 ad) (hld : CtxRow st.leftDc plane y4 h4 ld)
    (hsx : c.subX ≤ 1) (hsy : c.subY ≤ 1) (hmc : c.miCols % 2 = 0) (hmr : c.miRows % 2 = 0) :
    dcSignCtx c st plane w4 h4 x4 y4 = .ok (signCtx
      (nextTo ad x4 (unitsOf c.miCols c.subX plane) w4 ++ nextTo ld y4 (unitsOf c.miRows c.subY plane) h4)) := by
  unfold dcSignCtx
  rw [goGet_of had.get, Res.ok_bind, goGet_of hld.get, Res.ok_bind, planeLimit_eq hsx hmc, planeLimit_eq hsy hmr, dcSum_eq 0 had.len, Res.ok_bind,
    dcSum_eq _ hld.len, Res.ok_bind]
  unfold signCtx
  rw [List.count_append, List.count_append]
  generalize List.count 1 (nextTo ad _ _ _) = a1
  generalize List.count 2 (nextTo ad _ _ _) = a2
  generalize List.count 1 (nextTo ld _ _ _) = b1
  generalize List.count 2 (nextTo ld _ _ _) = b2
  show Except.ok _ = _
  congr 1
  by_cases h0 : a1 + b1 = a2 + b2
  · rw [if_pos h0, if_neg (by omega), if_neg (by omega)]
  · rw [if_neg h0]
    by_cases h1 : a2 + b2 < a1 + b1
    · rw [if_pos h1, if_pos (by omega)]
    · rw [if_neg h1, if_neg (by omega), if_pos (by omega)]

/-! ## Levels -/

theorem absI_nat (v : Int) : absI v = (v.natAbs : Int) := by unfold absI; split <;> omega

theorem levelAt_get {quant : List Int} {W H row col : Nat} (hq : W * H ≤ quant.length) (hr : row < H) (hc : col < W) :
    goGet quant ((row * W + col : Nat) : Int) = .ok (levelAt quant W row col) := by
  have : row * W + col < quant.length := by
    have : (row + 1) * W ≤ H * W := Nat.mul_le_mul_right _ hr
    rw [Nat.add_mul, Nat.one_mul] at this
    rw [Nat.mul_comm W H] at hq
    omega
  exact Sat.tab 0 this

theorem baseMag_eq {quant : List Int} {b H row col : Nat} (hq : 2 ^ b * H ≤ quant.length) (l : List (Nat × Nat)) (acc : Nat) :
    baseMag quant ((2 ^ b : Nat) : Int) (H : Int) (b : Int) (row : Int) (col : Int) (l.map (fun d => ((d.1 : Int), (d.2 : Int)))) (acc : Int) =
      .ok ((acc + magnitude (levelAt quant (2 ^ b)) (2 ^ b) H row col 3 l : Nat) : Int) := by
  induction l generalizing acc with
  | nil => simp [baseMag, magnitude]
  | cons d l ih =>
    rw [List.map_cons, baseMag]
    have hm : magnitude (levelAt quant (2 ^ b)) (2 ^ b) H row col 3 (d :: l) =
      (if row + d.1 < H ∧ col + d.2 < 2 ^ b then min (levelAt quant (2 ^ b) (row + d.1) (col + d.2)).natAbs 3 else 0) +
        magnitude (levelAt quant (2 ^ b)) (2 ^ b) H row col 3 l := by
      simp [magnitude]
    rw [hm]
    by_cases hin : row + d.1 < H ∧ col + d.2 < 2 ^ b
    · rw [if_pos (by omega), if_pos hin]
      rw [Int.toNat_natCast, Int.shiftLeft_eq, show ((row : Int) + d.1) * 2 ^ b + ((col : Int) + d.2) = (((row + d.1) * 2 ^ b + (col + d.2) : Nat) : Int) by push_cast; ring,
        levelAt_get hq hin.1 hin.2, Res.ok_bind]
      have : (acc : Int) + minI (absI (levelAt quant (2 ^ b) (row + d.1) (col + d.2))) 3 =
          ((acc + min (levelAt quant (2 ^ b) (row + d.1) (col + d.2)).natAbs 3 : Nat) : Int) := by
        rw [absI_nat]; unfold minI; split <;> omega
      rw [this, ih]
      congr 1; omega
    · rw [if_neg (by omega), if_neg hin, ih]
      congr 1; omega

theorem brMag_eq {quant : List Int} {W H row col : Nat} (hq : W * H ≤ quant.length) (hn : ∀ v ∈ quant, 0 ≤ v) (l : List (Nat × Nat)) (acc : Nat) :
    brMag quant (W : Int) (H : Int) (W : Int) (row : Int) (col : Int) (l.map (fun d => ((d.1 : Int), (d.2 : Int)))) (acc : Int) =
      .ok ((acc + magnitude (levelAt quant W) W H row col 15 l : Nat) : Int) := by
  induction l generalizing acc with
  | nil => simp [brMag, magnitude]
  | cons d l ih =>
    rw [List.map_cons, brMag]
    have hm : magnitude (levelAt quant W) W H row col 15 (d :: l) =
      (if row + d.1 < H ∧ col + d.2 < W then min (levelAt quant W (row + d.1) (col + d.2)).natAbs 15 else 0) +
        magnitude (levelAt quant W) W H row col 15 l := by
      simp [magnitude]
    rw [hm]
    by_cases hin : row + d.1 < H ∧ col + d.2 < W
    · rw [if_pos (by omega), if_pos hin]
      rw [show ((row : Int) + d.1) * (W : Int) + ((col : Int) + d.2) = (((row + d.1) * W + (col + d.2) : Nat) : Int) by push_cast; ring,
        levelAt_get hq hin.1 hin.2, Res.ok_bind]
      have h0 : 0 ≤ levelAt quant W (row + d.1) (col + d.2) := by
        unfold levelAt
        rw [List.getD_eq_getElem?_getD]
        cases e : quant[(row + d.1) * W + (col + d.2)]? with
        | none => exact le_refl _
        | some v => exact hn v (List.mem_of_getElem? e)
      have : (acc : Int) + minI (levelAt quant W (row + d.1) (col + d.2)) 15 =
          ((acc + min (levelAt quant W (row + d.1) (col + d.2)).natAbs 15 : Nat) : Int) := by
        unfold minI; split <;> omega
      rw [this, ih]
      congr 1; omega
    · rw [if_neg (by omega), if_neg hin, ih]
      congr 1; omega

theorem offs_spec : ∀ ty : Nat, ty < 16 → sigRefDiffOffset[getTxClass (ty : Int)]? = some ((baseNeighbours (txCls ty)).map (fun d => ((d.1 : Int), (d.2 : Int)))) ∧
    magRefOffset[getTxClass (ty : Int)]? = some ((brNeighbours (txCls ty)).map (fun d => ((d.1 : Int), (d.2 : Int)))) := by decide

theorem base_table (t : Nat) (ht : t < 19) (row : Nat) (hr5 : row < 5) (col : Nat) (hc5 : col < 5) (hr : row < cH t) (hc : col < cW t) :
    at2 (coeffBaseCtxOffset.getD t []) row col = some (baseOffset (txDims.getD t (0, 0)).1 (txDims.getD t (0, 0)).2 row col) := by
  have key : ∀ t < 19, ∀ row < 5, ∀ col < 5, (!decide (row < cH t ∧ col < cW t) || decide (at2 (coeffBaseCtxOffset.getD t []) row col =
    some (baseOffset (txDims.getD t (0, 0)).1 (txDims.getD t (0, 0)).2 row col))) = true := by decide +kernel
  have := key t ht row hr5 col hc5
  rw [decide_eq_true ⟨hr, hc⟩] at this
  simpa using this

theorem baseOffset_cap (w h row col : Nat) : baseOffset w h (min row 4) (min col 4) = baseOffset w h row col := by
  unfold baseOffset
  by_cases h1 : row ≤ 4 <;> by_cases h2 : col ≤ 4
  · rw [Nat.min_eq_left h1, Nat.min_eq_left h2]
  · rw [Nat.min_eq_left h1, Nat.min_eq_right (by omega)]
    by_cases a : w < h ∧ row < 2 <;> simp [a, show ¬ col < 2 by omega, show col ≠ 0 by omega, show ¬ row + col < 2 by omega, show ¬ row + col < 4 by omega]
  · rw [Nat.min_eq_right (by omega), Nat.min_eq_left h2]
    by_cases a : h < w ∧ col < 2 <;> simp [a, show ¬ row < 2 by omega, show row ≠ 0 by omega, show ¬ row + col < 2 by omega, show ¬ row + col < 4 by omega, show 2 ≤ 4 + col by omega]
  · rw [Nat.min_eq_right (by omega), Nat.min_eq_right (by omega)]
    simp [show ¬ row < 2 by omega, show ¬ col < 2 by omega, show row ≠ 0 by omega, show ¬ row + col < 2 by omega, show ¬ row + col < 4 by omega]

theorem pos_split {b row col : Nat} (hc : col < 2 ^ b) : (((row * 2 ^ b + col : Nat) : Int) >>> b = (row : Int)) ∧
    ((row * 2 ^ b + col : Nat) : Int) - ((row : Int) <<< b) = (col : Int) := by
  constructor
  · rw [Int.shiftRight_eq_div_pow]
    have : (row * 2 ^ b + col) / 2 ^ b = row := by
      rw [Nat.mul_comm, Nat.mul_add_div (by positivity), Nat.div_eq_of_lt hc]; omega
    exact_mod_cast this
  · rw [Int.shiftLeft_eq]; push_cast; omega

theorem half_nat (m cap : Nat) : minI (((m : Int) + 1) >>> (1 : Nat)) (cap : Int) = ((min ((m + 1) / 2) cap : Nat) : Int) := by
  rw [Int.shiftRight_eq_div_pow]
  unfold minI
  split <;> omega

/-- **C110, base levels.**  For every transform size and type, position and levels decoded so far. -/
theorem C110_base (c : BlkCtx) (st : CoefSt) (plane t x4 y4 w h cw ch ty row col : Nat) (k : Int) (hdim : txDims[t]? = some (w, h))
    (harea : codedArea[t]? = some (cw, ch)) (hty : computeTxType c st.txTypes plane t x4 y4 = .ok (ty : Int)) (hty16 : ty < 16)
    (hq : cw * ch ≤ st.quant.length) (hr : row < ch) (hc : col < cw) :
    getCoeffBaseCtx c st t plane x4 y4 ((row * cw + col : Nat) : Int) k false =
      .ok ((baseCtx (txCls ty) w h cw ch (levelAt st.quant cw) row col : Nat) : Int) := by
  have ht : t < 19 := (List.getElem?_eq_some_iff.mp hdim).1
  have hw : cW t = cw ∧ cH t = ch := by unfold cW cH; rw [List.getD_eq_getElem?_getD, harea]; exact ⟨rfl, rfl⟩
  obtain ⟨b, hb, hcw, -, hch, hadj, -⟩ := adj_eq t ht
  rw [hw.1] at hcw
  rw [hw.2] at hch
  subst hcw
  unfold getCoeffBaseCtx
  rw [Sat.tab 0 (by rw [len19.2.2.2.2.2.2.1]; exact ht), Res.ok_bind, Sat.tab 0 (by rw [len19.2.2.2.2.1]; exact hadj), Res.ok_bind,
    Sat.tab 0 (by rw [len19.2.1]; exact hadj), Res.ok_bind, hb, hch, hty, Res.ok_bind, if_neg Bool.false_ne_true]
  dsimp only
  rw [(pos_split hc).1, (pos_split hc).2, goGet_of (offs_spec ty hty16).1, Res.ok_bind,
    show ((1 <<< b : Nat) : Int) = ((2 ^ b : Nat) : Int) by rw [Nat.one_shiftLeft]]
  have hm := baseMag_eq (row := row) (col := col) hq (baseNeighbours (txCls ty)) 0
  rw [show (((0 : Nat) : Int)) = 0 from rfl, Nat.zero_add] at hm
  rw [hm, Res.ok_bind, cls_ok ty hty16, show (4 : Int) = ((4 : Nat) : Int) from rfl, half_nat]
  unfold baseCtx
  cases hcls : txCls ty with
  | twoD =>
    dsimp only
    rw [if_pos rfl]
    by_cases h0 : row = 0 ∧ col = 0
    · rw [if_pos (by omega), if_pos h0]; rfl
    · rw [if_neg (by omega), if_neg h0, Sat.tab [] (by rw [len19.2.2.2.2.2.2.2]; exact ht), Res.ok_bind]
      have mi : ∀ x : Nat, minI (x : Int) ((4 : Nat) : Int) = ((min x 4 : Nat) : Int) := by intro x; unfold minI; split <;> omega
      rw [mi, mi]
      have hbt := base_table t ht (min row 4) (by omega) (min col 4) (by omega) (by rw [hw.2]; omega) (by rw [hw.1]; omega)
      rw [gget_at2 hbt, Res.ok_bind, baseOffset_cap, show txDims.getD t (0, 0) = (w, h) by rw [List.getD_eq_getElem?_getD, hdim]; rfl]
      show Except.ok _ = _
      congr 1
  | horiz =>
    dsimp only
    rw [if_neg (by omega), if_neg (by omega)]
    have mi : minI (col : Int) 2 = ((min col 2 : Nat) : Int) := by unfold minI; split <;> omega
    have tab : ∀ k : Nat, k < 3 → coeffBasePosCtxOffset[k]? = some (26 + 5 * k) := by decide
    rw [mi, goGet_of (tab _ (by omega)), Res.ok_bind]
    show Except.ok _ = _
    congr 1; push_cast; ring
  | vert =>
    dsimp only
    rw [if_neg (by omega), if_pos rfl]
    have mi : minI (row : Int) 2 = ((min row 2 : Nat) : Int) := by unfold minI; split <;> omega
    have tab : ∀ k : Nat, k < 3 → coeffBasePosCtxOffset[k]? = some (26 + 5 * k) := by decide
    rw [mi, goGet_of (tab _ (by omega)), Res.ok_bind]
    show Except.ok _ = _
    congr 1; push_cast; ring

/-- **C110, the base level of the last coefficient.** -/
theorem C110_last (c : BlkCtx) (st : CoefSt) (plane t x4 y4 cw ch k : Nat) (ty pos : Int)
    (harea : codedArea[t]? = some (cw, ch)) (hty : computeTxType c st.txTypes plane t x4 y4 = .ok ty) :
    getCoeffBaseCtx c st t plane x4 y4 pos (k : Int) true = .ok ((lastCtx (cw * ch) k : Nat) + 42 - 4 : Int) := by
  have ht : t < 19 := (List.getElem?_eq_some_iff.mp harea).1
  have hw : cW t = cw ∧ cH t = ch := by unfold cW cH; rw [List.getD_eq_getElem?_getD, harea]; exact ⟨rfl, rfl⟩
  obtain ⟨b, hb, hcw, -, hch, hadj, -⟩ := adj_eq t ht
  rw [hw.1] at hcw
  rw [hw.2] at hch
  subst hcw
  unfold getCoeffBaseCtx
  rw [Sat.tab 0 (by rw [len19.2.2.2.2.2.2.1]; exact ht), Res.ok_bind, Sat.tab 0 (by rw [len19.2.2.2.2.1]; exact hadj), Res.ok_bind,
    Sat.tab 0 (by rw [len19.2.1]; exact hadj), Res.ok_bind, hb, hch, hty, Res.ok_bind, if_pos rfl]
  show Except.ok _ = _
  congr 1
  unfold eobBaseCtx lastCtx
  rw [Int.toNat_natCast, Int.shiftLeft_eq, show ((ch : Int) * 2 ^ b) = ((2 ^ b * ch : Nat) : Int) by push_cast; ring]
  generalize 2 ^ b * ch = n
  by_cases h0 : k = 0
  · rw [if_pos (by omega), if_pos h0]; rfl
  · rw [if_neg (by omega), if_neg h0]
    by_cases h1 : k ≤ n / 8
    · rw [if_pos (by omega), if_pos h1]; rfl
    · rw [if_neg (by omega), if_neg h1]
      by_cases h2 : k ≤ n / 4
      · rw [if_pos (by omega), if_pos h2]; rfl
      · rw [if_neg (by omega), if_neg h2]; rfl

/-- **C110, increments of levels.**  For every transform size and type, position and levels (not negative before the signs are read). -/
theorem C110_br (c : BlkCtx) (st : CoefSt) (plane t x4 y4 cw ch ty row col : Nat)
    (harea : codedArea[t]? = some (cw, ch)) (hty : computeTxType c st.txTypes plane t x4 y4 = .ok (ty : Int)) (hty16 : ty < 16)
    (hq : cw * ch ≤ st.quant.length) (hn : ∀ v ∈ st.quant, 0 ≤ v) (hc : col < cw) :
    coeffBrCtx c st t ((row * cw + col : Nat) : Int) plane x4 y4 =
      .ok ((brCtx (txCls ty) cw ch (levelAt st.quant cw) row col : Nat) : Int) := by
  have ht : t < 19 := (List.getElem?_eq_some_iff.mp harea).1
  have hw : cW t = cw ∧ cH t = ch := by unfold cW cH; rw [List.getD_eq_getElem?_getD, harea]; exact ⟨rfl, rfl⟩
  obtain ⟨b, hb, hcw, hcw', hch, hadj, -⟩ := adj_eq t ht
  rw [hw.1] at hcw hcw'
  rw [hw.2] at hch
  unfold coeffBrCtx
  rw [Sat.tab 0 (by rw [len19.2.2.2.2.2.2.1]; exact ht), Res.ok_bind, Sat.tab 0 (by rw [len19.2.2.2.2.1]; exact hadj), Res.ok_bind,
    Sat.tab 0 (by rw [len19.1]; exact hadj), Res.ok_bind, Sat.tab 0 (by rw [len19.2.1]; exact hadj), Res.ok_bind, hb, hch, hcw', hty]
  subst hcw
  dsimp only
  rw [Res.ok_bind, (pos_split hc).1, (pos_split hc).2, goGet_of (offs_spec ty hty16).2, Res.ok_bind,
    show ((1 <<< b : Nat) : Int) = ((2 ^ b : Nat) : Int) by rw [Nat.one_shiftLeft]]
  have hm := brMag_eq (row := row) (col := col) hq hn (brNeighbours (txCls ty)) 0
  rw [show (((0 : Nat) : Int)) = 0 from rfl, Nat.zero_add] at hm
  rw [hm, Res.ok_bind, cls_ok ty hty16, show (6 : Int) = ((6 : Nat) : Int) from rfl, half_nat]
  unfold brCtx
  dsimp only
  show Except.ok _ = _
  congr 1
  have hp0 : ((row * 2 ^ b + col : Nat) : Int) = 0 ↔ row = 0 ∧ col = 0 := by
    have : (2 ^ b : Nat) ≠ 0 := by positivity
    constructor
    · intro h
      have h : row * 2 ^ b + col = 0 := by exact_mod_cast h
      have h1 : row * 2 ^ b = 0 := by omega
      exact ⟨(Nat.mul_eq_zero.mp h1).resolve_right this, by omega⟩
    · rintro ⟨rfl, rfl⟩; simp
  generalize magnitude _ _ _ _ _ _ _ = m
  by_cases h0 : row = 0 ∧ col = 0
  · rw [if_pos (hp0.mpr h0), if_pos h0]; rfl
  · rw [if_neg (fun h => h0 (hp0.mp h)), if_neg h0]
    cases hcls : txCls ty with
    | twoD =>
      dsimp only
      rw [if_pos rfl]
      by_cases hn : row < 2 ∧ col < 2
      · rw [if_pos (by omega), if_pos (by simpa using hn)]; rfl
      · rw [if_neg (by omega), if_neg (by simpa using hn)]; rfl
    | horiz =>
      dsimp only
      rw [if_neg (by omega), if_pos rfl]
      by_cases hn : col = 0
      · rw [if_pos (by omega), if_pos (by simpa using hn)]; rfl
      · rw [if_neg (by omega), if_neg (by simpa using hn)]; rfl
    | vert =>
      dsimp only
      rw [if_neg (by omega), if_neg (by omega)]
      by_cases hn : row = 0
      · rw [if_pos (by omega), if_pos (by simpa using hn)]; rfl
      · rw [if_neg (by omega), if_neg (by simpa using hn)]; rfl


/-! ## Which array each symbol is read with -/

/-- The program begins by reading a symbol with the array `name` at the indices `idx`. -/
def Asks {α : Type} (p : Rd α) (name : String) (idx : List Int) : Prop := ∃ k, p = Rd.sym name idx k

theorem Asks.read {α : Type} (name : String) (idx : List Int) (f : Nat → Rd α) : Asks (Rd.read name idx >>= f) name idx := ⟨f, rfl⟩

theorem lift_ok_bind {α β : Type} {r : Res α} {a : α} (h : r = .ok a) (f : α → Rd β) : (Rd.lift r >>= f) = f a := by rw [h]; rfl

/-- **C110, arrays of the base levels.**  The base level of a coefficient that is not the last, and of the last one. -/
theorem C110_base_array (c : BlkCtx) (st : CoefSt) (plane t x4 y4 w h cw ch ty row col ptype sc : Nat) (k : Nat) (hdim : txDims[t]? = some (w, h))
    (harea : codedArea[t]? = some (cw, ch)) (hty : computeTxType c st.txTypes plane t x4 y4 = .ok (ty : Int)) (hty16 : ty < 16)
    (hq : cw * ch ≤ st.quant.length) (hr : row < ch) (hc : col < cw) :
    Asks (readBase c st t plane x4 y4 sc ptype ((row * cw + col : Nat) : Int) k false) "CoeffBase"
      [(sc : Int), ptype, (baseCtx (txCls ty) w h cw ch (levelAt st.quant cw) row col : Nat)] ∧
    Asks (readBase c st t plane x4 y4 sc ptype ((row * cw + col : Nat) : Int) k true) "CoeffBaseEob"
      [(sc : Int), ptype, (lastCtx (cw * ch) k : Nat)] := by
  constructor
  · unfold readBase
    rw [lift_ok_bind (C110_base c st plane t x4 y4 w h cw ch ty row col k hdim harea hty hty16 hq hr hc), if_neg Bool.false_ne_true]
    exact Asks.read _ _ _
  · unfold readBase
    rw [lift_ok_bind (C110_last c st plane t x4 y4 cw ch k _ _ harea hty), if_pos rfl,
      show ((lastCtx (cw * ch) k : Nat) + 42 - 4 : Int) - 42 + 4 = (lastCtx (cw * ch) k : Nat) by omega]
    exact Asks.read _ _ _

/-- **C110, arrays of the increments**: read if and only if the base level is 3. -/
theorem C110_br_array (c : BlkCtx) (st : CoefSt) (plane t x4 y4 cw ch ty row col sc ptype : Nat) (level : Int)
    (harea : codedArea[t]? = some (cw, ch)) (hty : computeTxType c st.txTypes plane t x4 y4 = .ok (ty : Int)) (hty16 : ty < 16)
    (hq : cw * ch ≤ st.quant.length) (hn : ∀ v ∈ st.quant, 0 ≤ v) (hc : col < cw) :
    (level ≤ 2 → readBr c st t ((row * cw + col : Nat) : Int) plane x4 y4 sc ptype level = Rd.ret level) ∧
    (3 ≤ level → Asks (readBr c st t ((row * cw + col : Nat) : Int) plane x4 y4 sc ptype level) "CoeffBr"
      [((min sc 3 : Nat) : Int), ptype, (brCtx (txCls ty) cw ch (levelAt st.quant cw) row col : Nat)]) := by
  unfold readBr
  constructor
  · intro h; rw [if_neg (by omega)]
  · intro h
    rw [if_pos (by omega), brLoop, lift_ok_bind (C110_br c st plane t x4 y4 cw ch ty row col harea hty hty16 hq hn hc)]
    exact Asks.read _ _ _

/-- **C110, array of the sign**: read for the first coefficient if it is not zero. -/
theorem C110_sign_array (c : BlkCtx) (st : CoefSt) (plane x4 y4 w4 h4 ptype : Nat) (level : Int) (ad ld : List Int)
    (had : CtxRow st.aboveDc plane x4 w4 ad) (hld : CtxRow st.leftDc plane y4 h4 ld)
    (hsx : c.subX ≤ 1) (hsy : c.subY ≤ 1) (hmc : c.miCols % 2 = 0) (hmr : c.miRows % 2 = 0) (hl : level ≠ 0) :
    Asks (readSign c st plane w4 h4 x4 y4 ptype 0 level) "DcSign" [(ptype : Int), (signCtx
      (nextTo ad x4 (unitsOf c.miCols c.subX plane) w4 ++ nextTo ld y4 (unitsOf c.miRows c.subY plane) h4) : Nat)] := by
  unfold readSign
  rw [if_pos hl, if_pos rfl, lift_ok_bind (C110_dc_sign c st plane x4 y4 w4 h4 ad ld had hld hsx hsy hmc hmr)]
  exact Asks.read _ _ _

/-- The array of the class of the number of coefficients, by the size of the coded area. -/
def eobArray (n : Nat) : String :=
  if n = 16 then "EobPt16" else if n = 32 then "EobPt32" else if n = 64 then "EobPt64" else if n = 128 then "EobPt128"
  else if n = 256 then "EobPt256" else if n = 512 then "EobPt512" else "EobPt1024"

theorem eob_logs : ∀ t < 19, (min (txWidthLog2.getD t 0) 5 + min (txHeightLog2.getD t 0) 5 - 4 ≤ 4 ↔ cW t * cH t ≤ 256) ∧
    (let m := min (txWidthLog2.getD t 0) 5 + min (txHeightLog2.getD t 0) 5 - 4
     (if m ≤ 4 then (if m = 0 then "EobPt16" else if m = 1 then "EobPt32" else if m = 2 then "EobPt64" else if m = 3 then "EobPt128" else "EobPt256")
      else if m = 5 then "EobPt512" else "EobPt1024") = eobArray (cW t * cH t)) := by decide +kernel

/-- **C110, array of the number of coefficients**: by the size of the coded area; up to 256 positions also by the class of the transform. -/
theorem C110_eob_array (c : BlkCtx) (st : CoefSt) (plane t x4 y4 cw ch ty ptype : Nat)
    (harea : codedArea[t]? = some (cw, ch)) (hty : computeTxType c st.txTypes plane t x4 y4 = .ok (ty : Int)) (hty16 : ty < 16) :
    Asks (readEobPt c st plane t x4 y4 ptype) (eobArray (cw * ch))
      (if cw * ch ≤ 256 then [(ptype : Int), if txCls ty = .twoD then 0 else 1] else [(ptype : Int)]) := by
  have ht : t < 19 := (List.getElem?_eq_some_iff.mp harea).1
  have hw : cW t = cw ∧ cH t = ch := by unfold cW cH; rw [List.getD_eq_getElem?_getD, harea]; exact ⟨rfl, rfl⟩
  obtain ⟨h1, h2⟩ := eob_logs t ht
  rw [hw.1, hw.2] at h1 h2
  unfold readEobPt
  rw [lift_ok_bind (Sat.tab 0 (by rw [len19.2.2.2.2.1]; exact ht)), lift_ok_bind (Sat.tab 0 (by rw [len19.2.2.2.2.2.1]; exact ht))]
  dsimp only at h2 ⊢
  by_cases hle : cw * ch ≤ 256
  · rw [if_pos (h1.mpr hle)] at h2 ⊢
    rw [if_pos hle, h2]
    have hcx : getEobPtCtx c st plane t x4 y4 = .ok (if txCls ty = .twoD then 0 else 1) := by
      unfold getEobPtCtx
      rw [hty, Res.ok_bind, cls_ok ty hty16]
      cases txCls ty <;> rfl
    rw [lift_ok_bind hcx]
    refine ⟨fun s => Rd.ret (s + 1), ?_⟩
    cases txCls ty <;> rfl
  · rw [if_neg (fun h => hle (h1.mp h))] at h2 ⊢
    rw [if_neg hle, h2]
    exact Asks.read _ _ _

/-- **C110, array of the first of the low bits of the number of coefficients.** -/
theorem C110_eob_extra_array (sc ptype eobPt : Nat) (h : 3 ≤ eobPt) :
    Asks (readEob sc ptype eobPt) "EobExtra" [(sc : Int), ptype, ((eobPt - 3 : Nat) : Int)] := by
  unfold readEob
  dsimp only
  rw [if_neg (by omega)]
  exact Asks.read _ _ _

/-- **C110, array of the all-zero flag**: the first symbol of every block of coefficients. -/
theorem C110_all_zero_array (fuel : Nat) (c : BlkCtx) (st st' : CoefSt) (plane t w h n ctx : Nat) (sx sy : Int)
    (hdim : txDims[t]? = some (w, h)) (hn : segEob t = .ok n) (hst : clearCoefs st n = .ok st')
    (hctx : allZeroCtx c st' plane t (w / 4) (h / 4) (sx / 4) (sy / 4) = .ok ctx) :
    Asks (coeffs fuel c st plane sx sy t) "TxbSkip" [(sizeClass w h : Int), (ctx : Int)] := by
  have ht : t < 19 := (List.getElem?_eq_some_iff.mp hdim).1
  have hd := dims_ok t ht
  rw [show txDims.getD t (0, 0) = (w, h) by rw [List.getD_eq_getElem?_getD, hdim]; rfl] at hd
  obtain ⟨h1, h2, h3⟩ := hd
  unfold coeffs
  dsimp only at h3 ⊢
  rw [lift_ok_bind (Sat.tab 0 (by rw [len19.1]; exact ht)), lift_ok_bind (Sat.tab 0 (by rw [len19.2.1]; exact ht)),
    lift_ok_bind (Sat.tab 0 (by rw [len19.2.2.1]; exact ht)), lift_ok_bind (Sat.tab 0 (by rw [len19.2.2.2.1]; exact ht)),
    lift_ok_bind hn, lift_ok_bind hst, h1, h2, h3]
  have e4 : ∀ x : Int, x >>> (2 : Nat) = x / 4 := fun x => Int.shiftRight_eq_div_pow x 2
  have n4 : ∀ x : Nat, x >>> 2 = x / 4 := fun x => Nat.shiftRight_eq_div_pow x 2
  rw [e4, e4, n4, n4, lift_ok_bind hctx]
  exact Asks.read _ _ _

/-! A 8x8 luma block coded as four 4x4 transforms, with a weak level above and nothing to the left. -/

/-- Context arrays for the examples. -/
def exCtxSt : CoefSt :=
  { quant := [5, 0, -2] ++ List.replicate 1021 0, txTypes := [[0, 0], [0, 0]], aboveLevel := [[2, 0], [0, 0], [0, 0]], leftLevel := [[0, 0], [0, 0], [0, 0]]
    aboveDc := [[1, 0], [0, 0], [0, 2]], leftDc := [[0, 0], [0, 0], [0, 0]] }

example : allZeroCtx { miRows := 2, miCols := 2, miSize := 3 } exCtxSt 0 0 1 1 0 0 = .ok 2 := by
  have := C110_all_zero_luma { miRows := 2, miCols := 2, miSize := 3 } exCtxSt 0 0 0 4 4 3 8 8 [2, 0] [0, 0] rfl
    ⟨rfl, by decide, by decide⟩ ⟨rfl, by decide, by decide⟩ rfl rfl rfl
  exact this.trans (by decide +kernel)

example : allZeroCtx { miRows := 2, miCols := 2, miSize := 3 } exCtxSt 2 0 1 1 1 0 = .ok 11 := by
  have := C110_all_zero_chroma { miRows := 2, miCols := 2, miSize := 3 } exCtxSt 2 0 1 0 4 4 3 8 8 [0, 0] [0, 0] [0, 2] [0, 0] (Or.inr rfl) rfl
    ⟨rfl, by decide, by decide⟩ ⟨rfl, by decide, by decide⟩ ⟨rfl, by decide, by decide⟩ ⟨rfl, by decide, by decide⟩ (by decide) (by decide) rfl rfl rfl rfl rfl
  exact this.trans (by decide +kernel)

example : dcSignCtx { miRows := 2, miCols := 2, miSize := 3 } exCtxSt 0 1 1 0 0 = .ok 1 := by
  have := C110_dc_sign { miRows := 2, miCols := 2, miSize := 3 } exCtxSt 0 0 0 1 1 [1, 0] [0, 0]
    ⟨rfl, by decide, by decide⟩ ⟨rfl, by decide, by decide⟩ (by decide) (by decide) rfl rfl
  exact this.trans (by decide +kernel)

example : Asks (readBase { miRows := 2, miCols := 2, miSize := 3 } exCtxSt 0 0 0 0 0 0 1 1 false) "CoeffBase" [0, 0, 2] :=
  (C110_base_array { miRows := 2, miCols := 2, miSize := 3 } exCtxSt 0 0 0 0 4 4 4 4 0 0 1 0 0 1 rfl rfl rfl (by decide) (by decide +kernel) (by decide) (by decide)).1

example : ∃ n st', segEob 0 = .ok n ∧ clearCoefs { exCtxSt with dequant := List.replicate 64 (List.replicate 64 0) } n = .ok st' ∧
    Asks (coeffs 5 { miRows := 2, miCols := 2, miSize := 3 } { exCtxSt with dequant := List.replicate 64 (List.replicate 64 0) } 0 0 0 0) "TxbSkip" [0, 2] := by
  have hs : ∃ st', clearCoefs { exCtxSt with dequant := List.replicate 64 (List.replicate 64 0) } 16 = .ok st' ∧
      st'.aboveLevel = [[2, 0], [0, 0], [0, 0]] ∧ st'.leftLevel = [[0, 0], [0, 0], [0, 0]] := by
    have hb : (match clearCoefs { exCtxSt with dequant := List.replicate 64 (List.replicate 64 0) } 16 with
        | .ok s => decide (s.aboveLevel = [[2, 0], [0, 0], [0, 0]]) && decide (s.leftLevel = [[0, 0], [0, 0], [0, 0]])
        | .error _ => false) = true := by decide +kernel
    generalize clearCoefs { exCtxSt with dequant := List.replicate 64 (List.replicate 64 0) } 16 = r at hb
    match r, hb with
    | .ok s, hb => exact ⟨s, rfl, by simpa using hb⟩
  obtain ⟨st', h, h1, h2⟩ := hs
  refine ⟨16, st', rfl, h, ?_⟩
  refine C110_all_zero_array 5 _ _ st' 0 0 4 4 16 2 0 0 rfl rfl h ?_
  have := C110_all_zero_luma { miRows := 2, miCols := 2, miSize := 3 } st' 0 0 0 4 4 3 8 8 [2, 0] [0, 0] rfl
    ⟨by rw [h1]; rfl, by decide, by decide⟩ ⟨by rw [h2]; rfl, by decide, by decide⟩ rfl rfl rfl
  exact this.trans (by decide +kernel)

end Gov1
