import Verif.Props.Residual
import Verif.Props.Upscale
import Verif.Props.CdefDir
import Verif.Spec.Residual
/-!
# C117-C120: order of the transform blocks, their bookkeeping, palette prediction, chroma from luma
-/
namespace Gov1
open Spec

/-! ## Order -/

/-- Blocks that are not read as a transform tree: the calls of a plane. -/
theorem plane_raster {cx : ResCtx} {bw bh plane : Nat} (hs : cx.miSize < 22) (hd : sizeDims cx.miSize = some (bw, bh)) (hsub : SubOk cx.subX cx.subY bw bh)
    (hp3 : plane < 3) {tw th : Nat} (ht : txDims cx.txSize = some (4 * tw, 4 * th)) (htw : 0 < tw) (hth : 0 < th) (hwd : 4 * tw ∣ bw) (hhd : 4 * th ∣ bh)
    (hi : ¬ (cx.isInter = true ∧ cx.lossless = false)) :
    ∃ t w h n m, planeTxSize cx plane = .ok t ∧ txDims t = some (4 * w, 4 * h) ∧ 0 < w ∧ 0 < h ∧
      planeExtent (if plane > 0 then cx.subX else 0) bw = 4 * (n * w) ∧ planeExtent (if plane > 0 then cx.subY else 0) bh = 4 * (m * h) ∧
      planeCalls cx cx.miSize 0 0 plane = .ok ((List.range m).flatMap fun i => (List.range n).map fun j =>
        ⟨plane, 4 * (cx.miCol >>> (if plane > 0 then cx.subX else 0)), 4 * (cx.miRow >>> (if plane > 0 then cx.subY else 0)), t, j * w, i * h⟩) := by
  have cdiv : ∀ s k : Nat, 0 < s → (s * k + s - 1) / s = k := by
    intro s k hs
    rw [Nat.div_eq_iff hs]
    have : s * k = k * s := Nat.mul_comm _ _
    omega
  have hi' : ¬ (cx.isInter = true ∧ (!cx.lossless) = true ∧ plane = 0) := fun h => hi ⟨h.1, by simpa using h.2.1⟩
  by_cases hp : 0 < plane
  · obtain ⟨txSz, w, h, p, w4, h4, e1, e2, e3, e4, e5, e6, e7, e8, e9, e10, e11, ⟨n, e12⟩, ⟨m, e13⟩⟩ := chroma_use hs hd hsub hp hp3
    refine ⟨txSz, w >>> 2, h >>> 2, n, m, e1, e11, e9, e10, ?_, ?_, ?_⟩
    · rw [if_pos hp, e7, e12, Nat.mul_comm n]
    · rw [if_pos hp, e8, e13, Nat.mul_comm m]
    unfold planeCalls
    rw [e1, Res.ok_bind, e2, Res.ok_bind, e3, Res.ok_bind, e4, Res.ok_bind, e5, Res.ok_bind, e6, Res.ok_bind]
    dsimp only
    rw [if_neg hi', if_pos hp, if_pos hp, e12, e13]
    unfold rasterCalls
    rw [cdiv _ _ e9, cdiv _ _ e10]
    simp only [Nat.zero_shiftLeft, Nat.zero_shiftRight, Nat.add_zero, Nat.mul_comm _ 4]
    rfl
  · obtain rfl : plane = 0 := by omega
    obtain ⟨a, b, e1, e2, e3, rfl, rfl, h1, h2, h3, h4⟩ := luma_use hs hd hsub
    have key : ∃ txSz w h, planeTxSize cx 0 = .ok txSz ∧ goGet txWidth (txSz : Int) = .ok (4 * w) ∧ goGet txHeight (txSz : Int) = .ok (4 * h) ∧ txDims txSz = some (4 * w, 4 * h) ∧ 0 < w ∧ 0 < h ∧ w ∣ 2 ^ a ∧ h ∣ 2 ^ b := by
      unfold planeTxSize
      cases hl : cx.lossless
      · have d1 := ht
        unfold txDims at d1
        rw [Option.bind_eq_some_iff] at d1
        obtain ⟨x, hx, d1⟩ := d1
        rw [Option.map_eq_some_iff] at d1
        obtain ⟨y, hy, d1⟩ := d1
        injection d1 with d1 d2
        subst d1 d2
        exact ⟨cx.txSize, tw, th, rfl, goGet_of' hx, goGet_of' hy, ht, htw, hth, Nat.dvd_of_mul_dvd_mul_left (by decide) hwd, Nat.dvd_of_mul_dvd_mul_left (by decide) hhd⟩
      · exact ⟨0, 1, 1, rfl, rfl, rfl, rfl, by decide, by decide, one_dvd _, one_dvd _⟩
    obtain ⟨txSz, w, h, k1, k2, k3, k4, k5, k6, ⟨n, k7⟩, ⟨m, k8⟩⟩ := key
    have s1 : (4 * w) >>> 2 = w := by rw [Nat.shiftRight_eq_div_pow]; omega
    have s2 : (4 * h) >>> 2 = h := by rw [Nat.shiftRight_eq_div_pow]; omega
    refine ⟨txSz, w, h, n, m, k1, k4, k5, k6, ?_, ?_, ?_⟩
    · rw [k7, Nat.mul_comm n]; rfl
    · rw [k8, Nat.mul_comm m]; rfl
    unfold planeCalls
    rw [k1, Res.ok_bind, k2, Res.ok_bind, k3, Res.ok_bind, e1, Res.ok_bind, e2, Res.ok_bind, e3, Res.ok_bind, s1, s2]
    dsimp only
    rw [if_neg hi', k7, k8]
    unfold rasterCalls
    rw [cdiv _ _ k5, cdiv _ _ k6]
    simp only [Nat.zero_shiftLeft, Nat.add_zero, Nat.mul_comm _ 4, gt_iff_lt, Nat.lt_irrefl, if_false, Nat.shiftRight_zero]
    rfl

/-- Plane, left and top pixel of a call. -/
def TxCall.start (c : TxCall) : Nat × Nat × Nat := (c.plane, c.baseX + 4 * c.x, c.baseY + 4 * c.y)

/-- Plane `plane` of a block, with the transform size the decoder chose. -/
def ResCtx.area (cx : ResCtx) (bw bh plane : Nat) (d : Nat × Nat) : PlaneArea where
  x0 := 4 * (cx.miCol >>> (if plane > 0 then cx.subX else 0))
  y0 := 4 * (cx.miRow >>> (if plane > 0 then cx.subY else 0))
  w := planeExtent (if plane > 0 then cx.subX else 0) bw
  h := planeExtent (if plane > 0 then cx.subY else 0) bh
  tw := d.1
  th := d.2
  cw := planeExtent (if plane > 0 then cx.subX else 0) 64
  ch := planeExtent (if plane > 0 then cx.subY else 0) 64

/-- The size of the transform blocks of a plane. -/
def ResCtx.planeTx (cx : ResCtx) (plane : Nat) : Nat × Nat :=
  match planeTxSize cx plane with
  | .ok t => (txDims t).getD (0, 0)
  | .error _ => (0, 0)

theorem extent_le {s n : Nat} (h : n ≤ 64) : planeExtent s n ≤ planeExtent s 64 := by
  unfold planeExtent
  split <;> omega

/-- The order of AV1 for a block, with the transform sizes the decoder chose. -/
def ResCtx.order (cx : ResCtx) (bw bh : Nat) : List (Nat × Nat × Nat) :=
  txOrder (max 1 (bw / 64)) (max 1 (bh / 64)) ((List.range (if cx.hasChroma then 3 else 1)).map fun p => cx.area bw bh p (cx.planeTx p))

theorem plane_starts {cx : ResCtx} {bw bh plane : Nat} (hs : cx.miSize < 22) (hd : sizeDims cx.miSize = some (bw, bh)) (hsub : SubOk cx.subX cx.subY bw bh)
    (hp3 : plane < 3) {tw th : Nat} (ht : txDims cx.txSize = some (4 * tw, 4 * th)) (htw : 0 < tw) (hth : 0 < th) (hwd : 4 * tw ∣ bw) (hhd : 4 * th ∣ bh)
    (hi : ¬ (cx.isInter = true ∧ cx.lossless = false)) (hw : bw ≤ 64) (hh : bh ≤ 64) :
    ∃ l, planeCalls cx cx.miSize 0 0 plane = .ok l ∧ l.map TxCall.start = (chunkBlocks (cx.area bw bh plane (cx.planeTx plane)) 0 0).map fun p => (plane, p.1, p.2) := by
  obtain ⟨t, w, h, n, m, e1, e2, e3, e4, e5, e6, e7⟩ := plane_raster hs hd hsub hp3 ht htw hth hwd hhd hi
  refine ⟨_, e7, ?_⟩
  have ed : cx.planeTx plane = (4 * w, 4 * h) := by unfold ResCtx.planeTx; rw [e1]; simp [e2]
  have c1 : min (planeExtent (if plane > 0 then cx.subX else 0) 64) (planeExtent (if plane > 0 then cx.subX else 0) bw) / (4 * w) = n := by
    rw [Nat.min_eq_right (extent_le hw), e5, show 4 * (n * w) = n * (4 * w) by ring, Nat.mul_div_cancel _ (by omega)]
  have c2 : min (planeExtent (if plane > 0 then cx.subY else 0) 64) (planeExtent (if plane > 0 then cx.subY else 0) bh) / (4 * h) = m := by
    rw [Nat.min_eq_right (extent_le hh), e6, show 4 * (m * h) = m * (4 * h) by ring, Nat.mul_div_cancel _ (by omega)]
  unfold chunkBlocks ResCtx.area
  rw [ed]
  dsimp only
  rw [c1, c2]
  simp only [List.map_flatMap, List.map_map]
  congr 1
  funext i
  congr 1
  funext j
  simp only [Function.comp, TxCall.start, Prod.mk.injEq, true_and]
  constructor <;> ring

/-- **C117 (partial).**  In a block of at most 64x64 pixels without a transform tree the transform blocks are processed in the order
of AV1: plane by plane, in each plane row by row. -/
theorem C117_order_partial {cx : ResCtx} {bw bh : Nat} (hs : cx.miSize < 22) (hd : sizeDims cx.miSize = some (bw, bh)) (hsub : SubOk cx.subX cx.subY bw bh)
    {tw th : Nat} (ht : txDims cx.txSize = some (4 * tw, 4 * th)) (htw : 0 < tw) (hth : 0 < th) (hwd : 4 * tw ∣ bw) (hhd : 4 * th ∣ bh)
    (hi : ¬ (cx.isInter = true ∧ cx.lossless = false)) (hw : bw ≤ 64) (hh : bh ≤ 64) :
    ∃ l, residualCalls cx = .ok l ∧ l.map TxCall.start = cx.order bw bh := by
  have key : ∀ plane, plane < 3 → _ := fun plane hp => plane_starts (plane := plane) hs hd hsub hp ht htw hth hwd hhd hi hw hh
  obtain ⟨l0, e0, c0⟩ := key 0 (by decide)
  obtain ⟨l1, e1, c1⟩ := key 1 (by decide)
  obtain ⟨l2, e2, c2⟩ := key 2 (by decide)
  rw [residual_eq hs]
  have m1 : max 1 (bw / 64) = 1 := by omega
  have m2 : max 1 (bh / 64) = 1 := by omega
  unfold ResCtx.order txOrder
  rw [m1, m2]
  cases hc : cx.hasChroma
  · refine ⟨l0 ++ [], ?_, ?_⟩
    · show catLoop _ 1 0 = _
      rw [catLoop, e0]; rfl
    · rw [List.append_nil, c0]
      simp [List.range_succ]
  · refine ⟨l0 ++ (l1 ++ (l2 ++ [])), ?_, ?_⟩
    · show catLoop _ 3 0 = _
      rw [catLoop, e0, Res.ok_bind, catLoop, e1, Res.ok_bind, catLoop, e2]; rfl
    · simp only [List.append_nil, List.map_append, c0, c1, c2]
      simp [List.range_succ]

/-- The calls of a plane carry the number of the plane. -/
theorem plane_const {cx : ResCtx} {bw bh plane : Nat} (hs : cx.miSize < 22) (hd : sizeDims cx.miSize = some (bw, bh)) (hsub : SubOk cx.subX cx.subY bw bh)
    (hp3 : plane < 3) {tw th : Nat} (ht : txDims cx.txSize = some (4 * tw, 4 * th)) (htw : 0 < tw) (hth : 0 < th) (hwd : 4 * tw ∣ bw) (hhd : 4 * th ∣ bh)
    (hi : ¬ (cx.isInter = true ∧ cx.lossless = false)) :
    ∃ l, planeCalls cx cx.miSize 0 0 plane = .ok l ∧ ∀ c ∈ l.map TxCall.start, c.1 = plane := by
  obtain ⟨t, w, h, n, m, e1, e2, e3, e4, e5, e6, e7⟩ := plane_raster hs hd hsub hp3 ht htw hth hwd hhd hi
  refine ⟨_, e7, ?_⟩
  intro c hc
  obtain ⟨a, ha, rfl⟩ := List.mem_map.mp hc
  obtain ⟨i, -, ha⟩ := List.mem_flatMap.mp ha
  obtain ⟨j, -, rfl⟩ := List.mem_map.mp ha
  rfl

/-- The first transform block of a chunk. -/
theorem chunk_first {a : PlaneArea} (cy cx : Nat) (htw : 0 < a.tw) (hth : 0 < a.th) (hw : a.tw ≤ min a.cw a.w) (hh : a.th ≤ min a.ch a.h) :
    (a.x0 + cx * a.cw, a.y0 + cy * a.ch) ∈ chunkBlocks a cy cx := by
  unfold chunkBlocks
  refine List.mem_flatMap.mpr ⟨0, List.mem_range.mpr (Nat.div_pos hh hth), List.mem_map.mpr ⟨0, List.mem_range.mpr (Nat.div_pos hw htw), by simp⟩⟩

/-- The pixel is in the frame. -/
def ResCtx.inFrame (cx : ResCtx) (p : Nat × Nat × Nat) : Bool :=
  decide (p.2.1 < (4 * cx.miCols) >>> (if p.1 > 0 then cx.subX else 0) ∧ p.2.2 < (4 * cx.miRows) >>> (if p.1 > 0 then cx.subY else 0))

theorem chroma_small : ∀ (s : Fin 22) (sx sy : Fin 2), (match sizeDims s with
      | some d => decide (SubOk sx sy d.1 d.2 →
        (match getTxSize { miSize := s, subX := sx, subY := sy } 1 0 with
        | .ok t => (match txDims t with
          | some (tw, th) => decide (tw ≤ 32 ∧ th ≤ 32)
          | none => false)
        | _ => false) = true)
      | none => false) = true := by decide +kernel

theorem planeTx_small {cx : ResCtx} {bw bh : Nat} (hs : cx.miSize < 22) (hd : sizeDims cx.miSize = some (bw, bh)) (hsub : SubOk cx.subX cx.subY bw bh) :
    (cx.planeTx 1).1 ≤ 32 ∧ (cx.planeTx 1).2 ≤ 32 := by
  have hx : cx.subX < 2 := by unfold SubOk at hsub; omega
  have hy : cx.subY < 2 := by unfold SubOk at hsub; omega
  have h := chroma_small ⟨cx.miSize, hs⟩ ⟨cx.subX, hx⟩ ⟨cx.subY, hy⟩
  dsimp only at h
  rw [hd] at h
  have h := of_decide_eq_true h hsub
  have eg : getTxSize cx 1 cx.txSize = getTxSize { miSize := cx.miSize, subX := cx.subX, subY := cx.subY } 1 0 := by
    unfold getTxSize
    rfl
  unfold ResCtx.planeTx planeTxSize
  cases cx.lossless
  · simp only [Bool.false_eq_true, if_false]
    rw [eg]
    split at h
    · rename_i t ht
      rw [ht]
      dsimp only
      split at h
      · rename_i tw th e
        rw [e]
        exact of_decide_eq_true h
      · cases h
    · cases h
  · show (4 : Nat) ≤ 32 ∧ (4 : Nat) ≤ 32
    decide

/-- **C117 (refuted).**  No block with a side of 128 pixels inside the frame, with chroma and without a transform tree, is processed in
the order of AV1: the decoder processes all luma before any chroma. -/
theorem C117_order_refuted {cx : ResCtx} {bw bh : Nat} (hs : cx.miSize < 22) (hd : sizeDims cx.miSize = some (bw, bh)) (hsub : SubOk cx.subX cx.subY bw bh)
    {tw th : Nat} (ht : txDims cx.txSize = some (4 * tw, 4 * th)) (htw : 0 < tw) (hth : 0 < th) (hwd : 4 * tw ∣ bw) (hhd : 4 * th ∣ bh)
    (hi : ¬ (cx.isInter = true ∧ cx.lossless = false)) (hc : cx.hasChroma = true) (hbig : bw = 128 ∨ bh = 128)
    (hx : 4 * cx.miCol + bw ≤ 4 * cx.miCols) (hy : 4 * cx.miRow + bh ≤ 4 * cx.miRows) :
    ∃ l, residualCalls cx = .ok l ∧ (l.map TxCall.start).filter cx.inFrame ≠ (cx.order bw bh).filter cx.inFrame := by
  have key : ∀ plane, plane < 3 → _ := fun plane hp => plane_const (plane := plane) hs hd hsub hp ht htw hth hwd hhd hi
  obtain ⟨l0, e0, c0⟩ := key 0 (by decide)
  obtain ⟨l1, e1, c1⟩ := key 1 (by decide)
  obtain ⟨l2, e2, c2⟩ := key 2 (by decide)
  refine ⟨l0 ++ (l1 ++ (l2 ++ [])), ?_, ?_⟩
  · rw [residual_eq hs, hc]
    show catLoop _ 3 0 = _
    rw [catLoop, e0, Res.ok_bind, catLoop, e1, Res.ok_bind, catLoop, e2]; rfl
  -- the decoder's order is by plane
  have hsorted : ((l0 ++ (l1 ++ (l2 ++ []))).map TxCall.start).Pairwise (fun a b : Nat × Nat × Nat => a.1 ≤ b.1) := by
    rw [List.append_nil, List.map_append, List.map_append]
    have pw : ∀ (l : List (Nat × Nat × Nat)) (k : Nat), (∀ c ∈ l, c.1 = k) → l.Pairwise (fun a b : Nat × Nat × Nat => a.1 ≤ b.1) := by
      intro l k h
      rw [List.pairwise_iff_forall_sublist]
      intro a b hab
      have h1 := h a (hab.subset (by simp))
      have h2 := h b (hab.subset (by simp))
      omega
    refine List.pairwise_append.mpr ⟨pw _ 0 c0, List.pairwise_append.mpr ⟨pw _ 1 c1, pw _ 2 c2, ?_⟩, ?_⟩
    · intro a ha b hb; have := c1 a ha; have := c2 b hb; omega
    · intro a ha b hb; have := c0 a ha; omega
  intro heq
  have hs2 := hsorted.filter cx.inFrame
  rw [heq] at hs2
  -- the geometry
  have sizes : ∀ s : Fin 22, (match sizeDims s with | some d => decide (d.1 = 128 ∨ d.2 = 128 → (d.1 = 64 ∨ d.1 = 128) ∧ (d.2 = 64 ∨ d.2 = 128)) | none => false) = true := by decide
  have hsz := sizes ⟨cx.miSize, hs⟩
  dsimp only at hsz
  rw [hd] at hsz
  obtain ⟨hbw, hbh⟩ := of_decide_eq_true hsz hbig
  -- transform sizes
  obtain ⟨t0, w0, h0, n0, m0, a1, a2, a3, a4, a5, a6, -⟩ := plane_raster (plane := 0) hs hd hsub (by decide) ht htw hth hwd hhd hi
  obtain ⟨t1, w1, h1, n1, m1, b1, b2, b3, b4, b5, b6, -⟩ := plane_raster (plane := 1) hs hd hsub (by decide) ht htw hth hwd hhd hi
  have ed0 : cx.planeTx 0 = (4 * w0, 4 * h0) := by unfold ResCtx.planeTx; rw [a1]; simp [a2]
  have ed1 : cx.planeTx 1 = (4 * w1, 4 * h1) := by unfold ResCtx.planeTx; rw [b1]; simp [b2]
  have small := planeTx_small hs hd hsub
  rw [ed1] at small
  have le64 : 4 * w0 ≤ 64 ∧ 4 * h0 ≤ 64 := by
    unfold txDims at a2
    rw [Option.bind_eq_some_iff] at a2
    obtain ⟨x, hx, a2⟩ := a2
    rw [Option.map_eq_some_iff] at a2
    obtain ⟨y, hy, a2⟩ := a2
    injection a2 with q1 q2
    subst q1 q2
    exact ⟨(tx_le.1 _ (List.mem_of_getElem? hx)).1, (tx_le.2 _ (List.mem_of_getElem? hy)).1⟩
  -- a chroma block of the first chunk, a luma block of the second
  have ext : ∀ s n, 64 ≤ n → 32 ≤ planeExtent s n := by intro s n h; unfold planeExtent; split <;> omega
  have p0 : ∀ n, planeExtent 0 n = n := fun _ => rfl
  have hm1 : ((1 : Nat), 4 * (cx.miCol >>> cx.subX) + 0 * planeExtent cx.subX 64, 4 * (cx.miRow >>> cx.subY) + 0 * planeExtent cx.subY 64) ∈
      ((List.range 3).map fun p => cx.area bw bh p (cx.planeTx p)).zipIdx.flatMap (fun a => (chunkBlocks a.1 0 0).map fun p => (a.2, p.1, p.2)) := by
    refine List.mem_flatMap.mpr ⟨(cx.area bw bh 1 (cx.planeTx 1), 1), by simp [List.range_succ], List.mem_map.mpr ⟨_, chunk_first 0 0 ?_ ?_ ?_ ?_, rfl⟩⟩ <;> rw [ed1]
    · show 0 < 4 * w1
      omega
    · show 0 < 4 * h1
      omega
    · show 4 * w1 ≤ min (planeExtent cx.subX 64) (planeExtent cx.subX bw)
      have := ext cx.subX 64 (by omega); have := ext cx.subX bw (by omega); omega
    · show 4 * h1 ≤ min (planeExtent cx.subY 64) (planeExtent cx.subY bh)
      have := ext cx.subY 64 (by omega); have := ext cx.subY bh (by omega); omega
  have hm0 : ∀ cy cx', ((0 : Nat), 4 * cx.miCol + cx' * 64, 4 * cx.miRow + cy * 64) ∈
      ((List.range 3).map fun p => cx.area bw bh p (cx.planeTx p)).zipIdx.flatMap (fun a => (chunkBlocks a.1 cy cx').map fun p => (a.2, p.1, p.2)) := by
    intro cy cx'
    refine List.mem_flatMap.mpr ⟨(cx.area bw bh 0 (cx.planeTx 0), 0), by simp [List.range_succ], List.mem_map.mpr ⟨_, chunk_first cy cx' ?_ ?_ ?_ ?_, rfl⟩⟩ <;> rw [ed0]
    · show 0 < 4 * w0
      omega
    · show 0 < 4 * h0
      omega
    · show 4 * w0 ≤ min 64 bw
      omega
    · show 4 * h0 ≤ min 64 bh
      omega
  have inf1 : cx.inFrame (1, 4 * (cx.miCol >>> cx.subX) + 0 * planeExtent cx.subX 64, 4 * (cx.miRow >>> cx.subY) + 0 * planeExtent cx.subY 64) = true := by
    have half : ∀ s a b : Nat, s ≤ 1 → a < b → 4 * (a >>> s) + 0 * planeExtent s 64 < (4 * b) >>> s := by
      intro s a b hs hab
      obtain rfl | rfl : s = 0 ∨ s = 1 := by omega
      · simp; omega
      · rw [Nat.shiftRight_eq_div_pow, Nat.shiftRight_eq_div_pow]; omega
    have hx1 : cx.subX ≤ 1 := by unfold SubOk at hsub; omega
    have hy1 : cx.subY ≤ 1 := by unfold SubOk at hsub; omega
    unfold ResCtx.inFrame
    rw [decide_eq_true_iff]
    show _ < (4 * cx.miCols) >>> cx.subX ∧ _ < (4 * cx.miRows) >>> cx.subY
    exact ⟨half _ _ _ hx1 (by omega), half _ _ _ hy1 (by omega)⟩
  have inf0 : ∀ cy cx', 4 * cx.miCol + cx' * 64 < 4 * cx.miCols → 4 * cx.miRow + cy * 64 < 4 * cx.miRows → cx.inFrame (0, 4 * cx.miCol + cx' * 64, 4 * cx.miRow + cy * 64) = true := by
    intro cy cx' h1 h2
    unfold ResCtx.inFrame
    simp only [gt_iff_lt, Nat.lt_irrefl, if_false, Nat.shiftRight_zero]
    exact decide_eq_true ⟨h1, h2⟩
  have fin : ∀ (e1 e2 : Nat × Nat × Nat), e1.1 = 1 → e2.1 = 0 → cx.inFrame e1 = true → cx.inFrame e2 = true → ¬ [e1, e2].Sublist (cx.order bw bh) := by
    intro e1 e2 h1 h2 f1 f2 hsub
    have := hsub.filter cx.inFrame
    rw [List.filter_cons_of_pos f1, List.filter_cons_of_pos f2, List.filter_nil] at this
    have := (List.pairwise_iff_forall_sublist.mp hs2) this
    omega
  have pairs : ∀ {α : Type} {a b : α} {A B : List α}, a ∈ A → b ∈ B → [a, b].Sublist (A ++ B) := fun ha hb =>
    (List.singleton_sublist.mpr ha).append (List.singleton_sublist.mpr hb)
  have hb1 : bw = 128 ∨ (bw = 64 ∧ bh = 128) := by omega
  rcases hb1 with rfl | ⟨rfl, rfl⟩
  · refine fin _ (0, 4 * cx.miCol + 1 * 64, 4 * cx.miRow + 0 * 64) rfl rfl inf1 (inf0 0 1 (by omega) (by omega)) ?_
    have := pairs hm1 (hm0 0 1)
    refine this.trans ?_
    unfold ResCtx.order txOrder
    rw [hc, if_pos rfl, show max 1 (128 / 64) = 2 from rfl, show List.range 2 = [0, 1] from rfl]
    obtain ⟨k, hk⟩ : ∃ k, max 1 (bh / 64) = k + 1 := ⟨max 1 (bh / 64) - 1, by omega⟩
    rw [hk, List.range_succ_eq_map (n := k), List.flatMap_cons]
    refine List.Sublist.trans ?_ (List.sublist_append_left _ _)
    simp only [List.flatMap_cons, List.flatMap_nil, List.append_nil]
    exact List.Sublist.refl _
  · refine fin _ (0, 4 * cx.miCol + 0 * 64, 4 * cx.miRow + 1 * 64) rfl rfl inf1 (inf0 1 0 (by omega) (by omega)) ?_
    have := pairs hm1 (hm0 1 0)
    refine this.trans ?_
    unfold ResCtx.order txOrder
    rw [hc, if_pos rfl, show max 1 (64 / 64) = 1 from rfl, show max 1 (128 / 64) = 2 from rfl, show List.range 2 = [0, 1] from rfl, show List.range 1 = [0] from rfl]
    simp only [List.flatMap_cons, List.flatMap_nil, List.append_nil]
    exact List.Sublist.refl _

example : ∃ l, residualCalls { miSize := 15, miRows := 32, miCols := 32, txSize := 4, subX := 1, subY := 1 } = .ok l ∧ l.length = 4 + 4 + 4 ∧
    SubOk 1 1 128 128 ∧ txDims 4 = some (64, 64) := ⟨_, rfl, rfl, by decide, rfl⟩

/-! ## Bookkeeping -/

theorem marks_loop {f : Nat → TxMarks → Res TxMarks} {g : Nat → List (List Nat) → Res (List (List Nat))} {h : Nat → List (List Bool) → Res (List (List Bool))}
    (hstep : ∀ i m m', f i m = .ok m' ↔ g i m.lfTx = .ok m'.lfTx ∧ h i m.decoded = .ok m'.decoded) (n : Nat) :
    ∀ i m m', forN f n i m = .ok m' ↔ forN g n i m.lfTx = .ok m'.lfTx ∧ forN h n i m.decoded = .ok m'.decoded := by
  induction n with
  | zero =>
    intro i m m'
    constructor
    · intro e; cases e; exact ⟨rfl, rfl⟩
    · rintro ⟨e1, e2⟩
      cases m; cases m'
      cases e1; cases e2; rfl
  | succ n ih =>
    intro i m m'
    simp only [forN]
    constructor
    · intro e
      obtain ⟨t, h1, h2⟩ := Res.inv e
      obtain ⟨a, b⟩ := (hstep _ _ _).mp h1
      obtain ⟨c, d⟩ := (ih _ _ _).mp h2
      rw [a, b]
      exact ⟨c, d⟩
    · rintro ⟨e1, e2⟩
      obtain ⟨a, a1, a2⟩ := Res.inv e1
      obtain ⟨b, b1, b2⟩ := Res.inv e2
      rw [(hstep i m ⟨a, b⟩).mpr ⟨a1, b1⟩]
      exact (ih _ _ _).mpr ⟨a2, b2⟩

/-- What is recorded at the end of a transform block. -/
theorem txMark_iff {cx : ResCtx} {plane txSz : Nat} {p : TxPos} {m m' : TxMarks} : txMark cx plane txSz p m = .ok m' ↔
    fillBlock (p.row >>> (if plane > 0 then cx.subY else 0)) (p.col >>> (if plane > 0 then cx.subX else 0)) p.stepY p.stepY txSz m.lfTx = .ok m'.lfTx ∧
    fillBlock (p.subRow >>> (if plane > 0 then cx.subY else 0)) (p.subCol >>> (if plane > 0 then cx.subX else 0)) p.stepY p.stepY true m.decoded = .ok m'.decoded := by
  unfold txMark fillBlock
  refine marks_loop (fun i m m' => marks_loop (fun j m m' => ?_) _ _ _ _) _ _ _ _
  constructor
  · intro e
    obtain ⟨a, h1, e⟩ := Res.inv e
    obtain ⟨b, h2, e⟩ := Res.inv e
    cases e
    exact ⟨h1, h2⟩
  · rintro ⟨h1, h2⟩
    rw [h1, Res.ok_bind, h2]
    rfl

/-- Left pixel of the transform block, top pixel. -/
def TxCall.left (c : TxCall) : Nat := c.baseX + 4 * c.x
def TxCall.top (c : TxCall) : Nat := c.baseY + 4 * c.y

theorem txPos_inv {cx : ResCtx} {use128 : Bool} {c : TxCall} {p : TxPos} (h : txPos cx use128 c = .ok (some p)) :
    ∃ w h, txDims c.txSz = some (w, h) ∧ p.stepX = w / 4 ∧ p.stepY = h / 4 ∧ p.row = (c.top <<< (if c.plane > 0 then cx.subY else 0)) / 4 ∧
      p.col = (c.top <<< (if c.plane > 0 then cx.subY else 0)) / 4 ∧ p.subRow = p.row &&& (if use128 then 21 else 15) ∧ p.subCol = p.col &&& (if use128 then 21 else 15) ∧
      c.left < (cx.miCols * 4) >>> (if c.plane > 0 then cx.subX else 0) ∧ c.top < (cx.miRows * 4) >>> (if c.plane > 0 then cx.subY else 0) := by
  unfold txPos at h
  obtain ⟨w, h1, h⟩ := Res.inv h
  obtain ⟨hh, h2, h⟩ := Res.inv h
  have h1 := goGet_inv_nat h1
  have h2 := goGet_inv_nat h2
  have hl : c.baseX + 4 * c.x = c.left := rfl
  have ht : c.baseY + 4 * c.y = c.top := rfl
  rw [hl, ht] at h
  by_cases hin : c.left ≥ (cx.miCols * 4) >>> (if c.plane > 0 then cx.subX else 0) ∨ c.top ≥ (cx.miRows * 4) >>> (if c.plane > 0 then cx.subY else 0)
  · rw [if_pos hin] at h
    cases h
  · rw [if_neg hin] at h
    cases h
    refine ⟨w, hh, ?_, ?_, ?_, ?_, ?_, rfl, rfl, by omega, by omega⟩
    · unfold txDims; rw [h1, h2]; rfl
    · exact Nat.shiftRight_eq_div_pow _ _
    · exact Nat.shiftRight_eq_div_pow _ _
    · exact Nat.shiftRight_eq_div_pow _ _
    · exact Nat.shiftRight_eq_div_pow _ _

theorem unit_of {sub y : Nat} (hs : sub ≤ 1) (hy : 4 ∣ y) : ((y <<< sub) / 4) >>> sub = y / 4 := by
  obtain ⟨k, rfl⟩ := hy
  obtain rfl | rfl : sub = 0 ∨ sub = 1 := by omega
  · simp
  · rw [Nat.shiftLeft_eq, Nat.shiftRight_eq_div_pow]; omega

theorem and15 (n : Nat) : n &&& 15 = n % 16 := Nat.and_two_pow_sub_one_eq_mod n 4

/-- **C118 (partial).**  In frames with 64x64 superblocks a square transform block on the diagonal of the frame is recorded correctly: its
size for the deblocking filter and its units as decoded, nothing else. -/
theorem C118_marks_partial {cx : ResCtx} {c : TxCall} {p : TxPos} (hp : txPos cx false c = .ok (some p)) {w : Nat} (hd : txDims c.txSz = some (w, w))
    (hsx : cx.subX ≤ 1) (hsub : cx.subX = cx.subY) (hdiag : c.left = c.top) (h4 : 4 ∣ c.top) {m m' : TxMarks} (hm : txMark cx c.plane c.txSz p m = .ok m') :
    let s := if c.plane > 0 then cx.subX else 0
    Filled (c.top / 4) (c.left / 4) (w / 4) (w / 4) c.txSz m.lfTx m'.lfTx ∧
    Filled (((c.top <<< s) / 4 % 16) >>> s) (((c.left <<< s) / 4 % 16) >>> s) (w / 4) (w / 4) true m.decoded m'.decoded := by
  obtain ⟨w', h', e1, e2, e3, e4, e5, e6, e7, -, -⟩ := txPos_inv hp
  rw [hd] at e1
  cases e1
  obtain ⟨f1, f2⟩ := txMark_iff.mp hm
  have g1 := (fillBlock_inv f1).1
  have g2 := (fillBlock_inv f2).1
  rw [e3, e4, e5, ← hsub, unit_of (by split <;> omega) h4] at g1
  rw [e3, e6, e7, e4, e5, ← hsub] at g2
  simp only [Bool.false_eq_true, if_false, and15] at g2
  rw [hdiag]
  exact ⟨g1, g2⟩

example : ∃ p m', txPos { miRow := 1, miCol := 1, miRows := 16, miCols := 16 } false ⟨0, 4, 4, 0, 0, 0⟩ = .ok (some p) ∧
    txMark { miRow := 1, miCol := 1, miRows := 16, miCols := 16 } 0 0 p ⟨List.replicate 2 (List.replicate 2 7), List.replicate 13 (List.replicate 13 false)⟩ = .ok m' ∧
    m'.lfTx = [[7, 7], [7, 0]] := ⟨_, _, rfl, rfl, rfl⟩

/-- **C118 (refuted: column).**  The column of a transform block is taken from its row: every transform block in the frame whose column
of units differs from its row is recorded in the wrong column. -/
theorem C118_column_refuted {cx : ResCtx} {use128 : Bool} {c : TxCall} {p : TxPos} (hp : txPos cx use128 c = .ok (some p))
    (hne : (c.left <<< (if c.plane > 0 then cx.subX else 0)) / 4 ≠ (c.top <<< (if c.plane > 0 then cx.subY else 0)) / 4) :
    p.col ≠ (c.left <<< (if c.plane > 0 then cx.subX else 0)) / 4 := by
  obtain ⟨-, -, -, -, -, -, e5, -⟩ := txPos_inv hp
  rw [e5]
  exact fun h => hne h.symm

/-- **C118 (refuted: size).**  No transform block that reaches beyond the first 8 rows of its plane can be recorded: the decoder panics. -/
theorem C118_size_refuted {cx : ResCtx} {use128 : Bool} {c : TxCall} {p : TxPos} (hp : txPos cx use128 c = .ok (some p)) {w h : Nat} (hd : txDims c.txSz = some (w, h))
    (hsy : cx.subY ≤ 1) (h4 : 4 ∣ c.top) (hbig : 8 < c.top + h) {m : TxMarks} (hs : Shape 2 2 m.lfTx) (m' : TxMarks) : txMark cx c.plane c.txSz p m ≠ .ok m' := by
  intro hm
  obtain ⟨w', h', e1, e2, e3, e4, -⟩ := txPos_inv hp
  rw [hd] at e1
  cases e1
  obtain ⟨f1, -⟩ := txMark_iff.mp hm
  have hh : 4 ≤ h ∧ h % 4 = 0 := by
    have all : ∀ x ∈ txHeight, 4 ≤ x ∧ x % 4 = 0 := by decide
    unfold txDims at hd
    rw [Option.bind_eq_some_iff] at hd
    obtain ⟨x, hx, hd⟩ := hd
    rw [Option.map_eq_some_iff] at hd
    obtain ⟨y, hy, hd⟩ := hd
    injection hd with q1 q2
    subst q1 q2
    exact all _ (List.mem_of_getElem? hy)
  refine fillBlock_never hs (by omega) (by omega) (.inl ?_) f1
  rw [e3, e4, unit_of (by split <;> omega) h4]
  omega

example : (∃ p, txPos { miRows := 16, miCols := 16 } false ⟨0, 0, 0, 2, 0, 0⟩ = .ok (some p)) ∧ txDims 2 = some (16, 16) := ⟨⟨_, rfl⟩, rfl⟩

/-- **C118 (refuted: 128x128 superblocks).**  In frames with 128x128 superblocks the row of the block in its superblock is right exactly if
bits 1 and 3 of the row are clear. -/
theorem C118_mask_refuted {cx : ResCtx} {c : TxCall} {p : TxPos} (hp : txPos cx true c = .ok (some p)) : p.subRow = p.row % 32 ↔ p.row &&& 10 = 0 := by
  obtain ⟨-, -, -, -, -, -, -, e6, -⟩ := txPos_inv hp
  rw [e6, if_pos rfl]
  have fin : ∀ r : Fin 32, r.val &&& 21 = r.val ↔ r.val &&& 10 = 0 := by decide
  have m : p.row % 32 = p.row &&& 31 := (Nat.and_two_pow_sub_one_eq_mod p.row 5).symm
  have h1 : p.row &&& 21 = (p.row % 32) &&& 21 := by rw [m, Nat.and_assoc]; rfl
  have h2 : p.row &&& 10 = (p.row % 32) &&& 10 := by rw [m, Nat.and_assoc]; rfl
  rw [h1, h2]
  exact fin ⟨p.row % 32, Nat.mod_lt _ (by decide)⟩

example : ∃ p, txPos { miRows := 64, miCols := 64 } true ⟨0, 0, 8, 2, 0, 0⟩ = .ok (some p) ∧ p.row = 2 ∧ p.subRow = 0 := ⟨_, rfl, rfl, rfl⟩

/-! ## Palette prediction -/

/-- **C119 (partial).**  Palette prediction of a luma transform block: each of its pixels gets the colour that the colour map names, all other
pixels stay. -/
theorem C119_luma_partial {H W startX startY x y txSz w h : Nat} (hd : txDims txSz = some (w, h)) {palette : List Int} {map F : List (List Int)} (hF : Shape H W F)
    (hy : startY + h ≤ H) (hx : startX + w ≤ W) {idx : Nat → Nat → Nat} {col : Nat → Int} (hmap : ∀ i j, i < h → j < w → at2 map (y * 4 + i) (x * 4 + j) = some (idx i j : Int))
    (hpal : ∀ i j, i < h → j < w → palette[idx i j]? = some (col (idx i j))) :
    ∃ F', palettePrediction 0 startX startY x y txSz palette map F = .ok F' ∧ Shape H W F' ∧
      ∀ r c, at2 F' r c = if startY ≤ r ∧ r < startY + h ∧ startX ≤ c ∧ c < startX + w then some (col (idx (r - startY) (c - startX))) else at2 F r c := by
  have d1 := hd
  unfold txDims at d1
  rw [Option.bind_eq_some_iff] at d1
  obtain ⟨a, ha, d1⟩ := d1
  rw [Option.map_eq_some_iff] at d1
  obtain ⟨b, hb, d1⟩ := d1
  injection d1 with q1 q2
  subst q1 q2
  obtain ⟨F', e, h1, h2⟩ := fillRect hF hy hx (fun i j => do let k ← gget map ((y * 4 + i : Nat) : Int) ((x * 4 + j : Nat) : Int); goGet palette k)
    (fun r c => col (idx (r - startY) (c - startX))) (by
      intro i j hi hj
      rw [gget_at2 (hmap i j hi hj), Res.ok_bind, goGet_of' (hpal i j hi hj), Nat.add_sub_cancel_left, Nat.add_sub_cancel_left])
  refine ⟨F', ?_, h1, h2⟩
  unfold palettePrediction
  rw [goGet_of' ha, Res.ok_bind, goGet_of' hb, Res.ok_bind, ← e]
  dsimp only
  congr 1
  funext i G
  congr 1
  funext j G
  rw [if_pos rfl]
  cases gget map ((y * 4 + i : Nat) : Int) ((x * 4 + j : Nat) : Int) with
  | error e => rfl
  | ok k => rfl

example : palettePrediction 0 0 0 0 0 0 [10, 20] (List.replicate 4 [0, 1, 1, 0]) (List.replicate 4 (List.replicate 4 0)) = .ok (List.replicate 4 [10, 20, 20, 10]) := rfl

/-- **C119 (refuted).**  Palette prediction of a chroma transform block always panics: the colour map of the chroma planes is never set. -/
theorem C119_chroma_refuted {plane startX startY x y txSz : Nat} (hp : 0 < plane) (palette : List Int) (map F F' : List (List Int)) :
    palettePrediction plane startX startY x y txSz palette map F ≠ .ok F' := by
  have pos : (∀ w ∈ txWidth, 0 < w) ∧ (∀ h ∈ txHeight, 0 < h) := by decide
  intro h
  unfold palettePrediction at h
  obtain ⟨w, h1, h⟩ := Res.inv h
  obtain ⟨hh, h2, h⟩ := Res.inv h
  have p1 := pos.1 _ (List.mem_of_getElem? (goGet_inv_nat h1))
  have p2 := pos.2 _ (List.mem_of_getElem? (goGet_inv_nat h2))
  dsimp only at h
  rw [if_neg (by omega)] at h
  refine forN_never (i := 0) (Nat.le_refl 0) (by omega) ?_ F' h
  intro G G' hG
  refine forN_never (i := 0) (Nat.le_refl 0) (by omega) ?_ G' hG
  intro K K' hK
  obtain ⟨k, h3, -⟩ := Res.inv hK
  obtain ⟨-, -, h3⟩ := gget_inv h3
  cases h3

/-! ## Chroma from luma -/

/-- All pixels of the luma plane that a block may need are there. -/
def LumaOk (luma : List (List Int)) (v : Nat → Nat → Int) (maxW maxH : Nat) : Prop := ∀ y x, y < maxH → x < maxW → at2 luma y x = some (v y x)

theorem cflLuma_val {c : CflCtx} {luma : List (List Int)} {v : Nat → Nat → Int} (hl : LumaOk luma v c.maxLumaW c.maxLumaH) (hsx : c.subX ≤ 1) (hsy : c.subY ≤ c.subX)
    (hw : 2 ≤ c.maxLumaW) (hh : 2 ≤ c.maxLumaH) (px py : Nat) : cflLuma c luma py px = .ok (cflLumaVal v c.subX c.subY c.maxLumaW c.maxLumaH px py) := by
  have pw : ∀ s, s ≤ 1 → 2 ^ s = s + 1 := by
    intro s hs
    obtain rfl | rfl : s = 0 ∨ s = 1 := by omega
    · rfl
    · rfl
  unfold cflLuma cflLumaVal
  dsimp only
  have ey : min ((py <<< c.subY : Nat) : Int) ((c.maxLumaH : Int) - ((1 <<< c.subY : Nat) : Int)) = ((min (py * 2 ^ c.subY) (c.maxLumaH - 2 ^ c.subY) : Nat) : Int) := by
    rw [Nat.shiftLeft_eq, Nat.shiftLeft_eq, pw _ (show c.subY ≤ 1 by omega), Nat.one_mul]; omega
  have ex : min ((px <<< c.subX : Nat) : Int) ((c.maxLumaW : Int) - ((1 <<< c.subX : Nat) : Int)) = ((min (px * 2 ^ c.subX) (c.maxLumaW - 2 ^ c.subX) : Nat) : Int) := by
    rw [Nat.shiftLeft_eq, Nat.shiftLeft_eq, pw _ (show c.subX ≤ 1 by omega), Nat.one_mul]; omega
  rw [ey, ex, pw _ (show c.subX ≤ 1 by omega), pw _ (show c.subY ≤ 1 by omega)]
  have hy : min (py * (c.subY + 1)) (c.maxLumaH - (c.subY + 1)) + c.subY < c.maxLumaH := by omega
  have hx : min (px * (c.subX + 1)) (c.maxLumaW - (c.subX + 1)) + c.subX < c.maxLumaW := by omega
  generalize min (py * (c.subY + 1)) (c.maxLumaH - (c.subY + 1)) = y at *
  generalize min (px * (c.subX + 1)) (c.maxLumaW - (c.subX + 1)) = x at *
  have get : ∀ dy dx : Nat, dy ≤ c.subY → dx ≤ c.subX → gget luma ((y : Int) + (dy : Int)) ((x : Int) + (dx : Int)) = .ok (v (y + dy) (x + dx)) := by
    intro dy dx h1 h2
    have := gget_at2 (hl (y + dy) (x + dx) (by omega) (by omega))
    rw [← this]
    congr 1
  have inner : ∀ dy t, dy ≤ c.subY → forN (fun dx t => do
      let w ← gget luma ((y : Int) + (dy : Int)) ((x : Int) + (dx : Int))
      pure (t + w)) (c.subX + 1) 0 t = (.ok (t + ∑ dx ∈ Finset.range (c.subX + 1), v (y + dy) (x + dx)) : Res Int) := by
    intro dy t hdy
    refine forN_sum ?_
    intro dx s hdx
    rw [get dy dx hdy (by omega)]; rfl
  have outer := forN_sum (n := c.subY + 1) (s := 0) (t := fun dy => ∑ dx ∈ Finset.range (c.subX + 1), v (y + dy) (x + dx))
    (f := fun dy t => forN (fun dx t => do
      let w ← gget luma ((y : Int) + (dy : Int)) ((x : Int) + (dx : Int))
      pure (t + w)) (c.subX + 1) 0 t) (fun dy t hdy => inner dy t (by omega))
  rw [outer, Res.ok_bind]
  have cases : (c.subX = 0 ∧ c.subY = 0) ∨ (c.subX = 1 ∧ c.subY = 0) ∨ (c.subX = 1 ∧ c.subY = 1) := by omega
  rcases cases with ⟨h1, h2⟩ | ⟨h1, h2⟩ | ⟨h1, h2⟩ <;> rw [h1, h2] <;> simp [Finset.sum_range_succ, List.range_succ, pure, Except.pure] <;> ring

/-- **C120 (partial: luma).**  The values that predict a chroma transform block are the sums of the luma pixels it covers, in eighths, with the
last available column and row repeated, and their total is exact. -/
theorem C120_luma_partial {c : CflCtx} {luma : List (List Int)} {v : Nat → Nat → Int} (hl : LumaOk luma v c.maxLumaW c.maxLumaH) (hsx : c.subX ≤ 1) (hsy : c.subY ≤ c.subX)
    (hmw : 2 ≤ c.maxLumaW) (hmh : 2 ≤ c.maxLumaH) {startX startY w h : Nat} (hw : w ≤ 64) (hh : h ≤ 64) :
    ∃ L, cflLumas c luma startX startY w h = .ok (L, ∑ i ∈ Finset.range h, ∑ j ∈ Finset.range w, cflLumaVal v c.subX c.subY c.maxLumaW c.maxLumaH (startX + j) (startY + i)) ∧
      ∀ i j, i < h → j < w → at2 L i j = some (cflLumaVal v c.subX c.subY c.maxLumaW c.maxLumaH (startX + j) (startY + i)) := by
  generalize hval : (fun i j => cflLumaVal v c.subX c.subY c.maxLumaW c.maxLumaH (startX + j) (startY + i)) = val
  have hval' : ∀ i j, cflLumaVal v c.subX c.subY c.maxLumaW c.maxLumaH (startX + j) (startY + i) = val i j := fun i j => by rw [← hval]
  simp only [hval']
  unfold cflLumas
  have hstep : ∀ i (s : List (List Int) × Int), 0 ≤ i → i < 0 + h →
      (Shape 64 64 s.1 ∧ (∀ r k, r < i → k < w → at2 s.1 r k = some (val r k)) ∧ s.2 = ∑ r ∈ Finset.range i, ∑ k ∈ Finset.range w, val r k) →
      ∃ s', forN (fun j (s : List (List Int) × Int) => do
          let v ← cflLuma c luma (startY + i) (startX + j)
          let L ← gset s.1 (i : Int) (j : Int) v
          pure (L, s.2 + v)) w 0 s = .ok s' ∧
        (Shape 64 64 s'.1 ∧ (∀ r k, r < i + 1 → k < w → at2 s'.1 r k = some (val r k)) ∧ s'.2 = ∑ r ∈ Finset.range (i + 1), ∑ k ∈ Finset.range w, val r k) := by
    intro i s _ hi ⟨hs1, hs2, hs3⟩
    have hin : ∀ j (q : List (List Int) × Int), 0 ≤ j → j < 0 + w →
        (Shape 64 64 q.1 ∧ (∀ r k, (r < i ∧ k < w) ∨ (r = i ∧ k < j) → at2 q.1 r k = some (val r k)) ∧ q.2 = s.2 + ∑ k ∈ Finset.range j, val i k) →
        ∃ q', (do
          let v ← cflLuma c luma (startY + i) (startX + j)
          let L ← gset q.1 (i : Int) (j : Int) v
          pure (L, q.2 + v) : Res (List (List Int) × Int)) = .ok q' ∧
        (Shape 64 64 q'.1 ∧ (∀ r k, (r < i ∧ k < w) ∨ (r = i ∧ k < j + 1) → at2 q'.1 r k = some (val r k)) ∧ q'.2 = s.2 + ∑ k ∈ Finset.range (j + 1), val i k) := by
      intro j q _ hj ⟨q1, q2, q3⟩
      obtain ⟨L, g1, g2, g3, g4⟩ := gset_ok q1 (i := i) (j := j) (by omega) (by omega) (val i j)
      rw [cflLuma_val hl hsx hsy hmw hmh, Res.ok_bind, hval', g1, Res.ok_bind]
      refine ⟨_, rfl, g2, fun r k hrk => ?_, ?_⟩
      · by_cases he : (r, k) = (i, j)
        · cases he; exact g3
        · rw [g4 r k he]
          refine q2 r k ?_
          rcases hrk with h | ⟨h, h'⟩
          · exact .inl h
          · refine .inr ⟨h, ?_⟩
            by_contra hc
            exact he (by rw [h, show k = j by omega])
      · show q.2 + val i j = _
        rw [q3, Finset.sum_range_succ]; ring
    obtain ⟨s', e, h1, h2, h3⟩ := forN_total (fun j (q : List (List Int) × Int) => Shape 64 64 q.1 ∧ (∀ r k, (r < i ∧ k < w) ∨ (r = i ∧ k < j) → at2 q.1 r k = some (val r k)) ∧
      q.2 = s.2 + ∑ k ∈ Finset.range j, val i k) hin ⟨hs1, fun r k h => hs2 r k (by omega) (by omega), by simp⟩
    rw [Nat.zero_add] at h2 h3
    refine ⟨s', e, h1, fun r k hr hk => h2 r k (by omega), ?_⟩
    rw [h3, hs3, Finset.sum_range_succ]
  obtain ⟨s', e, h1, h2, h3⟩ := forN_total (fun i (s : List (List Int) × Int) => Shape 64 64 s.1 ∧ (∀ r k, r < i → k < w → at2 s.1 r k = some (val r k)) ∧
      s.2 = ∑ r ∈ Finset.range i, ∑ k ∈ Finset.range w, val r k) hstep (s := (List.replicate 64 (List.replicate 64 0), 0)) ⟨Shape.replicate 64 64 0, fun r k h => by omega, by simp⟩
  rw [Nat.zero_add] at h2 h3
  exact ⟨s'.1, by rw [e, ← h3], h2⟩

example : cflLuma { maxLumaW := 4, maxLumaH := 4 } [[1, 2, 3, 4], [5, 6, 7, 8], [9, 10, 11, 12], [13, 14, 15, 16]] 1 7 = .ok 108 := rfl

/-- **C120 (refuted).**  Whatever the luma pixels, the scale and the DC prediction are, prediction of chroma from luma sets every pixel of the
transform block to 2. -/
theorem C120_result_refuted {c : CflCtx} (hb : 2 ≤ c.bitDepth) {plane startX startY txSz w h : Nat} (hd : txDims txSz = some (w, h)) {luma F F' : List (List Int)}
    (hp : predictCfl c plane startX startY txSz luma F = .ok F') (r k : Nat) (hr : startY ≤ r ∧ r < startY + h) (hk : startX ≤ k ∧ k < startX + w) : at2 F' r k = some 2 := by
  have d1 := hd
  unfold txDims at d1
  rw [Option.bind_eq_some_iff] at d1
  obtain ⟨a, ha, d1⟩ := d1
  rw [Option.map_eq_some_iff] at d1
  obtain ⟨b, hb', d1⟩ := d1
  injection d1 with q1 q2
  subst q1 q2
  unfold predictCfl at hp
  rw [goGet_of' ha, Res.ok_bind, goGet_of' hb', Res.ok_bind] at hp
  obtain ⟨s, -, hp⟩ := Res.inv hp
  obtain ⟨lw, -, hp⟩ := Res.inv hp
  obtain ⟨lh, -, hp⟩ := Res.inv hp
  have key := forN_inv (fun i (G : List (List Int)) => ∀ r k, startY ≤ r → r < startY + i → startX ≤ k → k < startX + a → at2 G r k = some 2) (by
    intro i G G' _ _ hG hG'
    have inner := forN_inv (fun j (G : List (List Int)) => (∀ r k, startY ≤ r → r < startY + i → startX ≤ k → k < startX + a → at2 G r k = some 2) ∧
        ∀ k, startX ≤ k → k < startX + j → at2 G (startY + i) k = some 2) (by
      intro j K K' _ _ hK hK'
      obtain ⟨dc, -, hK'⟩ := Res.inv hK'
      obtain ⟨l, -, hK'⟩ := Res.inv hK'
      rw [clip1_two _ hb] at hK'
      obtain ⟨-, -, -, g2, g3, -⟩ := gset_inv hK'
      simp only [Int.toNat_natCast] at g2 g3
      refine ⟨fun r k h1 h2 h3 h4 => ?_, fun k h1 h2 => ?_⟩
      · rw [g3 r k (by simp; omega)]
        exact hK.1 r k h1 h2 h3 h4
      · by_cases he : k = startX + j
        · rw [he]; exact g2
        · rw [g3 _ k (by simpa using he)]
          exact hK.2 k h1 (by omega)) hG' ⟨hG, fun k h1 h2 => by omega⟩
    rw [Nat.zero_add] at inner
    intro r k h1 h2 h3 h4
    by_cases he : r = startY + i
    · rw [he]; exact inner.2 k h3 h4
    · exact inner.1 r k h1 (by omega) h3 h4) hp (fun r k h1 h2 => by omega)
  rw [Nat.zero_add] at key
  exact key r k hr.1 hr.2 hk.1 hk.2

example : ∃ F', predictCfl { maxLumaW := 8, maxLumaH := 8, alphaV := 5 } 1 0 0 0 (List.replicate 8 (List.replicate 8 100)) (List.replicate 4 (List.replicate 4 77)) = .ok F' := ⟨_, rfl⟩

end Gov1
