import Verif.Props.IntraBlock
/-!
# C154, C155: directional prediction
-/
namespace Gov1

/-! ## C154: the predictors -/

/-- AV1's interpolation between two pixels of an edge (7.11.2.4): `idx` 64ths along the edge from pixel `k`. -/
def av1Interp (e : Edge) (idx k v : Int) : Prop :=
  ∃ b s, 0 ≤ s ∧ s < 32 ∧ 64 * b ≤ idx ∧ idx < 64 * b + 64 ∧ 2 * s ≤ idx - 64 * b ∧ idx - 64 * b < 2 * s + 2 ∧ v = round2 (e (b + k) * (32 - s) + e (b + k + 1) * s) 5

theorem interp_of {e : Edge} {idx k v : Int} (h : lerp e ((idx >>> 6) + k) (dirShift idx 0) = .ok v) : av1Interp e idx k v := by
  obtain ⟨p, hp, h⟩ := Res.inv h
  obtain ⟨q, hq, h⟩ := Res.inv h
  obtain ⟨-, -, rfl⟩ := eget_inv hp
  obtain ⟨-, -, rfl⟩ := eget_inv hq
  have e1 : dirShift idx 0 = idx / 2 % 32 := by
    unfold dirShift
    rw [Int.shiftRight_eq_div_pow]; norm_num
  have e2 : idx >>> (6 : Nat) = idx / 64 := by rw [Int.shiftRight_eq_div_pow]; norm_num
  rw [e1, e2] at h
  refine ⟨idx / 64, idx / 2 % 32, ?_, ?_, ?_, ?_, ?_, ?_, (Except.ok.inj h).symm⟩ <;> omega

/-- At 90 degrees each column of the block has the pixel above it. -/
theorem pixels_vertical {w h : Nat} {dx dy : Int} {e : DirEdges} {p : Pred} (hp : dirPixels w h 90 dx dy e = .ok p) {i j : Nat} (hi : i < h) (hj : j < w) : p i j = e.above j := by
  obtain ⟨-, -, hv⟩ := fillPred_inv (show fillPred w h (fun _ j => eget e.above j) = .ok p from hp) hi hj
  exact (eget_inv hv).2.2

/-- At 180 degrees the rows of the block are all the same; a horizontal prediction has the same pixel in each column.  Entry `j` of the left column
goes to column `j`. -/
theorem pixels_horizontal {w h : Nat} {dx dy : Int} {e : DirEdges} {p : Pred} (hp : dirPixels w h 180 dx dy e = .ok p) {i j : Nat} (hi : i < h) (hj : j < w) : p i j = e.left j := by
  obtain ⟨-, -, hv⟩ := fillPred_inv (show fillPred w h (fun _ j => eget e.left j) = .ok p from hp) hi hj
  exact (eget_inv hv).2.2

/-- Without upsampling pixel `(i, j)` is AV1's interpolation in the left column, `(j + 1) * dy` 64ths below row `i`. -/
theorem pixels_left {w h : Nat} {pAngle dx dy : Int} {e : DirEdges} {p : Pred} (ha : 180 < pAngle) (hu : e.upL = 0) (hp : dirPixels w h pAngle dx dy e = .ok p) {i j : Nat} (hi : i < h) (hj : j < w) :
    av1Interp e.left ((j + 1) * dy) i (p i j) := by
  unfold dirPixels at hp
  rw [if_neg (by omega), if_neg (by omega), if_pos ha] at hp
  obtain ⟨-, -, hv⟩ := fillPred_inv hp hi hj
  unfold dirZone3 at hv
  dsimp only at hv
  rw [hu] at hv
  rw [show (((j + 1 : Nat) : Int)) = (j : Int) + 1 by push_cast; rfl] at hv
  exact interp_of hv

/-- AV1's pixel `(i, j)` is `(i + 1) * dx` 64ths right of column `j`; the code's is `2 * i * dx` 64ths (before the end of the edge, without upsampling). -/
theorem pixels_above {w h : Nat} {pAngle dx dy : Int} {e : DirEdges} {p : Pred} (ha : pAngle < 90) (hu : e.upA = 0) (hp : dirPixels w h pAngle dx dy e = .ok p) {i j : Nat} (hi : i < h) (hj : j < w)
    (hb : 2 * i * dx + 64 * j < 64 * ((w + h : Nat) - 1)) : av1Interp e.above (2 * i * dx) j (p i j) := by
  unfold dirPixels at hp
  rw [if_pos ha] at hp
  obtain ⟨-, -, hv⟩ := fillPred_inv hp hi hj
  unfold dirZone1 at hv
  dsimp only at hv
  rw [hu] at hv
  have e1 : (((i + i : Nat) : Int)) * dx = 2 * i * dx := by push_cast; ring
  rw [e1] at hv
  rw [if_pos ?_] at hv
  · exact interp_of hv
  · rw [Int.shiftRight_eq_div_pow]
    norm_num
    omega

/-- For every angle below 90 the first row of the block is the row above it, without any displacement. -/
theorem pixels_first_row {w h : Nat} {pAngle dx dy : Int} {e : DirEdges} {p : Pred} (ha : pAngle < 90) (hu : e.upA = 0) (hp : dirPixels w h pAngle dx dy e = .ok p) (hh : 2 ≤ h) {j : Nat} (hj : j < w) :
    p 0 j = e.above j := by
  obtain ⟨b, s, h1, h2, h3, h4, h5, h6, h7⟩ := pixels_above ha hu hp (by omega : 0 < h) hj (by simp; omega)
  simp at h3 h4 h5 h6
  have hb : b = 0 := by omega
  have hs : s = 0 := by omega
  subst hb; subst hs
  rw [h7]
  simp only [Int.zero_add, Int.sub_zero, Int.mul_zero, Int.add_zero]
  unfold round2
  rw [if_neg (by decide), Int.shiftRight_eq_div_pow, show ((1 <<< (5 - 1) : Nat) : Int) = 16 from rfl]
  norm_num
  omega

/-- If `dx` is at most 64 times the width of the block, the prediction never returns: some pixel of the first row has base -1, and
`AboveRow[-1]` panics. -/
theorem pixels_between {w h : Nat} {pAngle dx dy : Int} {e : DirEdges} (ha : 90 < pAngle) (ha' : pAngle < 180) (hu : e.upA = 0) (hh : 0 < h) (hd : 0 < dx) (hd' : dx ≤ 64 * w) (p : Pred) :
    dirPixels w h pAngle dx dy e ≠ .ok p := by
  intro hp
  unfold dirPixels at hp
  rw [if_neg (by omega), if_pos ⟨ha, ha'⟩] at hp
  obtain ⟨j, hj, hj1, hj2⟩ : ∃ j : Nat, j < w ∧ (64 * j : Int) < dx ∧ dx ≤ 64 * j + 64 := by
    refine ⟨((dx - 1) / 64).toNat, ?_, ?_, ?_⟩ <;> omega
  obtain ⟨-, -, hv⟩ := fillPred_inv hp hh hj
  unfold dirZone2 at hv
  dsimp only at hv
  rw [hu] at hv
  have hb : ((((j <<< 6 : Nat) : Int) - ((0 + 1 : Nat) : Int) * dx) >>> (6 - 0 : Nat)) = -1 := by
    rw [Nat.shiftLeft_eq, Int.shiftRight_eq_div_pow]
    norm_num
    omega
  rw [hb, if_pos (by decide)] at hv
  obtain ⟨q, hq, -⟩ := Res.inv hv
  obtain ⟨h0, -⟩ := eget_inv hq
  omega

/-- The angle of a mode with a delta. -/
def angleOf (mode delta : Int) : Int := (modeToAngle[mode.toNat]?).getD 0 + delta * 3

/-- Every angle of a directional mode (1 to 8) with a delta from -3 to 3 is between 36 and 212, and every derivative that is looked up for it exists and is positive. -/
theorem C154_derivative (mode delta : Int) (hm : 1 ≤ mode ∧ mode ≤ 8) (hd : -3 ≤ delta ∧ delta ≤ 3) :
    36 ≤ angleOf mode delta ∧ angleOf mode delta ≤ 212 ∧
    (∃ dx, dirDx (angleOf mode delta) = .ok dx ∧ (angleOf mode delta < 180 ∧ angleOf mode delta ≠ 90 → 0 < dx)) ∧
    (∃ dy, dirDy (angleOf mode delta) = .ok dy ∧ (90 < angleOf mode delta ∧ angleOf mode delta ≠ 180 → 0 < dy)) := by
  obtain ⟨m, rfl⟩ := Int.eq_ofNat_of_zero_le (by omega : 0 ≤ mode)
  obtain ⟨d, rfl⟩ : ∃ d : Nat, delta = (d : Int) - 3 := ⟨(delta + 3).toNat, by omega⟩
  have key : ∀ m : Nat, m < 9 → 1 ≤ m → ∀ d : Nat, d < 7 → (fun a : Int =>
      36 ≤ a ∧ a ≤ 212 ∧ (match dirDx a with | .ok dx => decide (a < 180 ∧ a ≠ 90 → 0 < dx) | .error _ => false) = true ∧
        (match dirDy a with | .ok dy => decide (90 < a ∧ a ≠ 180 → 0 < dy) | .error _ => false) = true) (angleOf (m : Int) ((d : Int) - 3)) := by decide +kernel
  have hm9 : m < 9 := by have := hm.2; omega
  have hm1 : 1 ≤ m := by have := hm.1; omega
  obtain ⟨k1, k2, k3, k4⟩ := key m hm9 hm1 d (by omega)
  refine ⟨k1, k2, ?_, ?_⟩
  · cases hx : dirDx (angleOf (m : Int) ((d : Int) - 3)) with
    | ok dx => rw [hx] at k3; exact ⟨dx, rfl, of_decide_eq_true k3⟩
    | error e => rw [hx] at k3; cases k3
  · cases hx : dirDy (angleOf (m : Int) ((d : Int) - 3)) with
    | ok dx => rw [hx] at k4; exact ⟨dx, rfl, of_decide_eq_true k4⟩
    | error e => rw [hx] at k4; cases k4

/-! ## C155: filters of the edges -/

theorem strength_zero {w h : Nat} (hs : w + h ≤ 16) {smooth : Bool} {d : Int} (h0 : edgeStrength w h smooth d = 0) :
    (smooth = false → (w + h ≤ 8 → d.natAbs < 56) ∧ (8 < w + h → d.natAbs < 40)) ∧ (smooth = true → (w + h ≤ 8 → d.natAbs < 40) ∧ (8 < w + h → d.natAbs < 20)) := by
  unfold edgeStrength at h0
  dsimp only at h0
  cases smooth
  · rw [if_pos (by decide)] at h0
    split_ifs at h0 <;> (first | omega | (refine ⟨fun _ => ⟨fun _ => ?_, fun _ => ?_⟩, fun h => by cases h⟩ <;> omega))
  · rw [if_neg (by decide)] at h0
    split_ifs at h0 <;> omega

theorem upsample_false {w h : Nat} {smooth : Bool} {d : Int} (h0 : useUpsample w h smooth d = false) :
    d = 0 ∨ 40 ≤ d.natAbs ∨ (smooth = false ∧ 16 < w + h) ∨ (smooth = true ∧ 8 < w + h) := by
  unfold useUpsample at h0
  dsimp only at h0
  split at h0
  · omega
  · cases smooth
    · rw [if_pos (by decide)] at h0
      have := of_decide_eq_false h0
      exact Or.inr (Or.inr (Or.inl ⟨rfl, by omega⟩))
    · rw [if_neg (by decide)] at h0
      have := of_decide_eq_false h0
      exact Or.inr (Or.inr (Or.inr ⟨rfl, by omega⟩))

/-- The filter types of a block with both neighbours; AV1 has no panic. -/
theorem edgeFilterProc_inv {sz : Int} {st : Nat} {u : Unit} (h : edgeFilterProc sz st = .ok u) : st = 0 ∨ sz ≤ 0 := by
  unfold edgeFilterProc at h
  split at h
  · cases h
  · omega

theorem edgeUpsample_inv {b : Bool} {u : Unit} (h : edgeUpsample b = .ok u) : b = false := by
  unfold edgeUpsample at h
  cases b
  · rfl
  · cases h

/-- **C155, refuted.**  With `enable_intra_edge_filter`, a block of 4 or 8 pixels in each direction with neighbours above and to the left returns from a directional mode only at 90 or 180 degrees, or as a 4x4
block between 130 and 140 degrees: for any other angle an edge has to be filtered or upsampled, and each of these panics. -/
theorem C155_filter_refuted {c : IntraCtx} {a : IntraArgs} {w h : Nat} {pAngle : Int} {ab lf : Edge} {e : DirEdges} (hE : c.edgeFilter = true) (hA : a.haveAbove = true) (hL : a.haveLeft = true)
    (hw : 0 < w) (hh : 0 < h) (h8 : 8 ≤ w + h) (h16 : w + h ≤ 16) (hx : (a.x : Int) ≤ intraMaxX c a.plane) (hy : (a.y : Int) ≤ intraMaxY c a.plane) (he : dirEdges c a w h pAngle ab lf = .ok e) :
    pAngle = 90 ∨ pAngle = 180 ∨ (w + h = 8 ∧ 130 ≤ pAngle ∧ pAngle ≤ 140) := by
  by_contra hcon
  unfold dirEdges at he
  rw [if_pos hE] at he
  obtain ⟨s, hs, he⟩ := Res.inv he
  obtain ⟨u1, hu1, he⟩ := Res.inv he
  obtain ⟨u2, hu2, he⟩ := Res.inv he
  have U1 := upsample_false (edgeUpsample_inv hu1)
  have U2 := upsample_false (edgeUpsample_inv hu2)
  unfold edgeFilters at hs
  rw [if_pos (by omega)] at hs
  obtain ⟨t, ht, hs⟩ := Res.inv hs
  obtain ⟨sm, -, hs⟩ := Res.inv hs
  obtain ⟨v1, hv1, hs⟩ := Res.inv hs
  obtain ⟨v2, hv2, hs⟩ := Res.inv hs
  rw [← Except.ok.inj hs] at U1 U2
  dsimp only at U1 U2
  unfold filterAbove at hv1
  unfold filterLeft at hv2
  rw [if_pos hA] at hv1
  rw [if_pos hL] at hv2
  have S1 : edgeStrength w h sm (pAngle - 90) = 0 := by
    rcases edgeFilterProc_inv hv1 with h | h
    · exact h
    · split at h <;> omega
  have S2 : edgeStrength w h sm (pAngle - 180) = 0 := by
    rcases edgeFilterProc_inv hv2 with h | h
    · exact h
    · split at h <;> omega
  obtain ⟨A1, A2⟩ := strength_zero h16 S1
  obtain ⟨B1, B2⟩ := strength_zero h16 S2
  cases sm
  · have A := A1 rfl
    have B := B1 rfl
    simp at U1 U2
    omega
  · have A := A2 rfl
    have B := B2 rfl
    simp at U1 U2
    omega

example : ∃ e, dirEdges { edgeFilter := true, miRows := 4, miCols := 4 } { mode := 1, x := 4, y := 4, haveAbove := true, haveLeft := true } 4 4 90 (fun k => k + 10) (fun _ => 3) = .ok e := ⟨_, rfl⟩

/-- The mode of a block is one of the three smooth ones. -/
def SmoothAt (modes : List (List Int)) (r k : Nat) (b : Bool) : Prop := ∃ m, at2 modes r k = some m ∧ (b = true ↔ m = 9 ∨ m = 10 ∨ m = 11)

theorem isSmooth_luma {c : IntraCtx} {r k : Nat} {b : Bool} (h : isSmooth c r k 0 = .ok b) : SmoothAt c.yModes r k b := by
  unfold isSmooth at h
  rw [if_pos rfl] at h
  obtain ⟨m, hm, h⟩ := Res.inv h
  have := (gget_inv hm).2.2
  simp only [Int.toNat_natCast] at this
  refine ⟨m, this, ?_⟩
  rw [← Except.ok.inj h]
  simp [or_assoc]

/-- **C155, refuted (filter type).**  AV1 uses the smooth strengths for a luma block if the block above or the one to the left has a smooth mode.  The code looks at the one to the left only when there is one,
whatever the one above has. -/
theorem C155_type_refuted {c : IntraCtx} {b : Bool} (hL : c.availL = true) (hc : 0 < c.miCol) (h : filterType c 0 = .ok b) : SmoothAt c.yModes c.miRow (c.miCol - 1) b := by
  unfold filterType at h
  obtain ⟨s, -, h⟩ := Res.inv h
  rw [if_pos rfl, if_pos hL] at h
  unfold smoothCellLeft at h
  rw [if_neg (fun h => absurd h.1 (by decide)), if_neg (fun h => absurd h.1 (by decide)), Int.add_zero, Int.sub_zero, show (c.miCol : Int) - 1 = ((c.miCol - 1 : Nat) : Int) by omega] at h
  exact isSmooth_luma h

/-- **C155 (filter type).**  Without a left neighbour it is that of the block above; without any, not smooth. -/
theorem C155_type_partial {c : IntraCtx} {b : Bool} (hL : c.availL = false) (h : filterType c 0 = .ok b) :
    (c.availU = true → 0 < c.miRow → SmoothAt c.yModes (c.miRow - 1) c.miCol b) ∧ (c.availU = false → b = false) := by
  unfold filterType at h
  obtain ⟨s, hs, h⟩ := Res.inv h
  rw [if_pos rfl, if_neg (by rw [hL]; decide)] at h
  rw [← Except.ok.inj h]
  unfold smoothAbove at hs
  rw [if_pos rfl] at hs
  refine ⟨fun hU hr => ?_, fun hU => ?_⟩
  · rw [if_pos hU] at hs
    unfold smoothCellAbove at hs
    rw [if_neg (fun h => absurd h.1 (by decide)), if_neg (fun h => absurd h.1 (by decide)), Int.add_zero, Int.sub_zero, show (c.miRow : Int) - 1 = ((c.miRow - 1 : Nat) : Int) by omega] at hs
    exact isSmooth_luma hs
  · rw [if_neg (by rw [hU]; decide)] at hs
    exact (Except.ok.inj hs).symm

example : filterType { miRow := 1, miCol := 1, availU := true, availL := true, yModes := [[0, 9], [2, 0]] } 0 = .ok false := rfl
example : filterType { miRow := 1, miCol := 1, availU := true, yModes := [[0, 9], [2, 0]] } 0 = .ok true := rfl

/-! ## C154: blocks -/

/-- The angle of the block. -/
def blockAngle (c : IntraCtx) (a : IntraArgs) : Int := angleOf a.mode (if a.plane = 0 then c.angleY else c.angleUV)

/-- No upsampled edge gets to the pixels, and outside of 90 to 180 degrees they are computed from the edges as they were. -/
theorem directional_inv {c : IntraCtx} {a : IntraArgs} {w h : Nat} {ab lf : Edge} {p : Pred} {E : Edge × Edge} (hp : directionalPred c a w h ab lf = .ok (p, E)) :
    ∃ e dx dy, dirDx (blockAngle c a) = .ok dx ∧ dirDy (blockAngle c a) = .ok dy ∧ dirPixels w h (blockAngle c a) dx dy e = .ok p ∧ e.upA = 0 ∧ e.upL = 0 ∧
      (∀ k, k ≠ 32767 → e.above k = ab k ∧ e.left k = lf k) ∧ (blockAngle c a ≤ 90 ∨ 180 ≤ blockAngle c a → e.above = ab ∧ e.left = lf) := by
  unfold directionalPred at hp
  obtain ⟨m, hm, hp⟩ := Res.inv hp
  obtain ⟨e, he, hp⟩ := Res.inv hp
  obtain ⟨dx, hx, hp⟩ := Res.inv hp
  obtain ⟨dy, hy, hp⟩ := Res.inv hp
  obtain ⟨q, hq, hp⟩ := Res.inv hp
  have hp := Except.ok.inj hp
  injection hp with h1 h2
  subst h1
  have ea : m + (if a.plane = 0 then c.angleY else c.angleUV) * 3 = blockAngle c a := by
    unfold blockAngle angleOf
    rw [(goGet_inv hm).2]; rfl
  rw [ea] at he hx hy hq
  refine ⟨e, dx, dy, hx, hy, hq, ?_⟩
  clear hq hx hy ea hm
  unfold dirEdges at he
  split at he
  · obtain ⟨s, hs, he⟩ := Res.inv he
    obtain ⟨u1, hu1, he⟩ := Res.inv he
    obtain ⟨u2, hu2, he⟩ := Res.inv he
    have U1 := edgeUpsample_inv hu1
    have U2 := edgeUpsample_inv hu2
    rw [← Except.ok.inj he]
    rw [U1, U2]
    refine ⟨rfl, rfl, ?_⟩
    dsimp only
    unfold edgeFilters at hs
    split at hs
    · obtain ⟨t, ht, hs⟩ := Res.inv hs
      obtain ⟨sm, -, hs⟩ := Res.inv hs
      obtain ⟨-, -, hs⟩ := Res.inv hs
      obtain ⟨-, -, hs⟩ := Res.inv hs
      rw [← Except.ok.inj hs]
      unfold cornerIf at ht
      split at ht
      · rename_i hc
        have hc := of_decide_eq_true hc
        obtain ⟨v, hv, ht⟩ := Res.inv ht
        obtain ⟨l2, hl2, ht⟩ := Res.inv ht
        obtain ⟨v2, hv2, ht⟩ := Res.inv ht
        obtain ⟨a2, ha2, ht⟩ := Res.inv ht
        rw [← Except.ok.inj ht]
        obtain ⟨-, -, -, g1⟩ := eset_inv hl2
        obtain ⟨-, -, -, g2⟩ := eset_inv ha2
        exact ⟨fun k hk => ⟨g2 k hk, g1 k hk⟩, fun h => by omega⟩
      · rw [← Except.ok.inj ht]; exact ⟨fun _ _ => ⟨rfl, rfl⟩, fun _ => ⟨rfl, rfl⟩⟩
    · rw [← Except.ok.inj hs]; exact ⟨fun _ _ => ⟨rfl, rfl⟩, fun _ => ⟨rfl, rfl⟩⟩
  · rw [← Except.ok.inj he]; exact ⟨rfl, rfl, fun _ _ => ⟨rfl, rfl⟩, fun _ => ⟨rfl, rfl⟩⟩

/-- **C154 (vertical).**  At 90 degrees each column of the block has the pixel above it. -/
theorem C154_vertical_partial {c : IntraCtx} {a : IntraArgs} {w h : Nat} {ab lf : Edge} {p : Pred} {E : Edge × Edge} (hp : directionalPred c a w h ab lf = .ok (p, E)) (hA : blockAngle c a = 90)
    {i j : Nat} (hi : i < h) (hj : j < w) : p i j = ab j := by
  obtain ⟨e, dx, dy, -, -, hq, -, -, -, h1⟩ := directional_inv hp
  rw [hA] at hq
  rw [pixels_vertical hq hi hj, (h1 (by omega)).1]

/-- **C154, refuted (horizontal).**  At 180 degrees the rows of the block are all the same; a horizontal prediction has the same pixel in each column.  Entry `j` of the left column
goes to column `j`. -/
theorem C154_horizontal_refuted {c : IntraCtx} {a : IntraArgs} {w h : Nat} {ab lf : Edge} {p : Pred} {E : Edge × Edge} (hp : directionalPred c a w h ab lf = .ok (p, E)) (hA : blockAngle c a = 180)
    {i j : Nat} (hi : i < h) (hj : j < w) : p i j = lf j := by
  obtain ⟨e, dx, dy, -, -, hq, -, -, -, h1⟩ := directional_inv hp
  rw [hA] at hq
  rw [pixels_horizontal hq hi hj, (h1 (by omega)).2]

/-- **C154 (above 180 degrees).**  Pixel `(i, j)` is AV1's interpolation in the left column, `(j + 1) * dy` 64ths below row `i`, where `dy` is the derivative for the angle. -/
theorem C154_left_partial {c : IntraCtx} {a : IntraArgs} {w h : Nat} {ab lf : Edge} {p : Pred} {E : Edge × Edge} (hp : directionalPred c a w h ab lf = .ok (p, E)) (hA : 180 < blockAngle c a) :
    ∃ dy, drDerivative[(270 - blockAngle c a).toNat]? = some dy ∧ ∀ i j : Nat, i < h → j < w → av1Interp lf ((j + 1) * dy) i (p i j) := by
  obtain ⟨e, dx, dy, -, hy, hq, -, hu, -, h1⟩ := directional_inv hp
  unfold dirDy at hy
  rw [if_neg (by omega), if_pos hA] at hy
  refine ⟨dy, (goGet_inv hy).2, fun i j hi hj => ?_⟩
  rw [← (h1 (by omega)).2]
  exact pixels_left hA hu hq hi hj

/-- **C154, refuted (below 90 degrees).**  AV1's pixel `(i, j)` is `(i + 1) * dx` 64ths right of column `j` of the row above; the code's is `2 * i * dx` 64ths (before the end of the edge).  So the first row of the block is
the row above it, without any displacement, for every angle. -/
theorem C154_above_refuted {c : IntraCtx} {a : IntraArgs} {w h : Nat} {ab lf : Edge} {p : Pred} {E : Edge × Edge} (hp : directionalPred c a w h ab lf = .ok (p, E)) (hA : blockAngle c a < 90) :
    ∃ dx, drDerivative[(blockAngle c a).toNat]? = some dx ∧ (∀ i j : Nat, i < h → j < w → 2 * i * dx + 64 * j < 64 * ((w + h : Nat) - 1) → av1Interp ab (2 * i * dx) j (p i j)) ∧
      (2 ≤ h → ∀ j : Nat, j < w → p 0 j = ab j) := by
  obtain ⟨e, dx, dy, hx, -, hq, hu, -, -, h1⟩ := directional_inv hp
  unfold dirDx at hx
  rw [if_pos hA] at hx
  rw [← (h1 (by omega)).1]
  exact ⟨dx, (goGet_inv hx).2, fun i j hi hj hb => pixels_above hA hu hq hi hj hb, fun hh j hj => pixels_first_row hA hu hq hh hj⟩

/-- **C154, refuted (between 90 and 180 degrees).**  A block of 4 or more pixels in width, with a directional mode whose angle is above 90 and at most 163 degrees (all of D113 and D135, all but the largest delta of D157, and vertical with
a positive delta), is never predicted. -/
theorem C154_between_refuted {c : IntraCtx} {a : IntraArgs} {w h : Nat} (hw : 4 ≤ w) (hh : 0 < h) (hm : 1 ≤ a.mode ∧ a.mode ≤ 8)
    (hd : -3 ≤ (if a.plane = 0 then c.angleY else c.angleUV) ∧ (if a.plane = 0 then c.angleY else c.angleUV) ≤ 3) (h90 : 90 < blockAngle c a) (h163 : blockAngle c a ≤ 163) (ab lf : Edge)
    (r : Pred × Edge × Edge) : directionalPred c a w h ab lf ≠ .ok r := by
  intro hp
  obtain ⟨e, dx, dy, hx, -, hq, hu, -, -, -⟩ := directional_inv (p := r.1) (E := r.2) hp
  obtain ⟨-, -, ⟨dx', hx', hpos⟩, -⟩ := C154_derivative a.mode (if a.plane = 0 then c.angleY else c.angleUV) hm hd
  rw [show angleOf a.mode (if a.plane = 0 then c.angleY else c.angleUV) = blockAngle c a from rfl] at hx' hpos
  rw [hx] at hx'
  rw [← Except.ok.inj hx'] at hpos
  have hb : dx ≤ 256 := by
    unfold dirDx at hx
    rw [if_neg (by omega), if_pos ⟨h90, by omega⟩] at hx
    obtain ⟨-, hg⟩ := goGet_inv hx
    have key : ∀ k, k < 90 → 17 ≤ k → drDerivative[k]?.getD 0 ≤ 256 := by decide +kernel
    have := key (180 - blockAngle c a).toNat (by omega) (by omega)
    rw [hg] at this
    exact this
  exact pixels_between h90 (by omega) hu hh (hpos ⟨by omega, by omega⟩) (by omega) r.1 hq

/-- The vertical mode: hypotheses met. -/
example : ∃ r, directionalPred {} { mode := 1 } 4 4 (fun k => k + 10) (fun _ => 3) = .ok r := by
  obtain ⟨p, hp⟩ := fillPred_total (w := 4) (h := 4) (f := fun _ j => eget (fun k => k + 10) j) (by decide) (by decide) (fun i j _ _ => ⟨_, eget_of (by omega) (by omega)⟩)
  refine ⟨(p, (fun k => k + 10), (fun _ => 3)), ?_⟩
  unfold directionalPred
  rw [show goGet modeToAngle (1 : Int) = .ok 90 from rfl, Res.ok_bind]
  dsimp only
  unfold dirEdges
  rw [if_neg (by decide)]
  show (do
    let p ← fillPred 4 4 (fun _ j => eget (fun k => k + 10) j)
    pure (p, (fun k => k + 10), (fun _ => 3)) : Res (Pred × Edge × Edge)) = _
  rw [hp]; rfl

example : blockAngle {} { mode := 1 } = 90 ∧ blockAngle {} { mode := 2 } = 180 ∧ blockAngle { angleY := -3 } { mode := 8 } = 58 ∧ blockAngle { angleY := 2 } { mode := 6 } = 163 := by decide

end Gov1
