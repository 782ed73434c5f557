import Verif.Model.Warp
import Verif.Props.InterCalls
/-!
# Samples for local warps
-/
namespace Gov1

/-- The unit is in the tile. -/
def InTile (c : WarpCtx) (r k : Nat) : Prop := c.rowStart ≤ r ∧ r < c.rowEnd ∧ c.colStart ≤ k ∧ k < c.colEnd

/-- The block at the unit is predicted from one reference, the same as the first one of this block. -/
def SameRef (c : WarpCtx) (r k : Nat) : Prop := ∃ rf, at2 c.refFrames r k = some rf ∧ rf.1 ≠ 0 ∧ rf.1 = c.refFrame0 ∧ rf.2 = -1

theorem takeSample_never (c : WarpCtx) (r k : Int) (s : Samples) : takeSample c r k ≠ .ok s := by
  intro h
  unfold takeSample at h
  obtain ⟨_, _, h⟩ := Res.inv h
  obtain ⟨_, _, h⟩ := Res.inv h
  obtain ⟨_, _, h⟩ := Res.inv h
  obtain ⟨_, _, h⟩ := Res.inv h
  cases h

theorem insideTile_iff {c : WarpCtx} {r k : Nat} : insideTile c r k = true ↔ InTile c r k := by
  unfold insideTile InTile
  simp only [Bool.and_eq_true, decide_eq_true_eq]
  omega

/-- A unit that is looked at leaves the counts as they are, and it does not match. -/
theorem addSample_inv {c : WarpCtx} {dr dc : Int} {s s' : Samples} (h : addSample c dr dc s = .ok s') :
    s' = s ∧ (s.scanned = 0 → ∀ r k : Nat, (r : Int) = c.miRow + dr → (k : Int) = c.miCol + dc → InTile c r k → ¬ SameRef c r k) := by
  unfold addSample at h
  split at h
  · next h8 => exact ⟨(Except.ok.inj h).symm, fun h0 => by omega⟩
  · split at h
    · next hi =>
      refine ⟨(Except.ok.inj h).symm, fun _ r k hr hk ht => ?_⟩
      rw [← hr, ← hk] at hi
      rw [insideTile_iff.2 ht] at hi
      simp at hi
    · unfold sampleCell at h
      obtain ⟨rf, hrf, h⟩ := Res.inv h
      have key : ∀ r k : Nat, (r : Int) = c.miRow + dr → (k : Int) = c.miCol + dc → at2 c.refFrames r k = some rf := by
        intro r k hr hk
        have := (gget_inv hrf).2.2
        rwa [← hr, ← hk, Int.toNat_natCast, Int.toNat_natCast] at this
      split at h
      · next hz => exact ⟨(Except.ok.inj h).symm, fun _ r k hr hk _ ⟨rf', e, h1, h2, h3⟩ => by rw [key r k hr hk] at e; cases e; exact h1 hz⟩
      · split at h
        · next hz => exact ⟨(Except.ok.inj h).symm, fun _ r k hr hk _ ⟨rf', e, h1, h2, h3⟩ => by rw [key r k hr hk] at e; cases e; exact hz h2⟩
        · split at h
          · next hz => exact ⟨(Except.ok.inj h).symm, fun _ r k hr hk _ ⟨rf', e, h1, h2, h3⟩ => by rw [key r k hr hk] at e; cases e; exact hz h3⟩
          · exact absurd h (takeSample_never _ _ _ _)

theorem scanAbove_inv {c : WarpCtx} {w4 fuel i : Nat} {s s' : Samples} (h : scanAbove c w4 fuel i s = .ok s') : s' = s := by
  induction fuel generalizing i s with
  | zero =>
    unfold scanAbove at h
    split at h
    · cases h
    · exact (Except.ok.inj h).symm
  | succ fuel ih =>
    unfold scanAbove at h
    split at h
    · obtain ⟨_, _, h⟩ := Res.inv h
      obtain ⟨_, _, h⟩ := Res.inv h
      obtain ⟨t, ht, h⟩ := Res.inv h
      rw [ih h]
      exact (addSample_inv ht).1
    · exact (Except.ok.inj h).symm

theorem scanLeft_inv {c : WarpCtx} {h4 fuel i : Nat} {s s' : Samples} (h : scanLeft c h4 fuel i s = .ok s') : s' = s := by
  induction fuel generalizing i s with
  | zero =>
    unfold scanLeft at h
    split at h
    · cases h
    · exact (Except.ok.inj h).symm
  | succ fuel ih =>
    unfold scanLeft at h
    split at h
    · obtain ⟨_, _, h⟩ := Res.inv h
      obtain ⟨_, _, h⟩ := Res.inv h
      obtain ⟨t, ht, h⟩ := Res.inv h
      rw [ih h]
      exact (addSample_inv ht).1
    · exact (Except.ok.inj h).symm

theorem warpAbove_inv {c : WarpCtx} {w4 : Nat} {s : Samples} {p : Samples × Bool × Bool} (h : warpAbove c w4 s = .ok p) : p.1 = s := by
  unfold warpAbove at h
  split at h
  · obtain ⟨_, _, h⟩ := Res.inv h
    obtain ⟨_, _, h⟩ := Res.inv h
    split at h
    · obtain ⟨t, ht, h⟩ := Res.inv h
      rw [← Except.ok.inj h]; exact (addSample_inv ht).1
    · obtain ⟨t, ht, h⟩ := Res.inv h
      rw [← Except.ok.inj h]; exact scanAbove_inv ht
  · rw [← Except.ok.inj h]

theorem warpLeft_inv {c : WarpCtx} {h4 : Nat} {tl : Bool} {s : Samples} {p : Samples × Bool} (h : warpLeft c h4 tl s = .ok p) : p.1 = s := by
  unfold warpLeft at h
  split at h
  · obtain ⟨_, _, h⟩ := Res.inv h
    obtain ⟨_, _, h⟩ := Res.inv h
    split at h
    · obtain ⟨t, ht, h⟩ := Res.inv h
      rw [← Except.ok.inj h]; exact (addSample_inv ht).1
    · obtain ⟨t, ht, h⟩ := Res.inv h
      rw [← Except.ok.inj h]; exact scanLeft_inv ht
  · rw [← Except.ok.inj h]

theorem warpCorners_inv {c : WarpCtx} {w4 h4 : Nat} {tl tr : Bool} {s s' : Samples} (h : warpCorners c w4 h4 tl tr s = .ok s') : s' = s := by
  unfold warpCorners at h
  obtain ⟨t, ht, h⟩ := Res.inv h
  have e1 : t = s := by
    unfold warpTopLeft at ht
    split at ht
    · exact (addSample_inv ht).1
    · exact (Except.ok.inj ht).symm
  split at h
  · rw [(addSample_inv h).1, e1]
  · rw [← Except.ok.inj h, e1]

/-- **C172 (refuted).**  No sample is ever collected: if the search ends without a panic, it has found none. -/
theorem C172_none_refuted {c : WarpCtx} {s : Samples} (h : findWarpSamples c = .ok s) : s.num = 0 ∧ s.scanned = 0 := by
  unfold findWarpSamples at h
  obtain ⟨w4, -, h⟩ := Res.inv h
  obtain ⟨h4, -, h⟩ := Res.inv h
  obtain ⟨a, ha, h⟩ := Res.inv h
  obtain ⟨l, hl, h⟩ := Res.inv h
  obtain ⟨t, ht, h⟩ := Res.inv h
  have e : t = {} := by rw [warpCorners_inv ht, warpLeft_inv hl, warpAbove_inv ha]
  rw [← Except.ok.inj h, e]
  exact ⟨rfl, rfl⟩

/-- **C172 (refuted).**  With a block above, or to the left, that has the same single reference, the search panics. -/
theorem C172_found_refuted {c : WarpCtx} (s : Samples)
    (hm : (c.availU = true ∧ 0 < c.miRow ∧ c.miCol < c.miCols ∧ InTile c (c.miRow - 1) c.miCol ∧ SameRef c (c.miRow - 1) c.miCol) ∨
          (c.availL = true ∧ 0 < c.miCol ∧ c.miRow < c.miRows ∧ InTile c c.miRow (c.miCol - 1) ∧ SameRef c c.miRow (c.miCol - 1))) :
    findWarpSamples c ≠ .ok s := by
  intro h
  unfold findWarpSamples at h
  obtain ⟨w4, hw, h⟩ := Res.inv h
  obtain ⟨h4, hh, h⟩ := Res.inv h
  obtain ⟨a, ha, h⟩ := Res.inv h
  obtain ⟨l, hl, h⟩ := Res.inv h
  have pos : (∀ n ∈ num4x4Wide, 0 < n) ∧ (∀ n ∈ num4x4High, 0 < n) := by decide
  have hw0 := pos.1 _ (goGet_memOf hw)
  have hh0 := pos.2 _ (goGet_memOf hh)
  rcases hm with ⟨hu, h1, h2, h3, h4'⟩ | ⟨hu, h1, h2, h3, h4'⟩
  · unfold warpAbove at ha
    rw [if_pos hu] at ha
    obtain ⟨_, _, ha⟩ := Res.inv ha
    obtain ⟨_, _, ha⟩ := Res.inv ha
    have key : ∀ t, addSample c (-1) ((0 : Nat) : Int) {} ≠ .ok t := fun t ht =>
      (addSample_inv ht).2 rfl (c.miRow - 1) c.miCol (by omega) (by omega) h3 h4'
    split at ha
    · obtain ⟨t, ht, -⟩ := Res.inv ha
      exact key t ht
    · obtain ⟨t, ht, -⟩ := Res.inv ha
      obtain ⟨n, rfl⟩ : ∃ n, w4 = n + 1 := ⟨w4 - 1, by omega⟩
      unfold scanAbove at ht
      rw [if_pos (by omega)] at ht
      obtain ⟨_, _, ht⟩ := Res.inv ht
      obtain ⟨_, _, ht⟩ := Res.inv ht
      obtain ⟨t', ht', -⟩ := Res.inv ht
      exact key t' ht'
  · rw [warpAbove_inv ha] at hl
    unfold warpLeft at hl
    rw [if_pos hu] at hl
    obtain ⟨_, _, hl⟩ := Res.inv hl
    obtain ⟨_, _, hl⟩ := Res.inv hl
    have key : ∀ t, addSample c ((0 : Nat) : Int) (-1) {} ≠ .ok t := fun t ht =>
      (addSample_inv ht).2 rfl c.miRow (c.miCol - 1) (by omega) (by omega) h3 h4'
    split at hl
    · obtain ⟨t, ht, -⟩ := Res.inv hl
      exact key t ht
    · obtain ⟨t, ht, -⟩ := Res.inv hl
      obtain ⟨n, rfl⟩ : ∃ n, h4 = n + 1 := ⟨h4 - 1, by omega⟩
      unfold scanLeft at ht
      rw [if_pos (by omega)] at ht
      obtain ⟨_, _, ht⟩ := Res.inv ht
      obtain ⟨_, _, ht⟩ := Res.inv ht
      obtain ⟨t', ht', -⟩ := Res.inv ht
      exact key t' ht'

/-! ## The search ends -/

theorem addSample_ends (c : WarpCtx) (dr dc : Int) (s : Samples) : Ends (addSample c dr dc s) := by
  unfold addSample sampleCell takeSample
  split
  · exact .pure _
  split
  · exact .pure _
  refine (Ends.gget _ _ _).bind' fun _ => ?_
  split
  · exact .pure _
  split
  · exact .pure _
  split
  · exact .pure _
  exact (Ends.gget _ _ _).bind' fun _ => (Ends.goGet _ _).bind' fun _ => (Ends.goGet _ _).bind' fun _ => (Ends.gget _ _ _).bind' fun _ => .index

theorem num4_pos : (∀ n ∈ num4x4Wide, 0 < n) ∧ (∀ n ∈ num4x4High, 0 < n) := by decide

theorem scanAbove_ends {c : WarpCtx} {w4 : Nat} (hw : 0 < w4) {fuel i : Nat} {s : Samples} (hf : w4 ≤ i + fuel) : Ends (scanAbove c w4 fuel i s) := by
  induction fuel generalizing i s with
  | zero =>
    unfold scanAbove
    rw [if_neg (by omega)]
    exact .pure _
  | succ fuel ih =>
    unfold scanAbove
    split
    · refine (Ends.gget _ _ _).bind' fun _ => (Ends.goGet _ _).bind fun n hn => (addSample_ends _ _ _ _).bind' fun _ => ih ?_
      have := num4_pos.1 _ (goGet_memOf hn)
      omega
    · exact .pure _

theorem scanLeft_ends {c : WarpCtx} {h4 : Nat} (hw : 0 < h4) {fuel i : Nat} {s : Samples} (hf : h4 ≤ i + fuel) : Ends (scanLeft c h4 fuel i s) := by
  induction fuel generalizing i s with
  | zero =>
    unfold scanLeft
    rw [if_neg (by omega)]
    exact .pure _
  | succ fuel ih =>
    unfold scanLeft
    split
    · refine (Ends.gget _ _ _).bind' fun _ => (Ends.goGet _ _).bind fun n hn => (addSample_ends _ _ _ _).bind' fun _ => ih ?_
      have := num4_pos.2 _ (goGet_memOf hn)
      omega
    · exact .pure _

/-- **C172 (ends).**  The search ends, normally or with a panic, whatever the sizes of the neighbouring blocks. -/
theorem C172_ends (c : WarpCtx) : findWarpSamples c ≠ .error .hang := by
  show Ends _
  unfold findWarpSamples warpAbove warpLeft warpCorners warpTopLeft
  refine (Ends.goGet _ _).bind fun w4 hw => (Ends.goGet _ _).bind fun h4 hh => Ends.bind' ?_ fun a => Ends.bind' ?_ fun l => Ends.bind' ?_ fun _ => .pure _
  · split
    · refine (Ends.gget _ _ _).bind' fun _ => (Ends.goGet _ _).bind' fun _ => ?_
      split
      · exact (addSample_ends _ _ _ _).bind' fun _ => .pure _
      · exact (scanAbove_ends (num4_pos.1 _ (goGet_memOf hw)) (by omega)).bind' fun _ => .pure _
    · exact .pure _
  · split
    · refine (Ends.gget _ _ _).bind' fun _ => (Ends.goGet _ _).bind' fun _ => ?_
      split
      · exact (addSample_ends _ _ _ _).bind' fun _ => .pure _
      · exact (scanLeft_ends (num4_pos.2 _ (goGet_memOf hh)) (by omega)).bind' fun _ => .pure _
    · exact .pure _
  · refine Ends.bind' ?_ fun _ => ?_
    · split
      · exact addSample_ends _ _ _ _
      · exact .pure _
    · split
      · exact addSample_ends _ _ _ _
      · exact .pure _

/-! ## No neighbour with the same reference -/

/-- The arrays cover the frame, and the tile lies in them. -/
structure WarpFits (c : WarpCtx) (H W : Nat) : Prop where
  refs : Shape H W c.refFrames
  sizes : Shape H W c.miSizes
  small : ∀ r ∈ c.miSizes, ∀ z ∈ r, z < 22
  tile : c.rowEnd ≤ H ∧ c.colEnd ≤ W
  frame : c.miRows ≤ H ∧ c.miCols ≤ W
  here : c.miRow < c.miRows ∧ c.miCol < c.miCols
  size : c.miSize < 22
  up : c.availU = true → 0 < c.miRow
  left : c.availL = true → 0 < c.miCol

theorem addSample_none {c : WarpCtx} {H W : Nat} (hf : WarpFits c H W) (hn : ∀ r k, InTile c r k → ¬ SameRef c r k) (dr dc : Int) (s : Samples) :
    addSample c dr dc s = .ok s := by
  unfold addSample
  split
  · rfl
  by_cases hi : insideTile c (c.miRow + dr) (c.miCol + dc) = true
  · rw [if_neg (by simp [hi])]
    have hpos : 0 ≤ (c.miRow : Int) + dr ∧ 0 ≤ (c.miCol : Int) + dc := by
      unfold insideTile at hi
      simp only [Bool.and_eq_true, decide_eq_true_eq] at hi
      omega
    obtain ⟨r, hr⟩ := Int.eq_ofNat_of_zero_le hpos.1
    obtain ⟨k, hk⟩ := Int.eq_ofNat_of_zero_le hpos.2
    rw [hr, hk] at hi ⊢
    have ht := insideTile_iff.1 hi
    have hno := hn r k ht
    unfold InTile at ht
    have := hf.tile
    obtain ⟨rf, hrf⟩ := hf.refs.at2 (i := r) (j := k) (by omega) (by omega)
    unfold sampleCell
    rw [gget_at2 hrf, Res.ok_bind]
    by_cases h1 : rf.1 = 0
    · rw [if_pos h1]; rfl
    · by_cases h2 : rf.1 = c.refFrame0
      · by_cases h3 : rf.2 = -1
        · exact absurd ⟨rf, hrf, h1, h2, h3⟩ hno
        · rw [if_neg h1, if_neg (by simpa using h2), if_pos h3]; rfl
      · rw [if_neg h1, if_pos h2]; rfl
  · rw [if_pos (by simpa using hi)]; rfl

theorem size_get {c : WarpCtx} {H W : Nat} (hf : WarpFits c H W) {r k : Nat} (hr : r < H) (hk : k < W) :
    ∃ z a b, gget c.miSizes (r : Int) (k : Int) = .ok z ∧ goGet num4x4Wide z = .ok a ∧ goGet num4x4High z = .ok b ∧ 0 < a ∧ 0 < b := by
  obtain ⟨z, hz⟩ := hf.sizes.at2 (i := r) (j := k) hr hk
  have hz22 : z < 22 := by
    have := hz
    unfold at2 at this
    rw [Option.bind_eq_some_iff] at this
    obtain ⟨row, h1, h2⟩ := this
    exact hf.small _ (List.mem_of_getElem? h1) _ (List.mem_of_getElem? h2)
  have ha : z < num4x4Wide.length := hz22
  have hb : z < num4x4High.length := hz22
  refine ⟨z, num4x4Wide[z], num4x4High[z], gget_at2 hz, goGet_of' (List.getElem?_eq_getElem ha), goGet_of' (List.getElem?_eq_getElem hb), ?_, ?_⟩
  · exact num4_pos.1 _ (List.getElem_mem ha)
  · exact num4_pos.2 _ (List.getElem_mem hb)

theorem scanAbove_none {c : WarpCtx} {H W : Nat} (hf : WarpFits c H W) (hn : ∀ r k, InTile c r k → ¬ SameRef c r k) (hu : 0 < c.miRow) {w4 : Nat} (hw : 0 < w4)
    {fuel i : Nat} {s : Samples} (hfu : w4 ≤ i + fuel) : scanAbove c w4 fuel i s = .ok s := by
  induction fuel generalizing i with
  | zero => unfold scanAbove; rw [if_neg (by omega)]; rfl
  | succ fuel ih =>
    unfold scanAbove
    split
    · next hi =>
      have := hf.frame
      have := hf.here
      obtain ⟨z, a, b, h1, h2, -, h4, -⟩ := size_get hf (r := c.miRow - 1) (k := c.miCol + i) (by omega) (by omega)
      rw [show (c.miRow : Int) - 1 = ((c.miRow - 1 : Nat) : Int) by omega, h1, Res.ok_bind, h2, Res.ok_bind, addSample_none hf hn, Res.ok_bind]
      exact ih (by omega)
    · rfl

theorem scanLeft_none {c : WarpCtx} {H W : Nat} (hf : WarpFits c H W) (hn : ∀ r k, InTile c r k → ¬ SameRef c r k) (hu : 0 < c.miCol) {h4 : Nat} (hw : 0 < h4)
    {fuel i : Nat} {s : Samples} (hfu : h4 ≤ i + fuel) : scanLeft c h4 fuel i s = .ok s := by
  induction fuel generalizing i with
  | zero => unfold scanLeft; rw [if_neg (by omega)]; rfl
  | succ fuel ih =>
    unfold scanLeft
    split
    · next hi =>
      have := hf.frame
      have := hf.here
      obtain ⟨z, a, b, h1, -, h2, -, h4⟩ := size_get hf (r := c.miRow + i) (k := c.miCol - 1) (by omega) (by omega)
      rw [show (c.miCol : Int) - 1 = ((c.miCol - 1 : Nat) : Int) by omega, h1, Res.ok_bind, h2, Res.ok_bind, addSample_none hf hn, Res.ok_bind]
      exact ih (by omega)
    · rfl

/-- **C172 (partial).**  If no block of the tile has the same single reference, the search ends normally and finds nothing.  Missing: the samples
themselves (`C172_found_refuted`). -/
theorem C172_search_partial {c : WarpCtx} {H W : Nat} (hf : WarpFits c H W) (hn : ∀ r k, InTile c r k → ¬ SameRef c r k) : findWarpSamples c = .ok ⟨0, 0⟩ := by
  have ha : c.miSize < num4x4Wide.length := hf.size
  have hb : c.miSize < num4x4High.length := hf.size
  have pa := num4_pos.1 _ (List.getElem_mem ha)
  have pb := num4_pos.2 _ (List.getElem_mem hb)
  have h1 := hf.frame
  have h2 := hf.here
  unfold findWarpSamples
  rw [goGet_of' (List.getElem?_eq_getElem ha), Res.ok_bind, goGet_of' (List.getElem?_eq_getElem hb), Res.ok_bind]
  generalize num4x4Wide[c.miSize] = w4 at pa
  generalize num4x4High[c.miSize] = h4 at pb
  have kA : ∃ q, warpAbove c w4 {} = .ok ({}, q) := by
    unfold warpAbove
    split
    · next hu =>
      have hu := hf.up hu
      obtain ⟨z, a, b, e1, e2, -, -, -⟩ := size_get hf (r := c.miRow - 1) (k := c.miCol) (by omega) (by omega)
      rw [show (c.miRow : Int) - 1 = ((c.miRow - 1 : Nat) : Int) by omega, e1, Res.ok_bind, e2, Res.ok_bind]
      split
      · rw [addSample_none hf hn, Res.ok_bind]; exact ⟨_, rfl⟩
      · rw [scanAbove_none hf hn hu pa (by omega), Res.ok_bind]; exact ⟨_, rfl⟩
    · exact ⟨_, rfl⟩
  obtain ⟨q, hq⟩ := kA
  rw [hq, Res.ok_bind]
  have kL : ∃ t, warpLeft c h4 q.1 {} = .ok ({}, t) := by
    unfold warpLeft
    split
    · next hu =>
      have hu := hf.left hu
      obtain ⟨z, a, b, e1, -, e2, -, -⟩ := size_get hf (r := c.miRow) (k := c.miCol - 1) (by omega) (by omega)
      rw [show (c.miCol : Int) - 1 = ((c.miCol - 1 : Nat) : Int) by omega, e1, Res.ok_bind, e2, Res.ok_bind]
      split
      · rw [addSample_none hf hn, Res.ok_bind]; exact ⟨_, rfl⟩
      · rw [scanLeft_none hf hn hu pb (by omega), Res.ok_bind]; exact ⟨_, rfl⟩
    · exact ⟨_, rfl⟩
  obtain ⟨t, ht⟩ := kL
  rw [ht, Res.ok_bind]
  have kC : warpCorners c w4 h4 t q.2 {} = .ok {} := by
    unfold warpCorners
    have : warpTopLeft c t {} = (.ok {} : Res Samples) := by
      unfold warpTopLeft
      split
      · exact addSample_none hf hn _ _ _
      · rfl
    rw [this, Res.ok_bind]
    split
    · exact addSample_none hf hn _ _ _
    · rfl
  rw [kC, Res.ok_bind]
  rfl

/-! ## Exactly the units AV1 looks at -/

/-- A unit in the tile, at an offset from the block, whose block has the same single reference. -/
def WarpHit (c : WarpCtx) (dr dc : Int) : Prop :=
  ∃ r k : Nat, (r : Int) = c.miRow + dr ∧ (k : Int) = c.miCol + dc ∧ InTile c r k ∧ SameRef c r k

/-- A scan over neighbouring blocks from unit `i` looks at unit `j`: it goes on by the length of the block found, at most `n`. -/
inductive Visits (len : Nat → Option Nat) (limit : Int) (n : Nat) : Nat → Nat → Prop
  | here {i : Nat} : (i : Int) < limit → Visits len limit n i i
  | later {i j m : Nat} : (i : Int) < limit → len i = some m → Visits len limit n (i + min n m) j → Visits len limit n i j

/-- The width, in units, of the block at a unit. -/
def blockUnitsW (c : WarpCtx) (r k : Nat) : Option Nat := (at2 c.miSizes r k).bind (num4x4Wide[·]?)
/-- The height, in units, of the block at a unit. -/
def blockUnitsH (c : WarpCtx) (r k : Nat) : Option Nat := (at2 c.miSizes r k).bind (num4x4High[·]?)

/-- The offsets AV1 looks at for a block of `w` by `h` units (7.10.4.1): the units above, those to the left, the unit above and to the left
unless it belongs to the same block as one of these, and the unit above and to the right unless it belongs to the block above or the block is
larger than 64 pixels. -/
def WarpLooks (c : WarpCtx) (w h : Nat) (dr dc : Int) : Prop :=
  (c.availU = true ∧ dr = -1 ∧ ∃ src, blockUnitsW c (c.miRow - 1) c.miCol = some src ∧
    (w ≤ src ∧ dc = 0 ∨
     src < w ∧ ∃ j : Nat, dc = j ∧ Visits (fun i => blockUnitsW c (c.miRow - 1) (c.miCol + i)) (min (w : Int) (c.miCols - c.miCol)) w 0 j)) ∨
  (c.availL = true ∧ dc = -1 ∧ ∃ src, blockUnitsH c c.miRow (c.miCol - 1) = some src ∧
    (h ≤ src ∧ dr = 0 ∨
     src < h ∧ ∃ j : Nat, dr = j ∧ Visits (fun i => blockUnitsH c (c.miRow + i) (c.miCol - 1)) (min (h : Int) (c.miRows - c.miRow)) h 0 j)) ∨
  (dr = -1 ∧ dc = -1 ∧
    (c.availU = true → ∀ src, blockUnitsW c (c.miRow - 1) c.miCol = some src → w ≤ src → src ∣ c.miCol) ∧
    (c.availL = true → ∀ src, blockUnitsH c c.miRow (c.miCol - 1) = some src → h ≤ src → src ∣ c.miRow)) ∨
  (dr = -1 ∧ dc = w ∧ w ≤ 16 ∧ h ≤ 16 ∧
    (c.availU = true → ∀ src, blockUnitsW c (c.miRow - 1) c.miCol = some src → w ≤ src → src ≤ c.miCol % src + w))

theorem addSample_hit {c : WarpCtx} {H W : Nat} (hf : WarpFits c H W) {dr dc : Int} : addSample c dr dc {} = .ok {} ↔ ¬ WarpHit c dr dc := by
  constructor
  · rintro h ⟨r, k, hr, hk, h1, h2⟩
    exact (addSample_inv h).2 rfl r k hr hk h1 h2
  · intro hno
    unfold addSample
    rw [if_neg (by decide)]
    by_cases hi : insideTile c (c.miRow + dr) (c.miCol + dc) = true
    · rw [if_neg (by simp [hi])]
      have hpos : 0 ≤ (c.miRow : Int) + dr ∧ 0 ≤ (c.miCol : Int) + dc := by
        unfold insideTile at hi
        simp only [Bool.and_eq_true, decide_eq_true_eq] at hi
        omega
      obtain ⟨r, hr⟩ := Int.eq_ofNat_of_zero_le hpos.1
      obtain ⟨k, hk⟩ := Int.eq_ofNat_of_zero_le hpos.2
      have hno : ¬ (InTile c r k ∧ SameRef c r k) := fun h => hno ⟨r, k, hr.symm, hk.symm, h⟩
      rw [hr, hk] at hi ⊢
      have ht := insideTile_iff.1 hi
      have hno : ¬ SameRef c r k := fun h => hno ⟨ht, h⟩
      unfold InTile at ht
      have := hf.tile
      obtain ⟨rf, hrf⟩ := hf.refs.at2 (i := r) (j := k) (by omega) (by omega)
      unfold sampleCell
      rw [gget_at2 hrf, Res.ok_bind]
      by_cases h1 : rf.1 = 0
      · rw [if_pos h1]; rfl
      · by_cases h2 : rf.1 = c.refFrame0
        · by_cases h3 : rf.2 = -1
          · exact absurd ⟨rf, hrf, h1, h2, h3⟩ hno
          · rw [if_neg h1, if_neg (by simpa using h2), if_pos h3]; rfl
        · rw [if_neg h1, if_pos h2]; rfl
    · rw [if_pos (by simpa using hi)]; rfl

theorem size_units_warp {c : WarpCtx} {H W : Nat} (hf : WarpFits c H W) {r k : Nat} (hr : r < H) (hk : k < W) :
    ∃ z a b, gget c.miSizes (r : Int) (k : Int) = .ok z ∧ goGet num4x4Wide z = .ok a ∧ goGet num4x4High z = .ok b ∧ 0 < a ∧ 0 < b ∧
      blockUnitsW c r k = some a ∧ blockUnitsH c r k = some b := by
  obtain ⟨z, a, b, h1, h2, h3, h4, h5⟩ := size_get hf hr hk
  have hz := (gget_inv h1).2.2
  rw [Int.toNat_natCast, Int.toNat_natCast] at hz
  have ha := (goGet_inv h2).2
  have hb := (goGet_inv h3).2
  rw [Int.toNat_natCast] at ha hb
  exact ⟨z, a, b, h1, h2, h3, h4, h5, by unfold blockUnitsW; rw [hz]; exact ha, by unfold blockUnitsH; rw [hz]; exact hb⟩

theorem scanAbove_hit {c : WarpCtx} {H W : Nat} (hf : WarpFits c H W) (hu : 0 < c.miRow) {w4 : Nat} (hw : 0 < w4) {fuel i : Nat} (hfu : w4 ≤ i + fuel) :
    scanAbove c w4 fuel i {} = .ok {} ↔
      ∀ j, Visits (fun i => blockUnitsW c (c.miRow - 1) (c.miCol + i)) (min (w4 : Int) (c.miCols - c.miCol)) w4 i j → ¬ WarpHit c (-1) j := by
  induction fuel generalizing i with
  | zero =>
    unfold scanAbove
    rw [if_neg (by omega)]
    refine ⟨fun _ j hj => ?_, fun _ => rfl⟩
    cases hj <;> omega
  | succ fuel ih =>
    unfold scanAbove
    split
    · next hi =>
      have := hf.frame
      have := hf.here
      obtain ⟨z, a, b, h1, h2, -, h4, -, h6, -⟩ := size_units_warp hf (r := c.miRow - 1) (k := c.miCol + i) (by omega) (by omega)
      rw [show (c.miRow : Int) - 1 = ((c.miRow - 1 : Nat) : Int) by omega, h1, Res.ok_bind, h2, Res.ok_bind]
      constructor
      · intro h j hj
        obtain ⟨t, ht, h⟩ := Res.inv h
        obtain rfl := (addSample_inv ht).1
        cases hj with
        | here _ => exact (addSample_hit hf).mp ht
        | later _ hm hj =>
          rw [h6] at hm
          cases hm
          exact (ih (by omega)).mp h j hj
      · intro h
        rw [(addSample_hit hf).mpr (h i (.here hi)), Res.ok_bind]
        exact (ih (by omega)).mpr fun j hj => h j (.later hi h6 hj)
    · next hi =>
      refine ⟨fun _ j hj => ?_, fun _ => rfl⟩
      cases hj <;> omega

theorem scanLeft_hit {c : WarpCtx} {H W : Nat} (hf : WarpFits c H W) (hu : 0 < c.miCol) {h4 : Nat} (hw : 0 < h4) {fuel i : Nat} (hfu : h4 ≤ i + fuel) :
    scanLeft c h4 fuel i {} = .ok {} ↔
      ∀ j, Visits (fun i => blockUnitsH c (c.miRow + i) (c.miCol - 1)) (min (h4 : Int) (c.miRows - c.miRow)) h4 i j → ¬ WarpHit c j (-1) := by
  induction fuel generalizing i with
  | zero =>
    unfold scanLeft
    rw [if_neg (by omega)]
    refine ⟨fun _ j hj => ?_, fun _ => rfl⟩
    cases hj <;> omega
  | succ fuel ih =>
    unfold scanLeft
    split
    · next hi =>
      have := hf.frame
      have := hf.here
      obtain ⟨z, a, b, h1, -, h2, -, h4, -, h6⟩ := size_units_warp hf (r := c.miRow + i) (k := c.miCol - 1) (by omega) (by omega)
      rw [show (c.miCol : Int) - 1 = ((c.miCol - 1 : Nat) : Int) by omega, h1, Res.ok_bind, h2, Res.ok_bind]
      constructor
      · intro h j hj
        obtain ⟨t, ht, h⟩ := Res.inv h
        obtain rfl := (addSample_inv ht).1
        cases hj with
        | here _ => exact (addSample_hit hf).mp ht
        | later _ hm hj =>
          rw [h6] at hm
          cases hm
          exact (ih (by omega)).mp h j hj
      · intro h
        rw [(addSample_hit hf).mpr (h i (.here hi)), Res.ok_bind]
        exact (ih (by omega)).mpr fun j hj => h j (.later hi h6 hj)
    · next hi =>
      refine ⟨fun _ j hj => ?_, fun _ => rfl⟩
      cases hj <;> omega

theorem warpAbove_hit {c : WarpCtx} {H W : Nat} (hf : WarpFits c H W) {w4 : Nat} (hw : 0 < w4) (q : Bool × Bool) :
    warpAbove c w4 {} = .ok ({}, q) ↔
      (c.availU = true → ∃ src, blockUnitsW c (c.miRow - 1) c.miCol = some src ∧
        (w4 ≤ src → ¬ WarpHit c (-1) 0 ∧ q = (decide (src ∣ c.miCol), decide (src ≤ c.miCol % src + w4))) ∧
        (src < w4 → q = (true, true) ∧
          ∀ j, Visits (fun i => blockUnitsW c (c.miRow - 1) (c.miCol + i)) (min (w4 : Int) (c.miCols - c.miCol)) w4 0 j → ¬ WarpHit c (-1) j)) ∧
      (c.availU = false → q = (true, true)) := by
  unfold warpAbove
  have := hf.frame
  have := hf.here
  by_cases hu : c.availU = true
  · rw [if_pos hu]
    have hu' := hf.up hu
    obtain ⟨z, a, b, e1, e2, -, ha, -, e6, -⟩ := size_units_warp hf (r := c.miRow - 1) (k := c.miCol) (by omega) (by omega)
    rw [show (c.miRow : Int) - 1 = ((c.miRow - 1 : Nat) : Int) by omega, e1, Res.ok_bind, e2, Res.ok_bind]
    have d1 : decide (c.miCol % a = 0) = decide (a ∣ c.miCol) := by simp [Nat.dvd_iff_mod_eq_zero]
    have d2 : decide ((a : Int) - (c.miCol % a : Nat) ≤ w4) = decide (a ≤ c.miCol % a + w4) := by congr 1; exact propext (by omega)
    simp only [hu, e6, Option.some.injEq, exists_eq_left', Bool.true_eq_false, false_implies, and_true, true_implies]
    by_cases hle : w4 ≤ a
    · rw [if_pos hle, d1, d2]
      constructor
      · intro h
        obtain ⟨t, ht, h⟩ := Res.inv h
        obtain rfl := (addSample_inv ht).1
        cases h
        exact ⟨fun _ => ⟨(addSample_hit hf).mp ht, rfl⟩, fun h => absurd h (by omega)⟩
      · rintro ⟨h, -⟩
        obtain ⟨h1, rfl⟩ := h hle
        rw [(addSample_hit hf).mpr h1]; rfl
    · rw [if_neg hle]
      constructor
      · intro h
        obtain ⟨t, ht, h⟩ := Res.inv h
        obtain rfl := scanAbove_inv ht
        cases h
        exact ⟨fun h => absurd h hle, fun _ => ⟨rfl, (scanAbove_hit hf hu' hw (by omega)).mp ht⟩⟩
      · rintro ⟨-, h⟩
        obtain ⟨rfl, h1⟩ := h (by omega)
        rw [(scanAbove_hit hf hu' hw (by omega)).mpr h1]; rfl
  · rw [if_neg hu]
    constructor
    · intro h
      cases h
      exact ⟨fun h => absurd h hu, fun _ => rfl⟩
    · rintro ⟨-, h⟩
      rw [h (by simpa using hu)]; rfl

theorem warpLeft_hit {c : WarpCtx} {H W : Nat} (hf : WarpFits c H W) {h4 : Nat} (hw : 0 < h4) (tl q : Bool) :
    warpLeft c h4 tl {} = .ok ({}, q) ↔
      (c.availL = true → ∃ src, blockUnitsH c c.miRow (c.miCol - 1) = some src ∧
        (h4 ≤ src → ¬ WarpHit c 0 (-1) ∧ q = (tl && decide (src ∣ c.miRow))) ∧
        (src < h4 → q = tl ∧
          ∀ j, Visits (fun i => blockUnitsH c (c.miRow + i) (c.miCol - 1)) (min (h4 : Int) (c.miRows - c.miRow)) h4 0 j → ¬ WarpHit c j (-1))) ∧
      (c.availL = false → q = tl) := by
  unfold warpLeft
  have := hf.frame
  have := hf.here
  by_cases hu : c.availL = true
  · rw [if_pos hu]
    have hu' := hf.left hu
    obtain ⟨z, a, b, e1, -, e2, -, ha, -, e6⟩ := size_units_warp hf (r := c.miRow) (k := c.miCol - 1) (by omega) (by omega)
    rw [show (c.miCol : Int) - 1 = ((c.miCol - 1 : Nat) : Int) by omega, e1, Res.ok_bind, e2, Res.ok_bind]
    have d1 : decide (c.miRow % b = 0) = decide (b ∣ c.miRow) := by simp [Nat.dvd_iff_mod_eq_zero]
    simp only [hu, e6, Option.some.injEq, exists_eq_left', Bool.true_eq_false, false_implies, and_true, true_implies]
    by_cases hle : h4 ≤ b
    · rw [if_pos hle, d1]
      constructor
      · intro h
        obtain ⟨t, ht, h⟩ := Res.inv h
        obtain rfl := (addSample_inv ht).1
        cases h
        exact ⟨fun _ => ⟨(addSample_hit hf).mp ht, rfl⟩, fun h => absurd h (by omega)⟩
      · rintro ⟨h, -⟩
        obtain ⟨h1, rfl⟩ := h hle
        rw [(addSample_hit hf).mpr h1]; rfl
    · rw [if_neg hle]
      constructor
      · intro h
        obtain ⟨t, ht, h⟩ := Res.inv h
        obtain rfl := scanLeft_inv ht
        cases h
        exact ⟨fun h => absurd h hle, fun _ => ⟨rfl, (scanLeft_hit hf hu' hw (by omega)).mp ht⟩⟩
      · rintro ⟨-, h⟩
        obtain ⟨rfl, h1⟩ := h (by omega)
        rw [(scanLeft_hit hf hu' hw (by omega)).mpr h1]; rfl
  · rw [if_neg hu]
    constructor
    · intro h
      cases h
      exact ⟨fun h => absurd h hu, fun _ => rfl⟩
    · rintro ⟨-, h⟩
      rw [h (by simpa using hu)]; rfl

theorem warpCorners_hit {c : WarpCtx} {H W : Nat} (hf : WarpFits c H W) {w4 h4 : Nat} {tl tr : Bool} :
    warpCorners c w4 h4 tl tr {} = .ok {} ↔ (tl = true → ¬ WarpHit c (-1) (-1)) ∧ (tr = true → w4 ≤ 16 → h4 ≤ 16 → ¬ WarpHit c (-1) w4) := by
  unfold warpCorners warpTopLeft
  constructor
  · intro h
    obtain ⟨t, ht, h⟩ := Res.inv h
    have e : t = {} := by
      split at ht
      · exact (addSample_inv ht).1
      · exact (Except.ok.inj ht).symm
    subst e
    refine ⟨fun h1 => ?_, fun h1 h2 h3 => ?_⟩
    · rw [if_pos h1] at ht
      exact (addSample_hit hf).mp ht
    · rw [if_pos (by simp [h1]; omega)] at h
      exact (addSample_hit hf).mp h
  · rintro ⟨h1, h2⟩
    have e : (if tl = true then addSample c (-1) (-1) {} else pure {}) = (.ok {} : Res Samples) := by
      split
      · next h => exact (addSample_hit hf).mpr (h1 h)
      · rfl
    rw [e, Res.ok_bind]
    split
    · next h =>
      simp only [Bool.and_eq_true, decide_eq_true_eq] at h
      exact (addSample_hit hf).mpr (h2 h.1 (by omega) (by omega))
    · rfl

/-- **C172 (exactly the units AV1 looks at).**  For all layouts of the neighbouring blocks: the search ends normally just if no unit of the tile
AV1 looks at has the same single reference.  (A match makes it panic, `C172_found_refuted`; AV1 would record it.) -/
theorem C172_looks_partial {c : WarpCtx} {H W : Nat} (hf : WarpFits c H W) {w h : Nat} (hw : num4x4Wide[c.miSize]? = some w)
    (hh : num4x4High[c.miSize]? = some h) : (∃ s, findWarpSamples c = .ok s) ↔ ∀ dr dc, WarpLooks c w h dr dc → ¬ WarpHit c dr dc := by
  have pa := num4_pos.1 _ (List.mem_of_getElem? hw)
  have pb := num4_pos.2 _ (List.mem_of_getElem? hh)
  have key : (∃ s, findWarpSamples c = .ok s) ↔
      ∃ q t, warpAbove c w {} = .ok ({}, q) ∧ warpLeft c h q.1 {} = .ok ({}, t) ∧ warpCorners c w h t q.2 {} = .ok {} := by
    unfold findWarpSamples
    rw [goGet_of' hw, Res.ok_bind, goGet_of' hh, Res.ok_bind]
    constructor
    · rintro ⟨s, e⟩
      obtain ⟨⟨a, q⟩, h1, e⟩ := Res.inv e
      obtain rfl : a = {} := warpAbove_inv h1
      obtain ⟨⟨b, t⟩, h2, e⟩ := Res.inv e
      obtain rfl : b = {} := warpLeft_inv h2
      obtain ⟨d, h3, e⟩ := Res.inv e
      obtain rfl : d = {} := warpCorners_inv h3
      exact ⟨q, t, h1, h2, h3⟩
    · rintro ⟨q, t, h1, h2, h3⟩
      rw [h1, Res.ok_bind]
      simp only []
      rw [h2, Res.ok_bind]
      simp only []
      rw [h3, Res.ok_bind]
      exact ⟨_, rfl⟩
  rw [key]
  have hfr := hf.frame
  have hhe := hf.here
  simp only [warpAbove_hit hf pa, warpLeft_hit hf pb, warpCorners_hit hf]
  constructor
  · rintro ⟨q, t, ⟨a1, a2⟩, ⟨l1, l2⟩, c1, c2⟩ dr dc hl
    rcases hl with ⟨hu, rfl, src, e, hl⟩ | ⟨hu, rfl, src, e, hl⟩ | ⟨rfl, rfl, h1, h2⟩ | ⟨rfl, rfl, h1, h2, h3⟩
    · obtain ⟨src', e', b1, b2⟩ := a1 hu
      rw [e] at e'
      cases e'
      rcases hl with ⟨h1, rfl⟩ | ⟨h1, j, rfl, h2⟩
      · exact (b1 h1).1
      · exact (b2 h1).2 j h2
    · obtain ⟨src', e', b1, b2⟩ := l1 hu
      rw [e] at e'
      cases e'
      rcases hl with ⟨h1, rfl⟩ | ⟨h1, j, rfl, h2⟩
      · exact (b1 h1).1
      · exact (b2 h1).2 j h2
    · refine c1 ?_
      have q1 : q.1 = true := by
        cases hU : c.availU
        · rw [a2 hU]
        · obtain ⟨src, e, b1, b2⟩ := a1 hU
          by_cases hle : w ≤ src
          · rw [(b1 hle).2]; exact decide_eq_true (h1 hU src e hle)
          · rw [(b2 (by omega)).1]
      cases hL : c.availL
      · rw [l2 hL, q1]
      · obtain ⟨src, e, b1, b2⟩ := l1 hL
        by_cases hle : h ≤ src
        · rw [(b1 hle).2, q1]; simpa using h2 hL src e hle
        · rw [(b2 (by omega)).1, q1]
    · refine c2 ?_ h1 h2
      cases hU : c.availU
      · rw [a2 hU]
      · obtain ⟨src, e, b1, b2⟩ := a1 hU
        by_cases hle : w ≤ src
        · rw [(b1 hle).2]; exact decide_eq_true (h3 hU src e hle)
        · rw [(b2 (by omega)).1]
  · intro H
    have A : ∃ q : Bool × Bool, ((c.availU = true → ∃ src, blockUnitsW c (c.miRow - 1) c.miCol = some src ∧
        (w ≤ src → ¬ WarpHit c (-1) 0 ∧ q = (decide (src ∣ c.miCol), decide (src ≤ c.miCol % src + w))) ∧
        (src < w → q = (true, true) ∧
          ∀ j, Visits (fun i => blockUnitsW c (c.miRow - 1) (c.miCol + i)) (min (w : Int) (c.miCols - c.miCol)) w 0 j → ¬ WarpHit c (-1) j)) ∧
      (c.availU = false → q = (true, true))) := by
      cases hU : c.availU
      · exact ⟨(true, true), fun h => by simp at h, fun _ => rfl⟩
      · have hu' := hf.up hU
        obtain ⟨z, a, b, -, -, -, ha, -, e6, -⟩ := size_units_warp hf (r := c.miRow - 1) (k := c.miCol) (by omega) (by omega)
        by_cases hle : w ≤ a
        · exact ⟨_, fun _ => ⟨a, e6, fun _ => ⟨H _ _ (.inl ⟨hU, rfl, a, e6, .inl ⟨hle, rfl⟩⟩), rfl⟩, fun h => absurd h (by omega)⟩, fun h => by simp at h⟩
        · exact ⟨_, fun _ => ⟨a, e6, fun h => absurd h hle, fun h' => ⟨rfl, fun j hj => H _ _ (.inl ⟨hU, rfl, a, e6, .inr ⟨h', j, rfl, hj⟩⟩)⟩⟩, fun h => by simp at h⟩
    obtain ⟨q, hq⟩ := A
    have B : ∃ t : Bool, ((c.availL = true → ∃ src, blockUnitsH c c.miRow (c.miCol - 1) = some src ∧
        (h ≤ src → ¬ WarpHit c 0 (-1) ∧ t = (q.1 && decide (src ∣ c.miRow))) ∧
        (src < h → t = q.1 ∧
          ∀ j, Visits (fun i => blockUnitsH c (c.miRow + i) (c.miCol - 1)) (min (h : Int) (c.miRows - c.miRow)) h 0 j → ¬ WarpHit c j (-1))) ∧
      (c.availL = false → t = q.1)) := by
      cases hU : c.availL
      · exact ⟨q.1, fun h => by simp at h, fun _ => rfl⟩
      · have hu' := hf.left hU
        obtain ⟨z, a, b, -, -, -, -, ha, -, e6⟩ := size_units_warp hf (r := c.miRow) (k := c.miCol - 1) (by omega) (by omega)
        by_cases hle : h ≤ b
        · exact ⟨_, fun _ => ⟨b, e6, fun _ => ⟨H _ _ (.inr (.inl ⟨hU, rfl, b, e6, .inl ⟨hle, rfl⟩⟩)), rfl⟩, fun h => absurd h (by omega)⟩, fun h => by simp at h⟩
        · exact ⟨_, fun _ => ⟨b, e6, fun h => absurd h hle, fun h' => ⟨rfl, fun j hj => H _ _ (.inr (.inl ⟨hU, rfl, b, e6, .inr ⟨h', j, rfl, hj⟩⟩))⟩⟩, fun h => by simp at h⟩
    obtain ⟨t, ht⟩ := B
    refine ⟨q, t, hq, ht, fun h1 => H _ _ (.inr (.inr (.inl ⟨rfl, rfl, ?_, ?_⟩))), fun h1 h2 h3 => H _ _ (.inr (.inr (.inr ⟨rfl, rfl, h2, h3, ?_⟩)))⟩
    · intro hU src e hle
      obtain ⟨src', e', b1, -⟩ := hq.1 hU
      rw [e] at e'
      cases e'
      have hq1 : q.1 = true := by
        cases hL : c.availL
        · rw [← ht.2 hL]; exact h1
        · obtain ⟨s', -, b1', b2'⟩ := ht.1 hL
          by_cases hle' : h ≤ s'
          · have := (b1' hle').2; rw [h1] at this; simp at this; exact this.1
          · rw [← (b2' (by omega)).1]; exact h1
      rw [(b1 hle).2] at hq1
      simpa using hq1
    · intro hL src e hle
      obtain ⟨src', e', b1, -⟩ := ht.1 hL
      rw [e] at e'
      cases e'
      have := (b1 hle).2
      rw [h1] at this
      simp at this
      exact this.2
    · intro hU src e hle
      obtain ⟨src', e', b1, -⟩ := hq.1 hU
      rw [e] at e'
      cases e'
      rw [(b1 hle).2] at h1
      simpa using h1

/-- A block of 16 by 16 pixels at unit (4, 4) of a tile of 8 by 8 units, among 8 by 8 blocks predicted from reference 2, itself from 1. -/
def demoWarp : WarpCtx :=
  { miRow := 4, miCol := 4, miRows := 8, miCols := 8, rowEnd := 8, colEnd := 8, miSize := 6, availU := true, availL := true, refFrame0 := 1,
    refFrames := List.replicate 8 (List.replicate 8 (2, -1)), miSizes := List.replicate 8 (List.replicate 8 3), mvs := List.replicate 8 (List.replicate 8 ((0, 0), (0, 0))) }

example : findWarpSamples demoWarp = .ok ⟨0, 0⟩ := by decide +kernel
example : findWarpSamples { demoWarp with refFrame0 := 2 } = .error .index := by decide +kernel
example : WarpFits demoWarp 8 8 := by constructor <;> first | exact ⟨by decide, by decide⟩ | decide
example : ∀ r k, InTile demoWarp r k → ¬ SameRef demoWarp r k := by
  rintro r k ⟨-, h1, -, h2⟩ ⟨rf, h3, -, h4, -⟩
  have h1 : r < 8 := h1
  have h2 : k < 8 := h2
  have : at2 demoWarp.refFrames r k = some (2, -1) := by
    show ((List.replicate 8 (List.replicate 8 ((2 : Int), (-1 : Int))))[r]?.bind (·[k]?)) = _
    rw [List.getElem?_replicate_of_lt h1]
    exact List.getElem?_replicate_of_lt h2
  rw [this] at h3
  cases h3
  exact absurd h4 (by decide)

end Gov1
