import Verif.Props.InterBlock
import Verif.Lemmas.Total
/-!
# The calls of inter prediction a block makes, and their end
-/
namespace Gov1

/-! ## C171: inter prediction ends -/

/-- The computation does not run forever. -/
def Ends {α : Type} (r : Res α) : Prop := r ≠ .error .hang

theorem Ends.ok {α : Type} (a : α) : Ends (.ok a : Res α) := by intro h; cases h
theorem Ends.pure {α : Type} (a : α) : Ends (Pure.pure a : Res α) := by intro h; cases h
theorem Ends.index {α : Type} : Ends (.error .index : Res α) := by intro h; cases h
theorem Ends.bind {α β : Type} {m : Res α} {f : α → Res β} (hm : Ends m) (hf : ∀ a, m = .ok a → Ends (f a)) : Ends (m >>= f) := by
  cases m with
  | error e => intro h; exact hm (by cases h; rfl)
  | ok a => exact hf a rfl
theorem Ends.bind' {α β : Type} {m : Res α} {f : α → Res β} (hm : Ends m) (hf : ∀ a, Ends (f a)) : Ends (m >>= f) := hm.bind fun a _ => hf a
theorem Ends.forN {σ : Type} {f : Nat → σ → Res σ} (hf : ∀ i s, Ends (f i s)) (n i : Nat) (s : σ) : Ends (forN f n i s) := by
  induction n generalizing i s with
  | zero => exact .ok _
  | succ n ih => rw [Gov1.forN]; exact (hf i s).bind' fun s => ih (i + 1) s
theorem Ends.goGet {α : Type} (l : List α) (i : Int) : Ends (goGet l i) := Terminates.goGet_ne l i
theorem Ends.goSet {α : Type} (l : List α) (i : Int) (v : α) : Ends (goSet l i v) := Terminates.goSet_ne l i v
theorem Ends.gget {α : Type} (m : List (List α)) (i j : Int) : Ends (gget m i j) := (Ends.goGet _ _).bind' fun _ => .goGet _ _
theorem Ends.gset {α : Type} (m : List (List α)) (i j : Int) (v : α) : Ends (gset m i j v) := (Ends.goGet _ _).bind' fun _ => (Ends.goSet _ _ _).bind' fun _ => .goSet _ _ _

theorem refScale_ends (a b : Nat) : Ends (refScale a b) := by
  unfold refScale; split
  · intro h; cases h
  · exact .ok _

theorem mvScaling_ends (c : InterCtx) (plane : Nat) (i : Int) (x y : Nat) (mv : Int × Int) : Ends (mvScaling c plane i x y mv) := by
  unfold mvScaling
  refine Ends.bind' ?_ fun d => (refScale_ends _ _).bind' fun _ => (refScale_ends _ _).bind' fun _ => .pure _
  unfold scaleChecks
  refine (Ends.goGet _ _).bind' fun w => ?_
  split
  · intro h; cases h
  · refine (Ends.goGet _ _).bind' fun h => ?_
    split
    · intro h; cases h
    · split
      · intro h; cases h
      · split
        · intro h; cases h
        · exact .pure _

theorem filterSum_ends (f p : Int) {src : Nat → Res Int} (hs : ∀ t, Ends (src t)) : Ends (filterSum f p src) :=
  .forN (fun _ _ => (Ends.goGet _ _).bind' fun _ => (Ends.goGet _ _).bind' fun _ => (Ends.goGet _ _).bind' fun _ => (hs _).bind' fun _ => .pure _) _ _ _

theorem blockInter_ends (c : InterCtx) (r : Nat × Nat) (plane : Nat) (i : Int) (pos : MvPos) (w h : Nat) (cr cc : Int) : Ends (blockInter c r plane i pos w h cr cc) := by
  unfold blockInter
  refine (Ends.goGet _ _).bind' fun _ => (Ends.goGet _ _).bind' fun _ => (Ends.goGet _ _).bind' fun _ => (Ends.gget _ _ _).bind' fun _ => (Ends.goGet _ _).bind' fun _ => ?_
  exact Ends.bind' (.forN (fun _ _ => .forN (fun _ _ => (filterSum_ends _ _ fun _ => .gget _ _ _).bind' fun _ => .gset _ _ _ _) _ _ _) _ _ _) fun _ =>
    .forN (fun _ _ => .forN (fun _ _ => (filterSum_ends _ _ fun _ => .gget _ _ _).bind' fun _ => .gset _ _ _ _) _ _ _) _ _ _

theorem resolveDivisor_ends (d : Int) : Ends (resolveDivisor d) := by
  unfold resolveDivisor
  split
  · intro h; cases h
  · exact (Ends.goGet _ _).bind' fun _ => .pure _

theorem setupShear_ends (p : List Int) : Ends (setupShear p) := by
  unfold setupShear
  exact (Ends.goGet _ _).bind' fun _ => (Ends.goGet _ _).bind' fun _ => (Ends.goGet _ _).bind' fun _ => (Ends.goGet _ _).bind' fun _ =>
    (resolveDivisor_ends _).bind' fun _ => .pure _

theorem predictOverlap_ends (c : InterCtx) (r : Nat × Nat) (plane x4 y4 w h : Nat) (cr cc rf : Int) (F : List (List Int)) :
    Ends (predictOverlap c r plane x4 y4 w h cr cc rf F) := by
  unfold predictOverlap
  refine (Ends.gget _ _ _).bind' fun _ => (Ends.goGet _ _).bind' fun _ => (mvScaling_ends _ _ _ _ _ _).bind' fun _ => (blockInter_ends _ _ _ _ _ _ _ _ _).bind' fun _ => ?_
  exact Ends.bind' (.forN (fun _ _ => .forN (fun _ _ => (Ends.gget _ _ _).bind' fun _ => .gset _ _ _ _) _ _ _) _ _ _) fun _ =>
    .forN (fun _ _ => .forN (fun _ _ => (Ends.goGet _ _).bind' fun _ => (Ends.gget _ _ _).bind' fun _ => (Ends.gget _ _ _).bind' fun _ => .gset _ _ _ _) _ _ _) _ _ _

theorem obmcStep_ge {tbl : List Nat} {sz st : Nat} (h : obmcStep tbl sz = .ok st) : 2 ≤ st := by
  unfold obmcStep at h
  obtain ⟨n, -, h⟩ := Res.inv h
  rw [← Except.ok.inj h]
  unfold clip3
  split
  · decide
  · split
    · decide
    · omega

theorem obmcStep_ends (tbl : List Nat) (sz : Nat) : Ends (obmcStep tbl sz) := (Ends.goGet _ _).bind' fun _ => .pure _

theorem obmcAbove_ends {c : InterCtx} {r : Nat × Nat} {plane w h nl xe : Nat} {fuel n x4 : Nat} {F : List (List Int)} (hf : xe < x4 + fuel) :
    Ends (obmcAbove c r plane w h nl xe fuel n x4 F) ∨ fuel = 0 := by
  induction fuel generalizing n x4 F with
  | zero => exact .inr rfl
  | succ fuel ih =>
    left
    rw [obmcAbove]
    split
    · refine (Ends.gget _ _ _).bind' fun _ => (obmcStep_ends _ _).bind fun st hst => (Ends.gget _ _ _).bind' fun _ => ?_
      have h2 := obmcStep_ge hst
      split
      · refine (predictOverlap_ends _ _ _ _ _ _ _ _ _ _ _).bind' fun G => ?_
        rcases ih (n := n + 1) (x4 := x4 + st) (F := G) (by omega) with h | h
        · exact h
        · omega
      · rcases ih (n := n) (x4 := x4 + st) (F := F) (by omega) with h | h
        · exact h
        · omega
    · exact .pure _

theorem obmcLeft_ends {c : InterCtx} {r : Nat × Nat} {plane w h nl xe : Nat} {fuel n x4 : Nat} {F : List (List Int)} (hf : xe < x4 + fuel) :
    Ends (obmcLeft c r plane w h nl xe fuel n x4 F) ∨ fuel = 0 := by
  induction fuel generalizing n x4 F with
  | zero => exact .inr rfl
  | succ fuel ih =>
    left
    rw [obmcLeft]
    split
    · refine (Ends.gget _ _ _).bind' fun _ => (obmcStep_ends _ _).bind fun st hst => (Ends.gget _ _ _).bind' fun _ => ?_
      have h2 := obmcStep_ge hst
      split
      · refine (predictOverlap_ends _ _ _ _ _ _ _ _ _ _ _).bind' fun G => ?_
        rcases ih (n := n + 1) (x4 := x4 + st) (F := G) (by omega) with h | h
        · exact h
        · omega
      · rcases ih (n := n) (x4 := x4 + st) (F := F) (by omega) with h | h
        · exact h
        · omega
    · exact .pure _

theorem getPlaneResidualSize_ends (sx sy sz plane : Nat) : Ends (getPlaneResidualSize sx sy sz plane) := by
  unfold getPlaneResidualSize
  refine (Ends.goGet _ _).bind' fun _ => ?_
  split <;> exact .gget _ _ _

theorem goGet_memOf {α : Type} {l : List α} {i : Int} {v : α} (h : goGet l i = .ok v) : v ∈ l := by
  obtain ⟨-, h⟩ := goGet_inv h
  exact List.mem_of_getElem? h

theorem obmc_ends (c : InterCtx) (r : Nat × Nat) (plane w h : Nat) (F : List (List Int)) : Ends (obmc c r plane w h F) := by
  unfold obmc
  refine Ends.bind' ?_ fun G => ?_
  · unfold obmcUp
    split
    · refine (getPlaneResidualSize_ends _ _ _ _).bind' fun ps => ?_
      split
      · refine (Ends.goGet _ _).bind' fun w4 => (Ends.goGet _ _).bind' fun lg => ?_
        rcases obmcAbove_ends (c := c) (r := r) (plane := plane) (w := w) (h := h) (nl := min 4 lg) (xe := min c.miCols (c.miCol + w4)) (fuel := w4 + 1)
          (n := 0) (x4 := c.miCol) (F := F) (by omega) with h | h
        · exact h
        · omega
      · exact .pure _
    · exact .pure _
  · unfold obmcSide
    split
    · refine (Ends.goGet _ _).bind' fun w4 => (Ends.goGet _ _).bind' fun lg => ?_
      rcases obmcLeft_ends (c := c) (r := r) (plane := plane) (w := w) (h := h) (nl := min 4 lg) (xe := min c.miRows (c.miRow + w4)) (fuel := w4 + 1)
          (n := 0) (x4 := c.miRow) (F := G) (by omega) with h | h
      · exact h
      · omega
    · exact .pure _

theorem predictFrom_ends (c : InterCtx) (r : Nat × Nat) (plane x y w h : Nat) (cr cc rf : Int) (mv : Int × Int) : Ends (predictFrom c r plane x y w h cr cc rf mv) := by
  unfold predictFrom
  have h1 : Ends (globalValid c rf) := by
    unfold globalValid checksGlobal
    refine Ends.bind' ?_ fun b => ?_
    · repeat' split
      · exact .pure _
      · exact (Ends.goGet _ _).bind' fun _ => .pure _
      · exact .pure _
    · split
      · exact (Ends.goGet _ _).bind' fun _ => (setupShear_ends _).bind' fun _ => .pure _
      · exact .pure _
  have hsc : Ends (isScaled c rf) := (Ends.goGet _ _).bind' fun _ => (Ends.goGet _ _).bind' fun _ => (refScale_ends _ _).bind' fun _ => (Ends.goGet _ _).bind' fun _ =>
    (refScale_ends _ _).bind' fun _ => .pure _
  have h2 : ∀ gv, Ends (useWarp c w h rf gv) := by
    intro gv
    unfold useWarp globalWarp
    repeat' split
    all_goals first | exact .pure _ | refine (Ends.goGet _ _).bind' fun g => ?_
    split
    · exact hsc.bind' fun _ => .pure _
    · exact .pure _
  have h3 : Ends (refIndex c rf) := by
    unfold refIndex
    split
    · exact .pure _
    · exact (Ends.goGet _ _).bind' fun _ => .pure _
  refine h1.bind' fun gv => (h2 gv).bind' fun uw => h3.bind' fun i => (mvScaling_ends _ _ _ _ _ _).bind' fun pos => ?_
  split
  · unfold blockWarp warpParams
    refine Ends.bind' ?_ fun _ => (setupShear_ends _).bind' fun _ => .index
    split
    · exact .pure _
    · exact .goGet _ _
  · exact blockInter_ends _ _ _ _ _ _ _ _ _

theorem writePred_ends {x y w h bd : Nat} {v : Nat → Nat → Res Int} (hv : ∀ i j, Ends (v i j)) (F : List (List Int)) : Ends (writePred x y w h bd v F) :=
  .forN (fun _ _ => .forN (fun _ _ => (hv _ _).bind' fun _ => .gset _ _ _ _) _ _ _) _ _ _

/-- C171: inter prediction of a block ends (normally or with a panic), whatever the block sizes, the motion vectors, the neighbours and the
stored frames: the walk along the blocks above and to the left of overlapped motion compensation advances on every turn. -/
theorem C171_ends (c : InterCtx) (plane x y w h : Nat) (candRow candCol : Int) (F : List (List Int)) :
    predictInter c plane x y w h candRow candCol F ≠ .error .hang := by
  show Ends _
  unfold predictInter
  refine (Ends.gget _ _ _).bind' fun rf => ?_
  dsimp only
  split
  · exact .index
  refine (Ends.gget _ _ _).bind' fun mv => (predictFrom_ends _ _ _ _ _ _ _ _ _ _ _).bind' fun p => Ends.bind' ?_ fun _ => Ends.bind' ?_ fun _ => Ends.bind' ?_ fun G => ?_
  · unfold secondRef
    split
    · exact (predictFrom_ends _ _ _ _ _ _ _ _ _ _ _).bind' fun _ => .index
    · exact .pure _
  · unfold compoundMasks
    repeat' split
    all_goals first | exact .index | exact .pure _ | (intro h; cases h) | exact (Ends.goGet _ _).bind' fun _ => .index
  · unfold writeBlock writeSecond
    repeat' split
    all_goals first | exact writePred_ends (fun _ _ => .gget _ _ _) _ | exact writePred_ends (fun _ _ => (Ends.gget _ _ _).bind' fun _ => .pure _) _ | exact .index | exact .pure _
  · split
    · exact obmc_ends _ _ _ _ _ _
    · exact .pure _

theorem blockDims_pos : (∀ n ∈ blockWidth, 4 ≤ n) ∧ (∀ n ∈ blockHeight, 4 ≤ n) := by decide +kernel

/-- C171: so do all the calls of a block's plane, if the subsampling is 0 or 1. -/
theorem C171_plane (c : CpCtx) (plane ps : Nat) (s : TbSt) (hx : c.inter.subX ≤ 1) (hy : c.inter.subY ≤ 1) : cpInter c plane ps s ≠ .error .hang := by
  show Ends _
  unfold cpInter
  split
  · refine Ends.bind' ?_ fun calls => (Ends.goGet _ _).bind' fun F => Ends.bind' ?_ fun _ => (Ends.goSet _ _ _).bind' fun _ => .pure _
    · unfold interPlaneCalls
      refine (Ends.goGet _ _).bind fun w4 _ => (Ends.goGet _ _).bind fun h4 _ => ?_
      dsimp only
      refine (Ends.goGet _ _).bind fun bw hbw => (Ends.goGet _ _).bind fun bh hbh => Ends.bind' ?_ fun si => ?_
      · exact .forN (fun _ _ => .forN (fun _ _ => (Ends.gget _ _ _).bind' fun _ => .pure _) _ _ _) _ _ _
      · have hbw : 4 ≤ bw := blockDims_pos.1 _ (goGet_memOf hbw)
        have hbh : 4 ≤ bh := blockDims_pos.2 _ (goGet_memOf hbh)
        have hs : ∀ s b : Nat, s ≤ 1 → 4 ≤ b → 2 ≤ b >>> planeSub s plane := by
          intro s b hs hb
          unfold planeSub
          rw [Nat.shiftRight_eq_div_pow]
          split
          · simp; omega
          · rcases Nat.le_one_iff_eq_zero_or_eq_one.1 hs with rfl | rfl
            · simp; omega
            · simp; omega
        have h1 := hs _ _ hx hbw
        have h2 := hs _ _ hy hbh
        split
        all_goals
          unfold interCalls
          split
          · omega
          · exact .pure _
    · clear hx hy
      induction calls generalizing F with
      | nil => exact .pure _
      | cons k ks ih => exact Ends.bind' (C171_ends _ _ _ _ _ _ _ _ _) fun G => ih G
  · exact .pure _

/-! ## C168: the calls cover the block -/

/-- The pixel at row `py`, column `px` is in the rectangle the call predicts. -/
def Hit (k : InterCall) (px py : Nat) : Prop := k.x ≤ px ∧ px < k.x + k.w ∧ k.y ≤ py ∧ py < k.y + k.h

/-- The units of the block and of those it shares a chroma block with: one of them is intra. -/
def IntraNear (c : InterCtx) (row col rows cols : Nat) : Prop :=
  ∃ r q rf, r < rows ∧ q < cols ∧ at2 c.refFrames (row + r) (col + q) = some rf ∧ rf.1 = 0

theorem someUseIntra_inv {c : InterCtx} {row col rows cols : Nat} {b : Bool} (h : someUseIntra c row col rows cols = .ok b) :
    b = true ↔ IntraNear c row col rows cols := by
  have key := forN_inv (fun n (b : Bool) => b = true ↔ IntraNear c row col n cols) (fun r b b' _ _ hb hb' => ?_) h
    ⟨fun h => absurd h (by decide), fun ⟨r, _, _, hr, _⟩ => absurd hr (by omega)⟩
  · rw [Nat.zero_add] at key; exact key
  · have inner := forN_inv (fun n (d : Bool) => d = true ↔ b = true ∨ ∃ q rf, q < n ∧ at2 c.refFrames (row + r) (col + q) = some rf ∧ rf.1 = 0)
      (fun q d d' _ _ hd hd' => ?_) hb' ⟨Or.inl, fun h => h.elim id fun ⟨q, _, hq, _⟩ => absurd hq (by omega)⟩
    · rw [Nat.zero_add] at inner
      rw [inner, hb]
      constructor
      · rintro (⟨a, q, rf, h1, h2⟩ | ⟨q, rf, h1, h2⟩)
        · exact ⟨a, q, rf, by omega, h2⟩
        · exact ⟨r, q, rf, by omega, h1, h2⟩
      · rintro ⟨a, q, rf, h1, h2, h3⟩
        by_cases he : a = r
        · subst he; exact .inr ⟨q, rf, h2, h3⟩
        · exact .inl ⟨a, q, rf, by omega, h2, h3⟩
    · obtain ⟨rf, hrf, hd'⟩ := Res.inv hd'
      have hrf := (gget_inv hrf).2.2
      simp only [Int.toNat_natCast] at hrf
      rw [← Except.ok.inj hd', Bool.or_eq_true, hd, beq_iff_eq]
      constructor
      · rintro ((h | ⟨a, rf', h1, h2⟩) | h)
        · exact .inl h
        · exact .inr ⟨a, rf', by omega, h2⟩
        · exact .inr ⟨q, rf, by omega, hrf, h⟩
      · rintro (h | ⟨a, rf', h1, h2, h3⟩)
        · exact .inl (.inl h)
        · by_cases he : a = q
          · subst he
            rw [hrf] at h2
            exact .inr (by rw [Option.some.inj h2]; exact h3)
          · exact .inl (.inr ⟨a, rf', by omega, h2, h3⟩)

/-- The residual size of a plane has the dimensions of the block divided by the subsampling, at least 4 (4:4:4 and 4:2:0). -/
theorem residual_dims : ∀ sz ∈ List.range 22, ∀ s ∈ [0, 1], ∃ ps w4 h4 bw bh, getPlaneResidualSize s s sz 1 = .ok ps ∧ num4x4Wide[ps]? = some w4 ∧ num4x4High[ps]? = some h4 ∧
    blockWidth[sz]? = some bw ∧ blockHeight[sz]? = some bh ∧ 0 < w4 ∧ 0 < h4 ∧ 4 ≤ bw ∧ 4 ≤ bh ∧ 4 * w4 = max 4 (bw >>> s) ∧ 4 * h4 = max 4 (bh >>> s) := by
  have h : ∀ sz ∈ List.range 22, ∀ s ∈ [0, 1], (match getPlaneResidualSize s s sz 1 with
    | .error _ => false
    | .ok ps => match num4x4Wide[ps]?, num4x4High[ps]?, blockWidth[sz]?, blockHeight[sz]? with
      | some w4, some h4, some bw, some bh => decide (0 < w4 ∧ 0 < h4 ∧ 4 ≤ bw ∧ 4 ≤ bh ∧ 4 * w4 = max 4 (bw >>> s) ∧ 4 * h4 = max 4 (bh >>> s))
      | _, _, _, _ => false) = true := by decide +kernel
  intro sz hsz s hs
  have := h sz hsz s hs
  cases eps : getPlaneResidualSize s s sz 1 with
  | error e => rw [eps] at this; cases this
  | ok ps =>
    rw [eps] at this
    dsimp only at this
    cases e1 : num4x4Wide[ps]? with
    | none => rw [e1] at this; cases this
    | some w4 =>
    cases e2 : num4x4High[ps]? with
    | none => rw [e1, e2] at this; cases this
    | some h4 =>
    cases e3 : blockWidth[sz]? with
    | none => rw [e1, e2, e3] at this; cases this
    | some bw =>
    cases e4 : blockHeight[sz]? with
    | none => rw [e1, e2, e3, e4] at this; cases this
    | some bh =>
    rw [e1, e2, e3, e4] at this
    exact ⟨ps, w4, h4, bw, bh, rfl, e1, e2, rfl, rfl, of_decide_eq_true this⟩

/-- One call is made if the steps are at least the number of units. -/
theorem interCalls_one {plane bx byy w4 h4 pw ph cr cc : Nat} {ks : List InterCall} (hw : 0 < w4 ∧ w4 ≤ pw) (hh : 0 < h4 ∧ h4 ≤ ph)
    (h : interCalls plane bx byy w4 h4 pw ph cr cc = .ok ks) : ks = [⟨plane, bx, byy, pw, ph, cr, cc⟩] := by
  unfold interCalls at h
  rw [if_neg (by omega)] at h
  have one : ∀ n p : Nat, 0 < n → n ≤ p → (n + p - 1) / p = 1 := by
    intro n p h0 h1
    rw [Nat.div_eq_iff (by omega)]
    omega
  rw [one _ _ hh.1 hh.2, one _ _ hw.1 hw.2] at h
  simpa using (Except.ok.inj h).symm

theorem residual_sub (sx sy sz plane : Nat) : getPlaneResidualSize sx sy sz plane = getPlaneResidualSize (planeSub sx plane) (planeSub sy plane) sz 1 := by
  unfold getPlaneResidualSize planeSub
  by_cases h : plane = 0
  · subst h; rfl
  · simp [h, Nat.pos_of_ne_zero h]

/-- The calls of a plane: exactly one. -/
theorem interPlaneCalls_inv {c : InterCtx} {plane ps s bw bh : Nat} (hx : planeSub c.subX plane = s) (hy : planeSub c.subY plane = s) (hs : s ≤ 1)
    (hps : getPlaneResidualSize c.subX c.subY c.miSize plane = .ok ps) (hbw : blockWidth[c.miSize]? = some bw) (hbh : blockHeight[c.miSize]? = some bh)
    {ks : List InterCall} (h : interPlaneCalls c plane ps = .ok ks) :
    ∃ k, ks = [k] ∧ k.plane = plane ∧ k.x = (c.miCol >>> s) * 4 ∧ k.y = (c.miRow >>> s) * 4 ∧
      ((IntraNear c (c.miRow >>> s <<< s) (c.miCol >>> s <<< s) ((max 4 (bh >>> s) / 4) <<< s) ((max 4 (bw >>> s) / 4) <<< s) ∧
          k.w = max 4 (bw >>> s) ∧ k.h = max 4 (bh >>> s) ∧ k.candRow = c.miRow ∧ k.candCol = c.miCol) ∨
       (¬ IntraNear c (c.miRow >>> s <<< s) (c.miCol >>> s <<< s) ((max 4 (bh >>> s) / 4) <<< s) ((max 4 (bw >>> s) / 4) <<< s) ∧
          k.w = bw >>> s ∧ k.h = bh >>> s ∧ k.candRow = c.miRow >>> s <<< s ∧ k.candCol = c.miCol >>> s <<< s)) := by
  rw [residual_sub, hx, hy] at hps
  have hsz : c.miSize < 22 := by have := (List.getElem?_eq_some_iff.1 hbw).1; exact this
  obtain ⟨ps', w4, h4, bw', bh', e0, e1, e2, e3, e4, p1, p2, p3, p4, q1, q2⟩ := residual_dims c.miSize (List.mem_range.2 hsz) s (by simp; omega)
  rw [e0] at hps; rw [e3] at hbw; rw [e4] at hbh
  obtain rfl := Except.ok.inj hps
  obtain rfl := Option.some.inj hbw
  obtain rfl := Option.some.inj hbh
  unfold interPlaneCalls at h
  rw [goGet_of' e1, Res.ok_bind, goGet_of' e2, Res.ok_bind] at h
  dsimp only at h
  rw [goGet_of' e3, Res.ok_bind, goGet_of' e4, Res.ok_bind, hx, hy] at h
  obtain ⟨si, hsi, h⟩ := Res.inv h
  have hn := someUseIntra_inv hsi
  have two : ∀ b : Nat, 4 ≤ b → 2 ≤ b >>> s := by
    intro b hb
    rw [Nat.shiftRight_eq_div_pow]
    rcases Nat.le_one_iff_eq_zero_or_eq_one.1 hs with rfl | rfl <;> simp <;> omega
  have t1 := two _ p3
  have t2 := two _ p4
  rw [show max 4 (bh' >>> s) / 4 = h4 by omega, show max 4 (bw' >>> s) / 4 = w4 by omega]
  split at h
  · next hb =>
    have := interCalls_one (by omega) (by omega) h
    exact ⟨_, this, rfl, rfl, rfl, .inl ⟨hn.1 hb, by dsimp only; omega, by dsimp only; omega, rfl, rfl⟩⟩
  · next hb =>
    have := interCalls_one (by omega) (by omega) h
    exact ⟨_, this, rfl, rfl, rfl, .inr ⟨fun hh => hb (hn.2 hh), rfl, rfl, rfl, rfl⟩⟩

/-- **C168 (partial).**  4:4:4, 4:2:0 or luma: if the block has at least four columns and rows in the plane, one call is made, and it predicts
exactly the pixels of the block in that plane.  Missing: `C168_sub8_refuted`. -/
theorem C168_partial {c : InterCtx} {plane ps s bw bh : Nat} (hx : planeSub c.subX plane = s) (hy : planeSub c.subY plane = s) (hs : s ≤ 1)
    (hps : getPlaneResidualSize c.subX c.subY c.miSize plane = .ok ps) (hbw : blockWidth[c.miSize]? = some bw) (hbh : blockHeight[c.miSize]? = some bh)
    (big : 4 ≤ bw >>> s ∧ 4 ≤ bh >>> s) {ks : List InterCall} (h : interPlaneCalls c plane ps = .ok ks) :
    ∃ k, ks = [k] ∧ k.plane = plane ∧ ∀ px py, Hit k px py ↔
      (c.miCol >>> s) * 4 ≤ px ∧ px < (c.miCol >>> s) * 4 + bw >>> s ∧ (c.miRow >>> s) * 4 ≤ py ∧ py < (c.miRow >>> s) * 4 + bh >>> s := by
  obtain ⟨k, hk, e1, e2, e3, e4⟩ := interPlaneCalls_inv hx hy hs hps hbw hbh h
  refine ⟨k, hk, e1, fun px py => ?_⟩
  unfold Hit
  rw [e2, e3]
  rcases e4 with ⟨-, ew, eh, -⟩ | ⟨-, ew, eh, -⟩
  · rw [ew, eh, Nat.max_eq_right big.1, Nat.max_eq_right big.2]
  · rw [ew, eh]

/-- **C168 (chroma of small blocks, refuted).**  4:2:0: a block four pixels wide or high, none of the blocks sharing its chroma block being intra:
the chroma block has four by four pixels or more, and its last pixel is predicted by no call.  (The loops count units of four pixels and step by
pixels, so the other blocks' parts are never predicted.) -/
theorem C168_sub8_refuted {c : InterCtx} {plane ps bw bh : Nat} (hp : 0 < plane) (hx : c.subX = 1) (hy : c.subY = 1)
    (hps : getPlaneResidualSize c.subX c.subY c.miSize plane = .ok ps) (hbw : blockWidth[c.miSize]? = some bw) (hbh : blockHeight[c.miSize]? = some bh)
    (small : bw = 4 ∨ bh = 4)
    (near : ¬ IntraNear c (c.miRow / 2 * 2) (c.miCol / 2 * 2) (max 4 (bh / 2) / 4 * 2) (max 4 (bw / 2) / 4 * 2))
    {ks : List InterCall} (h : interPlaneCalls c plane ps = .ok ks) :
    ∀ k ∈ ks, ¬ Hit k (c.miCol / 2 * 4 + max 4 (bw / 2) - 1) (c.miRow / 2 * 4 + max 4 (bh / 2) - 1) := by
  have hsub : ∀ s : Nat, s = 1 → planeSub s plane = 1 := by intro s hs; unfold planeSub; rw [if_neg (by omega), hs]
  obtain ⟨k, hk, e1, e2, e3, e4⟩ := interPlaneCalls_inv (hsub _ hx) (hsub _ hy) (by decide) hps hbw hbh h
  rw [hk]
  intro k' hk'
  obtain rfl := List.mem_singleton.1 hk'
  simp only [Nat.shiftRight_eq_div_pow, Nat.shiftLeft_eq, Nat.pow_one] at e2 e3 e4
  rcases e4 with ⟨hn, -⟩ | ⟨-, ew, eh, -⟩
  · exact absurd hn near
  · unfold Hit
    rw [e2, e3, ew, eh]
    omega

/-- **C168 (chroma of small blocks, an intra neighbour).**  If one of the blocks sharing the chroma block is intra, one call predicts all of it. -/
theorem C168_near {c : InterCtx} {plane ps bw bh : Nat} (hp : 0 < plane) (hx : c.subX = 1) (hy : c.subY = 1)
    (hps : getPlaneResidualSize c.subX c.subY c.miSize plane = .ok ps) (hbw : blockWidth[c.miSize]? = some bw) (hbh : blockHeight[c.miSize]? = some bh)
    (near : IntraNear c (c.miRow / 2 * 2) (c.miCol / 2 * 2) (max 4 (bh / 2) / 4 * 2) (max 4 (bw / 2) / 4 * 2))
    {ks : List InterCall} (h : interPlaneCalls c plane ps = .ok ks) :
    ∃ k, ks = [k] ∧ k.candRow = c.miRow ∧ k.candCol = c.miCol ∧ ∀ px py, Hit k px py ↔
      c.miCol / 2 * 4 ≤ px ∧ px < c.miCol / 2 * 4 + max 4 (bw / 2) ∧ c.miRow / 2 * 4 ≤ py ∧ py < c.miRow / 2 * 4 + max 4 (bh / 2) := by
  have hsub : ∀ s : Nat, s = 1 → planeSub s plane = 1 := by intro s hs; unfold planeSub; rw [if_neg (by omega), hs]
  obtain ⟨k, hk, e1, e2, e3, e4⟩ := interPlaneCalls_inv (hsub _ hx) (hsub _ hy) (by decide) hps hbw hbh h
  simp only [Nat.shiftRight_eq_div_pow, Nat.shiftLeft_eq, Nat.pow_one] at e2 e3 e4
  rcases e4 with ⟨-, ew, eh, er, ec⟩ | ⟨hn, -⟩
  · refine ⟨k, hk, er, ec, fun px py => ?_⟩
    unfold Hit
    rw [e2, e3, ew, eh]
  · exact absurd near hn

/-- A 4 by 4 block at unit (3, 5), all blocks predicted from `LAST_FRAME`; and one with an intra block. -/
def demoCalls : InterCtx := { subX := 1, subY := 1, miRow := 3, miCol := 5, miSize := 0, refFrames := List.replicate 8 (List.replicate 8 (1, -1)) }
def demoCallsIntra : InterCtx := { demoCalls with refFrames := List.replicate 8 (List.replicate 8 (0, -1)) }

example : interPlaneCalls demoCalls 1 0 = .ok [⟨1, 8, 4, 2, 2, 2, 4⟩] ∧ interPlaneCalls demoCallsIntra 1 0 = .ok [⟨1, 8, 4, 4, 4, 3, 5⟩] := by decide +kernel
example : interPlaneCalls { demoCalls with miSize := 3, miRow := 2, miCol := 4 } 0 3 = .ok [⟨0, 16, 8, 8, 8, 2, 4⟩] := by decide +kernel
example : getPlaneResidualSize 1 1 0 1 = .ok 0 ∧ blockWidth[0]? = some 4 ∧ blockHeight[0]? = some 4 := by decide +kernel
example : ¬ Hit ⟨1, 8, 4, 2, 2, 2, 4⟩ 11 7 := by unfold Hit; decide

/-! ## Blocks that are not inter predicted -/

/-- **C168 (other blocks).**  `computePrediction` of a block that is not inter leaves everything as it is. -/
theorem C168_intra_idle (c : CpCtx) (hi : c.isInter = false) {s s' : TbSt} (h : computePrediction c s = .ok s') : s' = s := by
  unfold computePrediction at h
  refine forN_inv (fun _ t => t = s) (fun plane t t' _ _ ht hp => ?_) h rfl
  unfold cpPlane at hp
  obtain ⟨ps, -, hp⟩ := Res.inv hp
  obtain ⟨m, -, hp⟩ := Res.inv hp
  obtain ⟨t2, h2, hp⟩ := Res.inv hp
  unfold cpIntra cpInterIntra at h2
  unfold cpInter at hp
  rw [hi] at h2 hp
  rw [if_neg (by simp)] at h2 hp
  rw [← Except.ok.inj hp, ← Except.ok.inj h2, ht]

/-! ## C170: the shear of a warp -/

/-- The multiple of 64 nearest to `v`, halves away from zero. -/
def Near64 (v r : Int) : Prop := (64 : Int) ∣ r ∧ 2 * (v - r) ≤ 64 ∧ -64 ≤ 2 * (v - r)

theorem reduceParam_nonneg {v : Int} (h : 0 ≤ v) : reduceParam v = 0 := by
  unfold reduceParam round2Signed
  rw [if_pos h]
  decide

theorem reduceParam_neg {v : Int} (h : v ≤ 0) : Near64 v (reduceParam v) := by
  rcases Int.lt_or_eq_of_le h with h | rfl
  · unfold reduceParam round2Signed round2 Near64
    rw [if_neg (by omega), if_neg (by decide), Int.shiftRight_eq_div_pow]
    norm_num [Nat.shiftLeft_eq]
    omega
  · rw [reduceParam_nonneg (by decide)]; exact ⟨by decide, by decide, by decide⟩

theorem reduceParam_range (v : Int) : (64 : Int) ∣ reduceParam (clip3 (-32768) 32767 v) ∧ -32768 ≤ reduceParam (clip3 (-32768) 32767 v) ∧ reduceParam (clip3 (-32768) 32767 v) ≤ 0 := by
  have hc : -32768 ≤ clip3 (-32768) 32767 v ∧ clip3 (-32768) 32767 v ≤ 32767 := by
    unfold clip3
    repeat' split
    all_goals omega
  generalize clip3 (-32768) 32767 v = u at hc ⊢
  rcases Int.le_total 0 u with h | h
  · rw [reduceParam_nonneg h]; decide
  · have := reduceParam_neg h
    unfold Near64 at this
    refine ⟨this.1, ?_, ?_⟩ <;> omega

theorem setupShear_inv {p : List Int} {s : Shear} (h : setupShear p = .ok s) :
    ∃ p2 p3 p4 p5 dv, p[2]? = some p2 ∧ p[3]? = some p3 ∧ p[4]? = some p4 ∧ p[5]? = some p5 ∧ resolveDivisor p2 = .ok dv ∧
      s.alpha = reduceParam (clip3 (-32768) 32767 (p2 - 65536)) ∧ s.beta = reduceParam (clip3 (-32768) 32767 p3) ∧
      s.gamma = reduceParam (clip3 (-32768) 32767 (round2Signed (p4 * 65536 * dv.2) dv.1)) ∧
      s.delta = reduceParam (clip3 (-32768) 32767 (p5 - round2Signed (p3 * p4 * dv.2) dv.1 - 65536)) ∧
      s.valid = !(decide (4 * s.alpha.natAbs + 7 * s.beta.natAbs ≥ 65536) || decide (4 * s.gamma.natAbs + 4 * s.delta.natAbs ≥ 65536)) := by
  unfold setupShear at h
  obtain ⟨p2, e2, h⟩ := Res.inv h
  obtain ⟨p3, e3, h⟩ := Res.inv h
  obtain ⟨p4, e4, h⟩ := Res.inv h
  obtain ⟨p5, e5, h⟩ := Res.inv h
  obtain ⟨dv, e6, h⟩ := Res.inv h
  refine ⟨p2, p3, p4, p5, dv, (goGet_inv e2).2, (goGet_inv e3).2, (goGet_inv e4).2, (goGet_inv e5).2, e6, ?_⟩
  rw [← Except.ok.inj h]
  exact ⟨rfl, rfl, rfl, rfl, rfl⟩

/-- **C170 (range).**  Each parameter of the shear is a multiple of 64 from -32768 to 32767, and the shear is declared valid exactly when
`4|alpha| + 7|beta|` and `4|gamma| + 4|delta|` are below 65536. -/
theorem C170_range {p : List Int} {s : Shear} (h : setupShear p = .ok s) :
    (∀ v ∈ [s.alpha, s.beta, s.gamma, s.delta], (64 : Int) ∣ v ∧ -32768 ≤ v ∧ v ≤ 32767) ∧
    (s.valid = true ↔ 4 * |s.alpha| + 7 * |s.beta| < 65536 ∧ 4 * |s.gamma| + 4 * |s.delta| < 65536) := by
  obtain ⟨p2, p3, p4, p5, dv, -, -, -, -, -, e1, e2, e3, e4, e5⟩ := setupShear_inv h
  refine ⟨?_, ?_⟩
  · intro v hv
    simp only [List.mem_cons, List.not_mem_nil, or_false] at hv
    rcases hv with rfl | rfl | rfl | rfl
    · rw [e1]; have := reduceParam_range (p2 - 65536); omega
    · rw [e2]; have := reduceParam_range p3; omega
    · rw [e3]; have := reduceParam_range (round2Signed (p4 * 65536 * dv.2) dv.1); omega
    · rw [e4]; have := reduceParam_range (p5 - round2Signed (p3 * p4 * dv.2) dv.1 - 65536); omega
  · rw [e5, Bool.not_eq_true', Bool.or_eq_false_iff, decide_eq_false_iff_not, decide_eq_false_iff_not]
    rw [Int.abs_eq_natAbs, Int.abs_eq_natAbs, Int.abs_eq_natAbs, Int.abs_eq_natAbs]
    omega

/-- **C170 (refuted).**  A warp that stretches (`p2 ≥ 65536`) or shears to the right (`p3 ≥ 0`) gets zero in place of the rounded parameter. -/
theorem C170_round_refuted {p : List Int} {s : Shear} (h : setupShear p = .ok s) {p2 p3 : Int} (h2 : p[2]? = some p2) (h3 : p[3]? = some p3) :
    (65536 ≤ p2 → s.alpha = 0) ∧ (0 ≤ p3 → s.beta = 0) ∧ s.gamma ≤ 0 ∧ s.delta ≤ 0 ∧
    (65536 + 33 ≤ p2 → ¬ Near64 (clip3 (-32768) 32767 (p2 - 65536)) s.alpha) ∧ (33 ≤ p3 → ¬ Near64 (clip3 (-32768) 32767 p3) s.beta) := by
  obtain ⟨p2', p3', p4, p5, dv, k2, k3, -, -, -, e1, e2, e3, e4, -⟩ := setupShear_inv h
  rw [h2] at k2; rw [h3] at k3
  obtain rfl := Option.some.inj k2
  obtain rfl := Option.some.inj k3
  have hc : ∀ v : Int, 0 ≤ v → 0 ≤ clip3 (-32768) 32767 v ∧ (33 ≤ v → 33 ≤ clip3 (-32768) 32767 v) := by
    intro v hv; unfold clip3; repeat' split
    all_goals omega
  have a0 : 65536 ≤ p2 → s.alpha = 0 := fun hp => by rw [e1]; exact reduceParam_nonneg (hc _ (by omega)).1
  have b0 : 0 ≤ p3 → s.beta = 0 := fun hp => by rw [e2]; exact reduceParam_nonneg (hc _ hp).1
  refine ⟨a0, b0, ?_, ?_, ?_, ?_⟩
  · rw [e3]; exact (reduceParam_range _).2.2
  · rw [e4]; exact (reduceParam_range _).2.2
  · intro hp hn
    rw [a0 (by omega)] at hn
    have := (hc (p2 - 65536) (by omega)).2 (by omega)
    unfold Near64 at hn; omega
  · intro hp hn
    rw [b0 (by omega)] at hn
    have := (hc p3 (by omega)).2 hp
    unfold Near64 at hn; omega

/-- **C170 (partial).**  A warp that shrinks (`p2 ≤ 65536`) and shears to the left (`p3 ≤ 0`) gets the multiples of 64 nearest to the clamped
numbers.  Missing: the other signs (`C170_round_refuted`), and `gamma` and `delta`, which divide by `p2` (`C164_divisor_refuted`). -/
theorem C170_round_partial {p : List Int} {s : Shear} (h : setupShear p = .ok s) {p2 p3 : Int} (h2 : p[2]? = some p2) (h3 : p[3]? = some p3)
    (n2 : p2 ≤ 65536) (n3 : p3 ≤ 0) : Near64 (max (-32768) (p2 - 65536)) s.alpha ∧ Near64 (max (-32768) p3) s.beta := by
  obtain ⟨p2', p3', p4, p5, dv, k2, k3, -, -, -, e1, e2, -, -, -⟩ := setupShear_inv h
  rw [h2] at k2; rw [h3] at k3
  obtain rfl := Option.some.inj k2
  obtain rfl := Option.some.inj k3
  have hc : ∀ v : Int, v ≤ 0 → clip3 (-32768) 32767 v = max (-32768) v := by
    intro v hv; unfold clip3; repeat' split
    all_goals omega
  rw [e1, e2, hc _ (by omega), hc _ n3]
  exact ⟨reduceParam_neg (by omega), reduceParam_neg (by omega)⟩

/-- **C170 (identity).**  The warp that leaves everything in place is valid and has no shear. -/
theorem C170_identity (a b : Int) : setupShear [a, b, 65536, 0, 0, 65536] = .ok ⟨true, 0, 0, 0, 0⟩ := by
  have hr : setupShear [0, 0, 65536, 0, 0, 65536] = .ok ⟨true, 0, 0, 0, 0⟩ := by decide +kernel
  rw [← hr]
  rfl

example : setupShear [0, 0, 65000, -100, 0, 65536] = .ok ⟨true, -512, -128, 0, 0⟩ := by decide +kernel
example : setupShear [0, 0, 66000, 100, 0, 65536] = .ok ⟨true, 0, 0, 0, 0⟩ := by decide +kernel
example : (setupShear [0, 0, 40000, -20000, 0, 65536]).toOption.map (·.valid) = some false := by decide +kernel

end Gov1
