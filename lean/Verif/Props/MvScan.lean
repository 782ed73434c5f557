import Verif.Props.MvStack
/-!
# C148, C149: where candidates come from, and which neighbours are looked at
-/
namespace Gov1
open Spec

/-! ## Specification -/

/-- The block at cell `(r, c)` is inter and is predicted from the frame the current block is predicted from (from both, for two references). -/
def Matches (e : MvEnv) (compound : Bool) (r c : Int) : Prop :=
  (∃ i, gget e.isInters r c = .ok i ∧ i ≠ 0) ∧
    ∃ f, gget e.refFrames r c = .ok f ∧ if compound then f = e.refFrame else f.1 = e.refFrame.1 ∨ f.2 = e.refFrame.1

/-- `v` is what AV1 takes from cell `(r, c)` of the tile for a block with a single reference: the vector its block uses for that reference or, if
that block uses global motion, the global vector `g`, in the precision of the frame. -/
structure TakenFrom (e : MvEnv) (g : MVec) (r c : Int) (v : MVec) : Prop where
  inTile : isInside e.tile r c = true
  same : Matches e false r c
  vec : ∃ f m w, gget e.refFrames r c = .ok f ∧ gget e.yModes r c = .ok m ∧ v = lowerPrecision e.hdr w ∧
    ((∃ p, gget e.mvs r c = .ok p ∧ (f.1 = e.refFrame.1 ∧ w = p.1 ∨ f.2 = e.refFrame.1 ∧ w = p.2)) ∨ (m = 16 ∨ m = 24) ∧ w = g)

/-- A component in the precision of the frame. -/
def PreciseComp (h : MvHdr) (x : Int) : Prop := h.highPrecision = false → if h.forceInteger then 8 ∣ x else 2 ∣ x

/-! ## C148 -/

/-- Candidates so far: `k` or more, each from a neighbour. -/
structure Cands (e : MvEnv) (g : MVec) (k : Nat) (s : MvSt) : Prop where
  num : k ≤ s.num
  glob : s.globals.1 = g
  from' : ∀ i, i < s.num → ∃ p, s.stack[i]? = some p ∧ ∃ r c, TakenFrom e g r c p.1

variable {e : MvEnv} {g : MVec} {k : Nat}

theorem addWeight_cands {i : Nat} {w : Int} {s : MvSt} (h : Cands e g k s) : (addWeight i w s).Part (Cands e g k) :=
  part_goGet.bind fun _ _ => part_goSet.bind fun _ _ => Res.Part.pure ⟨h.num, h.glob, h.from'⟩

theorem pushOne_cands {mv : MVec} {w : Int} {s : MvSt} (h : Cands e g k s) {r c : Int} (ho : TakenFrom e g r c mv) : (pushOne mv w s).Part (Cands e g k) := by
  unfold pushOne
  split
  · refine part_goGet.bind fun o _ => part_goSet.bind fun st hst => part_goSet.bind fun ws _ => Res.Part.pure ?_
    obtain ⟨-, hl, rfl⟩ := goSet_inv' hst
    refine ⟨Nat.le_succ_of_le h.num, h.glob, fun i hi => ?_⟩
    have hi : i < s.num + 1 := hi
    rw [Int.toNat_natCast] at hl ⊢
    rcases Nat.lt_or_ge i s.num with h1 | h1
    · obtain ⟨p, hp, hq⟩ := h.from' i h1
      exact ⟨p, by show (s.stack.set s.num _)[i]? = _; rw [List.getElem?_set_ne (by omega)]; exact hp, hq⟩
    · have : i = s.num := by omega
      subst this
      exact ⟨_, List.getElem?_set_self hl, r, c, ho⟩
  · exact Res.Part.pure h

theorem addOrPush_cands {mv : MVec} {w : Int} {s : MvSt} (h : Cands e g k s) {r c : Int} (ho : TakenFrom e g r c mv) : (addOrPush mv w s).Part (Cands e g k) := by
  refine (stackFind_part _ _ _ _).bind fun i _ => ?_
  split
  · exact addWeight_cands h
  · exact pushOne_cands h ho

theorem useGlobal_mode (mode : Int) (large : Bool) : (useGlobal e mode large).Part (fun b => b = true → mode = 16 ∨ mode = 24) := by
  unfold useGlobal
  split
  · rename_i h
    exact part_goGet.bind fun _ _ => Res.Part.pure fun _ => h
  · exact Res.Part.pure fun h => (by cases h)

theorem searchIfSame_cands {r c : Int} {w : Int} {list : Nat} {s : MvSt} (hl : list = 0 ∨ list = 1) (hin : isInside e.tile r c = true)
    (hi : ∃ i, gget e.isInters r c = .ok i ∧ i ≠ 0) (h : Cands e g k s) : (searchIfSame e r c w list s).Part (Cands e g k) := by
  refine part_gget.bind fun f hf => ?_
  split
  · rename_i hsame
    refine part_gget.bind fun m hm => part_gget.bind fun sz _ => part_goGet.bind fun bw _ => part_goGet.bind fun bh _ => (useGlobal_mode _ _).bind fun b hb => ?_
    refine Res.Part.bind (Q := fun v => (∃ p, gget e.mvs r c = .ok p ∧ v = nth2 p list) ∨ (m = 16 ∨ m = 24) ∧ v = g) ?_ fun v hv => ?_
    · unfold candMv
      split
      · rename_i hb'
        exact Res.Part.pure (Or.inr ⟨hb hb', h.glob⟩)
      · exact part_gget.bind fun p hp => Res.Part.pure (Or.inl ⟨p, hp, rfl⟩)
    · refine addOrPush_cands (r := r) (c := c) ⟨h.num, h.glob, h.from'⟩ ⟨hin, ⟨hi, f, hf, ?_⟩, f, m, v, hf, hm, rfl, ?_⟩
      · rw [if_neg (by decide)]
        rcases hl with rfl | rfl
        · exact Or.inl hsame
        · exact Or.inr hsame
      · rcases hv with ⟨p, hp, rfl⟩ | hv
        · refine Or.inl ⟨p, hp, ?_⟩
          rcases hl with rfl | rfl
          · exact Or.inl ⟨hsame, rfl⟩
          · exact Or.inr ⟨hsame, rfl⟩
        · exact Or.inr hv
  · exact Res.Part.pure h

theorem addRef_cands {r c : Int} {w : Int} {s : MvSt} (hin : isInside e.tile r c = true) (h : Cands e g k s) : (addRefMvCandidate e r c false w s).Part (Cands e g k) := by
  refine part_gget.bind fun i hi => ?_
  split
  · exact Res.Part.pure h
  · rename_i hne
    unfold addInterCandidate
    rw [if_pos (by decide)]
    exact (searchIfSame_cands (Or.inl rfl) hin ⟨i, hi, hne⟩ h).bind fun _ h' => searchIfSame_cands (Or.inr rfl) hin ⟨i, hi, hne⟩ h'

theorem scanRowLoop_cands {bw4 : Nat} (hb : 1 ≤ bw4) {far : Bool} {r c0 end4 : Int} (fuel : Nat) : ∀ {i : Nat} {s : MvSt},
    end4 ≤ (i : Int) + fuel → Cands e g k s → (scanRowLoop e false bw4 far r c0 end4 fuel i s).Part (Cands e g k) := by
  induction fuel with
  | zero =>
    intro i s hf h
    unfold scanRowLoop
    rw [if_neg (by omega)]
    exact Res.Part.pure h
  | succ fuel ih =>
    intro i s hf h
    unfold scanRowLoop
    split
    · split
      · rename_i hin
        refine part_gget.bind fun sz _ => part_goGet.bind fun n hn => (addRef_cands hin h).bind fun s' h' => ?_
        have := scanLen_pos hb (n4_pos (Or.inl rfl) hn) far
        exact ih (by omega) h'
      · exact Res.Part.pure h
    · exact Res.Part.pure h

theorem scanColLoop_cands {bh4 : Nat} (hb : 1 ≤ bh4) {far : Bool} {r0 c end4 : Int} (fuel : Nat) : ∀ {i : Nat} {s : MvSt},
    end4 ≤ (i : Int) + fuel → Cands e g k s → (scanColLoop e false bh4 far r0 c end4 fuel i s).Part (Cands e g k) := by
  induction fuel with
  | zero =>
    intro i s hf h
    unfold scanColLoop
    rw [if_neg (by omega)]
    exact Res.Part.pure h
  | succ fuel ih =>
    intro i s hf h
    unfold scanColLoop
    split
    · split
      · rename_i hin
        refine part_gget.bind fun sz _ => part_goGet.bind fun n hn => (addRef_cands hin h).bind fun s' h' => ?_
        have := scanLen_pos hb (n4_pos (Or.inr rfl) hn) far
        exact ih (by omega) h'
      · exact Res.Part.pure h
    · exact Res.Part.pure h

theorem scanRow_cands {d : Int} {s : MvSt} (h : Cands e g k s) : (scanRow e d false s).Part (Cands e g k) :=
  part_goGet.bind fun _ hn => scanRowLoop_cands (n4_pos (Or.inl rfl) hn) _ (by omega) h

theorem scanCol_cands {d : Int} {s : MvSt} (h : Cands e g k s) : (scanCol e d false s).Part (Cands e g k) :=
  part_goGet.bind fun _ hn => scanColLoop_cands (n4_pos (Or.inr rfl) hn) _ (by omega) h

theorem scanPoint_cands {dr dc : Int} {s : MvSt} (h : Cands e g k s) : (scanPoint e dr dc false s).Part (Cands e g k) := by
  unfold scanPoint
  split
  · rename_i hin
    refine part_gget.bind fun f _ => ?_
    split
    · exact addRef_cands hin h
    · exact Res.Part.pure h
  · exact Res.Part.pure h

/-- The global vector of the block. -/
def GlobalOf (e : MvEnv) (g : MVec) : Prop := setupGlobalMv e.hdr e.gmType e.gmParams e.miRow e.miCol e.miSize e.refFrame.1 = .ok g

theorem nearScan_cands (e : MvEnv) (s : MvSt) : (nearScan e false s).Part (fun x => ∃ g, GlobalOf e g ∧ Cands e g 0 x.1) := by
  refine part_goGet.bind fun bw4 _ => part_goGet.bind fun bh4 _ => (setupGlobalMv_part _ _ _ _ _ _ _).bind fun g0 hg0 => ?_
  unfold secondGlobal
  rw [if_neg (by decide)]
  show Res.Part (scanRow e (-1) false _ >>= _) _
  have h0 : Cands e g0 0 { s with num := 0, newCount := 0, globals := (g0, s.globals.2), found := 0 } := ⟨Nat.le_refl 0, rfl, fun i hi => absurd hi (Nat.not_lt_zero i)⟩
  refine (scanRow_cands h0).bind fun s1 h1 => ?_
  refine (scanCol_cands (s := { s1 with found := 0 }) ⟨h1.num, h1.glob, h1.from'⟩).bind fun s2 h2 => ?_
  refine Res.Part.bind (Q := Cands e g0 0) ?_ fun s3 h3 => Res.Part.pure ⟨g0, hg0, ⟨h3.num, h3.glob, h3.from'⟩⟩
  unfold nearScan.nearPoint
  split
  · exact scanPoint_cands ⟨h2.num, h2.glob, h2.from'⟩
  · exact Res.Part.pure ⟨h2.num, h2.glob, h2.from'⟩

theorem farScan_cands {a l : Nat} {s : MvSt} (h : Cands e g k s) : (farScan e false a l s).Part (Cands e g k) := by
  have z : ∀ {s : MvSt}, Cands e g k s → Cands e g k { s with found := 0 } := fun h => ⟨h.num, h.glob, h.from'⟩
  refine part_goGet.bind fun bw4 _ => part_goGet.bind fun bh4 _ => ?_
  refine (scanPoint_cands h).bind fun s1 h1 => (scanRow_cands (z h1)).bind fun s2 h2 => (scanCol_cands (z h2)).bind fun s3 h3 => ?_
  refine Res.Part.bind (Q := Cands e g k) ?_ fun s4 h4 => ?_
  · unfold rowIf
    split
    · exact scanRow_cands (z h3)
    · exact Res.Part.pure (z h3)
  refine Res.Part.bind (Q := Cands e g k) ?_ fun s5 h5 => ?_
  · unfold colIf
    split
    · exact scanCol_cands (z h4)
    · exact Res.Part.pure (z h4)
  exact Res.Part.pure ⟨h5.num, h5.glob, h5.from'⟩

/-- **C148 (scan).**  For every neighbourhood: each candidate which the scan of the nearest neighbours leaves for a block with one reference is
taken from a cell of the tile whose block is inter and uses that reference; it is that block's vector for the reference or the global vector. -/
theorem C148_near_partial (e : MvEnv) (s : MvSt) {x : MvSt × Nat × Nat} (hr : nearScan e false s = .ok x) :
    ∃ g, GlobalOf e g ∧ ∀ i, i < x.1.num → ∃ p, x.1.stack[i]? = some p ∧ ∃ r c, TakenFrom e g r c p.1 := by
  obtain ⟨g, hg, h⟩ := (nearScan_cands e s).1 x hr
  exact ⟨g, hg, h.from'⟩

theorem sortStack_short {compound : Bool} {start fuel en : Nat} {s : MvSt} (h : en ≤ start + 1) (hf : en ≤ fuel) :
    sortStack compound start fuel en s = .ok s := by
  have h0 : ∀ {f : Nat} {s : MvSt}, sortStack compound start f start s = .ok s := by
    intro f s
    cases f <;> (unfold sortStack; rw [if_neg (by omega)]; rfl)
  rcases Nat.lt_or_ge start en with h1 | h1
  · have : en = start + 1 := by omega
    subst this
    obtain ⟨f, rfl⟩ : ∃ f, fuel = f + 1 := ⟨fuel - 1, by omega⟩
    unfold sortStack
    rw [if_pos (by omega), Nat.sub_self]
    exact h0
  · cases fuel <;> (unfold sortStack; rw [if_neg (by omega)]; rfl)

/-- **C148 (block).**  For a block whose row above and column to the left begin inside its tile (and no motion field projection): if the search
returns with a candidate, this is the vector `v` of a neighbour of the tile which is inter and uses the same reference, or the global vector,
restricted to the surroundings of the frame.  Whole for AV1 it is not: there are at most one candidate (C135) and no panics only for the first
cells (C139). -/
theorem C148_candidate_partial (e : MvEnv) (ht : e.useRefFrameMvs = false) (h1 : isInside e.tile ((e.miRow : Int) - 1) e.miCol = true)
    (h2 : isInside e.tile e.miRow ((e.miCol : Int) - 1) = true) {s s' : MvSt} (h : StInit s) (hr : findMvStack e false s = .ok s') (hn : 0 < s'.num)
    {bw4 bh4 : Nat} (hw : num4x4Wide[e.miSize]? = some bw4) (hh : num4x4High[e.miSize]? = some bh4) :
    ∃ g r c v w, GlobalOf e g ∧ TakenFrom e g r c v ∧ s'.stack[0]? = some (clampVec e bw4 bh4 (4 * bw4) (4 * bh4) v, w) := by
  unfold findMvStack at hr
  obtain ⟨x, hx, hr⟩ := Res.inv hr
  obtain ⟨⟨g1, hg1, o0⟩, -, ha, hl⟩ := (nearScan_ok h).1 x hx
  obtain ⟨g, hg, c0⟩ := (nearScan_cands e s).1 x hx
  obtain ⟨s1, hs1, hr⟩ := Res.inv hr
  have o1 := (raiseNearest_ok o0).1 s1 hs1
  have c1 : Cands e g x.1.num s1 := (part_forN (f := fun i s => addWeight i 640 s) (fun _ t => Cands e g x.1.num t) _ (fun _ _ _ _ ht => addWeight_cands ht) ⟨Nat.le_refl _, c0.glob, c0.from'⟩).1 s1 hs1
  unfold temporalIfUsed at hr
  rw [if_neg (by rw [ht]; decide)] at hr
  change farScan e false x.2.1 x.2.2 { s1 with zeroCtx := 0 } >>= _ = _ at hr
  obtain ⟨s3, hs3, hr⟩ := Res.inv hr
  have o3 := (farScan_ok ha hl (s := { s1 with zeroCtx := 0 }) ⟨o1.found, Nat.zero_le 1, o1.stack, o1.drl, o1.num, o1.globals, o1.total⟩).1 s3 hs3
  have c3 := (farScan_cands (s := { s1 with zeroCtx := 0 }) ⟨c1.num, c1.glob, c1.from'⟩).1 s3 hs3
  have c3n := c3.num
  rcases Nat.lt_or_ge s3.num 2 with hlt | hge
  · rw [sortStack_short (by omega) (Nat.le_refl _), Res.ok_bind, sortStack_short (by omega) (Nat.le_refl _), Res.ok_bind] at hr
    unfold extraIfFew at hr
    rw [if_pos hlt] at hr
    obtain ⟨s6, hs6, hr⟩ := Res.inv hr
    have hnum := C138_own_refuted e h1 h2 hs6
    have o6 := ((extraSearch_ok o3).1 s6 hs6).1
    have hst : ∀ i, i < s3.num → s6.stack[i]? = s3.stack[i]? := by
      unfold extraSearch at hs6
      obtain ⟨bw4', -, hs6⟩ := Res.inv hs6
      obtain ⟨bh4', -, hs6⟩ := Res.inv hs6
      dsimp only at hs6
      rw [extraLoop_inside (pass := 0) h1 (by omega), Res.ok_bind, extraLoop_inside (pass := 1) h2 (by omega), Res.ok_bind, if_neg (by decide)] at hs6
      refine (part_forN (f := extraFill) (fun _ (v : MvSt) => ∀ i, i < s3.num → v.stack[i]? = s3.stack[i]?) _ (fun j v hj _ hv => part_goGet.bind fun o _ => part_goSet.bind fun st hst => Res.Part.pure ?_) (fun i _ => rfl)).1 s6 hs6
      obtain ⟨-, -, rfl⟩ := goSet_inv' hst
      intro i hi
      show (v.stack.set (Int.toNat (j : Int)) _)[i]? = _
      rw [Int.toNat_natCast, List.getElem?_set_ne (by omega)]
      exact hv i hi
    have k := (contexts_ok o6).1 s' hr
    have hp : 0 < s6.num := by rw [← k.num]; exact hn
    obtain ⟨v, w, hv, hv'⟩ := k.head bw4 bh4 hw hh hp
    obtain ⟨p, hp3, r, c, hT⟩ := c3.from' 0 (by omega)
    rw [hst 0 (by omega), hp3] at hv
    cases hv
    exact ⟨g, r, c, v, w, hg, hT, hv'⟩
  · exfalso
    obtain ⟨s4, hs4, hr⟩ := Res.inv hr
    have o4 := (sortStack_ok _ (by omega) o3).1 s4 hs4
    obtain ⟨s5, hs5, hr⟩ := Res.inv hr
    have o5 := (sortStack_ok _ (by omega) o4.1).1 s5 hs5
    unfold extraIfFew at hr
    have h5 : s5.num = 2 := by have := o5.1.num; omega
    rw [if_neg (by omega)] at hr
    exact (contexts_two o5.1 h5).1 s' hr

theorem lower_precise (h : MvHdr) (v : MVec) : PreciseComp h (lowerPrecision h v).1 ∧ PreciseComp h (lowerPrecision h v).2 := by
  constructor
  all_goals
    intro hp
    split
    · rename_i hf
      have := (C130_precision h v).2.1 hp hf
      simp only [roundsTo] at this
      omega
    · rename_i hf
      have := (C130_precision h v).2.2 hp (by simpa using hf)
      simp only [roundsTo] at this
      omega

theorem clamp_precise {h : MvHdr} {total pos n4 b : Nat} {x : Int} (hx : PreciseComp h x) : PreciseComp h (clampMv total pos n4 (128 + ((4 * b : Nat) : Int) * 8) x) := by
  intro hp
  have := hx hp
  unfold clampMv clip3
  split at this <;> rename_i hf
  · rw [if_pos hf]
    split
    · omega
    · split <;> omega
  · rw [if_neg hf]
    split
    · omega
    · split <;> omega

/-- **C148 (precision).**  Under the same conditions the candidate is a vector of the frame's precision: whole pixels if the frame has only these,
quarter pixels unless the frame has eighths. -/
theorem C148_precision_partial (e : MvEnv) (ht : e.useRefFrameMvs = false) (h1 : isInside e.tile ((e.miRow : Int) - 1) e.miCol = true)
    (h2 : isInside e.tile e.miRow ((e.miCol : Int) - 1) = true) {s s' : MvSt} (h : StInit s) (hr : findMvStack e false s = .ok s') (hn : 0 < s'.num)
    (hz : e.miSize < 22) : ∃ v w, s'.stack[0]? = some (v, w) ∧ PreciseComp e.hdr v.1 ∧ PreciseComp e.hdr v.2 := by
  obtain ⟨bw4, hw⟩ : ∃ n, num4x4Wide[e.miSize]? = some n := ⟨_, List.getElem?_eq_getElem (show e.miSize < 22 from hz)⟩
  obtain ⟨bh4, hh⟩ : ∃ n, num4x4High[e.miSize]? = some n := ⟨_, List.getElem?_eq_getElem (show e.miSize < 22 from hz)⟩
  obtain ⟨g, r, c, v, w, -, hT, hs⟩ := C148_candidate_partial e ht h1 h2 h hr hn hw hh
  obtain ⟨f, m, u, -, -, rfl, -⟩ := hT.vec
  exact ⟨_, w, hs, clamp_precise (lower_precise e.hdr u).1, clamp_precise (lower_precise e.hdr u).2⟩

/-- Vectors of odd components in a frame of whole pixel vectors. -/
def mvDemoInt : MvEnv := { mvDemo with hdr := { forceInteger := true }, mvs := List.replicate 64 (List.replicate 64 ((20, -13), (0, 0))) }

example : (findMvStack mvDemoInt false {}).toOption.map (fun s => (s.num, s.stack[0]?)) = some (1, some ((16, -16), (0, 0))) ∧
    isInside mvDemoInt.tile ((mvDemoInt.miRow : Int) - 1) mvDemoInt.miCol = true ∧ isInside mvDemoInt.tile mvDemoInt.miRow ((mvDemoInt.miCol : Int) - 1) = true := by
  decide +kernel

-- the neighbour has two references: its second vector is taken
example : (findMvStack { mvDemo with refFrames := List.replicate 64 (List.replicate 64 (2, 1)), mvs := List.replicate 64 (List.replicate 64 ((2, 2), (40, 8))) } false {}).toOption.map
    (fun s => (s.num, s.stack[0]?)) = some (1, some ((40, 8), (0, 0))) := by decide +kernel

/-! ## C149 -/

/-- How far the scan may step over a block `n` cells wide: `far` rows and wide blocks are scanned in coarser steps (AV1 7.10.2.2). -/
def stride (n4 : Nat) (far : Bool) (n : Nat) : Nat := max n (if n4 ≥ 16 then 4 else if far then 2 else 1)

theorem scanLen_stride {n4 n : Nat} {far : Bool} (h : 1 ≤ n4) : scanLen n4 n far ≤ stride n4 far n := by
  unfold scanLen stride
  dsimp only
  cases far <;> simp only [if_true, Bool.false_eq_true, if_false] <;> split <;> omega

theorem addOrPush_found {mv : MVec} {w : Int} {s : MvSt} : (addOrPush mv w s).Part (fun t => t.found = s.found) := by
  refine (stackFind_part _ _ _ _).bind fun i _ => ?_
  split
  · exact part_goGet.bind fun _ _ => part_goSet.bind fun _ _ => Res.Part.pure rfl
  · unfold pushOne
    split
    · exact part_goGet.bind fun _ _ => part_goSet.bind fun _ _ => part_goSet.bind fun _ _ => Res.Part.pure rfl
    · exact Res.Part.pure rfl

theorem searchStack_found {r c : Int} {list : Nat} {w : Int} {s : MvSt} : (searchStack e r c list w s).Part (fun t => t.found = 1) :=
  part_gget.bind fun _ _ => part_gget.bind fun _ _ => part_goGet.bind fun _ _ => part_goGet.bind fun _ _ =>
    (useGlobal_part _ _ _).bind fun _ _ => (candMv_part _ _ _ _ _ _).bind fun _ _ => addOrPush_found.mono fun _ h => h

theorem raiseEqual_found {p : MvPair} {w : Int} (n : Nat) : ∀ {i : Nat} {s : MvSt}, (raiseEqual p w n i s).Part (fun t => t.found = s.found) := by
  induction n with
  | zero => intro i s; exact Res.Part.pure rfl
  | succ n ih =>
    intro i s
    refine part_goGet.bind fun x _ => ?_
    have : Res.Part (raiseIf x p w i s) (fun t => t.found = s.found) := by
      unfold raiseIf
      split
      · exact part_goGet.bind fun _ _ => part_goSet.bind fun _ _ => Res.Part.pure rfl
      · exact Res.Part.pure rfl
    exact this.bind fun s' h' => ih.mono fun t ht => ht.trans h'

theorem compoundSearch_found {r c : Int} {w : Int} {s : MvSt} : (compoundSearch e r c w s).Part (fun t => t.found = 1) := by
  refine part_gget.bind fun _ _ => part_gget.bind fun _ _ => (globalPair_part _ _ _ _).bind fun _ _ => (raiseEqual_found _).bind fun t ht => ?_
  unfold pushTwo
  split
  · exact part_goSet.bind fun _ _ => part_goSet.bind fun _ _ => Res.Part.pure ht
  · exact Res.Part.pure ht

theorem searchIfSame_found {r c : Int} {w : Int} {list : Nat} {s : MvSt} : (searchIfSame e r c w list s).Part
    (fun t => ∃ f, gget e.refFrames r c = .ok f ∧ (if nth2 f list = e.refFrame.1 then t.found = 1 else t.found = s.found)) := by
  refine part_gget.bind fun f hf => ?_
  split
  · rename_i h
    exact searchStack_found.mono fun t ht => ⟨f, hf, by rw [if_pos h]; exact ht⟩
  · rename_i h
    exact Res.Part.pure ⟨f, hf, by rw [if_neg h]⟩

/-- What is known of the flag after a cell was looked at: it is set if the cell matches, else unchanged. -/
theorem addRef_found {compound : Bool} {r c : Int} {w : Int} {s : MvSt} :
    (addRefMvCandidate e r c compound w s).Part (fun t => (Matches e compound r c → t.found = 1) ∧ (¬ Matches e compound r c → t.found = s.found)) := by
  refine part_gget.bind fun i hi => ?_
  split
  · rename_i h0
    refine Res.Part.pure ⟨fun hm => ?_, fun _ => rfl⟩
    obtain ⟨⟨j, hj, hne⟩, -⟩ := hm
    rw [hi] at hj; cases hj
    exact absurd h0 hne
  · rename_i hne
    unfold addInterCandidate
    split
    · rename_i hc
      have hc : compound = false := by simpa using hc
      subst hc
      refine searchIfSame_found.bind fun s1 h1 => searchIfSame_found.mono fun s2 h2 => ?_
      obtain ⟨f, hf, h1⟩ := h1
      obtain ⟨f', hf', h2⟩ := h2
      rw [hf] at hf'; cases hf'
      change (if f.1 = e.refFrame.1 then _ else _) at h1
      change (if f.2 = e.refFrame.1 then _ else _) at h2
      constructor
      · rintro ⟨-, f', hf', hm⟩
        rw [hf] at hf'; cases hf'
        rw [if_neg (by decide)] at hm
        split at h2
        · exact h2
        · rename_i hn2
          rcases hm with hm | hm
          · rw [if_pos hm] at h1; rw [h2, h1]
          · exact absurd hm hn2
      · intro hm
        have hn : ¬ (f.1 = e.refFrame.1 ∨ f.2 = e.refFrame.1) := fun h => hm ⟨⟨i, hi, hne⟩, f, hf, by rw [if_neg (by decide)]; exact h⟩
        rw [if_neg (fun h => hn (Or.inl h))] at h1
        rw [if_neg (fun h => hn (Or.inr h))] at h2
        rw [h2, h1]
    · rename_i hc
      have hc : compound = true := by simpa using hc
      subst hc
      refine part_gget.bind fun f hf => ?_
      split
      · rename_i hs
        exact compoundSearch_found.mono fun t ht => ⟨fun _ => ht, fun hm => absurd ⟨⟨i, hi, hne⟩, f, hf, by rw [if_pos rfl]; exact hs⟩ hm⟩
      · rename_i hs
        refine Res.Part.pure ⟨fun hm => ?_, fun _ => rfl⟩
        obtain ⟨-, f', hf', hm⟩ := hm
        rw [hf] at hf'; cases hf'
        rw [if_pos rfl] at hm
        exact absurd hm hs

/-- The cells of the row (`c` counts) were looked at: `cell j` lies on or behind a looked-at cell, at most the `stride` of the block there away;
the flag says whether one of the cells looked at matched. -/
def ScanCovers (e : MvEnv) (compound : Bool) (wide : List Nat) (cell : Nat → Int × Int) (n4 : Nat) (far : Bool) (i0 : Nat) (end4 : Int) (found0 found : Nat) : Prop :=
  (found = 0 → found0 = 0 ∧ ∀ j : Nat, i0 ≤ j → (j : Int) < end4 → (∀ l, l ≤ j → isInside e.tile (cell l).1 (cell l).2 = true) →
    ∃ i sz n, i0 ≤ i ∧ i ≤ j ∧ gget e.miSizes (cell i).1 (cell i).2 = .ok sz ∧ goGet wide (sz : Int) = .ok n ∧ j < i + stride n4 far n ∧ ¬ Matches e compound (cell i).1 (cell i).2) ∧
  (found = 1 → found0 = 1 ∨ ∃ i : Nat, i0 ≤ i ∧ (i : Int) < end4 ∧ isInside e.tile (cell i).1 (cell i).2 = true ∧ Matches e compound (cell i).1 (cell i).2)

theorem covers_end {compound : Bool} {wide : List Nat} {cell : Nat → Int × Int} {n4 : Nat} {far : Bool} {i : Nat} {end4 : Int} {x : Nat} (h : ¬ (i : Int) < end4) :
    ScanCovers e compound wide cell n4 far i end4 x x :=
  ⟨fun hx => ⟨hx, fun j h1 h2 => absurd h2 (by omega)⟩, fun hx => Or.inl hx⟩

theorem covers_out {compound : Bool} {wide : List Nat} {cell : Nat → Int × Int} {n4 : Nat} {far : Bool} {i : Nat} {end4 : Int} {x : Nat}
    (h : ¬ isInside e.tile (cell i).1 (cell i).2 = true) : ScanCovers e compound wide cell n4 far i end4 x x :=
  ⟨fun hx => ⟨hx, fun j h1 _ h3 => absurd (h3 i h1) h⟩, fun hx => Or.inl hx⟩

theorem covers_step {compound : Bool} {wide : List Nat} {cell : Nat → Int × Int} {n4 : Nat} {far : Bool} {i : Nat} {end4 : Int} {sz n : Nat} {x y z : Nat} (h1 : 1 ≤ n4)
    (hin : isInside e.tile (cell i).1 (cell i).2 = true) (hlt : (i : Int) < end4)
    (hs : gget e.miSizes (cell i).1 (cell i).2 = .ok sz) (hn : goGet wide (sz : Int) = .ok n)
    (hm : (Matches e compound (cell i).1 (cell i).2 → y = 1) ∧ (¬ Matches e compound (cell i).1 (cell i).2 → y = x))
    (hc : ScanCovers e compound wide cell n4 far (i + scanLen n4 n far) end4 y z) : ScanCovers e compound wide cell n4 far i end4 x z := by
  have hl := scanLen_stride (n := n) (far := far) h1
  constructor
  · intro hz
    obtain ⟨hy, hc⟩ := hc.1 hz
    have hnm : ¬ Matches e compound (cell i).1 (cell i).2 := fun h => by have := hm.1 h; omega
    refine ⟨by rw [← hm.2 hnm]; exact hy, fun j hj hje hins => ?_⟩
    rcases Nat.lt_or_ge j (i + scanLen n4 n far) with h | h
    · exact ⟨i, sz, n, Nat.le_refl i, hj, hs, hn, by omega, hnm⟩
    · obtain ⟨i', sz', n', k1, k2⟩ := hc j h hje hins
      exact ⟨i', sz', n', by omega, k2⟩
  · intro hz
    rcases hc.2 hz with hy | ⟨j, hj, hje, hjm⟩
    · by_cases hM : Matches e compound (cell i).1 (cell i).2
      · exact Or.inr ⟨i, Nat.le_refl i, hlt, hin, hM⟩
      · exact Or.inl (by rw [← hm.2 hM]; exact hy)
    · exact Or.inr ⟨j, by omega, hje, hjm⟩

theorem scanRowLoop_covers {compound : Bool} {bw4 : Nat} (hb : 1 ≤ bw4) {far : Bool} {r c0 end4 : Int} (fuel : Nat) : ∀ {i : Nat} {s : MvSt},
    end4 ≤ (i : Int) + fuel →
    (scanRowLoop e compound bw4 far r c0 end4 fuel i s).Part (fun t => ScanCovers e compound num4x4Wide (fun i => (r, c0 + i)) bw4 far i end4 s.found t.found) := by
  induction fuel with
  | zero =>
    intro i s hf
    unfold scanRowLoop
    rw [if_neg (by omega)]
    exact Res.Part.pure (covers_end (by omega))
  | succ fuel ih =>
    intro i s hf
    unfold scanRowLoop
    split
    · rename_i hlt
      split
      · rename_i hin
        refine part_gget.bind fun sz hsz => part_goGet.bind fun n hn => addRef_found.bind fun s' h' => ?_
        have := scanLen_pos hb (n4_pos (Or.inl rfl) hn) far
        exact (ih (by omega)).mono fun t ht => covers_step hb hin hlt hsz hn h' ht
      · rename_i hout
        exact Res.Part.pure (covers_out hout)
    · rename_i hlt
      exact Res.Part.pure (covers_end hlt)

theorem scanColLoop_covers {compound : Bool} {bh4 : Nat} (hb : 1 ≤ bh4) {far : Bool} {r0 c end4 : Int} (fuel : Nat) : ∀ {i : Nat} {s : MvSt},
    end4 ≤ (i : Int) + fuel →
    (scanColLoop e compound bh4 far r0 c end4 fuel i s).Part (fun t => ScanCovers e compound num4x4High (fun i => (r0 + i, c)) bh4 far i end4 s.found t.found) := by
  induction fuel with
  | zero =>
    intro i s hf
    unfold scanColLoop
    rw [if_neg (by omega)]
    exact Res.Part.pure (covers_end (by omega))
  | succ fuel ih =>
    intro i s hf
    unfold scanColLoop
    split
    · rename_i hlt
      split
      · rename_i hin
        refine part_gget.bind fun sz hsz => part_goGet.bind fun n hn => addRef_found.bind fun s' h' => ?_
        have := scanLen_pos hb (n4_pos (Or.inr rfl) hn) far
        exact (ih (by omega)).mono fun t ht => covers_step hb hin hlt hsz hn h' ht
      · rename_i hout
        exact Res.Part.pure (covers_out hout)
    · rename_i hlt
      exact Res.Part.pure (covers_end hlt)

/-- **C149 (row above).**  A scan of the row above a block that returns looked at every neighbour there, from the block's left edge to the end of the
block or the frame (at most 64 pixels): cell after cell of the row, as long as they are inside the tile, belongs to a block looked at (narrow
blocks beside a block of 64 pixels or more may be stepped over, as in AV1).  If no match is reported none of the blocks looked at matches; if one
is, there is one. -/
theorem C149_above (e : MvEnv) (compound : Bool) {s s' : MvSt} (hs : s.found = 0) (hr : scanRow e (-1) compound s = .ok s') {bw4 : Nat}
    (hw : num4x4Wide[e.miSize]? = some bw4) :
    ScanCovers e compound num4x4Wide (fun i => ((e.miRow : Int) - 1, (e.miCol : Int) + i)) bw4 false 0 (min (min (bw4 : Int) ((e.miCols : Int) - e.miCol)) 16) 0 s'.found := by
  unfold scanRow at hr
  obtain ⟨b, hb, hr⟩ := Res.inv hr
  have hb1 := n4_pos (Or.inl rfl) hb
  rw [goGet_inv_nat hb] at hw
  cases hw
  have := (scanRowLoop_covers hb1 _ (by omega)).1 s' hr
  rw [hs] at this
  simpa [Int.sub_eq_add_neg] using this

/-- **C149 (column to the left).**  The same for the column to the left. -/
theorem C149_left (e : MvEnv) (compound : Bool) {s s' : MvSt} (hs : s.found = 0) (hr : scanCol e (-1) compound s = .ok s') {bh4 : Nat}
    (hh : num4x4High[e.miSize]? = some bh4) :
    ScanCovers e compound num4x4High (fun i => ((e.miRow : Int) + i, (e.miCol : Int) - 1)) bh4 false 0 (min (min (bh4 : Int) ((e.miRows : Int) - e.miRow)) 16) 0 s'.found := by
  unfold scanCol at hr
  obtain ⟨b, hb, hr⟩ := Res.inv hr
  have hb1 := n4_pos (Or.inr rfl) hb
  rw [goGet_inv_nat hb] at hh
  cases hh
  have := (scanColLoop_covers hb1 _ (by omega)).1 s' hr
  rw [hs] at this
  simpa [Int.sub_eq_add_neg] using this

/-- **C149 (far rows).**  The rows 2 and 4 above (AV1: `-3` and `-5`, moved by 1 in odd rows) are scanned in steps of at most 2 cells. -/
theorem C149_far (e : MvEnv) (compound : Bool) {d : Int} (hd : d = -3 ∨ d = -5) {s s' : MvSt} (hs : s.found = 0) (hr : scanRow e d compound s = .ok s') {bw4 : Nat}
    (hw : num4x4Wide[e.miSize]? = some bw4) :
    ScanCovers e compound num4x4Wide (fun i => ((e.miRow : Int) + d + ((e.miRow % 2 : Nat) : Int), (e.miCol : Int) + (1 - ((e.miCol % 2 : Nat) : Int)) + i)) bw4 true 0
      (min (min (bw4 : Int) ((e.miCols : Int) - e.miCol)) 16) 0 s'.found := by
  unfold scanRow at hr
  obtain ⟨b, hb, hr⟩ := Res.inv hr
  have hb1 := n4_pos (Or.inl rfl) hb
  rw [goGet_inv_nat hb] at hw
  cases hw
  have hfar : decide (d.natAbs > 1) = true := by rcases hd with rfl | rfl <;> decide
  dsimp only at hr
  rw [hfar] at hr
  simp only [if_true] at hr
  have := (scanRowLoop_covers hb1 _ (by omega)).1 s' hr
  rw [hs, ← Int.add_assoc] at this
  exact this

/-- Above a block of 16x16 pixels: a narrow block with another reference, then one with the same. -/
def mvDemoRow : MvEnv :=
  { mvDemo with tile := ⟨0, 4, 0, 4⟩, miRow := 1, miCol := 0, miSize := 6, miRows := 4, miCols := 4,
                refFrames := List.replicate 64 ((2, -1) :: List.replicate 63 (1, -1)), isInters := List.replicate 4 (List.replicate 4 1) }

example : (scanRow mvDemoRow (-1) false {}).toOption.map (fun s => (s.found, s.num, s.weights.take 1)) = some (1, 1, [6]) ∧ num4x4Wide[mvDemoRow.miSize]? = some 4 ∧
    (scanRow { mvDemoRow with refFrame := (3, -1) } (-1) false {}).toOption.map (fun s => s.found) = some 0 := by decide +kernel

end Gov1
