import Verif.Props.MvScan
/-!
# C148 (pairs of vectors), C193: candidates for two references; no candidate twice
-/
namespace Gov1
open Spec

/-! ## The scans keep what adding a candidate keeps -/

/-- Adding a candidate from a cell of the tile keeps `P`, and so does resetting the flag. -/
structure ScanKeeps (e : MvEnv) (compound : Bool) (P : MvSt → Prop) : Prop where
  add : ∀ {r c w s}, isInside e.tile r c = true → P s → (addRefMvCandidate e r c compound w s).Part P
  reset : ∀ {s}, P s → P { s with found := 0 }

variable {e : MvEnv} {compound : Bool} {P : MvSt → Prop}

theorem ScanKeeps.rowLoop (hP : ScanKeeps e compound P) {bw4 : Nat} (hb : 1 ≤ bw4) {far : Bool} {r c0 end4 : Int} (fuel : Nat) : ∀ {i : Nat} {s : MvSt},
    end4 ≤ (i : Int) + fuel → P s → (scanRowLoop e compound bw4 far r c0 end4 fuel i s).Part P := by
  induction fuel with
  | zero =>
    intro i s hf h
    unfold scanRowLoop
    rw [if_neg (by omega)]
    exact Res.Part.pure h
  | succ fuel ih =>
    intro i s hf h
    unfold scanRowLoop
    split
    · split
      · rename_i hin
        refine part_gget.bind fun sz _ => part_goGet.bind fun n hn => (hP.add hin h).bind fun s' h' => ?_
        have := scanLen_pos hb (n4_pos (Or.inl rfl) hn) far
        exact ih (by omega) h'
      · exact Res.Part.pure h
    · exact Res.Part.pure h

theorem ScanKeeps.colLoop (hP : ScanKeeps e compound P) {bh4 : Nat} (hb : 1 ≤ bh4) {far : Bool} {r0 c end4 : Int} (fuel : Nat) : ∀ {i : Nat} {s : MvSt},
    end4 ≤ (i : Int) + fuel → P s → (scanColLoop e compound bh4 far r0 c end4 fuel i s).Part P := by
  induction fuel with
  | zero =>
    intro i s hf h
    unfold scanColLoop
    rw [if_neg (by omega)]
    exact Res.Part.pure h
  | succ fuel ih =>
    intro i s hf h
    unfold scanColLoop
    split
    · split
      · rename_i hin
        refine part_gget.bind fun sz _ => part_goGet.bind fun n hn => (hP.add hin h).bind fun s' h' => ?_
        have := scanLen_pos hb (n4_pos (Or.inr rfl) hn) far
        exact ih (by omega) h'
      · exact Res.Part.pure h
    · exact Res.Part.pure h

theorem ScanKeeps.row (hP : ScanKeeps e compound P) {d : Int} {s : MvSt} (h : P s) : (scanRow e d compound s).Part P :=
  part_goGet.bind fun _ hn => hP.rowLoop (n4_pos (Or.inl rfl) hn) _ (by omega) h

theorem ScanKeeps.col (hP : ScanKeeps e compound P) {d : Int} {s : MvSt} (h : P s) : (scanCol e d compound s).Part P :=
  part_goGet.bind fun _ hn => hP.colLoop (n4_pos (Or.inr rfl) hn) _ (by omega) h

theorem ScanKeeps.point (hP : ScanKeeps e compound P) {dr dc : Int} {s : MvSt} (h : P s) : (scanPoint e dr dc compound s).Part P := by
  unfold scanPoint
  split
  · rename_i hin
    refine part_gget.bind fun f _ => ?_
    split
    · exact hP.add hin h
    · exact Res.Part.pure h
  · exact Res.Part.pure h

theorem ScanKeeps.far (hP : ScanKeeps e compound P) (ht : ∀ {s : MvSt} {n : Nat}, P s → P { s with total := n }) {a l : Nat} {s : MvSt} (h : P s) :
    (farScan e compound a l s).Part P := by
  have z : ∀ {s : MvSt}, P s → P { s with found := 0 } := hP.reset
  refine part_goGet.bind fun bw4 _ => part_goGet.bind fun bh4 _ => ?_
  refine (hP.point h).bind fun s1 h1 => (hP.row (z h1)).bind fun s2 h2 => (hP.col (z h2)).bind fun s3 h3 => ?_
  refine Res.Part.bind (Q := P) ?_ fun s4 h4 => ?_
  · unfold rowIf
    split
    · exact hP.row (z h3)
    · exact Res.Part.pure (z h3)
  refine Res.Part.bind (Q := P) ?_ fun s5 h5 => ?_
  · unfold colIf
    split
    · exact hP.col (z h4)
    · exact Res.Part.pure (z h4)
  exact Res.Part.pure (ht h5)

theorem ScanKeeps.near {P : MvPair → MvSt → Prop} (hP : ∀ g, ScanKeeps e compound (P g)) (hc : ∀ {g s n}, P g s → P g { s with close := n })
    (h0 : ∀ s : MvSt, s.num = 0 → P s.globals s) (s : MvSt) :
    (nearScan e compound s).Part (fun x => ∃ g, setupGlobalMv e.hdr e.gmType e.gmParams e.miRow e.miCol e.miSize e.refFrame.1 = .ok g.1 ∧
      (compound = true → setupGlobalMv e.hdr e.gmType e.gmParams e.miRow e.miCol e.miSize e.refFrame.2 = .ok g.2) ∧ P g x.1) := by
  refine part_goGet.bind fun bw4 _ => part_goGet.bind fun bh4 _ => (setupGlobalMv_part _ _ _ _ _ _ _).bind fun g0 hg0 => ?_
  refine Res.Part.bind (Q := fun g1 => compound = true → setupGlobalMv e.hdr e.gmType e.gmParams e.miRow e.miCol e.miSize e.refFrame.2 = .ok g1) ?_ fun g1 hg1 => ?_
  · unfold secondGlobal
    split
    · exact (setupGlobalMv_part _ _ _ _ _ _ _).mono fun g hg _ => hg
    · rename_i hn
      exact Res.Part.pure fun h => absurd h hn
  have k := hP (g0, g1)
  have h00 : P (g0, g1) { s with num := 0, newCount := 0, globals := (g0, g1), found := 0 } := h0 { s with num := 0, newCount := 0, globals := (g0, g1), found := 0 } rfl
  refine (k.row h00).bind fun s1 h1 => (k.col (k.reset h1)).bind fun s2 h2 => ?_
  refine Res.Part.bind (Q := P (g0, g1)) ?_ fun s3 h3 => Res.Part.pure ⟨(g0, g1), hg0, hg1, hc h3⟩
  unfold nearScan.nearPoint
  split
  · exact k.point (k.reset h2)
  · exact Res.Part.pure (k.reset h2)

/-! ## C148: candidates for two references -/

/-- `v` is what cell `(r, c)` of the tile has for a block with two references: its block is inter and predicted from the same two frames, `v` is its
pair of vectors; if it uses global motion for both, the global vectors `g` may stand for them. -/
structure PairFrom (e : MvEnv) (g : MvPair) (r c : Int) (v : MvPair) : Prop where
  inTile : isInside e.tile r c = true
  same : Matches e true r c
  vec : ∃ p m, gget e.mvs r c = .ok p ∧ gget e.yModes r c = .ok m ∧ (v = p ∨ m = 24 ∧ (v.1 = p.1 ∨ v.1 = g.1) ∧ (v.2 = p.2 ∨ v.2 = g.2))

/-- All candidates are pairs of a neighbour. -/
structure Pairs (e : MvEnv) (g : MvPair) (s : MvSt) : Prop where
  glob : s.globals = g
  from' : ∀ i, i < s.num → ∃ p, s.stack[i]? = some p ∧ ∃ r c, PairFrom e g r c p

theorem raiseEqual_pairs {g p : MvPair} {w : Int} (n : Nat) : ∀ {i : Nat} {s : MvSt}, Pairs e g s → (raiseEqual p w n i s).Part (Pairs e g) := by
  induction n with
  | zero => intro i s h; exact Res.Part.pure h
  | succ n ih =>
    intro i s h
    refine part_goGet.bind fun x _ => ?_
    have : Res.Part (raiseIf x p w i s) (Pairs e g) := by
      unfold raiseIf
      split
      · exact part_goGet.bind fun _ _ => part_goSet.bind fun _ _ => Res.Part.pure ⟨h.glob, h.from'⟩
      · exact Res.Part.pure h
    exact this.bind fun s' h' => ih h'

theorem globalPart_val {ref : Int} {a b : MVec} : (globalPart e ref a b).Part (fun v => v = b ∨ v = a) := by
  refine part_goGet.bind fun t _ => Res.Part.pure ?_
  split
  · exact Or.inr rfl
  · exact Or.inl rfl

theorem pairs_keeps (e : MvEnv) (g : MvPair) : ScanKeeps e true (Pairs e g) where
  reset h := ⟨h.glob, h.from'⟩
  add {r c w s} hin h := by
    refine part_gget.bind fun i hi => ?_
    split
    · exact Res.Part.pure h
    · rename_i hne
      unfold addInterCandidate
      rw [if_neg (by decide)]
      refine part_gget.bind fun f hf => ?_
      split
      · rename_i hs
        refine part_gget.bind fun p hp => part_gget.bind fun m hm => ?_
        refine Res.Part.bind (Q := fun v => PairFrom e g r c v) ?_ fun v hv => ?_
        · have hM : Matches e true r c := ⟨⟨i, hi, hne⟩, f, hf, by rw [if_pos rfl]; exact hs⟩
          unfold globalPair
          split
          · rename_i h24
            refine globalPart_val.bind fun a ha => globalPart_val.bind fun b hb => Res.Part.pure ⟨hin, hM, p, m, hp, hm, Or.inr ⟨h24, ?_, ?_⟩⟩
            · rw [h.glob] at ha; exact ha
            · rw [h.glob] at hb; exact hb
          · exact Res.Part.pure ⟨hin, hM, p, m, hp, hm, Or.inl rfl⟩
        · have h' : Pairs e g { s with found := 1, newCount := s.newCount + (if hasNewmv m then 1 else 0) } := ⟨h.glob, h.from'⟩
          refine (raiseEqual_pairs (g := g) _ h').bind fun t ht => ?_
          unfold pushTwo
          split
          · refine part_goSet.bind fun st hst => part_goSet.bind fun ws _ => Res.Part.pure ⟨ht.glob, fun i hi => ?_⟩
            obtain ⟨-, hl, rfl⟩ := goSet_inv' hst
            have hi : i < t.num + 1 := hi
            rw [Int.toNat_natCast] at hl ⊢
            rcases Nat.lt_or_ge i t.num with h1 | h1
            · obtain ⟨p, hp, hq⟩ := ht.from' i h1
              exact ⟨p, by show (t.stack.set t.num _)[i]? = _; rw [List.getElem?_set_ne (by omega)]; exact hp, hq⟩
            · have : i = t.num := by omega
              subst this
              exact ⟨_, List.getElem?_set_self hl, r, c, hv⟩
          · exact Res.Part.pure ht
      · exact Res.Part.pure h

/-- What the scans of the neighbourhood leave (steps 1 to 32 of AV1's process without the motion field). -/
def spatialScan (e : MvEnv) (compound : Bool) (s : MvSt) : Res MvSt := do
  let x ← nearScan e compound s
  let s ← raiseNearest x.1.num x.1
  farScan e compound x.2.1 x.2.2 { s with zeroCtx := 0 }

/-- The stack of a block without motion field projection comes out of the scans. -/
theorem findMvStack_spatial (e : MvEnv) (compound : Bool) (s : MvSt) (ht : e.useRefFrameMvs = false) {s' : MvSt} (h : findMvStack e compound s = .ok s') :
    ∃ t, spatialScan e compound s = .ok t := by
  unfold findMvStack at h
  obtain ⟨x, hx, h⟩ := Res.inv h
  obtain ⟨s1, hs1, h⟩ := Res.inv h
  unfold temporalIfUsed at h
  rw [if_neg (by rw [ht]; decide)] at h
  change farScan e compound x.2.1 x.2.2 { s1 with zeroCtx := 0 } >>= _ = _ at h
  obtain ⟨s3, hs3, h⟩ := Res.inv h
  exact ⟨s3, by unfold spatialScan; rw [hx, Res.ok_bind, hs1, Res.ok_bind, hs3]⟩

theorem spatial_part {P : MvPair → MvSt → Prop} (hP : ∀ g, ScanKeeps e compound (P g)) (hc : ∀ {g s n}, P g s → P g { s with close := n })
    (ht : ∀ {g s n}, P g s → P g { s with total := n }) (hz : ∀ {g s n}, P g s → P g { s with zeroCtx := n }) (hw : ∀ {g s n}, P g s → P g { s with weights := n })
    (h0 : ∀ s : MvSt, s.num = 0 → P s.globals s) (s : MvSt) :
    (spatialScan e compound s).Part (fun t => ∃ g, setupGlobalMv e.hdr e.gmType e.gmParams e.miRow e.miCol e.miSize e.refFrame.1 = .ok g.1 ∧
      (compound = true → setupGlobalMv e.hdr e.gmType e.gmParams e.miRow e.miCol e.miSize e.refFrame.2 = .ok g.2) ∧ P g t) := by
  refine (ScanKeeps.near hP hc h0 s).bind fun x hx => ?_
  obtain ⟨g, g1, g2, hx⟩ := hx
  have : (raiseNearest x.1.num x.1).Part (P g) :=
    part_forN (f := fun i s => addWeight i 640 s) (fun _ t => P g t) _ (fun _ _ _ _ k => part_goGet.bind fun _ _ => part_goSet.bind fun _ _ => Res.Part.pure (hw k)) hx
  exact this.bind fun s1 h1 => ((hP g).far ht (hz h1)).mono fun t h => ⟨g, g1, g2, h⟩

/-- **C148 (one reference, all scans).**  Each candidate the scans of the whole neighbourhood leave for a block with one reference is taken from a
cell of the tile whose block is inter and uses that reference, in the precision of the frame. -/
theorem C148_scans_partial (e : MvEnv) (s : MvSt) {t : MvSt} (hr : spatialScan e false s = .ok t) :
    ∃ g, GlobalOf e g ∧ ∀ i, i < t.num → ∃ p, t.stack[i]? = some p ∧ (∃ r c, TakenFrom e g r c p.1) ∧ PreciseComp e.hdr p.1.1 ∧ PreciseComp e.hdr p.1.2 := by
  have := (spatial_part (P := fun g t => Cands e g.1 0 t) (fun g => ⟨fun hin h => addRef_cands hin h, fun h => ⟨h.num, h.glob, h.from'⟩⟩) (fun h => ⟨h.num, h.glob, h.from'⟩)
    (fun h => ⟨h.num, h.glob, h.from'⟩) (fun h => ⟨h.num, h.glob, h.from'⟩) (fun h => ⟨h.num, h.glob, h.from'⟩)
    (fun s hs => ⟨Nat.zero_le _, rfl, fun i hi => absurd hi (by omega)⟩) s).1 t hr
  obtain ⟨g, hg, -, h⟩ := this
  refine ⟨g.1, hg, fun i hi => ?_⟩
  obtain ⟨p, hp, r, c, hT⟩ := h.from' i hi
  refine ⟨p, hp, ⟨r, c, hT⟩, ?_⟩
  obtain ⟨f, m, u, -, -, hv, -⟩ := hT.vec
  rw [hv]
  exact lower_precise e.hdr u

/-- **C148 (two references).**  Each candidate the scans leave for a block with two references is the pair of vectors of a block of the tile which is
inter and predicted from the same two frames in the same order, or has global vectors in place of those of a block with global motion.  AV1's
reduction to the precision of the frame is missing: `C148_pair_precision_refuted`. -/
theorem C148_pair_partial (e : MvEnv) (s : MvSt) {t : MvSt} (hr : spatialScan e true s = .ok t) :
    ∃ g : MvPair, GlobalOf e g.1 ∧ GlobalOf { e with refFrame := (e.refFrame.2, e.refFrame.1) } g.2 ∧
      ∀ i, i < t.num → ∃ p, t.stack[i]? = some p ∧ ∃ r c, PairFrom e g r c p := by
  obtain ⟨g, h1, h2, h⟩ := (spatial_part (pairs_keeps e) (fun h => ⟨h.glob, h.from'⟩) (fun h => ⟨h.glob, h.from'⟩) (fun h => ⟨h.glob, h.from'⟩)
    (fun h => ⟨h.glob, h.from'⟩) (fun s hs => ⟨rfl, fun i hi => absurd hi (by omega)⟩) s).1 t hr
  exact ⟨g, h1, h2 rfl, h.from'⟩

/-- Beside the block, two cells with the same two references; the lower right cell of a tile of 2x2 cells. -/
def mvDemoPair : MvEnv :=
  { mvDemo with refFrame := (1, 2), refFrames := List.replicate 64 (List.replicate 64 (1, 2)), hdr := { forceInteger := true },
                isInters := [[0, 1], [0, 0]], mvs := List.replicate 64 (List.replicate 64 ((20, -13), (3, 5))) }

/-- **C148 (two references), refuted.**  In a frame of whole pixel vectors the pair of a neighbour becomes a candidate with its fractions. -/
theorem C148_pair_precision_refuted : ∃ (e : MvEnv) (t : MvSt) (p : MvPair), e.hdr.highPrecision = false ∧ e.hdr.forceInteger = true ∧
    spatialScan e true {} = .ok t ∧ t.num = 1 ∧ t.stack[0]? = some p ∧ ¬ PreciseComp e.hdr p.1.1 ∧ ¬ PreciseComp e.hdr p.2.2 := by
  have h : (spatialScan mvDemoPair true {}).toOption.map (fun s => (s.num, s.stack[0]?)) = some (1, some ((20, -13), (3, 5))) := by decide +kernel
  match hs : spatialScan mvDemoPair true {} with
  | .ok t =>
    rw [hs] at h
    have h' : (t.num, t.stack[0]?) = (1, some ((20, -13), (3, 5))) := by
      have : some (t.num, t.stack[0]?) = some (1, some ((20, -13), (3, 5))) := h
      exact Option.some.inj this
    exact ⟨mvDemoPair, t, ((20, -13), (3, 5)), rfl, rfl, hs, congrArg Prod.fst h', congrArg Prod.snd h', by intro k; exact absurd (k rfl) (by decide), by intro k; exact absurd (k rfl) (by decide)⟩
  | .error _ => rw [hs] at h; cases h

/-! ## C193: no candidate twice -/

/-- The first `num` entries have different first vectors. -/
def Distinct (s : MvSt) : Prop := ∀ i j p q, i < j → j < s.num → s.stack[i]? = some p → s.stack[j]? = some q → p.1 ≠ q.1

theorem stackFind_none (st : List MvPair) (p : MvPair → Bool) (n : Nat) : ∀ i, (stackFind st p n i).Part
    (fun o => o = none → ∀ (k : Nat) x, i ≤ k → k < i + n → st[k]? = some x → p x = false) := by
  induction n with
  | zero => intro i; exact Res.Part.pure fun _ k x h1 h2 => absurd h2 (by omega)
  | succ n ih =>
    intro i
    refine part_goGet.bind fun y hy => ?_
    split
    · exact Res.Part.pure fun h => (by cases h)
    · rename_i hp
      refine (ih (i + 1)).mono fun o ho hn k x h1 h2 hx => ?_
      rcases Nat.lt_or_ge i k with h | h
      · exact ho hn k x (by omega) (by omega) hx
      · have : k = i := by omega
        subst this
        rw [goGet_inv_nat hy] at hx
        cases hx
        simpa using hp

theorem addOrPush_distinct {mv : MVec} {w : Int} {s : MvSt} (h : Distinct s) : (addOrPush mv w s).Part Distinct := by
  refine (stackFind_none _ _ _ _).bind fun i hi => ?_
  split
  · exact part_goGet.bind fun _ _ => part_goSet.bind fun _ _ => Res.Part.pure h
  · have hi := hi rfl
    unfold pushOne
    split
    · refine part_goGet.bind fun o _ => part_goSet.bind fun st hst => part_goSet.bind fun ws _ => Res.Part.pure ?_
      obtain ⟨-, hl, rfl⟩ := goSet_inv' hst
      rw [Int.toNat_natCast] at hl ⊢
      intro i j p q hij hj hp hq
      have hj : j < s.num + 1 := hj
      have hp : (s.stack.set s.num (mv, o.2))[i]? = some p := hp
      have hq : (s.stack.set s.num (mv, o.2))[j]? = some q := hq
      rw [List.getElem?_set_ne (by omega)] at hp
      rcases Nat.lt_or_ge j s.num with h1 | h1
      · rw [List.getElem?_set_ne (by omega)] at hq
        exact h i j p q hij h1 hp hq
      · have : j = s.num := by omega
        subst this
        rw [List.getElem?_set_self hl] at hq
        cases hq
        have := hi i p (Nat.zero_le _) (by omega) hp
        simpa using this
    · exact Res.Part.pure h

theorem searchIfSame_distinct {r c : Int} {w : Int} {list : Nat} {s : MvSt} (h : Distinct s) : (searchIfSame e r c w list s).Part Distinct := by
  refine part_gget.bind fun f hf => ?_
  split
  · exact part_gget.bind fun m hm => part_gget.bind fun sz _ => part_goGet.bind fun bw _ => part_goGet.bind fun bh _ => (useGlobal_part _ _ _).bind fun b _ =>
      (candMv_part _ _ _ _ _ _).bind fun v _ => addOrPush_distinct h
  · exact Res.Part.pure h

theorem distinct_keeps (e : MvEnv) : ScanKeeps e false Distinct where
  reset h := h
  add {r c w s} _ h := by
    refine part_gget.bind fun i hi => ?_
    split
    · exact Res.Part.pure h
    · unfold addInterCandidate
      rw [if_pos (by decide)]
      exact (searchIfSame_distinct h).bind fun _ h' => searchIfSame_distinct h'

/-- **C193 (one reference).**  Whatever the neighbourhood: no two candidates the scans leave for a block with one reference are the same vector. -/
theorem C193_single_partial (e : MvEnv) (s : MvSt) {t : MvSt} (hr : spatialScan e false s = .ok t) {i j : Nat} (hij : i < j) (hj : j < t.num) {p q : MvPair}
    (hp : t.stack[i]? = some p) (hq : t.stack[j]? = some q) : p.1 ≠ q.1 := by
  obtain ⟨-, -, -, h⟩ := (spatial_part (P := fun _ => Distinct) (fun _ => distinct_keeps e) (fun h => h) (fun h => h) (fun h => h) (fun h => h)
    (fun s hs i j p q _ hj => absurd hj (by omega)) s).1 t hr
  exact h i j p q hij hj hp hq

-- two different candidates are found
example : (spatialScan { mvDemo with mvs := [[((8, 8), (0, 0)), ((24, -16), (0, 0))], [((8, 8), (0, 0)), ((0, 0), (0, 0))]] } false {}).toOption.map
    (fun s => (s.num, s.stack)) = some (2, [((24, -16), (0, 0)), ((8, 8), (0, 0))]) := by decide +kernel

/-- **C193, refuted.**  For a block with two references a pair found at a second neighbour is appended a second time. -/
theorem C193_pair_refuted : ∃ (e : MvEnv) (t : MvSt) (p : MvPair), spatialScan e true {} = .ok t ∧ t.num = 2 ∧ t.stack[0]? = some p ∧ t.stack[1]? = some p ∧ p ≠ ((0, 0), (0, 0)) := by
  have h : (spatialScan { mvDemoPair with isInters := [[0, 1], [1, 0]] } true {}).toOption.map (fun s => (s.num, [s.stack[0]?, s.stack[1]?])) =
      some (2, [some ((20, -13), (3, 5)), some ((20, -13), (3, 5))]) := by decide +kernel
  match hs : spatialScan { mvDemoPair with isInters := [[0, 1], [1, 0]] } true {} with
  | .ok t =>
    rw [hs] at h
    have h' : (t.num, [t.stack[0]?, t.stack[1]?]) = (2, [some ((20, -13), (3, 5)), some ((20, -13), (3, 5))]) := by
      have : some (t.num, [t.stack[0]?, t.stack[1]?]) = some (2, [some ((20, -13), (3, 5)), some ((20, -13), (3, 5))]) := h
      exact Option.some.inj this
    simp only [Prod.mk.injEq, List.cons.injEq, and_true] at h'
    exact ⟨_, t, ((20, -13), (3, 5)), hs, h'.1, h'.2.1, h'.2.2, by decide⟩
  | .error _ => rw [hs] at h; cases h

/-- **C193, refuted for every neighbourhood.**  A pair of a matching neighbour is always appended while there is room, whether it is known or not. -/
theorem C193_append_refuted (e : MvEnv) {r c w : Int} {s t : MvSt} (hm : Matches e true r c) (hn : s.num < 8) (hr : addRefMvCandidate e r c true w s = .ok t) :
    t.num = s.num + 1 := by
  have hnum : ∀ {p : MvPair} (n : Nat) {i : Nat} {s : MvSt}, (raiseEqual p w n i s).Part (fun t => t.num = s.num) := by
    intro p n
    induction n with
    | zero => intro i s; exact Res.Part.pure rfl
    | succ n ih =>
      intro i s
      refine part_goGet.bind fun x _ => ?_
      have : Res.Part (raiseIf x p w i s) (fun t => t.num = s.num) := by
        unfold raiseIf
        split
        · exact part_goGet.bind fun _ _ => part_goSet.bind fun _ _ => Res.Part.pure rfl
        · exact Res.Part.pure rfl
      exact this.bind fun s' h' => ih.mono fun t ht => ht.trans h'
  obtain ⟨⟨i, hi, hne⟩, f, hf, hs⟩ := hm
  rw [if_pos rfl] at hs
  unfold addRefMvCandidate at hr
  rw [hi, Res.ok_bind, if_neg hne] at hr
  unfold addInterCandidate at hr
  rw [if_neg (by decide)] at hr
  unfold compoundIfSame at hr
  rw [hf, Res.ok_bind, if_pos hs] at hr
  refine (Res.Part.bind part_gget fun p _ => Res.Part.bind part_gget fun m _ => (globalPair_part _ _ _ _).bind fun q _ => (hnum _).bind (R := fun (t : MvSt) => t.num = s.num + 1) fun s1 h1 => ?_).1 t hr
  have h1 : s1.num = s.num := h1
  unfold pushTwo
  rw [if_pos (by omega)]
  exact part_goSet.bind fun _ _ => part_goSet.bind fun _ _ => Res.Part.pure (by show s1.num + 1 = _; omega)

end Gov1
