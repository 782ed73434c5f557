import Verif.Model.InterInfo
import Verif.Spec.InterInfo
import Verif.Props.IntraInfo
import Verif.Props.MvStack
/-!
# C140-C147: mode info of inter frames
-/
namespace Gov1
open Spec

/-- The CDF arrays a program consults when it gets the given replies. -/
def Rd.tables {α : Type} : Rd α → List Nat → List (String × List Int)
  | .ret _, _ => []
  | .fail _, _ => []
  | .sym t idx _, [] => [(t, idx)]
  | .sym t idx k, s :: l => (t, idx) :: (k s).tables l
  | .bit _, [] => []
  | .bit k, s :: l => (k s).tables l

/-- `o` are the references of the unit `(r, c)` if that unit is available. -/
def NbRef (avail : Bool) (refs : List (List (Int × Int))) (r c : Nat) (o : Option (Int × Int)) : Prop :=
  if avail then ∃ v, at2 refs r c = some v ∧ o = some v else o = none

/-- `u, l` are the references of the blocks above and left. -/
structure RefNbs (b : MiBlk) (refs : List (List (Int × Int))) (u l : Option (Int × Int)) : Prop where
  up : NbRef b.availU refs (b.miRow - 1) b.miCol u
  left : NbRef b.availL refs b.miRow (b.miCol - 1) l
  row : b.availU = true → 1 ≤ b.miRow
  col : b.availL = true → 1 ≤ b.miCol

/-- The neighbours as the decoder keeps them. -/
def nbOf (u l : Option (Int × Int)) : NbRefs := ⟨u.isSome, l.isSome, u.getD (0, -1), l.getD (0, -1)⟩

theorem nbRefs_eq {b : MiBlk} {refs : List (List (Int × Int))} {u l : Option (Int × Int)} (h : RefNbs b refs u l) : nbRefs b refs = .ok (nbOf u l) := by
  obtain ⟨h1, h2, hr, hc⟩ := h
  unfold NbRef at h1 h2
  unfold nbRefs leftRefs aboveRefs
  cases hu : b.availU <;> cases hl : b.availL <;> rw [hu] at h1 <;> rw [hl] at h2 <;> simp only [Bool.false_eq_true, if_false, if_true] at h1 h2 ⊢
  · rw [h1, h2]; rfl
  · obtain ⟨v, e, rfl⟩ := h2
    have := hc hl
    rw [show (b.miCol : Int) - 1 = ((b.miCol - 1 : Nat) : Int) by omega, gget_at2 e, h1]; rfl
  · obtain ⟨v, e, rfl⟩ := h1
    have := hr hu
    rw [show (b.miRow : Int) - 1 = ((b.miRow - 1 : Nat) : Int) by omega, gget_at2 e, h2]; rfl
  · obtain ⟨v, e, rfl⟩ := h1
    obtain ⟨v', e', rfl⟩ := h2
    have := hr hu
    have := hc hl
    rw [show (b.miRow : Int) - 1 = ((b.miRow - 1 : Nat) : Int) by omega, show (b.miCol : Int) - 1 = ((b.miCol - 1 : Nat) : Int) by omega, gget_at2 e, gget_at2 e']; rfl

/-! ## C140: the inter flag -/

theorem isInterCtx_eq (u l : Option (Int × Int)) : isInterCtx (nbOf u l) = interCtx u l := by
  unfold isInterCtx nbOf interCtx refIntra
  cases u with
  | none => cases l with
    | none => rfl
    | some l => by_cases h : l.1 ≤ 0 <;> simp [h]
  | some u => cases l with
    | none => by_cases h : u.1 ≤ 0 <;> simp [h]
    | some l => by_cases h : l.1 ≤ 0 <;> by_cases h' : u.1 ≤ 0 <;> simp [h, h']

/-- **C140, what holds.**  Without skip mode and without segment features the inter flag of a block is read from the table of the context
that AV1 derives from the references of its neighbours. -/
theorem C140_context_partial (h : MiHdr) {b : MiBlk} {refs : List (List (Int × Int))} {u l : Option (Int × Int)} (hn : RefNbs b refs u l) (id : Int)
    (h5 : miSegFeature h id 5 = .ok false) (h7 : miSegFeature h id 7 = .ok false) :
    (Rd.lift (nbRefs b refs) >>= fun n => readIsInter h n 0 id) = Rd.read "IsInter" [(interCtx u l : Int)] := by
  rw [nbRefs_eq hn]
  show readIsInter h (nbOf u l) 0 id = _
  unfold readIsInter
  rw [if_neg (by decide), h5, h7, isInterCtx_eq]
  rfl

/-- **C140, what holds (segments).**  In a segment with a fixed reference the flag says whether that is an inter reference. -/
theorem C140_segment_partial (h : MiHdr) (n : NbRefs) (id : Int) (h5 : miSegFeature h id 5 = .ok true) {d : Int} (hd : gget h.featureData id 5 = .ok d) :
    readIsInter h n 0 id = pure (if d ≠ 0 then 1 else 0) := by
  unfold readIsInter
  rw [if_neg (by decide), h5]
  show (do let d ← Rd.lift (gget h.featureData id 5); pure (if d ≠ 0 then 1 else 0)) = _
  rw [hd]
  rfl

/-- **C140, refuted.**  In a segment with global motion every block is an inter block in AV1; here it is an intra block. -/
theorem C140_global_refuted (h : MiHdr) (n : NbRefs) (id : Int) (h5 : miSegFeature h id 5 = .ok false) (h7 : miSegFeature h id 7 = .ok true) :
    readIsInter h n 0 id = pure 0 := by
  unfold readIsInter
  rw [if_neg (by decide), h5, h7]
  rfl

example : RefNbs { miRow := 2, miCol := 0, availU := true } [[(0, -1)], [(3, -1)], [(0, -1)]] (some (3, -1)) none ∧ interCtx (some (3, -1)) none = 0 ∧
    interCtx (some (0, -1)) (some (-1, 0)) = 3 :=
  ⟨⟨⟨_, rfl, rfl⟩, rfl, by decide, by decide⟩, by decide, by decide⟩
example : miSegFeature { segEnabled := true, featureEnabled := [[0, 0, 0, 0, 0, 0, 0, 1]] } 0 7 = .ok true ∧
    miSegFeature { segEnabled := true, featureEnabled := [[0, 0, 0, 0, 0, 0, 0, 1]] } 0 5 = .ok false := by decide

/-! ## C141: references -/

theorem countRefs_eq (u l : Option (Int × Int)) (f : Int) : countRefs (nbOf u l) f = refCount (nbList u l) [f] := by
  unfold countRefs nbOf refCount nbList
  cases u with
  | none => cases l with
    | none => rfl
    | some l => by_cases h : l.1 = f <;> by_cases h' : l.2 = f <;> simp [h, h']
  | some u => cases l with
    | none => by_cases h : u.1 = f <;> by_cases h' : u.2 = f <;> simp [h, h']
    | some l => by_cases h : l.1 = f <;> by_cases h' : l.2 = f <;> by_cases h1 : u.1 = f <;> by_cases h2 : u.2 = f <;> simp [h, h', h1, h2]

theorem refCount_cons (nb : List Int) {f : Int} {s : List Int} (h : f ∉ s) : refCount nb (f :: s) = refCount nb [f] + refCount nb s := by
  unfold refCount
  induction nb with
  | nil => rfl
  | cons r nb ih =>
    by_cases h1 : r = f
    · subst h1
      simp [h] at ih ⊢; omega
    · by_cases h2 : r ∈ s <;> simp [h1, h2] at ih ⊢ <;> omega

theorem refCountCtx_eq (a b : Nat) : refCountCtx a b = cmpCtx a b := rfl

theorem sctx1 (nb : List Int) : singleRefCtx 1 nb = cmpCtx (refCount nb [1, 2, 3, 4]) (refCount nb [5, 6, 7]) := rfl
theorem sctx2 (nb : List Int) : singleRefCtx 2 nb = cmpCtx (refCount nb [5, 6]) (refCount nb [7]) := rfl
theorem sctx3 (nb : List Int) : singleRefCtx 3 nb = cmpCtx (refCount nb [1, 2]) (refCount nb [3, 4]) := rfl
theorem sctx4 (nb : List Int) : singleRefCtx 4 nb = cmpCtx (refCount nb [1]) (refCount nb [2]) := rfl
theorem sctx6 (nb : List Int) : singleRefCtx 6 nb = cmpCtx (refCount nb [5]) (refCount nb [6]) := rfl

theorem ctxP1_eq (u l : Option (Int × Int)) : ctxP1 (nbOf u l) = singleRefCtx 1 (nbList u l) := by
  unfold ctxP1
  rw [sctx1]
  rw [refCount_cons _ (f := 1) (by decide), refCount_cons _ (f := 2) (by decide), refCount_cons _ (f := 3) (by decide), refCount_cons _ (f := 5) (by decide), refCount_cons _ (f := 6) (by decide)]
  simp only [countRefs_eq, refCountCtx_eq, Nat.add_assoc]

theorem ctxP3_eq (u l : Option (Int × Int)) : ctxP3 (nbOf u l) = singleRefCtx 3 (nbList u l) := by
  unfold ctxP3
  rw [sctx3]
  rw [refCount_cons _ (f := 1) (by decide), refCount_cons _ (f := 3) (by decide)]
  simp only [countRefs_eq, refCountCtx_eq]

theorem ctxP6_eq (u l : Option (Int × Int)) : ctxP2 (nbOf u l) = singleRefCtx 6 (nbList u l) := by
  unfold ctxP2
  rw [sctx6]
  simp only [countRefs_eq, refCountCtx_eq]

theorem cmp_lt (a b : Nat) : cmpCtx a b < 3 := by
  unfold cmpCtx
  split
  · decide
  · split <;> decide

theorem ctx_lt (n : NbRefs) : ctxP1 n < 3 ∧ ctxP2 n < 3 ∧ ctxP3 n < 3 ∧ ctxP4 n < 3 := ⟨cmp_lt _ _, cmp_lt _ _, cmp_lt _ _, cmp_lt _ _⟩

/-- The references that can be read. -/
def refReadable (f : Nat) : Prop := f = 1 ∨ f = 2 ∨ f = 5 ∨ f = 6 ∨ f = 7

theorem single_count (k : Fin 4) {c : Nat} (hc : c < 3) {i : Int} (hi : 0 ≤ i ∧ i < 6) : (cdfLayout k).count "SingleRef" [(c : Int), i] = some 2 := by
  have info : ∀ k, cdfInfo k "SingleRef" = some ([], .box [3, 6], 2) := by decide +kernel
  exact count2 k (info k) (by omega) hi

theorem readSingleRef_says (k : Fin 4) (n : NbRefs) {f : Nat} (hf : refReadable f) : (readSingleRef n).Says (cdfLayout k) (singleRefCode f) ((f : Int), -1) := by
  obtain ⟨c1, c2, c3, c4⟩ := ctx_lt n
  have rd : ∀ {c : Nat} {i : Int} {s : Nat}, c < 3 → 0 ≤ i ∧ i < 6 → s < 2 → (Rd.read "SingleRef" [(c : Int), i]).Says (cdfLayout k) [s] s :=
    fun hc hi hs => Rd.Says.read (single_count k hc hi) hs
  have wrap : ∀ {p : Nat} {m : List Nat} {r : Int}, p < 2 → (readSide n p).Says (cdfLayout k) m r → (readSingleRef n).Says (cdfLayout k) ([p] ++ (m ++ [])) (r, -1) :=
    fun hp h => Rd.Says.bind (f := fun (p1 : Nat) => readSide n p1 >>= fun r => pure (r, -1)) (rd c1 (by decide) hp) (Rd.Says.bind (f := fun (r : Int) => pure (r, -1)) h (Rd.Says.ret _))
  rcases hf with rfl | rfl | rfl | rfl | rfl
  · refine wrap (p := 0) (by decide) (m := [0] ++ ([0] ++ [])) ?_
    exact Rd.Says.bind (rd c3 (by decide) (by decide)) (Rd.Says.bind (rd c4 (by decide) (by decide)) (Rd.Says.ret _))
  · refine wrap (p := 0) (by decide) (m := [0] ++ ([1] ++ [])) ?_
    exact Rd.Says.bind (rd c3 (by decide) (by decide)) (Rd.Says.bind (rd c4 (by decide) (by decide)) (Rd.Says.ret _))
  · refine wrap (p := 1) (by decide) (m := [0] ++ ([0] ++ [])) ?_
    exact Rd.Says.bind (rd c2 (by decide) (by decide)) (Rd.Says.bind (rd c2 (by decide) (by decide)) (Rd.Says.ret _))
  · refine wrap (p := 1) (by decide) (m := [0] ++ ([1] ++ [])) ?_
    exact Rd.Says.bind (rd c2 (by decide) (by decide)) (Rd.Says.bind (rd c2 (by decide) (by decide)) (Rd.Says.ret _))
  · refine wrap (p := 1) (by decide) (m := [1] ++ []) ?_
    exact Rd.Says.bind (rd c2 (by decide) (by decide)) (Rd.Says.ret _)

/-- A block without skip mode, without a fixed reference and, by the frame header or its size, without a second reference. -/
structure OneRef (h : MiHdr) (ih : InHdr) (miSize : Nat) (id : Int) : Prop where
  seg : miSegFeature h id 5 = .ok false
  size : miSize < 22
  one : ih.refSelect = true → ∀ d, sizeDims miSize = some d → min d.1 d.2 < 8

theorem readRefFrames_one {h : MiHdr} {ih : InHdr} {miSize : Nat} {id : Int} (ho : OneRef h ih miSize id) (n : NbRefs) : readRefFrames h ih n miSize 0 id = readSingleRef n := by
  unfold readRefFrames
  rw [if_neg (by decide), ho.seg]
  have hw : goGet num4x4Wide (miSize : Int) = .ok (num4x4Wide[miSize]'ho.size) := goGet_lt' ho.size
  have hh : goGet num4x4High (miSize : Int) = .ok (num4x4High[miSize]'ho.size) := goGet_lt' ho.size
  show (do
    let bw4 ← Rd.lift (goGet num4x4Wide (miSize : Int))
    let bh4 ← Rd.lift (goGet num4x4High (miSize : Int))
    if ih.refSelect ∧ min bw4 bh4 ≥ 2 then notImpl else readSingleRef n) = _
  rw [hw, hh]
  show (if ih.refSelect = true ∧ min (num4x4Wide[miSize]'ho.size) (num4x4High[miSize]'ho.size) ≥ 2 then notImpl else readSingleRef n) = _
  rw [if_neg]
  rintro ⟨h1, h2⟩
  have t : ∀ s : Fin 22, ∃ d, sizeDims s.val = some d ∧ d.1 = 4 * num4x4Wide[s.val]'s.2 ∧ d.2 = 4 * num4x4High[s.val]'s.2 := by decide
  obtain ⟨d, hd, d1, d2⟩ := t ⟨miSize, ho.size⟩
  have := ho.one h1 d hd
  dsimp only at d1 d2
  omega

/-- **C141, what holds.**  On AV1's code of LAST, LAST2, BWDREF, ALTREF2 or ALTREF the decoder returns that single reference. -/
theorem C141_code_partial (k : Fin 4) {h : MiHdr} {ih : InHdr} {miSize : Nat} {id : Int} (ho : OneRef h ih miSize id) (n : NbRefs) {f : Nat} (hf : refReadable f) :
    (readRefFrames h ih n miSize 0 id).Says (cdfLayout k) (singleRefCode f) ((f : Int), -1) := by
  rw [readRefFrames_one ho]
  exact readSingleRef_says k n hf

example : OneRef {} { refSelect := true } 0 0 := ⟨rfl, by decide, fun _ d hd => by cases hd; decide⟩
example : singleRefCode 6 = [1, 0, 1] := rfl

/-- **C141, refuted (LAST3, GOLDEN, two references).**  Whatever is read, a returning call without skip mode and without a fixed reference
returns a single reference other than LAST3 and GOLDEN; if the frame allows two references, no block of 8x8 or more gets through. -/
theorem C141_missing_refuted (k : Fin 4) (h : MiHdr) (ih : InHdr) (n : NbRefs) (miSize : Nat) (id : Int) (hs : miSegFeature h id 5 = .ok false) {msg rest : List Nat} {r : Int × Int}
    (e : (readRefFrames h ih n miSize 0 id).run (cdfLayout k) msg = .ok (r, rest)) :
    (∃ f, refReadable f ∧ r = ((f : Int), -1)) ∧ (ih.refSelect = true → ∀ d, sizeDims miSize = some d → min d.1 d.2 < 8) := by
  refine Rd.Wlp.of_run (Q := fun r => (∃ f, refReadable f ∧ r = ((f : Int), -1)) ∧ (ih.refSelect = true → ∀ d, sizeDims miSize = some d → min d.1 d.2 < 8)) ?_ e
  unfold readRefFrames
  rw [if_neg (by decide), hs]
  show Rd.Wlp _ (do
    let bw4 ← Rd.lift (goGet num4x4Wide (miSize : Int))
    let bh4 ← Rd.lift (goGet num4x4High (miSize : Int))
    if ih.refSelect ∧ min bw4 bh4 ≥ 2 then notImpl else readSingleRef n) _
  refine Rd.Wlp.bind (Rd.Wlp.lift fun bw4 hw => ?_)
  refine Rd.Wlp.bind (Rd.Wlp.lift fun bh4 hh => ?_)
  split
  · trivial
  · rename_i hno
    have hone : ih.refSelect = true → ∀ d, sizeDims miSize = some d → min d.1 d.2 < 8 := by
      intro h1 d hd
      have hno' : ¬ min bw4 bh4 ≥ 2 := fun h2 => hno ⟨h1, h2⟩
      unfold sizeDims at hd
      cases hbw : blockWidth[miSize]? with
      | none => rw [hbw] at hd; cases hd
      | some w =>
        cases hbh : blockHeight[miSize]? with
        | none => rw [hbw, hbh] at hd; cases hd
        | some ht =>
          rw [hbw, hbh] at hd
          cases hd
          obtain ⟨e1, e2⟩ := size_facts (goGet_of' hbw) (goGet_of' hbh) hw hh
          show min w ht < 8
          omega
    unfold readSingleRef
    intro m hm p hp
    show (readSide n p >>= fun r => pure (r, -1)).Wlp _ _
    refine Rd.Wlp.bind ?_
    unfold readSide
    split
    · intro m2 hm2 q hq
      show Rd.Wlp _ (if q = 0 then _ else _) _
      split
      · intro m3 hm3 z hz
        show _ ∧ _
        refine ⟨?_, hone⟩
        by_cases hz0 : z ≠ 0
        · rw [if_pos hz0]; exact ⟨6, by unfold refReadable; decide, rfl⟩
        · rw [if_neg hz0]; exact ⟨5, by unfold refReadable; decide, rfl⟩
      · exact ⟨⟨7, by unfold refReadable; decide, rfl⟩, hone⟩
    · intro m2 hm2 q hq
      show Rd.Wlp _ (if q ≠ 0 then _ else _) _
      split
      · trivial
      · intro m3 hm3 z hz
        show _ ∧ _
        refine ⟨?_, hone⟩
        by_cases hz0 : z ≠ 0
        · rw [if_pos hz0]; exact ⟨2, by unfold refReadable; decide, rfl⟩
        · rw [if_neg hz0]; exact ⟨1, by unfold refReadable; decide, rfl⟩

/-- The tables the decoder consults. -/
theorem readSingleRef_tables (u l : Option (Int × Int)) {f : Nat} (hf : refReadable f) :
    (readSingleRef (nbOf u l)).tables (singleRefCode f) =
      (singleRefPath f).map fun p => ("SingleRef", [(singleRefCtx (if p.1 = 2 then 6 else if p.1 = 4 then 1 else p.1) (nbList u l) : Int), (p.1 : Int) - 1]) := by
  have e : ∀ f, refReadable f → (readSingleRef (nbOf u l)).tables (singleRefCode f) =
      (singleRefPath f).map fun p => ("SingleRef", [((if p.1 = 1 ∨ p.1 = 4 then ctxP1 (nbOf u l) else if p.1 = 3 then ctxP3 (nbOf u l) else ctxP2 (nbOf u l) : Nat) : Int), (p.1 : Int) - 1]) := by
    intro f hf
    rcases hf with rfl | rfl | rfl | rfl | rfl <;> rfl
  rw [e f hf, ctxP1_eq, ctxP3_eq, ctxP6_eq]
  rcases hf with rfl | rfl | rfl | rfl | rfl <;> rfl

/-- **C141, what holds (contexts).**  For a forward reference the tables are AV1's if no neighbour uses a reference beyond LAST, for a
backward one if none uses ALTREF2 or ALTREF. -/
theorem C141_contexts_partial {h : MiHdr} {ih : InHdr} {miSize : Nat} {id : Int} (ho : OneRef h ih miSize id) (u l : Option (Int × Int)) {f : Nat} (hf : refReadable f)
    (hnb : ∀ r ∈ nbList u l, if f < 5 then r ≤ 1 else r ≤ 5) :
    (readRefFrames h ih (nbOf u l) miSize 0 id).tables (singleRefCode f) = singleRefTables f (nbList u l) := by
  have z : ∀ s : List Int, (∀ r ∈ nbList u l, r ∉ s) → refCount (nbList u l) s = 0 := by
    intro s hs
    unfold refCount
    rw [List.length_eq_zero_iff, List.filter_eq_nil_iff]
    intro r hr
    have := hs r hr
    simpa using this
  rw [readRefFrames_one ho, readSingleRef_tables u l hf]
  unfold singleRefTables
  have hctx : ∀ p ∈ singleRefPath f, singleRefCtx (if p.1 = 2 then 6 else if p.1 = 4 then 1 else p.1) (nbList u l) = singleRefCtx p.1 (nbList u l) := by
    intro p hp
    by_cases h2 : p.1 = 2
    · have h5 : ¬ f < 5 := by rcases hf with rfl | rfl | rfl | rfl | rfl <;> simp [singleRefPath] at hp <;> aesop
      rw [if_pos h2, h2, sctx2, sctx6]
      rw [refCount_cons _ (f := 5) (s := [6]) (by decide), z [6] ?_, z [7] ?_]
      · rfl
      all_goals
        intro r hr hm
        have := hnb r hr
        rw [if_neg h5] at this
        simp at hm
        omega
    · rw [if_neg h2]
      by_cases h4 : p.1 = 4
      · have h5 : f < 5 := by rcases hf with rfl | rfl | rfl | rfl | rfl <;> simp [singleRefPath] at hp <;> aesop
        rw [if_pos h4, h4, sctx1, sctx4]
        rw [refCount_cons _ (f := 1) (s := [2, 3, 4]) (by decide), z [2, 3, 4] ?_, z [5, 6, 7] ?_, z [2] ?_]
        · rfl
        all_goals
          intro r hr hm
          have := hnb r hr
          rw [if_pos h5] at this
          simp at hm
          omega
      · rw [if_neg h4]
  exact List.map_congr_left fun p hp => by rw [hctx p hp]

/-- **C141, refuted (contexts).**  If the neighbours use LAST2 more often than LAST and no backward reference, the last question on a
forward reference is answered from the wrong table; likewise the second question on a backward reference if they use ALTREF only. -/
theorem C141_contexts_refuted {h : MiHdr} {ih : InHdr} {miSize : Nat} {id : Int} (ho : OneRef h ih miSize id) (u l : Option (Int × Int)) {f : Nat} (hf : refReadable f)
    (hnb : if f < 5 then refCount (nbList u l) [1] < refCount (nbList u l) [2] ∧ refCount (nbList u l) [5, 6, 7] = 0
      else refCount (nbList u l) [5] = 0 ∧ refCount (nbList u l) [6] = 0 ∧ 0 < refCount (nbList u l) [7]) :
    (readRefFrames h ih (nbOf u l) miSize 0 id).tables (singleRefCode f) ≠ singleRefTables f (nbList u l) := by
  rw [readRefFrames_one ho, readSingleRef_tables u l hf]
  intro he
  have key : ∀ i, (i = 2 ∨ i = 4) → (∃ p ∈ singleRefPath f, p.1 = i) → singleRefCtx (if i = 2 then 6 else 1) (nbList u l) = singleRefCtx i (nbList u l) := by
    rintro i hi ⟨p, hp, rfl⟩
    unfold singleRefTables at he
    have := (List.map_inj_left.mp he) p hp
    simp only [Prod.mk.injEq, List.cons.injEq, Int.natCast_inj, true_and, and_true] at this
    rcases hi with hi | hi <;> rw [hi] at this ⊢ <;> simpa using this
  rcases hf with rfl | rfl | rfl | rfl | rfl
  all_goals simp only [show (1 : Nat) < 5 from by decide, show (2 : Nat) < 5 from by decide, show ¬ (5 : Nat) < 5 from by decide, show ¬ (6 : Nat) < 5 from by decide,
    show ¬ (7 : Nat) < 5 from by decide, if_true, if_false] at hnb
  · have := key 4 (Or.inr rfl) ⟨(4, 0), by decide, rfl⟩
    exact p4 hnb this
  · have := key 4 (Or.inr rfl) ⟨(4, 1), by decide, rfl⟩
    exact p4 hnb this
  · exact p2 hnb (key 2 (Or.inl rfl) ⟨(2, 0), by decide, rfl⟩)
  · exact p2 hnb (key 2 (Or.inl rfl) ⟨(2, 0), by decide, rfl⟩)
  · exact p2 hnb (key 2 (Or.inl rfl) ⟨(2, 1), by decide, rfl⟩)
where
  p4 {nb : List Int} (h : refCount nb [1] < refCount nb [2] ∧ refCount nb [5, 6, 7] = 0) (e : singleRefCtx (if 4 = 2 then 6 else 1) nb = singleRefCtx 4 nb) : False := by
    rw [if_neg (by decide), sctx1, sctx4] at e
    unfold cmpCtx at e
    rw [refCount_cons _ (f := 1) (s := [2, 3, 4]) (by decide), refCount_cons _ (f := 2) (s := [3, 4]) (by decide), if_pos h.1, if_neg (by omega), if_neg (by omega)] at e
    exact absurd e (by decide)
  p2 {nb : List Int} (h : refCount nb [5] = 0 ∧ refCount nb [6] = 0 ∧ 0 < refCount nb [7]) (e : singleRefCtx (if 2 = 2 then 6 else 1) nb = singleRefCtx 2 nb) : False := by
    rw [if_pos rfl, sctx6, sctx2] at e
    unfold cmpCtx at e
    rw [refCount_cons _ (f := 5) (s := [6]) (by decide), h.1, h.2.1, if_neg (by decide), if_pos rfl, if_pos (by omega)] at e
    exact absurd e (by decide)

example : refCount (nbList (some (2, -1)) none) [1] < refCount (nbList (some (2, -1)) none) [2] ∧ refCount (nbList (some (2, -1)) none) [5, 6, 7] = 0 := by decide
example : ∀ r ∈ nbList (some (1, -1)) (some (0, -1)), r ≤ 1 := by decide

/-! ## C142: predicted segment ids -/

/-- `s` is among the ids of the rectangle. -/
def IdIn (prev : List (List Int)) (r0 c0 ny nx : Nat) (s : Int) : Prop := ∃ y x, y < ny ∧ x < nx ∧ at2 prev (r0 + y) (c0 + x) = some s

theorem leastLoop (prev : List (List Int)) (r0 c0 ny nx : Nat) (hv : ∀ y x, y < ny → x < nx → ∃ v, at2 prev (r0 + y) (c0 + x) = some v) :
    ∃ r, forN (fun y (s : Int) => forN (fun x (s : Int) => do
      let v ← gget prev ((r0 + y : Nat) : Int) ((c0 + x : Nat) : Int)
      (pure (min s v) : Res Int)) nx 0 s) ny 0 7 = .ok r ∧ (r = 7 ∨ IdIn prev r0 c0 ny nx r) ∧
      ∀ y x v, y < ny → x < nx → at2 prev (r0 + y) (c0 + x) = some v → r ≤ v := by
  obtain ⟨r, er, h1, h2⟩ := forN_total (f := fun y (s : Int) => forN (fun x (s : Int) => do
      let v ← gget prev ((r0 + y : Nat) : Int) ((c0 + x : Nat) : Int)
      (pure (min s v) : Res Int)) nx 0 s) (n := ny) (i0 := 0) (s := (7 : Int))
    (fun y s => (s = 7 ∨ IdIn prev r0 c0 ny nx s) ∧ ∀ y' x v, y' < y → x < nx → at2 prev (r0 + y') (c0 + x) = some v → s ≤ v)
    (by
      intro y s _ hy hi
      obtain ⟨s', es, h1, h2, h3⟩ := forN_total (f := fun x (s : Int) => do
          let v ← gget prev ((r0 + y : Nat) : Int) ((c0 + x : Nat) : Int)
          (pure (min s v) : Res Int)) (n := nx) (i0 := 0) (s := s)
        (fun x s' => (s' = 7 ∨ IdIn prev r0 c0 ny nx s') ∧ s' ≤ s ∧ ∀ x' v, x' < x → at2 prev (r0 + y) (c0 + x') = some v → s' ≤ v)
        (by
          intro x s1 _ hx hi1
          obtain ⟨v, hv⟩ := hv y x (by omega) (by omega)
          refine ⟨min s1 v, by rw [gget_at2 hv]; rfl, ?_, by omega, ?_⟩
          · rcases Int.le_total s1 v with h | h
            · rw [Int.min_eq_left h]; exact hi1.1
            · rw [Int.min_eq_right h]; exact Or.inr ⟨y, x, by omega, by omega, hv⟩
          · intro x' v' hx' hv'
            rcases Nat.lt_succ_iff_lt_or_eq.mp hx' with h | h
            · have := hi1.2.2 x' v' h hv'; omega
            · subst h
              rw [hv] at hv'; cases hv'
              omega)
        ⟨hi.1, Int.le_refl _, fun x' v h => by omega⟩
      refine ⟨s', es, h1, ?_⟩
      intro y' x v hy' hx hv
      rcases Nat.lt_succ_iff_lt_or_eq.mp hy' with h | h
      · have := hi.2 y' x v h hx hv; omega
      · subst h
        exact h3 x v (by omega) hv)
    ⟨Or.inl rfl, fun y' x v h => by omega⟩
  exact ⟨r, er, h1, fun y x v hy => h2 y x v (by omega)⟩

/-- **C142.**  The predicted segment id of a block is the least of the previous ids in the part of it that lies in the frame. -/
theorem C142_least (b : MiBlk) {d : Nat × Nat} (hd : sizeDims b.miSize = some d) {miRows miCols : Nat} (hr : b.miRow < miRows) (hc : b.miCol < miCols) {prev : List (List Int)}
    (hs : Shape miRows miCols prev) (hp : ∀ r c v, at2 prev r c = some v → v ≤ 7) :
    ∃ r, getSegmentId b miRows miCols prev = .ok r ∧ IsLeastId (at2 prev) b.miRow b.miCol (d.2 / 4) (d.1 / 4) miRows miCols r := by
  have hz : b.miSize < 22 := by
    unfold sizeDims at hd
    rcases Nat.lt_or_ge b.miSize 22 with h | h
    · exact h
    · rw [List.getElem?_eq_none (by simpa [blockWidth] using h)] at hd; cases hd
  have t : ∀ s : Fin 22, ∃ d, sizeDims s.val = some d ∧ num4x4Wide[s.val]? = some (d.1 / 4) ∧ num4x4High[s.val]? = some (d.2 / 4) ∧ 0 < d.1 / 4 ∧ 0 < d.2 / 4 := by decide
  obtain ⟨d', hd', d1, d2, p1, p2⟩ := t ⟨b.miSize, hz⟩
  rw [hd] at hd'
  cases hd'
  generalize d.1 / 4 = bw at *
  generalize d.2 / 4 = bh at *
  unfold getSegmentId
  rw [goGet_of' d1, Res.ok_bind, goGet_of' d2, Res.ok_bind]
  dsimp only
  obtain ⟨r, er, h1, h2⟩ := leastLoop prev b.miRow b.miCol (min ((miRows : Int) - b.miRow) (bh : Int)).toNat (min ((miCols : Int) - b.miCol) (bw : Int)).toNat
    (fun y x hy hx => hs.at2 (by omega) (by omega))
  refine ⟨r, er, ?_, ?_⟩
  · rcases h1 with h1 | ⟨y, x, hy, hx, hv⟩
    · obtain ⟨v, hv⟩ := hs.at2 hr hc
      have a := hp _ _ _ hv
      have b' := h2 0 0 v (by omega) (by omega) hv
      have : v = r := by omega
      subst this
      exact ⟨b.miRow, b.miCol, by omega, by omega, hr, by omega, by omega, hc, hv⟩
    · exact ⟨b.miRow + y, b.miCol + x, by omega, by omega, by omega, by omega, by omega, by omega, hv⟩
  · intro y x v y1 y2 y3 x1 x2 x3 hv
    refine h2 (y - b.miRow) (x - b.miCol) v (by omega) (by omega) ?_
    rwa [show b.miRow + (y - b.miRow) = y by omega, show b.miCol + (x - b.miCol) = x by omega]

example : Shape 3 3 [[(5 : Int), 2, 1], [3, 4, 0], [1, 1, 1]] ∧ getSegmentId { miSize := 3 } 3 3 [[5, 2, 1], [3, 4, 0], [1, 1, 1]] = .ok 2 :=
  ⟨⟨rfl, by decide⟩, by decide⟩
example : getSegmentId { miSize := 3, miRow := 2, miCol := 2 } 3 3 [[5, 2, 1], [3, 4, 0], [1, 1, 6]] = .ok 6 := by decide

/-! ## C143: segment ids of inter frames -/

/-- **C143, what holds.**  Without segmentation the id is 0; if the map is not updated it is the predicted id; if it is updated, not by
temporal prediction, before the skip flag the id is 0 if the features do not need it there and otherwise the spatially coded one, and
after the flag of a block that is not skipped it is the spatially coded one. -/
theorem C143_id_partial (h : MiHdr) (b : MiBlk) (miRows miCols : Nat) (ids prev : List (List Int)) (preSkip : Bool) (skip : Nat) {p : Int} (hp : getSegmentId b miRows miCols prev = .ok p) :
    (h.segEnabled = false → interSegmentId h b miRows miCols ids prev preSkip skip = pure 0) ∧
    (h.segEnabled = true → h.segUpdateMap = false → interSegmentId h b miRows miCols ids prev preSkip skip = pure p) ∧
    (h.segEnabled = true → h.segUpdateMap = true → preSkip = true → h.segIdPreSkip = 0 → interSegmentId h b miRows miCols ids prev preSkip skip = pure 0) ∧
    (h.segEnabled = true → h.segUpdateMap = true → h.segTemporalUpdate = false → (if preSkip then h.segIdPreSkip ≠ 0 else skip = 0) →
      interSegmentId h b miRows miCols ids prev preSkip skip = readSegmentId h b ids skip) := by
  unfold interSegmentId interSegUpdate
  refine ⟨fun h1 => ?_, fun h1 h2 => ?_, fun h1 h2 h3 h4 => ?_, fun h1 h2 h3 h4 => ?_⟩
  · rw [h1]; rfl
  · rw [h1, hp, h2]; rfl
  · rw [h1, hp, h2, h3, h4]; rfl
  · rw [h1, hp, h2, h3]
    cases preSkip
    · rw [if_neg (by decide)] at h4
      subst h4
      rfl
    · rw [if_pos rfl] at h4
      show (if true = true ∧ h.segIdPreSkip = 0 then _ else _) = _
      rw [if_neg (by simp [h4])]
      rfl

/-- **C143, refuted.**  If the map is updated, after the skip flag no skipped block gets through; with temporal update no block gets
through whose id is coded. -/
theorem C143_update_refuted (L : Layout) (h : MiHdr) (b : MiBlk) (miRows miCols : Nat) (ids prev : List (List Int)) (preSkip : Bool) (skip : Nat) (he : h.segEnabled = true) (hu : h.segUpdateMap = true)
    (hx : (preSkip = false ∧ skip ≠ 0) ∨ (h.segTemporalUpdate = true ∧ ¬ (preSkip = true ∧ h.segIdPreSkip = 0))) (msg rest : List Nat) (r : Int) :
    (interSegmentId h b miRows miCols ids prev preSkip skip).run L msg ≠ .ok (r, rest) := by
  intro e
  have hw : (interSegmentId h b miRows miCols ids prev preSkip skip).Wlp L (fun _ => False) := by
    unfold interSegmentId
    rw [he, if_pos rfl]
    refine wlp_skip _ fun p => ?_
    rw [hu, if_pos rfl]
    unfold interSegUpdate
    rcases hx with ⟨h1, h2⟩ | ⟨h1, h2⟩
    · rw [if_neg (by rw [h1]; simp), if_pos (by rw [h1]; exact ⟨rfl, h2⟩)]
      trivial
    · rw [if_neg h2]
      split
      · trivial
      · trivial
  exact hw.of_run e

example : ∃ p, getSegmentId { miSize := 3 } 3 3 [[5, 2, 1], [3, 4, 0], [1, 1, 1]] = .ok p := ⟨2, by decide⟩
example : ({ segEnabled := true, segUpdateMap := true, segTemporalUpdate := true, segIdPreSkip := 1 } : MiHdr).segEnabled = true := rfl

/-! ## C144: intra blocks of inter frames -/

/-- **C144.**  The luma mode of an intra block of an inter frame is read from the table chosen by the smaller side of the block. -/
theorem C144_y_mode {miSize : Nat} {d : Nat × Nat} (hd : sizeDims miSize = some d) : readYMode miSize = Rd.read "YMode" [(yModeCtx d.1 d.2 : Int)] := by
  have hz : miSize < 22 := by
    unfold sizeDims at hd
    rcases Nat.lt_or_ge miSize 22 with h | h
    · exact h
    · rw [List.getElem?_eq_none (by simpa [blockWidth] using h)] at hd; cases hd
  have t : ∀ s : Fin 22, ∀ d ∈ sizeDims s.val, sizeGroup[s.val]? = some (yModeCtx d.1 d.2) := by decide +kernel
  have := t ⟨miSize, hz⟩ d (by simpa using hd)
  unfold readYMode
  rw [goGet_of' this]
  rfl

theorem yModeCtx_lt (w h : Nat) : yModeCtx w h < 4 := by unfold yModeCtx; omega

/-- **C144 (modes).**  Unless screen content tools or filter intra apply to the size of the block, an intra block of an inter frame never panics, whatever the symbols are;
it has the references (intra, none), an intra luma mode, a chroma mode, angle deltas within 3 and alphas within 16. -/
theorem C144_intra_partial (k : Fin 4) (h : MiHdr) (hsx : h.subX < 2) (hsy : h.subY < 2) {b : MiBlk} (hm : b.miSize < 22)
    (hsc : h.allowScreen = true → 3 ≤ b.miSize → ∀ d, sizeDims b.miSize = some d → 64 < max d.1 d.2)
    (hfi : h.enableFilterIntra = true → ∀ d, sizeDims b.miSize = some d → 32 < max d.1 d.2) (ar : MiArr) {m : ModeInfo} (hmo : InfoOk m) :
    (intraBlockModeInfo h b ar m).Post (cdfLayout k) (fun m' => InfoOk m' ∧ m'.refFrame = (0, -1)) := by
  have iy : ∀ k, cdfInfo k "YMode" = some ([], .box [4], 13) := by decide +kernel
  have t : ∀ m : Fin 22, (sizeDims m.val).isSome := by decide
  obtain ⟨d, hd⟩ := Option.isSome_iff_exists.mp (t ⟨b.miSize, hm⟩)
  unfold intraBlockModeInfo
  rw [C144_y_mode hd]
  have c := yModeCtx_lt d.1 d.2
  refine Rd.Post.bind (post_read (count1 k (iy k) (by omega)) fun y hy13 => ?_)
  refine Rd.Post.bind ((post_angle k).mono fun a ha => ?_)
  have hpal : ∀ y uv, paletteInfo h b y uv ar.palSizes = Rd.ret () := by
    intro y uv
    unfold paletteInfo
    split
    · have t : ∀ m : Fin 22, blockWidth[m.val]?.isSome ∧ blockHeight[m.val]?.isSome := by decide
      obtain ⟨t1, t2⟩ := t ⟨b.miSize, hm⟩
      obtain ⟨w, hw⟩ := Option.isSome_iff_exists.mp t1
      obtain ⟨ht, hh⟩ := Option.isSome_iff_exists.mp t2
      rw [goGet_of' hw, goGet_of' hh]
      show (if w ≤ 64 ∧ ht ≤ 64 ∧ h.allowScreen = true then _ else Rd.ret ()) = _
      have hd' : sizeDims b.miSize = some (w, ht) := by unfold sizeDims; rw [hw, hh]; rfl
      rw [if_neg (fun hx => by have : 64 < max w ht := hsc hx.2.2 (by assumption) _ hd'; omega)]
    · rfl
  have hfil : ∀ y, filterIntraModeInfo h b.miSize y 0 = Rd.ret () := by
    intro y
    unfold filterIntraModeInfo
    split
    · rename_i hx
      have t : ∀ m : Fin 22, blockWidth[m.val]?.isSome ∧ blockHeight[m.val]?.isSome := by decide
      obtain ⟨t1, t2⟩ := t ⟨b.miSize, hm⟩
      obtain ⟨w, hw⟩ := Option.isSome_iff_exists.mp t1
      obtain ⟨ht, hh⟩ := Option.isSome_iff_exists.mp t2
      have hd' : sizeDims b.miSize = some (w, ht) := by unfold sizeDims; rw [hw, hh]; rfl
      rw [goGet_of' hw, goGet_of' hh]
      show (if max w ht ≤ 32 then _ else Rd.ret ()) = _
      rw [if_neg (by have : 32 < max w ht := hfi hx.1 _ hd'; omega)]
    · rfl
  have hfin : ∀ m1 : ModeInfo, InfoOk m1 ∧ m1.refFrame = (0, -1) → (paletteInfo h b m1.yMode m1.uvMode ar.palSizes >>= fun _ =>
      filterIntraModeInfo h b.miSize m1.yMode 0 >>= fun _ => (pure m1 : Rd ModeInfo)).Post (cdfLayout k) (fun m' => InfoOk m' ∧ m'.refFrame = (0, -1)) := by
    intro m1 h1
    rw [hpal, hfil]
    exact h1
  refine Rd.Post.bind (Rd.Post.mono (Q := fun m' => InfoOk m' ∧ m'.refFrame = (0, -1)) ?_ hfin)
  unfold chromaModes
  split
  · refine Rd.Post.bind ((post_uv k _ hsx hsy hm _ hy13).mono fun uv huv => ?_)
    refine Rd.Post.bind ((post_cfl k hmo.cfl).mono fun c hc => ?_)
    refine Rd.Post.bind ((post_angle k).mono fun a2 ha2 => ?_)
    exact ⟨⟨hmo.skip, hmo.seg, hmo.q, hmo.lf, rfl, hy13, ha, huv, hc, ha2⟩, rfl⟩
  · exact ⟨⟨hmo.skip, hmo.seg, hmo.q, hmo.lf, rfl, hy13, ha, hmo.uv, hmo.cfl, hmo.auv⟩, rfl⟩

/-- **C144, refuted.**  Whatever is read, an intra block of an inter frame that gets through does not use filter intra prediction's condition (DC
prediction, at most 32 pixels) if the sequence has it, nor, with screen content tools, DC prediction of chroma in a block of 8x8 to 64x64: there
the decoder panics. -/
theorem C144_tools_refuted (L : Layout) (h : MiHdr) (b : MiBlk) (ar : MiArr) (m : ModeInfo) {msg rest : List Nat} {m' : ModeInfo}
    (er : (intraBlockModeInfo h b ar m).run L msg = .ok (m', rest)) :
    (h.enableFilterIntra = true → m'.yMode = 0 → ∀ d, sizeDims b.miSize = some d → 32 < max d.1 d.2) ∧
    (h.allowScreen = true → b.hasChroma = true → m'.uvMode = 0 → 3 ≤ b.miSize → ∀ d, sizeDims b.miSize = some d → 64 < max d.1 d.2) := by
  refine Rd.Wlp.of_run (Q := fun m' => (h.enableFilterIntra = true → m'.yMode = 0 → ∀ d, sizeDims b.miSize = some d → 32 < max d.1 d.2) ∧
    (h.allowScreen = true → b.hasChroma = true → m'.uvMode = 0 → 3 ≤ b.miSize → ∀ d, sizeDims b.miSize = some d → 64 < max d.1 d.2)) ?_ er
  unfold intraBlockModeInfo
  refine wlp_skip _ fun y => wlp_skip _ fun a => wlp_skip _ fun m1 => ?_
  refine Rd.Wlp.bind ((palette_wlp h b _ _ _).mono fun _ h2 => ?_)
  refine Rd.Wlp.bind ((filterIntra_wlp h _ _).mono fun _ h3 => ?_)
  exact ⟨h3, h2⟩

example : ((intraBlockModeInfo { enableFilterIntra := true } { miSize := 9 } {} {}).run (cdfLayout 0) [1, 3, 0, 3, 8]).toOption.map (fun p => (p.1.yMode, p.1.uvMode, p.2)) = some (1, 0, [3, 8]) := by
  decide +kernel
example : ((intraBlockModeInfo { enableFilterIntra := true } { miSize := 9 } {} {}).run (cdfLayout 0) [0, 0, 3, 3, 8]).toOption.map (fun p => p.2) = none := by decide +kernel

example : sizeDims 17 = some (16, 4) ∧ yModeCtx 16 4 = 0 ∧ yModeCtx 64 128 = 3 := by decide +kernel
example : ((intraBlockModeInfo {} { miSize := 9 } {} {}).run (cdfLayout 0) [2, 3, 13, 7, 15, 15, 8]).toOption.map (fun p => (p.1.yMode, p.1.angleY, p.1.uvMode, p.1.refFrame, p.2)) =
    some (2, 0, 13, (0, -1), [8]) := by decide +kernel
example : InfoOk { curQ := 20 } := ⟨by decide, rfl, by decide, ⟨rfl, by decide⟩, rfl, by decide, by decide, by decide, by decide, by decide⟩

/-! ## C145: modes of inter blocks -/

/-- The modes that are not coded: 24 and more are for two references, 16 is GLOBALMV. -/
theorem C145_new_partial (k : Fin 4) (h : MiHdr) (id : Int) (h6 : miSegFeature h id 6 = .ok false) (h7 : miSegFeature h id 7 = .ok false) (s : MvSt) (hn : s.newCtx ≤ 5) (hz : s.zeroCtx ≤ 1) :
    (readInterMode h 0 id false s).Says (cdfLayout k) [0] 17 ∧ (readInterMode h 0 id false s).Says (cdfLayout k) [1, 0] 16 := by
  have i1 : ∀ k, cdfInfo k "NewMv" = some ([], .box [6], 2) := by decide +kernel
  have i2 : ∀ k, cdfInfo k "ZeroMv" = some ([], .box [2], 2) := by decide +kernel
  have c1 : (cdfLayout k).count "NewMv" [(s.newCtx : Int)] = some 2 := count1 k (i1 k) (by omega)
  have c2 : (cdfLayout k).count "ZeroMv" [(s.zeroCtx : Int)] = some 2 := count1 k (i2 k) (by omega)
  have e : readInterMode h 0 id false s = readSingleMode s := by
    unfold readInterMode modeBySegment orElseRes
    rw [if_neg (by decide), h6, Res.ok_bind, if_neg (by decide), h7]
    rfl
  rw [e]
  unfold readSingleMode
  exact ⟨Rd.Says.bind (m := [0]) (m' := []) (Rd.Says.read c1 (by decide)) (Rd.Says.ret _),
    Rd.Says.bind (m := [1]) (m' := [0]) (Rd.Says.read c1 (by decide)) (Rd.Says.bind (m := [0]) (m' := []) (Rd.Says.read c2 (by decide)) (Rd.Says.ret _))⟩

/-- **C145, what holds (segments).**  In a segment with skip or global motion the mode is GLOBALMV and nothing is read. -/
theorem C145_segment_partial (h : MiHdr) (id : Int) (c : Bool) (s : MvSt) (hs : modeBySegment h id = .ok true) : readInterMode h 0 id c s = pure 16 := by
  unfold readInterMode
  rw [if_neg (by decide), hs]
  rfl

/-- A returning call without skip mode returns NEWMV or GLOBALMV. -/
theorem readInterMode_wlp (L : Layout) (h : MiHdr) (id : Int) (c : Bool) (s : MvSt) : (readInterMode h 0 id c s).Wlp L (fun y => y = 16 ∨ y = 17) := by
  unfold readInterMode
  rw [if_neg (by decide)]
  refine wlp_skip _ fun g => ?_
  split
  · exact Or.inl rfl
  · split
    · trivial
    · refine wlp_skip _ fun new => ?_
      split
      · exact Or.inr rfl
      · refine wlp_skip _ fun zm => ?_
        split
        · exact Or.inl rfl
        · trivial

/-- **C145, refuted.**  No block is coded NEARESTMV (14) or NEARMV (15), nor with any mode for two references (18 to 25): whatever is read,
a returning call without skip mode returns GLOBALMV or NEWMV. -/
theorem C145_near_refuted (L : Layout) (h : MiHdr) (id : Int) (c : Bool) (s : MvSt) {msg rest : List Nat} {y : Nat} (e : (readInterMode h 0 id c s).run L msg = .ok (y, rest)) :
    y ≠ 14 ∧ y ≠ 15 ∧ ¬ 18 ≤ y := by
  have := (readInterMode_wlp L h id c s).of_run e
  omega

example : ((readInterMode {} 0 0 false {}).run (cdfLayout 0) [1, 0, 4]).toOption = some (16, [4]) := by decide +kernel

/-! ## C146: tools that are not implemented -/

/-- What a returning call leaves. -/
structure InterOk (h : MiHdr) (ih : InHdr) (e : MvEnv) (miSize : Nat) (id : Int) (i : InterInfo) : Prop where
  inter : i.base.isInter = 1
  mode : i.base.yMode = 16 ∨ i.base.yMode = 17
  drl : i.base.yMode = 17 → i.mvSt.num ≤ 1
  idx : i.refMvIdx = 0
  interIntra : i.interIntra = 0
  motion : i.motion = 0
  compound : i.compoundType = 2
  refs : miSegFeature h id 5 = .ok false → ∃ f, refReadable f ∧ i.base.refFrame = ((f : Int), -1)
  global : i.base.yMode = 16 → i.mv.1 = i.mvSt.globals.1
  state : CallOk { e with refFrame := i.base.refFrame } (decide (i.base.refFrame.2 > 0)) i.mvSt
  switchable : ih.motionSwitchable = true → ∀ d, sizeDims miSize = some d → 8 ≤ min d.1 d.2 →
    i.base.yMode = 16 ∧ e.hdr.forceInteger = false ∧ ∃ t, goGet e.gmType i.base.refFrame.1 = .ok t ∧ 1 < t
  filter : if ih.interpFilter = 4 then i.interp = (0, 0) ∧ i.base.yMode = 16 ∧ (∀ d, sizeDims miSize = some d → 8 ≤ min d.1 d.2) ∧
      ∃ t, goGet e.gmType i.base.refFrame.1 = .ok t ∧ t ≠ 1
    else i.interp = (ih.interpFilter, ih.interpFilter)


theorem readRefMvIdx_wlp (L : Layout) {y : Nat} (hy : y = 16 ∨ y = 17) (num : Nat) : (readRefMvIdx y num).Wlp L (fun idx => idx = 0 ∧ (y = 17 → num ≤ 1)) := by
  unfold readRefMvIdx
  rcases hy with rfl | rfl
  · rw [if_neg (by decide), if_neg (by decide)]
    exact ⟨rfl, fun h => by cases h⟩
  · rw [if_pos (Or.inl rfl)]
    split
    · trivial
    · exact ⟨rfl, fun _ => by omega⟩

theorem readMotionMode_wlp (L : Layout) (ih : InHdr) (hm : MvHdr) (gmType : List Int) (ref : Int) (miSize : Nat) {y : Nat} (hy : y = 16 ∨ y = 17) :
    (readMotionMode ih hm gmType ref 0 miSize y).Wlp L (fun mo => mo = 0 ∧ (ih.motionSwitchable = true → ∀ d, sizeDims miSize = some d → 8 ≤ min d.1 d.2 →
      y = 16 ∧ hm.forceInteger = false ∧ ∃ t, goGet gmType ref = .ok t ∧ 1 < t)) := by
  unfold readMotionMode
  rw [if_neg (by decide)]
  split
  · rename_i hn
    exact ⟨rfl, fun h => by rw [h] at hn; cases hn⟩
  · refine Rd.Wlp.bind (Rd.Wlp.lift fun w hw => ?_)
    refine Rd.Wlp.bind (Rd.Wlp.lift fun ht hh => ?_)
    split
    · rename_i hlt
      refine ⟨rfl, fun _ d hd h8 => ?_⟩
      unfold sizeDims at hd
      rw [goGet_inv_nat hw, goGet_inv_nat hh] at hd
      cases hd
      exact absurd h8 (by show ¬ 8 ≤ min w ht; omega)
    · refine Rd.Wlp.bind (Rd.Wlp.lift fun g hg => ?_)
      split
      · rename_i hgt
        subst hgt
        refine ⟨rfl, fun _ d hd _ => ?_⟩
        unfold motionByGlobal at hg
        split at hg
        · rename_i hc
          obtain ⟨t, ht', hg⟩ := Res.inv hg
          cases hg' : decide (t > 1)
          · rw [hg'] at hg; cases hg
          · refine ⟨by omega, by simpa using hc.1, t, ht', of_decide_eq_true hg'⟩
        · cases hg
      · trivial

theorem readInterpFilter_wlp (L : Layout) (ih : InHdr) (gmType : List Int) (ref : Int) (miSize : Nat) {y : Nat} (hy : y = 16 ∨ y = 17) :
    (readInterpFilter ih gmType ref 0 miSize y 0).Wlp L (fun fl => if ih.interpFilter = 4 then fl = (0, 0) ∧ y = 16 ∧ (∀ d, sizeDims miSize = some d → 8 ≤ min d.1 d.2) ∧
      ∃ t, goGet gmType ref = .ok t ∧ t ≠ 1 else fl = (ih.interpFilter, ih.interpFilter)) := by
  unfold readInterpFilter
  by_cases h4 : ih.interpFilter = 4
  · rw [if_pos h4]
    simp only [if_pos h4]
    refine Rd.Wlp.bind (Rd.Wlp.lift fun n hn => ?_)
    split
    · trivial
    · rename_i hf
      have hf : n = false := by simpa using hf
      subst hf
      unfold needsInterpFilter at hn
      obtain ⟨w, hw, hn⟩ := Res.inv hn
      obtain ⟨ht, hh, hn⟩ := Res.inv hn
      rw [if_neg (by decide)] at hn
      split at hn
      · rename_i hc
        obtain ⟨t, et, hn⟩ := Res.inv hn
        refine ⟨rfl, hc.2, fun d hd => ?_, t, et, fun h1 => ?_⟩
        · unfold sizeDims at hd
          rw [goGet_inv_nat hw, goGet_inv_nat hh] at hd
          cases hd
          exact hc.1
        · rw [h1] at hn; cases hn
      · rw [if_neg (by omega)] at hn
        cases hn
  · rw [if_neg h4]
    simp only [if_neg h4]
    rfl

theorem readRefFrames_refs (L : Layout) (h : MiHdr) (ih : InHdr) (n : NbRefs) (miSize : Nat) (id : Int) :
    (readRefFrames h ih n miSize 0 id).Wlp L (fun r => miSegFeature h id 5 = .ok false → ∃ f, refReadable f ∧ r = ((f : Int), -1)) := by
  unfold readRefFrames
  rw [if_neg (by decide)]
  refine Rd.Wlp.bind (Rd.Wlp.lift fun s hs => ?_)
  split
  · rename_i hst
    subst hst
    refine wlp_skip _ fun d => ?_
    intro h'
    rw [hs] at h'; cases h'
  · refine wlp_skip _ fun bw => wlp_skip _ fun bh => ?_
    split
    · trivial
    · refine Rd.Wlp.mono (Q := fun r => ∃ f, refReadable f ∧ r = ((f : Int), -1)) ?_ (fun r hr _ => hr)
      unfold readSingleRef
      refine wlp_skip _ fun p => ?_
      unfold readSide readBackward readForward
      split
      · refine Rd.Wlp.bind (wlp_skip _ fun q => ?_)
        split
        · refine wlp_skip _ fun z => ?_
          by_cases hz0 : z ≠ 0
          · rw [if_pos hz0]; exact ⟨6, by unfold refReadable; decide, rfl⟩
          · rw [if_neg hz0]; exact ⟨5, by unfold refReadable; decide, rfl⟩
        · exact ⟨7, by unfold refReadable; decide, rfl⟩
      · refine Rd.Wlp.bind (wlp_skip _ fun q => ?_)
        split
        · trivial
        · refine wlp_skip _ fun z => ?_
          by_cases hz0 : z ≠ 0
          · rw [if_pos hz0]; exact ⟨2, by unfold refReadable; decide, rfl⟩
          · rw [if_neg hz0]; exact ⟨1, by unfold refReadable; decide, rfl⟩

theorem assignMv_global (L : Layout) (hm : MvHdr) (s : MvIn) (hi : s.intrabc = false) (compound : Bool) (mv : MvPair) :
    (assignMv hm s compound mv).Wlp L (fun v => s.yMode = 16 → v.1 = s.globals.1) := by
  unfold assignMv
  refine Rd.Wlp.bind (Rd.Wlp.mono (Q := fun a => s.yMode = 16 → a = s.globals.1) ?_ fun a ha => wlp_skip _ fun b => ha)
  unfold assignOne
  by_cases hy : s.yMode = 16
  · have e : mvMode s 0 = 16 := by unfold mvMode getMode; rw [hi, hy]; rfl
    rw [e]
    unfold predMv
    rw [hi, if_neg (by decide), if_pos rfl]
    exact fun _ => rfl
  · exact (wlp_true _).mono fun _ _ h => absurd h hy

theorem interBlock_wlp (L : Layout) (h : MiHdr) (ih : InHdr) (b : MiBlk) (n : NbRefs) (e : MvEnv) {m : InterInfo} (hs : m.skipMode = 0) (hst : StInit m.mvSt) :
    (interBlockModeInfo h ih b n e m).Wlp L (InterOk h ih e b.miSize m.base.segmentId) := by
  unfold interBlockModeInfo
  rw [hs]
  refine Rd.Wlp.bind ((readRefFrames_refs L h ih n b.miSize _).mono fun r hr => ?_)
  dsimp only
  refine Rd.Wlp.bind (Rd.Wlp.lift fun s e1 => ?_)
  have hok := (findMvStack_part { e with refFrame := r } (decide (r.2 > 0)) hst).1 s e1
  refine Rd.Wlp.bind ((readInterMode_wlp L h _ _ s).mono fun y hy => ?_)
  refine Rd.Wlp.bind ((readRefMvIdx_wlp L hy s.num).mono fun idx hidx => ?_)
  refine Rd.Wlp.bind ((assignMv_global L e.hdr (mvInOf e h y idx s) rfl _ _).mono fun mv hmv => ?_)
  have hii : readInterIntra ih 0 b.miSize (decide (r.2 > 0)) = pure 0 := by
    unfold readInterIntra
    rw [if_neg (fun h => h.1 rfl)]
  rw [hii]
  refine Rd.Wlp.bind (Q := _) (p := (pure 0 : Rd Nat)) ?_
  refine Rd.Wlp.bind ((readMotionMode_wlp L ih e.hdr e.gmType r.1 b.miSize hy).mono fun mo hmo => ?_)
  have hct : readCompoundType ih 0 (decide (r.2 > 0)) = pure 2 := by
    rw [hok.single]; rfl
  rw [hct]
  refine Rd.Wlp.bind (Q := _) (p := (pure 2 : Rd Nat)) ?_
  obtain ⟨rfl, hmo⟩ := hmo
  refine Rd.Wlp.bind ((readInterpFilter_wlp L ih e.gmType r.1 b.miSize hy).mono fun fl hfl => ?_)
  exact ⟨rfl, hy, hidx.2, hidx.1, rfl, rfl, rfl, hr, hmv, hok, hmo, hfl⟩

/-- **C146, refuted.**  Whatever is read, a block that gets through (without skip mode) uses none of the following tools of AV1: modes other
than GLOBALMV and NEWMV, a choice among several candidates, inter-intra prediction, overlapped or warped motion, compound prediction.  If
the frame lets blocks choose their motion mode, a block of 8x8 or more gets through only with GLOBALMV and a global warp; if it lets them choose the
interpolation filter, only with GLOBALMV, 8x8 or more and no global translation. -/
theorem C146_tools_refuted (L : Layout) (h : MiHdr) (ih : InHdr) (b : MiBlk) (n : NbRefs) (e : MvEnv) {m : InterInfo} (hs : m.skipMode = 0) (hst : StInit m.mvSt) {msg rest : List Nat} {i : InterInfo}
    (er : (interBlockModeInfo h ih b n e m).run L msg = .ok (i, rest)) : InterOk h ih e b.miSize m.base.segmentId i :=
  (interBlock_wlp L h ih b n e hs hst).of_run er

/-- **C146, refuted (skip mode).**  If the frame header allows skip mode, no block of 8x8 or more gets through unless a segment feature rules
skip mode out; otherwise skip mode is off, as it should be. -/
theorem C146_skip_mode_refuted (L : Layout) (h : MiHdr) (ih : InHdr) (miSize : Nat) (id : Int) {msg rest : List Nat} {r : Nat} (e : (readSkipMode h ih miSize id).run L msg = .ok (r, rest)) :
    r = 0 ∧ rest = msg ∧ (skipModeBySegment h id = .ok true ∨ ih.skipModePresent = false ∨ ∀ d, sizeDims miSize = some d → min d.1 d.2 < 8) := by
  unfold readSkipMode at e
  cases hg : skipModeBySegment h id with
  | error f => rw [hg] at e; cases e
  | ok g =>
    rw [hg] at e
    cases g
    · cases hp : ih.skipModePresent
      · rw [hp] at e
        cases e
        exact ⟨rfl, rfl, Or.inr (Or.inl rfl)⟩
      · rw [hp] at e
        cases hw : goGet blockWidth (miSize : Int) with
        | error f => rw [hw] at e; cases e
        | ok w =>
          cases hh : goGet blockHeight (miSize : Int) with
          | error f => rw [hw, hh] at e; cases e
          | ok ht =>
            rw [hw, hh] at e
            change (if w < 8 ∨ ht < 8 then (pure 0 : Rd Nat) else notImpl).run L msg = _ at e
            split at e
            · rename_i hlt
              cases e
              refine ⟨rfl, rfl, Or.inr (Or.inr fun d hd => ?_)⟩
              unfold sizeDims at hd
              rw [goGet_inv_nat hw, goGet_inv_nat hh] at hd
              cases hd
              show min w ht < 8
              omega
            · cases e
    · cases e
      exact ⟨rfl, rfl, Or.inl rfl⟩

example : StInit {} := ⟨rfl, rfl, by decide, by decide⟩
example : ((readSkipMode {} { skipModePresent := true } 1 0).run (cdfLayout 0) [7]).toOption = some (0, [7]) := by decide +kernel

/-! ## C147: an inter block as a whole -/

/-- **C147, what holds.**  The first block of a tile, with no inter block in the grids around it, no temporal candidates, no segment features and
with the motion modes and filters that need no symbol: on AV1's code of a readable reference followed by the code of GLOBALMV the block
gets the global vector; on that reference followed by the code of NEWMV and a difference of up to 2 pixels, the global vector plus that difference. -/
theorem C147_block_partial (k : Fin 4) {h : MiHdr} {ih : InHdr} {b : MiBlk} {n : NbRefs} {e : MvEnv} {m : InterInfo} {f : Nat} (ho : OneRef h ih b.miSize m.base.segmentId) (hf : refReadable f)
    (hz : e.miSize = b.miSize) (hc : AtCorner e) (hg : Grids e) (ht : e.useRefFrameMvs = false)
    (hnone : ∀ r c v, at2 e.refFrames r c = some v → v.1 ≤ 0 ∧ v.2 ≤ 0) (hst : StInit m.mvSt) (hsm : m.skipMode = 0)
    (h6 : miSegFeature h m.base.segmentId 6 = .ok false) (h7 : miSegFeature h m.base.segmentId 7 = .ok false) (hmo : ih.motionSwitchable = false) (hfl : ih.interpFilter ≠ 4)
    {gmv : Int × Int} (hgm : setupGlobalMv e.hdr e.gmType e.gmParams e.miRow e.miCol e.miSize f = .ok gmv)
    (new : Bool) (d : Int × Int) (hd : new = false → d = (0, 0)) (c1 : d.1 ≠ 0 → mvCodable e.hdr.forceInteger e.hdr.highPrecision d.1)
    (c2 : d.2 ≠ 0 → mvCodable e.hdr.forceInteger e.hdr.highPrecision d.2) (s1 : d.1.natAbs ≤ 16) (s2 : d.2.natAbs ≤ 16) :
    ∃ i, (interBlockModeInfo h ih b n e m).Says (cdfLayout k) (singleRefCode f ++ (if new then [0] ++ mvCode e.hdr.forceInteger e.hdr.highPrecision d else [1, 0])) i ∧
      i.base.isInter = 1 ∧ i.base.refFrame = ((f : Int), -1) ∧ i.base.yMode = (if new then 17 else 16) ∧ i.mv = ((gmv.1 + d.1, gmv.2 + d.2), m.mv.2) ∧
      i.interp = (ih.interpFilter, ih.interpFilter) := by
  obtain ⟨s', a, b', es, hnum, hstack, hnew, -, hzero⟩ := C138_corner_partial { e with refFrame := ((f : Int), -1) } hc ⟨hg.sizes, hg.size, hg.refs, hg.rows, hg.cols, hg.row, hg.col⟩ ht hnone (by show e.miSize < 22; rw [hz]; exact ho.size) hgm hst
  have hok := (findMvStack_part { e with refFrame := ((f : Int), -1) } false hst).1 s' es
  have hglob : s'.globals.1 = gmv := by
    have := hok.global
    dsimp only at this
    rw [hgm] at this
    cases this; rfl
  obtain ⟨m1, m2⟩ := C145_new_partial k h m.base.segmentId h6 h7 s' hok.newCtx (by rw [hzero]; decide)
  let y : Nat := if new then 17 else 16
  have hmode : (readInterMode h 0 m.base.segmentId false s').Says (cdfLayout k) (if new then [0] else [1, 0]) y := by
    cases new
    · exact m2
    · exact m1
  have hidx : readRefMvIdx y s'.num = pure 0 := by
    rw [hnum]
    cases new <;> rfl
  have hasg : (assignMv e.hdr (mvInOf e h y 0 s') false m.mv).Says (cdfLayout k) (if new then mvCode e.hdr.forceInteger e.hdr.highPrecision d else []) ((gmv.1 + d.1, gmv.2 + d.2), m.mv.2) := by
    cases new
    · have hd := hd rfl
      have := C133_assign_partial k e.hdr (mvInOf e h 16 0 s') rfl (m := 2) (e := (.global, none)) rfl rfl (e0 := (gmv, a)) (eidx := (gmv, a))
        (by show s'.stack[0]? = _; rw [hstack]; rfl) (by show s'.stack[0]? = _; rw [hstack]; rfl) m.mv d (fun _ => hd) c1 c2 s1 s2
      have e2 : specPred (mvInOf e h 16 0 s') 0 (gmv, a) (gmv, a) .global = gmv := hglob
      rw [e2] at this
      exact this
    · have := C133_assign_partial k e.hdr (mvInOf e h 17 0 s') rfl (m := 3) (e := (.new, none)) rfl rfl (e0 := (gmv, a)) (eidx := (gmv, a))
        (by show s'.stack[0]? = _; rw [hstack]; rfl) (by show s'.stack[0]? = _; rw [hstack]; rfl) m.mv d (fun h' => absurd rfl h') c1 c2 s1 s2
      have e2 : specPred (mvInOf e h 17 0 s') 0 (gmv, a) (gmv, a) .new = gmv := by
        show (if (mvInOf e h 17 0 s').numMvFound ≤ 1 then gmv else gmv) = gmv
        split <;> rfl
      rw [e2] at this
      exact this
  have hcode : (if new then [0] ++ mvCode e.hdr.forceInteger e.hdr.highPrecision d else [1, 0]) = (if new then [0] else [1, 0]) ++ ((if new then mvCode e.hdr.forceInteger e.hdr.highPrecision d else []) ++ []) := by
    cases new <;> simp
  refine ⟨InterInfo.mk { m.base with isInter := 1, refFrame := ((f : Int), -1), yMode := y } 0 s' ((gmv.1 + d.1, gmv.2 + d.2), m.mv.2) 0 0 0 2 (ih.interpFilter, ih.interpFilter), ?_, ?_⟩
  · rw [hcode]
    unfold interBlockModeInfo
    rw [hsm]
    refine Rd.Says.bind (C141_code_partial k ho n hf) ?_
    dsimp only
    refine Rd.Says.lift es ?_
    refine Rd.Says.bind hmode ?_
    rw [hidx]
    show Rd.Says (cdfLayout k) (assignMv e.hdr (mvInOf e h y 0 s') false m.mv >>= _) _ _
    refine Rd.Says.bind hasg ?_
    have hii : readInterIntra ih 0 b.miSize false = pure 0 := by
      unfold readInterIntra
      rw [if_neg (fun h => h.1 rfl)]
    have hmm : readMotionMode ih e.hdr e.gmType f 0 b.miSize y = pure 0 := by
      unfold readMotionMode
      rw [if_neg (by decide), hmo]
      rfl
    have hff : readInterpFilter ih e.gmType f 0 b.miSize y 0 = pure (ih.interpFilter, ih.interpFilter) := by
      unfold readInterpFilter
      rw [if_neg hfl]
    refine Rd.Says.bind (m := []) (m' := []) (a := 0) (by show Rd.Says _ (readInterIntra ih 0 b.miSize false) _ _; rw [hii]; exact Rd.Says.ret _) ?_
    refine Rd.Says.bind (m := []) (m' := []) (a := 0) (by rw [hmm]; exact Rd.Says.ret _) ?_
    refine Rd.Says.bind (m := []) (m' := []) (a := 2) (Rd.Says.ret _) ?_
    refine Rd.Says.bind (m := []) (m' := []) (by rw [hff]; exact Rd.Says.ret _) ?_
    exact Rd.Says.ret _
  · exact ⟨rfl, rfl, rfl, rfl, rfl⟩

example : ((interBlockModeInfo {} {} {} {} { mvDemo with miRow := 0, miCol := 0, refFrames := List.replicate 64 (List.replicate 64 (0, -1)), hdr := { highPrecision := true } } {}).run (cdfLayout 0)
    (singleRefCode 6 ++ ([0] ++ mvCode false true (-3, 5)) ++ [9])).toOption.map (fun p => (p.1.base.refFrame, p.1.base.yMode, p.1.mv, p.2)) = some ((6, -1), 17, ((-3, 5), (0, 0)), [9]) := by
  decide +kernel

end Gov1
