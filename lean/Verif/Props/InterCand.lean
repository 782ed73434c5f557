import Verif.Props.InterInfo
import Verif.Props.MvPairs
/-!
# C147: inter blocks as a whole, with candidates
-/
namespace Gov1
open Spec

theorem interBlock_found (k : Fin 4) {h : MiHdr} {ih : InHdr} {b : MiBlk} {n : NbRefs} {e : MvEnv} {m : InterInfo} {f : Nat} (ho : OneRef h ih b.miSize m.base.segmentId) (hf : refReadable f)
    (hst : StInit m.mvSt) (hsm : m.skipMode = 0)
    (h6 : miSegFeature h m.base.segmentId 6 = .ok false) (h7 : miSegFeature h m.base.segmentId 7 = .ok false) (hmo : ih.motionSwitchable = false) (hfl : ih.interpFilter ≠ 4)
    {s' : MvSt} (es : findMvStack { e with refFrame := ((f : Int), -1) } false m.mvSt = .ok s') {p : MvPair} (hp : s'.stack[0]? = some p)
    (new : Bool) (d : Int × Int) (hd : new = false → d = (0, 0)) (c1 : d.1 ≠ 0 → mvCodable e.hdr.forceInteger e.hdr.highPrecision d.1)
    (c2 : d.2 ≠ 0 → mvCodable e.hdr.forceInteger e.hdr.highPrecision d.2) (s1 : d.1.natAbs ≤ 16) (s2 : d.2.natAbs ≤ 16) :
    ∃ i, (interBlockModeInfo h ih b n e m).Says (cdfLayout k) (singleRefCode f ++ (if new then [0] ++ mvCode e.hdr.forceInteger e.hdr.highPrecision d else [1, 0])) i ∧
      i.base.isInter = 1 ∧ i.base.refFrame = ((f : Int), -1) ∧ i.base.yMode = (if new then 17 else 16) ∧
      i.mv = ((if new then (p.1.1 + d.1, p.1.2 + d.2) else s'.globals.1), m.mv.2) ∧ i.interp = (ih.interpFilter, ih.interpFilter) := by
  have hok := (findMvStack_part { e with refFrame := ((f : Int), -1) } false hst).1 s' es
  have hnum : s'.num ≤ 1 := (C135_candidates_refuted _ false hst es).2
  obtain ⟨m1, m2⟩ := C145_new_partial k h m.base.segmentId h6 h7 s' hok.newCtx (by have := (C136_contexts _ false hst es).2.2.1; omega)
  let y : Nat := if new then 17 else 16
  have hmode : (readInterMode h 0 m.base.segmentId false s').Says (cdfLayout k) (if new then [0] else [1, 0]) y := by
    cases new
    · exact m2
    · exact m1
  have hidx : readRefMvIdx y s'.num = pure 0 := by
    cases new
    · rfl
    · show (if (17 : Nat) = 17 ∨ (17 : Nat) = 25 then (if s'.num > 1 then notImpl else pure 0) else _) = _
      rw [if_pos (Or.inl rfl), if_neg (by omega)]
  let v : MVec := if new then (p.1.1 + d.1, p.1.2 + d.2) else s'.globals.1
  have hasg : (assignMv e.hdr (mvInOf e h y 0 s') false m.mv).Says (cdfLayout k) (if new then mvCode e.hdr.forceInteger e.hdr.highPrecision d else []) (v, m.mv.2) := by
    cases new
    · have hd := hd rfl
      have := C133_assign_partial k e.hdr (mvInOf e h 16 0 s') rfl (m := 2) (e := (.global, none)) rfl rfl (e0 := p) (eidx := p) hp hp m.mv d (fun _ => hd) c1 c2 s1 s2
      have e2 : specPred (mvInOf e h 16 0 s') 0 p p .global = s'.globals.1 := rfl
      rw [e2, hd] at this
      have this : (assignMv e.hdr (mvInOf e h 16 0 s') false m.mv).Says (cdfLayout k) [] (s'.globals.1, m.mv.2) := by simpa using this
      exact this
    · have := C133_assign_partial k e.hdr (mvInOf e h 17 0 s') rfl (m := 3) (e := (.new, none)) rfl rfl (e0 := p) (eidx := p) hp hp m.mv d (fun h' => absurd rfl h') c1 c2 s1 s2
      have e2 : specPred (mvInOf e h 17 0 s') 0 p p .new = p.1 := by
        show (if (mvInOf e h 17 0 s').numMvFound ≤ 1 then p.1 else p.1) = p.1
        split <;> rfl
      rw [e2] at this
      exact this
  have hcode : (if new then [0] ++ mvCode e.hdr.forceInteger e.hdr.highPrecision d else [1, 0]) = (if new then [0] else [1, 0]) ++ ((if new then mvCode e.hdr.forceInteger e.hdr.highPrecision d else []) ++ []) := by
    cases new <;> simp
  refine ⟨InterInfo.mk { m.base with isInter := 1, refFrame := ((f : Int), -1), yMode := y } 0 s' (v, m.mv.2) 0 0 0 2 (ih.interpFilter, ih.interpFilter), ?_, rfl, rfl, rfl, rfl, rfl⟩
  rw [hcode]
  unfold interBlockModeInfo
  rw [hsm]
  refine Rd.Says.bind (C141_code_partial k ho n hf) ?_
  dsimp only
  refine Rd.Says.lift es ?_
  refine Rd.Says.bind hmode ?_
  rw [hidx]
  show Rd.Says (cdfLayout k) (assignMv e.hdr (mvInOf e h y 0 s') false m.mv >>= _) _ _
  refine Rd.Says.bind hasg ?_
  have hii : readInterIntra ih 0 b.miSize false = pure 0 := by
    unfold readInterIntra
    rw [if_neg (fun h => h.1 rfl)]
  have hmm : readMotionMode ih e.hdr e.gmType f 0 b.miSize y = pure 0 := by
    unfold readMotionMode
    rw [if_neg (by decide), hmo]
    rfl
  have hff : readInterpFilter ih e.gmType f 0 b.miSize y 0 = pure (ih.interpFilter, ih.interpFilter) := by
    unfold readInterpFilter
    rw [if_neg hfl]
  refine Rd.Says.bind (m := []) (m' := []) (a := 0) (by show Rd.Says _ (readInterIntra ih 0 b.miSize false) _ _; rw [hii]; exact Rd.Says.ret _) ?_
  refine Rd.Says.bind (m := []) (m' := []) (a := 0) (by rw [hmm]; exact Rd.Says.ret _) ?_
  refine Rd.Says.bind (m := []) (m' := []) (a := 2) (Rd.Says.ret _) ?_
  refine Rd.Says.bind (m := []) (m' := []) (by rw [hff]; exact Rd.Says.ret _) ?_
  exact Rd.Says.ret _

/-- The vector AV1 predicts that of a block with reference `f` from: its first candidate (a neighbour's vector for `f`, restricted to the surroundings
of the frame) or, with no candidate, its global vector `g`. -/
def PredictedFrom (e : MvEnv) (f : Nat) (g : MVec) (num : Nat) (v : MVec) : Prop :=
  (num = 0 → v = g) ∧
  (0 < num → ∃ d r c u, sizeDims e.miSize = some d ∧ TakenFrom { e with refFrame := ((f : Int), -1) } g r c u ∧ v = clampVec e (d.1 / 4) (d.2 / 4) d.1 d.2 u)

/-- **C147 (blocks with neighbours).**  For a block with a neighbour above and to the left in its tile, for which the search of candidates returns
(no two different ones: C135), without a motion field, segment features and with the motion modes and filters that need no symbol: on AV1's code
of a readable reference and of GLOBALMV the block gets that reference, that mode and the global vector; on the code of NEWMV and a difference of
up to 2 pixels it gets the predicted vector plus that difference. -/
theorem C147_neighbours_partial (k : Fin 4) {h : MiHdr} {ih : InHdr} {b : MiBlk} {n : NbRefs} {e : MvEnv} {m : InterInfo} {f : Nat} (ho : OneRef h ih b.miSize m.base.segmentId) (hf : refReadable f)
    (hz : e.miSize = b.miSize) (ht : e.useRefFrameMvs = false) (hst : StInit m.mvSt) (hsm : m.skipMode = 0)
    (hu : isInside e.tile ((e.miRow : Int) - 1) e.miCol = true) (hl : isInside e.tile e.miRow ((e.miCol : Int) - 1) = true)
    (h6 : miSegFeature h m.base.segmentId 6 = .ok false) (h7 : miSegFeature h m.base.segmentId 7 = .ok false) (hmo : ih.motionSwitchable = false) (hfl : ih.interpFilter ≠ 4)
    {s' : MvSt} (es : findMvStack { e with refFrame := ((f : Int), -1) } false m.mvSt = .ok s')
    (new : Bool) (d : Int × Int) (hd : new = false → d = (0, 0)) (c1 : d.1 ≠ 0 → mvCodable e.hdr.forceInteger e.hdr.highPrecision d.1)
    (c2 : d.2 ≠ 0 → mvCodable e.hdr.forceInteger e.hdr.highPrecision d.2) (s1 : d.1.natAbs ≤ 16) (s2 : d.2.natAbs ≤ 16) :
    ∃ i g v, (interBlockModeInfo h ih b n e m).Says (cdfLayout k) (singleRefCode f ++ (if new then [0] ++ mvCode e.hdr.forceInteger e.hdr.highPrecision d else [1, 0])) i ∧
      setupGlobalMv e.hdr e.gmType e.gmParams e.miRow e.miCol e.miSize f = .ok g ∧ PredictedFrom e f g s'.num v ∧
      i.base.isInter = 1 ∧ i.base.refFrame = ((f : Int), -1) ∧ i.base.yMode = (if new then 17 else 16) ∧
      i.mv = ((if new then (v.1 + d.1, v.2 + d.2) else g), m.mv.2) ∧ i.interp = (ih.interpFilter, ih.interpFilter) := by
  have hz22 : e.miSize < 22 := by rw [hz]; exact ho.size
  have hok := (findMvStack_part { e with refFrame := ((f : Int), -1) } false hst).1 s' es
  obtain ⟨g, hg, hpad⟩ := C137_padding _ false hst es
  have hgl : s'.globals.1 = g := by
    have := hok.global
    dsimp only at this hg
    rw [hg] at this
    cases this; rfl
  have td : ∀ s : Fin 22, ∃ d, sizeDims s.val = some d ∧ num4x4Wide[s.val]? = some (d.1 / 4) ∧ num4x4High[s.val]? = some (d.2 / 4) ∧ 4 * (d.1 / 4) = d.1 ∧ 4 * (d.2 / 4) = d.2 := by
    intro s
    have t : ∀ s : Fin 22, (sizeDims s.val).isSome ∧ ∀ d ∈ sizeDims s.val, num4x4Wide[s.val]? = some (d.1 / 4) ∧ num4x4High[s.val]? = some (d.2 / 4) ∧ 4 * (d.1 / 4) = d.1 ∧ 4 * (d.2 / 4) = d.2 := by
      decide
    obtain ⟨t1, t2⟩ := t s
    obtain ⟨d, hd⟩ := Option.isSome_iff_exists.mp t1
    exact ⟨d, hd, t2 d hd⟩
  obtain ⟨bd, hbd, hw, hh, w4, h4⟩ := td ⟨e.miSize, hz22⟩
  have key : ∃ p, s'.stack[0]? = some p ∧ PredictedFrom e f g s'.num p.1 := by
    rcases Nat.eq_zero_or_pos s'.num with h0 | h0
    · obtain ⟨w, hw'⟩ := hpad 0 (by omega) (by decide)
      exact ⟨_, hw', fun _ => rfl, fun h => absurd h (by omega)⟩
    · obtain ⟨g', r, c, v, w, hg', hT, hs⟩ := C148_candidate_partial { e with refFrame := ((f : Int), -1) } ht hu hl hst es h0 hw hh
      have : g' = g := by
        unfold GlobalOf at hg'
        dsimp only at hg' hg
        rw [hg] at hg'
        cases hg'; rfl
      subst this
      refine ⟨_, hs, fun h => absurd h (by omega), fun _ => ⟨bd, r, c, v, hbd, hT, ?_⟩⟩
      show clampVec e (bd.1 / 4) (bd.2 / 4) (4 * (bd.1 / 4)) (4 * (bd.2 / 4)) v = _
      rw [w4, h4]
  obtain ⟨p, hp, hpred⟩ := key
  obtain ⟨i, k1, k2, k3, k4, k5, k6⟩ := interBlock_found k (n := n) ho hf hst hsm h6 h7 hmo hfl es hp new d hd c1 c2 s1 s2
  rw [hgl] at k5
  exact ⟨i, g, p.1, k1, hg, hpred, k2, k3, k4, k5, k6⟩

-- the lower right of four blocks, whose neighbours use the same reference and the vector (24, -16)
example : ((interBlockModeInfo {} {} {} {} { mvDemo with hdr := { highPrecision := true } } {}).run (cdfLayout 0)
    (singleRefCode 1 ++ ([0] ++ mvCode false true (-3, 5)) ++ [9])).toOption.map (fun p => (p.1.base.refFrame, p.1.base.yMode, p.1.mv, p.2)) = some ((1, -1), 17, ((21, -11), (0, 0)), [9]) := by
  decide +kernel

example : (findMvStack { mvDemo with hdr := { highPrecision := true }, refFrame := ((1 : Nat), -1) } false {}).toOption.map (fun s => s.num) = some 1 := by decide +kernel

/-- **C147, refuted.**  AV1 has further references (LAST3, GOLDEN), two references, the modes of the nearest and near candidates.  No sequence of
symbols gives a block (without skip mode and a reference fixed by its segment) one of these. -/
theorem C147_missing_refuted (k : Fin 4) (h : MiHdr) (ih : InHdr) (b : MiBlk) (n : NbRefs) (e : MvEnv) {m : InterInfo} (hs : m.skipMode = 0) (hst : StInit m.mvSt)
    (h5 : miSegFeature h m.base.segmentId 5 = .ok false) {msg rest : List Nat} {i : InterInfo} (er : (interBlockModeInfo h ih b n e m).run (cdfLayout k) msg = .ok (i, rest)) :
    i.base.refFrame.1 ≠ 3 ∧ i.base.refFrame.1 ≠ 4 ∧ i.base.refFrame.2 = -1 ∧ (i.base.yMode = 16 ∨ i.base.yMode = 17) := by
  have ok := C146_tools_refuted (cdfLayout k) h ih b n e hs hst er
  obtain ⟨f, hf, hr⟩ := ok.refs h5
  rw [hr]
  unfold refReadable at hf
  refine ⟨?_, ?_, rfl, ok.mode⟩ <;> (show (f : Int) ≠ _; omega)

example : miSegFeature {} ({} : InterInfo).base.segmentId 5 = .ok false ∧ ({} : InterInfo).skipMode = 0 := by decide +kernel

end Gov1
