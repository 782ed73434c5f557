import Verif.Model.ModeInfo
import Verif.Spec.ModeInfo
import Verif.Props.TxSize
import Verif.Props.CdfLayout
import Verif.Props.Util
/-!
# C121-C125, C128: mode info of intra frames
-/
namespace Gov1
open Spec

/-! ## C121: deltas of the quantizer index and the loop filter -/

theorem clip3_eq (lo hi x : Int) (h : lo ≤ hi) : clip3 lo hi x = max lo (min hi x) := by
  unfold clip3; split
  · omega
  · split <;> omega

/-- The escape of a delta. -/
theorem deltaRest_says {L : Layout} {a : Nat} (h3 : 3 ≤ a) (ha : a ≤ 512) :
    (do let rem ← Rd.lit 3
        let n := rem + 1
        let bits ← Rd.lit (n : Int)
        pure (bits + 2 ^ n + 1) : Rd Nat).Says L
      (bitsMsb 3 (Nat.log2 (a - 1) - 1) ++ bitsMsb (Nat.log2 (a - 1)) (a - 1 - 2 ^ Nat.log2 (a - 1))) a := by
  obtain ⟨b1, b2⟩ := log2_bounds (x := a - 1) (by omega)
  have n1 : 1 ≤ Nat.log2 (a - 1) := by
    rcases Nat.eq_zero_or_pos (Nat.log2 (a - 1)) with h | h
    · rw [h] at b2; omega
    · exact h
  have n8 : Nat.log2 (a - 1) < 9 := (Nat.log2_lt (by omega)).mpr (by omega)
  have hb : a - 1 - 2 ^ Nat.log2 (a - 1) < 2 ^ Nat.log2 (a - 1) := by rw [Nat.pow_succ] at b2; omega
  refine Rd.Says.bind (f := fun (rem : Nat) => (do
        let n := rem + 1
        let bits ← Rd.lit (n : Int)
        pure (bits + 2 ^ n + 1) : Rd Nat)) (lit_says (n := 3) (by omega)) ?_
  have e : Nat.log2 (a - 1) - 1 + 1 = Nat.log2 (a - 1) := by omega
  dsimp only
  rw [e]
  have := Rd.Says.bind (f := fun bits => (pure (bits + 2 ^ Nat.log2 (a - 1) + 1) : Rd Nat)) (lit_says (L := L) hb) (Rd.Says.ret _)
  rw [List.append_nil, show a - 1 - 2 ^ Nat.log2 (a - 1) + 2 ^ Nat.log2 (a - 1) + 1 = a by omega] at this
  exact this

theorem deltaAbs_says {L : Layout} {p : Rd Nat} (hp : ∀ s, s < 4 → p.Says L [s] s) {a : Nat} (ha : a ≤ 512) :
    (p >>= fun a => if a = 3 then do
        let rem ← Rd.lit 3
        let n := rem + 1
        let bits ← Rd.lit (n : Int)
        pure (bits + 2 ^ n + 1)
      else pure a).Says L (deltaAbsCode a) a := by
  unfold deltaAbsCode
  split
  · rename_i h
    have := Rd.Says.bind (f := fun a => if a = 3 then do
        let rem ← Rd.lit 3
        let n := rem + 1
        let bits ← Rd.lit (n : Int)
        pure (bits + 2 ^ n + 1)
      else (pure a : Rd Nat)) (hp a (by omega)) (m' := []) (b := a) (by rw [if_neg (by omega)]; exact Rd.Says.ret a)
    rwa [List.append_nil] at this
  · rename_i h
    exact Rd.Says.bind (m := [3]) (hp 3 (by omega)) (by rw [if_pos rfl]; exact deltaRest_says (by omega) ha)

theorem sign_val (d : Int) : (if (if d < 0 then 1 else 0) ≠ 0 then -(d.natAbs : Int) else (d.natAbs : Int)) = d := by
  by_cases h : d < 0
  · rw [if_pos h, if_pos (by decide)]; omega
  · rw [if_neg h, if_neg (by decide)]; omega

/-- **C121 (quantizer index).**  On AV1's code of the delta `d`, at the first block of a superblock (unless that block is a skipped
superblock), the decoder moves the current quantizer index by `d` steps of `2^delta_q_res`, within 1 to 255, and reads nothing else. -/
theorem C121_qindex (k : Fin 4) (h : MiHdr) (miSize skip : Nat) (cur d : Int) (hd : d.natAbs ≤ 512)
    (hs : ¬ (miSize = sbBlockSize h.use128 ∧ skip ≠ 0)) :
    (readDeltaQIndex h miSize skip true cur).Says (cdfLayout k) (deltaCode d) (moved 1 255 cur d h.deltaQRes) := by
  have i : ∀ k, cdfInfo k "DeltaQ" = some ([], .box [], 4) := by decide +kernel
  unfold readDeltaQIndex
  rw [if_neg hs, if_pos rfl]
  have ha : readDeltaQAbs.Says (cdfLayout k) (deltaAbsCode d.natAbs) d.natAbs :=
    deltaAbs_says (fun s hs => Rd.Says.read (count0 k (i k)) hs) hd
  unfold deltaCode moved
  by_cases h0 : d = 0
  · subst h0
    rw [if_pos rfl, if_pos rfl]
    refine Rd.Says.bind ha ?_
    rw [if_neg (by decide)]; exact Rd.Says.ret _
  · rw [if_neg h0, if_neg h0]
    refine Rd.Says.bind ha ?_
    rw [if_pos (by omega)]
    have := Rd.Says.bind (f := fun s => (pure (clip3 1 255 (cur + (if s ≠ 0 then -(d.natAbs : Int) else (d.natAbs : Int)) * 2 ^ h.deltaQRes)) : Rd Int))
      (Rd.Says.lit1 (L := cdfLayout k) (s := if d < 0 then 1 else 0) (by split <;> decide)) (Rd.Says.ret _)
    rw [sign_val, clip3_eq _ _ _ (by decide)] at this
    exact this

/-- **C121 (quantizer index, otherwise).**  Blocks after the first of a superblock, and a superblock that is one skipped block, keep
the quantizer index and read nothing. -/
theorem C121_qindex_keep (L : Layout) (h : MiHdr) (miSize skip : Nat) (cur : Int) (rd : Bool)
    (hs : rd = false ∨ (sizeDims miSize = some (if h.use128 then (128, 128) else (64, 64)) ∧ skip ≠ 0)) :
    (readDeltaQIndex h miSize skip rd cur).Says L [] cur := by
  unfold readDeltaQIndex
  rcases hs with rfl | ⟨h1, h2⟩
  · split
    · exact Rd.Says.ret _
    · rw [if_neg (by decide)]; exact Rd.Says.ret _
  · have hm' : miSize = sbBlockSize h.use128 := by
      have key : ∀ m : Fin 22, ∀ u : Bool, sizeDims m.val = some (if u then (128, 128) else (64, 64)) → m.val = sbBlockSize u := by decide
      have hm : miSize < 22 := by
        unfold sizeDims at h1
        cases hw : blockWidth[miSize]? with
        | none => rw [hw] at h1; cases h1
        | some w => exact (List.getElem?_eq_some_iff.mp hw).1
      exact key ⟨miSize, hm⟩ h.use128 h1
    rw [if_pos ⟨hm', h2⟩]
    exact Rd.Says.ret _

theorem lfSym_says (k : Fin 4) {multi : Bool} {i : Nat} (hi : i < 4) {s : Nat} (hs : s < 4) : (deltaLfSym multi i).Says (cdfLayout k) [s] s := by
  have i0 : ∀ k, cdfInfo k "DeltaLF" = some ([], .box [], 4) := by decide +kernel
  have i1 : ∀ k, cdfInfo k "DeltaLFMulti" = some ([4], .box [], 4) := by decide +kernel
  unfold deltaLfSym
  cases multi
  · exact Rd.Says.read (count0 k (i0 k)) hs
  · refine Rd.Says.read (n := 4) ?_ hs
    rw [count_eq k (i1 k)]
    have : (0 : Int) ≤ (i : Int) ∧ (i : Int) < 4 := by omega
    simp [stripPre, ravel, Dims.ravel, this]

theorem lfOne_says (k : Fin 4) (h : MiHdr) {lf : List Int} {i : Nat} (hi : i < 4) {c d : Int} (hc : lf[i]? = some c) (hd : d.natAbs ≤ 512) :
    (readDeltaLfOne h lf i).Says (cdfLayout k) (deltaCode d) (lf.set i (moved (-63) 63 c d h.deltaLfRes)) := by
  have ha : (readDeltaLfAbs h.deltaLfMulti i).Says (cdfLayout k) (deltaAbsCode d.natAbs) d.natAbs :=
    deltaAbs_says (fun s hs => lfSym_says k hi hs) hd
  unfold readDeltaLfOne deltaCode moved
  by_cases h0 : d = 0
  · subst h0
    rw [if_pos rfl, if_pos rfl]
    refine Rd.Says.bind ha ?_
    have hset : lf.set i c = lf := by
      obtain ⟨h1, h2⟩ := List.getElem?_eq_some_iff.mp hc
      rw [← h2]; exact List.set_getElem_self h1
    rw [if_neg (by decide), hset]
    exact Rd.Says.ret _
  · rw [if_neg h0, if_neg h0]
    refine Rd.Says.bind ha ?_
    rw [if_pos (by omega)]
    have hlt := (List.getElem?_eq_some_iff.mp hc).1
    refine Rd.Says.bind (m := [_]) (m' := []) (Rd.Says.lit1 (L := cdfLayout k) (s := if d < 0 then 1 else 0) (by split <;> decide)) ?_
    refine Rd.Says.lift (goGet_of' hc) ?_
    rw [sign_val, clip3_eq _ _ _ (by decide)]
    rw [goSet_lt' _ hlt]
    exact Rd.Says.ret _

theorem lfs_says (k : Fin 4) (h : MiHdr) (n : Nat) : ∀ (i : Nat) (lf ds : List Int), lf.length = 4 → ds.length = n → i + n ≤ 4 → (∀ d ∈ ds, d.natAbs ≤ 512) →
    ∃ lf', (readDeltaLfs h n i lf).Says (cdfLayout k) (ds.flatMap deltaCode) lf' ∧ lf'.length = 4 ∧
      ∀ j : Nat, lf'[j]? = if i ≤ j ∧ j < i + n then (ds[j - i]?).bind (fun d => (lf[j]?).map (fun c => moved (-63) 63 c d h.deltaLfRes)) else lf[j]? := by
  induction n with
  | zero =>
    intro i lf ds hl hn hi hd
    have : ds = [] := List.length_eq_zero_iff.mp hn
    subst this
    exact ⟨lf, Rd.Says.ret _, hl, fun j => by rw [if_neg (by omega)]⟩
  | succ n ih =>
    intro i lf ds hl hn hi hd
    match ds, hn with
    | d :: ds, hn =>
      have hlt : i < lf.length := by omega
      have hc : lf[i]? = some lf[i] := List.getElem?_eq_getElem hlt
      have one := lfOne_says k h (i := i) (by omega) hc (hd d (by simp))
      obtain ⟨lf', e, l', p⟩ := ih (i + 1) (lf.set i (moved (-63) 63 lf[i] d h.deltaLfRes)) ds (by rw [List.length_set]; exact hl) (by simpa using hn) (by omega) (fun x hx => hd x (by simp [hx]))
      refine ⟨lf', ?_, l', fun j => ?_⟩
      · rw [List.flatMap_cons]
        exact Rd.Says.bind one e
      · rw [p j]
        by_cases hj : j = i
        · subst hj
          rw [if_neg (by omega), if_pos (by omega), Nat.sub_self, List.getElem?_cons_zero, hc, List.getElem?_set_self hlt]
          rfl
        · rw [List.getElem?_set_ne (by omega)]
          by_cases hj' : i + 1 ≤ j ∧ j < i + 1 + n
          · rw [if_pos hj', if_pos (by omega), show j - i = (j - (i + 1)) + 1 by omega, List.getElem?_cons_succ]
          · rw [if_neg hj', if_neg (by omega)]

/-- How many loop filter deltas AV1 codes. -/
def lfCount (multi chroma : Bool) : Nat := if multi then (if chroma then 4 else 2) else 1

/-- **C121 (loop filter deltas).**  On AV1's codes of the deltas of a superblock, the decoder moves each loop filter delta by its number of
steps of `2^delta_lf_res`, within -63 to 63, and leaves the others as they are. -/
theorem C121_loop_filter (k : Fin 4) (h : MiHdr) (miSize skip : Nat) (lf ds : List Int) (hp : h.deltaLfPresent = true) (hl : lf.length = 4)
    (hn : ds.length = lfCount h.deltaLfMulti h.chroma) (hd : ∀ d ∈ ds, d.natAbs ≤ 512)
    (hs : ¬ (miSize = sbBlockSize h.use128 ∧ skip ≠ 0)) :
    ∃ lf', (readDeltaLf h miSize skip true lf).Says (cdfLayout k) (ds.flatMap deltaCode) lf' ∧ lf'.length = 4 ∧
      ∀ (j : Nat) (c : Int), lf[j]? = some c →
        lf'[j]? = some (match ds[j]? with | some d => moved (-63) 63 c d h.deltaLfRes | none => c) := by
  have hc : frameLfCount h = lfCount h.deltaLfMulti h.chroma := rfl
  have hle : lfCount h.deltaLfMulti h.chroma ≤ 4 := by unfold lfCount; split <;> (try split) <;> omega
  obtain ⟨lf', e, l', p⟩ := lfs_says k h _ 0 lf ds hl (hn.trans hc.symm) (by rw [hc]; omega) hd
  refine ⟨lf', ?_, l', fun j c hj => ?_⟩
  · unfold readDeltaLf
    rw [if_neg hs, if_pos ⟨rfl, hp⟩]
    exact e
  · rw [p j, hj]
    by_cases hlt : j < ds.length
    · rw [if_pos (by omega), Nat.sub_zero, List.getElem?_eq_getElem hlt]; rfl
    · rw [if_neg (by omega), List.getElem?_eq_none (by omega)]

/-- **C121 (loop filter, otherwise).**  Without coded deltas, for blocks after the first of a superblock and for a skipped superblock,
nothing is read and nothing changes. -/
theorem C121_loop_filter_keep (L : Layout) (h : MiHdr) (miSize skip : Nat) (lf : List Int) (rd : Bool)
    (hs : rd = false ∨ h.deltaLfPresent = false ∨ (miSize = sbBlockSize h.use128 ∧ skip ≠ 0)) :
    (readDeltaLf h miSize skip rd lf).Says L [] lf := by
  unfold readDeltaLf
  rcases hs with rfl | hp | h1
  · split
    · exact Rd.Says.ret _
    · rw [if_neg (by simp)]; exact Rd.Says.ret _
  · split
    · exact Rd.Says.ret _
    · rw [if_neg (by simp [hp])]; exact Rd.Says.ret _
  · rw [if_pos h1]; exact Rd.Says.ret _

example : (readDeltaQIndex { deltaQRes := 2 } 6 0 true 100).Says (cdfLayout 0) (deltaCode (-5)) 80 :=
  C121_qindex 0 _ 6 0 100 (-5) (by decide) (by decide)
example : deltaCode (-5) = [3, 0, 0, 1, 0, 0, 1] := by decide

/-! ## C122: segment ids -/

/-- `o` is the value of the array in the unit `(r, c)` if that unit is available, and then the value is not negative. -/
def NbVal (avail : Bool) (m : List (List Int)) (r c : Nat) (o : Option Int) : Prop :=
  if avail then ∃ v, 0 ≤ v ∧ at2 m r c = some v ∧ o = some v else o = none

/-- `u, l, ul` are the values of the array in the units above, left and above-left of the block. -/
structure Nbs (b : MiBlk) (m : List (List Int)) (u l ul : Option Int) : Prop where
  up : NbVal b.availU m (b.miRow - 1) b.miCol u
  left : NbVal b.availL m b.miRow (b.miCol - 1) l
  upLeft : NbVal (b.availU && b.availL) m (b.miRow - 1) (b.miCol - 1) ul
  row : b.availU = true → 1 ≤ b.miRow
  col : b.availL = true → 1 ≤ b.miCol

theorem prevs_eq {b : MiBlk} {m : List (List Int)} {u l ul : Option Int} (h : Nbs b m u l ul) :
    segPrevU b m = .ok (u.getD (-1)) ∧ segPrevL b m = .ok (l.getD (-1)) ∧ segPrevUL b m = .ok (ul.getD (-1)) := by
  obtain ⟨h1, h2, h3, hr, hc⟩ := h
  unfold segPrevU segPrevL segPrevUL
  unfold NbVal at h1 h2 h3
  refine ⟨?_, ?_, ?_⟩
  · cases hu : b.availU
    · rw [hu] at h1; simp only [Bool.false_eq_true, if_false] at h1 ⊢; rw [h1]; rfl
    · rw [hu] at h1; simp only [if_true] at h1 ⊢
      obtain ⟨v, -, e, rfl⟩ := h1
      have := hr hu
      rw [show ((b.miRow : Int) - 1) = ((b.miRow - 1 : Nat) : Int) by omega]
      exact gget_at2 e
  · cases hu : b.availL
    · rw [hu] at h2; simp only [Bool.false_eq_true, if_false] at h2 ⊢; rw [h2]; rfl
    · rw [hu] at h2; simp only [if_true] at h2 ⊢
      obtain ⟨v, -, e, rfl⟩ := h2
      have := hc hu
      rw [show ((b.miCol : Int) - 1) = ((b.miCol - 1 : Nat) : Int) by omega]
      exact gget_at2 e
  · cases hu : b.availU
    · rw [hu] at h3; simp only [Bool.false_and, Bool.false_eq_true, if_false, false_and] at h3 ⊢; rw [h3]; rfl
    · cases hv : b.availL
      · rw [hu, hv] at h3; simp only [Bool.and_false, Bool.false_eq_true, if_false, and_false] at h3 ⊢; rw [h3]; rfl
      · rw [hu, hv] at h3; simp only [Bool.and_self, if_true, and_self] at h3 ⊢
        obtain ⟨v, -, e, rfl⟩ := h3
        have := hc hv
        have := hr hu
        rw [show ((b.miCol : Int) - 1) = ((b.miCol - 1 : Nat) : Int) by omega, show ((b.miRow : Int) - 1) = ((b.miRow - 1 : Nat) : Int) by omega]
        exact gget_at2 e

theorem NbVal.nonneg {avail : Bool} {m : List (List Int)} {r c : Nat} {o : Option Int} (h : NbVal avail m r c o) : ∀ v ∈ o, 0 ≤ v := by
  unfold NbVal at h
  intro v hv
  cases avail
  · simp only [Bool.false_eq_true, if_false] at h; subst h; cases hv
  · simp only [if_true] at h
    obtain ⟨w, hw, -, rfl⟩ := h
    cases hv; exact hw

theorem NbVal.isSome {avail : Bool} {m : List (List Int)} {r c : Nat} {o : Option Int} (h : NbVal avail m r c o) : o.isSome = avail := by
  unfold NbVal at h
  cases avail
  · simp only [Bool.false_eq_true, if_false] at h; subst h; rfl
  · simp only [if_true] at h
    obtain ⟨w, hw, -, rfl⟩ := h
    rfl

theorem segOf_eq {b : MiBlk} {m : List (List Int)} {u l ul : Option Int} (h : Nbs b m u l ul) :
    segPredOf (u.getD (-1)) (l.getD (-1)) (ul.getD (-1)) = segPred u l ul ∧
    segCtxOf (u.getD (-1)) (l.getD (-1)) (ul.getD (-1)) = (segCtx u l ul : Int) ∧ segCtx u l ul < 3 := by
  have hu := h.up.nonneg
  have hl := h.left.nonneg
  have hul := h.upLeft.nonneg
  have s1 := h.up.isSome
  have s2 := h.left.isSome
  have s3 := h.upLeft.isSome
  rw [← s1, ← s2] at s3
  match u, l, ul with
  | none, none, none => exact ⟨rfl, rfl, by decide⟩
  | none, none, some c => cases s3
  | none, some y, some c => cases s3
  | some x, none, some c => cases s3
  | some x, some y, none => cases s3
  | none, some y, none =>
    have := hl y rfl
    refine ⟨?_, rfl, (show 0 < 3 by decide)⟩
    show segPredOf (-1) y (-1) = y
    unfold segPredOf; rw [if_pos rfl, if_neg (by omega)]
  | some x, none, none =>
    have := hu x rfl
    refine ⟨?_, rfl, (show 0 < 3 by decide)⟩
    show segPredOf x (-1) (-1) = x
    unfold segPredOf; rw [if_neg (by omega), if_pos rfl]
  | some x, some y, some c =>
    have := hu x rfl
    have := hl y rfl
    have := hul c rfl
    simp only [Option.getD_some]
    unfold segPredOf segCtxOf segPred segCtx
    simp only [Option.some.injEq]
    refine ⟨?_, ?_, ?_⟩
    · rw [if_neg (by omega), if_neg (by omega)]
    · rw [if_neg (by omega)]
      split <;> split <;> (try split) <;> (try split) <;> first | rfl | omega
    · split <;> (try split) <;> omega

/-- **C122 (prediction and context).**  What a segment id is predicted from and the context of its symbol are as in AV1; a skipped block
takes the predicted id and reads nothing.  Missing: the id itself, see below. -/
theorem C122_context_partial (h : MiHdr) {b : MiBlk} {ids : List (List Int)} {u l ul : Option Int} (hn : Nbs b ids u l ul) :
    readSegmentId h b ids 0 = (Rd.read "SegmentId" [(segCtx u l ul : Int)] >>= fun s =>
      Rd.ret (negDeinterleave (s : Int) (segPred u l ul) ((h.lastActiveSegId : Int) + 1))) ∧
    readSegmentId h b ids 1 = Rd.ret (segPred u l ul) := by
  obtain ⟨e1, e2, e3⟩ := prevs_eq hn
  obtain ⟨s1, s2, -⟩ := segOf_eq hn
  unfold readSegmentId
  rw [e1, e2, e3]
  rw [← s1, ← s2]
  exact ⟨rfl, rfl⟩

/-- **C122 (the id)** (missing: predicted ids of 2 and more, see `C122_same_refuted`).  If the predicted id is 0 or 1, a symbol that does not
exceed the last active segment is decoded to AV1's segment id. -/
theorem C122_id_partial (k : Fin 4) (h : MiHdr) {b : MiBlk} {ids : List (List Int)} {u l ul : Option Int} (hn : Nbs b ids u l ul)
    (hp : segPred u l ul = 0 ∨ segPred u l ul = 1) (s : Nat) (hs : s ≤ h.lastActiveSegId) (h8 : s < 8) (hps : segPred u l ul ≤ h.lastActiveSegId) :
    (readSegmentId h b ids 0).Says (cdfLayout k) [s] (segIdOf s (segPred u l ul) h.lastActiveSegId) := by
  have i : ∀ k, cdfInfo k "SegmentId" = some ([], .box [3], 8) := by decide +kernel
  rw [(C122_context_partial h hn).1]
  have hc := (segOf_eq hn).2.2
  have := Rd.Says.bind (f := fun (s : Nat) => Rd.ret (negDeinterleave (s : Int) (segPred u l ul) ((h.lastActiveSegId : Int) + 1)))
    (Rd.Says.read (L := cdfLayout k) (count1 k (i k) (i := (segCtx u l ul : Int)) (by omega)) h8) (Rd.Says.ret _)
  have hneg := C13_negDeinterleave_partial (segPred u l ul) ((h.lastActiveSegId : Int) + 1) (s : Int) hp (by omega) (by omega)
  have hr := C13_negDeinterleave_range (segPred u l ul) ((h.lastActiveSegId : Int) + 1) (s : Int) (by omega) (by omega) (by omega)
  unfold segIdOf
  rw [← hneg, show max 0 (min (h.lastActiveSegId : Int) (negDeinterleave (s : Int) (segPred u l ul) ((h.lastActiveSegId : Int) + 1))) =
    negDeinterleave (s : Int) (segPred u l ul) ((h.lastActiveSegId : Int) + 1) by omega]
  exact this

/-- **C122, refuted (same segment as predicted).**  Symbol 0 means the predicted id; whenever that is 2 or more, the decoder returns 0. -/
theorem C122_same_refuted (k : Fin 4) (h : MiHdr) {b : MiBlk} {ids : List (List Int)} {u l ul : Option Int} (hn : Nbs b ids u l ul)
    (hp : 2 ≤ segPred u l ul) (hl : segPred u l ul ≤ h.lastActiveSegId) :
    (readSegmentId h b ids 0).Says (cdfLayout k) [0] 0 ∧ segIdOf 0 (segPred u l ul) h.lastActiveSegId = segPred u l ul := by
  have i : ∀ k, cdfInfo k "SegmentId" = some ([], .box [3], 8) := by decide +kernel
  have hc := (segOf_eq hn).2.2
  constructor
  · rw [(C122_context_partial h hn).1]
    have := Rd.Says.bind (f := fun (s : Nat) => Rd.ret (negDeinterleave (s : Int) (segPred u l ul) ((h.lastActiveSegId : Int) + 1)))
      (Rd.Says.read (L := cdfLayout k) (count1 k (i k) (i := (segCtx u l ul : Int)) (by omega)) (s := 0) (by decide)) (Rd.Says.ret _)
    rw [show negDeinterleave ((0 : Nat) : Int) (segPred u l ul) ((h.lastActiveSegId : Int) + 1) = 0 by
      unfold negDeinterleave; rw [if_pos (by omega)]; rfl] at this
    exact this
  · unfold segIdOf Spec.negDeinterleave
    rw [if_neg (by omega)]
    split
    · omega
    · split
      · rw [if_pos (by omega), if_neg (by omega)]; omega
      · rw [if_pos (by omega), if_neg (by omega)]; omega

/-- **C122, refuted (ids beyond the last active segment).**  AV1 never yields an id above the last active one; the decoder does, for every
symbol above it, where 0 is predicted. -/
theorem C122_clip_refuted (k : Fin 4) (h : MiHdr) {b : MiBlk} {ids : List (List Int)} {u l ul : Option Int} (hn : Nbs b ids u l ul)
    (hp : segPred u l ul = 0) (s : Nat) (hs : h.lastActiveSegId < s) (h8 : s < 8) :
    (readSegmentId h b ids 0).Says (cdfLayout k) [s] s ∧ segIdOf s (segPred u l ul) h.lastActiveSegId ≤ h.lastActiveSegId := by
  have i : ∀ k, cdfInfo k "SegmentId" = some ([], .box [3], 8) := by decide +kernel
  have hc := (segOf_eq hn).2.2
  constructor
  · rw [(C122_context_partial h hn).1]
    have := Rd.Says.bind (f := fun (s : Nat) => Rd.ret (negDeinterleave (s : Int) (segPred u l ul) ((h.lastActiveSegId : Int) + 1)))
      (Rd.Says.read (L := cdfLayout k) (count1 k (i k) (i := (segCtx u l ul : Int)) (by omega)) h8) (Rd.Says.ret _)
    rw [show negDeinterleave (s : Int) (segPred u l ul) ((h.lastActiveSegId : Int) + 1) = s by
      unfold negDeinterleave; rw [if_pos (by omega)]] at this
    exact this
  · unfold segIdOf; omega

/-- An array and a block with all neighbours. -/
theorem nbs_example : Nbs { miRow := 1, miCol := 1, availU := true, availL := true } [[2, 3], [4, 0]] (some 3) (some 4) (some 2) where
  up := ⟨3, by decide, rfl, rfl⟩
  left := ⟨4, by decide, rfl, rfl⟩
  upLeft := ⟨2, by decide, rfl, rfl⟩
  row := fun _ => by decide
  col := fun _ => by decide
example : segPred (some 3) (some 4) (some 2) = 4 ∧ segCtx (some 3) (some 4) (some 2) = 0 := by decide
example : (readSegmentId { lastActiveSegId := 7 } { miRow := 1, miCol := 1, availU := true, availL := true } [[2, 3], [4, 0]] 0).Says (cdfLayout 0) [0] 0 :=
  (C122_same_refuted 0 _ nbs_example (by decide) (by decide)).1

/-! ## C123: intra prediction modes -/

theorem modeClass_table : ∀ m : Fin 13, intraModeContext[m.val]? = some (modeClass m.val) := by decide

/-- The class of a neighbour's mode, that of `DC_PRED` if there is none. -/
def nbClass : Option Int → Nat
  | some m => modeClass m.toNat
  | none => 0

/-- **C123 (luma mode).**  The luma mode of a block of an intra frame is read with the classes of the modes above and left as contexts, and every mode
comes back. -/
theorem C123_y_mode (k : Fin 4) {b : MiBlk} {ms : List (List Int)} {u l : Option Int} (hu : NbVal b.availU ms (b.miRow - 1) b.miCol u)
    (hl : NbVal b.availL ms b.miRow (b.miCol - 1) l) (hr : b.availU = true → 1 ≤ b.miRow) (hc : b.availL = true → 1 ≤ b.miCol)
    (hu13 : ∀ m ∈ u, m < 13) (hl13 : ∀ m ∈ l, m < 13) :
    intraFrameYMode b ms = Rd.read "IntraFrameYMode" [(nbClass u : Int), (nbClass l : Int)] ∧
    ∀ m < 13, (intraFrameYMode b ms).Says (cdfLayout k) [m] m := by
  have ha : aboveModeCtx b ms = .ok (nbClass u) := by
    have hn := hu.nonneg
    unfold aboveModeCtx
    unfold NbVal at hu
    cases hv : b.availU
    · rw [hv] at hu; simp only [Bool.false_eq_true, if_false] at hu ⊢; subst hu; rfl
    · rw [hv] at hu; simp only [if_true] at hu ⊢
      obtain ⟨v, h0, e, rfl⟩ := hu
      have := hr hv
      have h13 := hu13 v rfl
      rw [show ((b.miRow : Int) - 1) = ((b.miRow - 1 : Nat) : Int) by omega, gget_at2 e, Res.ok_bind]
      have := goGet_of' (modeClass_table ⟨v.toNat, by omega⟩)
      rw [show ((v.toNat : Nat) : Int) = v by omega] at this
      exact this
  have hb : leftModeCtx b ms = .ok (nbClass l) := by
    unfold leftModeCtx
    unfold NbVal at hl
    cases hv : b.availL
    · rw [hv] at hl; simp only [Bool.false_eq_true, if_false] at hl ⊢; subst hl; rfl
    · rw [hv] at hl; simp only [if_true] at hl ⊢
      obtain ⟨v, h0, e, rfl⟩ := hl
      have := hc hv
      have h13 := hl13 v rfl
      rw [show ((b.miCol : Int) - 1) = ((b.miCol - 1 : Nat) : Int) by omega, gget_at2 e, Res.ok_bind]
      have := goGet_of' (modeClass_table ⟨v.toNat, by omega⟩)
      rw [show ((v.toNat : Nat) : Int) = v by omega] at this
      exact this
  have e : intraFrameYMode b ms = Rd.read "IntraFrameYMode" [(nbClass u : Int), (nbClass l : Int)] := by
    unfold intraFrameYMode
    rw [ha, hb]; rfl
  have cl : ∀ o, nbClass o < 5 := by
    intro o; unfold nbClass modeClass; split
    · split
      · decide
      · split
        · decide
        · split
          · decide
          · split <;> decide
    · decide
  refine ⟨e, fun m hm => ?_⟩
  rw [e]
  have i : ∀ k, cdfInfo k "IntraFrameYMode" = some ([], .box [5, 5], 13) := by decide +kernel
  have h1 := cl u
  have h2 := cl l
  exact Rd.Says.read (count2 k (i k) (by omega) (by omega)) hm

/-- **C123 (angles).**  A block of at least 8x8 (or 4x16, 16x4) with a directional mode reads an angle delta from -3 to 3, with the mode as the
context; all other blocks read nothing and have delta 0. -/
theorem C123_angle (k : Fin 4) {miSize mode : Nat} {d : Nat × Nat} (hd : sizeDims miSize = some d) :
    (d ∉ [(4, 4), (4, 8), (8, 4)] → 1 ≤ mode → mode ≤ 8 →
      intraAngleInfo miSize mode = (Rd.read "AngleDelta" [(mode : Int) - 1] >>= fun a => Rd.ret ((a : Int) - 3)) ∧
      ∀ a : Int, -3 ≤ a → a ≤ 3 → (intraAngleInfo miSize mode).Says (cdfLayout k) [(a + 3).toNat] a) ∧
    (d ∈ [(4, 4), (4, 8), (8, 4)] ∨ mode = 0 ∨ 9 ≤ mode → intraAngleInfo miSize mode = Rd.ret 0) := by
  have hm : miSize < 22 := by
    unfold sizeDims at hd
    cases hw : blockWidth[miSize]? with
    | none => rw [hw] at hd; cases hd
    | some w => exact (List.getElem?_eq_some_iff.mp hw).1
  have key : ∀ m : Fin 22, ((∃ d, sizeDims m.val = some d ∧ d ∈ [(4, 4), (4, 8), (8, 4)]) ↔ m.val < 3) := by
    intro m
    have : ∀ m : Fin 22, (match sizeDims m.val with | some d => decide (d ∈ [(4, 4), (4, 8), (8, 4)]) | none => false) = decide (m.val < 3) := by decide
    have := this m
    constructor
    · rintro ⟨d, e, h⟩
      rw [e] at this
      simpa [h] using this
    · intro h
      cases e : sizeDims m.val with
      | none => rw [e] at this; simp [h] at this
      | some d => rw [e] at this; simp only [h, decide_true, decide_eq_true_eq] at this; exact ⟨d, rfl, this⟩
  have hk := key ⟨miSize, hm⟩
  have hk' : d ∈ [(4, 4), (4, 8), (8, 4)] ↔ miSize < 3 := by
    rw [← hk]
    exact ⟨fun h => ⟨d, hd, h⟩, fun ⟨d', e, h⟩ => by rw [hd] at e; cases e; exact h⟩
  constructor
  · intro h1 h2 h3
    have hge : 3 ≤ miSize := by
      by_contra h
      exact h1 (hk'.mpr (by omega))
    have hdir : isDirectionalMode mode = true := by unfold isDirectionalMode; simp [h2, h3]
    have e : intraAngleInfo miSize mode = (Rd.read "AngleDelta" [(mode : Int) - 1] >>= fun a => Rd.ret ((a : Int) - 3)) := by
      unfold intraAngleInfo
      rw [if_pos hge, if_pos hdir]; rfl
    refine ⟨e, fun a ha1 ha2 => ?_⟩
    rw [e]
    have i : ∀ k, cdfInfo k "AngleDelta" = some ([], .box [8], 7) := by decide +kernel
    have := Rd.Says.bind (f := fun (a : Nat) => Rd.ret ((a : Int) - 3)) (Rd.Says.read (L := cdfLayout k) (count1 k (i k) (i := (mode : Int) - 1) (by omega))
      (s := (a + 3).toNat) (by omega)) (Rd.Says.ret _)
    rw [show (((a + 3).toNat : Nat) : Int) - 3 = a by omega] at this
    exact this
  · intro h
    unfold intraAngleInfo
    rcases h with h | h | h
    · rw [if_neg (by have := hk'.mp h; omega)]; rfl
    · subst h; split <;> rfl
    · split
      · rw [if_neg (by unfold isDirectionalMode; simp; omega)]; rfl
      · rfl

theorem cfl_table : ∀ m : Fin 22, ∀ l : Bool, ∀ sx sy : Fin 2, (sx.val, sy.val) ≠ (0, 1) →
    (match sizeDims m.val, cflAllowed cflLimInterFrame { subX := sx, subY := sy } m.val l with
      | some d, .ok a => a == cflPossible d.1 d.2 sx sy l | _, _ => false) = true := by
  decide +kernel

/-- **C123 (chroma from luma).**  In inter frames, whether the chroma mode is read from the array with chroma from luma is as in AV1, for all block
sizes, subsamplings and lossless modes. -/
theorem C123_cfl_inter_frame (h : MiHdr) {miSize : Nat} {d : Nat × Nat} (hd : sizeDims miSize = some d) (hsx : h.subX < 2) (hsy : h.subY < 2)
    (hs : (h.subX, h.subY) ≠ (0, 1)) (lossless : Bool) (yMode : Nat) :
    readUvMode cflLimInterFrame h miSize lossless yMode =
      Rd.read (if cflPossible d.1 d.2 h.subX h.subY lossless then "UVModeCflAllowed" else "UVModeCflNotAllowed") [(yMode : Int)] := by
  have hm : miSize < 22 := by
    unfold sizeDims at hd
    cases hw : blockWidth[miSize]? with
    | none => rw [hw] at hd; cases hd
    | some w => exact (List.getElem?_eq_some_iff.mp hw).1
  have t := cfl_table ⟨miSize, hm⟩ lossless ⟨h.subX, hsx⟩ ⟨h.subY, hsy⟩ hs
  dsimp only at t
  rw [hd] at t
  have e : cflAllowed cflLimInterFrame h miSize lossless = .ok (cflPossible d.1 d.2 h.subX h.subY lossless) := by
    have e' : cflAllowed cflLimInterFrame h miSize lossless = cflAllowed cflLimInterFrame { subX := h.subX, subY := h.subY } miSize lossless := rfl
    rw [e']
    split at t
    · rename_i d' a h1 h2
      cases h1
      rw [h2, eq_of_beq t]
    · cases t
  unfold readUvMode
  rw [e]
  show (if cflPossible d.1 d.2 h.subX h.subY lossless = true then _ else _) = _
  split <;> rfl

/-- **C123, refuted (chroma from luma in intra frames).**  In intra frames the decoder reads the chroma mode of every lossy block with a longer
side of 32 from the array without chroma from luma, although AV1 allows it there. -/
theorem C123_cfl_refuted (h : MiHdr) {miSize : Nat} {d : Nat × Nat} (hd : sizeDims miSize = some d) (h32 : max d.1 d.2 = 32) (yMode : Nat) :
    readUvMode cflLimIntraFrame h miSize false yMode = Rd.read "UVModeCflNotAllowed" [(yMode : Int)] ∧
      cflPossible d.1 d.2 h.subX h.subY false = true := by
  have e : cflAllowed cflLimIntraFrame h miSize false = .ok false := by
    unfold sizeDims at hd
    cases hw : blockWidth[miSize]? with
    | none => rw [hw] at hd; cases hd
    | some w =>
      cases hh : blockHeight[miSize]? with
      | none => rw [hw, hh] at hd; cases hd
      | some ht =>
        rw [hw, hh] at hd
        cases hd
        unfold cflAllowed
        rw [if_neg (by decide), goGet_of' hw, Res.ok_bind, goGet_of' hh, Res.ok_bind]
        show Except.ok (cflLimIntraFrame (max w ht)) = _
        dsimp only at h32
        rw [h32]; rfl
  constructor
  · unfold readUvMode
    rw [e]; rfl
  · unfold cflPossible
    rw [if_neg (by decide)]
    simp; omega

/-- **C123 (chroma from luma, otherwise).**  In intra frames the choice is AV1's for all other blocks. -/
theorem C123_cfl_intra_frame_partial (h : MiHdr) {miSize : Nat} {d : Nat × Nat} (hd : sizeDims miSize = some d) (hsx : h.subX < 2) (hsy : h.subY < 2)
    (hs : (h.subX, h.subY) ≠ (0, 1)) (lossless : Bool) (h32 : lossless = true ∨ max d.1 d.2 ≠ 32) (yMode : Nat) :
    readUvMode cflLimIntraFrame h miSize lossless yMode =
      Rd.read (if cflPossible d.1 d.2 h.subX h.subY lossless then "UVModeCflAllowed" else "UVModeCflNotAllowed") [(yMode : Int)] := by
  rw [← C123_cfl_inter_frame h hd hsx hsy hs]
  unfold readUvMode
  congr 2
  unfold cflAllowed
  cases lossless
  · rcases h32 with h | h
    · cases h
    · unfold sizeDims at hd
      cases hw : blockWidth[miSize]? with
      | none => rw [hw] at hd; cases hd
      | some w =>
        cases hh : blockHeight[miSize]? with
        | none => rw [hw, hh] at hd; cases hd
        | some ht =>
          rw [hw, hh] at hd
          cases hd
          rw [if_neg (by decide), if_neg (by decide), goGet_of' hw, Res.ok_bind, goGet_of' hh, Res.ok_bind, Res.ok_bind, Res.ok_bind]
          dsimp only at h
          have : cflLimIntraFrame (max w ht) = cflLimInterFrame (max w ht) := by
            unfold cflLimIntraFrame cflLimInterFrame
            apply Bool.eq_iff_iff.mpr
            simp only [decide_eq_true_eq]
            omega
          rw [this]
  · rfl

example : sizeDims 9 = some (32, 32) := by decide

/-! ## C128: chroma from luma alphas -/

theorem alpha_says (k : Fin 4) {sign other : Nat} (hs : sign < 3) (ho : other < 3) (h0 : sign ≠ 0) {a : Nat} (ha : a < 16) :
    (readCflAlpha sign other).Says (cdfLayout k) [a] (if sign = 2 then -(1 + (a : Int)) else 1 + (a : Int)) := by
  have i : ∀ k, cdfInfo k "CflAlpha" = some ([], .box [6], 16) := by decide +kernel
  unfold readCflAlpha
  rw [if_pos h0]
  have := Rd.Says.bind (f := fun (a : Nat) => (pure (if sign = 2 then -(1 + (a : Int)) else 1 + (a : Int)) : Rd Int))
    (Rd.Says.read (L := cdfLayout k) (count1 k (i k) (i := ((sign : Int) - 1) * 3 + (other : Int)) (by omega)) ha) (Rd.Says.ret _)
  exact this

/-- One alpha: decoded with the opposite sign. -/
theorem alpha_neg (k : Fin 4) {a b : Int} (ha : a.natAbs ≤ 16) :
    (readCflAlpha (cflSign a) (cflSign b)).Says (cdfLayout k) (if a = 0 then [] else [a.natAbs - 1]) (-a) := by
  have hs : ∀ x : Int, cflSign x < 3 := fun x => by unfold cflSign; split <;> (try split) <;> decide
  by_cases h0 : a = 0
  · subst h0; rfl
  · rw [if_neg h0]
    have hn : cflSign a ≠ 0 := by unfold cflSign; rw [if_neg h0]; split <;> decide
    have := alpha_says k (hs a) (hs b) hn (a := a.natAbs - 1) (by omega)
    have e : (if cflSign a = 2 then -(1 + ((a.natAbs - 1 : Nat) : Int)) else 1 + ((a.natAbs - 1 : Nat) : Int)) = -a := by
      unfold cflSign
      rw [if_neg h0]
      by_cases hneg : a < 0
      · rw [if_pos hneg, if_neg (by decide)]; omega
      · rw [if_neg hneg, if_pos rfl]; omega
    rwa [e] at this

/-- **C128, refuted.**  On AV1's code of the alphas `(u, v)` the decoder returns `(-u, -v)`: every sign is wrong. -/
theorem C128_sign_refuted (k : Fin 4) (u v : Int) (hu : u.natAbs ≤ 16) (hv : v.natAbs ≤ 16) (h0 : ¬ (u = 0 ∧ v = 0)) :
    readCflAlphas.Says (cdfLayout k) (cflCode u v) (-u, -v) := by
  have i : ∀ k, cdfInfo k "CflSign" = some ([], .box [], 8) := by decide +kernel
  have hs : ∀ x : Int, cflSign x < 3 := fun x => by unfold cflSign; split <;> (try split) <;> decide
  have hz : ∀ x : Int, cflSign x = 0 → x = 0 := fun x h => by
    unfold cflSign at h
    by_contra hx
    rw [if_neg hx] at h
    split at h <;> cases h
  have h1 := hs u
  have h2 := hs v
  have h3 : ¬ (cflSign u = 0 ∧ cflSign v = 0) := fun h => h0 ⟨hz u h.1, hz v h.2⟩
  unfold readCflAlphas cflCode
  refine Rd.Says.bind (m := [_]) (Rd.Says.read (count0 k (i k)) (s := cflSign u * 3 + cflSign v - 1) (by omega)) ?_
  dsimp only
  rw [show (cflSign u * 3 + cflSign v - 1 + 1) / 3 = cflSign u by omega, show (cflSign u * 3 + cflSign v - 1 + 1) % 3 = cflSign v by omega]
  refine Rd.Says.bind (alpha_neg k hu) ?_
  have := Rd.Says.bind (f := fun v' => (pure (-u, v') : Rd (Int × Int))) (alpha_neg k (b := u) hv) (Rd.Says.ret _)
  rwa [List.append_nil] at this

/-- **C128, what holds.**  The sizes of both alphas are as coded, and nothing but the code is read. -/
theorem C128_partial (k : Fin 4) (u v : Int) (hu : u.natAbs ≤ 16) (hv : v.natAbs ≤ 16) (h0 : ¬ (u = 0 ∧ v = 0)) :
    ∃ u' v', readCflAlphas.Says (cdfLayout k) (cflCode u v) (u', v') ∧ u'.natAbs = u.natAbs ∧ v'.natAbs = v.natAbs :=
  ⟨-u, -v, C128_sign_refuted k u v hu hv h0, by omega, by omega⟩

example : cflCode 3 (-2) = [6, 2, 1] := by decide

end Gov1
