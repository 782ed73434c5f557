import Verif.Spec.FrameHeader
import Verif.Lemmas.MapBM
import Verif.Model.FrameHeader
import Mathlib.Tactic.ByContra
/-! # C32, C33, C67, C68, C69: loop filter, CDEF and loop restoration parameters -/
namespace Gov1
open Spec

/-! ## C32, C67: loop filter -/

/-- C32 is false of the code: for every lossless or intra-block-copy frame no bits are read, but the
second filter level is 1, not 0. -/
theorem C32_lossless_levels_refuted (old : LoopFilter) (hl : old.level.length = 4) (cl ibc : Bool)
    (h : cl = true ∨ ibc = true) (n : Nat) (s : BitStream) :
    ∃ lf, loopFilterParams old cl ibc n s = .ok (lf, s) ∧ lf.level.getD 0 9 = 0 ∧
      lf.level.getD 1 9 = 1 ∧ lf.refDeltas = [1, 0, 0, 0, -1, 0, -1, -1] ∧ lf.modeDeltas = [0, 0] := by
  have hc : (cl || ibc) = true := by rcases h with h | h <;> simp [h]
  refine ⟨⟨(old.level.set 0 0).set 1 1, defaultRefDeltas, [0, 0], old.sharpness, old.deltaEnabled, old.deltaUpdate⟩,
    ?_, ?_, ?_, rfl, rfl⟩
  · unfold loopFilterParams; rw [if_pos hc]; rfl
  · simp [List.getD, List.getElem?_set, hl]
  · simp [List.getD, List.getElem?_set, hl]

theorem lfDelta_good (old : Int) (h : -64 ≤ old ∧ old < 64) :
    Good (lfDelta old) 8 (fun v => -64 ≤ v ∧ v < 64) := by
  unfold lfDelta
  refine Good.bind' 1 7 (Good.F 1) (fun u _ => ?_) (by omega)
  refine Good.ite (fun _ => (Good.su 7 (by omega)).mono (by omega) fun v hv => ?_) fun _ => Good.pure (a := old) h _
  simpa using hv

/-- Loop filter fields within their ranges. -/
structure LfOk (lf : LoopFilter) : Prop where
  level : lf.level.length = 4 ∧ ∀ l ∈ lf.level, l < 64
  refs : lf.refDeltas.length = 8 ∧ ∀ d ∈ lf.refDeltas, -64 ≤ d ∧ d < 64
  modes : lf.modeDeltas.length = 2 ∧ ∀ d ∈ lf.modeDeltas, -64 ≤ d ∧ d < 64

theorem mem_set {α : Type} {l : List α} {i : Nat} {x a : α} (h : a ∈ l.set i x) : a ∈ l ∨ a = x := by
  induction l generalizing i with
  | nil => simp at h
  | cons y l ih =>
    cases i with
    | zero => rcases List.mem_cons.mp h with h | h
              · exact Or.inr h
              · exact Or.inl (List.mem_cons_of_mem _ h)
    | succ i => rcases List.mem_cons.mp h with h | h
                · exact Or.inl (h ▸ List.mem_cons_self ..)
                · rcases ih h with h | h
                  · exact Or.inl (List.mem_cons_of_mem _ h)
                  · exact Or.inr h

theorem level_set {l : List Nat} {i x : Nat} (h : l.length = 4 ∧ ∀ a ∈ l, a < 64) (hx : x < 64) :
    (l.set i x).length = 4 ∧ ∀ a ∈ l.set i x, a < 64 :=
  ⟨by simpa using h.1, fun a ha => (mem_set ha).elim (fun h' => h.2 a h') (fun h' => h' ▸ hx)⟩

theorem loopFilter_good (old : LoopFilter) (ho : LfOk old) (cl ibc : Bool) (n : Nat) :
    Good (loopFilterParams old cl ibc n) 112 LfOk := by
  unfold loopFilterParams
  have hdef : ∀ d ∈ defaultRefDeltas, -64 ≤ d ∧ d < 64 := by decide
  refine Good.ite (fun _ => Good.pure ?_ _) fun _ => ?_
  · refine ⟨level_set (level_set ho.level (by omega)) (by omega), ⟨rfl, hdef⟩, rfl, ?_⟩
    intro d hd; simp at hd; subst hd; omega
  refine Good.bind' 6 106 (Good.F 6) (fun l0 h0 => ?_) (by omega)
  refine Good.bind' 6 100 (Good.F 6) (fun l1 h1 => ?_) (by omega)
  dsimp only
  refine Good.bind' 12 88 (P := fun l : List Nat => l.length = 4 ∧ ∀ a ∈ l, a < 64) ?_ (fun lv hlv => ?_) (by omega)
  · refine Good.ite (fun _ => ?_) fun _ =>
      Good.pure (a := (old.level.set 0 l0).set 1 l1) (level_set (level_set ho.level (by omega)) (by omega)) _
    refine Good.bind' 6 6 (Good.F 6) (fun l2 h2 => ?_) (by omega)
    refine Good.bind' 6 0 (Good.F 6) (fun l3 h3 => Good.pure ?_ _) (by omega)
    exact level_set (level_set (level_set (level_set ho.level (by omega)) (by omega)) (by omega)) (by omega)
  refine Good.bind' 6 82 (Good.F 6) (fun sh _ => ?_) (by omega)
  refine Good.bind' 1 81 Good.flag (fun de _ => ?_) (by omega)
  refine Good.ite (fun _ => ?_) fun _ => Good.pure ⟨hlv, ho.refs, ho.modes⟩ _
  refine Good.bind' 1 80 (Good.F 1) (fun du _ => ?_) (by omega)
  refine Good.ite (fun _ => ?_) fun _ => Good.pure ⟨hlv, ho.refs, ho.modes⟩ _
  have hm := fun (l : List Int) (h : ∀ d ∈ l, -64 ≤ d ∧ d < 64) =>
    Good.mapBM (f := lfDelta) (P := fun _ v => -64 ≤ v ∧ v < 64) 8 l fun d hd => lfDelta_good d (h d hd)
  refine Good.bind' 64 16 ((hm _ ho.refs.2).mono (by rw [ho.refs.1]; omega) fun _ h => h) (fun rd hrd => ?_) (by omega)
  refine Good.bind' 16 0 ((hm _ ho.modes.2).mono (by rw [ho.modes.1]; omega) fun _ h => h) (fun md hmd => ?_) (by omega)
  refine Good.pure ⟨hlv, ⟨by rw [hrd.length, ho.refs.1], fun d hd => ?_⟩, by rw [hmd.length, ho.modes.1],
    fun d hd => ?_⟩ _
  · obtain ⟨_, _, h⟩ := hrd.mem d hd; exact h
  · obtain ⟨_, _, h⟩ := hmd.mem d hd; exact h

/-- C32 (partial: the zero levels of lossless frames are missing): from any state with fields in range
and whatever the bits, all levels are below 64 and all deltas 7-bit signed; 112 bits suffice. -/
theorem C32_loop_filter_partial (old : LoopFilter) (ho : LfOk old) (cl ibc : Bool) (n : Nat)
    (s : BitStream) :
    (112 ≤ (unread s).length → ∃ lf s', loopFilterParams old cl ibc n s = .ok (lf, s')) ∧
    ∀ lf s', loopFilterParams old cl ibc n s = .ok (lf, s') → LfOk lf := by
  have hG := loopFilter_good old ho cl ibc n
  refine ⟨fun h => ?_, fun p s' h => hG.2 s p s' h⟩
  obtain ⟨a, k, _, h2, _⟩ := hG.1 s h
  exact ⟨a, _, h2⟩

/-- The state a frame without primary reference starts from meets the hypothesis. -/
theorem initialLf_ok : LfOk initialLoopFilter := by
  refine ⟨⟨rfl, ?_⟩, ⟨rfl, ?_⟩, rfl, ?_⟩ <;> decide
example : LfOk initialLoopFilter := initialLf_ok

/-- What coded deltas make of the previous ones. -/
def applyDeltas (old : List Int) (u : List (Option Int)) : List Int :=
  (old.zip u).map fun p => p.2.getD p.1

theorem lfDelta_reads (o : Int) (u : Option Int) (h : ∀ v, u = some v → -64 ≤ v ∧ v < 64) :
    Reads (lfDelta o) (encLfDelta u) (u.getD o) := by
  unfold lfDelta encLfDelta
  cases u with
  | none => exact Reads.bind (b2 := []) (Reads.F (n := 1) (v := 0) (by omega)) (Reads.pure _)
  | some v =>
    refine Reads.bind (a := 1) (Reads.F (n := 1) (v := 1) (by omega)) ?_
    exact Reads.su (by omega) (by simpa using (h v rfl).1) (by simpa using (h v rfl).2)

theorem lfDeltas_reads (old : List Int) (u : List (Option Int)) (hl : u.length = old.length)
    (h : ∀ x ∈ u, ∀ v, x = some v → -64 ≤ v ∧ v < 64) :
    Reads (mapBM lfDelta old) (u.flatMap encLfDelta) (applyDeltas old u) := by
  induction old generalizing u with
  | nil => match u, hl with
    | [], _ => exact Reads.pure _
  | cons o old ih => match u, hl with
    | x :: u, hl =>
      unfold mapBM
      refine Reads.bind (lfDelta_reads o x (h x (List.mem_cons_self ..))) ?_
      exact Reads.bindLast (ih u (by simpa using hl) fun y hy => h y (List.mem_cons_of_mem _ hy))

/-- C67 is false of the code: the sharpness field is read on 6 bits instead of 3, so no frame whose
(AV1-coded) sharpness is non-zero is parsed correctly, whatever follows. -/
theorem C67_loop_filter_roundtrip_refuted (old : LoopFilter) (n l0 l1 l2 l3 sharp : Nat) (en : Bool)
    (upd : Option (List (Option Int) × List (Option Int)))
    (h0 : l0 < 64) (h1 : l1 < 64) (h2 : l2 < 64) (h3 : l3 < 64) (hsh : 1 ≤ sharp ∧ sharp < 8)
    (s : BitStream) (rest : List Bool)
    (hs : unread s = encLoopFilter 3 n l0 l1 l2 l3 sharp en upd ++ rest) :
    ∀ lf s', loopFilterParams old false false n s = .ok (lf, s') → lf.sharpness ≠ sharp := by
  intro lf s' h
  unfold loopFilterParams at h
  rw [if_neg (by decide)] at h
  unfold encLoopFilter at hs
  simp only [List.append_assoc] at hs
  obtain ⟨a, s1, e1, h⟩ := BM.bind_eq_ok.mp h
  rw [Reads.F (n := 6) (v := l0) h0 s _ hs] at e1
  cases e1
  have hs := unread_drop hs
  obtain ⟨a, s1, e1, h⟩ := BM.bind_eq_ok.mp h
  rw [Reads.F (n := 6) (v := l1) h1 _ _ hs] at e1
  cases e1
  have hs := unread_drop hs
  obtain ⟨lv, s1, e1, h⟩ := BM.bind_eq_ok.mp h
  have key : ∃ t rest', unread t = encF 3 sharp ++ rest' ∧ s1 = t := by
    by_cases hc : n > 1 ∧ (l0 ≠ 0 ∨ l1 ≠ 0)
    · rw [if_pos hc] at e1
      rw [if_pos (show 1 < n ∧ (l0 ≠ 0 ∨ l1 ≠ 0) from hc)] at hs
      simp only [List.append_assoc] at hs
      obtain ⟨a, s2, e2, h⟩ := BM.bind_eq_ok.mp e1
      rw [Reads.F (n := 6) (v := l2) h2 _ _ hs] at e2
      cases e2
      have hs := unread_drop hs
      obtain ⟨a, s2, e2, h⟩ := BM.bind_eq_ok.mp h
      rw [Reads.F (n := 6) (v := l3) h3 _ _ hs] at e2
      cases e2
      cases h
      exact ⟨_, _, unread_drop hs, rfl⟩
    · rw [if_neg hc] at e1
      rw [if_neg (show ¬ (1 < n ∧ (l0 ≠ 0 ∨ l1 ≠ 0)) from hc)] at hs
      cases e1
      exact ⟨_, _, hs, rfl⟩
  obtain ⟨t, rest', ht, rfl⟩ := key
  obtain ⟨sp, s2, e2, h⟩ := BM.bind_eq_ok.mp h
  have hsp : 8 * sharp ≤ sp := by
    have e3 : F 6 = (F 3 >>= fun x => F 3 >>= fun y => pure (x * 8 + y) : BM Nat) := by
      funext q
      have : F 6 q = _ := F_eq 6 q
      rw [this]
      by_cases hl : 6 ≤ (unread q).length
      · rw [if_pos hl]
        have h3 : F 3 q = _ := F_eq 3 q
        rw [if_pos (by omega)] at h3
        rw [BM.bind_ok h3]
        have h4 : F 3 (q.advance 3) = _ := F_eq 3 (q.advance 3)
        rw [if_pos (by rw [unread_advance, List.length_drop]; omega)] at h4
        rw [BM.bind_ok h4]
        match hq : unread q, hl with
        | a :: b :: c :: d :: e :: f :: r, _ =>
          rw [unread_advance, hq]
          simp [bitsVal, BitStream.advance]
          omega
      · rw [if_neg hl]
        by_cases hl3 : 3 ≤ (unread q).length
        · have h3 : F 3 q = _ := F_eq 3 q
          rw [if_pos (by omega)] at h3
          rw [BM.bind_ok h3]
          have h4 : F 3 (q.advance 3) = _ := F_eq 3 (q.advance 3)
          rw [if_neg (by rw [unread_advance, List.length_drop]; omega)] at h4
          rw [BM.bind_error h4]
        · have h3 : F 3 q = _ := F_eq 3 q
          rw [if_neg hl3] at h3
          rw [BM.bind_error h3]
    rw [e3] at e2
    obtain ⟨x, s3, e4, e5⟩ := BM.bind_eq_ok.mp e2
    rw [Reads.F (n := 3) (v := sharp) (by omega) _ _ ht] at e4
    cases e4
    obtain ⟨y, s4, e6, e7⟩ := BM.bind_eq_ok.mp e5
    cases e7
    omega
  obtain ⟨de, s3, e4, h⟩ := BM.bind_eq_ok.mp h
  have hfin : lf.sharpness = sp := by
    split at h
    · obtain ⟨du, s4, e5, h⟩ := BM.bind_eq_ok.mp h
      split at h
      · obtain ⟨rd, s5, e6, h⟩ := BM.bind_eq_ok.mp h
        obtain ⟨md, s6, e7, h⟩ := BM.bind_eq_ok.mp h
        cases h; rfl
      · cases h; rfl
    · cases h; rfl
  omega

/-- C67 (partial: with a 6-bit sharpness field): everything else is read back exactly. -/
theorem C67_loop_filter_roundtrip_partial (old : LoopFilter) (n l0 l1 l2 l3 sharp : Nat) (en : Bool)
    (upd : Option (List (Option Int) × List (Option Int)))
    (h0 : l0 < 64) (h1 : l1 < 64) (h2 : l2 < 64) (h3 : l3 < 64) (hsh : sharp < 64)
    (hu : ∀ u, upd = some u → u.1.length = old.refDeltas.length ∧ u.2.length = old.modeDeltas.length ∧
      (∀ x ∈ u.1, ∀ v, x = some v → -64 ≤ v ∧ v < 64) ∧ ∀ x ∈ u.2, ∀ v, x = some v → -64 ≤ v ∧ v < 64)
    (s : BitStream) (rest : List Bool)
    (hs : unread s = encLoopFilter 6 n l0 l1 l2 l3 sharp en upd ++ rest) :
    loopFilterParams old false false n s = .ok
      (⟨if 1 < n ∧ (l0 ≠ 0 ∨ l1 ≠ 0) then (((old.level.set 0 l0).set 1 l1).set 2 l2).set 3 l3
          else (old.level.set 0 l0).set 1 l1,
        if en then (upd.map fun u => applyDeltas old.refDeltas u.1).getD old.refDeltas else old.refDeltas,
        if en then (upd.map fun u => applyDeltas old.modeDeltas u.2).getD old.modeDeltas else old.modeDeltas,
        sharp, en, if en then (if upd.isSome then 1 else 0) else old.deltaUpdate⟩,
       s.advance (encLoopFilter 6 n l0 l1 l2 l3 sharp en upd).length) := by
  refine (?_ : Reads (loopFilterParams old false false n) _ _) s rest hs
  unfold loopFilterParams encLoopFilter
  rw [if_neg (by decide)]
  simp only [List.append_assoc]
  refine Reads.bind (Reads.F h0) (Reads.bind (Reads.F h1) ?_)
  refine Reads.bind (a := if 1 < n ∧ (l0 ≠ 0 ∨ l1 ≠ 0) then
    (((old.level.set 0 l0).set 1 l1).set 2 l2).set 3 l3 else (old.level.set 0 l0).set 1 l1) ?_ ?_
  · by_cases hc : 1 < n ∧ (l0 ≠ 0 ∨ l1 ≠ 0)
    · rw [if_pos hc, if_pos hc, if_pos (show n > 1 ∧ (l0 ≠ 0 ∨ l1 ≠ 0) from hc)]
      exact Reads.bind (Reads.F h2) (Reads.bindLast (Reads.F h3))
    · rw [if_neg hc, if_neg hc, if_neg (show ¬ (n > 1 ∧ (l0 ≠ 0 ∨ l1 ≠ 0)) from hc)]
      exact Reads.pure _
  refine Reads.bind (Reads.F hsh) ?_
  refine Reads.bind (Reads.flag en) ?_
  cases en
  · exact Reads.pure _
  · simp only [if_true]
    cases upd with
    | none => exact Reads.bind (b2 := []) (Reads.F (n := 1) (v := 0) (by omega)) (Reads.pure _)
    | some u =>
      obtain ⟨u1, u2⟩ := u
      obtain ⟨k1, k2, k3, k4⟩ := hu _ rfl
      simp only [List.append_assoc]
      refine Reads.bind (a := 1) (Reads.F (n := 1) (v := 1) (by omega)) ?_
      simp only [if_true]
      refine Reads.bind (lfDeltas_reads _ u1 k1 k3) ?_
      exact Reads.bindLast (lfDeltas_reads _ u2 k2 k4)

/-! ## C33, C68: CDEF -/

theorem cdefSec_good : Good cdefSec 2 (fun v => v ∈ [0, 1, 2, 4]) := by
  unfold cdefSec
  refine Good.bind' 2 0 (Good.F 2) (fun v hv => Good.pure ?_ _) (by omega)
  rcases (by omega : v = 0 ∨ v = 1 ∨ v = 2 ∨ v = 3) with rfl | rfl | rfl | rfl <;> decide

theorem cdefStrength_good (n : Nat) : Good (cdefStrength n) 12 (CdefStrengthOk n) := by
  unfold cdefStrength
  refine Good.bind' 4 8 (Good.F 4) (fun yp h1 => ?_) (by omega)
  refine Good.bind' 2 6 cdefSec_good (fun ys h2 => ?_) (by omega)
  refine Good.ite (fun hn => ?_) fun hn => Good.pure ⟨h1, h2, by simp, by simp, by simp⟩ _
  refine Good.bind' 4 2 (Good.F 4) (fun up h3 => ?_) (by omega)
  refine Good.bind' 2 0 cdefSec_good (fun us h4 => Good.pure ⟨h1, h2, h3, h4, by omega⟩ _) (by omega)

/-- All CDEF fields within range, the four strength lists having `2^bits` entries. -/
structure CdefOk (c : CdefParams) : Prop where
  bits : c.bits < 4
  damping : 3 ≤ c.damping ∧ c.damping ≤ 6
  len : c.yPri.length = 2 ^ c.bits ∧ c.ySec.length = 2 ^ c.bits ∧ c.uvPri.length = 2 ^ c.bits ∧
    c.uvSec.length = 2 ^ c.bits
  pri : (∀ x ∈ c.yPri, x < 16) ∧ ∀ x ∈ c.uvPri, x < 16
  sec : (∀ x ∈ c.ySec, x ∈ [0, 1, 2, 4]) ∧ ∀ x ∈ c.uvSec, x ∈ [0, 1, 2, 4]

theorem cdef_good (cl ibc en : Bool) (n : Nat) : Good (cdefParams cl ibc en n) 100 CdefOk := by
  unfold cdefParams
  refine Good.ite (fun _ => Good.pure ⟨by simp, by simp, by simp, by simp, by simp⟩ _) fun _ => ?_
  refine Good.bind' 2 98 (Good.F 2) (fun d hd => ?_) (by omega)
  refine Good.bind' 2 96 (Good.F 2) (fun b hb => ?_) (by omega)
  have hlen : (List.range (1 <<< b)).length ≤ 8 := by
    rw [List.length_range]
    rcases (by omega : b = 0 ∨ b = 1 ∨ b = 2 ∨ b = 3) with rfl | rfl | rfl | rfl <;> decide
  refine Good.bind' 96 0 ((Good.mapBM (P := fun _ => CdefStrengthOk n) 12 (List.range (1 <<< b)) fun _ _ =>
    cdefStrength_good n).mono (by omega) fun _ h => h) (fun l hl => Good.pure ?_ _) (by omega)
  have hll : l.length = 2 ^ b := by rw [hl.length, List.length_range, Nat.one_shiftLeft]
  have hm : ∀ p ∈ l, CdefStrengthOk n p := fun p hp => by obtain ⟨_, _, h⟩ := hl.mem p hp; exact h
  refine ⟨by omega, by dsimp only; omega, ?_, ?_, ?_⟩
  · simp only [List.length_map, hll]; simp
  · constructor <;> intro x hx <;> obtain ⟨p, hp, rfl⟩ := List.mem_map.mp hx
    · exact (hm p hp).1
    · exact (hm p hp).2.2.1
  · constructor <;> intro x hx <;> obtain ⟨p, hp, rfl⟩ := List.mem_map.mp hx
    · exact (hm p hp).2.1
    · exact (hm p hp).2.2.2.1

/-- C33: whatever the bits, CDEF damping is 3..6, the number of strengths is `2^cdef_bits` with
`cdef_bits < 4`, primary strengths are below 16 and secondary ones 0, 1, 2 or 4; no bits are read for
lossless, intra-block-copy or non-CDEF frames, where every strength is 0. -/
theorem C33_cdef (cl ibc en : Bool) (n : Nat) (s : BitStream) :
    (100 ≤ (unread s).length → ∃ c s', cdefParams cl ibc en n s = .ok (c, s')) ∧
    (∀ c s', cdefParams cl ibc en n s = .ok (c, s') → CdefOk c) ∧
    (cl = true ∨ ibc = true ∨ en = false →
      cdefParams cl ibc en n s = .ok (⟨0, 3, [0], [0], [0], [0]⟩, s)) := by
  have hG := cdef_good cl ibc en n
  refine ⟨fun h => ?_, fun p s' h => hG.2 s p s' h, fun h => ?_⟩
  · obtain ⟨a, k, _, h2, _⟩ := hG.1 s h
    exact ⟨a, _, h2⟩
  · unfold cdefParams
    rw [if_pos (by rcases h with h | h | h <;> simp [h])]
    rfl

theorem cdefSec_reads (v : Nat) (h : v ∈ [0, 1, 2, 4]) : Reads cdefSec (encCdefSec v) v := by
  unfold cdefSec encCdefSec
  simp only [List.mem_cons, List.not_mem_nil, or_false] at h
  rcases h with rfl | rfl | rfl | rfl
  · exact Reads.bindLast (f := fun s => if s = 3 then s + 1 else s) (Reads.F (n := 2) (v := 0) (by omega))
  · exact Reads.bindLast (f := fun s => if s = 3 then s + 1 else s) (Reads.F (n := 2) (v := 1) (by omega))
  · exact Reads.bindLast (f := fun s => if s = 3 then s + 1 else s) (Reads.F (n := 2) (v := 2) (by omega))
  · exact Reads.bindLast (f := fun s => if s = 3 then s + 1 else s) (Reads.F (n := 2) (v := 3) (by omega))

theorem cdefStrength_reads (n : Nat) (p : Nat × Nat × Nat × Nat) (h : CdefStrengthOk n p) :
    Reads (cdefStrength n) (encCdefStrength n p) p := by
  obtain ⟨yp, ys, up, us⟩ := p
  obtain ⟨h1, h2, h3, h4, h5⟩ := h
  dsimp only at h1 h2 h3 h4 h5
  unfold cdefStrength encCdefStrength
  simp only [List.append_assoc]
  refine Reads.bind (Reads.F h1) ?_
  by_cases hn : 1 < n
  · rw [if_pos hn]
    refine Reads.bind (cdefSec_reads _ h2) ?_
    rw [if_pos (show n > 1 from hn)]
    exact Reads.bind (Reads.F h3) (Reads.bindLast (cdefSec_reads _ h4))
  · obtain ⟨rfl, rfl⟩ := h5 (by omega)
    rw [if_neg hn]
    refine Reads.bind (cdefSec_reads _ h2) ?_
    rw [if_neg (show ¬ n > 1 from hn)]
    exact Reads.pure _

/-- C68: every legal set of CDEF parameters is read back exactly from its AV1 encoding. -/
theorem C68_cdef_roundtrip (n damping bits : Nat) (l : List (Nat × Nat × Nat × Nat))
    (hd : 3 ≤ damping ∧ damping ≤ 6) (hb : bits < 4) (hl : l.length = 2 ^ bits)
    (hs : ∀ p ∈ l, CdefStrengthOk n p) (s : BitStream) (rest : List Bool)
    (h : unread s = encCdef n damping bits l ++ rest) :
    cdefParams false false true n s = .ok
      (⟨bits, damping, l.map (·.1), l.map (·.2.1), l.map (·.2.2.1), l.map (·.2.2.2)⟩,
       s.advance (encCdef n damping bits l).length) := by
  refine (?_ : Reads (cdefParams false false true n) _ _) s rest h
  unfold cdefParams encCdef
  rw [if_neg (by decide), List.append_assoc]
  refine Reads.bind (Reads.F (n := 2) (v := damping - 3) (by omega)) ?_
  refine Reads.bind (Reads.F (n := 2) (v := bits) hb) ?_
  have h1 := Reads.mapBM_const (f := fun _ => cdefStrength n) (l := List.range (1 <<< bits)) (r := l)
    (by rw [List.length_range, Nat.one_shiftLeft, hl]) (fun _ p hp => cdefStrength_reads n p (hs p hp))
  have h2 := Reads.bindLast (f := fun l : List (Nat × Nat × Nat × Nat) => (⟨bits, damping - 3 + 3, l.map (·.1),
    l.map (·.2.1), l.map (·.2.2.1), l.map (·.2.2.2)⟩ : CdefParams)) h1
  rw [show damping - 3 + 3 = damping by omega] at h2
  rw [show damping - 3 + 3 = damping by omega]
  exact h2

example : CdefStrengthOk 3 (15, 4, 7, 2) := by unfold CdefStrengthOk; decide
example : (cdefParams false false true 3 ⟨[0x0F, 0xDE, 0x00], 0, 0⟩).map (fun p => (p.1, p.2.pos)) =
    .ok (⟨0, 3, [15], [4], [7], [2]⟩, 16) := by decide +kernel

/-! ## C33, C69: loop restoration -/

/-- Restoration parameters within range: known types, luma unit 64, 128 or 256 (at least 128 with
128x128 superblocks), chroma units equal and as large as luma's or half as large. -/
structure LrOk (use128 : Bool) (p : LrParams) : Prop where
  types : p.types.length = 3 ∧ ∀ t ∈ p.types, t ≤ 3
  uses : p.usesLr = true ↔ ∃ t ∈ p.types, t ≠ 0
  sizes : p.usesLr = true → ∃ y c, p.sizes = [y, c, c] ∧ (y = 64 ∨ y = 128 ∨ y = 256) ∧
    (use128 = true → 128 ≤ y) ∧ (c = y ∨ 2 * c = y)

theorem lrUnitShift_good (u : Bool) : Good (lrUnitShift u) 2 (fun v => v ≤ 2 ∧ (u = true → 1 ≤ v)) := by
  unfold lrUnitShift
  refine Good.ite (fun hu => ?_) fun hu => ?_
  · refine Good.bind' 1 0 (Good.F 1) (fun v hv => Good.pure (by omega) _) (by omega)
  · refine Good.bind' 1 1 (Good.F 1) (fun v hv => ?_) (by omega)
    refine Good.ite (fun _ => ?_) fun _ => Good.pure ⟨by omega, fun h => absurd h hu⟩ _
    refine Good.bind' 1 0 (Good.F 1) (fun e he => Good.pure ⟨by omega, fun h => absurd h hu⟩ _) (by omega)

theorem lr_good (sh : SeqHeader) (hp : sh.colorConfig.numPlanes ≤ 3) (al ibc : Bool) (os : List Nat) :
    Good (lrParams sh al ibc os) 9 (LrOk sh.use128x128SuperBlock) := by
  unfold lrParams
  refine Good.ite (fun _ => Good.pure ⟨by simp, by simp, by simp⟩ _) fun _ => ?_
  refine Good.bind' 6 3 (P := Each (fun _ t => t ≤ 3) (List.range sh.colorConfig.numPlanes)) ?_ (fun ts hts => ?_)
    (by omega)
  · refine (Good.mapBM 2 _ fun _ _ => ?_).mono (by rw [List.length_range]; omega) fun _ h => h
    refine Good.bind' 2 0 (Good.F 2) (fun t ht => Good.pure ?_ _) (by omega)
    rcases (by omega : t = 0 ∨ t = 1 ∨ t = 2 ∨ t = 3) with rfl | rfl | rfl | rfl <;> decide
  have hlen : ts.length ≤ 3 := by rw [hts.length, List.length_range]; exact hp
  have hty : (ts ++ List.replicate (3 - ts.length) 0).length = 3 ∧
      ∀ t ∈ ts ++ List.replicate (3 - ts.length) 0, t ≤ 3 := by
    refine ⟨by simp; omega, fun t ht => ?_⟩
    rcases List.mem_append.mp ht with h | h
    · obtain ⟨_, _, h⟩ := hts.mem t h; exact h
    · rw [(List.mem_replicate.mp h).2]; omega
  have huse : (ts.any (· != 0)) = true ↔ ∃ t ∈ ts ++ List.replicate (3 - ts.length) 0, t ≠ 0 := by
    rw [List.any_eq_true]
    constructor
    · rintro ⟨t, h1, h2⟩
      exact ⟨t, List.mem_append_left _ h1, by simpa using h2⟩
    · rintro ⟨t, h1, h2⟩
      rcases List.mem_append.mp h1 with h | h
      · exact ⟨t, h, by simpa using h2⟩
      · exact absurd (List.mem_replicate.mp h).2 h2
  dsimp only
  refine Good.ite (fun hu => ?_) fun hu => Good.pure ⟨hty, huse, fun h => absurd h hu⟩ _
  refine Good.bind' 2 1 (lrUnitShift_good _) (fun sft hs => ?_) (by omega)
  refine Good.bind' 1 0 (P := fun v => v < 2 ^ 1) (Good.ite (fun _ => Good.F 1) fun _ => Good.pure (by omega) _)
    (fun uv huv => Good.pure ⟨hty, huse, fun _ => ⟨_, _, rfl, ?_⟩⟩ _) (by omega)
  obtain ⟨hs1, hs2⟩ := hs
  rcases (by omega : uv = 0 ∨ uv = 1) with rfl | rfl <;>
    rcases (by omega : sft = 0 ∨ sft = 1 ∨ sft = 2) with rfl | rfl | rfl <;> simp <;> simp at hs2 <;> simp [hs2]

/-- C33: whatever the bits, the restoration types are known ones, restoration is used iff some type is
not "none", and then the luma unit size is 64, 128 or 256 (at least 128 with 128x128 superblocks) and
the chroma unit size equal to it or half of it. -/
theorem C33_restoration (sh : SeqHeader) (hp : sh.colorConfig.numPlanes ≤ 3) (al ibc : Bool)
    (os : List Nat) (s : BitStream) :
    (9 ≤ (unread s).length → ∃ p s', lrParams sh al ibc os s = .ok (p, s')) ∧
    (∀ p s', lrParams sh al ibc os s = .ok (p, s') → LrOk sh.use128x128SuperBlock p) ∧
    (al = true ∨ ibc = true ∨ sh.enableRestoration = false →
      lrParams sh al ibc os s = .ok (⟨[0, 0, 0], false, os⟩, s)) := by
  have hG := lr_good sh hp al ibc os
  refine ⟨fun h => ?_, fun p s' h => hG.2 s p s' h, fun h => ?_⟩
  · obtain ⟨a, k, _, h2, _⟩ := hG.1 s h
    exact ⟨a, _, h2⟩
  · unfold lrParams
    rw [if_pos (by rcases h with h | h | h <;> simp [h])]
    rfl

theorem lrType_reads (t : Nat) (h : t ≤ 3) :
    Reads (do let t ← F 2; pure (remapLrType.getD t 0)) (encLrType t) t := by
  unfold encLrType
  rcases (by omega : t = 0 ∨ t = 1 ∨ t = 2 ∨ t = 3) with rfl | rfl | rfl | rfl
  · exact Reads.bindLast (f := fun t => remapLrType.getD t 0) (Reads.F (n := 2) (v := 0) (by omega))
  · exact Reads.bindLast (f := fun t => remapLrType.getD t 0) (Reads.F (n := 2) (v := 2) (by omega))
  · exact Reads.bindLast (f := fun t => remapLrType.getD t 0) (Reads.F (n := 2) (v := 3) (by omega))
  · exact Reads.bindLast (f := fun t => remapLrType.getD t 0) (Reads.F (n := 2) (v := 1) (by omega))

theorem F1_bit (b : Bool) : Reads (F 1) (bit b) b.toNat := by
  cases b
  · exact Reads.F (n := 1) (v := 0) (by omega)
  · exact Reads.F (n := 1) (v := 1) (by omega)

theorem lrSize_reads (u : Bool) (size : Nat) (h : size = 64 ∨ size = 128 ∨ size = 256)
    (hu : u = true → size ≠ 64) :
    ∃ k, Reads (lrUnitShift u) (encLrSize u size) k ∧ 256 >>> (2 - k) = size := by
  unfold lrUnitShift encLrSize
  cases u
  · rcases h with rfl | rfl | rfl
    · exact ⟨0, Reads.bind (b2 := []) (F1_bit false) (Reads.pure _), rfl⟩
    · exact ⟨1, Reads.bind (F1_bit true) (Reads.bindLast (f := fun e => 1 + e) (F1_bit false)), rfl⟩
    · exact ⟨2, Reads.bind (F1_bit true) (Reads.bindLast (f := fun e => 1 + e) (F1_bit true)), rfl⟩
  · rcases h with rfl | rfl | rfl
    · exact absurd rfl (hu rfl)
    · exact ⟨1, Reads.bindLast (f := fun s => s + 1) (F1_bit false), rfl⟩
    · exact ⟨2, Reads.bindLast (f := fun s => s + 1) (F1_bit true), rfl⟩

/-- C69: legal restoration parameters are read back exactly from their AV1 encoding. -/
theorem C69_restoration_roundtrip (sh : SeqHeader) (hr : sh.enableRestoration = true) (types : List Nat)
    (hl : types.length = sh.colorConfig.numPlanes) (ht : ∀ t ∈ types, t ≤ 3) (size : Nat)
    (hz : size = 64 ∨ size = 128 ∨ size = 256) (h128 : sh.use128x128SuperBlock = true → size ≠ 64)
    (half : Bool) (os : List Nat) (s : BitStream) (rest : List Bool)
    (hs : unread s = encLr sh types size half ++ rest) :
    ∃ p, lrParams sh false false os s = .ok (p, s.advance (encLr sh types size half).length) ∧
      p.types = types ++ List.replicate (3 - types.length) 0 ∧
      ((∃ t ∈ types, t ≠ 0) → p.usesLr = true ∧ p.sizes.head? = some size ∧
        ((sh.colorConfig.subsamplingX = true ∧ sh.colorConfig.subsamplingY = true ∧ ∃ t ∈ types.drop 1, t ≠ 0) →
          p.sizes = if half then [size, size / 2, size / 2] else [size, size, size]) ∧
        (¬ (sh.colorConfig.subsamplingX = true ∧ sh.colorConfig.subsamplingY = true ∧ ∃ t ∈ types.drop 1, t ≠ 0) →
          p.sizes = [size, size, size])) ∧
      ((∀ t ∈ types, t = 0) → p.usesLr = false ∧ p.sizes = os) := by
  suffices h : ∃ p, Reads (lrParams sh false false os) (encLr sh types size half) p ∧ _ by
    obtain ⟨p, h1, h2⟩ := h
    exact ⟨p, h1 s rest hs, h2⟩
  have hT := Reads.mapBM_const (f := fun _ : Nat => (do let t ← F 2; pure (remapLrType.getD t 0) : BM Nat))
    (l := List.range sh.colorConfig.numPlanes) (r := types) (enc := encLrType)
    (by rw [List.length_range, hl]) (fun _ t h => lrType_reads t (ht t h))
  have hany : ∀ l : List Nat, (l.any (· != 0)) = true ↔ ∃ t ∈ l, t ≠ 0 := by
    intro l; rw [List.any_eq_true]; simp
  by_cases hu : ∃ t ∈ types, t ≠ 0
  · obtain ⟨k, hk, hk2⟩ := lrSize_reads sh.use128x128SuperBlock size hz h128
    have hnz : ¬ ∀ t ∈ types, t = 0 := by
      obtain ⟨t, h1, h2⟩ := hu
      exact fun h => h2 (h t h1)
    by_cases hc : sh.colorConfig.subsamplingX = true ∧ sh.colorConfig.subsamplingY = true ∧
        ∃ t ∈ types.drop 1, t ≠ 0
    · refine ⟨⟨types ++ List.replicate (3 - types.length) 0, types.any (· != 0),
        [256 >>> (2 - k), (256 >>> (2 - k)) >>> half.toNat, (256 >>> (2 - k)) >>> half.toNat]⟩, ?_, rfl, ?_, ?_⟩
      · unfold lrParams encLr
        rw [if_neg (by simp [hr])]
        refine Reads.bind hT ?_
        dsimp only
        rw [if_pos ((hany _).mpr hu), if_pos hu, if_pos hc]
        refine Reads.bind hk ?_
        rw [if_pos (by simp only [Bool.and_eq_true]; exact ⟨⟨hc.1, hc.2.1⟩, (hany _).mpr hc.2.2⟩)]
        exact Reads.bindLast (F1_bit half)
      · intro _
        refine ⟨(hany _).mpr hu, by simp [hk2], fun _ => ?_, fun h => absurd hc h⟩
        rw [hk2]
        cases half <;> simp [Nat.shiftRight_eq_div_pow]
      · exact fun h => absurd h hnz
    · refine ⟨⟨types ++ List.replicate (3 - types.length) 0, types.any (· != 0),
        [256 >>> (2 - k), (256 >>> (2 - k)) >>> 0, (256 >>> (2 - k)) >>> 0]⟩, ?_, rfl, ?_, ?_⟩
      · unfold lrParams encLr
        rw [if_neg (by simp [hr])]
        refine Reads.bind hT ?_
        dsimp only
        rw [if_pos ((hany _).mpr hu), if_pos hu, if_neg hc]
        refine Reads.bind hk ?_
        rw [if_neg (by
          simp only [Bool.and_eq_true]
          rintro ⟨⟨h1, h2⟩, h3⟩
          exact hc ⟨h1, h2, (hany _).mp h3⟩)]
        exact Reads.bind0 (Reads.pure _) (Reads.pure _)
      · intro _
        refine ⟨(hany _).mpr hu, by simp [hk2], fun h => absurd h hc, fun _ => ?_⟩
        rw [hk2]; rfl
      · exact fun h => absurd h hnz
  · refine ⟨⟨types ++ List.replicate (3 - types.length) 0, types.any (· != 0), os⟩, ?_, rfl,
      fun h => absurd h hu, fun _ => ⟨?_, rfl⟩⟩
    · unfold lrParams encLr
      rw [if_neg (by simp [hr])]
      refine Reads.bind hT ?_
      dsimp only
      rw [if_neg (fun h => hu ((hany _).mp h)), if_neg hu]
      exact Reads.pure _
    · rw [Bool.eq_false_iff]
      exact fun h => hu ((hany _).mp h)

/-- Types 3, 0, 1, unit 128, chroma halved. -/
example : (lrParams ({ enableRestoration := true, colorConfig := { numPlanes := 3, subsamplingX := true, subsamplingY := true } } : SeqHeader) false false [] ⟨[0x4A, 0x80], 0, 0⟩).map (fun p => (p.1, p.2.pos)) =
    .ok (⟨[3, 0, 1], true, [128, 64, 64]⟩, 9) := by decide +kernel

end Gov1
