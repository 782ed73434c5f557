import Mathlib.Tactic.SplitIfs
import Verif.Model.LoopFilter
import Verif.Spec.LoopFilter
import Verif.Lemmas.Grid
/-! # C52, C53, C102-C104: the deblocking filter -/
namespace Gov1
open Spec (satS satP Edge4)

theorem filter4Clamp_eq (b : Nat) (v : Int) : filter4Clamp b v = satS b v := by
  have h : ((1 <<< (b - 1) : Nat) : Int) = 2 ^ (b - 1) := by rw [Nat.one_shiftLeft]; norm_cast
  have h1 : (1 : Int) ≤ 2 ^ (b - 1) := by
    have : 1 ≤ 2 ^ (b - 1) := Nat.one_le_two_pow
    exact_mod_cast this
  unfold filter4Clamp satS clip3
  rw [h]
  generalize (2 : Int) ^ (b - 1) = B at *
  split
  · omega
  · split <;> omega

theorem clamp_off {b : Nat} (hb : 8 ≤ b) (v : Int) :
    filter4Clamp b (v - ((0x80 <<< (b - 8) : Nat) : Int)) + ((0x80 <<< (b - 8) : Nat) : Int) = satP b v := by
  have h : ((0x80 <<< (b - 8) : Nat) : Int) = 2 ^ (b - 1) := by
    rw [Nat.shiftLeft_eq, show (0x80 : Nat) = 2 ^ 7 by decide, ← Nat.pow_add, show 7 + (b - 8) = b - 1 by omega]
    norm_cast
  have h2 : (2 : Int) ^ b = 2 * 2 ^ (b - 1) := by
    rw [← Int.pow_succ', show b - 1 + 1 = b by omega]
  rw [filter4Clamp_eq, h]
  unfold satS satP
  rw [h2]
  generalize (2 : Int) ^ (b - 1) = B
  omega

/-! ## C52 the narrow filter -/

/-- The picture after the narrow filter, with the four pixels at general positions. -/
def NarrowResult (b : Nat) (hev : Bool) (e : Edge4) (F F' : List (List Int)) (p1 p0 q0 q1 : Nat × Nat) : Prop :=
  ∀ r c, at2 F' r c =
    if (r, c) = p1 then some (Spec.narrow b hev e).p1
    else if (r, c) = p0 then some (Spec.narrow b hev e).p0
    else if (r, c) = q0 then some (Spec.narrow b hev e).q0
    else if (r, c) = q1 then some (Spec.narrow b hev e).q1
    else at2 F r c

theorem narrowFilter_spec {b : Nat} (hb : 8 ≤ b) (hev : Bool) {H W : Nat} {F : List (List Int)} (hF : Shape H W F) (e : Edge4)
    {x y dx dy : Int} {r1 c1 r2 c2 r3 c3 r4 c4 : Nat}
    (h1 : y - dy * 2 = r1 ∧ x - dx * 2 = c1) (h2 : y - dy = r2 ∧ x - dx = c2) (h3 : y = r3 ∧ x = c3) (h4 : y + dy = r4 ∧ x + dx = c4)
    (n12 : (r1, c1) ≠ (r2, c2)) (n13 : (r1, c1) ≠ (r3, c3)) (n14 : (r1, c1) ≠ (r4, c4)) (n23 : (r2, c2) ≠ (r3, c3))
    (n24 : (r2, c2) ≠ (r4, c4)) (n34 : (r3, c3) ≠ (r4, c4))
    (b1 : r1 < H ∧ c1 < W) (b2 : r2 < H ∧ c2 < W) (b3 : r3 < H ∧ c3 < W) (b4 : r4 < H ∧ c4 < W)
    (g1 : at2 F r1 c1 = some e.p1) (g2 : at2 F r2 c2 = some e.p0) (g3 : at2 F r3 c3 = some e.q0) (g4 : at2 F r4 c4 = some e.q1) :
    ∃ F', narrowFilter b hev F x y dx dy = .ok F' ∧ Shape H W F' ∧ NarrowResult b hev e F F' (r1, c1) (r2, c2) (r3, c3) (r4, c4) := by
  unfold narrowFilter
  rw [h1.1, h1.2, h2.1, h2.2, h4.1, h4.2, h3.1, h3.2]
  rw [gget_at2 g3, Res.ok_bind, gget_at2 g4, Res.ok_bind, gget_at2 g2, Res.ok_bind, gget_at2 g1, Res.ok_bind]
  simp only []
  have o := clamp_off hb
  generalize hoff : ((0x80 <<< (b - 8) : Nat) : Int) = off at o
  rw [show e.p1 - off - (e.q1 - off) = e.p1 - e.q1 by omega, show e.q0 - off - (e.p0 - off) = e.q0 - e.p0 by omega]
  generalize hf : filter4Clamp b ((if hev = true then filter4Clamp b (e.p1 - e.q1) else 0) + 3 * (e.q0 - e.p0)) = f
  have hf' : satS b ((if hev then satS b (e.p1 - e.q1) else 0) + 3 * (e.q0 - e.p0)) = f := by
    rw [← hf, filter4Clamp_eq, filter4Clamp_eq]
  have hN : Spec.narrow b hev e = { p1 := if hev then e.p1 else satP b (e.p1 + (filter4Clamp b (f + 4) / 8 + 1) / 2)
                                    p0 := satP b (e.p0 + filter4Clamp b (f + 3) / 8)
                                    q0 := satP b (e.q0 - filter4Clamp b (f + 4) / 8)
                                    q1 := if hev then e.q1 else satP b (e.q1 - (filter4Clamp b (f + 4) / 8 + 1) / 2) } := by
    simp only [Spec.narrow, hf', filter4Clamp_eq]
  unfold NarrowResult
  rw [hN]
  have s3 (v : Int) : v >>> (3 : Nat) = v / 8 := by rw [Int.shiftRight_eq_div_pow]; rfl
  have r1' (v : Int) : round2 v 1 = (v + 1) / 2 := by
    rw [round2, if_neg (by decide), Int.shiftRight_eq_div_pow]; rfl
  rw [s3, s3]
  rw [show e.q0 - off - filter4Clamp b (f + 4) / 8 = (e.q0 - filter4Clamp b (f + 4) / 8) - off by omega, o,
    show e.p0 - off + filter4Clamp b (f + 3) / 8 = (e.p0 + filter4Clamp b (f + 3) / 8) - off by omega, o]
  obtain ⟨F1, e1, S1, A1, B1⟩ := gset_ok hF b3.1 b3.2 (satP b (e.q0 - filter4Clamp b (f + 4) / 8))
  rw [e1, Res.ok_bind]
  obtain ⟨F2, e2, S2, A2, B2⟩ := gset_ok S1 b2.1 b2.2 (satP b (e.p0 + filter4Clamp b (f + 3) / 8))
  rw [e2, Res.ok_bind]
  cases hev
  · rw [if_pos rfl]
    simp only [Bool.false_eq_true, if_false]
    rw [r1']
    rw [show e.q1 - off - (filter4Clamp b (f + 4) / 8 + 1) / 2 = (e.q1 - (filter4Clamp b (f + 4) / 8 + 1) / 2) - off by omega, o,
      show e.p1 - off + (filter4Clamp b (f + 4) / 8 + 1) / 2 = (e.p1 + (filter4Clamp b (f + 4) / 8 + 1) / 2) - off by omega, o]
    obtain ⟨F3, e3, S3, A3, B3⟩ := gset_ok S2 b4.1 b4.2 (satP b (e.q1 - (filter4Clamp b (f + 4) / 8 + 1) / 2))
    rw [e3, Res.ok_bind]
    obtain ⟨F4, e4, S4, A4, B4⟩ := gset_ok S3 b1.1 b1.2 (satP b (e.p1 + (filter4Clamp b (f + 4) / 8 + 1) / 2))
    refine ⟨F4, e4, S4, fun r c => ?_⟩
    split_ifs with i1 i2 i3 i4
    · cases i1; exact A4
    · cases i2; rw [B4 _ _ n12.symm, B3 _ _ n24]; exact A2
    · cases i3; rw [B4 _ _ n13.symm, B3 _ _ n34, B2 _ _ n23.symm]; exact A1
    · cases i4; rw [B4 _ _ n14.symm]; exact A3
    · rw [B4 _ _ i1, B3 _ _ i4, B2 _ _ i2, B1 _ _ i3]
  · rw [if_neg (by decide)]
    simp only [if_true]
    refine ⟨F2, rfl, S2, fun r c => ?_⟩
    split_ifs with i1 i2 i3 i4
    · cases i1; rw [B2 _ _ n12, B1 _ _ n13]; exact g1
    · cases i2; exact A2
    · cases i3; rw [B2 _ _ n23.symm]; exact A1
    · cases i4; rw [B2 _ _ n24.symm, B1 _ _ n34.symm]; exact g4
    · rw [B2 _ _ i2, B1 _ _ i3]

/-- **C52, vertical edges.**  In every picture and at every vertical edge with two pixels on its left and two on its
right, the narrow filter replaces the four pixels next to the edge by those of the specification and changes nothing
else. -/
theorem C52_narrow_vertical (b : Nat) (hb : 8 ≤ b) (hev : Bool) (H W x y : Nat) (F : List (List Int)) (hF : Shape H W F)
    (hx : x + 3 < W) (hy : y < H) (e : Edge4) (h1 : at2 F y x = some e.p1) (h2 : at2 F y (x + 1) = some e.p0)
    (h3 : at2 F y (x + 2) = some e.q0) (h4 : at2 F y (x + 3) = some e.q1) :
    ∃ F', narrowFilter b hev F (x + 2 : Nat) y 1 0 = .ok F' ∧ Shape H W F' ∧
      NarrowResult b hev e F F' (y, x) (y, x + 1) (y, x + 2) (y, x + 3) :=
  narrowFilter_spec hb hev hF e (by omega) (by omega) ⟨rfl, rfl⟩ (by omega) (by simp) (by simp) (by simp) (by simp) (by simp)
    (by simp) (by omega) (by omega) (by omega) (by omega) h1 h2 h3 h4

/-- **C52, horizontal edges.** -/
theorem C52_narrow_horizontal (b : Nat) (hb : 8 ≤ b) (hev : Bool) (H W x y : Nat) (F : List (List Int)) (hF : Shape H W F)
    (hx : x < W) (hy : y + 3 < H) (e : Edge4) (h1 : at2 F y x = some e.p1) (h2 : at2 F (y + 1) x = some e.p0)
    (h3 : at2 F (y + 2) x = some e.q0) (h4 : at2 F (y + 3) x = some e.q1) :
    ∃ F', narrowFilter b hev F x (y + 2 : Nat) 0 1 = .ok F' ∧ Shape H W F' ∧
      NarrowResult b hev e F F' (y, x) (y + 1, x) (y + 2, x) (y + 3, x) :=
  narrowFilter_spec hb hev hF e (by omega) (by omega) ⟨rfl, rfl⟩ (by omega) (by simp) (by simp) (by simp) (by simp) (by simp)
    (by simp) (by omega) (by omega) (by omega) (by omega) h1 h2 h3 h4

/-- Non-vacuity: a step edge in a 4x6 picture. -/
example : ∃ F', narrowFilter 8 false [[100, 100, 100, 108, 108, 108], [100, 100, 100, 108, 108, 108],
    [100, 100, 100, 108, 108, 108], [100, 100, 100, 108, 108, 108]] (3 : Nat) (2 : Nat) 1 0 = .ok F' ∧
    F' = [[100, 100, 100, 108, 108, 108], [100, 100, 100, 108, 108, 108],
    [100, 102, 103, 105, 106, 108], [100, 100, 100, 108, 108, 108]] :=
  ⟨_, rfl, by decide⟩

theorem two_pow_pos' (n : Nat) : (1 : Int) ≤ 2 ^ n := by
  have : 1 ≤ 2 ^ n := Nat.one_le_two_pow
  exact_mod_cast this

/-- **C52, range and smoothing.**  For all pixels of `b` bits: the filtered pixels are pixels of `b` bits; four equal
pixels are kept; without high variance, the two pixels at the edge move towards each other and do not cross, and the
outer pixels move by at most the step between the inner ones. -/
theorem C52_range (b : Nat) (hb : 8 ≤ b) (hev : Bool) (e : Edge4)
    (h : ∀ v ∈ [e.p1, e.p0, e.q0, e.q1], 0 ≤ v ∧ v < 2 ^ b) :
    let n := Spec.narrow b hev e
    (∀ v ∈ [n.p1, n.p0, n.q0, n.q1], 0 ≤ v ∧ v < 2 ^ b) ∧
    (e.p1 = e.p0 → e.p0 = e.q0 → e.q0 = e.q1 → n.p1 = e.p1 ∧ n.p0 = e.p0 ∧ n.q0 = e.q0 ∧ n.q1 = e.q1) ∧
    (hev = false → e.p0 ≤ e.q0 → e.p0 ≤ n.p0 ∧ n.p0 ≤ n.q0 ∧ n.q0 ≤ e.q0 ∧
      e.p1 ≤ n.p1 ∧ n.p1 ≤ e.p1 + (e.q0 - e.p0) ∧ n.q1 ≤ e.q1 ∧ e.q1 - (e.q0 - e.p0) ≤ n.q1) := by
  intro n
  simp only [List.mem_cons, List.not_mem_nil, or_false, forall_eq_or_imp, forall_eq] at h ⊢
  obtain ⟨h1, h2, h3, h4⟩ := h
  have hB : (128 : Int) ≤ 2 ^ (b - 1) := by
    have : 2 ^ 7 ≤ 2 ^ (b - 1) := Nat.pow_le_pow_right (by decide) (by omega)
    exact_mod_cast this
  obtain ⟨f, hf⟩ : ∃ f, satS b ((if hev then satS b (e.p1 - e.q1) else 0) + 3 * (e.q0 - e.p0)) = f := ⟨_, rfl⟩
  obtain ⟨f1, hf1⟩ : ∃ f1, satS b (f + 4) / 8 = f1 := ⟨_, rfl⟩
  obtain ⟨f2, hf2⟩ : ∃ f2, satS b (f + 3) / 8 = f2 := ⟨_, rfl⟩
  have e1 : n.p1 = if hev then e.p1 else satP b (e.p1 + (f1 + 1) / 2) := by
    simp only [n, Spec.narrow, hf, hf1]
  have e2 : n.p0 = satP b (e.p0 + f2) := by simp only [n, Spec.narrow, hf, hf2]
  have e3 : n.q0 = satP b (e.q0 - f1) := by simp only [n, Spec.narrow, hf, hf1]
  have e4 : n.q1 = if hev then e.q1 else satP b (e.q1 - (f1 + 1) / 2) := by
    simp only [n, Spec.narrow, hf, hf1]
  have hP : ∀ v : Int, 0 ≤ satP b v ∧ satP b v < 2 ^ b := by
    intro v
    have := two_pow_pos' b
    unfold satP; omega
  have hI : ∀ v : Int, 0 ≤ v → v < 2 ^ b → satP b v = v := by intro v _ _; unfold satP; omega
  have hS : ∀ v : Int, -128 ≤ v → v ≤ 127 → satS b v = v := by intro v _ _; unfold satS; omega
  refine ⟨⟨?_, e2 ▸ hP _, e3 ▸ hP _, ?_⟩, ?_, ?_⟩
  · rw [e1]; split
    · exact h1
    · exact hP _
  · rw [e4]; split
    · exact h4
    · exact hP _
  · intro k1 k2 k3
    have f0 : f = 0 := by
      rw [← hf, k1, k2, k3]
      have : satS b (e.q1 - e.q1) = 0 := by rw [hS _ (by omega) (by omega)]; omega
      rw [this, ite_self, hS _ (by omega) (by omega)]; omega
    have f10 : f1 = 0 := by rw [← hf1, f0, hS _ (by omega) (by omega)]; rfl
    have f20 : f2 = 0 := by rw [← hf2, f0, hS _ (by omega) (by omega)]; rfl
    rw [e1, e2, e3, e4, f10, f20]
    refine ⟨?_, ?_, ?_, ?_⟩
    · split
      · rfl
      · rw [hI _ (by omega) (by omega)]; omega
    · rw [hI _ (by omega) (by omega)]; omega
    · rw [hI _ (by omega) (by omega)]; omega
    · split
      · rfl
      · rw [hI _ (by omega) (by omega)]; omega
  · intro hh hle
    subst hh
    simp only [Bool.false_eq_true, if_false] at hf e1 e4
    have k0 : 0 ≤ f ∧ f ≤ 3 * (e.q0 - e.p0) := by rw [← hf]; unfold satS; omega
    have k1 : 0 ≤ f1 ∧ f1 ≤ (f + 4) / 8 := by rw [← hf1]; unfold satS; omega
    have k2 : 0 ≤ f2 ∧ f2 ≤ (f + 3) / 8 := by rw [← hf2]; unfold satS; omega
    clear hf hf1 hf2 hS
    have m1 : n.p0 = e.p0 + f2 := by rw [e2]; exact hI _ (by omega) (by omega)
    have m2 : n.q0 = e.q0 - f1 := by rw [e3]; exact hI _ (by omega) (by omega)
    have m3 : e.p1 ≤ n.p1 ∧ n.p1 ≤ e.p1 + (f1 + 1) / 2 := by rw [e1]; unfold satP; omega
    have m4 : n.q1 ≤ e.q1 ∧ e.q1 - (f1 + 1) / 2 ≤ n.q1 := by rw [e4]; unfold satP; omega
    refine ⟨by omega, by omega, by omega, by omega, by omega, by omega, by omega⟩

/-- **C52, mask off.**  When the filter mask is off nothing changes. -/
theorem C52_mask_off (b : Nat) (F : List (List Int)) (x y : Int) (plane : Nat) (s : LfStrength) (dx dy : Int) (size : Nat)
    (m : LfMasks) (h : lfMasks b F x y plane s dx dy size = .ok m) (hm : m.filter = false) :
    sampleFiltering b F x y plane s dx dy size = .ok F := by
  unfold sampleFiltering
  rw [h, Res.ok_bind, if_pos hm]
  rfl

/-! ## C53 the level -/

theorem clip63 (v : Int) : clip3 0 63 v = max 0 (min 63 v) := by unfold clip3; split; · omega
                                                                 split <;> omega

theorem shl_pow (d : Int) (n : Nat) : d <<< n = d * 2 ^ n := Int.shiftLeft_eq d n

/-- **C53.**  Whenever a level is computed it is the one of the specification (with the deltas the header and the
segment give), and lies in 0..63. -/
theorem C53_level (c : LfCtx) (segment ref modeType deltaLF : Int) (plane : Nat) (pass : Bool) (lvl : Int)
    (h : lfLevel c segment ref modeType deltaLF plane pass = .ok lvl) :
    0 ≤ lvl ∧ lvl ≤ 63 ∧
    ∃ l : Nat, goGet c.lf.level ((lfIndex plane pass : Nat) : Int) = .ok l ∧
    ∃ segDelta : Option Int,
      (segDelta = none → c.seg.enabled = false ∨ ∃ v, gget c.seg.featureEnabled segment ((1 + lfIndex plane pass : Nat) : Int) = .ok v ∧ v ≠ 1) ∧
      (∀ d, segDelta = some d → c.seg.enabled = true ∧ gget c.seg.featureEnabled segment ((1 + lfIndex plane pass : Nat) : Int) = .ok 1 ∧
        gget c.seg.featureData segment ((1 + lfIndex plane pass : Nat) : Int) = .ok d) ∧
    ∃ deltas : Option (Int × Option Int),
      (deltas = none → c.lf.deltaEnabled = false) ∧
      (∀ r m, deltas = some (r, m) → c.lf.deltaEnabled = true ∧ goGet c.lf.refDeltas ref = .ok r ∧
        (if ref = 0 then m = none else ∃ m', m = some m' ∧ goGet c.lf.modeDeltas modeType = .ok m')) ∧
      lvl = Spec.lfLevel l deltaLF segDelta deltas := by
  unfold lfLevel at h
  obtain ⟨l, hl, h⟩ := Res.inv h
  simp only [] at h
  obtain ⟨a, ha, h⟩ := Res.inv h
  -- segment
  obtain ⟨sd, s1, s2, s3, s4, s5⟩ : ∃ sd : Option Int,
      (sd = none → c.seg.enabled = false ∨ ∃ v, gget c.seg.featureEnabled segment ((1 + lfIndex plane pass : Nat) : Int) = .ok v ∧ v ≠ 1) ∧
      (∀ d, sd = some d → c.seg.enabled = true ∧ gget c.seg.featureEnabled segment ((1 + lfIndex plane pass : Nat) : Int) = .ok 1 ∧
        gget c.seg.featureData segment ((1 + lfIndex plane pass : Nat) : Int) = .ok d) ∧
      a = (match sd with | some d => max 0 (min 63 (max 0 (min 63 (deltaLF + l)) + d)) | none => max 0 (min 63 (deltaLF + l))) ∧
      0 ≤ a ∧ a ≤ 63 := by
    unfold lfSegLevel tgSegFeature at ha
    obtain ⟨act, h1, ha⟩ := Res.inv ha
    rw [clip63] at ha
    by_cases hE : c.seg.enabled = true
    · rw [if_pos hE] at h1
      obtain ⟨v, hv, h1⟩ := Res.inv h1
      cases h1
      by_cases hv1 : v = 1
      · subst hv1
        rw [if_pos (by rfl)] at ha
        obtain ⟨d, hd, ha⟩ := Res.inv ha
        cases ha
        refine ⟨some d, by simp, fun d' hd' => ?_, ?_, ?_, ?_⟩
        · cases hd'; exact ⟨hE, hv, hd⟩
        · simp only [clip63]; rw [Int.add_comm]
        · rw [clip63]; omega
        · rw [clip63]; omega
      · rw [if_neg (by simpa using hv1)] at ha
        cases ha
        exact ⟨none, fun _ => .inr ⟨v, hv, hv1⟩, by simp, rfl, by omega, by omega⟩
    · rw [if_neg hE] at h1
      cases h1
      rw [if_neg (by decide)] at ha
      cases ha
      exact ⟨none, fun _ => .inl (by simpa using hE), by simp, rfl, by omega, by omega⟩
  have hsh : (a >>> (5 : Nat)).toNat = (a / 32).toNat := by rw [Int.shiftRight_eq_div_pow]; rfl
  unfold lfRefDelta at h
  by_cases hD : c.lf.deltaEnabled = true
  · rw [if_pos hD] at h
    simp only [hsh, shl_pow] at h
    by_cases hr : ref = 0
    · rw [if_pos hr] at h
      obtain ⟨d, hd, h⟩ := Res.inv h
      cases h
      refine ⟨by rw [clip63]; omega, by rw [clip63]; omega, l, hl, sd, s1, s2, some (d, none), by simp, ?_, ?_⟩
      · intro r m hrm
        cases hrm
        exact ⟨hD, by rw [hr]; exact hd, by rw [if_pos hr]⟩
      · rw [clip63]
        simp only [Spec.lfLevel, Option.getD_none]
        cases sd <;> simp only [] at s3 ⊢ <;> rw [← s3, Int.add_zero, Int.mul_comm]
    · rw [if_neg hr] at h
      obtain ⟨d, hd, h⟩ := Res.inv h
      obtain ⟨m, hm, h⟩ := Res.inv h
      cases h
      refine ⟨by rw [clip63]; omega, by rw [clip63]; omega, l, hl, sd, s1, s2, some (d, some m), by simp, ?_, ?_⟩
      · intro r m' hrm
        cases hrm
        exact ⟨hD, hd, by rw [if_neg hr]; exact ⟨_, rfl, hm⟩⟩
      · rw [clip63]
        simp only [Spec.lfLevel, Option.getD_some]
        cases sd <;> simp only [] at s3 ⊢ <;> rw [← s3, Int.mul_add, Int.mul_comm d, Int.mul_comm m, Int.add_assoc]
  · rw [if_neg hD] at h
    cases h
    refine ⟨s4, s5, l, hl, sd, s1, s2, none, fun _ => by simpa using hD, by simp, ?_⟩
    rw [s3]; rfl

/-- Non-vacuity: an intra block of segment 1 with a segment delta of -5 and the default reference deltas. -/
example : lfLevel {
    lf := { level := [40, 40, 0, 0], refDeltas := [1, 0, 0, 0, -1, 0, -1, -1], deltaEnabled := true }
    seg := {
      enabled := true
      featureEnabled := [[0, 0, 0, 0, 0, 0, 0, 0], [0, 1, 0, 0, 0, 0, 0, 0]]
      featureData := [[0, 0, 0, 0, 0, 0, 0, 0], [0, -5, 0, 0, 0, 0, 0, 0]] } } 1 0 0 3 0 false = .ok 40 := rfl

/-- **C53, level 0.**  An edge whose block has level 0 is left as it is. -/
theorem C53_level_zero (c : LfCtx) (plane : Nat) (pass : Bool) (row col : Nat) (F F' : List (List Int)) (s : LfStrength)
    (hs : lfStrength c ((row ||| if plane ≠ 0 then c.subY else 0 : Nat) : Int) ((col ||| if plane ≠ 0 then c.subX else 0 : Nat) : Int) plane pass = .ok s)
    (h0 : s.lvl = 0) (h : lfEdge c plane pass row col F = .ok F') : F' = F := by
  unfold lfEdge at h
  split at h
  · unfold lfEdgeOn at h
    simp only [] at h
    obtain ⟨_, -, h⟩ := Res.inv h
    obtain ⟨_, -, h⟩ := Res.inv h
    obtain ⟨_, -, h⟩ := Res.inv h
    obtain ⟨_, -, h⟩ := Res.inv h
    obtain ⟨_, -, h⟩ := Res.inv h
    obtain ⟨_, -, h⟩ := Res.inv h
    obtain ⟨_, -, h⟩ := Res.inv h
    obtain ⟨_, -, h⟩ := Res.inv h
    obtain ⟨_, -, h⟩ := Res.inv h
    obtain ⟨_, -, h⟩ := Res.inv h
    obtain ⟨_, -, h⟩ := Res.inv h
    obtain ⟨_, -, h⟩ := Res.inv h
    rw [hs, Res.ok_bind, if_pos h0, Res.ok_bind, h0] at h
    refine forN_inv (fun _ t => t = F) ?_ h rfl
    intro i t t' _ _ ht h
    rw [if_neg (by simp)] at h
    cases h
    exact ht
  · cases h; rfl

/-- The level of the neighbouring block is what AV1 takes for an edge whose own block has level 0 (7.14.2: `lvl` is
recomputed at `(prevRow, prevCol)`). -/
def av1Level (own prev : Int) : Int := if own = 0 then prev else own

/-- **C53 is false of the code** for such edges: for every edge whose own block has level 0 and whose neighbour has a
level above 0, AV1 filters with the level of the neighbour, while the code leaves the edge as it is. -/
theorem C53_neighbour_refuted (c : LfCtx) (plane : Nat) (pass : Bool) (row col : Nat) (F F' : List (List Int)) (s : LfStrength) (prev : Int)
    (hs : lfStrength c ((row ||| if plane ≠ 0 then c.subY else 0 : Nat) : Int) ((col ||| if plane ≠ 0 then c.subX else 0 : Nat) : Int) plane pass = .ok s)
    (h0 : s.lvl = 0) (hp : 0 < prev) (h : lfEdge c plane pass row col F = .ok F') : 0 < av1Level s.lvl prev ∧ F' = F :=
  ⟨by rw [av1Level, if_pos h0]; exact hp, C53_level_zero c plane pass row col F F' s hs h0 h⟩

/-! ## C102 limits and masks -/

/-- **C102, limits** (partial: sharpness 0 or above 4).  The limit is the one of the specification. -/
theorem C102_limit_partial (sharpness : Nat) (lvl : Int) (h : sharpness = 0 ∨ 4 < sharpness) (hs : sharpness ≤ 7) :
    lfLimit sharpness lvl = Spec.lfLimit sharpness lvl := by
  unfold lfLimit Spec.lfLimit lfShift
  rcases h with h | h
  · subst h
    simp only [Nat.lt_irrefl, if_false, if_true, gt_iff_lt]
    rw [if_neg (by decide), Int.shiftRight_zero]
    unfold maxI; split <;> omega
  · rw [if_pos (by omega), if_pos (by omega), if_neg (by omega), if_pos (by omega)]
    rw [Int.shiftRight_eq_div_pow]
    unfold clip3
    have : (lvl / ((2 ^ 2 : Nat) : Int)) = lvl / 4 := rfl
    rw [this]
    split
    · omega
    · split <;> omega

example : lfLimit 5 40 = 4 := rfl

/-- **C102 is false of the code** for sharpness 1 to 4: for all these and every level from 4 to `4 * (9 - sharpness) - 1`
the limit is below the one AV1 prescribes. -/
theorem C102_limit_refuted (sharpness : Nat) (lvl : Int) (h1 : 1 ≤ sharpness) (h4 : sharpness ≤ 4) (hl : 4 ≤ lvl)
    (hu : lvl < 4 * (9 - sharpness)) : lfLimit sharpness lvl < Spec.lfLimit sharpness lvl := by
  unfold lfLimit Spec.lfLimit lfShift
  rw [if_pos (by omega), if_neg (by omega), if_pos (by omega), if_neg (by omega), if_neg (by omega), Int.shiftRight_eq_div_pow]
  have : (lvl / ((2 ^ 2 : Nat) : Int)) = lvl / 4 := rfl
  rw [this]
  unfold clip3
  split
  · omega
  · split <;> omega

/-- The samples across an edge, nearest first. -/
def Taps.p (s : Taps) : List Int := [s.p0, s.p1, s.p2, s.p3, s.p4, s.p5, s.p6]
def Taps.q (s : Taps) : List Int := [s.q0, s.q1, s.q2, s.q3, s.q4, s.q5, s.q6]

/-- The samples of one side, up to the one at distance `n`, differ from their predecessors by at most `l`. -/
def StepsLe (side : List Int) (n : Nat) (l : Int) : Prop := ∀ i a b, i < n → side[i]? = some a → side[i + 1]? = some b → -l ≤ b - a ∧ b - a ≤ l
/-- The samples of one side at distances `m .. n` differ from the first by at most `l`. -/
def NearLe (side : List Int) (m n : Nat) (l : Int) : Prop := ∀ i a b, m ≤ i → i ≤ n → side[0]? = some a → side[i]? = some b → -l ≤ b - a ∧ b - a ≤ l

theorem absI_le (x l : Int) : absI x ≤ l ↔ -l ≤ x ∧ x ≤ l := by unfold absI; split <;> omega

theorem absI_neg_sub (a b : Int) : absI (a - b) = absI (b - a) := by unfold absI; split <;> split <;> omega

theorem stepsLe_succ (side : List Int) (n : Nat) (l : Int) :
    StepsLe side (n + 1) l ↔ StepsLe side n l ∧ ∀ a b, side[n]? = some a → side[n + 1]? = some b → -l ≤ b - a ∧ b - a ≤ l := by
  constructor
  · intro h
    exact ⟨fun i a b hi => h i a b (by omega), fun a b => h n a b (by omega)⟩
  · rintro ⟨h1, h2⟩ i a b hi ha hb
    rcases Nat.lt_or_ge i n with hc | hc
    · exact h1 i a b hc ha hb
    · rw [show i = n by omega] at ha hb
      exact h2 a b ha hb

theorem stepsLe_zero (side : List Int) (l : Int) : StepsLe side 0 l := fun i a b hi => by omega

theorem nearLe_succ (side : List Int) (m n : Nat) (l : Int) (hm : m ≤ n + 1) :
    NearLe side m (n + 1) l ↔ NearLe side m n l ∧ ∀ a b, side[0]? = some a → side[n + 1]? = some b → -l ≤ b - a ∧ b - a ≤ l := by
  constructor
  · intro h
    exact ⟨fun i a b h1 h2 => h i a b h1 (by omega), fun a b => h (n + 1) a b (by omega) (by omega)⟩
  · rintro ⟨h1, h2⟩ i a b hi hi' ha hb
    rcases Nat.lt_or_ge i (n + 1) with hc | hc
    · exact h1 i a b hi (by omega) ha hb
    · rw [show i = n + 1 by omega] at hb
      exact h2 a b ha hb

theorem nearLe_nil (side : List Int) (m n : Nat) (l : Int) (h : n < m) : NearLe side m n l := fun i a b h1 h2 => by omega

/-- **C102, masks.**  For all samples, limits, bit depths `b ≥ 8` and filter sizes 4, 8 and 16 (8 at most for chroma): an
edge is filtered exactly when the steps between successive samples of each side are within the limit, as far as the
filter reaches (one step for the filter of 4, two for chroma, three otherwise), and twice the step at the edge plus half
the outer difference is within the second limit; the variance is high when one of the first steps exceeds the
threshold; and a side counts as flat when its samples are within one grey level (of 8 bits) of the one at the edge. -/
theorem C102_masks (b size plane : Nat) (limit blimit thresh : Int) (s : Taps) (hs : size = 4 ∨ size = 8 ∨ size = 16) :
    let m := lfMasksOf b size plane limit blimit thresh s
    let n := if size = 4 then 1 else if plane = 0 then 3 else 2
    (m.hev = true ↔ ¬ (StepsLe s.p 1 (thresh * 2 ^ (b - 8)) ∧ StepsLe s.q 1 (thresh * 2 ^ (b - 8)))) ∧
    (m.filter = true ↔ StepsLe s.p n (limit * 2 ^ (b - 8)) ∧ StepsLe s.q n (limit * 2 ^ (b - 8)) ∧
      2 * (max (s.p0 - s.q0) (s.q0 - s.p0)) + max (s.p1 - s.q1) (s.q1 - s.p1) / 2 ≤ blimit * 2 ^ (b - 8)) ∧
    (m.flat = true ↔ 8 ≤ size ∧ NearLe s.p 1 n (2 ^ (b - 8)) ∧ NearLe s.q 1 n (2 ^ (b - 8))) ∧
    (m.flat2 = true ↔ size = 16 ∧ NearLe s.p 4 6 (2 ^ (b - 8)) ∧ NearLe s.q 4 6 (2 ^ (b - 8))) := by
  intro m n
  have h1 : ((1 <<< (b - 8) : Nat) : Int) = 2 ^ (b - 8) := by rw [Nat.one_shiftLeft]; norm_cast
  have hmax : ∀ x y : Int, max (x - y) (y - x) = absI (x - y) := by intro x y; unfold absI; split <;> omega
  have hlen : lfLen size plane ≥ 6 ↔ 2 ≤ n := by
    unfold lfLen; rcases hs with rfl | rfl | rfl <;> simp only [n] <;> by_cases hp : plane = 0 <;> simp [hp]
  have hlen8 : lfLen size plane ≥ 8 ↔ 3 ≤ n := by
    unfold lfLen; rcases hs with rfl | rfl | rfl <;> simp only [n] <;> by_cases hp : plane = 0 <;> simp [hp]
  have hn : n = 1 ∨ n = 2 ∨ n = 3 := by
    rcases hs with rfl | rfl | rfl <;> simp only [n] <;> by_cases hp : plane = 0 <;> simp [hp]
  have hn1 : n = 1 ↔ size = 4 := by
    rcases hs with rfl | rfl | rfl <;> simp only [n] <;> by_cases hp : plane = 0 <;> simp [hp]
  simp only [m, lfMasksOf, h1, shl_pow, hmax, ge_iff_le, gt_iff_lt]
  generalize (2 : Int) ^ (b - 8) = K
  have stp : ∀ l : Int, (StepsLe s.p 1 l ↔ absI (s.p1 - s.p0) ≤ l) ∧ (StepsLe s.q 1 l ↔ absI (s.q1 - s.q0) ≤ l) := by
    intro l
    constructor <;>
    · rw [stepsLe_succ, and_iff_right (stepsLe_zero _ _), absI_le]
      simp [Taps.p, Taps.q]
  have stp2 : ∀ l : Int, (StepsLe s.p 2 l ↔ absI (s.p1 - s.p0) ≤ l ∧ absI (s.p2 - s.p1) ≤ l) ∧
      (StepsLe s.q 2 l ↔ absI (s.q1 - s.q0) ≤ l ∧ absI (s.q2 - s.q1) ≤ l) := by
    intro l
    constructor <;>
    · rw [stepsLe_succ]
      first | rw [(stp l).1] | rw [(stp l).2]
      rw [absI_le, absI_le]
      simp [Taps.p, Taps.q]
  have stp3 : ∀ l : Int, (StepsLe s.p 3 l ↔ (absI (s.p1 - s.p0) ≤ l ∧ absI (s.p2 - s.p1) ≤ l) ∧ absI (s.p3 - s.p2) ≤ l) ∧
      (StepsLe s.q 3 l ↔ (absI (s.q1 - s.q0) ≤ l ∧ absI (s.q2 - s.q1) ≤ l) ∧ absI (s.q3 - s.q2) ≤ l) := by
    intro l
    constructor <;>
    · rw [stepsLe_succ]
      first | rw [(stp2 l).1] | rw [(stp2 l).2]
      rw [absI_le, absI_le, absI_le]
      simp [Taps.p, Taps.q]
  have nr1 : ∀ l : Int, (NearLe s.p 1 1 l ↔ absI (s.p1 - s.p0) ≤ l) ∧ (NearLe s.q 1 1 l ↔ absI (s.q1 - s.q0) ≤ l) := by
    intro l
    constructor <;>
    · rw [nearLe_succ _ _ _ _ (by omega), and_iff_right (nearLe_nil _ _ _ _ (by omega)), absI_le]
      simp [Taps.p, Taps.q]
  have nr2 : ∀ l : Int, (NearLe s.p 1 2 l ↔ absI (s.p1 - s.p0) ≤ l ∧ absI (s.p2 - s.p0) ≤ l) ∧
      (NearLe s.q 1 2 l ↔ absI (s.q1 - s.q0) ≤ l ∧ absI (s.q2 - s.q0) ≤ l) := by
    intro l
    constructor <;>
    · rw [nearLe_succ _ _ _ _ (by omega)]
      first | rw [(nr1 l).1] | rw [(nr1 l).2]
      rw [absI_le, absI_le]
      simp [Taps.p, Taps.q]
  have nr3 : ∀ l : Int, (NearLe s.p 1 3 l ↔ (absI (s.p1 - s.p0) ≤ l ∧ absI (s.p2 - s.p0) ≤ l) ∧ absI (s.p3 - s.p0) ≤ l) ∧
      (NearLe s.q 1 3 l ↔ (absI (s.q1 - s.q0) ≤ l ∧ absI (s.q2 - s.q0) ≤ l) ∧ absI (s.q3 - s.q0) ≤ l) := by
    intro l
    constructor <;>
    · rw [nearLe_succ _ _ _ _ (by omega)]
      first | rw [(nr2 l).1] | rw [(nr2 l).2]
      rw [absI_le, absI_le, absI_le]
      simp [Taps.p, Taps.q]
  have nr6 : ∀ l : Int, (NearLe s.p 4 6 l ↔ (absI (s.p4 - s.p0) ≤ l ∧ absI (s.p5 - s.p0) ≤ l) ∧ absI (s.p6 - s.p0) ≤ l) ∧
      (NearLe s.q 4 6 l ↔ (absI (s.q4 - s.q0) ≤ l ∧ absI (s.q5 - s.q0) ≤ l) ∧ absI (s.q6 - s.q0) ≤ l) := by
    intro l
    constructor <;>
    · rw [nearLe_succ _ _ _ _ (by omega), nearLe_succ _ _ _ _ (by omega), nearLe_succ _ _ _ _ (by omega),
        and_iff_right (nearLe_nil _ _ _ _ (by omega)), absI_le, absI_le, absI_le]
      simp [Taps.p, Taps.q]
  rw [(stp _).1, (stp _).2, (nr6 _).1, (nr6 _).2]
  refine ⟨?_, ?_, ?_, ?_⟩
  · simp only [Bool.or_eq_true, decide_eq_true_eq]; omega
  · rcases hn with h | h | h
    · rw [h, (stp _).1, (stp _).2]
      simp only [Bool.not_eq_true', Bool.or_eq_false_iff, Bool.and_eq_false_iff, decide_eq_false_iff_not, hlen, hlen8, h]
      omega
    · rw [h, (stp2 _).1, (stp2 _).2]
      simp only [Bool.not_eq_true', Bool.or_eq_false_iff, Bool.and_eq_false_iff, decide_eq_false_iff_not, hlen, hlen8, h]
      omega
    · rw [h, (stp3 _).1, (stp3 _).2]
      simp only [Bool.not_eq_true', Bool.or_eq_false_iff, Bool.and_eq_false_iff, decide_eq_false_iff_not, hlen, hlen8, h]
      omega
  · simp only [Bool.and_eq_true, Bool.not_eq_true', Bool.or_eq_false_iff, Bool.and_eq_false_iff, decide_eq_false_iff_not,
      decide_eq_true_eq, hlen8]
    rcases hn with h | h | h
    · have : size = 4 := hn1.mp h
      omega
    · rw [h, (nr2 _).1, (nr2 _).2]; omega
    · rw [h, (nr3 _).1, (nr3 _).2]; omega
  · simp only [Bool.and_eq_true, Bool.not_eq_true', Bool.or_eq_false_iff, decide_eq_false_iff_not, decide_eq_true_eq]
    omega

/-- Non-vacuity: a flat neighbourhood. -/
example : lfMasksOf 8 16 0 10 40 2 ⟨100, 100, 100, 100, 100, 100, 100, 99, 99, 99, 99, 99, 99, 99⟩ = ⟨false, true, true, true⟩ := rfl

/-! ## C103 the filter size -/

/-- Tx_Width and Tx_Height of the specification, in samples. -/
def txDim (t : Nat) (pass : Bool) : Nat := ((if pass then txHeight else txWidth)[t]?).getD 0

/-- **C103** (partial: vertical edges).  The filter length is the smaller transform width, at most 16 (luma) or 8 (chroma). -/
theorem C103_size_partial (t p : Nat) (ht : t < 19) (hp : p < 19) (plane : Nat) :
    filterSize t p false plane = .ok (Spec.lfSize plane (txDim p false) (txDim t false)) := by
  have e : ∀ k, k < 19 → goGet txWidth ((k : Nat) : Int) = .ok (txDim k false) := by decide +kernel
  unfold filterSize Spec.lfSize
  rw [if_pos rfl, e p hp, Res.ok_bind, e t ht, Res.ok_bind, pure_bind]
  by_cases h : plane = 0
  · rw [if_pos h, if_pos h]; rfl
  · rw [if_neg h, if_neg h]; rfl

/-- **C103 is false of the code** for horizontal edges: the length ignores the transform below the edge.  For all
transform sizes where that one is the shorter (and less than the maximum length) the result is too large. -/
theorem C103_size_refuted (t p : Nat) (ht : t < 19) (hp : p < 19) (plane : Nat) (h1 : txDim t true < txDim p true)
    (h2 : txDim t true < if plane = 0 then 16 else 8) :
    ∃ v, filterSize t p true plane = .ok v ∧ Spec.lfSize plane (txDim p true) (txDim t true) < v := by
  have e : ∀ k, k < 19 → goGet txHeight ((k : Nat) : Int) = .ok (txDim k true) := by decide +kernel
  unfold filterSize
  rw [if_neg (by decide), e p hp, Res.ok_bind, Res.ok_bind, pure_bind]
  refine ⟨_, rfl, ?_⟩
  unfold Spec.lfSize
  split <;> simp only [*, if_true, if_false] at h2 <;> omega

/-- Below a 16x16 transform, a 4x4 one: AV1 filters 4 samples, the code 16. -/
example : filterSize 0 2 true 0 = .ok 16 ∧ Spec.lfSize 0 (txDim 2 true) (txDim 0 true) = 4 := ⟨rfl, rfl⟩

/-! ## C104 the whole filter -/

/-- Reading all samples needs seven pixels before the edge. -/
theorem lfTaps_room {F : List (List Int)} {x y dx dy : Int} {t : Taps} (h : lfTaps F x y dx dy = .ok t) :
    0 ≤ y - dy * 7 ∧ 0 ≤ x - dx * 7 := by
  unfold lfTaps at h
  obtain ⟨_, -, h⟩ := Res.inv h
  obtain ⟨_, -, h⟩ := Res.inv h
  obtain ⟨_, -, h⟩ := Res.inv h
  obtain ⟨_, -, h⟩ := Res.inv h
  obtain ⟨_, -, h⟩ := Res.inv h
  obtain ⟨_, -, h⟩ := Res.inv h
  obtain ⟨_, -, h⟩ := Res.inv h
  obtain ⟨_, -, h⟩ := Res.inv h
  obtain ⟨_, -, h⟩ := Res.inv h
  obtain ⟨_, -, h⟩ := Res.inv h
  obtain ⟨_, -, h⟩ := Res.inv h
  obtain ⟨_, -, h⟩ := Res.inv h
  obtain ⟨_, -, h⟩ := Res.inv h
  obtain ⟨_, h14, h⟩ := Res.inv h
  obtain ⟨a, b, -⟩ := gget_inv h14
  exact ⟨a, b⟩

/-- The code's array of transform sizes: `[3][2][2]int`. -/
def LfCtx.Ok (c : LfCtx) : Prop := c.txSizes.length = 3 ∧ (∀ m ∈ c.txSizes, Shape 2 2 m) ∧ c.subX ≤ 1 ∧ c.subY ≤ 1

theorem at2_lt {α : Type} {H W : Nat} {m : List (List α)} (hs : Shape H W m) {i j : Nat} {a : α} (h : at2 m i j = some a) :
    i < H ∧ j < W := by
  unfold at2 at h
  cases hr : m[i]? with
  | none => simp [hr] at h
  | some r =>
    rw [hr] at h
    have hr' := List.getElem?_eq_some_iff.mp hr
    have h : r[j]? = some a := h
    have hj := (List.getElem?_eq_some_iff.mp h).1
    refine ⟨by rw [← hs.1]; exact hr'.1, ?_⟩
    rw [← hs.2 r (List.mem_of_getElem? hr)]; exact hj

theorem or_shr (n k : Nat) (hk : k ≤ 1) : (n ||| k) >>> k = n >>> k := by
  rcases (show k = 0 ∨ k = 1 by omega) with rfl | rfl
  · simp
  · rw [Nat.shiftRight_or_distrib]; simp

theorem lfEdge_id (c : LfCtx) (hc : c.Ok) (plane : Nat) (pass : Bool) (row col : Nat) (F F' : List (List Int))
    (h : lfEdge c plane pass row col F = .ok F') : F' = F := by
  unfold lfEdge at h
  split at h
  · unfold lfEdgeOn at h
    simp only [] at h
    generalize hsx : (if plane ≠ 0 then c.subX else 0) = sx at h
    generalize hsy : (if plane ≠ 0 then c.subY else 0) = sy at h
    have bx : sx ≤ 1 := by rw [← hsx]; split; exact hc.2.2.1; omega
    have by' : sy ≤ 1 := by rw [← hsy]; split; exact hc.2.2.2; omega
    obtain ⟨_, -, h⟩ := Res.inv h
    obtain ⟨txp, htp, h⟩ := Res.inv h
    obtain ⟨_, htx, h⟩ := Res.inv h
    have hsh := hc.2.1 _ (List.mem_of_getElem? (goGet_inv htp).2)
    obtain ⟨hr, hcx⟩ := at2_lt hsh (gget_inv htx).2.2
    rw [Int.toNat_natCast, or_shr _ _ (by omega), Nat.shiftRight_eq_div_pow] at hr hcx
    obtain ⟨_, -, h⟩ := Res.inv h
    obtain ⟨_, -, h⟩ := Res.inv h
    obtain ⟨_, -, h⟩ := Res.inv h
    obtain ⟨_, -, h⟩ := Res.inv h
    obtain ⟨_, -, h⟩ := Res.inv h
    obtain ⟨_, -, h⟩ := Res.inv h
    obtain ⟨_, -, h⟩ := Res.inv h
    obtain ⟨_, -, h⟩ := Res.inv h
    obtain ⟨_, -, h⟩ := Res.inv h
    obtain ⟨_, -, h⟩ := Res.inv h
    obtain ⟨_, -, h⟩ := Res.inv h
    refine forN_inv (fun _ t => t = F) ?_ h rfl
    intro i t t' _ _ ht h
    split at h
    · exfalso
      unfold sampleFiltering lfMasks at h
      obtain ⟨_, h, -⟩ := Res.inv h
      obtain ⟨_, h, -⟩ := Res.inv h
      have hroom := lfTaps_room h
      rw [Nat.shiftRight_eq_div_pow, Nat.shiftRight_eq_div_pow] at hroom
      cases pass
      · simp only [Bool.false_eq_true, if_false] at hroom
        rcases (show sx = 0 ∨ sx = 1 by omega) with rfl | rfl <;> simp only [Nat.pow_zero, Nat.pow_one] at hroom hcx <;> omega
      · simp only [if_true] at hroom
        rcases (show sy = 0 ∨ sy = 1 by omega) with rfl | rfl <;> simp only [Nat.pow_zero, Nat.pow_one] at hroom hr <;> omega
    · cases h; exact ht
  · cases h; rfl

/-- **C104 is false of the code.**  AV1's deblocking changes pixels next to block edges.  The code's never changes a
pixel: whatever the picture, the headers and the block data, if the filter returns, the picture is as before (it reads
seven pixels on the side before an edge, and its array of transform sizes has only 2 by 2 entries). -/
theorem C104_identity_refuted (c : LfCtx) (hc : c.Ok) (frame frame' : List (List (List Int))) (h : loopFilter c frame = .ok frame') :
    frame' = frame := by
  unfold loopFilter at h
  refine forN_inv (fun _ t => t = frame) ?_ h rfl
  clear h
  intro plane t t' _ _ ht h
  subst ht
  unfold lfPlane at h
  obtain ⟨on, -, h⟩ := Res.inv h
  split at h
  · obtain ⟨F, hF, h⟩ := Res.inv h
    obtain ⟨F1, h1, h⟩ := Res.inv h
    obtain ⟨F2, h2, h⟩ := Res.inv h
    have pass_id : ∀ pass (G G' : List (List Int)), lfPass c plane pass G = .ok G' → G' = G := by
      intro pass G G' hG
      unfold lfPass at hG
      refine forN_inv (fun _ t => t = G) ?_ hG rfl
      intro i u u' _ _ hu hG
      refine forN_inv (fun _ t => t = G) ?_ hG hu
      intro j v v' _ _ hv hG
      rw [lfEdge_id c hc _ _ _ _ _ _ hG, hv]
    have e1 := pass_id _ _ _ h1
    have e2 := pass_id _ _ _ h2
    rw [e2, e1] at h
    obtain ⟨-, hl, rfl⟩ := goSet_inv' h
    have hF' := (goGet_inv hF).2
    have := (List.getElem?_eq_some_iff.mp hF').2
    rw [← this, List.set_getElem_self]
  · cases h; rfl

/-- **C104, panics.**  The filter does not even return for a frame more than 8 pixels wide. -/
theorem C104_panics_refuted (c : LfCtx) (hc : c.Ok) (hp : 0 < c.numPlanes) (hw : 8 < c.frameWidth) (hh : 0 < c.frameHeight)
    (hr : 0 < c.miRows) (hm : 2 < c.miCols) (frame frame' : List (List (List Int))) : loopFilter c frame ≠ .ok frame' := by
  unfold loopFilter
  refine forN_never (i := 0) (by omega) (by omega) (fun t t' h => ?_) _
  unfold lfPlane at h
  rw [if_pos rfl, pure_bind, if_pos rfl] at h
  obtain ⟨F, -, h⟩ := Res.inv h
  obtain ⟨F1, h1, h⟩ := Res.inv h
  unfold lfPass at h1
  simp only [if_true] at h1
  have hs : 1 <<< c.subY = 1 ∨ 1 <<< c.subY = 2 := by
    rcases (show c.subY = 0 ∨ c.subY = 1 by have := hc.2.2.2; omega) with h | h <;> rw [h] <;> decide
  have hs' : 0 < 1 <<< c.subX := by rw [Nat.one_shiftLeft]; exact Nat.two_pow_pos _
  refine forN_never (i := 0) (by omega) ?_ ?_ _ h1
  · have : 1 ≤ (c.miRows + 1 <<< c.subX - 1) / (1 <<< c.subX) := (Nat.le_div_iff_mul_le hs').mpr (by omega)
    omega
  · intro u u' hu
    -- the unit of column 2
    obtain ⟨j, hj, hj2⟩ : ∃ j, j < (c.miCols + 1 <<< c.subY - 1) / (1 <<< c.subY) ∧ j * (1 <<< c.subY) = 2 := by
      rcases hs with e | e <;> rw [e]
      · exact ⟨2, by omega, by omega⟩
      · exact ⟨1, by omega, by omega⟩
    refine forN_never (i := j) (by omega) (by omega) ?_ _ hu
    intro v v' hv
    rw [hj2] at hv
    have hon : lfOnScreen c false ((2 * 4 : Nat) : Int) ((0 * (1 <<< c.subX) * 4 : Nat) : Int) = true := by
      unfold lfOnScreen
      rw [Nat.zero_mul, Nat.zero_mul, if_neg (by omega), if_neg (by omega), if_neg (by simp), if_neg (by simp)]
    rw [lfEdge, if_pos hon] at hv
    unfold lfEdgeOn at hv
    simp only [] at hv
    obtain ⟨_, -, hv⟩ := Res.inv hv
    obtain ⟨txp, htp, hv⟩ := Res.inv hv
    obtain ⟨_, htx, hv⟩ := Res.inv hv
    have hsh := hc.2.1 _ (List.mem_of_getElem? (goGet_inv htp).2)
    obtain ⟨_, hcx⟩ := at2_lt hsh (gget_inv htx).2.2
    simp at hcx

/-- A 16x16 frame of 4:2:0 content meets the hypotheses. -/
example : ({ frameWidth := 16, frameHeight := 16, miRows := 4, miCols := 4, subX := 1, subY := 1,
             txSizes := List.replicate 3 (List.replicate 2 (List.replicate 2 0)) } : LfCtx).Ok :=
  ⟨rfl, by intro m hm; rw [List.eq_of_mem_replicate hm]; exact Shape.replicate _ _ _, by decide, by decide⟩

/-- **C104, part that holds: which edges are considered.**  An edge outside the picture or on its border leaves the
picture as it is, whatever the state; an edge inside goes on to the tests of transform and block edges. -/
theorem C104_inside_partial (c : LfCtx) (plane : Nat) (across : Bool) (row col : Nat) (F : List (List Int)) :
    (¬ Spec.LfInside c.frameWidth c.frameHeight across ((col * 4 : Nat) : Int) ((row * 4 : Nat) : Int) → lfEdge c plane across row col F = .ok F) ∧
    (Spec.LfInside c.frameWidth c.frameHeight across ((col * 4 : Nat) : Int) ((row * 4 : Nat) : Int) →
      lfEdge c plane across row col F = lfEdgeOn c plane across row col F) := by
  have key : ∀ x y : Int, lfOnScreen c across x y = true ↔ Spec.LfInside c.frameWidth c.frameHeight across x y := by
    intro x y
    unfold lfOnScreen Spec.LfInside
    by_cases h1 : x ≥ c.frameWidth
    · rw [if_pos h1]; simp; omega
    · rw [if_neg h1]
      by_cases h2 : y ≥ c.frameHeight
      · rw [if_pos h2]; simp; omega
      · rw [if_neg h2]
        cases across
        · by_cases h3 : x = 0 <;> simp [h3] <;> omega
        · by_cases h3 : y = 0 <;> simp [h3] <;> omega
  unfold lfEdge
  constructor
  · intro h
    rw [if_neg (fun hh => h ((key _ _).mp hh))]; rfl
  · intro h
    rw [if_pos ((key _ _).mpr h)]

/-- **C104, part that holds: which edges inside the picture are filtered**, in both directions. -/
theorem C104_selected_partial (xP yP bw bh tw th skip : Nat) (intra : Bool) :
    (lfApply false xP yP bw bh tw th skip intra = true ↔ Spec.LfSelected xP bw tw (skip != 0) intra) ∧
    (lfApply true xP yP bw bh tw th skip intra = true ↔ Spec.LfSelected yP bh th (skip != 0) intra) := by
  unfold lfApply Spec.LfSelected
  simp [Nat.dvd_iff_mod_eq_zero, or_assoc]

/-- At (8, 4) inside a skipped 16x16 inter block with 8x8 transforms the transform edge is not filtered; in an intra block it is. -/
example : lfApply false 8 4 16 16 8 8 1 false = false ∧ lfApply false 8 4 16 16 8 8 1 true = true ∧
    Spec.LfInside 16 16 false 8 4 ∧ ¬ Spec.LfInside 16 16 false 0 4 := by
  refine ⟨rfl, rfl, ⟨by decide, by decide, by decide⟩, fun h => absurd h.2.2 (by decide)⟩

/-- **C104, the edges AV1 filters make the code panic.**  If the filter returns from an edge inside the picture, then that edge is
not one AV1 filters: it is not selected by the blocks and transforms found there, or its level is 0. -/
theorem C104_filtered_refuted (c : LfCtx) (hc : c.Ok) (plane : Nat) (across : Bool) (row col : Nat) (F F' : List (List Int))
    (hin : Spec.LfInside c.frameWidth c.frameHeight across ((col * 4 : Nat) : Int) ((row * 4 : Nat) : Int))
    (h : lfEdge c plane across row col F = .ok F') :
    ∃ sx sy size tx pl skip ref bw bh tw th s,
      sx = (if plane = 0 then 0 else c.subX) ∧ sy = (if plane = 0 then 0 else c.subY) ∧
      at2 c.miSizes (row ||| sy) (col ||| sx) = some size ∧ getPlaneResidualSize c.subX c.subY size plane = .ok pl ∧
      blockWidth[pl]? = some bw ∧ blockHeight[pl]? = some bh ∧
      (∃ m, c.txSizes[plane]? = some m ∧ at2 m (row >>> sy) (col >>> sx) = some tx) ∧ txWidth[tx]? = some tw ∧ txHeight[tx]? = some th ∧
      at2 c.skips (row ||| sy) (col ||| sx) = some skip ∧ at2 c.refFrames (row ||| sy) (col ||| sx) = some ref ∧
      lfStrength c ((row ||| sy : Nat) : Int) ((col ||| sx : Nat) : Int) plane across = .ok s ∧
      ¬ ((if across then Spec.LfSelected ((row * 4) >>> sy) bh th (skip != 0) (decide (ref ≤ 0))
          else Spec.LfSelected ((col * 4) >>> sx) bw tw (skip != 0) (decide (ref ≤ 0))) ∧ 0 < s.lvl) := by
  rw [(C104_inside_partial c plane across row col F).2 hin] at h
  unfold lfEdgeOn at h
  simp only [] at h
  generalize hsx : (if plane ≠ 0 then c.subX else 0) = sx at h
  generalize hsy : (if plane ≠ 0 then c.subY else 0) = sy at h
  have bx : sx ≤ 1 := by rw [← hsx]; split; exact hc.2.2.1; omega
  have by' : sy ≤ 1 := by rw [← hsy]; split; exact hc.2.2.2; omega
  obtain ⟨size, h1, h⟩ := Res.inv h
  obtain ⟨txp, htp, h⟩ := Res.inv h
  obtain ⟨tx, htx, h⟩ := Res.inv h
  have hsh := hc.2.1 _ (List.mem_of_getElem? (goGet_inv htp).2)
  obtain ⟨hr, hcx⟩ := at2_lt hsh (gget_inv htx).2.2
  rw [Int.toNat_natCast, or_shr _ _ (by omega), Nat.shiftRight_eq_div_pow] at hr hcx
  obtain ⟨pl, h2, h⟩ := Res.inv h
  obtain ⟨skip, h3, h⟩ := Res.inv h
  obtain ⟨ref, h4, h⟩ := Res.inv h
  obtain ⟨_, -, h⟩ := Res.inv h
  obtain ⟨bw, h5, h⟩ := Res.inv h
  obtain ⟨bh, h6, h⟩ := Res.inv h
  obtain ⟨tw, h7, h⟩ := Res.inv h
  obtain ⟨th, h8, h⟩ := Res.inv h
  obtain ⟨_, -, h⟩ := Res.inv h
  obtain ⟨s, hs, h⟩ := Res.inv h
  obtain ⟨s', hs', h⟩ := Res.inv h
  have e : s' = s := by
    split at hs'
    · rw [hs] at hs'; cases hs'; rfl
    · cases hs'; rfl
  rw [e] at h
  refine ⟨sx, sy, size, tx, pl, skip, ref, bw, bh, tw, th, s, ?_, ?_, (gget_inv h1).2.2, h2, (goGet_inv h5).2, (goGet_inv h6).2,
    ⟨txp, (goGet_inv htp).2, ?_⟩, (goGet_inv h7).2, (goGet_inv h8).2, (gget_inv h3).2.2, (gget_inv h4).2.2, hs, ?_⟩
  · rw [← hsx]; by_cases hp : plane = 0 <;> simp [hp]
  · rw [← hsy]; by_cases hp : plane = 0 <;> simp [hp]
  · have := (gget_inv htx).2.2
    rw [Int.toNat_natCast, Int.toNat_natCast, or_shr _ _ by', or_shr _ _ bx] at this
    exact this
  · rintro ⟨ha, hlvl⟩
    have sel := C104_selected_partial ((col * 4) >>> sx) ((row * 4) >>> sy) bw bh tw th skip (decide (ref ≤ 0))
    have happ : lfApply across ((col * 4) >>> sx) ((row * 4) >>> sy) bw bh tw th skip (decide (ref ≤ 0)) = true := by
      cases across
      · exact sel.1.mpr ha
      · exact sel.2.mpr ha
    change forN _ (3 + 1) 0 F = .ok F' at h
    rw [forN] at h
    obtain ⟨_, h, -⟩ := Res.inv h
    rw [happ, if_pos (by simp [hlvl])] at h
    unfold sampleFiltering lfMasks at h
    obtain ⟨_, h, -⟩ := Res.inv h
    obtain ⟨_, h, -⟩ := Res.inv h
    have hroom := lfTaps_room h
    rw [Nat.shiftRight_eq_div_pow, Nat.shiftRight_eq_div_pow] at hroom
    cases across
    · simp only [Bool.false_eq_true, if_false] at hroom
      rcases (show sx = 0 ∨ sx = 1 by omega) with rfl | rfl <;> simp only [Nat.pow_zero, Nat.pow_one] at hroom hcx <;> omega
    · simp only [if_true] at hroom
      rcases (show sy = 0 ∨ sy = 1 by omega) with rfl | rfl <;> simp only [Nat.pow_zero, Nat.pow_one] at hroom hr <;> omega

/-- In a picture of 8 by 8 pixels with all levels 0, the edge between its first and second column of units is inside, and the filter returns
the picture as it is. -/
example : Spec.LfInside 8 8 false ((1 * 4 : Nat) : Int) ((0 * 4 : Nat) : Int) ∧
    (let c : LfCtx := { frameWidth := 8, frameHeight := 8, miRows := 2, miCols := 2, miSizes := [[0, 0], [0, 0]],
                        txSizes := List.replicate 3 (List.replicate 2 (List.replicate 2 0)), skips := [[0, 0], [0, 0]], refFrames := [[0, 0], [0, 0]],
                        segmentIds := [[0, 0], [0, 0]], yModes := [[0, 0], [0, 0]], deltaLFs := [[[0], [0]], [[0], [0]]],
                        lf := { level := [0, 0, 0, 0] } }
     lfEdge c 0 false 0 1 [[1, 2, 3, 4, 5, 6, 7, 8]] = .ok [[1, 2, 3, 4, 5, 6, 7, 8]]) :=
  ⟨⟨by decide, by decide, by decide⟩, by decide +kernel⟩

end Gov1
