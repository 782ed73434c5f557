import Verif.Props.CdefDir
import Verif.Lemmas.Symbol
import Mathlib.Tactic.SplitIfs
/-! # C51, C106-C108: the filter of CDEF -/
set_option linter.unusedSimpArgs false
namespace Gov1
open Spec

/-! ## C51 the constraint -/

theorem constrain_eq (d t dm : Int) (ht : 0 ≤ t) : constrain d t dm = .ok (cdefConstrain d t dm) := by
  unfold constrain cdefConstrain
  by_cases h0 : t = 0
  · rw [if_pos h0, if_pos h0]; rfl
  · rw [if_neg h0, if_neg h0, floorLog2Int, if_neg (by omega), floorLog2_eq _ (by omega), Res.ok_bind]
    refine congrArg Except.ok ?_
    have hl : log2 t = ((Nat.log2 t.toNat : Nat) : Int) := rfl
    rw [← hl]
    have e1 : (maxI 0 (dm - log2 t)).toNat = (dm - log2 t).toNat := by unfold maxI; split <;> omega
    have e2 : absI d = (d.natAbs : Int) := by unfold absI; split <;> omega
    rw [e1, e2, Int.shiftRight_eq_div_pow]
    generalize hz : t - (d.natAbs : Int) / ((2 ^ (dm - log2 t).toNat : Nat) : Int) = z
    have hz' : t - (d.natAbs : Int) / 2 ^ (dm - log2 t).toNat = z := by rw [← hz]; norm_cast
    rw [hz']
    have e3 : clip3 0 (d.natAbs : Int) z = max 0 (min (d.natAbs : Int) z) := by
      unfold clip3; split
      · omega
      · split <;> omega
    rw [e3]
    generalize hm : max 0 (min (d.natAbs : Int) z) = m
    rcases lt_trichotomy d 0 with h | h | h
    · rw [if_pos h, Int.sign_eq_neg_one_of_neg h]
    · subst h
      have : m = 0 := by simp at hm; omega
      rw [this]; simp
    · rw [if_neg (by omega), Int.sign_eq_one_of_pos h]

/-- **C51, the constraint.**  For every difference, every strength and every damping, the constrained difference exists,
has the sign of the difference (or is 0), and exceeds neither the difference nor the strength. -/
theorem C51_constrain (d t dm : Int) (ht : 0 ≤ t) :
    ∃ v, constrain d t dm = .ok v ∧ v.natAbs ≤ d.natAbs ∧ v.natAbs ≤ t.natAbs ∧ (0 ≤ d → 0 ≤ v) ∧ (d ≤ 0 → v ≤ 0) := by
  refine ⟨_, constrain_eq d t dm ht, ?_⟩
  unfold cdefConstrain
  by_cases h0 : t = 0
  · rw [if_pos h0]; simp
  · rw [if_neg h0]
    have hq : 0 ≤ (d.natAbs : Int) / 2 ^ (dm - log2 t).toNat := Int.ediv_nonneg (by omega) (by positivity)
    generalize (d.natAbs : Int) / 2 ^ (dm - log2 t).toNat = q at hq
    rcases lt_trichotomy d 0 with h | h | h
    · rw [Int.sign_eq_neg_one_of_neg h]; omega
    · subst h; simp
    · rw [Int.sign_eq_one_of_pos h]; omega

/-- **C51, small and large differences.**  A difference whose excess over the strength is not positive passes unchanged;
one that is large for the damping is dropped. -/
theorem C51_constrain_ends (d t dm : Int) (ht : 0 < t) :
    ((d.natAbs : Int) + (d.natAbs : Int) / 2 ^ (dm - log2 t).toNat ≤ t → constrain d t dm = .ok d) ∧
    (t * 2 ^ (dm - log2 t).toNat ≤ d.natAbs → constrain d t dm = .ok 0) := by
  rw [constrain_eq d t dm (by omega)]
  unfold cdefConstrain
  rw [if_neg (by omega)]
  constructor
  · intro h
    generalize (d.natAbs : Int) / 2 ^ (dm - log2 t).toNat = q at h
    refine congrArg Except.ok ?_
    rcases lt_trichotomy d 0 with h | h | h
    · rw [Int.sign_eq_neg_one_of_neg h]; omega
    · subst h; simp
    · rw [Int.sign_eq_one_of_pos h]; omega
  · intro h
    have : t ≤ (d.natAbs : Int) / 2 ^ (dm - log2 t).toNat := Int.le_ediv_of_mul_le (by positivity) h
    generalize (d.natAbs : Int) / 2 ^ (dm - log2 t).toNat = q at this
    refine congrArg Except.ok ?_
    rw [show max 0 (min (d.natAbs : Int) (t - q)) = 0 by omega, mul_zero]

example : constrain (-7) 4 5 = .ok (-4) ∧ constrain 12 4 4 = .ok 1 ∧ constrain 16 4 4 = .ok 0 := by
  rw [constrain_eq _ _ _ (by decide), constrain_eq _ _ _ (by decide), constrain_eq _ _ _ (by decide)]
  decide +kernel

/-! ## One pixel -/

/-- The pixel at an offset from row `py`, column `px` of a plane, if it is inside the frame (`4 * miRows` luma rows,
`4 * miCols` luma columns; a pixel of the plane covers `2 ^ subY` rows and `2 ^ subX` columns of luma). -/
def neighbour (c : CdefCtx) (F : List (List Int)) (py px subX subY : Nat) (off : Int × Int) : Option Int :=
  let y := (py : Int) + off.1
  let x := (px : Int) + off.2
  if 0 ≤ y ∧ y * 2 ^ subY < 4 * c.miRows ∧ 0 ≤ x ∧ x * 2 ^ subX < 4 * c.miCols then at2 F y.toNat x.toNat else none

/-- The array of a plane covers the frame. -/
def Covers (c : CdefCtx) (H W subX subY : Nat) : Prop := 4 * c.miRows ≤ H * 2 ^ subY ∧ 4 * c.miCols ≤ W * 2 ^ subX

theorem cdefDirGet_ok : ∀ d : Nat, d < 8 → ∀ k : Nat, k < 2 → cdefDirGet (d : Int) k 0 = .ok (cdefOffset d k).1 ∧
    cdefDirGet (d : Int) k 1 = .ok (cdefOffset d k).2 := by decide +kernel

theorem shl_shr_lt (y : Int) (s : Nat) (n : Nat) : ((y <<< s) >>> (2 : Nat) < n ↔ y * 2 ^ s < 4 * n) ∧
    (0 ≤ (y <<< s) >>> (2 : Nat) ↔ 0 ≤ y) := by
  rw [Int.shiftLeft_eq, Int.shiftRight_eq_div_pow]
  have hp : (0 : Int) < 2 ^ s := by positivity
  constructor
  · generalize y * 2 ^ s = z; omega
  · rw [Int.le_ediv_iff_mul_le (by norm_num), zero_mul]
    constructor
    · intro h; exact nonneg_of_mul_nonneg_left h hp
    · intro h; exact mul_nonneg h hp.le

theorem cdefGetAt_ok {c : CdefCtx} {H W subX subY : Nat} {F : List (List Int)} (hF : Shape H W F) (hc : Covers c H W subX subY)
    (py px : Nat) {d k : Nat} (hd : d < 8) (hk : k < 2) (sign : Int) :
    cdefGetAt c F py px (d : Int) k sign subX subY =
      .ok (neighbour c F py px subX subY (sign * (cdefOffset d k).1, sign * (cdefOffset d k).2)) := by
  obtain ⟨e1, e2⟩ := cdefDirGet_ok d hd k hk
  rw [cdefGetAt, e1, Res.ok_bind, e2, Res.ok_bind]
  simp only []
  unfold neighbour isInsideFilterRegion
  simp only []
  generalize (py : Int) + sign * (cdefOffset d k).1 = y
  generalize (px : Int) + sign * (cdefOffset d k).2 = x
  obtain ⟨a1, a2⟩ := shl_shr_lt y subY c.miRows
  obtain ⟨b1, b2⟩ := shl_shr_lt x subX c.miCols
  by_cases h : 0 ≤ y ∧ y * 2 ^ subY < 4 * c.miRows ∧ 0 ≤ x ∧ x * 2 ^ subX < 4 * c.miCols
  · rw [if_pos h, if_pos (by simp only [Bool.and_eq_true, decide_eq_true_eq, ge_iff_le, a1, a2, b1, b2]; tauto)]
    obtain ⟨h1, h2, h3, h4⟩ := h
    lift y to Nat using h1
    lift x to Nat using h3
    have hy : y < H := by
      by_contra hn
      have : H * 2 ^ subY ≤ y * 2 ^ subY := Nat.mul_le_mul_right _ (by omega)
      have h2' : y * 2 ^ subY < 4 * c.miRows := by exact_mod_cast h2
      have := hc.1
      omega
    have hx : x < W := by
      by_contra hn
      have : W * 2 ^ subX ≤ x * 2 ^ subX := Nat.mul_le_mul_right _ (by omega)
      have h4' : x * 2 ^ subX < 4 * c.miCols := by exact_mod_cast h4
      have := hc.2
      omega
    obtain ⟨v, hv⟩ := hF.at2 hy hx
    rw [gget_at2 hv, Res.ok_bind]
    simp only [Int.toNat_natCast, hv]; rfl
  · rw [if_neg h, if_neg (by simp only [Bool.and_eq_true, decide_eq_true_eq, ge_iff_le, a1, a2, b1, b2]; tauto)]
    rfl

/-- The taps of a list that are available, with their pixels. -/
def avail (px : Int × Int → Option Int) (L : List CdefTap) : List (CdefTap × Int) :=
  L.filterMap (fun t => (px t.off).map (fun v => (t, v)))

/-- The accumulators after the taps `L`. -/
def AccIs (px : Int × Int → Option Int) (x pri sec damping : Int) (L : List CdefTap) (a : CdefAcc) : Prop :=
  a.sum = ((avail px L).map (fun tv => tv.1.weight * cdefConstrain (tv.2 - x) (if tv.1.primary then pri else sec) damping)).sum ∧
  a.max = ((avail px L).map (·.2)).foldl max x ∧ a.min = ((avail px L).map (·.2)).foldl min x

theorem cdefTap_ok {px : Int × Int → Option Int} {x pri sec damping : Int} {L : List CdefTap} {a : CdefAcc}
    (h : AccIs px x pri sec damping L a) (t : CdefTap) (hp : 0 ≤ pri) (hs : 0 ≤ sec) :
    ∃ a', cdefTap x damping (if t.primary then pri else sec) t.weight (px t.off) a = .ok a' ∧
      AccIs px x pri sec damping (L ++ [t]) a' := by
  obtain ⟨h1, h2, h3⟩ := h
  cases hv : px t.off with
  | none =>
    refine ⟨a, rfl, ?_⟩
    have : avail px (L ++ [t]) = avail px L := by simp [avail, hv]
    unfold AccIs
    rw [this]; exact ⟨h1, h2, h3⟩
  | some v =>
    rw [cdefTap, constrain_eq _ _ _ (by split <;> assumption), Res.ok_bind]
    refine ⟨_, rfl, ?_⟩
    have : avail px (L ++ [t]) = avail px L ++ [(t, v)] := by simp [avail, hv]
    unfold AccIs
    rw [this]
    simp only [List.map_append, List.map_cons, List.map_nil, List.sum_append, List.sum_cons, List.sum_nil, List.foldl_append,
      List.foldl_cons, List.foldl_nil, add_zero]
    refine ⟨by rw [h1], ?_, ?_⟩
    · rw [← h2]; unfold maxI; split <;> omega
    · rw [← h3]; unfold minI; split <;> omega

theorem foldl_bounds (l : List Int) (x : Int) : l.foldl min x ≤ x ∧ x ≤ l.foldl max x ∧
    (∀ v ∈ l, l.foldl min x ≤ v ∧ v ≤ l.foldl max x) ∧ (∀ lo, lo ≤ x → (∀ v ∈ l, lo ≤ v) → lo ≤ l.foldl min x) ∧
    (∀ hi, x ≤ hi → (∀ v ∈ l, v ≤ hi) → l.foldl max x ≤ hi) := by
  induction l using List.reverseRecOn with
  | nil => simp
  | append_singleton l v ih =>
    obtain ⟨h1, h2, h3, h4, h5⟩ := ih
    simp only [List.foldl_append, List.foldl_cons, List.foldl_nil, List.mem_append, List.mem_singleton]
    refine ⟨by omega, by omega, ?_, ?_, ?_⟩
    · rintro w (hw | rfl)
      · have := h3 w hw; omega
      · omega
    · intro lo hlo hall
      have := h4 lo hlo (fun w hw => hall w (Or.inl hw))
      have := hall v (Or.inr rfl)
      omega
    · intro hi hhi hall
      have := h5 hi hhi (fun w hw => hall w (Or.inl hw))
      have := hall v (Or.inr rfl)
      omega

theorem round16 (s : Int) : (8 + s - (if s < 0 then 1 else 0)) >>> (4 : Nat) = s.sign * (((s.natAbs : Int) + 8) / 16) := by
  rw [Int.shiftRight_eq_div_pow]
  rcases lt_trichotomy s 0 with h | h | h
  · rw [if_pos h, Int.sign_eq_neg_one_of_neg h]; omega
  · subst h; rfl
  · rw [if_neg (by omega), Int.sign_eq_one_of_pos h]; omega

/-- The weights the code uses: always those of even strengths. -/
theorem taps_zero (b : Nat) (pri : Int) (h0 : 0 ≤ pri) (h1 : pri < 2 ^ b) : (pri >>> b) % 2 = 0 := by
  rw [Int.shiftRight_eq_div_pow, Int.ediv_eq_zero_of_lt h0 (by exact_mod_cast h1)]; rfl

theorem cdefSide_ok {c : CdefCtx} {H W subX subY : Nat} {F : List (List Int)} (hF : Shape H W F) (hc : Covers c H W subX subY)
    {py px : Nat} {pri sec damping : Int} {d : Nat} (hd : d < 8) (hp : 0 ≤ pri) (hs : 0 ≤ sec) (hb : pri < 2 ^ c.bitDepth)
    {x : Int} {k : Nat} (hk : k < 2) (sign : Int) {L : List CdefTap} {a : CdefAcc}
    (h : AccIs (neighbour c F py px subX subY) x pri sec damping L a) :
    ∃ a', cdefSide c F py px pri sec damping (d : Int) subX subY x k sign a = .ok a' ∧
      AccIs (neighbour c F py px subX subY) x pri sec damping (L ++
        [{ off := (sign * (cdefOffset d k).1, sign * (cdefOffset d k).2), weight := if k = 0 then 4 else 2, primary := true },
         { off := (sign * (cdefOffset ((d + 6) % 8) k).1, sign * (cdefOffset ((d + 6) % 8) k).2),
           weight := if k = 0 then 2 else 1, primary := false },
         { off := (sign * (cdefOffset ((d + 2) % 8) k).1, sign * (cdefOffset ((d + 2) % 8) k).2),
           weight := if k = 0 then 2 else 1, primary := false }]) a' := by
  have hm : ((d : Int) - 2) % 8 = (((d + 6) % 8 : Nat) : Int) := by omega
  have hq : ((d : Int) + 2) % 8 = (((d + 2) % 8 : Nat) : Int) := by omega
  have ht1 : gget cdefPriTaps 0 (k : Int) = .ok (if k = 0 then 4 else 2) := by
    rcases (show k = 0 ∨ k = 1 by omega) with rfl | rfl <;> rfl
  have ht2 : gget cdefSecTaps 0 (k : Int) = .ok (if k = 0 then 2 else 1) := by
    rcases (show k = 0 ∨ k = 1 by omega) with rfl | rfl <;> rfl
  obtain ⟨a1, e1, h⟩ := cdefTap_ok h
    { off := (sign * (cdefOffset d k).1, sign * (cdefOffset d k).2), weight := if k = 0 then 4 else 2, primary := true } hp hs
  obtain ⟨a2, e2, h⟩ := cdefTap_ok h
    { off := (sign * (cdefOffset ((d + 6) % 8) k).1, sign * (cdefOffset ((d + 6) % 8) k).2), weight := if k = 0 then 2 else 1, primary := false } hp hs
  obtain ⟨a3, e3, h⟩ := cdefTap_ok h
    { off := (sign * (cdefOffset ((d + 2) % 8) k).1, sign * (cdefOffset ((d + 2) % 8) k).2), weight := if k = 0 then 2 else 1, primary := false } hp hs
  refine ⟨a3, ?_, ?_⟩
  · simp only [if_true, Bool.false_eq_true, if_false] at e1 e2 e3
    rw [cdefSide, cdefGetAt_ok hF hc py px hd hk, Res.ok_bind, taps_zero _ _ hp hb, ht1, Res.ok_bind, e1, Res.ok_bind, ht2, Res.ok_bind,
      hm, cdefGetAt_ok hF hc py px (by omega) hk, Res.ok_bind, e2, Res.ok_bind, hq, cdefGetAt_ok hF hc py px (by omega) hk, Res.ok_bind, e3]
  · simpa using h

theorem cdefPixel_ok {c : CdefCtx} {H W subX subY : Nat} {F : List (List Int)} (hF : Shape H W F) (hc : Covers c H W subX subY)
    {py px : Nat} {pri sec : Int} (damping : Int) {d : Nat} (hd : d < 8) (hp : 0 ≤ pri) (hs : 0 ≤ sec) (hb : pri < 2 ^ c.bitDepth)
    {x : Int} (hx : at2 F py px = some x) :
    Gov1.cdefPixel c F py px pri sec damping (d : Int) subX subY =
      .ok (Spec.cdefPixel (4, 2) pri sec damping d x (neighbour c F py px subX subY)) := by
  rw [Gov1.cdefPixel, gget_at2 hx, Res.ok_bind]
  simp only []
  have h0 : AccIs (neighbour c F py px subX subY) x pri sec damping [] { sum := 0, max := x, min := x } := by
    simp [AccIs, avail]
  obtain ⟨a1, e1, h1⟩ := cdefSide_ok hF hc hd hp hs hb (k := 0) (by omega) (-1) h0
  obtain ⟨a2, e2, h2⟩ := cdefSide_ok hF hc hd hp hs hb (k := 0) (by omega) 1 h1
  obtain ⟨a3, e3, h3⟩ := cdefSide_ok hF hc hd hp hs hb (k := 1) (by omega) (-1) h2
  obtain ⟨a4, e4, h4⟩ := cdefSide_ok hF hc hd hp hs hb (k := 1) (by omega) 1 h3
  rw [e1, Res.ok_bind, e2, Res.ok_bind, e3, Res.ok_bind, e4, Res.ok_bind]
  refine congrArg Except.ok ?_
  have hL : ∀ L, L = cdefTaps (4, 2) d → AccIs (neighbour c F py px subX subY) x pri sec damping L a4 →
      clip3 a4.min a4.max (x + (8 + a4.sum - if a4.sum < 0 then 1 else 0) >>> (4 : Nat)) =
        Spec.cdefPixel (4, 2) pri sec damping d x (neighbour c F py px subX subY) := by
    rintro L rfl ⟨g1, g2, g3⟩
    rw [round16]
    unfold Spec.cdefPixel
    simp only []
    rw [show (cdefTaps (4, 2) d).filterMap (fun t => (neighbour c F py px subX subY t.off).map (fun v => (t, v)))
      = avail (neighbour c F py px subX subY) (cdefTaps (4, 2) d) from rfl, ← g1, ← g2, ← g3]
    have hb := foldl_bounds ((avail (neighbour c F py px subX subY) (cdefTaps (4, 2) d)).map (·.2)) x
    rw [← g2, ← g3] at hb
    obtain ⟨b1, b2, -⟩ := hb
    unfold clip3
    split
    · omega
    · split <;> omega
  exact hL _ rfl h4

/-- **C51, filtered pixels.**  For every picture, pixel, direction, strengths and damping: the filtered pixel lies between
any bounds that hold for the pixel and for the pixels inside the frame the filter looks at. -/
theorem C51_pixel (c : CdefCtx) (H W subX subY : Nat) (F : List (List Int)) (hF : Shape H W F) (hc : Covers c H W subX subY)
    (py px : Nat) (pri sec damping : Int) (d : Nat) (hd : d < 8) (hp : 0 ≤ pri) (hs : 0 ≤ sec) (hb : pri < 2 ^ c.bitDepth)
    (x : Int) (hx : at2 F py px = some x) (lo hi : Int) (hlx : lo ≤ x) (hhx : x ≤ hi)
    (hn : ∀ off v, (∃ t ∈ cdefTaps (4, 2) d, t.off = off) → neighbour c F py px subX subY off = some v → lo ≤ v ∧ v ≤ hi) :
    ∃ v, Gov1.cdefPixel c F py px pri sec damping (d : Int) subX subY = .ok v ∧ lo ≤ v ∧ v ≤ hi := by
  refine ⟨_, cdefPixel_ok hF hc damping hd hp hs hb hx, ?_⟩
  unfold Spec.cdefPixel
  simp only []
  have hb := foldl_bounds ((avail (neighbour c F py px subX subY) (cdefTaps (4, 2) d)).map (·.2)) x
  have hall : ∀ v ∈ (avail (neighbour c F py px subX subY) (cdefTaps (4, 2) d)).map (·.2), lo ≤ v ∧ v ≤ hi := by
    intro v hv
    simp only [avail, List.mem_map, List.mem_filterMap, Option.map_eq_some_iff] at hv
    obtain ⟨⟨t', w⟩, ⟨t, ht, u, hu, he⟩, rfl⟩ := hv
    rw [← show u = w from congrArg Prod.snd he]
    exact hn t.off u ⟨t, ht, rfl⟩ hu
  rw [show (cdefTaps (4, 2) d).filterMap (fun t => (neighbour c F py px subX subY t.off).map (fun v => (t, v)))
      = avail (neighbour c F py px subX subY) (cdefTaps (4, 2) d) from rfl]
  obtain ⟨b1, b2, b3, b4, b5⟩ := hb
  have c1 := b4 lo hlx (fun v hv => (hall v hv).1)
  have c2 := b5 hi hhx (fun v hv => (hall v hv).2)
  generalize (_ : Int) * (_ / 16) = z
  omega

/-- A picture of 16x16 with a step: the pixel at the step is moved, within the range of its neighbours. -/
example : Gov1.cdefPixel { miRows := 4, miCols := 4 } (List.replicate 16 [0, 0, 0, 0, 0, 0, 0, 0, 3, 3, 3, 3, 3, 3, 3, 3]) 5 7 4 2 5 2 0 0
    = .ok 2 := by
  have h := cdefPixel_ok (c := { miRows := 4, miCols := 4 }) (H := 16) (W := 16) (subX := 0) (subY := 0)
    (F := List.replicate 16 [0, 0, 0, 0, 0, 0, 0, 0, 3, 3, 3, 3, 3, 3, 3, 3]) (py := 5) (px := 7) (pri := 4) (sec := 2) (d := 2) (x := 0)
    ⟨rfl, by decide⟩ (by unfold Covers; decide) 5 (by decide) (by decide) (by decide) (by decide) rfl
  have e : Spec.cdefPixel (4, 2) 4 2 5 2 0 (neighbour { miRows := 4, miCols := 4 }
      (List.replicate 16 [0, 0, 0, 0, 0, 0, 0, 0, 3, 3, 3, 3, 3, 3, 3, 3]) 5 7 0 0) = 2 := by decide +kernel
  rw [e] at h
  exact h

/-! ## C106 the filter on a block -/

/-- A nest of loops that writes a rectangle, each entry with a value that does not depend on the entries written. -/
theorem fillRect {H W : Nat} {G : List (List Int)} (hG : Shape H W G) {y0 x0 h w : Nat} (hy : y0 + h ≤ H) (hx : x0 + w ≤ W)
    (f : Nat → Nat → Res Int) (val : Nat → Nat → Int) (hf : ∀ i j, i < h → j < w → f i j = .ok (val (y0 + i) (x0 + j))) :
    ∃ G', forN (fun i G => forN (fun j G => do
        let v ← f i j
        gset G ((y0 + i : Nat) : Int) ((x0 + j : Nat) : Int) v) w 0 G) h 0 G = .ok G' ∧ Shape H W G' ∧
      ∀ y x, at2 G' y x = if y0 ≤ y ∧ y < y0 + h ∧ x0 ≤ x ∧ x < x0 + w then some (val y x) else at2 G y x := by
  obtain ⟨G', e, hs, hv⟩ := forN_total (f := fun i G => forN (fun j G => do
        let v ← f i j
        gset G ((y0 + i : Nat) : Int) ((x0 + j : Nat) : Int) v) w 0 G)
    (fun i T => Shape H W T ∧ ∀ y x, at2 T y x = if y0 ≤ y ∧ y < y0 + i ∧ x0 ≤ x ∧ x < x0 + w then some (val y x) else at2 G y x)
    (n := h) (i0 := 0) (s := G)
    (by
      intro i T _ hi ⟨hT, hTv⟩
      obtain ⟨T', e, hs, hv⟩ := forN_total (f := fun j T => do
          let v ← f i j
          gset T ((y0 + i : Nat) : Int) ((x0 + j : Nat) : Int) v)
        (fun j U => Shape H W U ∧ ∀ y x, at2 U y x = if y = y0 + i ∧ x0 ≤ x ∧ x < x0 + j then some (val y x) else at2 T y x)
        (n := w) (i0 := 0) (s := T)
        (by
          intro j U _ hj ⟨hU, hUv⟩
          obtain ⟨U', e, hs, h1, h2⟩ := gset_ok hU (i := y0 + i) (j := x0 + j) (by omega) (by omega) (val (y0 + i) (x0 + j))
          refine ⟨U', by rw [hf i j (by omega) (by omega), Res.ok_bind, e], hs, ?_⟩
          intro y x
          by_cases he : (y, x) = (y0 + i, x0 + j)
          · cases he
            rw [h1, if_pos ⟨rfl, by omega, by omega⟩]
          · rw [h2 _ _ he, hUv]
            have : (y = y0 + i ∧ x0 ≤ x ∧ x < x0 + j) ↔ (y = y0 + i ∧ x0 ≤ x ∧ x < x0 + (j + 1)) := by
              constructor
              · rintro ⟨a, b, d⟩; exact ⟨a, b, by omega⟩
              · rintro ⟨a, b, d⟩
                refine ⟨a, b, ?_⟩
                by_contra hn
                exact he (by rw [a, show x = x0 + j by omega])
            simp only [this])
        ⟨hT, fun y x => by rw [if_neg (by omega)]⟩
      refine ⟨T', e, hs, ?_⟩
      intro y x
      rw [hv, hTv]
      by_cases h1 : y = y0 + i
      · subst h1
        by_cases h2 : x0 ≤ x ∧ x < x0 + w
        · rw [if_pos ⟨rfl, by omega, by omega⟩, if_pos ⟨by omega, by omega, h2⟩]
        · rw [if_neg (by omega), if_neg (by omega), if_neg (by omega)]
      · rw [if_neg (fun h => h1 h.1)]
        have : (y0 ≤ y ∧ y < y0 + i ∧ x0 ≤ x ∧ x < x0 + w) ↔ (y0 ≤ y ∧ y < y0 + (i + 1) ∧ x0 ≤ x ∧ x < x0 + w) := by omega
        simp only [this])
    ⟨hG, fun y x => by rw [if_neg (by omega)]⟩
  refine ⟨G', e, hs, ?_⟩
  intro y x
  rw [hv, Nat.zero_add]

/-- The pixel in row `y` and column `x` of a plane belongs to the 8x8 luma block at the 4x4 unit `(r, col)`. -/
def InBlock (r col subX subY y x : Nat) : Prop :=
  4 * r ≤ y * 2 ^ subY ∧ y * 2 ^ subY < 4 * r + 8 ∧ 4 * col ≤ x * 2 ^ subX ∧ x * 2 ^ subX < 4 * col + 8

instance (r col subX subY y x : Nat) : Decidable (InBlock r col subX subY y x) := by unfold InBlock; infer_instance

theorem inBlock_iff {r s y : Nat} (hs : s ≤ 1) (hr : r % 2 = 0) :
    (4 * r ≤ y * 2 ^ s ∧ y * 2 ^ s < 4 * r + 8) ↔ ((r * 4) >>> s ≤ y ∧ y < (r * 4) >>> s + 8 >>> s) := by
  rw [Nat.shiftRight_eq_div_pow, Nat.shiftRight_eq_div_pow]
  rcases (show s = 0 ∨ s = 1 by omega) with rfl | rfl
  · simp only [pow_zero]; omega
  · simp only [pow_one]; omega

/-- **C106, as the code does it.**  For every picture whose arrays cover the frame, every 8x8 block, direction, strengths
and damping, the filter returns, gives every pixel of the block the value of the specification with weights 4 and 2
computed from the unfiltered picture, and changes nothing else. -/
theorem cdefFilter_ok (c : CdefCtx) (plane r col H W : Nat) (F G : List (List Int)) (hF : Shape H W F) (hG : Shape H W G)
    (sx sy : Nat) (hsx : sx = if plane > 0 then c.subX else 0) (hsy : sy = if plane > 0 then c.subY else 0)
    (hsx1 : sx ≤ 1) (hsy1 : sy ≤ 1) (hr : r % 2 = 0) (hcol : col % 2 = 0) (hc : Covers c H W sx sy)
    (hy : 4 * r + 8 ≤ H * 2 ^ sy) (hx : 4 * col + 8 ≤ W * 2 ^ sx)
    (pri sec damping : Int) (d : Nat) (hd : d < 8) (hp : 0 ≤ pri) (hs : 0 ≤ sec) (hb : pri < 2 ^ c.bitDepth) :
    ∃ G', cdefFilter c plane r col pri sec damping (d : Int) F G = .ok G' ∧ Shape H W G' ∧
      ∀ y x, at2 G' y x = if InBlock r col sx sy y x
        then (at2 F y x).map (fun v => Spec.cdefPixel (4, 2) pri sec damping d v (neighbour c F y x sx sy))
        else at2 G y x := by
  have key : ∀ (n s R : Nat), s ≤ 1 → n % 2 = 0 → 4 * n + 8 ≤ R * 2 ^ s → (n * 4) >>> s + 8 >>> s ≤ R := by
    intro n s R hs hn h
    rw [Nat.shiftRight_eq_div_pow, Nat.shiftRight_eq_div_pow]
    rcases (show s = 0 ∨ s = 1 by omega) with rfl | rfl
    · simp only [pow_zero] at h ⊢; omega
    · simp only [pow_one] at h ⊢; omega
  have hy' := key r sy H hsy1 hr hy
  have hx' := key col sx W hsx1 hcol hx
  obtain ⟨G', e, hs', hv⟩ := fillRect hG (y0 := (r * 4) >>> sy) (x0 := (col * 4) >>> sx) (h := 8 >>> sy) (w := 8 >>> sx) hy' hx'
    (fun i j => Gov1.cdefPixel c F ((r * 4) >>> sy + i) ((col * 4) >>> sx + j) pri sec damping d sx sy)
    (fun y x => Spec.cdefPixel (4, 2) pri sec damping d ((at2 F y x).getD 0) (neighbour c F y x sx sy))
    (by
      intro i j hi hj
      obtain ⟨v, hv⟩ := hF.at2 (i := (r * 4) >>> sy + i) (j := (col * 4) >>> sx + j) (by omega) (by omega)
      rw [cdefPixel_ok hF hc damping hd hp hs hb hv, hv]; rfl)
  refine ⟨G', ?_, hs', ?_⟩
  · unfold cdefFilter
    rw [← hsx, ← hsy]
    exact e
  · intro y x
    rw [hv]
    by_cases hin : InBlock r col sx sy y x
    · rw [if_pos hin]
      obtain ⟨i1, i2, i3, i4⟩ := hin
      have j1 := (inBlock_iff hsy1 hr).mp ⟨i1, i2⟩
      have j2 := (inBlock_iff hsx1 hcol).mp ⟨i3, i4⟩
      rw [if_pos ⟨j1.1, j1.2, j2.1, j2.2⟩]
      obtain ⟨v, hv⟩ := hF.at2 (i := y) (j := x) (by omega) (by omega)
      rw [hv]; rfl
    · rw [if_neg hin, if_neg]
      rintro ⟨a1, a2, a3, a4⟩
      have j1 := (inBlock_iff hsy1 hr).mpr ⟨a1, a2⟩
      have j2 := (inBlock_iff hsx1 hcol).mpr ⟨a3, a4⟩
      exact hin ⟨j1.1, j1.2, j2.1, j2.2⟩

/-- **C106** (partial: primary strengths that are even as strengths of 8-bit content).  The filter is the one of AV1. -/
theorem C106_filter_partial (c : CdefCtx) (plane r col H W : Nat) (F G : List (List Int)) (hF : Shape H W F) (hG : Shape H W G)
    (sx sy : Nat) (hsx : sx = if plane > 0 then c.subX else 0) (hsy : sy = if plane > 0 then c.subY else 0)
    (hsx1 : sx ≤ 1) (hsy1 : sy ≤ 1) (hr : r % 2 = 0) (hcol : col % 2 = 0) (hc : Covers c H W sx sy)
    (hy : 4 * r + 8 ≤ H * 2 ^ sy) (hx : 4 * col + 8 ≤ W * 2 ^ sx)
    (pri sec damping : Int) (d : Nat) (hd : d < 8) (hp : 0 ≤ pri) (hs : 0 ≤ sec) (hb : pri < 2 ^ c.bitDepth)
    (heven : pri / 2 ^ (c.bitDepth - 8) % 2 = 0) :
    ∃ G', cdefFilter c plane r col pri sec damping (d : Int) F G = .ok G' ∧ Shape H W G' ∧
      ∀ y x, at2 G' y x = if InBlock r col sx sy y x
        then (at2 F y x).map (fun v =>
          Spec.cdefPixel (cdefWeights c.bitDepth pri) pri sec damping d v (neighbour c F y x sx sy))
        else at2 G y x := by
  rw [cdefWeights, if_pos heven]
  exact cdefFilter_ok c plane r col H W F G hF hG sx sy hsx hsy hsx1 hsy1 hr hcol hc hy hx pri sec damping d hd hp hs hb

/-- The near pixels of a direction. -/
def nearOffs (d : Nat) : List (Int × Int) :=
  [(-(cdefOffset d 0).1, -(cdefOffset d 0).2), ((cdefOffset d 0).1, (cdefOffset d 0).2)]

theorem cdefPixel_congr (w : Int × Int) (pri sec damping : Int) (d : Nat) (x : Int) (px px' : Int × Int → Option Int)
    (h : ∀ t ∈ cdefTaps (4, 2) d, px t.off = px' t.off) :
    Spec.cdefPixel w pri sec damping d x px = Spec.cdefPixel w pri sec damping d x px' := by
  have h' : ∀ t ∈ cdefTaps w d, px t.off = px' t.off := by
    intro t ht
    have hm : t.off ∈ (cdefTaps w d).map (·.off) := List.mem_map_of_mem ht
    rw [show (cdefTaps w d).map (·.off) = (cdefTaps (4, 2) d).map (·.off) from rfl] at hm
    obtain ⟨t', ht', e⟩ := List.mem_map.mp hm
    rw [← e]; exact h t' ht'
  unfold Spec.cdefPixel
  rw [List.filterMap_congr (fun t ht => by rw [h' t ht])]

/-- The effect of a pixel whose two near neighbours along the direction are one brighter, the others equal to it. -/
theorem pixel_near (w : Int × Int) (hw : w = (4, 2) ∨ w = (3, 3)) (pri damping : Int) (d : Nat) (hd : d < 8) (x : Int)
    (px : Int × Int → Option Int) (hpx : ∀ t ∈ cdefTaps (4, 2) d, px t.off = some (if t.off ∈ nearOffs d then x + 1 else x))
    (hc : cdefConstrain 1 pri damping = 1) :
    Spec.cdefPixel w pri 0 damping d x px = if w = (4, 2) then x + 1 else x := by
  rw [cdefPixel_congr w pri 0 damping d x px (fun o => some (if o ∈ nearOffs d then x + 1 else x)) hpx]
  have h0 : ∀ s, cdefConstrain 0 s damping = 0 := by
    intro s; unfold cdefConstrain; split <;> simp
  have hz : ∀ v, cdefConstrain v 0 damping = 0 := fun v => rfl
  have h0' : cdefConstrain (x - x) = cdefConstrain 0 := by rw [sub_self]
  have h1' : cdefConstrain (x + 1 - x) = cdefConstrain 1 := by rw [add_sub_cancel_left]
  rcases hw with rfl | rfl <;> interval_cases d <;>
    simp [Spec.cdefPixel, cdefTaps, cdefOffset, nearOffs, h0, h0', h1', hc, hz, show Int.sign 8 = 1 from rfl, show Int.sign 6 = 1 from rfl]

/-- **C106 is false of the code** for the other strengths.  For every bit depth, every primary strength that AV1 pairs
with the weights 3 and 3, every direction and positive damping, without secondary strength, and every pixel whose two near
neighbours along the direction are one brighter while the others the filter looks at are equal to it: the code makes the
pixel one brighter, AV1 leaves it. -/
theorem C106_taps_refuted (c : CdefCtx) (H W subX subY : Nat) (F : List (List Int)) (hF : Shape H W F) (hc : Covers c H W subX subY)
    (py px : Nat) (pri damping : Int) (d : Nat) (hd : d < 8) (hp : 0 ≤ pri) (hb : pri < 2 ^ c.bitDepth)
    (hdm : 1 ≤ damping) (hodd : pri / 2 ^ (c.bitDepth - 8) % 2 = 1) (x : Int) (hx : at2 F py px = some x)
    (hn : ∀ t ∈ cdefTaps (4, 2) d,
      neighbour c F py px subX subY t.off = some (if t.off ∈ nearOffs d then x + 1 else x)) :
    Gov1.cdefPixel c F py px pri 0 damping (d : Int) subX subY = .ok (x + 1) ∧
    Spec.cdefPixel (cdefWeights c.bitDepth pri) pri 0 damping d x (neighbour c F py px subX subY) = x := by
  have hpos : 0 < pri := by
    rcases Int.lt_or_eq_of_le hp with h | h
    · exact h
    · rw [← h] at hodd; simp at hodd
  have hcn : cdefConstrain 1 pri damping = 1 := by
    unfold cdefConstrain
    rw [if_neg (by omega)]
    have hq0 : (1 : Int) / 2 ^ (damping - log2 pri).toNat ≤ 1 := Int.ediv_le_self _ (by omega)
    have hq1 : pri = 1 → (1 : Int) / 2 ^ (damping - log2 pri).toNat = 0 := by
      intro h
      rw [h, show log2 1 = 0 from by decide]
      obtain ⟨n, hn⟩ : ∃ n, (damping - 0).toNat = n + 1 := ⟨(damping - 0).toNat - 1, by omega⟩
      rw [hn, pow_succ]
      have : (1 : Int) ≤ 2 ^ n := one_le_pow₀ (by omega)
      exact Int.ediv_eq_zero_of_lt (by omega) (by omega)
    rw [show ((1 : Int).natAbs : Int) = 1 from rfl]
    generalize (1 : Int) / 2 ^ (damping - log2 pri).toNat = q at hq0 hq1
    rw [show (1 : Int).sign = 1 from rfl, one_mul]
    omega
  constructor
  · rw [cdefPixel_ok hF hc damping hd hp le_rfl hb hx, pixel_near (4, 2) (Or.inl rfl) pri damping d hd x _ hn hcn]; rfl
  · rw [cdefWeights, if_neg (by omega), pixel_near (3, 3) (Or.inr rfl) pri damping d hd x _ hn hcn]; rfl


/-- Such a pixel: strength 1, direction 2 (horizontal), the neighbours on the left and on the right one brighter. -/
example : ∀ t ∈ cdefTaps (4, 2) 2, neighbour { miRows := 4, miCols := 4 }
    (List.replicate 5 (List.replicate 16 7) ++ [[7, 7, 7, 7, 7, 7, 8, 7, 8, 7, 7, 7, 7, 7, 7, 7]] ++ List.replicate 10 (List.replicate 16 7)) 5 7 0 0 t.off
    = some (if t.off ∈ nearOffs 2 then 7 + 1 else 7) := by decide +kernel

end Gov1
