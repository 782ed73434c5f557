import Verif.Lemmas.Copy
import Verif.Props.CdefFrame
import Verif.Props.LoopFilter
import Verif.Props.RefFrames
/-!
# C111: upscaling

AV1's horizontal super resolution: every row is resampled with an eight tap filter at positions that align the centres of
the two rows.  The filter and the positions are right; the result is not (every pixel becomes 2), a frame without super
resolution is read one pixel to the left, and rows longer than nine pixels panic.
-/
namespace Gov1

/-- **C111 (filter).**  64 rows of eight weights, each summing to 128, and row `64 - i` is row `i` mirrored. -/
theorem C111_filter_partial :
    upscaleFilter.length = 64 ∧ (∀ r ∈ upscaleFilter, r.length = 8 ∧ r.sum = 128) ∧
    (∀ i : Nat, i < 64 → 1 ≤ i → upscaleFilter[64 - i]? = upscaleFilter[i]?.map List.reverse) := by
  decide +kernel

/-- The weighted sum of AV1: eight pixels of the row around pixel `p` (columns clamped to `0..maxX`), weighted with row
`phase` of the filter. -/
def SampleSum (row : List Int) (maxX p : Int) (phase : Nat) (sum : Int) : Prop :=
  ∃ (v : Nat → Int) (w : List Int), upscaleFilter[phase]? = some w ∧
    (∀ k : Nat, k < 8 → row[(max 0 (min maxX (p + (k : Int) - 3))).toNat]? = some (v k)) ∧
    sum = (List.range 8).foldl (fun s k => s + v k * w.getD k 0) 0

theorem clip3_minmax {lo hi z : Int} (h : lo ≤ hi) : clip3 lo hi z = max lo (min hi z) := by
  unfold clip3; split
  · omega
  · split <;> omega

theorem upSum_ok {row : List Int} {maxX p : Int} {phase : Nat} (h0 : 0 ≤ maxX) (hl : maxX < row.length) (hp : phase < 64) :
    ∃ sum, upSum row maxX (p, (phase : Int)) = .ok sum ∧ SampleSum row maxX p phase sum := by
  have hf : upscaleFilter.length = 64 := by decide
  have hw : upscaleFilter[phase]? = some (upscaleFilter[phase]'(by omega)) := List.getElem?_eq_getElem _
  have hwl : (upscaleFilter[phase]'(by omega)).length = 8 := (C111_filter_partial.2.1 _ (List.getElem_mem _)).1
  generalize upscaleFilter[phase]'(by omega) = w at hw hwl
  let v : Nat → Int := fun k => row.getD (max 0 (min maxX (p + (k : Int) - 3))).toNat 0
  have hv : ∀ k : Nat, k < 8 → row[(max 0 (min maxX (p + (k : Int) - 3))).toNat]? = some (v k) := by
    intro k _
    have : (max 0 (min maxX (p + (k : Int) - 3))).toNat < row.length := by omega
    show _ = some (row.getD _ 0)
    rw [List.getD_eq_getElem?_getD, List.getElem?_eq_getElem this]; rfl
  have hstep : ∀ (i : Nat) (t : Int), 0 ≤ i → i < 0 + 8 → t = (List.range i).foldl (fun s k => s + v k * w.getD k 0) 0 →
      ∃ t', (do
        let px ← goGet row (clip3 0 maxX (p + ((i : Int) - 3)))
        let f ← gget upscaleFilter (phase : Int) (i : Int)
        pure (t + px * f) : Res Int) = .ok t' ∧ t' = (List.range (i + 1)).foldl (fun s k => s + v k * w.getD k 0) 0 := by
    intro i t _ hi ht
    have e1 : goGet row (clip3 0 maxX (p + ((i : Int) - 3))) = .ok (v i) := by
      have h1 : clip3 0 maxX (p + ((i : Int) - 3)) = (((max 0 (min maxX (p + (i : Int) - 3))).toNat : Nat) : Int) := by
        rw [clip3_minmax h0, show p + ((i : Int) - 3) = p + (i : Int) - 3 by omega]; omega
      have hvi := hv i (by omega)
      have hlt : (max 0 (min maxX (p + (i : Int) - 3))).toNat < row.length := by omega
      rw [h1, goGet_lt' hlt]
      rw [List.getElem?_eq_getElem hlt] at hvi
      exact congrArg Except.ok (Option.some.inj hvi)
    have e2 : gget upscaleFilter (phase : Int) (i : Int) = .ok (w.getD i 0) := by
      refine gget_at2 ?_
      unfold at2
      rw [hw, Option.bind_some, List.getElem?_eq_getElem (by omega), List.getD_eq_getElem?_getD, List.getElem?_eq_getElem (by omega)]; rfl
    rw [e1, Res.ok_bind, e2, Res.ok_bind]
    exact ⟨_, rfl, by rw [List.range_succ, List.foldl_append, ← ht]; rfl⟩
  obtain ⟨sum, e, hs⟩ := forN_total _ hstep (s := (0 : Int)) rfl
  exact ⟨sum, e, v, w, hw, hv, hs⟩

/-- **C111 (weighted sum).**  In the range of the tables the sum is the one of AV1. -/
theorem C111_sum_partial {row : List Int} {maxX p : Int} {phase : Nat} (h0 : 0 ≤ maxX) (hl : maxX < row.length) (hp : phase < 64) {sum : Int}
    (h : upSum row maxX (p, (phase : Int)) = .ok sum) : SampleSum row maxX p phase sum := by
  obtain ⟨sum', e, hs⟩ := upSum_ok (p := p) h0 hl hp
  rw [h] at e; cases e; exact hs

/-- **C111 (flat rows).**  Where all pixels have the value `v` the rounded sum is `v`, at every position. -/
theorem C111_flat_partial {row : List Int} {maxX p v : Int} {phase : Nat} (h0 : 0 ≤ maxX) (hl : maxX < row.length) (hp : phase < 64)
    (hv : ∀ px ∈ row, px = v) : ∃ sum, upSum row maxX (p, (phase : Int)) = .ok sum ∧ round2 sum 7 = v := by
  obtain ⟨sum, e, u, w, hw, hu, hs⟩ := upSum_ok (p := p) h0 hl hp
  refine ⟨sum, e, ?_⟩
  have hu' : ∀ k, k < 8 → u k = v := fun k hk => hv _ (List.mem_of_getElem? (hu k hk))
  have hm := C111_filter_partial.2.1 w (List.mem_of_getElem? hw)
  have hsum : sum = 128 * v := by
    rw [hs]
    obtain ⟨h8, hsm⟩ := hm
    match w, h8, hsm with
    | [a, b, c, d, e, f, g, h], _, hsm =>
      simp only [List.sum_cons, List.sum_nil] at hsm
      have hr : List.range 8 = [0, 1, 2, 3, 4, 5, 6, 7] := rfl
      rw [hr]
      simp only [List.foldl_cons, List.foldl_nil, List.getD_cons_zero, List.getD_cons_succ, hu' 0 (by omega), hu' 1 (by omega), hu' 2 (by omega),
        hu' 3 (by omega), hu' 4 (by omega), hu' 5 (by omega), hu' 6 (by omega), hu' 7 (by omega)]
      have : v * (a + (b + (c + (d + (e + (f + (g + (h + 0)))))))) = v * 128 := by rw [hsm]
      simp only [Int.mul_add] at this
      omega
  rw [hsum, round2, if_neg (by decide), Int.shiftRight_eq_div_pow]
  have : ((1 <<< (7 - 1) : Nat) : Int) = 64 := rfl
  rw [this]
  have h2 : ((2 ^ 7 : Nat) : Int) = 128 := rfl
  rw [h2]; omega

example : ∃ sum, upSum (List.replicate 16 77) 15 (-3, ((17 : Nat) : Int)) = .ok sum ∧ round2 sum 7 = 77 :=
  C111_flat_partial (by decide) (by decide) (by decide) (fun px h => List.eq_of_mem_replicate h)

/-! ## Positions -/

theorem upPos_floor (init step : Int) (x : Nat) :
    0 ≤ (upPos init step x).2 ∧ (upPos init step x).2 < 64 ∧
    (upPos init step x).1 * 64 + (upPos init step x).2 = (-16384 + init + (x : Int) * step) / 256 := by
  unfold upPos
  dsimp only
  generalize -16384 + init + (x : Int) * step = z
  rw [Int.shiftRight_eq_div_pow, Int.shiftRight_eq_div_pow, show ((2 ^ 14 : Nat) : Int) = 16384 from rfl, show ((2 ^ 8 : Nat) : Int) = 256 from rfl]
  omega

/-- **C111 (positions).**  With super resolution (`down` pixels become `up`, denominators 9 to 16) the filter for output
column `x` is centred, up to the resolution of 1/64 pixel and the rounding of the step, where the centre of the output
pixel falls: at `(x + 1/2) * down / up - 1/2`. -/
theorem C111_position_partial {down up x : Nat} {step : Int} (hu1 : 8 ≤ up) (hu2 : up ≤ 1024) (hd : 9 * down ≤ 8 * up + 4) (hx : x < up)
    (hs : upStep down up = .ok step) :
    0 ≤ (upPos (upInitial down up step) step x).2 ∧ (upPos (upInitial down up step) step x).2 < 64 ∧
    (4 : Int) * |256 * (up : Int) * ((upPos (upInitial down up step) step x).1 * 64 + (upPos (upInitial down up step) step x).2) -
      2 ^ 13 * ((2 * (x : Int) + 1) * down - up)| ≤ (up : Int) * up + 520 * up := by
  obtain ⟨f1, f2, f3⟩ := upPos_floor (upInitial down up step) step x
  refine ⟨f1, f2, ?_⟩
  rw [f3]
  unfold upStep at hs
  rw [if_neg (by omega)] at hs
  have hs : (((down <<< 14 + up / 2) / up : Nat) : Int) = step := Except.ok.inj hs
  have hsh : down <<< 14 = down * 16384 := by rw [Nat.shiftLeft_eq]
  rw [hsh] at hs
  have m1 := Nat.div_add_mod (down * 16384 + up / 2) up
  have m2 := Nat.mod_lt (down * 16384 + up / 2) (show up > 0 by omega)
  -- the rounding errors of the step
  have herr : ∃ err : Int, (up : Int) * step - ((down <<< 14 : Nat) : Int) = err ∧ 2 * err ≤ up ∧ -(up : Int) ≤ 2 * err := by
    refine ⟨_, rfl, ?_⟩
    rw [hsh, ← hs]
    have : ((up * ((down * 16384 + up / 2) / up) : Nat) : Int) = (up : Int) * (((down * 16384 + up / 2) / up : Nat) : Int) := by push_cast; rfl
    rw [← this]
    omega
  obtain ⟨err, he, e1, e2⟩ := herr
  unfold upInitial
  dsimp only
  rw [he]
  -- the initial position
  have hq : ∃ q d1 : Int, (-(((up : Int) - down) * 2 ^ 13) + ((up / 2 : Nat) : Int)).tdiv up = q ∧
      (up : Int) * q = -(((up : Int) - down) * 2 ^ 13) + ((up / 2 : Nat) : Int) + d1 ∧ -(up : Int) < d1 ∧ d1 < up := by
    refine ⟨_, -(-(((up : Int) - down) * 2 ^ 13) + ((up / 2 : Nat) : Int)).tmod up, rfl, ?_, ?_, ?_⟩
    · have := Int.mul_tdiv_add_tmod (-(((up : Int) - down) * 2 ^ 13) + ((up / 2 : Nat) : Int)) up
      omega
    · have := Int.tmod_lt_of_pos (-(((up : Int) - down) * 2 ^ 13) + ((up / 2 : Nat) : Int)) (show (0 : Int) < up by omega)
      omega
    · have := Int.lt_tmod_of_pos (-(((up : Int) - down) * 2 ^ 13) + ((up / 2 : Nat) : Int)) (show (0 : Int) < up by omega)
      omega
  obtain ⟨q, d1, hq, q1, q2, q3⟩ := hq
  rw [hq]
  have ht : ∃ t d2 : Int, err.tdiv 2 = t ∧ 2 * t = err + d2 ∧ -1 ≤ d2 ∧ d2 ≤ 1 := by
    have a1 := Int.mul_tdiv_add_tmod err 2
    have a2 := Int.tmod_lt_of_pos err (show (0 : Int) < 2 by omega)
    have a3 := Int.lt_tmod_of_pos err (show (0 : Int) < 2 by omega)
    exact ⟨_, 2 * err.tdiv 2 - err, rfl, by omega, by omega, by omega⟩
  obtain ⟨t, d2, ht, t1, t2, t3⟩ := ht
  rw [ht]
  have hqlo : -8195 < q := by
    by_contra hc
    have : (up : Int) * q ≤ up * (-8195) := Int.mul_le_mul_of_nonneg_left (by omega) (by omega)
    omega
  have hqhi : q < -450 := by
    by_contra hc
    have : (up : Int) * (-450) ≤ up * q := Int.mul_le_mul_of_nonneg_left (by omega) (by omega)
    omega
  have hmod : (q + 128 - t) % 16384 = q + 128 - t + 16384 := by omega
  rw [hmod]
  -- the position
  have hz : -16384 + (q + 128 - t + 16384) + (x : Int) * step = q + 128 - t + x * step := by omega
  rw [hz]
  obtain ⟨z, hz⟩ : ∃ z, q + 128 - t + (x : Int) * step = z := ⟨_, rfl⟩
  rw [hz]
  obtain ⟨p, hp⟩ : ∃ p, z / 256 = p := ⟨_, rfl⟩
  rw [hp]
  have p1 : 256 * p ≤ z := by omega
  have p2 : z ≤ 256 * p + 255 := by omega
  have g1 : (up : Int) * (256 * p) ≤ up * z := Int.mul_le_mul_of_nonneg_left p1 (by omega)
  have g2 : (up : Int) * z ≤ up * (256 * p + 255) := Int.mul_le_mul_of_nonneg_left p2 (by omega)
  have hprod : |2 * err * (2 * (x : Int) - up)| ≤ (up : Int) * up := by
    rw [abs_mul]
    exact mul_le_mul (abs_le.mpr ⟨e2, e1⟩) (abs_le.mpr ⟨by omega, by omega⟩) (abs_nonneg _) (by omega)
  have hsh' : ((down <<< 14 : Nat) : Int) = down * 16384 := by rw [hsh]; push_cast; rfl
  have hus : (up : Int) * step = err + down * 16384 := by rw [← hsh']; omega
  have huz : 2 * ((up : Int) * z) = 2 * (up * q) + 256 * up - up * (2 * t) + 2 * ((x : Int) * (up * step)) := by rw [← hz]; ring
  rw [hus, q1, t1] at huz
  have hd2 : |(up : Int) * d2| ≤ up := by
    rw [abs_mul]
    calc |(up : Int)| * |d2| ≤ up * 1 := mul_le_mul (abs_le.mpr ⟨by omega, by omega⟩) (abs_le.mpr ⟨t2, t3⟩) (abs_nonneg _) (by omega)
      _ = up := by ring
  rw [abs_le] at hprod hd2
  have hmul : (4 : Int) * |256 * (up : Int) * p - 2 ^ 13 * ((2 * (x : Int) + 1) * down - up)| =
      |4 * (256 * (up : Int) * p - 2 ^ 13 * ((2 * (x : Int) + 1) * down - up))| := by rw [abs_mul]; rfl
  rw [hmul, abs_le]
  have b1 : 2 * ((up / 2 : Nat) : Int) ≤ up := by omega
  have b2 : (0 : Int) ≤ ((up / 2 : Nat) : Int) := by omega
  generalize ((up / 2 : Nat) : Int) = half at huz b1 b2
  clear hs m1 m2 hz hp hq ht q1 hus he t1
  constructor <;> linarith

example : upStep 8 16 = .ok 8192 ∧ upInitial 8 16 8192 = 12417 ∧ upPos 12417 8192 0 = (-1, 48) ∧ upPos 12417 8192 5 = (2, 16) := by decide

/-- **C111 fails without super resolution**: the pixels are read one column to the left of the output. -/
theorem C111_identity_refuted {w : Nat} (hw : 0 < w) {step : Int} (hs : upStep w w = .ok step) (x : Nat) :
    upPos (upInitial w w step) step x = ((x : Int) - 1, 0) := by
  unfold upStep at hs
  rw [if_neg (by omega)] at hs
  have hs : (((w <<< 14 + w / 2) / w : Nat) : Int) = step := Except.ok.inj hs
  have h1 : (w <<< 14 + w / 2) / w = 16384 := by
    rw [Nat.shiftLeft_eq]
    refine (Nat.div_eq_iff hw).mpr ⟨?_, ?_⟩ <;> omega
  rw [h1] at hs
  subst hs
  have h2 : upInitial w w ((16384 : Nat) : Int) = 128 := by
    unfold upInitial
    dsimp only
    have e1 : (w : Int) * ((16384 : Nat) : Int) - ((w <<< 14 : Nat) : Int) = 0 := by rw [Nat.shiftLeft_eq]; push_cast; ring
    have e2 : (-(((w : Int) - w) * 2 ^ 13) + ((w / 2 : Nat) : Int)).tdiv w = 0 := by
      rw [show -(((w : Int) - w) * 2 ^ 13) + ((w / 2 : Nat) : Int) = ((w / 2 : Nat) : Int) by ring]
      rw [Int.tdiv_eq_ediv_of_nonneg (by omega)]
      exact Int.ediv_eq_zero_of_lt (by omega) (by omega)
    rw [e1, e2]; rfl
  rw [h2]
  unfold upPos
  dsimp only
  rw [Int.shiftRight_eq_div_pow, Int.shiftRight_eq_div_pow, show ((2 ^ 14 : Nat) : Int) = 16384 from rfl, show ((2 ^ 8 : Nat) : Int) = 256 from rfl]
  refine Prod.ext ?_ ?_ <;> dsimp only <;> push_cast <;> omega

example : upStep 8 8 = .ok 16384 := by decide

/-! ## The process -/

theorem clip1_two (x : Int) {d : Nat} (h : 2 ≤ d) : clip1 x d = 2 := by
  unfold clip1
  rw [if_neg (by omega)]
  have : (2 : Int) ≤ 2 ^ (d - 1) := by
    obtain ⟨k, rfl⟩ : ∃ k, d = k + 2 := ⟨d - 2, by omega⟩
    have h1 : (1 : Int) ≤ 2 ^ k := by have := Int.pow_pos (n := 2) (m := k) (by decide); omega
    rw [show k + 2 - 1 = k + 1 by omega, Int.pow_succ]; omega
  unfold clip3
  rw [if_neg (by omega), if_neg (by omega)]

/-- Width of plane `p` before the upscaling, after it, and its height. -/
def WrapCtx.downW (c : WrapCtx) (p : Nat) : Nat := planeDim c.frameWidth (if p > 0 then c.subX else 0)
def WrapCtx.upW (c : WrapCtx) (p : Nat) : Nat := planeDim c.upscaledWidth (if p > 0 then c.subX else 0)
def WrapCtx.upH (c : WrapCtx) (p : Nat) : Nat := planeDim c.frameHeight (if p > 0 then c.subY else 0)

/-- All pixels of the top left `h` by `w` corner are `v`, the others are as in `F`. -/
def Painted (F : List (List Int)) (S : Nat → Nat → Prop) (v : Int) (G : List (List Int)) : Prop :=
  (∀ y x, S y x → at2 G y x = some v) ∧ (∀ y x, ¬ S y x → at2 G y x = at2 F y x) ∧ ∀ H W, Shape H W F → Shape H W G

/-- The value does not depend on the input (`Clip1` ignores its argument). -/
theorem upPlane_value {c : WrapCtx} {p : Nat} {src F G : List (List Int)} (h : upPlane c p src F = .ok G) :
    Painted F (fun y x => y < c.upH p ∧ x < c.upW p) (clip1 0 c.bitDepth) G ∧ ∀ y x, y < c.upH p → x < c.upW p → (at2 F y x).isSome := by
  unfold upPlane at h
  dsimp only at h
  obtain ⟨step, -, h⟩ := Res.inv h
  have key := forN_inv (fun y (G : List (List Int)) => Painted F (fun a b => a < y ∧ b < c.upW p) (clip1 0 c.bitDepth) G ∧
      ∀ a b, a < y → b < c.upW p → (at2 F a b).isSome) (by
    intro y t t' _ hy hP ht
    have inner := forN_inv (fun x (G : List (List Int)) => Painted F (fun a b => (a < y ∧ b < c.upW p) ∨ (a = y ∧ b < x)) (clip1 0 c.bitDepth) G ∧
        ∀ a b, (a < y ∧ b < c.upW p) ∨ (a = y ∧ b < x) → (at2 F a b).isSome) (by
      intro x u u' _ hx ⟨⟨q1, q2, q3⟩, q4⟩ hu
      obtain ⟨row, -, hu⟩ := Res.inv hu
      obtain ⟨sum, -, hu⟩ := Res.inv hu
      obtain ⟨-, -, g1, g2, g3, g4⟩ := gset_inv hu
      simp only [Int.toNat_natCast] at g1 g2 g3
      refine ⟨⟨?_, ?_, fun H W hs => g4 H W (q3 H W hs)⟩, ?_⟩
      · intro a b hab
        by_cases he : (a, b) = (y, x)
        · cases he; exact g2
        · rw [g3 a b he]
          refine q1 a b ?_
          have : ¬ (a = y ∧ b = x) := fun h => he (by rw [h.1, h.2])
          omega
      · intro a b hab
        have he : (a, b) ≠ (y, x) := by intro he; cases he; exact hab (Or.inr ⟨rfl, by omega⟩)
        rw [g3 a b he]
        exact q2 a b (by omega)
      · intro a b hab
        by_cases he : (a, b) = (y, x)
        · cases he; rw [← q2 _ _ (by omega)]; exact g1
        · have : ¬ (a = y ∧ b = x) := fun h => he (by rw [h.1, h.2])
          exact q4 a b (by omega)) ht ⟨⟨fun a b hab => hP.1.1 a b (by omega), fun a b hab => hP.1.2.1 a b (by omega), hP.1.2.2⟩,
            fun a b hab => hP.2 a b (by omega) (by omega)⟩
    have hw : planeDim c.upscaledWidth (if p > 0 then c.subX else 0) = c.upW p := rfl
    rw [hw, Nat.zero_add] at inner
    exact ⟨⟨fun a b hab => inner.1.1 a b (by omega), fun a b hab => inner.1.2.1 a b (by omega), inner.1.2.2⟩,
      fun a b h1 h2 => inner.2 a b (by omega)⟩) h ⟨⟨fun a b hab => by omega, fun _ _ _ => rfl, fun _ _ h => h⟩, fun a b h1 _ => by omega⟩
  rw [Nat.zero_add] at key
  exact key

theorem upPlane_painted {c : WrapCtx} {p : Nat} {src F G : List (List Int)} (hb : 2 ≤ c.bitDepth) (h : upPlane c p src F = .ok G) :
    Painted F (fun y x => y < c.upH p ∧ x < c.upW p) 2 G ∧ ∀ y x, y < c.upH p → x < c.upW p → (at2 F y x).isSome := by
  rw [← clip1_two 0 hb]
  exact upPlane_value h

/-- **C111 fails for every row longer than nine pixels**: with such a plane (or more than nine rows) the process panics. -/
theorem C111_size_refuted {c : WrapCtx} (hb : 2 ≤ c.bitDepth) {p : Nat} (hp : p < c.numPlanes) (h1 : 0 < c.upW p) (h2 : 0 < c.upH p)
    (hbig : 9 < c.upW p ∨ 9 < c.upH p) (input out : Planes) : upscale c input ≠ .ok out := by
  intro h
  have key := forN_inv (fun i (t : Planes) => (∀ F ∈ t, Shape 9 9 F) ∧ i ≤ p ∨ False) (by
    intro i t t' _ hi hP ht
    rcases hP with ⟨hP, hip⟩ | hF
    · obtain ⟨src, -, ht⟩ := Res.inv ht
      obtain ⟨dst, e1, ht⟩ := Res.inv ht
      obtain ⟨G, e2, ht⟩ := Res.inv ht
      have hd : Shape 9 9 dst := hP _ (List.mem_of_getElem? (goGet_inv_nat e1))
      obtain ⟨pt, hroom⟩ := upPlane_painted hb e2
      have hne : i ≠ p := by
        rintro rfl
        obtain ⟨v, hv⟩ := Option.isSome_iff_exists.mp (hroom (c.upH i - 1) (c.upW i - 1) (by omega) (by omega))
        have := at2_lt hd hv
        omega
      refine Or.inl ⟨?_, by omega⟩
      intro F hF
      obtain ⟨-, -, hset⟩ := goSet_inv' ht
      rw [hset] at hF
      rcases List.mem_or_eq_of_mem_set hF with hh | hh
      · exact hP _ hh
      · rw [hh]; exact pt.2.2 9 9 hd
    · exact hF.elim) h (Or.inl ⟨(zeroPlanes_pic 9 9).2, by omega⟩)
  rcases key with ⟨-, hk⟩ | hF
  · omega
  · exact hF

example (input out : Planes) : upscale { frameWidth := 16, upscaledWidth := 16, frameHeight := 16 } input ≠ .ok out :=
  C111_size_refuted (p := 0) (by decide) (by decide) (by decide) (by decide) (Or.inl (by decide)) _ _

/-- **C111 fails for the values**: for all frames of at most nine by nine pixels the process returns, and the upscaled
picture has the value 2 in every pixel, whatever the input. -/
theorem C111_value_refuted {c : WrapCtx} (hb : 2 ≤ c.bitDepth) (hn : c.numPlanes ≤ 3) (input : Planes) (hi : Pic 16 16 input)
    (hfit : ∀ p, p < c.numPlanes → 0 < c.upW p ∧ c.upW p ≤ 9 ∧ c.upH p ≤ 9)
    (hmi : ∀ s, s = 0 ∨ s = c.subX → 0 < c.miCols >>> s ∧ c.miCols >>> s ≤ 4) :
    ∃ out, upscale c input = .ok out ∧ Pic 9 9 out ∧
      ∀ p y x, p < c.numPlanes → y < c.upH p → x < c.upW p → at3 out p y x = some 2 := by
  have plane : ∀ p src F, p < c.numPlanes → Shape 16 16 src → Shape 9 9 F → ∃ G, upPlane c p src F = .ok G := by
    intro p src F hp hs hF
    obtain ⟨w1, w2, w3⟩ := hfit p hp
    unfold upPlane
    dsimp only
    have hstep : upStep (planeDim c.frameWidth (if p > 0 then c.subX else 0)) (planeDim c.upscaledWidth (if p > 0 then c.subX else 0)) =
        .ok (((planeDim c.frameWidth (if p > 0 then c.subX else 0) <<< 14 + c.upW p / 2) / c.upW p : Nat) : Int) := by
      unfold upStep
      rw [if_neg (by have : 0 < planeDim c.upscaledWidth (if p > 0 then c.subX else 0) := w1; omega)]; rfl
    rw [hstep, Res.ok_bind]
    generalize ((((planeDim c.frameWidth (if p > 0 then c.subX else 0) <<< 14 + c.upW p / 2) / c.upW p : Nat)) : Int) = step
    generalize upInitial (planeDim c.frameWidth (if p > 0 then c.subX else 0)) (planeDim c.upscaledWidth (if p > 0 then c.subX else 0)) step = init
    have hm := hmi (if p > 0 then c.subX else 0) (by split; exact Or.inr rfl; exact Or.inl rfl)
    have hcell : ∀ (y x : Nat) (D : List (List Int)), y < c.upH p → x < c.upW p → Shape 9 9 D → ∃ D', (do
        let row ← goGet src (y : Int)
        let sum ← upSum row (((c.miCols >>> (if p > 0 then c.subX else 0) : Nat) : Int) * 4 - 1) (upPos init step x)
        gset D (y : Int) (x : Int) (clip1 (round2 sum 7) c.bitDepth) : Res (List (List Int))) = .ok D' ∧ Shape 9 9 D' := by
      intro y x D hy hx hD
      obtain ⟨row, er, hr⟩ := hs.row (i := y) (by omega)
      have hly : y < src.length := by rw [hs.1]; omega
      have er' : goGet src (y : Int) = .ok row := by
        rw [goGet_lt' hly]
        rw [List.getElem?_eq_getElem hly] at er
        exact congrArg Except.ok (Option.some.inj er)
      rw [er', Res.ok_bind]
      obtain ⟨f1, f2, -⟩ := upPos_floor init step x
      obtain ⟨ph, hph⟩ : ∃ ph : Nat, (upPos init step x).2 = ph := ⟨(upPos init step x).2.toNat, by omega⟩
      obtain ⟨sum, es, -⟩ := upSum_ok (row := row) (maxX := ((c.miCols >>> (if p > 0 then c.subX else 0) : Nat) : Int) * 4 - 1)
        (p := (upPos init step x).1) (phase := ph) (by omega) (by omega) (by omega)
      rw [← hph] at es
      have es' : upSum row (((c.miCols >>> (if p > 0 then c.subX else 0) : Nat) : Int) * 4 - 1) (upPos init step x) = .ok sum := es
      rw [es', Res.ok_bind]
      obtain ⟨D', e, s, -⟩ := gset_ok hD (i := y) (j := x) (by omega) (by omega) (clip1 (round2 sum 7) c.bitDepth)
      exact ⟨D', e, s⟩
    have hrow : ∀ (y : Nat) (D : List (List Int)), 0 ≤ y → y < 0 + c.upH p → Shape 9 9 D → ∃ D', forN (fun x D => do
        let row ← goGet src (y : Int)
        let sum ← upSum row (((c.miCols >>> (if p > 0 then c.subX else 0) : Nat) : Int) * 4 - 1) (upPos init step x)
        gset D (y : Int) (x : Int) (clip1 (round2 sum 7) c.bitDepth)) (c.upW p) 0 D = .ok D' ∧ Shape 9 9 D' := by
      intro y D _ hy hD
      exact forN_total (fun _ D => Shape 9 9 D) (fun x D _ hx hD => hcell y x D (by omega) (by omega) hD) hD
    obtain ⟨G, e, -⟩ := forN_total (fun _ D => Shape 9 9 D) hrow hF
    exact ⟨G, e⟩
  have hstep : ∀ p (t : Planes), 0 ≤ p → p < 0 + c.numPlanes → (Pic 9 9 t ∧ ∀ q y x, q < p → y < c.upH q → x < c.upW q → at3 t q y x = some 2) →
      ∃ t', (do
        let src ← goGet input (p : Int)
        let dst ← goGet t (p : Int)
        let dst ← upPlane c p src dst
        goSet t (p : Int) dst : Res Planes) = .ok t' ∧
        (Pic 9 9 t' ∧ ∀ q y x, q < p + 1 → y < c.upH q → x < c.upW q → at3 t' q y x = some 2) := by
    intro p t _ hp ⟨ht, hv⟩
    obtain ⟨src, e1, s1, -⟩ := hi.plane (pl := p) (by omega)
    obtain ⟨dst, e2, s2, -⟩ := ht.plane (pl := p) (by omega)
    obtain ⟨G, e3⟩ := plane p src dst (by omega) s1 s2
    obtain ⟨pt, -⟩ := upPlane_painted hb e3
    obtain ⟨g1, g2⟩ := pic_set ht (p := p) (by omega) (pt.2.2 9 9 s2)
    refine ⟨t.set p G, ?_, g1, ?_⟩
    · rw [e1, Res.ok_bind, e2, Res.ok_bind, e3, Res.ok_bind]
      exact goSet_lt' _ (by rw [ht.1]; omega)
    · intro q y x hq hy hx
      rw [g2]
      by_cases h : q = p
      · subst h; rw [if_pos rfl]; exact pt.1 y x ⟨hy, hx⟩
      · rw [if_neg h]; exact hv q y x (by omega) hy hx
  obtain ⟨out, e, ho, hv⟩ := forN_total (fun p (t : Planes) => Pic 9 9 t ∧ ∀ q y x, q < p → y < c.upH q → x < c.upW q → at3 t q y x = some 2)
    hstep ⟨zeroPlanes_pic 9 9, by intro q y x hq; omega⟩
  exact ⟨out, e, ho, fun p y x hp hy hx => hv p y x (by omega) hy hx⟩

/-- An 8 by 8 frame in 4:2:0. -/
def smallWrap : WrapCtx where
  frameWidth := 8
  upscaledWidth := 8
  frameHeight := 8
  subX := 1
  subY := 1
  miCols := 2
  miRows := 2

example : ∃ out, upscale smallWrap (List.replicate 3 (List.replicate 16 (List.replicate 16 200))) = .ok out ∧ Pic 9 9 out ∧
    ∀ p y x, p < 3 → y < smallWrap.upH p → x < smallWrap.upW p → at3 out p y x = some 2 :=
  C111_value_refuted (c := smallWrap) (by decide) (by decide) _
    ⟨by simp, fun p hp => by rw [List.eq_of_mem_replicate hp]; exact Shape.replicate _ _ _⟩ (by decide)
    (by rintro s (rfl | rfl) <;> decide)

end Gov1
