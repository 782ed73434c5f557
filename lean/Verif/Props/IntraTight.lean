import Verif.Props.IntraDir
import Verif.Props.Palette
import Verif.Props.TxFrame
/-!
# More on intra prediction, palettes and transform blocks

Theorems added after wrong programs had survived (seeded/LOG.jsonl).
-/
namespace Gov1

/-! ## C155: the kind of filter for chroma, strengths, the corner -/

/-- The chroma mode stored at a cell is one of the smooth modes, for a cell that is not inter. -/
def SmoothUv (c : IntraCtx) (r k : Nat) (b : Bool) : Prop :=
  ∃ f, at2 c.refFrames r k = some f ∧ ((0 < f.1 ∧ b = false) ∨ (f.1 ≤ 0 ∧ SmoothAt c.uvModes r k b))

theorem isSmooth_chroma {c : IntraCtx} {plane r k : Nat} (hp : 0 < plane) {b : Bool} (h : isSmooth c r k plane = .ok b) : SmoothUv c r k b := by
  unfold isSmooth at h
  rw [if_neg (by omega)] at h
  obtain ⟨f, hf, h⟩ := Res.inv h
  have hf := (gget_inv hf).2.2
  simp only [Int.toNat_natCast] at hf
  refine ⟨f, hf, ?_⟩
  split at h
  · next h0 => exact .inl ⟨h0, (Except.ok.inj h).symm⟩
  · next h0 =>
    obtain ⟨m, hm, h⟩ := Res.inv h
    have hm := (gget_inv hm).2.2
    simp only [Int.toNat_natCast] at hm
    refine .inr ⟨by omega, m, hm, ?_⟩
    rw [← Except.ok.inj h]
    simp [or_assoc]

/-- **C155 (chroma, refuted).**  4:2:0: the filter for a chroma block at an odd row and column, with a block above only, depends on the block above
and two columns to the right of the first column of the chroma block's units (AV1: the unit above the last one of the chroma block, that is, of this
block); with a block to the left, on the one below the block's row. -/
theorem C155_chroma_refuted {c : IntraCtx} {plane : Nat} (hp : 0 < plane) (hx : c.subX = 1) (hy : c.subY = 1) (hr : c.miRow % 2 = 1) (hc : c.miCol % 2 = 1)
    {b : Bool} (h : filterType c plane = .ok b) :
    (c.availLChroma = true → SmoothUv c (c.miRow + 1) (c.miCol - 2) b) ∧
    (c.availLChroma = false → c.availUChroma = true → SmoothUv c (c.miRow - 2) (c.miCol + 1) b) ∧
    (c.availLChroma = false → c.availUChroma = false → b = false) := by
  have hp0 : ¬ plane = 0 := by omega
  unfold filterType smoothAbove at h
  obtain ⟨s, hs, h⟩ := Res.inv h
  simp only [if_neg hp0] at hs h
  have hcond : (plane > 0 ∧ c.subX ≠ 0 ∧ c.miCol % 2 = 1) ∧ (plane > 0 ∧ c.subY ≠ 0 ∧ c.miRow % 2 = 1) := ⟨⟨hp, by omega, hc⟩, hp, by omega, hr⟩
  refine ⟨fun hl => ?_, fun hl hu => ?_, fun hl hu => ?_⟩
  · rw [hl, if_pos rfl] at h
    unfold smoothCellLeft at h
    dsimp only at h
    rw [if_pos hcond.1, if_pos hcond.2] at h
    by_cases h2 : 2 ≤ c.miCol
    · rw [show (c.miRow : Int) + 1 = ((c.miRow + 1 : Nat) : Int) by omega, show (c.miCol : Int) - 1 - 1 = ((c.miCol - 2 : Nat) : Int) by omega] at h
      exact isSmooth_chroma hp h
    · unfold isSmooth at h
      rw [if_neg hp0] at h
      obtain ⟨f, hf, -⟩ := Res.inv h
      have := (gget_inv hf).2.1
      omega
  · rw [hl, if_neg (by simp)] at h
    rw [hu, if_pos rfl] at hs
    rw [← Except.ok.inj h]
    unfold smoothCellAbove at hs
    dsimp only at hs
    rw [if_pos hcond.1, if_pos hcond.2] at hs
    by_cases h2 : 2 ≤ c.miRow
    · rw [show (c.miCol : Int) + 1 = ((c.miCol + 1 : Nat) : Int) by omega, show (c.miRow : Int) - 1 - 1 = ((c.miRow - 2 : Nat) : Int) by omega] at hs
      exact isSmooth_chroma hp hs
    · unfold isSmooth at hs
      rw [if_neg hp0] at hs
      obtain ⟨f, hf, -⟩ := Res.inv hs
      have := (gget_inv hf).1
      omega
  · rw [hl, if_neg (by simp)] at h
    rw [hu, if_neg (by simp)] at hs
    rw [← Except.ok.inj h, ← Except.ok.inj hs]

/-- **C155 (chroma, partial).**  At an even row and column (or without subsampling) the neighbours directly above and to the left are used; AV1
takes, with subsampling, the second of the two units next to the chroma block. -/
theorem C155_chroma_partial {c : IntraCtx} {plane : Nat} (hp : 0 < plane) (hr : 0 < c.miRow) (hc : 0 < c.miCol)
    (he : (c.subX = 0 ∧ c.subY = 0) ∨ (c.miRow % 2 = 0 ∧ c.miCol % 2 = 0)) {b : Bool} (h : filterType c plane = .ok b) :
    (c.availLChroma = true → SmoothUv c c.miRow (c.miCol - 1) b) ∧
    (c.availLChroma = false → c.availUChroma = true → SmoothUv c (c.miRow - 1) c.miCol b) ∧
    (c.availLChroma = false → c.availUChroma = false → b = false) := by
  have hp0 : ¬ plane = 0 := by omega
  unfold filterType smoothAbove at h
  obtain ⟨s, hs, h⟩ := Res.inv h
  simp only [if_neg hp0] at hs h
  have hcond : ¬ (plane > 0 ∧ c.subX ≠ 0 ∧ c.miCol % 2 = 1) ∧ ¬ (plane > 0 ∧ c.subY ≠ 0 ∧ c.miRow % 2 = 1) := by constructor <;> omega
  refine ⟨fun hl => ?_, fun hl hu => ?_, fun hl hu => ?_⟩
  · rw [hl, if_pos rfl] at h
    unfold smoothCellLeft at h
    dsimp only at h
    rw [if_neg hcond.1, if_neg hcond.2, Int.sub_zero, Int.add_zero, show (c.miCol : Int) - 1 = ((c.miCol - 1 : Nat) : Int) by omega] at h
    exact isSmooth_chroma hp h
  · rw [hl, if_neg (by simp)] at h
    rw [hu, if_pos rfl] at hs
    rw [← Except.ok.inj h]
    unfold smoothCellAbove at hs
    dsimp only at hs
    rw [if_neg hcond.1, if_neg hcond.2, Int.sub_zero, Int.add_zero, show (c.miRow : Int) - 1 = ((c.miRow - 1 : Nat) : Int) by omega] at hs
    exact isSmooth_chroma hp hs
  · rw [hl, if_neg (by simp)] at h
    rw [hu, if_neg (by simp)] at hs
    rw [← Except.ok.inj h, ← Except.ok.inj hs]

/-- AV1's strength of the edge filter (section 7.11.2.9), as a list of (largest width plus height, strength for an angle). -/
def av1Strength (smooth : Bool) (s d : Nat) : Nat :=
  if smooth then
    if s ≤ 8 then (if 64 ≤ d then 2 else if 40 ≤ d then 1 else 0)
    else if s ≤ 16 then (if 48 ≤ d then 2 else if 20 ≤ d then 1 else 0)
    else if s ≤ 24 then (if 4 ≤ d then 3 else 0)
    else 3
  else
    if s ≤ 8 then (if 56 ≤ d then 1 else 0)
    else if s ≤ 16 then (if 40 ≤ d then 1 else 0)
    else if s ≤ 24 then (if 32 ≤ d then 3 else if 16 ≤ d then 2 else if 8 ≤ d then 1 else 0)
    else if s ≤ 32 then (if 32 ≤ d then 3 else if 4 ≤ d then 2 else 1)
    else 3

/-- **C155 (strength, partial).**  Next to smooth blocks, and for blocks of width plus height at most 12, the strength is AV1's. -/
theorem C155_strength_partial (w h : Nat) (smooth : Bool) (delta : Int) (hs : smooth = true ∨ w + h ≤ 12) :
    edgeStrength w h smooth delta = av1Strength smooth (w + h) delta.natAbs := by
  unfold edgeStrength av1Strength
  cases smooth
  · have hs : w + h ≤ 12 := by simpa using hs
    by_cases h8 : w + h ≤ 8
    · simp [h8]
    · simp [h8, hs, show w + h ≤ 16 by omega]
  · simp

/-- **C155 (strength, refuted).**  Other blocks: from 13 to 16 the strength is the one of larger blocks (so too strong at small angles), from 25 to 32
it is 3 in place of 2, and the largest blocks, which AV1 filters most, are not filtered at all. -/
theorem C155_strength_refuted (w h : Nat) (delta : Int) :
    (12 < w + h → w + h ≤ 16 → 8 ≤ delta.natAbs → delta.natAbs < 40 → edgeStrength w h false delta ≠ av1Strength false (w + h) delta.natAbs) ∧
    (16 < w + h → w + h ≤ 24 → delta.natAbs < 4 → edgeStrength w h false delta ≠ av1Strength false (w + h) delta.natAbs) ∧
    (24 < w + h → w + h ≤ 32 → 4 ≤ delta.natAbs → delta.natAbs < 32 → edgeStrength w h false delta = 3 ∧ av1Strength false (w + h) delta.natAbs = 2) ∧
    (32 < w + h → edgeStrength w h false delta = 0 ∧ av1Strength false (w + h) delta.natAbs = 3) := by
  unfold edgeStrength av1Strength
  simp only [Bool.not_false, if_true, Bool.false_eq_true, if_false]
  refine ⟨fun h1 h2 h3 h4 => ?_, fun h1 h2 h3 => ?_, fun h1 h2 h3 h4 => ?_, fun h1 => ?_⟩
  · repeat' split
    all_goals omega
  · repeat' split
    all_goals omega
  · repeat' split
    all_goals omega
  · repeat' split
    all_goals omega

/-- **C155 (corner).**  The filtered corner is the mean of the pixel to the left, the corner and the pixel above, with weights 5, 6 and 5 of 16, rounded. -/
theorem C155_corner {ab lf : Edge} {v : Int} (h : filterCorner ab lf = .ok v) :
    16 * v ≤ 5 * lf 0 + 6 * ab 32767 + 5 * ab 0 + 8 ∧ 5 * lf 0 + 6 * ab 32767 + 5 * ab 0 < 16 * v + 8 := by
  unfold filterCorner at h
  obtain ⟨l, hl, h⟩ := Res.inv h
  obtain ⟨k, hk, h⟩ := Res.inv h
  obtain ⟨a, ha, h⟩ := Res.inv h
  have e1 : l = lf 0 := by simpa [eget] using (Except.ok.inj hl).symm
  have e2 : k = ab 32767 := by simpa [eget] using (Except.ok.inj hk).symm
  have e3 : a = ab 0 := by simpa [eget] using (Except.ok.inj ha).symm
  rw [← Except.ok.inj h, e1, e2, e3]
  unfold round2
  rw [if_neg (by decide), Int.shiftRight_eq_div_pow]
  norm_num [Nat.shiftLeft_eq]
  omega

example : filterCorner (fun i => if i = 32767 then 10 else 20) (fun _ => 30) = .ok 19 := by decide
example : edgeStrength 16 32 false 30 = 0 ∧ edgeStrength 4 8 true 50 = 2 := by decide
example : filterType { miRow := 1, miCol := 1, subX := 1, subY := 1, availLChroma := false, availUChroma := false } 1 = .ok false := by decide

/-! ## C58: which palettes, and what a push does -/

/-- **C58 (push).**  After a colour has been offered to the cache, the last colour is that one, the ones before it are as they were, and the cache has
grown by at most one. -/
theorem C58_push {s s' : CacheSt} {v : Int} (h : cachePush s v = .ok s') :
    s'.cache[s'.n - 1]? = some v ∧ 0 < s'.n ∧ (s'.n = s.n ∨ s'.n = s.n + 1) ∧ ∀ i, i < s.n → s'.cache[i]? = s.cache[i]? := by
  unfold cachePush at h
  split at h
  · next h0 =>
    obtain ⟨c, hc, h⟩ := Res.inv h
    obtain ⟨-, e1, e2⟩ := goSet_inv' (i := 0) hc
    rw [← Except.ok.inj h]
    refine ⟨?_, Nat.one_pos, .inr (by dsimp only; omega), fun i hi => by omega⟩
    dsimp only
    rw [e2]
    exact List.getElem?_set_self e1
  · next h0 =>
    obtain ⟨last, hl, h⟩ := Res.inv h
    have hl := (goGet_inv hl).2
    rw [show ((s.n : Int) - 1).toNat = s.n - 1 by omega] at hl
    split at h
    · obtain ⟨c, hc, h⟩ := Res.inv h
      obtain ⟨-, e1, e2⟩ := goSet_inv' hc
      rw [← Except.ok.inj h]
      refine ⟨?_, by dsimp only; omega, .inr rfl, fun i hi => ?_⟩
      · dsimp only
        rw [e2, Nat.add_sub_cancel]; exact List.getElem?_set_self e1
      · dsimp only
        rw [e2, Int.toNat_natCast, List.getElem?_set_ne (by omega)]
    · next he =>
      rw [← Except.ok.inj h]
      refine ⟨?_, by omega, .inl rfl, fun i _ => rfl⟩
      rw [hl, not_not.1 he]

/-- **C58 (sources).**  The palette above takes part inside a row of superblocks of 64 rows only (that is, when the row of the block is not a multiple
of 16), the palette to the left if there is a block; with neither, the cache is empty. -/
theorem C58_sources (sizes : List (List Nat)) (above left cache : List Int) (miRow miCol : Nat) (availL : Bool) {s : CacheSt}
    (h : getPaletteCache sizes above left cache miRow miCol availL = .ok s) :
    ∃ aN lN, mergeCache above left aN lN cache = .ok s ∧
      (16 ∣ miRow → aN = 0) ∧ (¬ 16 ∣ miRow → at2 sizes (miRow - 1) miCol = some aN) ∧
      (availL = false → lN = 0) ∧ (availL = true → 0 < miCol ∧ at2 sizes miRow (miCol - 1) = some lN) := by
  unfold getPaletteCache at h
  obtain ⟨aN, ha, h⟩ := Res.inv h
  obtain ⟨lN, hl, h⟩ := Res.inv h
  refine ⟨aN, lN, h, ?_, ?_, ?_, ?_⟩
  · intro hd
    unfold paletteAbove at ha
    rw [if_neg (by omega)] at ha
    exact (Except.ok.inj ha).symm
  · intro hd
    unfold paletteAbove at ha
    rw [if_pos (by omega)] at ha
    have := (gget_inv ha).2.2
    rwa [Int.toNat_natCast, show ((miRow : Int) - 1).toNat = miRow - 1 by omega] at this
  · intro hf
    unfold paletteLeft at hl
    rw [hf, if_neg (by simp)] at hl
    exact (Except.ok.inj hl).symm
  · intro ht
    unfold paletteLeft at hl
    rw [if_pos ht] at hl
    obtain ⟨-, h1, h2⟩ := gget_inv hl
    rw [Int.toNat_natCast, show ((miCol : Int) - 1).toNat = miCol - 1 by omega] at h2
    exact ⟨by omega, h2⟩

example : cachePush { n := 1, cache := [9, 0, 0] } 5 = .ok { n := 2, cache := [9, 5, 0] } := by decide
example : (getPaletteCache [[2, 2], [2, 2]] [3, 9] [5, 9] [0, 0, 0, 0] 1 1 true).toOption.map (fun s => (s.n, s.cache)) = some (3, [3, 5, 9, 0]) := by decide

/-! ## C156: the on-screen part -/

/-- **C156 (on screen).**  The rows (columns) of the block that are in its on-screen part are exactly those inside the frame. -/
theorem C156_onscreen (size pos total : Nat) (r : Nat) : r < onscreen size pos total ↔ r < size ∧ pos * 4 + r < total * 4 := by
  unfold onscreen
  omega

example : onscreen 16 14 16 = 8 := by decide

/-! ## C160: arguments of the prediction of a transform block -/

/-- **C160 (mode).**  Luma is predicted with the luma mode; chroma with the chroma mode, and as DC when it is predicted from luma. -/
theorem C160_mode (c : TbCtx) (call : TxCall) (p : TxPos) (f : Bool × Bool) (lw lh : Nat) :
    (call.plane = 0 → (tbArgs c call p f lw lh).mode = c.yMode) ∧ (0 < call.plane → c.uvMode = 13 → (tbArgs c call p f lw lh).mode = 0) ∧
    (0 < call.plane → c.uvMode ≠ 13 → (tbArgs c call p f lw lh).mode = c.uvMode) := by
  unfold tbArgs tbMode usesCfl
  dsimp only
  refine ⟨fun h => by rw [if_pos h], fun h1 h2 => ?_, fun h1 h2 => ?_⟩
  · rw [if_neg (by omega), if_pos (by simp [h1, h2])]
  · rw [if_neg (by omega), if_neg (by simp [h2])]

/-- **C160 (extent of luma).**  After a luma transform block of an intra block has been predicted, the recorded extent of luma ends at the last column and row of the
transform block; chroma leaves it as it is. -/
theorem C160_extent {c : TbCtx} (hi : c.res.isInter = false) {call : TxCall} {p : TxPos} (hp : txPos c.res c.use128 call = .ok (some p)) {s s' : TbSt} (h : tbPredict c call p s = .ok s') :
    (call.plane = 0 → ∃ w hh, txDims call.txSz = some (w, hh) ∧ s'.maxLumaW = call.left + w ∧ s'.maxLumaH = call.top + hh) ∧
    (0 < call.plane → s'.maxLumaW = s.maxLumaW ∧ s'.maxLumaH = s.maxLumaH) := by
  obtain ⟨w, hh, hd, e1, e2, -⟩ := txPos_inv hp
  obtain ⟨e3, e4⟩ := txPos_start hp
  have hm : w % 4 = 0 ∧ hh % 4 = 0 := by
    have all : (∀ x ∈ txWidth, x % 4 = 0) ∧ (∀ x ∈ txHeight, x % 4 = 0) := by decide
    unfold txDims at hd
    rw [Option.bind_eq_some_iff] at hd
    obtain ⟨w', hw, hd⟩ := hd
    rw [Option.map_eq_some_iff] at hd
    obtain ⟨h', hh', hd⟩ := hd
    injection hd with a1 a2
    subst a1 a2
    exact ⟨all.1 _ (List.mem_of_getElem? hw), all.2 _ (List.mem_of_getElem? hh')⟩
  have key : ∀ t : TbSt, t.maxLumaW = s.maxLumaW ∧ t.maxLumaH = s.maxLumaH → tbLuma call p t = s' →
      (call.plane = 0 → ∃ w hh, txDims call.txSz = some (w, hh) ∧ s'.maxLumaW = call.left + w ∧ s'.maxLumaH = call.top + hh) ∧
      (0 < call.plane → s'.maxLumaW = s.maxLumaW ∧ s'.maxLumaH = s.maxLumaH) := by
    intro t ht hs
    rw [← hs]
    unfold tbLuma
    constructor
    · intro h0
      rw [if_pos h0]
      refine ⟨w, hh, hd, ?_, ?_⟩ <;> dsimp only <;> omega
    · intro h0
      rw [if_neg (by omega)]
      exact ht
  unfold tbPredict at h
  rw [if_neg (by simp [hi])] at h
  split at h
  · obtain ⟨t, ht, h⟩ := map_ok h
    refine key t ?_ h
    unfold tbPalette at ht
    obtain ⟨_, _, ht⟩ := Res.inv ht
    obtain ⟨_, _, ht⟩ := Res.inv ht
    obtain ⟨_, _, ht⟩ := Res.inv ht
    obtain ⟨_, _, ht⟩ := Res.inv ht
    rw [← Except.ok.inj ht]; exact ⟨rfl, rfl⟩
  · obtain ⟨t, ht, h⟩ := map_ok h
    refine key t ?_ h
    unfold tbIntra at ht
    obtain ⟨_, _, ht⟩ := Res.inv ht
    obtain ⟨_, _, ht⟩ := Res.inv ht
    obtain ⟨_, _, ht⟩ := Res.inv ht
    obtain ⟨_, _, ht⟩ := Res.inv ht
    obtain ⟨_, _, ht⟩ := Res.inv ht
    obtain ⟨_, _, ht⟩ := Res.inv ht
    obtain ⟨_, _, ht⟩ := Res.inv ht
    obtain ⟨_, _, ht⟩ := Res.inv ht
    rw [← Except.ok.inj ht]; exact ⟨rfl, rfl⟩

/-- **C160 (corners).**  The pixels above and to the right are taken as available exactly if the unit above the first row and right of the last column of
the transform block is marked, those below and to the left if the unit below the last row and left of the first column is; row -1 is the last row of
the array, column -1 the last column. -/
theorem C160_corners {sx sy : Nat} {p : TxPos} {d : List (List Bool)} (hd : Shape 13 13 d) {a b : Bool} (h : cornerFlags sx sy p d = .ok (a, b)) :
    at2 d (if p.subRow >>> sy = 0 then 12 else p.subRow >>> sy - 1) (p.subCol >>> sx + p.stepX) = some a ∧
    at2 d (p.subRow >>> sy + p.stepY) (if p.subCol >>> sx = 0 then 12 else p.subCol >>> sx - 1) = some b := by
  unfold cornerFlags at h
  dsimp only at h
  obtain ⟨x2, hx, h⟩ := Res.inv h
  obtain ⟨a', ha, h⟩ := Res.inv h
  obtain ⟨b', hb, h⟩ := Res.inv h
  have e := Except.ok.inj h
  injection e with e1 e2
  subst e1 e2
  have ha := (gget_inv ha).2.2
  have hb := (gget_inv hb).2.2
  rw [Int.toNat_natCast] at ha hb
  rw [hd.1] at ha
  generalize p.subRow >>> sy = A at *
  generalize p.subCol >>> sx = B at *
  constructor
  · convert ha using 2
    by_cases h0 : A = 0
    · rw [if_pos h0, if_pos (by omega), h0]; rfl
    · rw [if_neg h0, if_neg (by omega)]; omega
  · convert hb using 2
    unfold flagCol at hx
    split at hx
    · obtain ⟨row, hr, hx⟩ := Res.inv hx
      have := hd.2 _ (List.mem_of_getElem? (goGet_inv hr).2)
      rw [← Except.ok.inj hx, this]
      have h0 : B = 0 := by omega
      rw [if_pos h0, h0]; rfl
    · rw [← Except.ok.inj hx]
      rw [if_neg (by omega)]; omega

/-! ## C118: the marks of a transform block in the arrays of its plane -/

/-- **C118 (plane).**  A transform block is recorded in the arrays of its own plane: those of the other planes stay as they are, and a unit of its own
plane is marked or changed only inside the rectangle of the plane's subsampled position. -/
theorem C118_plane {c : TbCtx} {call : TxCall} {p : TxPos} {s s' : TbSt} (h : tbMark c call p s = .ok s') :
    (∀ q, q ≠ call.plane → s'.marks[q]? = s.marks[q]?) ∧
    ∃ m m', s.marks[call.plane]? = some m ∧ s'.marks[call.plane]? = some m' ∧
      Filled (p.row >>> (if call.plane > 0 then c.res.subY else 0)) (p.col >>> (if call.plane > 0 then c.res.subX else 0)) p.stepY p.stepY call.txSz m.lfTx m'.lfTx ∧
      Filled (p.subRow >>> (if call.plane > 0 then c.res.subY else 0)) (p.subCol >>> (if call.plane > 0 then c.res.subX else 0)) p.stepY p.stepY true m.decoded m'.decoded := by
  unfold tbMark at h
  obtain ⟨m, hm, h⟩ := Res.inv h
  obtain ⟨m', hm', h⟩ := Res.inv h
  obtain ⟨ms, hms, h⟩ := Res.inv h
  obtain ⟨-, e1, e2⟩ := goSet_inv' hms
  rw [← Except.ok.inj h]
  dsimp only
  rw [e2, Int.toNat_natCast]
  rw [Int.toNat_natCast] at e1
  refine ⟨fun q hq => List.getElem?_set_ne (fun hh => hq hh.symm), m, m', goGet_inv_nat hm, by simp [e1], ?_⟩
  obtain ⟨f1, f2⟩ := txMark_iff.mp hm'
  exact ⟨(fillBlock_inv f1).1, (fillBlock_inv f2).1⟩

/-- A luma block of 8 by 8 pixels at row 4, column 0. -/
def demoPos : TxPos := { startX := 0, startY := 4, row := 1, col := 0, subRow := 1, subCol := 0, stepX := 2, stepY := 2 }
def demoMarks : List (List Bool) := (List.replicate 13 (List.replicate 13 false)).set 0 (List.replicate 13 true)

example : cornerFlags 0 0 demoPos demoMarks = .ok (true, false) ∧ demoMarks.length = 13 ∧ ∀ r ∈ demoMarks, r.length = 13 := by decide
example : ∃ s', tbMark {} { plane := 0, baseX := 0, baseY := 0, x := 0, y := 0, txSz := 0 } { demoPos with row := 0, subRow := 0, stepX := 1, stepY := 1 }
    { frames := [], marks := [⟨[[0, 0], [0, 0]], demoMarks⟩] } = .ok s' := ⟨_, rfl⟩

end Gov1
