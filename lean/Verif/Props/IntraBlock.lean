import Verif.Props.Intra
/-!
# C150-C153: the intra predicted block
-/
namespace Gov1

/-! ## C151: the block is written, nothing else -/

/-- The pixel `(r, k)` is in the block of `w` x `h` pixels at column `x`, row `y`. -/
def InBlk (x y w h r k : Nat) : Prop := (y ≤ r ∧ r < y + h) ∧ x ≤ k ∧ k < x + w

theorem copyPred_inv {p : Pred} {x y w h : Nat} {F F' : List (List Int)} (hc : copyPred p x y w h F = .ok F') :
    (∀ i j, i < h → j < w → i < 15 ∧ j < 15 ∧ (at2 F (y + i) (x + j)).isSome ∧ at2 F' (y + i) (x + j) = some (p i j)) ∧
    (∀ r k, ¬ InBlk x y w h r k → at2 F' r k = at2 F r k) ∧ (∀ H W, Shape H W F → Shape H W F') ∧ ∀ r k, (at2 F' r k).isSome = (at2 F r k).isSome := by
  have key := forN_inv (fun n (G : List (List Int)) =>
      (∀ i j, i < n → j < w → i < 15 ∧ j < 15 ∧ (at2 F (y + i) (x + j)).isSome ∧ at2 G (y + i) (x + j) = some (p i j)) ∧
      (∀ r k, ¬ InBlk x y w n r k → at2 G r k = at2 F r k) ∧ (∀ H W, Shape H W F → Shape H W G) ∧ ∀ r k, (at2 G r k).isSome = (at2 F r k).isSome)
    (n := h) (i0 := 0) (s' := F') ?_ hc ⟨fun i j hi => absurd hi (Nat.not_lt_zero i), fun _ _ _ => rfl, fun _ _ h => h, fun _ _ => rfl⟩
  · rwa [Nat.zero_add] at key
  intro n G G' _ _ hG hstep
  have inner := forN_inv (fun m (K : List (List Int)) =>
      (∀ j, j < m → n < 15 ∧ j < 15 ∧ (at2 F (y + n) (x + j)).isSome ∧ at2 K (y + n) (x + j) = some (p n j)) ∧
      (∀ r k, ¬ (r = y + n ∧ x ≤ k ∧ k < x + m) → at2 K r k = at2 G r k) ∧ (∀ H W, Shape H W F → Shape H W K) ∧ ∀ r k, (at2 K r k).isSome = (at2 F r k).isSome)
    (n := w) (i0 := 0) (s' := G') ?_ hstep ⟨fun j hj => absurd hj (Nat.not_lt_zero j), fun _ _ _ => rfl, hG.2.2.1, hG.2.2.2⟩
  · rw [Nat.zero_add] at inner
    refine ⟨fun i j hi hj => ?_, fun r k hrk => ?_, inner.2.2.1, inner.2.2.2⟩
    · rcases Nat.lt_or_ge i n with h1 | h1
      · obtain ⟨a, b, c, d⟩ := hG.1 i j h1 hj
        exact ⟨a, b, c, by rw [inner.2.1 _ _ (by omega)]; exact d⟩
      · have : i = n := by omega
        subst this
        exact inner.1 j hj
    · unfold InBlk at hrk
      rw [inner.2.1 r k (by omega), hG.2.1 r k (by unfold InBlk; omega)]
  intro m K K' _ _ hK hstep
  obtain ⟨v, hv, hs⟩ := Res.inv hstep
  unfold pget at hv
  split at hv
  · rename_i hb
    have hv := Except.ok.inj hv
    obtain ⟨-, -, g1, g2, g3, g4⟩ := gset_inv hs
    simp only [Int.toNat_natCast] at g1 g2 g3
    refine ⟨fun j hj => ?_, fun r k hrk => ?_, fun H W hsh => g4 H W (hK.2.2.1 H W hsh), fun r k => ?_⟩
    · rcases Nat.lt_or_ge j m with h1 | h1
      · obtain ⟨a, b, c, d⟩ := hK.1 j h1
        exact ⟨a, b, c, by rw [g3 _ _ (by simp; omega)]; exact d⟩
      · have : j = m := by omega
        subst this
        refine ⟨hb.1, hb.2, by rw [← hK.2.2.2]; exact g1, by rw [g2, hv]⟩
    · rw [g3 r k (by simp; omega), hK.2.1 r k (by omega)]
    · by_cases e : (r, k) = (y + n, x + m)
      · injection e with e1 e2
        subst e1; subst e2
        rw [g2, ← hK.2.2.2, g1]; rfl
      · rw [g3 r k e]; exact hK.2.2.2 r k
  · cases hv

/-- What a returning call of `predictIntra` has done. -/
theorem predictIntra_inv {c : IntraCtx} {a : IntraArgs} {F F' : List (List Int)} {ab lf : Edge} {E : Edge × Edge} (h : predictIntra c a F ab lf = .ok (F', E)) :
    ∃ e p, prepEdges c a F ab lf = .ok e ∧ intraPred c a e.1 e.2 = .ok (p, E) ∧ copyPred p a.x a.y (2 ^ a.log2W) (2 ^ a.log2H) F = .ok F' := by
  obtain ⟨e, he, h⟩ := Res.inv h
  obtain ⟨r, hr, h⟩ := Res.inv h
  obtain ⟨G, hG, h⟩ := Res.inv h
  have h := Except.ok.inj h
  injection h with h1 h2
  subst h1; subst h2
  exact ⟨e, r.1, he, hr, hG⟩

/-- **C151.**  Intra prediction of a block writes the pixels of the block and no other pixel: after a call that returns, the plane has the same shape, every
pixel of the block was in the plane and has the value of the predictor, every other pixel is as before. -/
theorem C151_block {c : IntraCtx} {a : IntraArgs} {F F' : List (List Int)} {ab lf : Edge} {E : Edge × Edge} (h : predictIntra c a F ab lf = .ok (F', E)) :
    (∀ r k, ¬ InBlk a.x a.y (2 ^ a.log2W) (2 ^ a.log2H) r k → at2 F' r k = at2 F r k) ∧
    (∀ r k, InBlk a.x a.y (2 ^ a.log2W) (2 ^ a.log2H) r k → (at2 F r k).isSome ∧ (at2 F' r k).isSome) ∧
    (∀ H W, Shape H W F → Shape H W F') := by
  obtain ⟨e, p, -, -, hc⟩ := predictIntra_inv h
  obtain ⟨k1, k2, k3, k4⟩ := copyPred_inv hc
  refine ⟨k2, fun r k hb => ?_, k3⟩
  obtain ⟨-, -, h1, h2⟩ := k1 (r - a.y) (k - a.x) (by unfold InBlk at hb; omega) (by unfold InBlk at hb; omega)
  rw [show a.y + (r - a.y) = r by unfold InBlk at hb; omega, show a.x + (k - a.x) = k by unfold InBlk at hb; omega] at h1 h2
  exact ⟨h1, by rw [h2]; rfl⟩

/-! ## C153: sizes -/

/-- **C153, refuted.**  Intra prediction of a block that is 16 pixels wide or high, or more, never returns, whatever its mode: `pred` has 15 rows and columns. -/
theorem C153_large_refuted (c : IntraCtx) (a : IntraArgs) (F : List (List Int)) (ab lf : Edge) (hl : 4 ≤ a.log2W ∨ 4 ≤ a.log2H) (r : List (List Int) × Edge × Edge) :
    predictIntra c a F ab lf ≠ .ok r := by
  intro h
  obtain ⟨e, p, -, -, hc⟩ := predictIntra_inv (E := r.2) (F' := r.1) h
  have hw : 0 < 2 ^ a.log2W := by positivity
  have hh : 0 < 2 ^ a.log2H := by positivity
  obtain ⟨h1, h2, -⟩ := (copyPred_inv hc).1 (2 ^ a.log2H - 1) (2 ^ a.log2W - 1) (by omega) (by omega)
  rcases hl with hl | hl
  · have : 2 ^ 4 ≤ 2 ^ a.log2W := Nat.pow_le_pow_right (by decide) hl
    omega
  · have : 2 ^ 4 ≤ 2 ^ a.log2H := Nat.pow_le_pow_right (by decide) hl
    omega

/-! ## C150: the range of pixels -/

/-- Every pixel of the plane is a number of `bd` bits. -/
def FrameIn (bd : Nat) (F : List (List Int)) : Prop := ∀ r k v, at2 F r k = some v → Btw 0 (2 ^ bd - 1) v

/-- Every number of an edge is a number of `bd` bits. -/
def EdgeIn (bd : Nat) (e : Edge) : Prop := ∀ k, Btw 0 (2 ^ bd - 1) (e k)

theorem gget_in {bd : Nat} {F : List (List Int)} (hF : FrameIn bd F) {i j v : Int} (h : gget F i j = .ok v) : Btw 0 (2 ^ bd - 1) v :=
  hF _ _ _ (gget_inv h).2.2

theorem goGet2_in {bd : Nat} {F : List (List Int)} (hF : FrameIn bd F) {i j v : Int} {row : List Int} (h : goGet F i = .ok row) (h' : goGet row j = .ok v) : Btw 0 (2 ^ bd - 1) v := by
  apply gget_in hF (i := i) (j := j)
  unfold gget
  rw [h]; exact h'

theorem eset_in {bd : Nat} {e e' : Edge} (he : EdgeIn bd e) {i v : Int} (hv : Btw 0 (2 ^ bd - 1) v) (h : eset e i v = .ok e') : EdgeIn bd e' := by
  obtain ⟨-, -, h1, h2⟩ := eset_inv h
  intro k
  by_cases hk : k = i
  · rw [hk, h1]; exact hv
  · rw [h2 k hk]; exact he k

theorem leftPixel_in {bd : Nat} {F : List (List Int)} (hF : FrameIn bd F) {r : Int} {x : Nat} {v : Int} (h : leftPixel F r x = .ok v) : Btw 0 (2 ^ bd - 1) v := by
  unfold leftPixel at h
  split at h
  · obtain ⟨row, h1, h2⟩ := Res.inv h
    exact goGet2_in hF h1 h2
  · exact gget_in hF h

theorem two_pow_posI (n : Nat) : (0 : Int) < 2 ^ n := by positivity

theorem half_in {bd : Nat} (hb : 2 ≤ bd) : 2 ≤ (2 : Int) ^ (bd - 1) ∧ (2 : Int) ^ bd = 2 * 2 ^ (bd - 1) := by
  refine ⟨?_, ?_⟩
  · have : (2 : Int) ^ 1 ≤ 2 ^ (bd - 1) := pow_le_pow_right₀ (by norm_num) (by omega)
    simpa using this
  · rw [← pow_succ']; congr 1; omega

theorem shl_cast (n : Nat) : ((1 <<< n : Nat) : Int) = 2 ^ n := by rw [Nat.one_shiftLeft]; push_cast; rfl

theorem abovePixel_in {c : IntraCtx} {a : IntraArgs} {F : List (List Int)} (hb : 2 ≤ c.bitDepth) (hF : FrameIn c.bitDepth F) {i : Nat} {v : Int} (h : abovePixel c a F i = .ok v) :
    Btw 0 (2 ^ c.bitDepth - 1) v := by
  obtain ⟨h1, h2⟩ := half_in hb
  unfold abovePixel at h
  split at h
  · exact leftPixel_in hF h
  · split at h
    · have h := Except.ok.inj h
      rw [shl_cast] at h
      constructor <;> omega
    · exact gget_in hF h

theorem leftTurn_in {c : IntraCtx} {a : IntraArgs} {F : List (List Int)} (hb : 2 ≤ c.bitDepth) (hF : FrameIn c.bitDepth F) {i : Nat} {s s' : Edge × Edge}
    (hs : EdgeIn c.bitDepth s.1 ∧ EdgeIn c.bitDepth s.2) (h : leftTurn c a F i s = .ok s') : EdgeIn c.bitDepth s'.1 ∧ EdgeIn c.bitDepth s'.2 := by
  obtain ⟨h1, h2⟩ := half_in hb
  unfold leftTurn at h
  split at h
  · obtain ⟨v, hv, h⟩ := Res.inv h
    obtain ⟨l, hl, h⟩ := Res.inv h
    rw [← Except.ok.inj h]
    exact ⟨hs.1, eset_in hs.2 (gget_in hF hv) hl⟩
  · split at h
    · obtain ⟨l, hl, h⟩ := Res.inv h
      rw [← Except.ok.inj h]
      refine ⟨eset_in hs.1 ?_ hl, hs.2⟩
      rw [shl_cast]
      constructor <;> omega
    · obtain ⟨v, hv, h⟩ := Res.inv h
      obtain ⟨l, hl, h⟩ := Res.inv h
      rw [← Except.ok.inj h]
      exact ⟨eset_in hs.1 (leftPixel_in hF hv) hl, hs.2⟩

theorem cornerPixel_in {c : IntraCtx} {a : IntraArgs} {F : List (List Int)} (hb : 2 ≤ c.bitDepth) (hF : FrameIn c.bitDepth F) {v : Int} (h : cornerPixel c a F = .ok v) :
    Btw 0 (2 ^ c.bitDepth - 1) v := by
  obtain ⟨h1, h2⟩ := half_in hb
  unfold cornerPixel at h
  split at h
  · split at h
    · obtain ⟨row, -, h⟩ := Res.inv h
      exact gget_in hF h
    · exact gget_in hF h
  · split at h
    · exact gget_in hF h
    · split at h
      · exact leftPixel_in hF h
      · have h := Except.ok.inj h
        rw [shl_cast] at h
        constructor <;> omega

theorem prepEdges_in {c : IntraCtx} {a : IntraArgs} {F : List (List Int)} {ab lf : Edge} {e : Edge × Edge} (hb : 2 ≤ c.bitDepth) (hF : FrameIn c.bitDepth F)
    (ha : EdgeIn c.bitDepth ab) (hl : EdgeIn c.bitDepth lf) (h : prepEdges c a F ab lf = .ok e) : EdgeIn c.bitDepth e.1 ∧ EdgeIn c.bitDepth e.2 := by
  unfold prepEdges at h
  obtain ⟨ab', h1, h⟩ := Res.inv h
  obtain ⟨s, h2, h⟩ := Res.inv h
  obtain ⟨v, h3, h⟩ := Res.inv h
  obtain ⟨ab2, h4, h⟩ := Res.inv h
  obtain ⟨lf2, h5, h⟩ := Res.inv h
  rw [← Except.ok.inj h]
  have k1 : EdgeIn c.bitDepth ab' := forN_inv (fun _ e => EdgeIn c.bitDepth e) (fun i t t' _ _ ht hs => by
    obtain ⟨v, hv, hs⟩ := Res.inv hs
    exact eset_in ht (abovePixel_in hb hF hv) hs) h1 ha
  have k2 : EdgeIn c.bitDepth s.1 ∧ EdgeIn c.bitDepth s.2 := forN_inv (fun _ (s : Edge × Edge) => EdgeIn c.bitDepth s.1 ∧ EdgeIn c.bitDepth s.2)
    (fun i t t' _ _ ht hs => leftTurn_in hb hF ht hs) h2 ⟨k1, hl⟩
  have k3 := cornerPixel_in hb hF h3
  exact ⟨eset_in k2.1 k3 h4, eset_in k2.2 k3 h5⟩

theorem eget_in {bd : Nat} {e : Edge} (he : EdgeIn bd e) {i v : Int} (h : eget e i = .ok v) : Btw 0 (2 ^ bd - 1) v := by
  obtain ⟨-, -, rfl⟩ := eget_inv h; exact he i

theorem dirShift_range (idx : Int) (up : Nat) : 0 ≤ dirShift idx up ∧ dirShift idx up ≤ 32 := by unfold dirShift; omega

theorem mix5_in {bd : Nat} {p q s : Int} (hp : Btw 0 (2 ^ bd - 1) p) (hq : Btw 0 (2 ^ bd - 1) q) (hs : 0 ≤ s ∧ s ≤ 32) : Btw 0 (2 ^ bd - 1) (round2 (p * (32 - s) + q * s) 5) := by
  obtain ⟨m1, m2⟩ := mix_btw (n := 5) hp hq hs.1 (by omega)
  exact round2_btw (by decide) m1 m2

theorem lerp_in {bd : Nat} {e : Edge} (he : EdgeIn bd e) {b s v : Int} (hs : 0 ≤ s ∧ s ≤ 32) (h : lerp e b s = .ok v) : Btw 0 (2 ^ bd - 1) v := by
  obtain ⟨p, hp, h⟩ := Res.inv h
  obtain ⟨q, hq, h⟩ := Res.inv h
  rw [← Except.ok.inj h]
  exact mix5_in (eget_in he hp) (eget_in he hq) hs

/-- Every pixel of the block of a predictor is in the range. -/
def PredIn (bd w h : Nat) (p : Pred) : Prop := ∀ i j, i < h → j < w → Btw 0 (2 ^ bd - 1) (p i j)

theorem fillPred_in {bd w h : Nat} {f : Nat → Nat → Res Int} {p : Pred} (hp : fillPred w h f = .ok p) (hf : ∀ i j v, f i j = .ok v → Btw 0 (2 ^ bd - 1) v) : PredIn bd w h p :=
  fun i j hi hj => hf i j _ (fillPred_inv hp hi hj).2.2

theorem dirPixels_in {bd w h : Nat} {pAngle dx dy : Int} {e : DirEdges} {p : Pred} (ha : EdgeIn bd e.above) (hl : EdgeIn bd e.left) (hp : dirPixels w h pAngle dx dy e = .ok p) :
    PredIn bd w h p := by
  unfold dirPixels at hp
  split at hp
  · refine fillPred_in hp fun i j v hv => ?_
    unfold dirZone1 at hv
    dsimp only at hv
    split at hv
    · exact lerp_in ha (dirShift_range _ _) hv
    · exact eget_in ha hv
  split at hp
  · refine fillPred_in hp fun i j v hv => ?_
    unfold dirZone2 at hv
    dsimp only at hv
    split at hv
    · exact lerp_in ha (dirShift_range _ _) hv
    · obtain ⟨p, hp, hv⟩ := Res.inv hv
      obtain ⟨q, hq, hv⟩ := Res.inv hv
      rw [← Except.ok.inj hv]
      exact mix5_in (eget_in hl hp) (eget_in hl hq) (dirShift_range _ _)
  split at hp
  · refine fillPred_in hp fun i j v hv => ?_
    exact lerp_in hl (dirShift_range _ _) hv
  split at hp
  · exact fillPred_in hp fun i j v hv => eget_in ha hv
  · exact fillPred_in hp fun i j v hv => eget_in hl hv

theorem filterCorner_in {bd : Nat} {ab lf : Edge} (ha : EdgeIn bd ab) (hl : EdgeIn bd lf) {v : Int} (h : filterCorner ab lf = .ok v) : Btw 0 (2 ^ bd - 1) v := by
  obtain ⟨l, h1, h⟩ := Res.inv h
  obtain ⟨c, h2, h⟩ := Res.inv h
  obtain ⟨a, h3, h⟩ := Res.inv h
  rw [← Except.ok.inj h]
  obtain ⟨a1, a2⟩ := eget_in hl h1
  obtain ⟨b1, b2⟩ := eget_in ha h2
  obtain ⟨c1, c2⟩ := eget_in ha h3
  apply round2_btw (by decide)
  · omega
  · have : (2 : Int) ^ 4 = 16 := by norm_num
    rw [this]; linarith

theorem dirEdges_in {c : IntraCtx} {a : IntraArgs} {w h : Nat} {pAngle : Int} {ab lf : Edge} {e : DirEdges} {bd : Nat} (ha : EdgeIn bd ab) (hl : EdgeIn bd lf)
    (he : dirEdges c a w h pAngle ab lf = .ok e) : EdgeIn bd e.above ∧ EdgeIn bd e.left := by
  unfold dirEdges at he
  split at he
  · obtain ⟨s, hs, he⟩ := Res.inv he
    obtain ⟨-, -, he⟩ := Res.inv he
    obtain ⟨-, -, he⟩ := Res.inv he
    rw [← Except.ok.inj he]
    show EdgeIn bd s.2.1 ∧ EdgeIn bd s.2.2
    unfold edgeFilters at hs
    split at hs
    · obtain ⟨t, ht, hs⟩ := Res.inv hs
      obtain ⟨sm, -, hs⟩ := Res.inv hs
      obtain ⟨-, -, hs⟩ := Res.inv hs
      obtain ⟨-, -, hs⟩ := Res.inv hs
      rw [← Except.ok.inj hs]
      show EdgeIn bd t.1 ∧ EdgeIn bd t.2
      unfold cornerIf at ht
      split at ht
      · obtain ⟨v, hv, ht⟩ := Res.inv ht
        obtain ⟨l2, hl2, ht⟩ := Res.inv ht
        obtain ⟨v2, hv2, ht⟩ := Res.inv ht
        obtain ⟨a2, ha2, ht⟩ := Res.inv ht
        rw [← Except.ok.inj ht]
        have k1 := eset_in hl (filterCorner_in ha hl hv) hl2
        exact ⟨eset_in ha (filterCorner_in ha k1 hv2) ha2, k1⟩
      · rw [← Except.ok.inj ht]; exact ⟨ha, hl⟩
    · rw [← Except.ok.inj hs]; exact ⟨ha, hl⟩
  · rw [← Except.ok.inj he]; exact ⟨ha, hl⟩

theorem directionalPred_in {c : IntraCtx} {a : IntraArgs} {w h : Nat} {ab lf : Edge} {p : Pred} {E : Edge × Edge} {bd : Nat} (ha : EdgeIn bd ab) (hl : EdgeIn bd lf)
    (hp : directionalPred c a w h ab lf = .ok (p, E)) : PredIn bd w h p ∧ EdgeIn bd E.1 ∧ EdgeIn bd E.2 := by
  unfold directionalPred at hp
  obtain ⟨m, -, hp⟩ := Res.inv hp
  obtain ⟨e, he, hp⟩ := Res.inv hp
  obtain ⟨dx, -, hp⟩ := Res.inv hp
  obtain ⟨dy, -, hp⟩ := Res.inv hp
  obtain ⟨q, hq, hp⟩ := Res.inv hp
  have hp := Except.ok.inj hp
  injection hp with h1 h2
  subst h1; subst h2
  obtain ⟨k1, k2⟩ := dirEdges_in ha hl he
  exact ⟨dirPixels_in k1 k2 hq, k1, k2⟩

theorem zero_in (bd : Nat) : Btw 0 (2 ^ bd - 1) 0 := by have := two_pow_posI bd; constructor <;> omega

theorem intraPred_in {c : IntraCtx} {a : IntraArgs} {ab lf : Edge} {p : Pred} {E : Edge × Edge} (hb : 2 ≤ c.bitDepth) (hw : 1 ≤ a.log2W) (hh : 1 ≤ a.log2H)
    (ha : EdgeIn c.bitDepth ab) (hl : EdgeIn c.bitDepth lf)
    (hp : intraPred c a ab lf = .ok (p, E)) : PredIn c.bitDepth (2 ^ a.log2W) (2 ^ a.log2H) p ∧ EdgeIn c.bitDepth E.1 ∧ EdgeIn c.bitDepth E.2 := by
  obtain ⟨b1, b2⟩ := half_in hb
  unfold intraPred at hp
  dsimp only at hp
  split at hp
  · obtain ⟨q, hq, hp⟩ := Res.inv hp
    have hp := Except.ok.inj hp
    injection hp with h1 h2
    subst h1; subst h2
    refine ⟨?_, ha, hl⟩
    unfold recursivePred at hq
    split at hq
    · rw [← Except.ok.inj hq]
      exact fun i j _ _ => zero_in _
    · cases hq
  split at hp
  · exact directionalPred_in ha hl hp
  split at hp
  · rename_i hm
    obtain ⟨q, hq, hp⟩ := Res.inv hp
    have hp := Except.ok.inj hp
    injection hp with h1 h2
    subst h1; subst h2
    exact ⟨fun i j hi hj => C56_smooth_range hm hq (fun j _ => ha j) (fun i _ => hl i) hi hj, ha, hl⟩
  split at hp
  · obtain ⟨q, hq, hp⟩ := Res.inv hp
    have hp := Except.ok.inj hp
    injection hp with h1 h2
    subst h1; subst h2
    refine ⟨fun i j hi hj => ?_, ha, hl⟩
    cases e1 : a.haveLeft <;> cases e2 : a.haveAbove <;> rw [e1, e2] at hq
    · rw [C56_dc_none hq hi hj]
      constructor <;> omega
    · rw [C56_dc_above_refuted] at hq
      rw [← Except.ok.inj hq]; exact zero_in _
    · rw [C56_dc_left_refuted hb hq hi hj]
      constructor <;> omega
    · have d1 : 2 ∣ 2 ^ a.log2W + 2 ^ a.log2H := Nat.dvd_add (dvd_pow_self 2 (by omega)) (dvd_pow_self 2 (by omega))
      exact C56_dc_range hq d1 (le_refl 0) (fun j _ => ha j) (fun i _ => hl i) hi hj
  · obtain ⟨q, hq, hp⟩ := Res.inv hp
    have hp := Except.ok.inj hp
    injection hp with h1 h2
    subst h1; subst h2
    exact ⟨fun i j hi hj => C56_paeth_range hq (fun j _ => ha j) (fun i _ => hl i) (ha _) hi hj, ha, hl⟩

/-- One call keeps pixels and edges in the range. -/
theorem predictIntra_in {c : IntraCtx} {a : IntraArgs} {F F' : List (List Int)} {ab lf : Edge} {E : Edge × Edge} (hb : 2 ≤ c.bitDepth) (hw : 1 ≤ a.log2W) (hh : 1 ≤ a.log2H)
    (hF : FrameIn c.bitDepth F) (ha : EdgeIn c.bitDepth ab) (hl : EdgeIn c.bitDepth lf) (h : predictIntra c a F ab lf = .ok (F', E)) :
    FrameIn c.bitDepth F' ∧ EdgeIn c.bitDepth E.1 ∧ EdgeIn c.bitDepth E.2 := by
  obtain ⟨e, p, he, hp, hc⟩ := predictIntra_inv h
  obtain ⟨h1, h2⟩ := prepEdges_in hb hF ha hl he
  obtain ⟨h3, h4, h5⟩ := intraPred_in hb hw hh h1 h2 hp
  obtain ⟨k1, k2, -, -⟩ := copyPred_inv hc
  refine ⟨fun r k v hv => ?_, h4, h5⟩
  by_cases hib : InBlk a.x a.y (2 ^ a.log2W) (2 ^ a.log2H) r k
  · unfold InBlk at hib
    obtain ⟨-, -, -, h6⟩ := k1 (r - a.y) (k - a.x) (by omega) (by omega)
    rw [show a.y + (r - a.y) = r by omega, show a.x + (k - a.x) = k by omega, hv] at h6
    rw [Option.some.inj h6]
    exact h3 _ _ (by omega) (by omega)
  · exact hF r k v (by rw [← k2 r k hib]; exact hv)

/-- A sequence of calls on one plane; the context (position, modes, flags) may be different for each. -/
def predictAll : List (IntraCtx × IntraArgs) → List (List Int) × Edge × Edge → Res (List (List Int) × Edge × Edge)
  | [], s => .ok s
  | (c, a) :: t, s => do
    let s ← predictIntra c a s.1 s.2.1 s.2.2
    predictAll t s

/-- **C150.**  After any sequence of intra predictions that starts with a plane of zeros (as a decoder does) and returns, every pixel is a number of the bit depth: from
0 to `2^bd - 1`. -/
theorem C150_pixels {bd H W : Nat} (hb : 2 ≤ bd) (calls : List (IntraCtx × IntraArgs)) (hc : ∀ q ∈ calls, q.1.bitDepth = bd ∧ 1 ≤ q.2.log2W ∧ 1 ≤ q.2.log2H)
    {s : List (List Int) × Edge × Edge} (h : predictAll calls (List.replicate H (List.replicate W 0), fun _ => 0, fun _ => 0) = .ok s) :
    ∀ r k v, at2 s.1 r k = some v → 0 ≤ v ∧ v < 2 ^ bd := by
  have key : ∀ (calls : List (IntraCtx × IntraArgs)) (s s' : List (List Int) × Edge × Edge), (∀ q ∈ calls, q.1.bitDepth = bd ∧ 1 ≤ q.2.log2W ∧ 1 ≤ q.2.log2H) →
      FrameIn bd s.1 ∧ EdgeIn bd s.2.1 ∧ EdgeIn bd s.2.2 → predictAll calls s = .ok s' → FrameIn bd s'.1 := by
    intro calls
    induction calls with
    | nil => intro s s' _ hs h; cases h; exact hs.1
    | cons q t ih =>
      intro s s' hq hs h
      obtain ⟨c, a⟩ := q
      obtain ⟨u, hu, h⟩ := Res.inv h
      obtain ⟨e1, e2, e3⟩ := hq (c, a) List.mem_cons_self
      dsimp only at e1 e2 e3
      subst e1
      exact ih u s' (fun q hm => hq q (List.mem_cons_of_mem _ hm)) (predictIntra_in (F' := u.1) (E := u.2) hb e2 e3 hs.1 hs.2.1 hs.2.2 hu) h
  intro r k v hv
  have := key calls _ s hc ⟨fun r k v hv => ?_, fun _ => zero_in bd, fun _ => zero_in bd⟩ h r k v hv
  · exact ⟨this.1, by have := this.2; omega⟩
  · have : v = 0 := by
      unfold at2 at hv
      dsimp only at hv
      rw [List.getElem?_replicate] at hv
      split at hv
      · simp only [Option.bind_some, List.getElem?_replicate] at hv
        split at hv
        · exact (Option.some.inj hv).symm
        · cases hv
      · cases hv
    rw [this]; exact zero_in bd

/-! ## C153: small blocks are predicted -/

theorem gget_shape {H W : Nat} {F : List (List Int)} (hs : Shape H W F) {i j : Int} (hi0 : 0 ≤ i) (hi : i < H) (hj0 : 0 ≤ j) (hj : j < W) : ∃ v, gget F i j = .ok v := by
  obtain ⟨v, hv⟩ := hs.at2 (i := i.toNat) (j := j.toNat) (by omega) (by omega)
  have := gget_at2 hv
  rw [show ((i.toNat : Nat) : Int) = i by omega, show ((j.toNat : Nat) : Int) = j by omega] at this
  exact ⟨v, this⟩

/-- The block is inside the array of the plane, the plane inside the array too, and neighbours that are said to exist are not outside of the picture. -/
structure BlkFits (c : IntraCtx) (a : IntraArgs) (H W : Nat) : Prop where
  right : a.x + 2 ^ a.log2W ≤ W
  bottom : a.y + 2 ^ a.log2H ≤ H
  cols : 0 ≤ intraMaxX c a.plane ∧ intraMaxX c a.plane < W
  rows : 0 ≤ intraMaxY c a.plane ∧ intraMaxY c a.plane < H
  left : a.haveLeft = true → 0 < a.x
  above : a.haveAbove = true → 0 < a.y

theorem leftPixel_total {H W : Nat} {F : List (List Int)} (hs : Shape H W F) {r : Int} {x : Nat} (hr0 : 0 ≤ r) (hr : r < H) (hx : 0 < x) (hxW : x ≤ W) : ∃ v, leftPixel F r x = .ok v := by
  unfold leftPixel
  rw [if_neg (by omega)]
  exact gget_shape hs hr0 hr (by omega) (by omega)

theorem prepEdges_total {c : IntraCtx} {a : IntraArgs} {H W : Nat} {F : List (List Int)} (hs : Shape H W F) (hf : BlkFits c a H W) (hw : a.log2W ≤ 6) (hh : a.log2H ≤ 6) (ab lf : Edge) :
    ∃ e, prepEdges c a F ab lf = .ok e := by
  have pw : 2 ^ a.log2W ≤ 2 ^ 6 := Nat.pow_le_pow_right (by decide) hw
  have ph : 2 ^ a.log2H ≤ 2 ^ 6 := Nat.pow_le_pow_right (by decide) hh
  have qw : 0 < 2 ^ a.log2W := by positivity
  have qh : 0 < 2 ^ a.log2H := by positivity
  obtain ⟨f1, f2, ⟨f3, f4⟩, ⟨f5, f6⟩, f7, f8⟩ := hf
  have hy : a.haveAbove = true → yMinusOne F a.y = a.y := fun h => by unfold yMinusOne; rw [if_neg (by have := f8 h; omega)]
  have e1 : ∀ i, ∃ v, abovePixel c a F i = .ok v := by
    intro i
    unfold abovePixel
    split
    · rename_i h
      exact leftPixel_total hs (by omega) (by omega) (f7 (by simp at h; exact h.2)) (by omega)
    · split
      · exact ⟨_, rfl⟩
      · rename_i h1 h2
        have h3 : a.haveAbove = true := by
          cases h4 : a.haveAbove <;> cases h5 : a.haveLeft <;> simp_all
        rw [hy h3]
        refine gget_shape hs (by omega) (by omega) ?_ ?_
        · split <;> omega
        · omega
  have e2 : ∀ i s, i < 2 ^ a.log2W + 2 ^ a.log2H - 1 → ∃ s', leftTurn c a F i s = .ok s' := by
    intro i s hi
    unfold leftTurn
    split
    · rename_i h
      rw [hy (by simp at h; exact h.2)]
      obtain ⟨v, hv⟩ := gget_shape hs (i := a.y) (j := a.x) (by omega) (by omega) (by omega) (by omega)
      exact ⟨_, by rw [hv, Res.ok_bind, eset_of _ _ (by omega) (by omega)]; rfl⟩
    · split
      · exact ⟨_, by rw [eset_of _ _ (by omega) (by omega)]; rfl⟩
      · rename_i h1 h2
        have h3 : a.haveLeft = true := by
          cases h4 : a.haveAbove <;> cases h5 : a.haveLeft <;> simp_all
        obtain ⟨v, hv⟩ := leftPixel_total hs (r := min (min (intraMaxY c a.plane) (if a.haveBelowLeft then ((a.y + 2 * 2 ^ a.log2H : Nat) : Int) - 1 else ((a.y + 2 ^ a.log2H : Nat) : Int) - 1)) ((a.y + i : Nat) : Int)) (x := a.x)
          (by split <;> omega) (by omega) (f7 h3) (by omega)
        exact ⟨_, by rw [hv, Res.ok_bind, eset_of _ _ (by omega) (by omega)]; rfl⟩
  have e3 : ∃ v, cornerPixel c a F = .ok v := by
    unfold cornerPixel
    split
    · rename_i h
      simp at h
      rw [if_neg (by have := f7 h.2; omega), hy h.1]
      exact gget_shape hs (by omega) (by omega) (by have := f7 h.2; omega) (by omega)
    · split
      · rename_i h
        rw [hy h]
        exact gget_shape hs (by omega) (by omega) (by omega) (by omega)
      · split
        · rename_i h
          exact leftPixel_total hs (by omega) (by omega) (f7 h) (by omega)
        · exact ⟨_, rfl⟩
  unfold prepEdges
  obtain ⟨ab1, h1, -⟩ := forN_total (f := fun i (e : Edge) => do
    let v ← abovePixel c a F i
    eset e i v) (fun _ _ => True) (n := 2 ^ a.log2W + 2 ^ a.log2H - 1) (i0 := 0) (s := ab) (fun i t _ hi _ => by
      obtain ⟨v, hv⟩ := e1 i
      exact ⟨_, by rw [hv, Res.ok_bind, eset_of _ _ (by omega) (by omega)], trivial⟩) trivial
  obtain ⟨s, h2, -⟩ := forN_total (f := leftTurn c a F) (fun _ _ => True) (n := 2 ^ a.log2W + 2 ^ a.log2H - 1) (i0 := 0) (s := (ab1, lf)) (fun i t _ hi _ => by
      obtain ⟨s', hs'⟩ := e2 i t (by omega)
      exact ⟨s', hs', trivial⟩) trivial
  obtain ⟨v, h3⟩ := e3
  dsimp only
  exact ⟨_, by rw [h1, Res.ok_bind, h2, Res.ok_bind, h3, Res.ok_bind, eset_of _ _ (by decide) (by decide), Res.ok_bind, eset_of _ _ (by decide) (by decide)]; rfl⟩

theorem copyPred_total {p : Pred} {x y w h H W : Nat} {F : List (List Int)} (hs : Shape H W F) (hx : x + w ≤ W) (hy : y + h ≤ H) (hw : w ≤ 15) (hh : h ≤ 15) : ∃ F', copyPred p x y w h F = .ok F' := by
  obtain ⟨F', hF', -⟩ := forN_total (f := fun i F => forN (fun j F => do
    let v ← pget p i j
    gset F ((y + i : Nat) : Int) ((x + j : Nat) : Int) v) w 0 F) (fun _ F => Shape H W F) (n := h) (i0 := 0) (s := F) (fun i t _ hi ht => by
      obtain ⟨G, hG, h2⟩ := forN_total (f := fun j F => do
        let v ← pget p i j
        gset F ((y + i : Nat) : Int) ((x + j : Nat) : Int) v) (fun _ F => Shape H W F) (n := w) (i0 := 0) (s := t) (fun j u _ hj hu => by
          obtain ⟨m', h3, h4, -, -⟩ := gset_ok hu (i := y + i) (j := x + j) (by omega) (by omega) (p i j)
          refine ⟨m', ?_, h4⟩
          unfold pget
          rw [if_pos ⟨by omega, by omega⟩, Res.ok_bind]; exact h3) ht
      exact ⟨G, hG, h2⟩) hs
  exact ⟨F', hF'⟩

theorem smWeights_get {log2 i : Nat} (h : log2 = 2 ∨ log2 = 3) (hi : i < 2 ^ log2) : ∃ v, goGet (smWeights log2) (i : Int) = .ok v := by
  rcases h with rfl | rfl
  · exact ⟨_, goGet_lt' (l := smWeights4) hi⟩
  · exact ⟨_, goGet_lt' (l := smWeights8) hi⟩

/-- The predictors that are not directional return for blocks of 4 and 8 pixels. -/
theorem intraPred_total {c : IntraCtx} {a : IntraArgs} (hw : a.log2W = 2 ∨ a.log2W = 3) (hh : a.log2H = 2 ∨ a.log2H = 3) (hm : a.mode ∈ [(0 : Int), 9, 10, 11, 12])
    (hn : ¬ (a.plane = 0 ∧ c.useFilter = true)) (ab lf : Edge) : ∃ p, intraPred c a ab lf = .ok (p, ab, lf) := by
  have pw : 2 ^ a.log2W ≤ 8 ∧ 0 < 2 ^ a.log2W := by rcases hw with h | h <;> rw [h] <;> decide
  have ph : 2 ^ a.log2H ≤ 8 ∧ 0 < 2 ^ a.log2H := by rcases hh with h | h <;> rw [h] <;> decide
  unfold intraPred
  dsimp only
  rw [if_neg hn]
  simp only [List.mem_cons, List.not_mem_nil, or_false] at hm
  rw [if_neg (by omega)]
  have hE : ∀ (e : Edge) (k : Int), 0 ≤ k → k < 32768 → eget e k = .ok (e k) := fun e k h0 h1 => eget_of h0 h1
  split
  · rename_i hmm
    have : ∃ p, smoothPred a.mode a.log2W a.log2H (2 ^ a.log2W) (2 ^ a.log2H) ab lf = .ok p := by
      unfold smoothPred
      rcases hmm with h | h | h <;> rw [h]
      · rw [if_pos (by decide)]
        refine fillPred_total (by omega) (by omega) fun i j hi hj => ?_
        obtain ⟨wy, h1⟩ := smWeights_get hh hi
        obtain ⟨wx, h2⟩ := smWeights_get hw hj
        unfold smoothPixel
        exact ⟨_, by rw [h1, Res.ok_bind, hE _ _ (by omega) (by omega), Res.ok_bind, hE _ _ (by omega) (by omega), Res.ok_bind, h2, Res.ok_bind, hE _ _ (by omega) (by omega), Res.ok_bind,
          hE _ _ (by omega) (by omega)]; rfl⟩
      · rw [if_neg (by decide), if_pos (by decide)]
        refine fillPred_total (by omega) (by omega) fun i j hi hj => ?_
        obtain ⟨wy, h1⟩ := smWeights_get hh hi
        unfold smoothVPixel
        exact ⟨_, by rw [h1, Res.ok_bind, hE _ _ (by omega) (by omega), Res.ok_bind, hE _ _ (by omega) (by omega)]; rfl⟩
      · rw [if_neg (by decide), if_neg (by decide), if_pos (by decide)]
        refine fillPred_total (by omega) (by omega) fun i j hi hj => ?_
        obtain ⟨wx, h2⟩ := smWeights_get hw hj
        unfold smoothHPixel
        exact ⟨_, by rw [h2, Res.ok_bind, hE _ _ (by omega) (by omega), Res.ok_bind, hE _ _ (by omega) (by omega)]; rfl⟩
    obtain ⟨p, hp⟩ := this
    exact ⟨p, by rw [hp]; rfl⟩
  split
  · have : ∃ p, dcPred c a.haveLeft a.haveAbove a.log2H (2 ^ a.log2W) (2 ^ a.log2H) ab lf = .ok p := by
      unfold dcPred
      split
      · refine fillPred_total (by omega) (by omega) fun i j hi hj => ?_
        obtain ⟨s, hs⟩ := edgeSum_total lf (n := 2 ^ a.log2H) (by omega) 0
        obtain ⟨s', hs'⟩ := edgeSum_total ab (n := 2 ^ a.log2W) (by omega) s
        exact ⟨_, by rw [hs, Res.ok_bind, hs']; rfl⟩
      split
      · refine fillPred_total (by omega) (by omega) fun i j hi hj => ?_
        obtain ⟨s, hs⟩ := edgeSum_total lf (n := 2 ^ a.log2H) (by omega) 0
        exact ⟨_, by rw [hs]; rfl⟩
      split
      · exact fillPred_total (by omega) (by omega) fun i j hi hj => ⟨_, rfl⟩
      · exact ⟨_, rfl⟩
    obtain ⟨p, hp⟩ := this
    exact ⟨p, by rw [hp]; rfl⟩
  · have : ∃ p, basicPred (2 ^ a.log2W) (2 ^ a.log2H) ab lf = .ok p :=
      fillPred_total (by omega) (by omega) fun i j hi hj => ⟨_, by
        rw [hE _ _ (by omega) (by omega), Res.ok_bind, hE _ _ (by omega) (by omega), Res.ok_bind, hE _ _ (by omega) (by omega)]; rfl⟩
    obtain ⟨p, hp⟩ := this
    exact ⟨p, by rw [hp]; rfl⟩

/-- **C153 (small blocks).**  A block of 4 or 8 pixels in each direction, inside the array of the plane, whose mode is DC, one of the smooth modes or Paeth, is always
predicted.  (Directional modes: C154, C155.) -/
theorem C153_small_partial {c : IntraCtx} {a : IntraArgs} {H W : Nat} {F : List (List Int)} (hs : Shape H W F) (hf : BlkFits c a H W) (hw : a.log2W = 2 ∨ a.log2W = 3)
    (hh : a.log2H = 2 ∨ a.log2H = 3) (hm : a.mode ∈ [(0 : Int), 9, 10, 11, 12]) (hn : ¬ (a.plane = 0 ∧ c.useFilter = true)) (ab lf : Edge) :
    ∃ r, predictIntra c a F ab lf = .ok r := by
  obtain ⟨e, he⟩ := prepEdges_total hs hf (by omega) (by omega) ab lf
  obtain ⟨p, hp⟩ := intraPred_total (c := c) hw hh hm hn e.1 e.2
  have pw : 2 ^ a.log2W ≤ 8 := by rcases hw with h | h <;> rw [h] <;> decide
  have ph : 2 ^ a.log2H ≤ 8 := by rcases hh with h | h <;> rw [h] <;> decide
  obtain ⟨F', hF'⟩ := copyPred_total (p := p) hs hf.right hf.bottom (by omega) (by omega)
  exact ⟨_, by unfold predictIntra; rw [he, Res.ok_bind, hp, Res.ok_bind, hF']; rfl⟩

theorem fits_example : BlkFits { miRows := 4, miCols := 4 } { x := 4, y := 8, haveLeft := true, haveAbove := true, log2W := 3, log2H := 2, mode := 9 } 16 16 := by
  constructor <;> decide

example : ∃ r, predictIntra { miRows := 4, miCols := 4 } { x := 4, y := 8, haveLeft := true, haveAbove := true, log2W := 3, log2H := 2, mode := 9 }
    (List.replicate 16 (List.replicate 16 7)) (fun _ => 0) (fun _ => 0) = .ok r :=
  C153_small_partial (Shape.replicate 16 16 7) fits_example (by decide) (by decide) (by decide) (by decide) _ _

/-- **C153, refuted (filter intra).**  A luma block with `use_filter_intra` is never predicted. -/
theorem C153_filter_refuted (c : IntraCtx) (a : IntraArgs) (F : List (List Int)) (ab lf : Edge) (hp : a.plane = 0) (hu : c.useFilter = true) (hw : 2 ≤ a.log2W) (hh : 1 ≤ a.log2H)
    (r : List (List Int) × Edge × Edge) : predictIntra c a F ab lf ≠ .ok r := by
  intro h
  obtain ⟨e, p, -, hq, -⟩ := predictIntra_inv (E := r.2) (F' := r.1) h
  unfold intraPred at hq
  dsimp only at hq
  rw [if_pos ⟨hp, hu⟩] at hq
  obtain ⟨q, hq, -⟩ := Res.inv hq
  have pw : 2 ^ 2 ≤ 2 ^ a.log2W := Nat.pow_le_pow_right (by decide) hw
  have ph : 2 ^ 1 ≤ 2 ^ a.log2H := Nat.pow_le_pow_right (by decide) hh
  unfold recursivePred at hq
  rw [if_neg (by rw [Nat.shiftRight_eq_div_pow, Nat.shiftRight_eq_div_pow]; omega)] at hq
  cases hq

/-! ## C152: the edges -/

theorem forN_eset {v : Nat → Res Int} {n : Nat} {e e' : Edge} (h : forN (fun i (e : Edge) => do
    let v ← v i
    eset e i v) n 0 e = .ok e') : (∀ i, i < n → v i = .ok (e' i)) ∧ ∀ k : Int, (k < 0 ∨ n ≤ k) → e' k = e k := by
  have := forN_inv (fun m (t : Edge) => (∀ i, i < m → v i = .ok (t i)) ∧ ∀ k : Int, (k < 0 ∨ m ≤ k) → t k = e k) (n := n) (i0 := 0) (s' := e') ?_ h
    ⟨fun i hi => absurd hi (Nat.not_lt_zero i), fun _ _ => rfl⟩
  · rwa [Nat.zero_add] at this
  intro i t t' _ _ ht hs
  obtain ⟨x, hx, hs⟩ := Res.inv hs
  obtain ⟨-, -, h1, h2⟩ := eset_inv hs
  refine ⟨fun k hk => ?_, fun k hk => ?_⟩
  · rcases Nat.lt_or_ge k i with hlt | hge
    · rw [h2 k (by omega)]; exact ht.1 k hlt
    · have : k = i := by omega
      subst this
      rw [h1]; exact hx
  · rw [h2 k (by omega)]; exact ht.2 k (by omega)

/-- **C152, refuted (the pixels to the left).**  For a block with a left neighbour the left column is not loaded: all its entries but the corner are what they
were before the call, and the pixels to the left of the block are put in the row above instead: entry `i` has the pixel of column `x-1` in row `y+i`. -/
theorem C152_left_refuted {c : IntraCtx} {a : IntraArgs} {F : List (List Int)} {ab lf : Edge} {e : Edge × Edge} (hl : a.haveLeft = true) (hx : 0 < a.x) (hw : a.log2W ≤ 6) (hh : a.log2H ≤ 6)
    (h : prepEdges c a F ab lf = .ok e) : (∀ k : Int, k ≠ 32767 → e.2 k = lf k) ∧
      ∀ i : Nat, i < 2 ^ a.log2H → ((a.y + i : Nat) : Int) ≤ intraMaxY c a.plane → at2 F (a.y + i) (a.x - 1) = some (e.1 i) := by
  have pw : 2 ^ a.log2W ≤ 2 ^ 6 := Nat.pow_le_pow_right (by decide) hw
  have ph : 2 ^ a.log2H ≤ 2 ^ 6 := Nat.pow_le_pow_right (by decide) hh
  have qw : 0 < 2 ^ a.log2W := by positivity
  have qh : 0 < 2 ^ a.log2H := by positivity
  unfold prepEdges at h
  obtain ⟨ab', h1, h⟩ := Res.inv h
  obtain ⟨s, h2, h⟩ := Res.inv h
  obtain ⟨v, h3, h⟩ := Res.inv h
  obtain ⟨ab2, h4, h⟩ := Res.inv h
  obtain ⟨lf2, h5, h⟩ := Res.inv h
  rw [← Except.ok.inj h]
  dsimp only
  have k2 := forN_inv (fun m (t : Edge × Edge) => t.2 = lf ∧ ∀ i : Nat, i < m → i < 2 ^ a.log2H → ((a.y + i : Nat) : Int) ≤ intraMaxY c a.plane → at2 F (a.y + i) (a.x - 1) = some (t.1 i))
    (n := 2 ^ a.log2W + 2 ^ a.log2H - 1) (i0 := 0) (s' := s) ?_ h2 ⟨rfl, fun i hi => absurd hi (Nat.not_lt_zero i)⟩
  · obtain ⟨-, -, -, g1⟩ := eset_inv h5
    obtain ⟨-, -, -, g2⟩ := eset_inv h4
    refine ⟨fun k hk => by rw [g1 k hk, k2.1], fun i hi hm => ?_⟩
    rw [g2 i (by omega)]
    exact k2.2 i (by omega) hi hm
  intro i t t' _ _ ht hs
  unfold leftTurn at hs
  rw [hl] at hs
  rw [if_neg (by simp), if_neg (by simp)] at hs
  obtain ⟨x, hx', hs⟩ := Res.inv hs
  obtain ⟨u, hu, hs⟩ := Res.inv hs
  rw [← Except.ok.inj hs]
  obtain ⟨-, -, g1, g2⟩ := eset_inv hu
  refine ⟨ht.1, fun k hk hk2 hm => ?_⟩
  dsimp only
  rcases Nat.lt_or_ge k i with hlt | hge
  · rw [g2 k (by omega)]; exact ht.2 k hlt hk2 hm
  · have : k = i := by omega
    subst this
    rw [g1]
    unfold leftPixel at hx'
    rw [if_neg (by omega)] at hx'
    have := (gget_inv hx').2.2
    rwa [show (min (min (intraMaxY c a.plane) (if a.haveBelowLeft then ((a.y + 2 * 2 ^ a.log2H : Nat) : Int) - 1 else ((a.y + 2 ^ a.log2H : Nat) : Int) - 1)) ((a.y + k : Nat) : Int)).toNat = a.y + k by
      split <;> omega, show ((a.x : Int) - 1).toNat = a.x - 1 by omega] at this

/-- Below the first row no pixel above the block matters: two planes that agree from row `y` on have the same
edges.  (AV1's row above a block is row `y-1`.) -/
theorem edges_above {c : IntraCtx} {a : IntraArgs} {F G : List (List Int)} (hy : 0 < a.y) (hx : a.haveLeft = true → 0 < a.x)
    (hag : ∀ r, a.y ≤ r → F[r]? = G[r]?) (hin : (a.y : Int) ≤ intraMaxY c a.plane) (ab lf : Edge) : prepEdges c a F ab lf = prepEdges c a G ab lf := by
  have row : ∀ r : Int, (a.y : Int) ≤ r → goGet F r = goGet G r := by
    intro r hr
    unfold goGet
    rw [if_neg (by omega), if_neg (by omega), hag r.toNat (by omega)]
  have cell : ∀ r k : Int, (a.y : Int) ≤ r → gget F r k = gget G r k := by
    intro r k hr
    unfold gget; rw [row r hr]
  have hyF : ∀ F : List (List Int), yMinusOne F a.y = a.y := fun F => by unfold yMinusOne; rw [if_neg (by omega)]
  have lp : ∀ r : Int, (a.y : Int) ≤ r → leftPixel F r a.x = leftPixel G r a.x := by
    intro r hr
    unfold leftPixel; rw [row r hr, cell r _ hr]
  have e1 : ∀ i, abovePixel c a F i = abovePixel c a G i := by
    intro i
    unfold abovePixel
    rw [lp _ (le_refl _), hyF, hyF, cell _ _ (le_refl _)]
  have qh : 0 < 2 ^ a.log2H := by positivity
  have e2 : leftTurn c a F = leftTurn c a G := by
    funext i s
    unfold leftTurn
    rw [hyF, hyF, cell _ _ (le_refl _), lp _ (by split <;> omega)]
  have e3 : cornerPixel c a F = cornerPixel c a G := by
    unfold cornerPixel
    rw [hyF, hyF, lp _ (le_refl _), cell _ _ (le_refl _), cell _ _ (le_refl _)]
    by_cases hl : a.haveLeft = true
    · have h0 : ¬ a.x = 0 := by have := hx hl; omega
      simp only [if_neg h0]
    · have : ¬ (a.haveAbove && a.haveLeft) = true := by simp [hl]
      rw [if_neg this, if_neg this]
  unfold prepEdges
  rw [e2, e3]
  have : (fun i (e : Edge) => do
    let v ← abovePixel c a F i
    eset e i v) = (fun i (e : Edge) => do
    let v ← abovePixel c a G i
    eset e i v) := by funext i e; rw [e1]
  rw [this]

/-- **C152, refuted (the pixels above).**  Below the first row no pixel above the block matters: in two planes that agree from row `y` on the prediction of the block
is the same, whatever is in row `y-1`.  (AV1's row above a block is row `y-1`.) -/
theorem C152_above_refuted {c : IntraCtx} {a : IntraArgs} {F G F' G' : List (List Int)} {E E' : Edge × Edge} (hy : 0 < a.y) (hx : a.haveLeft = true → 0 < a.x)
    (hag : ∀ r, a.y ≤ r → F[r]? = G[r]?) (hin : (a.y : Int) ≤ intraMaxY c a.plane) {ab lf : Edge} (hF : predictIntra c a F ab lf = .ok (F', E)) (hG : predictIntra c a G ab lf = .ok (G', E')) :
    ∀ r k, InBlk a.x a.y (2 ^ a.log2W) (2 ^ a.log2H) r k → at2 F' r k = at2 G' r k := by
  obtain ⟨e, p, h1, h2, h3⟩ := predictIntra_inv hF
  obtain ⟨e', p', k1, k2, k3⟩ := predictIntra_inv hG
  rw [edges_above hy hx hag hin, k1] at h1
  rw [Except.ok.inj h1, h2] at k2
  have := Except.ok.inj k2
  injection this with q1 q2
  subst q1
  intro r k hb
  unfold InBlk at hb
  obtain ⟨-, -, -, e1⟩ := (copyPred_inv h3).1 (r - a.y) (k - a.x) (by omega) (by omega)
  obtain ⟨-, -, -, e2⟩ := (copyPred_inv k3).1 (r - a.y) (k - a.x) (by omega) (by omega)
  rw [show a.y + (r - a.y) = r by omega, show a.x + (k - a.x) = k by omega] at e1 e2
  rw [e1, e2]

/-- **C152, refuted (no neighbours).**  AV1 uses `2^(bd-1) - 1` above and `2^(bd-1) + 1` to the left of a block without neighbours.  The code has `2^(bd-1) + 1` above, and to the
left what was there before. -/
theorem C152_none_refuted {c : IntraCtx} {a : IntraArgs} {F : List (List Int)} {ab lf : Edge} {e : Edge × Edge} (hl : a.haveLeft = false) (ha : a.haveAbove = false) (hw : a.log2W ≤ 6) (hh : a.log2H ≤ 6)
    (h : prepEdges c a F ab lf = .ok e) : (∀ i : Nat, i < 2 ^ a.log2W + 2 ^ a.log2H - 1 → e.1 i = 2 ^ (c.bitDepth - 1) + 1) ∧ (∀ k : Int, k ≠ 32767 → e.2 k = lf k) ∧
      e.1 32767 = 2 ^ (c.bitDepth - 1) ∧ e.2 32767 = 2 ^ (c.bitDepth - 1) := by
  have pw : 2 ^ a.log2W ≤ 2 ^ 6 := Nat.pow_le_pow_right (by decide) hw
  have ph : 2 ^ a.log2H ≤ 2 ^ 6 := Nat.pow_le_pow_right (by decide) hh
  unfold prepEdges at h
  obtain ⟨ab', h1, h⟩ := Res.inv h
  obtain ⟨s, h2, h⟩ := Res.inv h
  obtain ⟨v, h3, h⟩ := Res.inv h
  obtain ⟨ab2, h4, h⟩ := Res.inv h
  obtain ⟨lf2, h5, h⟩ := Res.inv h
  rw [← Except.ok.inj h]
  dsimp only
  have hv : v = 2 ^ (c.bitDepth - 1) := by
    unfold cornerPixel at h3
    rw [hl, ha, if_neg (by decide), if_neg (by decide), if_neg (by decide)] at h3
    rw [← Except.ok.inj h3, shl_cast]
  have k2 := forN_inv (fun m (t : Edge × Edge) => t.2 = lf ∧ ∀ i : Nat, i < m → t.1 i = 2 ^ (c.bitDepth - 1) + 1)
    (n := 2 ^ a.log2W + 2 ^ a.log2H - 1) (i0 := 0) (s' := s) ?_ h2 ⟨rfl, fun i hi => absurd hi (Nat.not_lt_zero i)⟩
  · obtain ⟨-, -, g0, g1⟩ := eset_inv h5
    obtain ⟨-, -, g3, g2⟩ := eset_inv h4
    refine ⟨fun i hi => ?_, fun k hk => by rw [g1 k hk, k2.1], by rw [g3, hv], by rw [g0, hv]⟩
    rw [g2 i (by omega)]
    exact k2.2 i (by omega)
  intro i t t' _ _ ht hs
  unfold leftTurn at hs
  rw [hl, ha] at hs
  rw [if_neg (by simp), if_pos (by simp)] at hs
  obtain ⟨u, hu, hs⟩ := Res.inv hs
  rw [← Except.ok.inj hs]
  obtain ⟨-, -, g1, g2⟩ := eset_inv hu
  refine ⟨ht.1, fun k hk => ?_⟩
  dsimp only
  rcases Nat.lt_or_ge k i with hlt | hge
  · rw [g2 k (by omega)]; exact ht.2 k hlt
  · have : k = i := by omega
    subst this
    rw [g1, shl_cast]

/-- **C152 (above only).**  Without a left neighbour every entry of the left column, and the corner, is the pixel the code takes for the one above the first pixel of the block, as in AV1; the row
above is repeated after the limit.  (The row is `y`, see `C152_above_refuted`.) -/
theorem C152_above_partial {c : IntraCtx} {a : IntraArgs} {F : List (List Int)} {ab lf : Edge} {e : Edge × Edge} (hl : a.haveLeft = false) (ha : a.haveAbove = true) (hw : a.log2W ≤ 6) (hh : a.log2H ≤ 6)
    (hin : (a.x : Int) ≤ intraMaxX c a.plane) (h : prepEdges c a F ab lf = .ok e) :
    (∀ i : Nat, i < 2 ^ a.log2W + 2 ^ a.log2H - 1 → e.2 i = e.1 0) ∧ e.1 32767 = e.1 0 ∧ e.2 32767 = e.1 0 ∧
    ∀ i : Nat, i < 2 ^ a.log2W + 2 ^ a.log2H - 1 → ∃ r : Nat, at2 F r (min (min (intraMaxX c a.plane).toNat (a.x + (if a.haveAboveRight then 2 else 1) * 2 ^ a.log2W - 1)) (a.x + i)) = some (e.1 i) := by
  have pw : 2 ^ a.log2W ≤ 2 ^ 6 := Nat.pow_le_pow_right (by decide) hw
  have ph : 2 ^ a.log2H ≤ 2 ^ 6 := Nat.pow_le_pow_right (by decide) hh
  have qw : 0 < 2 ^ a.log2W := by positivity
  have qh : 0 < 2 ^ a.log2H := by positivity
  unfold prepEdges at h
  obtain ⟨ab', h1, h⟩ := Res.inv h
  obtain ⟨s, h2, h⟩ := Res.inv h
  obtain ⟨v, h3, h⟩ := Res.inv h
  obtain ⟨ab2, h4, h⟩ := Res.inv h
  obtain ⟨lf2, h5, h⟩ := Res.inv h
  rw [← Except.ok.inj h]
  dsimp only
  obtain ⟨A1, -⟩ := forN_eset (v := abovePixel c a F) h1
  have A2 : ∀ i : Nat, i < 2 ^ a.log2W + 2 ^ a.log2H - 1 → gget F (yMinusOne F a.y)
    (min (min (intraMaxX c a.plane) (if a.haveAboveRight then ((a.x + 2 * 2 ^ a.log2W : Nat) : Int) - 1 else ((a.x + 2 ^ a.log2W : Nat) : Int) - 1)) ((a.x + i : Nat) : Int)) = .ok (ab' i) := by
    intro i hi
    have := A1 i hi
    unfold abovePixel at this
    rwa [ha, hl, if_neg (by decide), if_neg (by decide)] at this
  have A0 : gget F (yMinusOne F a.y) a.x = .ok (ab' 0) := by
    have := A2 0 (by omega)
    rw [show (min (min (intraMaxX c a.plane) (if a.haveAboveRight then ((a.x + 2 * 2 ^ a.log2W : Nat) : Int) - 1 else ((a.x + 2 ^ a.log2W : Nat) : Int) - 1)) ((a.x + 0 : Nat) : Int)) = a.x by
      split <;> omega] at this
    exact this
  have hv : v = ab' 0 := by
    unfold cornerPixel at h3
    rw [hl, ha, if_neg (by decide), if_pos rfl, A0] at h3
    exact (Except.ok.inj h3).symm
  have k2 := forN_inv (fun m (t : Edge × Edge) => t.1 = ab' ∧ ∀ i : Nat, i < m → t.2 i = ab' 0)
    (n := 2 ^ a.log2W + 2 ^ a.log2H - 1) (i0 := 0) (s' := s) ?_ h2 ⟨rfl, fun i hi => absurd hi (Nat.not_lt_zero i)⟩
  · obtain ⟨-, -, g0, g1⟩ := eset_inv h5
    obtain ⟨-, -, g3, g2⟩ := eset_inv h4
    have z : ab2 0 = ab' 0 := by rw [g2 0 (by decide), k2.1]
    refine ⟨fun i hi => by rw [g1 i (by omega), k2.2 i (by omega), z], by rw [g3, hv, z], by rw [g0, hv, z], fun i hi => ?_⟩
    refine ⟨(yMinusOne F a.y).toNat, ?_⟩
    rw [g2 i (by omega), k2.1]
    have := (gget_inv (A2 i hi)).2.2
    rwa [show (min (min (intraMaxX c a.plane) (if a.haveAboveRight then ((a.x + 2 * 2 ^ a.log2W : Nat) : Int) - 1 else ((a.x + 2 ^ a.log2W : Nat) : Int) - 1)) ((a.x + i : Nat) : Int)).toNat =
      min (min (intraMaxX c a.plane).toNat (a.x + (if a.haveAboveRight then 2 else 1) * 2 ^ a.log2W - 1)) (a.x + i) by
        cases a.haveAboveRight
        · rw [if_neg (by decide), if_neg (by decide)]; omega
        · rw [if_pos rfl, if_pos rfl]; omega] at this
  intro i t t' _ _ ht hs
  unfold leftTurn at hs
  rw [hl, ha] at hs
  rw [if_pos (by simp), A0, Res.ok_bind] at hs
  obtain ⟨u, hu, hs⟩ := Res.inv hs
  rw [← Except.ok.inj hs]
  obtain ⟨-, -, g1, g2⟩ := eset_inv hu
  refine ⟨ht.1, fun k hk => ?_⟩
  dsimp only
  rcases Nat.lt_or_ge k i with hlt | hge
  · rw [g2 k (by omega)]; exact ht.2 k hlt
  · have : k = i := by omega
    subst this
    rw [g1]

example : ∃ e, prepEdges { miRows := 4, miCols := 4 } { x := 4, y := 8, haveLeft := true, haveAbove := true, log2W := 3, log2H := 2, mode := 9 }
    (List.replicate 16 (List.replicate 16 7)) (fun _ => 0) (fun _ => 0) = .ok e :=
  prepEdges_total (Shape.replicate 16 16 7) fits_example (by decide) (by decide) _ _

end Gov1
