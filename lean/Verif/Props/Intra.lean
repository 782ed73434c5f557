import Verif.Model.Intra
import Verif.Lemmas.Grid
import Mathlib.Algebra.BigOperators.Group.Finset.Basic
import Mathlib.Algebra.Order.BigOperators.Group.Finset
import Mathlib.Tactic.Linarith
import Mathlib.Tactic.Ring
/-!
# C56, C150-C154: intra prediction
-/
namespace Gov1

/-! ## Arrays -/

theorem eget_inv {a : Edge} {i v : Int} (h : eget a i = .ok v) : 0 ≤ i ∧ i < 32768 ∧ v = a i := by
  unfold eget at h
  split at h
  · rename_i hi; cases h; exact ⟨hi.1, hi.2, rfl⟩
  · cases h

theorem eget_of {a : Edge} {i : Int} (h0 : 0 ≤ i) (h1 : i < 32768) : eget a i = .ok (a i) := by unfold eget; rw [if_pos ⟨h0, h1⟩]

theorem eset_inv {a b : Edge} {i v : Int} (h : eset a i v = .ok b) : 0 ≤ i ∧ i < 32768 ∧ b i = v ∧ ∀ k, k ≠ i → b k = a k := by
  unfold eset at h
  split at h
  · rename_i hi; cases h; exact ⟨hi.1, hi.2, if_pos rfl, fun k hk => if_neg hk⟩
  · cases h

theorem eset_of (a : Edge) {i : Int} (v : Int) (h0 : 0 ≤ i) (h1 : i < 32768) : eset a i v = .ok (fun k => if k = i then v else a k) := by
  unfold eset; rw [if_pos ⟨h0, h1⟩]

/-- The loops of a predictor, if they end, leave the value of each pixel at its place; this place exists. -/
theorem fillPred_inv {w h : Nat} {f : Nat → Nat → Res Int} {p : Pred} (hp : fillPred w h f = .ok p) {i j : Nat} (hi : i < h) (hj : j < w) :
    i < 15 ∧ j < 15 ∧ f i j = .ok (p i j) := by
  have key := forN_inv (fun n (p : Pred) => ∀ a b, a < n → b < w → a < 15 ∧ b < 15 ∧ f a b = .ok (p a b)) (n := h) (i0 := 0) (s' := p) ?_ hp (fun a b ha => absurd ha (Nat.not_lt_zero a))
  · exact key i j (by omega) hj
  intro k t t' _ _ hinv hstep
  have inner := forN_inv (fun n (q : Pred) => (∀ a b, a < k → b < w → a < 15 ∧ b < 15 ∧ f a b = .ok (q a b)) ∧ ∀ b, b < n → k < 15 ∧ b < 15 ∧ f k b = .ok (q k b))
    (n := w) (i0 := 0) (s' := t') ?_ hstep ⟨hinv, fun b hb => absurd hb (Nat.not_lt_zero b)⟩
  · intro a b ha hb
    rcases Nat.lt_or_ge a k with h1 | h1
    · exact inner.1 a b h1 hb
    · have : a = k := by omega
      subst this
      exact inner.2 b (by omega)
  intro l q q' _ _ hq hstep
  obtain ⟨v, hv, hs⟩ := Res.inv hstep
  unfold pset at hs
  split at hs
  · rename_i hb
    cases hs
    refine ⟨fun a b ha hb' => ?_, fun b hb' => ?_⟩
    · obtain ⟨h1, h2, h3⟩ := hq.1 a b ha hb'
      refine ⟨h1, h2, ?_⟩
      show _ = Except.ok (if a = k ∧ b = l then v else q a b)
      rw [if_neg (by omega)]; exact h3
    · show k < 15 ∧ b < 15 ∧ _ = Except.ok (if k = k ∧ b = l then v else q k b)
      rcases Nat.lt_or_ge b l with h1 | h1
      · obtain ⟨h2, h3, h4⟩ := hq.2 b h1
        rw [if_neg (by omega)]; exact ⟨h2, h3, h4⟩
      · have : b = l := by omega
        subst this
        rw [if_pos ⟨rfl, rfl⟩]; exact ⟨hb.1, hb.2, hv⟩
  · cases hs

/-- They end if the block is at most 15x15 and every value can be computed. -/
theorem fillPred_total {w h : Nat} {f : Nat → Nat → Res Int} (hw : w ≤ 15) (hh : h ≤ 15) (hf : ∀ i j, i < h → j < w → ∃ v, f i j = .ok v) : ∃ p, fillPred w h f = .ok p := by
  obtain ⟨p, hp, -⟩ := forN_total (f := fun i (p : Pred) => forN (fun j p => do
    let v ← f i j
    pset p i j v) w 0 p) (fun _ _ => True) (n := h) (i0 := 0) (s := fun _ _ => 0) (fun i t _ hi _ => by
      obtain ⟨q, hq, -⟩ := forN_total (f := fun j (p : Pred) => do
        let v ← f i j
        pset p i j v) (fun _ _ => True) (n := w) (i0 := 0) (s := t) (fun j u _ hj _ => by
          obtain ⟨v, hv⟩ := hf i j (by omega) (by omega)
          refine ⟨fun a b => if a = i ∧ b = j then v else u a b, ?_, trivial⟩
          rw [hv, Res.ok_bind]; unfold pset; rw [if_pos ⟨by omega, by omega⟩]) trivial
      exact ⟨q, hq, trivial⟩) trivial
  exact ⟨p, hp⟩

/-! ## C56: values between those of the edges -/

/-- Between `lo` and `hi`. -/
def Btw (lo hi v : Int) : Prop := lo ≤ v ∧ v ≤ hi

/-- `v` is AV1's Paeth choice between the pixel `l` to the left, `a` above and the corner `c`: the one closest to `a + l - c`, the left one
before the one above before the corner. -/
def PaethChoice (a l c v : Int) : Prop :=
  (v = l ∨ v = a ∨ v = c) ∧ |a + l - c - v| ≤ |a + l - c - l| ∧ |a + l - c - v| ≤ |a + l - c - a| ∧ |a + l - c - v| ≤ |a + l - c - c| ∧
  (|a + l - c - l| ≤ |a + l - c - a| → |a + l - c - l| ≤ |a + l - c - c| → v = l) ∧
  (|a + l - c - a| < |a + l - c - l| → |a + l - c - a| ≤ |a + l - c - c| → v = a)

theorem paeth_choice (a l c : Int) : PaethChoice a l c (paeth a l c) := by
  unfold PaethChoice paeth
  dsimp only
  simp only [← Int.natCast_natAbs]
  split
  · rename_i h
    refine ⟨Or.inl rfl, ?_, ?_, ?_, ?_, ?_⟩ <;> omega
  · split
    · rename_i h1 h2
      refine ⟨Or.inr (Or.inl rfl), ?_, ?_, ?_, ?_, ?_⟩ <;> omega
    · rename_i h1 h2
      refine ⟨Or.inr (Or.inr rfl), ?_, ?_, ?_, ?_, ?_⟩ <;> omega

/-- **C56 (Paeth).**  Every pixel of a Paeth predicted block is AV1's choice between the pixels above, to the left and in the corner. -/
theorem C56_paeth {w h : Nat} {above left : Edge} {p : Pred} (hp : basicPred w h above left = .ok p) {i j : Nat} (hi : i < h) (hj : j < w) :
    PaethChoice (above j) (left i) (above 32767) (p i j) := by
  obtain ⟨-, -, hv⟩ := fillPred_inv hp hi hj
  obtain ⟨a, ha, hv⟩ := Res.inv hv
  obtain ⟨l, hl, hv⟩ := Res.inv hv
  obtain ⟨c, hc, hv⟩ := Res.inv hv
  obtain ⟨-, -, rfl⟩ := eget_inv ha
  obtain ⟨-, -, rfl⟩ := eget_inv hl
  obtain ⟨-, -, rfl⟩ := eget_inv hc
  rw [← Except.ok.inj hv]
  exact paeth_choice _ _ _

/-- **C56 (Paeth, range).**  It lies between the smallest and the largest of the pixels of the edges. -/
theorem C56_paeth_range {w h : Nat} {above left : Edge} {p : Pred} {lo hi : Int} (hp : basicPred w h above left = .ok p)
    (ha : ∀ j : Nat, j < w → Btw lo hi (above j)) (hl : ∀ i : Nat, i < h → Btw lo hi (left i)) (hc : Btw lo hi (above 32767)) {i j : Nat} (hi' : i < h) (hj : j < w) :
    Btw lo hi (p i j) := by
  rcases (C56_paeth hp hi' hj).1 with h | h | h <;> rw [h]
  · exact hl i hi'
  · exact ha j hj
  · exact hc

example : ∃ p, basicPred 4 4 (fun k => if k = 32767 then 10 else 20) (fun k => 10 + k) = .ok p ∧ p 0 0 = 20 ∧ p 3 1 = 20 ∧ p 0 3 = 20 := by
  obtain ⟨p, hp⟩ := fillPred_total (w := 4) (h := 4) (f := fun i j => do
    let a ← eget (fun k => if k = 32767 then 10 else 20) j
    let l ← eget (fun k => 10 + k) i
    let c ← eget (fun k => if k = 32767 then 10 else 20) 32767
    pure (paeth a l c)) (by decide) (by decide) (fun i j hi hj => ⟨_, by rw [eget_of (by omega) (by omega), Res.ok_bind, eget_of (by omega) (by omega), Res.ok_bind, eget_of (by decide) (by decide)]; rfl⟩)
  have e : ∀ i j, i < 4 → j < 4 → p i j = paeth (if (j : Int) = 32767 then 10 else 20) (10 + i) 10 := by
    intro i j hi hj
    obtain ⟨-, -, h⟩ := fillPred_inv hp hi hj
    rw [eget_of (by omega) (by omega), Res.ok_bind, eget_of (by omega) (by omega), Res.ok_bind, eget_of (by decide) (by decide), Res.ok_bind] at h
    exact (Except.ok.inj h).symm
  exact ⟨p, hp, by rw [e 0 0 (by decide) (by decide)]; decide, by rw [e 3 1 (by decide) (by decide)]; decide, by rw [e 0 3 (by decide) (by decide)]; decide⟩

theorem round2_btw {lo hi x : Int} {n : Nat} (hn : 0 < n) (h1 : lo * 2 ^ n ≤ x) (h2 : x ≤ hi * 2 ^ n) : Btw lo hi (round2 x n) := by
  unfold round2
  rw [if_neg (by omega), Int.shiftRight_eq_div_pow]
  have hp : (0 : Int) < 2 ^ n := by positivity
  have he : ((1 <<< (n - 1) : Nat) : Int) * 2 = 2 ^ n := by
    rw [Nat.one_shiftLeft]; push_cast; rw [← pow_succ]; congr 1; omega
  have hpc : ((2 ^ n : Nat) : Int) = 2 ^ n := by push_cast; rfl
  rw [hpc]
  generalize ((1 <<< (n - 1) : Nat) : Int) = r at *
  constructor
  · rw [Int.le_ediv_iff_mul_le hp]; omega
  · refine Int.le_of_lt_add_one ((Int.ediv_lt_iff_lt_mul hp).mpr ?_)
    have : (hi + 1) * 2 ^ n = hi * 2 ^ n + 2 ^ n := by ring
    omega

theorem mix_btw {lo hi p q s : Int} {n : Nat} (hp : Btw lo hi p) (hq : Btw lo hi q) (h0 : 0 ≤ s) (h1 : s ≤ 2 ^ n) : lo * 2 ^ n ≤ p * (2 ^ n - s) + q * s ∧ p * (2 ^ n - s) + q * s ≤ hi * 2 ^ n := by
  obtain ⟨hp1, hp2⟩ := hp
  obtain ⟨hq1, hq2⟩ := hq
  have h2 : 0 ≤ 2 ^ n - s := by omega
  constructor
  · nlinarith [mul_le_mul_of_nonneg_right hp1 h2, mul_le_mul_of_nonneg_right hq1 h0]
  · nlinarith [mul_le_mul_of_nonneg_right hp2 h2, mul_le_mul_of_nonneg_right hq2 h0]

theorem smWeights_range {log2 : Nat} {i : Int} {v : Int} (h : goGet (smWeights log2) i = .ok v) : 0 ≤ v ∧ v ≤ 256 := by
  have hm := List.mem_of_getElem? (goGet_inv h).2
  have key : ∀ l ∈ [smWeights4, smWeights8, smWeights16, smWeights32, smWeights64, []], ∀ v ∈ l, 0 ≤ v ∧ v ≤ 256 := by decide
  have : smWeights log2 ∈ [smWeights4, smWeights8, smWeights16, smWeights32, smWeights64, []] := by
    unfold smWeights
    repeat' split
    all_goals simp
  exact key _ this _ hm

/-- **C56 (smooth, range).**  Every pixel of a block with one of the three smooth modes lies between the smallest and the largest of the pixels
of the edges. -/
theorem C56_smooth_range {mode : Int} (hm : mode = 9 ∨ mode = 10 ∨ mode = 11) {log2W log2H w h : Nat} {above left : Edge} {p : Pred} {lo hi : Int}
    (hp : smoothPred mode log2W log2H w h above left = .ok p)
    (ha : ∀ j : Nat, j < w → Btw lo hi (above j)) (hl : ∀ i : Nat, i < h → Btw lo hi (left i)) {i j : Nat} (hi' : i < h) (hj : j < w) : Btw lo hi (p i j) := by
  have hA : ∀ {k v : Int}, eget above k = .ok v → k < w → Btw lo hi v := by
    intro k v hk hw
    obtain ⟨h0, -, rfl⟩ := eget_inv hk
    have := ha k.toNat (by omega)
    rwa [show ((k.toNat : Nat) : Int) = k by omega] at this
  have hL : ∀ {k v : Int}, eget left k = .ok v → k < h → Btw lo hi v := by
    intro k v hk hw
    obtain ⟨h0, -, rfl⟩ := eget_inv hk
    have := hl k.toNat (by omega)
    rwa [show ((k.toNat : Nat) : Int) = k by omega] at this
  unfold smoothPred at hp
  rcases hm with rfl | rfl | rfl
  · rw [if_pos rfl] at hp
    obtain ⟨-, -, hv⟩ := fillPred_inv hp hi' hj
    unfold smoothPixel at hv
    obtain ⟨wy, hwy, hv⟩ := Res.inv hv
    obtain ⟨aj, haj, hv⟩ := Res.inv hv
    obtain ⟨lh, hlh, hv⟩ := Res.inv hv
    obtain ⟨wx, hwx, hv⟩ := Res.inv hv
    obtain ⟨li, hli, hv⟩ := Res.inv hv
    obtain ⟨aw, haw, hv⟩ := Res.inv hv
    have hv := Except.ok.inj hv
    rw [← hv]
    obtain ⟨y0, y1⟩ := smWeights_range hwy
    obtain ⟨x0, x1⟩ := smWeights_range hwx
    have m1 := mix_btw (n := 8) (hL hlh (by omega)) (hA haj (by omega)) y0 (by omega)
    have m2 := mix_btw (n := 8) (hA haw (by omega)) (hL hli (by omega)) x0 (by omega)
    have e8 : (2 : Int) ^ 8 = 256 := by norm_num
    have e9 : (2 : Int) ^ 9 = 512 := by norm_num
    rw [e8] at m1 m2
    apply round2_btw (by decide) <;> rw [e9] <;> linarith [m1.1, m1.2, m2.1, m2.2]
  · rw [if_neg (by decide), if_pos (by decide)] at hp
    obtain ⟨-, -, hv⟩ := fillPred_inv hp hi' hj
    unfold smoothVPixel at hv
    obtain ⟨wy, hwy, hv⟩ := Res.inv hv
    obtain ⟨aj, haj, hv⟩ := Res.inv hv
    obtain ⟨lh, hlh, hv⟩ := Res.inv hv
    have hv := Except.ok.inj hv
    rw [← hv]
    obtain ⟨y0, y1⟩ := smWeights_range hwy
    have m1 := mix_btw (n := 8) (hL hlh (by omega)) (hA haj (by omega)) y0 (by omega)
    apply round2_btw (by decide)
    · have := m1.1; norm_num at this ⊢; linarith
    · have := m1.2; norm_num at this ⊢; linarith
  · rw [if_neg (by decide), if_neg (by decide), if_pos (by decide)] at hp
    obtain ⟨-, -, hv⟩ := fillPred_inv hp hi' hj
    unfold smoothHPixel at hv
    obtain ⟨wx, hwx, hv⟩ := Res.inv hv
    obtain ⟨li, hli, hv⟩ := Res.inv hv
    obtain ⟨aw, haw, hv⟩ := Res.inv hv
    have hv := Except.ok.inj hv
    rw [← hv]
    obtain ⟨x0, x1⟩ := smWeights_range hwx
    have m2 := mix_btw (n := 8) (hA haw (by omega)) (hL hli (by omega)) x0 (by omega)
    apply round2_btw (by decide)
    · have := m2.1; norm_num at this ⊢; linarith
    · have := m2.2; norm_num at this ⊢; linarith

open Finset in
theorem edgeSum_inv {e : Edge} {n : Nat} {s s' : Int} (h : edgeSum e n s = .ok s') : s' = s + ∑ k ∈ range n, e k := by
  have := forN_inv (fun m (t : Int) => t = s + ∑ k ∈ range m, e k) (n := n) (i0 := 0) (s' := s') ?_ h (by simp)
  · rwa [Nat.zero_add] at this
  intro i t t' _ _ ht hstep
  obtain ⟨v, hv, hstep⟩ := Res.inv hstep
  obtain ⟨-, -, rfl⟩ := eget_inv hv
  cases hstep
  rw [sum_range_succ, ht]; ring

open Finset in
/-- **C56 (DC).**  With neighbours on both sides, every pixel of the block is the rounded average of the `w` pixels above and the `h` pixels to the
left (if these are not negative): the nearest integer to it, halves up. -/
theorem C56_dc {c : IntraCtx} {log2H w h : Nat} {above left : Edge} {p : Pred} (hp : dcPred c true true log2H w h above left = .ok p) (he : 2 ∣ w + h)
    (ha : ∀ j : Nat, j < w → 0 ≤ above j) (hl : ∀ i : Nat, i < h → 0 ≤ left i) {i j : Nat} (hi : i < h) (hj : j < w) :
    2 * ((w + h : Nat) : Int) * p i j ≤ 2 * (∑ k ∈ range h, left k + ∑ k ∈ range w, above k) + (w + h : Nat) ∧
      2 * (∑ k ∈ range h, left k + ∑ k ∈ range w, above k) + (w + h : Nat) < 2 * ((w + h : Nat) : Int) * (p i j + 1) := by
  unfold dcPred at hp
  rw [if_pos (by decide)] at hp
  obtain ⟨-, -, hv⟩ := fillPred_inv hp hi hj
  obtain ⟨s, hs, hv⟩ := Res.inv hv
  obtain ⟨s', hs', hv⟩ := Res.inv hv
  have hv := Except.ok.inj hv
  rw [edgeSum_inv hs, Int.zero_add] at hs'
  rw [edgeSum_inv hs'] at hv
  have h0 : 0 ≤ ∑ k ∈ range h, left k := Finset.sum_nonneg fun k hk => hl k (Finset.mem_range.mp hk)
  have h1 : 0 ≤ ∑ k ∈ range w, above k := Finset.sum_nonneg fun k hk => ha k (Finset.mem_range.mp hk)
  rw [Nat.shiftRight_eq_div_pow, Int.tdiv_eq_ediv_of_nonneg (by omega)] at hv
  generalize ∑ k ∈ range h, left k + ∑ k ∈ range w, above k = S at *
  have hN : (0 : Int) < ((w + h : Nat) : Int) := by omega
  have e1 := Int.mul_ediv_add_emod (S + (((w + h) / 2 ^ 1 : Nat) : Int)) ((w + h : Nat) : Int)
  have e2 := Int.emod_nonneg (S + (((w + h) / 2 ^ 1 : Nat) : Int)) (by omega : ((w + h : Nat) : Int) ≠ 0)
  have e3 := Int.emod_lt_of_pos (S + (((w + h) / 2 ^ 1 : Nat) : Int)) hN
  rw [hv] at e1
  generalize (S + (((w + h) / 2 ^ 1 : Nat) : Int)) % ((w + h : Nat) : Int) = m at *
  have e4 : 2 * ((w + h : Nat) : Int) * p i j = 2 * (((w + h : Nat) : Int) * p i j) := by ring
  have e5 : 2 * ((w + h : Nat) : Int) * (p i j + 1) = 2 * (((w + h : Nat) : Int) * p i j) + 2 * ((w + h : Nat) : Int) := by ring
  rw [e4, e5]
  generalize ((w + h : Nat) : Int) * p i j = X at *
  constructor
  · omega
  · omega

open Finset in
/-- **C56 (DC, range).** -/
theorem C56_dc_range {c : IntraCtx} {log2H w h : Nat} {above left : Edge} {p : Pred} {lo hi : Int} (hp : dcPred c true true log2H w h above left = .ok p) (he : 2 ∣ w + h) (h0 : 0 ≤ lo)
    (ha : ∀ j : Nat, j < w → Btw lo hi (above j)) (hl : ∀ i : Nat, i < h → Btw lo hi (left i)) {i j : Nat} (hi' : i < h) (hj : j < w) : Btw lo hi (p i j) := by
  obtain ⟨k1, k2⟩ := C56_dc hp he (fun j hj => le_trans h0 (ha j hj).1) (fun i hi => le_trans h0 (hl i hi).1) hi' hj
  have b1 : (h : Int) * lo ≤ ∑ k ∈ range h, left k := by
    have := Finset.card_nsmul_le_sum (range h) (fun k : Nat => left k) lo (fun k hk => (hl k (Finset.mem_range.mp hk)).1)
    rwa [Finset.card_range, nsmul_eq_mul] at this
  have b2 : ∑ k ∈ range h, left k ≤ (h : Int) * hi := by
    have := Finset.sum_le_card_nsmul (range h) (fun k : Nat => left k) hi (fun k hk => (hl k (Finset.mem_range.mp hk)).2)
    rwa [Finset.card_range, nsmul_eq_mul] at this
  have b3 : (w : Int) * lo ≤ ∑ k ∈ range w, above k := by
    have := Finset.card_nsmul_le_sum (range w) (fun k : Nat => above k) lo (fun k hk => (ha k (Finset.mem_range.mp hk)).1)
    rwa [Finset.card_range, nsmul_eq_mul] at this
  have b4 : ∑ k ∈ range w, above k ≤ (w : Int) * hi := by
    have := Finset.sum_le_card_nsmul (range w) (fun k : Nat => above k) hi (fun k hk => (ha k (Finset.mem_range.mp hk)).2)
    rwa [Finset.card_range, nsmul_eq_mul] at this
  generalize ∑ k ∈ range h, left k = S at *
  generalize ∑ k ∈ range w, above k = T at *
  have hN : (0 : Int) < (w : Int) + h := by omega
  push_cast at k1 k2
  constructor
  · by_contra hc
    have : p i j + 1 ≤ lo := by omega
    nlinarith [mul_le_mul_of_nonneg_left this hN.le]
  · by_contra hc
    have : hi + 1 ≤ p i j := by omega
    nlinarith [mul_le_mul_of_nonneg_left this hN.le]

/-- **C56 (DC without neighbours).**  Without neighbours every pixel is half of the range. -/
theorem C56_dc_none {c : IntraCtx} {log2H w h : Nat} {above left : Edge} {p : Pred} (hp : dcPred c false false log2H w h above left = .ok p) {i j : Nat} (hi : i < h) (hj : j < w) :
    p i j = 2 ^ (c.bitDepth - 1) := by
  unfold dcPred at hp
  rw [if_neg (by decide), if_neg (by decide), if_pos (by decide)] at hp
  obtain ⟨-, -, hv⟩ := fillPred_inv hp hi hj
  have hv := Except.ok.inj hv
  rw [← hv, Nat.one_shiftLeft]; push_cast; rfl

/-- **C56, refuted (DC with a neighbour above only).**  Every pixel of the block becomes 0, whatever is above it. -/
theorem C56_dc_above_refuted (c : IntraCtx) (log2H w h : Nat) (above left : Edge) : dcPred c false true log2H w h above left = .ok (fun _ _ => 0) := rfl

/-- **C56, refuted (DC with a left neighbour only).**  Every pixel of the block becomes 2, whatever is beside it. -/
theorem C56_dc_left_refuted {c : IntraCtx} (hb : 2 ≤ c.bitDepth) {log2H w h : Nat} {above left : Edge} {p : Pred} (hp : dcPred c true false log2H w h above left = .ok p)
    {i j : Nat} (hi : i < h) (hj : j < w) : p i j = 2 := by
  unfold dcPred at hp
  rw [if_neg (by decide), if_pos (by decide)] at hp
  obtain ⟨-, -, hv⟩ := fillPred_inv hp hi hj
  obtain ⟨s, -, hv⟩ := Res.inv hv
  have hv := Except.ok.inj hv
  rw [← hv]
  unfold clip1 clip3
  have : (2 : Int) ^ 1 ≤ 2 ^ (c.bitDepth - 1) := pow_le_pow_right₀ (by norm_num) (by omega)
  rw [if_neg (by omega : ¬ c.bitDepth = 0)]
  norm_num at this
  rw [if_neg (by omega), if_neg (by omega)]

/-- The predictors return for blocks of 4 and 8 pixels. -/
theorem edgeSum_total (e : Edge) {n : Nat} (hn : n ≤ 32768) (s : Int) : ∃ s', edgeSum e n s = .ok s' := by
  obtain ⟨s', hs', -⟩ := forN_total (f := fun k (s : Int) => do
    let v ← eget e k
    pure (s + v)) (fun _ _ => True) (n := n) (i0 := 0) (s := s) (fun i t _ hi _ => ⟨t + e i, by rw [eget_of (by omega) (by omega)]; rfl, trivial⟩) trivial
  exact ⟨s', hs'⟩

example : ∃ p, dcPred {} true true 2 4 8 (fun _ => 100) (fun _ => 7) = .ok p ∧ p 3 3 = 38 := by
  obtain ⟨p, hp⟩ : ∃ p, dcPred {} true true 2 4 8 (fun _ => 100) (fun _ => 7) = .ok p :=
    fillPred_total (by decide) (by decide) (fun i j _ _ => by
      obtain ⟨s, hs⟩ := edgeSum_total (fun _ => 7) (n := 8) (by decide) 0
      obtain ⟨s', hs'⟩ := edgeSum_total (fun _ => 100) (n := 4) (by decide) s
      exact ⟨_, by rw [hs, Res.ok_bind, hs']; rfl⟩)
  refine ⟨p, hp, ?_⟩
  have := C56_dc hp (by decide) (fun _ _ => by decide) (fun _ _ => by decide) (i := 3) (j := 3) (by decide) (by decide)
  simp at this
  omega

end Gov1
