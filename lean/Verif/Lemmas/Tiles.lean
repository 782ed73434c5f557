import Verif.Model.TileInfo
import Verif.Lemmas.Fits
import Verif.Spec.Tiles
import Verif.Props.Util
import Verif.Props.BitStream
/-! # Invariants of the tile boundary loops -/
namespace Gov1
open Spec

theorem List.take_set_succ {α : Type} (l : List α) (i : Nat) (x : α) (h : i < l.length) :
    (l.set i x).take (i + 1) = l.take i ++ [x] := by
  rw [List.take_add_one, List.take_set_of_le (Nat.le_refl i)]
  simp [h]

theorem goSet_nat {α : Type} (l : List α) (i : Nat) (x : α) :
    goSet l (i : Int) x = if i < l.length then .ok (l.set i x) else .error .index := by
  unfold goSet
  rw [if_neg (by omega)]
  simp

/-- Loop invariant: the first `i` entries of `starts` followed by the next start are an increasing
chain from 0 with steps of at most `M` superblocks, and the entries are starts below `sb`. -/
structure TileInv (sb shift M : Nat) (starts : List Nat) (i startSb : Nat) : Prop where
  le : i ≤ startSb
  len : starts.length = sb + 1
  head : (starts.take i ++ [startSb <<< shift]).head? = some 0
  inc : (starts.take i ++ [startSb <<< shift]).Pairwise (· < ·)
  width : ∀ j, j < i → (starts.take i ++ [startSb <<< shift]).getD (j + 1) 0
    ≤ (starts.take i ++ [startSb <<< shift]).getD j 0 + M <<< shift
  low : ∀ b ∈ starts.take i, ∃ x < sb, b = x <<< shift

theorem TileInv.init (sb shift M : Nat) : TileInv sb shift M (List.replicate (sb + 1) 0) 0 0 := by
  refine ⟨Nat.le_refl _, by simp, by simp, by simp, by omega, by simp⟩

theorem getD_append_left' (l m : List Nat) (j : Nat) (h : j < l.length) :
    (l ++ m).getD j 0 = l.getD j 0 := by
  simp [List.getD, List.getElem?_append_left h]

theorem shl_lt {a b k : Nat} (h : a < b) : a <<< k < b <<< k := by
  simp only [Nat.shiftLeft_eq]; exact Nat.mul_lt_mul_of_pos_right h (Nat.two_pow_pos k)

theorem TileInv.step {sb shift M : Nat} {starts : List Nat} {i startSb size : Nat}
    (h : TileInv sb shift M starts i startSb) (hlt : startSb < sb) (h1 : 1 ≤ size) (hM : size ≤ M) :
    TileInv sb shift M (starts.set i (startSb <<< shift)) (i + 1) (startSb + size) := by
  have hil : i < starts.length := by have := h.le; have := h.len; omega
  have htl : (starts.take i).length = i := by simp; omega
  have ht := List.take_set_succ starts i (startSb <<< shift) hil
  have hsh : startSb <<< shift < (startSb + size) <<< shift := shl_lt (by omega)
  refine ⟨by have := h.le; omega, by simp [h.len], ?_, ?_, ?_, ?_⟩
  · rw [ht]
    have := h.head
    cases hp : starts.take i ++ [startSb <<< shift] with
    | nil => simp at hp
    | cons a l => rw [hp] at this; simpa using this
  · rw [ht, List.pairwise_append]
    refine ⟨h.inc, List.pairwise_singleton _ _, ?_⟩
    intro a ha b hb
    simp only [List.mem_singleton] at hb
    subst hb
    rcases List.mem_append.mp ha with ha | ha
    · have := (List.pairwise_append.mp h.inc).2.2 a ha (startSb <<< shift) (by simp)
      omega
    · simp only [List.mem_singleton] at ha; omega
  · intro j hj
    rw [ht]
    have hl : (starts.take i ++ [startSb <<< shift]).length = i + 1 := by simp; omega
    rcases Nat.lt_or_ge j i with hji | hji
    · rw [getD_append_left' _ _ (j + 1) (by omega), getD_append_left' _ _ j (by omega)]
      exact h.width j hji
    · have : j = i := by omega
      subst this
      have e1 : (starts.take j ++ [startSb <<< shift] ++ [(startSb + size) <<< shift]).getD (j + 1) 0
          = (startSb + size) <<< shift := by
        rw [List.getD, List.getElem?_append_right (by omega)]; simp [hl]
      have e2 : (starts.take j ++ [startSb <<< shift] ++ [(startSb + size) <<< shift]).getD j 0
          = startSb <<< shift := by
        rw [getD_append_left' _ _ _ (by omega), List.getD, List.getElem?_append_right (by omega)]
        simp [htl]
      rw [e1, e2]
      simp only [Nat.shiftLeft_eq, ← Nat.add_mul]
      exact Nat.mul_le_mul_right _ (by omega)
  · rw [ht]
    intro b hb
    rcases List.mem_append.mp hb with hb | hb
    · exact h.low b hb
    · simp only [List.mem_singleton] at hb; exact ⟨startSb, hlt, hb⟩

/-- At the end of a loop the recorded starts followed by the frame edge divide the frame. -/
theorem TileInv.divides {sb shift M total : Nat} {starts : List Nat} {i e : Nat}
    (h : TileInv sb shift M starts i e) (hi : i ≤ sb) (he : sb ≤ e) (hpos : 0 < total)
    (hsb : ∀ x, x < sb ↔ x <<< shift < total) :
    Divides ((starts.set i total).take (i + 1)) total (M <<< shift) := by
  have hil : i < starts.length := by have := h.len; omega
  have htl : (starts.take i).length = i := by simp; omega
  rw [List.take_set_succ starts i total hil]
  have hi0 : 1 ≤ i := by
    rcases Nat.eq_zero_or_pos i with h0 | h0
    · exfalso
      subst h0
      have := h.head
      simp at this
      have h2 := (hsb 0).mpr (by simpa using hpos)
      omega
    · exact h0
  have hedge : total ≤ e <<< shift := by
    have := mt (hsb e).mpr (by omega); omega
  refine ⟨?_, by simp, ?_, ?_⟩
  · have := h.head
    cases hp : starts.take i with
    | nil => rw [hp] at htl; simp at htl; omega
    | cons a l => rw [hp] at this; simpa using this
  · rw [List.pairwise_append]
    refine ⟨(List.pairwise_append.mp h.inc).1, List.pairwise_singleton _ _, ?_⟩
    intro a ha b hb
    simp only [List.mem_singleton] at hb
    subst hb
    obtain ⟨x, hx, rfl⟩ := h.low a ha
    exact (hsb x).mp hx
  · intro j hj
    simp only [List.length_append, htl, List.length_singleton] at hj
    have hw := h.width j (by omega)
    rw [getD_append_left' _ _ j (by omega)] at hw ⊢
    rcases Nat.lt_or_ge (j + 1) i with h1 | h1
    · rw [getD_append_left' _ _ (j + 1) (by omega)] at hw ⊢
      exact hw
    · have hji : j + 1 = i := by omega
      have e1 : ∀ z, (starts.take i ++ [z]).getD (j + 1) 0 = z := by
        intro z
        rw [List.getD, List.getElem?_append_right (by omega)]; simp [htl, hji]
      rw [e1] at hw ⊢
      omega

theorem startsLoop_inv {sb shift w M : Nat} (hw : 1 ≤ w) (hM : w ≤ M) :
    ∀ (fuel startSb i : Nat) (starts : List Nat), TileInv sb shift M starts i startSb → i ≤ sb →
    sb < fuel + i →
    ∃ i' starts' e, startsLoop sb shift w fuel startSb i starts = .ok (i', starts') ∧
      TileInv sb shift M starts' i' e ∧ sb ≤ e ∧ i' ≤ sb ∧ e = startSb + (i' - i) * w ∧ i ≤ i' ∧
      (i < i' → startSb + (i' - i - 1) * w < sb) := by
  intro fuel
  induction fuel with
  | zero => intro startSb i starts h hi hf; omega
  | succ fuel ih =>
    intro startSb i starts h hi hf
    unfold startsLoop
    by_cases hlt : startSb < sb
    · rw [if_pos hlt]
      have hil : i < starts.length := by have := h.len; omega
      rw [goSet_nat, if_pos hil]
      have hle := h.le
      obtain ⟨i', starts', e, h1, h2, h3, h4, h5, h6, h7⟩ :=
        ih (startSb + w) (i + 1) _ (h.step hlt hw hM) (by omega) (by omega)
      refine ⟨i', starts', e, h1, h2, h3, h4, ?_, by omega, ?_⟩
      · rw [h5]
        have : i' - i = (i' - (i + 1)) + 1 := by omega
        rw [this, Nat.add_mul]; omega
      · intro _
        rcases Nat.lt_or_ge (i + 1) i' with hl | hl
        · have := h7 hl
          have e1 : i' - i - 1 = (i' - (i + 1) - 1) + 1 := by omega
          rw [e1, Nat.add_mul]; omega
        · have : i' - i - 1 = 0 := by omega
          rw [this]; omega
    · rw [if_neg hlt]
      exact ⟨i, starts, startSb, rfl, h, by omega, hi, by simp, Nat.le_refl _, by omega⟩

theorem sizesLoop_inv {sb shift M : Nat} (hM : 1 ≤ M) :
    ∀ (fuel startSb i widest : Nat) (starts : List Nat), TileInv sb shift M starts i startSb →
    startSb ≤ sb → sb < fuel + startSb →
    Fits (sizesLoop sb shift M fuel startSb i widest starts) (fuel * (Nat.log2 M + 1))
      (fun r => TileInv sb shift M r.2.1 r.1 sb ∧ r.1 ≤ sb ∧ widest ≤ r.2.2 ∧
        (startSb < sb → 1 ≤ r.2.2)) ∧
    Ensures (sizesLoop sb shift M fuel startSb i widest starts)
      (fun r => TileInv sb shift M r.2.1 r.1 sb ∧ r.1 ≤ sb ∧ widest ≤ r.2.2 ∧
        (startSb < sb → 1 ≤ r.2.2)) := by
  intro fuel
  induction fuel with
  | zero => intro startSb i widest starts h hs hf; omega
  | succ fuel ih =>
    intro startSb i widest starts h hs hf
    unfold sizesLoop
    by_cases hlt : startSb < sb
    · rw [if_pos hlt]
      have hle := h.le
      have hil : i < starts.length := by have := h.len; omega
      rw [goSet_nat, if_pos hil]
      dsimp only [BM.lift_ok]
      rw [BM.pure_bind]
      have hmin : minI ((sb : Int) - startSb) M = ((min (sb - startSb) M : Nat) : Int) := by
        unfold minI; split <;> omega
      rw [hmin]
      have hpos : 0 < min (sb - startSb) M := by omega
      have hE : Ensures (ns ((min (sb - startSb) M : Nat) : Int))
          (fun v => 0 ≤ v ∧ v < ((min (sb - startSb) M : Nat) : Int)) :=
        fun s v s' h => C03_ns_range _ hpos s s' v h
      have hlog : Nat.log2 (min (sb - startSb) M) ≤ Nat.log2 M := by
        rw [Nat.le_log2 (by omega)]
        exact Nat.le_trans (Nat.log2_self_le (by omega)) (Nat.min_le_right _ _)
      constructor
      · rw [show (fuel + 1) * (Nat.log2 M + 1) = (Nat.log2 M + 1) + fuel * (Nat.log2 M + 1) by
          rw [Nat.add_mul]; omega]
        refine Fits.bind (((Fits.ns _ hpos).and_ensures hE).mono (by omega) fun _ h => h) fun v hv => ?_
        obtain ⟨_, hv0, hv1⟩ := hv
        have h1 : 1 ≤ (v + 1).toNat := by omega
        have h2 : (v + 1).toNat ≤ M := by omega
        refine (ih _ _ _ _ (h.step hlt h1 h2) (by omega) (by omega)).1.mono (Nat.le_refl _) ?_
        rintro r ⟨r1, r2, r3, r4⟩
        exact ⟨r1, r2, by omega, fun _ => by omega⟩
      · refine Ensures.bind hE fun v hv => ?_
        obtain ⟨hv0, hv1⟩ := hv
        have h1 : 1 ≤ (v + 1).toNat := by omega
        have h2 : (v + 1).toNat ≤ M := by omega
        refine (ih _ _ _ _ (h.step hlt h1 h2) (by omega) (by omega)).2.mono ?_
        rintro r ⟨r1, r2, r3, r4⟩
        exact ⟨r1, r2, by omega, fun _ => by omega⟩
    · rw [if_neg hlt]
      have : startSb = sb := by omega
      subst this
      have hle := h.le
      exact ⟨Fits.pure ⟨h, hle, Nat.le_refl _, by omega⟩ _,
        Ensures.pure ⟨h, hle, Nat.le_refl _, by omega⟩⟩

end Gov1
