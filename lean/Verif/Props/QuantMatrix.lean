import Verif.Model.Reconstruct
import Verif.Spec.Reconstruct
import Verif.Lemmas.Grid
/-! # C91: quantizer matrices -/
namespace Gov1

/-! ## C91 quantizer matrices -/

/-- `∀ i < n, f i`, as a computation the kernel can run quickly. -/
def allBelow (f : Nat → Bool) : Nat → Bool
  | 0 => true
  | n + 1 => f n && allBelow f n

theorem allBelow_iff {f : Nat → Bool} {n : Nat} : allBelow f n = true ↔ ∀ i < n, f i = true := by
  induction n with
  | zero => simp [allBelow]
  | succ n ih =>
    simp only [allBelow, Bool.and_eq_true, ih]
    constructor
    · rintro ⟨h1, h2⟩ i hi
      by_cases h : i = n
      · rw [h]; exact h1
      · exact h2 i (by omega)
    · intro h
      exact ⟨h n (by omega), fun i hi => h i (by omega)⟩

/-- Check one packed matrix: every weight of size `(w, h)` at offset `off` is in 30..242 and equals the
transposed weight of the transposed size at offset `off'`. -/
def qmCheck (m off off' w h : Nat) : Bool :=
  allBelow (fun i => allBelow (fun j =>
    let k := off + i * w + j
    let v := (m >>> (8 * k)) % 256
    Nat.blt k 3344 && Nat.ble 30 v && Nat.ble v 242 && Nat.beq v ((m >>> (8 * (off' + j * h + i))) % 256)) w) h

/-- The transform sizes that own a table; the sizes 64x64, 32x64, 64x32, 16x64, 64x16 share another's. -/
def qmOwner : List Nat := [0, 1, 2, 3, 3, 5, 6, 7, 8, 9, 10, 3, 3, 13, 14, 15, 16, 9, 10]

def qmCheckAll (m : Nat) : Bool :=
  [0, 1, 2, 3, 5, 6, 7, 8, 9, 10, 13, 14, 15, 16].all (fun t => qmCheck m (qmOffset.getD t 0) (qmOffset.getD (Spec.transposedTx.getD t 0) 0)
    (Spec.codedDims.getD t (0, 0)).1 (Spec.codedDims.getD t (0, 0)).2)

theorem qmCheck_all : quantizerMatrix.all (fun r => r.all qmCheckAll) = true := by decide +kernel

theorem qmOwner_mem : ∀ t < 19, qmOwner.getD t 0 ∈ [0, 1, 2, 3, 5, 6, 7, 8, 9, 10, 13, 14, 15, 16] := by decide

theorem qmOwner_same : ∀ t < 19, qmOffset.getD t 0 = qmOffset.getD (qmOwner.getD t 0) 0 ∧
    qmOffset.getD (Spec.transposedTx.getD t 0) 0 = qmOffset.getD (Spec.transposedTx.getD (qmOwner.getD t 0) 0) 0 ∧
    Spec.codedDims.getD t (0, 0) = Spec.codedDims.getD (qmOwner.getD t 0) (0, 0) := by decide

theorem qm_row {level p : Nat} (hl : level < 15) (hp : p < 2) :
    ∃ m, gget quantizerMatrix level p = .ok m ∧ qmCheckAll m = true := by
  have hs : quantizerMatrix.length = 15 := rfl
  have hr : ∀ r ∈ quantizerMatrix, r.length = 2 := by
    simp [quantizerMatrix]
  have h2 : p < (quantizerMatrix[level]'(by omega)).length := by rw [hr _ (List.getElem_mem _)]; exact hp
  refine ⟨(quantizerMatrix[level]'(by omega))[p], ?_, ?_⟩
  · rw [gget, goGet_lt' (show level < quantizerMatrix.length by omega), Res.ok_bind, goGet_lt' h2]
  · exact List.all_eq_true.mp (List.all_eq_true.mp qmCheck_all _ (List.getElem_mem (by omega))) _
      (List.getElem_mem h2)

/-- **C91.**  For every level below 15, luma or chroma, transform size and coefficient position, the weight
exists (no index panic), is between 30 and 242, and equals the weight at the transposed position of the
transposed transform size. -/
theorem C91_weights (level p t : Nat) (hl : level < 15) (hp : p < 2) (ht : t < 19) (i j : Nat)
    (hi : i < (Spec.codedDims.getD t (0, 0)).2) (hj : j < (Spec.codedDims.getD t (0, 0)).1) :
    ∃ w, qmEntry level p (qmOffset.getD t 0 + i * (Spec.codedDims.getD t (0, 0)).1 + j) = .ok w ∧
      30 ≤ w ∧ w ≤ 242 ∧
      qmEntry level p (qmOffset.getD (Spec.transposedTx.getD t 0) 0 +
        j * (Spec.codedDims.getD t (0, 0)).2 + i) = .ok w := by
  obtain ⟨m, hm, hc⟩ := qm_row hl hp
  have key := fun t (ht : t < 19) i hi j hj => allBelow_iff.mp (allBelow_iff.mp
    (List.all_eq_true.mp hc _ (qmOwner_mem t ht)) i hi) j hj
  obtain ⟨e1, e2, e3⟩ := qmOwner_same t ht
  have k1 := key t ht i (by rw [← e3]; exact hi) j (by rw [← e3]; exact hj)
  have t19 : ∀ t < 19, Spec.transposedTx.getD t 0 < 19 ∧
      Spec.transposedTx.getD (Spec.transposedTx.getD t 0) 0 = t ∧
      Spec.codedDims.getD (Spec.transposedTx.getD t 0) (0, 0) =
        ((Spec.codedDims.getD t (0, 0)).2, (Spec.codedDims.getD t (0, 0)).1) := by decide
  obtain ⟨h19, hinv, hdim⟩ := t19 t ht
  obtain ⟨f1, f2, f3⟩ := qmOwner_same _ h19
  have k2 := key _ h19 j (by rw [← f3, hdim]; exact hj) i (by rw [← f3, hdim]; exact hi)
  simp only [← e1, ← e2, ← e3, Bool.and_eq_true, Nat.ble_eq, Nat.beq_eq, Nat.blt_eq] at k1
  simp only [← f1, ← f3, Bool.and_eq_true, Nat.blt_eq] at k2
  rw [hdim] at k2
  obtain ⟨⟨⟨a1, a2⟩, a3⟩, a4⟩ := k1
  refine ⟨(((m >>> (8 * (qmOffset.getD t 0 + i * (Spec.codedDims.getD t (0, 0)).1 + j))) % 256 : Nat) : Int), ?_, ?_,
    ?_, ?_⟩
  · rw [qmEntry, hm, Res.ok_bind, if_pos a1]
  · exact Int.ofNat_le.mpr a2
  · exact Int.ofNat_le.mpr a3
  · rw [qmEntry, hm, Res.ok_bind, if_pos k2.1.1.1, a4]

example : qmEntry 0 0 (qmOffset.getD 5 0 + 7 * 4 + 3) = .ok 190 := by decide +kernel

end Gov1
