import Verif.Props.CdefFrame
import Verif.Lemmas.Grid
import Verif.Model.DistWeights
import Verif.Spec.DistWeights
import Verif.Spec.FrameHeader
import Verif.Props.FrameModes

/-! # C200: the weights of two references -/

namespace Gov1
open Spec

/-- **C200, part that holds: the choice of the weights.**  From two distances, the code gives each reference AV1's share, for all
distances. -/
theorem C200_select_partial (a b : Int) (ha : 0 ≤ a) (hb : 0 ≤ b) : distSelect [a, b] = .ok (distWeights a b) := by
  unfold distSelect
  have e1 : goGet [a, b] 1 = .ok b := rfl
  have e0 : goGet [a, b] 0 = .ok a := rfl
  rw [e1, Res.ok_bind, e0, Res.ok_bind]
  simp only []
  by_cases hz : b = 0 ∨ a = 0
  · rw [if_pos hz, pure_bind]
    unfold distWeights nearShare
    by_cases h : b ≤ a
    · rw [if_pos h, if_pos h, if_pos (by omega)]; rfl
    · rw [if_neg h, if_neg h, if_pos (by omega)]; rfl
  · rw [if_neg hz]
    unfold distWeights nearShare
    by_cases h : b ≤ a
    · rw [if_pos h, if_pos h, if_neg (by omega)]
      have w : ∀ (n i : Nat) (c0 c1 : Int), gget quantDistWeight i (1 : Nat) = .ok c0 → gget quantDistWeight i ((1 : Int) - (1 : Nat)) = .ok c1 →
          distIndex b a 1 (n + 1) i = if b * c0 > a * c1 then pure i else distIndex b a 1 n (i + 1) := by
        intro n i c0 c1 h0 h1
        rw [distIndex, h0, Res.ok_bind, h1, Res.ok_bind, if_pos (by decide)]
      rw [w 2 0 3 2 rfl rfl, w 1 1 5 2 rfl rfl, w 0 2 7 2 rfl rfl, distIndex]
      by_cases h1 : 2 * a < 3 * b
      · rw [if_pos h1, if_pos (by omega)]; rfl
      rw [if_neg h1, if_neg (by omega)]
      by_cases h2 : 2 * a < 5 * b
      · rw [if_pos h2, if_pos (by omega)]; rfl
      rw [if_neg h2, if_neg (by omega)]
      by_cases h3 : 2 * a < 7 * b
      · rw [if_pos h3, if_pos (by omega)]; rfl
      rw [if_neg h3, if_neg (by omega)]; rfl
    · rw [if_neg h, if_neg h, if_neg (by omega)]
      have w : ∀ (n i : Nat) (c0 c1 : Int), gget quantDistWeight i (0 : Nat) = .ok c0 → gget quantDistWeight i ((1 : Int) - (0 : Nat)) = .ok c1 →
          distIndex b a 0 (n + 1) i = if b * c0 < a * c1 then pure i else distIndex b a 0 n (i + 1) := by
        intro n i c0 c1 h0 h1
        rw [distIndex, h0, Res.ok_bind, h1, Res.ok_bind, if_neg (by decide)]
      rw [w 2 0 2 3 rfl rfl, w 1 1 2 5 rfl rfl, w 0 2 2 7 rfl rfl, distIndex]
      by_cases h1 : 2 * b < 3 * a
      · rw [if_pos h1, if_pos (by omega)]; rfl
      rw [if_neg h1, if_neg (by omega)]
      by_cases h2 : 2 * b < 5 * a
      · rw [if_pos h2, if_pos (by omega)]; rfl
      rw [if_neg h2, if_neg (by omega)]
      by_cases h3 : 2 * b < 7 * a
      · rw [if_pos h3, if_pos (by omega)]; rfl
      rw [if_neg h3, if_neg (by omega)]; rfl

/-- One reference three frames away, the other one frame away: 4 and 12 sixteenths. -/
example : distSelect [3, 1] = .ok (4, 12) ∧ distWeights 3 1 = (4, 12) ∧ distSelect [4, 5] = .ok (9, 7) := by decide

/-- **C200, part that holds: shares.**  Whatever the distances, the two weights are positive, add up to sixteen, and the nearer
reference has the larger one. -/
theorem C200_shares_partial (a b : Int) (ha : 0 ≤ a) (hb : 0 ≤ b) :
    ∃ f k, distSelect [a, b] = .ok (f, k) ∧ 0 < f ∧ 0 < k ∧ f + k = 16 ∧ (a < b → k < f) ∧ (b < a → f < k) := by
  refine ⟨(distWeights a b).1, (distWeights a b).2, C200_select_partial a b ha hb, ?_⟩
  have n : ∀ x y, 9 ≤ nearShare x y ∧ nearShare x y ≤ 13 := by
    intro x y; unfold nearShare; split <;> (try split) <;> (try split) <;> (try split) <;> omega
  have := n a b
  have := n b a
  unfold distWeights
  split <;> simp only [] <;> omega

example : distSelect [0, 0] = .ok (3, 13) ∧ distSelect [31, 1] = .ok (3, 13) ∧ distSelect [1, 31] = .ok (13, 3) := by decide

/-- **C200, part that holds: a distance** is the number of frames between the reference and the frame, modulo the hint's range, at
most 31. -/
theorem C200_distance_partial (bits : Nat) (hb : 0 < bits) (hints : List Int) (cur h : Int) (ref : Nat) (hr : hints[ref]? = some h) :
    ∃ d, IsRelDist bits h cur d ∧ distOf true bits hints cur ref = .ok (min 31 (d.natAbs : Int)) := by
  obtain ⟨d, e, hd⟩ := C70_relative_distance bits hb h cur
  refine ⟨d, hd, ?_⟩
  unfold distOf
  rw [goGet_of' hr, Res.ok_bind, e, Res.ok_bind]
  unfold clip3
  show Except.ok _ = _
  congr 1
  split <;> split <;> (try split) <;> omega

example : distOf true 4 [0, 15, 3] 1 1 = .ok 2 := by decide

/-- **C200 is false of the code.**  The distances are stored into a slice that has no elements: for all references, hints and
headers the weights are never computed. -/
theorem C200_refuted (eoh : Bool) (bits : Nat) (hints : List Int) (cur : Int) (refs : List Int) (w : Int × Int) :
    distanceWeights eoh bits hints cur refs ≠ .ok w := by
  intro h
  unfold distanceWeights distFill at h
  obtain ⟨ds, h, -⟩ := Res.inv h
  rw [forN] at h
  obtain ⟨ds', h, -⟩ := Res.inv h
  obtain ⟨_, -, h⟩ := Res.inv h
  obtain ⟨_, -, h⟩ := Res.inv h
  obtain ⟨-, hl, -⟩ := goSet_inv' h
  simp at hl

/-- With a slice of two elements the loop would store the distances 3 and 1, and the weights would be 4 and 12. -/
example : distFill true 4 [0, 6, 10] 9 [1, 2] [0, 0] = .ok [3, 1] ∧ distSelect [3, 1] = .ok (4, 12) ∧
    distanceWeights true 4 [0, 6, 10] 9 [1, 2] = .error .index := by decide

end Gov1
