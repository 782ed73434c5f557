import Verif.Props.Partition
import Verif.Spec.Symbol
/-!
# C84: the probability of a split at the edge of the frame

At an edge only a flag is read, and its probability is summed from the partition CDF.  (The program then always panics, `C84` in Props/Partition.)
-/
namespace Gov1

namespace Spec

/-- The blocks of the ten partitions of a block, in quarters of its side: row, column, height, width (AV1 5.11.4, figure of the partition types). -/
def quarters : Nat → List (Nat × Nat × Nat × Nat)
  | 0 => [(0, 0, 4, 4)]
  | 1 => [(0, 0, 2, 4), (2, 0, 2, 4)]
  | 2 => [(0, 0, 4, 2), (0, 2, 4, 2)]
  | 3 => [(0, 0, 2, 2), (0, 2, 2, 2), (2, 0, 2, 2), (2, 2, 2, 2)]
  | 4 => [(0, 0, 2, 2), (0, 2, 2, 2), (2, 0, 2, 4)]
  | 5 => [(0, 0, 2, 4), (2, 0, 2, 2), (2, 2, 2, 2)]
  | 6 => [(0, 0, 2, 2), (2, 0, 2, 2), (0, 2, 4, 2)]
  | 7 => [(0, 0, 4, 2), (0, 2, 2, 2), (2, 2, 2, 2)]
  | 8 => [(0, 0, 1, 4), (1, 0, 1, 4), (2, 0, 1, 4), (3, 0, 1, 4)]
  | 9 => [(0, 0, 4, 1), (0, 1, 4, 1), (0, 2, 4, 1), (0, 3, 4, 1)]
  | _ => []

/-- Some block boundary runs through the upper half, from top to bottom: no row of blocks of the upper half has the whole width. -/
def UpperSplit (p : Nat) : Prop := ∀ q ∈ quarters p, q.1 < 2 → q.2.2.2 < 4

/-- Some block boundary runs through the left half, from left to right. -/
def LeftSplit (p : Nat) : Prop := ∀ q ∈ quarters p, q.2.1 < 2 → q.2.2.1 < 4

instance (p : Nat) : Decidable (UpperSplit p) := by unfold UpperSplit; infer_instance
instance (p : Nat) : Decidable (LeftSplit p) := by unfold LeftSplit; infer_instance

/-- Probability (in 2^-15) of symbol `p`. -/
def mass (cdf : List Int) (p : Nat) : Int := cdf.getD p 0 - (if p = 0 then 0 else cdf.getD (p - 1) 0)

/-- Probability (in 2^-15) of the symbols of a kind. -/
def massOf (cdf : List Int) (P : Nat → Prop) [DecidablePred P] : Int := (((List.range (symbols cdf)).filter (fun p => P p)).map (mass cdf)).sum

end Spec
open Spec

/-- The list is long enough for all entries that are read. -/
theorem psum_eq (cdf : List Int) (idx : List Nat) (h : ∀ i ∈ idx, 1 ≤ i ∧ i < cdf.length) : psum cdf (idx.map (fun i => ((i : Nat) : Int))) = .ok ((idx.map (mass cdf)).sum) := by
  induction idx with
  | nil => rfl
  | cons i is ih =>
    obtain ⟨h1, h2⟩ := h i (List.mem_cons_self ..)
    have e : ((i : Nat) : Int) - 1 = ((i - 1 : Nat) : Int) := by omega
    rw [List.map_cons, psum, e, goGet_nat cdf i h2, goGet_nat cdf (i - 1) (by omega), ih fun j hj => h j (List.mem_cons_of_mem _ hj)]
    show Except.ok _ = Except.ok _
    rw [List.map_cons, List.sum_cons, mass, if_neg (by omega), List.getD_eq_getElem?_getD, List.getD_eq_getElem?_getD, List.getElem?_eq_getElem h2,
      List.getElem?_eq_getElem (show i - 1 < cdf.length by omega)]
    rfl

/-- C84 (the sums): for a block of 16x16 to 64x64 (ten partitions) or 128x128 (eight), the sum for `split_or_horz` is the probability of the partitions that divide the upper half of the block,
the one for `split_or_vert` that of the partitions that divide its left half. -/
theorem C84_mass_partial (cdf : List Int) (b : Nat) (hn : symbols cdf = if b = 15 then 8 else 10) :
    psum cdf (horzIdx b) = .ok (massOf cdf UpperSplit) ∧ psum cdf (vertIdx b) = .ok (massOf cdf LeftSplit) := by
  have hl : cdf.length = (if b = 15 then 9 else 11) := by unfold symbols at hn; split at hn <;> split <;> omega
  unfold massOf
  rw [hn]
  by_cases hb : b = 15
  · rw [if_pos hb] at *
    unfold horzIdx vertIdx
    rw [if_pos hb, if_pos hb]
    exact ⟨psum_eq cdf [2, 3, 4, 6, 7] (by rw [hl]; decide), psum_eq cdf [1, 3, 4, 5, 6] (by rw [hl]; decide)⟩
  · rw [if_neg hb] at *
    unfold horzIdx vertIdx
    rw [if_neg hb, if_neg hb]
    exact ⟨psum_eq cdf [2, 3, 4, 6, 7, 9] (by rw [hl]; decide), psum_eq cdf [1, 3, 4, 5, 6, 8] (by rw [hl]; decide)⟩

/-- Non-vacuity: ten equally likely partitions; six of them divide the upper half. -/
example : symbols [3000, 6000, 9000, 12000, 15000, 18000, 21000, 24000, 27000, 32768, 0] = 10 ∧ massOf [3000, 6000, 9000, 12000, 15000, 18000, 21000, 24000, 27000, 32768, 0] UpperSplit = 20768 ∧
    psum [3000, 6000, 9000, 12000, 15000, 18000, 21000, 24000, 27000, 32768, 0] (horzIdx 6) = .ok 20768 := by decide

end Gov1
