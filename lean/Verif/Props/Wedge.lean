import Verif.Model.Warp
import Verif.Lemmas.Grid
/-!
# Wedge masks
-/
namespace Gov1

/-- **C173 (refuted).**  The table of the wedge masks cannot be built: the array of the master masks is never made, and the first assignment panics. -/
theorem C173_nil_refuted : initWedge = .error .index := by rfl

/-- The master mask of the angle of 63 degrees at row `i`, column `j`: an edge that moves by half a column per row, through the centre. -/
def edge63 (i j : Nat) : Int := if i % 2 = 0 then wedgeObliqueEven.getD (j + i / 2 - 16) 64 else wedgeObliqueOdd.getD (j + i / 2 - 15) 64

/-- The six master masks: horizontal, vertical, and the angles of 27, 63, 117 and 153 degrees as the first mirrored in the diagonal and in the
vertical, or both. -/
def masterSpec (d i j : Nat) : Int :=
  match d with
  | 0 => wedgeVertical.getD i 64
  | 1 => wedgeVertical.getD j 64
  | 2 => edge63 j i
  | 3 => edge63 i j
  | 4 => 64 - edge63 i (63 - j)
  | _ => 64 - edge63 j (63 - i)

/-- Row `i`, column `j` of mask `d`. -/
def maskAt (M : List (List (List Int))) (d i j : Nat) : Option Int := M[d]?.bind (at2 · i j)

/-- Six masks of 64 by 64. -/
def Cube (M : List (List (List Int))) : Prop := M.length = 6 ∧ ∀ m ∈ M, Shape 64 64 m

theorem goGet_of3 {α : Type} {l : List α} {i : Nat} {a : α} (h : l[i]? = some a) : goGet l (i : Int) = .ok a := by
  rw [goGet, if_neg (by omega), Int.toNat_natCast, h]

theorem mset_ok {M : List (List (List Int))} (hM : Cube M) {d i j : Nat} (hd : d < 6) (hi : i < 64) (hj : j < 64) (v : Int) :
    ∃ M', mset M d i j v = .ok M' ∧ Cube M' ∧
      ∀ d' i' j', maskAt M' d' i' j' = if d' = d ∧ i' = i ∧ j' = j then some v else maskAt M d' i' j' := by
  have hl : d < M.length := by rw [hM.1]; exact hd
  have hg : goGet M (d : Int) = .ok M[d] := goGet_of3 (List.getElem?_eq_getElem hl)
  obtain ⟨m', e, hs, hv, ho⟩ := gset_ok (hM.2 _ (List.getElem_mem hl)) hi hj v
  refine ⟨M.set d m', ?_, ⟨by rw [List.length_set]; exact hM.1, fun m hm => ?_⟩, fun d' i' j' => ?_⟩
  · unfold mset
    rw [hg, Res.ok_bind, e, Res.ok_bind, goSet]
    simp [hl]
  · rcases List.mem_or_eq_of_mem_set hm with h | h
    · exact hM.2 _ h
    · rw [h]; exact hs
  · unfold maskAt
    by_cases hdd : d' = d
    · subst hdd
      rw [List.getElem?_set_self hl, List.getElem?_eq_getElem hl]
      show at2 m' i' j' = _
      by_cases hij : i' = i ∧ j' = j
      · rw [if_pos ⟨rfl, hij⟩, hij.1, hij.2, hv]
      · rw [if_neg (fun h => hij h.2), ho i' j' (fun h => hij (by cases h; exact ⟨rfl, rfl⟩))]; rfl
    · rw [List.getElem?_set_ne (fun h => hdd h.symm), if_neg (fun h => hdd h.1)]

theorem mget_ok {M : List (List (List Int))} {d i j : Nat} {v : Int} (h : maskAt M d i j = some v) : mget M d i j = .ok v := by
  unfold maskAt at h
  cases hm : M[d]? with
  | none => rw [hm] at h; cases h
  | some m =>
    rw [hm] at h
    unfold mget
    rw [goGet_of3 hm, Res.ok_bind]
    exact gget_at2 h

theorem oblique_get : ∀ j ∈ List.range 64, ∀ n ∈ List.range 32,
    goGet wedgeObliqueEven (clip3 0 63 ((j : Int) - (16 - (n : Int)))) = .ok (edge63 (2 * n) j) ∧
    goGet wedgeObliqueOdd (clip3 0 63 ((j : Int) - (16 - (n : Int) - 1))) = .ok (edge63 (2 * n + 1) j) := by decide +kernel

theorem vertical_get : ∀ j ∈ List.range 64, goGet wedgeVertical (j : Int) = .ok (wedgeVertical.getD j 64) := by decide +kernel

/-- The first loop has filled the vertical mask and the one of 63 degrees at (`i`, `j`). -/
def EdgeFilled (M : List (List (List Int))) (i j : Nat) : Prop := maskAt M 3 i j = some (edge63 i j) ∧ maskAt M 1 i j = some (wedgeVertical.getD j 64)

theorem masterRows_ok {M : List (List (List Int))} (hM : Cube M) {j n : Nat} (hj : j < 64) (hn : n < 32) :
    ∃ M', masterRows j n M = .ok M' ∧ Cube M' ∧ (∀ i k, EdgeFilled M i k → EdgeFilled M' i k) ∧ EdgeFilled M' (2 * n) j ∧ EdgeFilled M' (2 * n + 1) j := by
  obtain ⟨e1, e2⟩ := oblique_get j (List.mem_range.2 hj) n (List.mem_range.2 hn)
  have e3 := vertical_get j (List.mem_range.2 hj)
  obtain ⟨M1, a1, c1, s1⟩ := mset_ok hM (d := 3) (i := 2 * n) (j := j) (by omega) (by omega) hj (edge63 (2 * n) j)
  obtain ⟨M2, a2, c2, s2⟩ := mset_ok c1 (d := 3) (i := 2 * n + 1) (j := j) (by omega) (by omega) hj (edge63 (2 * n + 1) j)
  obtain ⟨M3, a3, c3, s3⟩ := mset_ok c2 (d := 1) (i := 2 * n) (j := j) (by omega) (by omega) hj (wedgeVertical.getD j 64)
  obtain ⟨M4, a4, c4, s4⟩ := mset_ok c3 (d := 1) (i := 2 * n + 1) (j := j) (by omega) (by omega) hj (wedgeVertical.getD j 64)
  refine ⟨M4, ?_, c4, fun i k h => ?_, ?_, ?_⟩
  · unfold masterRows
    rw [e1, Res.ok_bind, a1, Res.ok_bind, e2, Res.ok_bind, a2, Res.ok_bind, e3, Res.ok_bind, a3, Res.ok_bind, a4]
  · obtain ⟨h3, h1⟩ := h
    constructor
    · rw [s4, if_neg (by omega), s3, if_neg (by omega), s2]
      split
      · next h => rw [h.2.1, h.2.2]
      · rw [s1]
        split
        · next h => rw [h.2.1, h.2.2]
        · exact h3
    · rw [s4]
      split
      · next h => rw [h.2.2]
      · rw [s3]
        split
        · next h => rw [h.2.2]
        · rw [s2, if_neg (by omega), s1, if_neg (by omega)]; exact h1
  · exact ⟨by rw [s4, if_neg (by omega), s3, if_neg (by omega), s2, if_neg (by omega), s1, if_pos ⟨rfl, rfl, rfl⟩],
      by rw [s4, if_neg (by omega), s3, if_pos ⟨rfl, rfl, rfl⟩]⟩
  · exact ⟨by rw [s4, if_neg (by omega), s3, if_neg (by omega), s2, if_pos ⟨rfl, rfl, rfl⟩], by rw [s4, if_pos ⟨rfl, rfl, rfl⟩]⟩

/-- The second loop has copied the entry (`i`, `j`) to the other directions. -/
def Turned (M : List (List (List Int))) (i j : Nat) : Prop :=
  maskAt M 2 j i = some (edge63 i j) ∧ maskAt M 4 i (63 - j) = some (64 - edge63 i j) ∧ maskAt M 5 (63 - j) i = some (64 - edge63 i j) ∧
    maskAt M 0 j i = some (wedgeVertical.getD j 64)

theorem masterTurn_ok {M : List (List (List Int))} (hM : Cube M) {i j : Nat} (hi : i < 64) (hj : j < 64) (hf : EdgeFilled M i j) :
    ∃ M', masterTurn i j M = .ok M' ∧ Cube M' ∧ (∀ i k, EdgeFilled M i k → EdgeFilled M' i k) ∧
      (∀ a b, a < 64 → b < 64 → Turned M a b → Turned M' a b) ∧ Turned M' i j := by
  obtain ⟨h3, h1⟩ := hf
  obtain ⟨M1, a1, c1, s1⟩ := mset_ok hM (d := 2) (i := j) (j := i) (by omega) hj hi (edge63 i j)
  obtain ⟨M2, a2, c2, s2⟩ := mset_ok c1 (d := 4) (i := i) (j := 63 - j) (by omega) hi (by omega) (64 - edge63 i j)
  obtain ⟨M3, a3, c3, s3⟩ := mset_ok c2 (d := 5) (i := 63 - j) (j := i) (by omega) (by omega) hi (64 - edge63 i j)
  obtain ⟨M4, a4, c4, s4⟩ := mset_ok c3 (d := 0) (i := j) (j := i) (by omega) hj hi (wedgeVertical.getD j 64)
  have keep : ∀ i k, EdgeFilled M i k → EdgeFilled M3 i k := fun i k h =>
    ⟨by rw [s3, if_neg (by omega), s2, if_neg (by omega), s1, if_neg (by omega)]; exact h.1,
     by rw [s3, if_neg (by omega), s2, if_neg (by omega), s1, if_neg (by omega)]; exact h.2⟩
  refine ⟨M4, ?_, c4, fun i k h => ?_, fun a b ha hb h => ?_, ?_⟩
  · unfold masterTurn
    rw [mget_ok h3, Res.ok_bind, a1, Res.ok_bind, a2, Res.ok_bind, a3, Res.ok_bind, mget_ok (keep i j ⟨h3, h1⟩).2, Res.ok_bind, a4]
  · exact ⟨by rw [s4, if_neg (by omega)]; exact (keep i k h).1, by rw [s4, if_neg (by omega)]; exact (keep i k h).2⟩
  · obtain ⟨t2, t4, t5, t0⟩ := h
    refine ⟨?_, ?_, ?_, ?_⟩
    · rw [s4, if_neg (by omega), s3, if_neg (by omega), s2, if_neg (by omega), s1]
      split
      · next h => rw [h.2.1, h.2.2]
      · exact t2
    · rw [s4, if_neg (by omega), s3, if_neg (by omega), s2]
      split
      · next h => rw [h.2.1, show b = j by omega]
      · rw [s1, if_neg (by omega)]; exact t4
    · rw [s4, if_neg (by omega), s3]
      split
      · next h => rw [h.2.2, show b = j by omega]
      · rw [s2, if_neg (by omega), s1, if_neg (by omega)]; exact t5
    · rw [s4]
      split
      · next h => rw [h.2.1]
      · rw [s3, if_neg (by omega), s2, if_neg (by omega), s1, if_neg (by omega)]; exact t0
  · exact ⟨by rw [s4, if_neg (by omega), s3, if_neg (by omega), s2, if_neg (by omega), s1, if_pos ⟨rfl, rfl, rfl⟩],
      by rw [s4, if_neg (by omega), s3, if_neg (by omega), s2, if_pos ⟨rfl, rfl, rfl⟩],
      by rw [s4, if_neg (by omega), s3, if_pos ⟨rfl, rfl, rfl⟩], by rw [s4, if_pos ⟨rfl, rfl, rfl⟩]⟩

/-- **C173 (masks, partial).**  Given an array of six times 64 by 64 entries, whatever they are, the loops end without a panic and leave the six master
masks.  Missing: the array is never made (`C173_nil_refuted`), and the dimensions of the blocks are zero (state.BlockWidth is never assigned), so nothing
would be copied. -/
theorem C173_master_partial {M : List (List (List Int))} (hM : Cube M) :
    ∃ M', masterMasks M = .ok M' ∧ Cube M' ∧ ∀ d i j, d < 6 → i < 64 → j < 64 → maskAt M' d i j = some (masterSpec d i j) := by
  obtain ⟨M1, e1, c1, f1⟩ := forN_total (f := fun j M => forN (fun n M => masterRows j n M) 32 0 M) (n := 64) (i0 := 0) (s := M)
    (fun j M => Cube M ∧ ∀ i k, i < 64 → k < j → EdgeFilled M i k)
    (fun j M _ hj ⟨hc, hf⟩ => by
      obtain ⟨M', e, c, k, f⟩ := forN_total (f := fun n M => masterRows j n M) (n := 32) (i0 := 0) (s := M)
        (fun n M => Cube M ∧ (∀ i k, i < 64 → k < j → EdgeFilled M i k) ∧ ∀ i, i < 2 * n → EdgeFilled M i j)
        (fun n M _ hn ⟨hc, hk, hf⟩ => by
          obtain ⟨M', e, c, k, f, f'⟩ := masterRows_ok hc (j := j) (n := n) (by omega) (by omega)
          refine ⟨M', e, c, fun a b ha hb => k _ _ (hk a b ha hb), fun i hi => ?_⟩
          by_cases h : i < 2 * n
          · exact k _ _ (hf i h)
          · rcases (by omega : i = 2 * n ∨ i = 2 * n + 1) with rfl | rfl
            · exact f
            · exact f')
        ⟨hc, hf, fun i hi => by omega⟩
      refine ⟨M', e, c, fun a b ha hb => ?_⟩
      by_cases h : b < j
      · exact k a b ha h
      · rw [show b = j by omega]; exact f a (by omega))
    ⟨hM, fun i k _ h => by omega⟩
  have f1' : ∀ i k, i < 64 → k < 64 → EdgeFilled M1 i k := fun i k hi hk => f1 i k hi (by omega)
  obtain ⟨M2, e2, c2, f2, t2⟩ := forN_total (f := fun i M => forN (fun j M => masterTurn i j M) 64 0 M) (n := 64) (i0 := 0) (s := M1)
    (fun i M => Cube M ∧ (∀ i k, i < 64 → k < 64 → EdgeFilled M i k) ∧ ∀ a b, a < i → a < 64 → b < 64 → Turned M a b)
    (fun i M _ hi ⟨hc, hf, ht⟩ => by
      obtain ⟨M', e, c, k, f, f'⟩ := forN_total (f := fun j M => masterTurn i j M) (n := 64) (i0 := 0) (s := M)
        (fun j M => Cube M ∧ (∀ i k, i < 64 → k < 64 → EdgeFilled M i k) ∧ (∀ a b, a < i → a < 64 → b < 64 → Turned M a b) ∧ ∀ b, b < j → b < 64 → Turned M i b)
        (fun j M _ hj ⟨hc, hf, ht, hu⟩ => by
          obtain ⟨M', e, c, k, t, t'⟩ := masterTurn_ok hc (i := i) (j := j) (by omega) (by omega) (hf i j (by omega) (by omega))
          refine ⟨M', e, c, fun a b ha hb => k _ _ (hf a b ha hb), fun a b h ha hb => t a b ha hb (ht a b h ha hb), fun b h hb => ?_⟩
          by_cases h' : b < j
          · exact t i b (by omega) hb (hu b h' hb)
          · rw [show b = j by omega]; exact t')
        ⟨hc, hf, ht, fun b h => by omega⟩
      refine ⟨M', e, c, k, fun a b h ha hb => ?_⟩
      by_cases h' : a < i
      · exact f a b h' ha hb
      · rw [show a = i by omega]; exact f' b (by omega) hb)
    ⟨c1, f1', fun a b h => by omega⟩
  refine ⟨M2, ?_, c2, fun d i j hd hi hj => ?_⟩
  · unfold masterMasks
    rw [e1, Res.ok_bind, e2]
  · have T : ∀ a b, a < 64 → b < 64 → Turned M2 a b := fun a b ha hb => t2 a b (by omega) ha hb
    rcases (by omega : d = 0 ∨ d = 1 ∨ d = 2 ∨ d = 3 ∨ d = 4 ∨ d = 5) with rfl | rfl | rfl | rfl | rfl | rfl
    · exact (T j i hj hi).2.2.2
    · exact (f2 i j hi hj).2
    · exact (T j i hj hi).1
    · exact (f2 i j hi hj).1
    · have := (T i (63 - j) hi (by omega)).2.1
      rw [show 63 - (63 - j) = j by omega] at this
      exact this
    · have := (T j (63 - i) hj (by omega)).2.2.1
      rw [show 63 - (63 - i) = i by omega] at this
      exact this

example : Cube (List.replicate 6 (List.replicate 64 (List.replicate 64 0))) :=
  ⟨by decide, fun m hm => by rw [List.eq_of_mem_replicate hm]; exact Shape.replicate _ _ _⟩

/-- **C173 (symmetry).**  All weights are from 0 to 64; turning a mask by half a turn gives the complement, so the two predictions are treated alike. -/
theorem C173_symmetric : ∀ d ∈ List.range 6, ∀ i ∈ List.range 64, ∀ j ∈ List.range 64,
    0 ≤ masterSpec d i j ∧ masterSpec d i j ≤ 64 ∧ masterSpec d i j + masterSpec d (63 - i) (63 - j) = 64 := by decide +kernel

/-- **C173 (direction).**  Along a row the weights never decrease for the vertical mask and 27, 63 and 117 degrees and never increase for 153, along a column they
never decrease for the horizontal mask. -/
theorem C173_monotone : ∀ i ∈ List.range 64, ∀ j ∈ List.range 63,
    masterSpec 0 j i ≤ masterSpec 0 (j + 1) i ∧ masterSpec 1 i j ≤ masterSpec 1 i (j + 1) ∧ masterSpec 2 i j ≤ masterSpec 2 i (j + 1) ∧
    masterSpec 3 i j ≤ masterSpec 3 i (j + 1) ∧ masterSpec 4 i j ≤ masterSpec 4 i (j + 1) ∧ masterSpec 5 i (j + 1) ≤ masterSpec 5 i j := by decide +kernel

/-- **C173 (code book).**  The block sizes with wedges are those with both sides from 8 to 32. -/
theorem C173_sizes : ∀ sz ∈ List.range 22, ∀ w ∈ blockWidth[sz]?, ∀ h ∈ blockHeight[sz]?,
    wedgeBits[sz]? = some (if 8 ≤ min w h ∧ max w h ≤ 32 then 4 else 0) := by decide +kernel

/-- Each of them has sixteen wedges, all different, whose directions exist and whose window lies in the master mask. -/
theorem C173_codebook : ∀ sz ∈ List.range 22, wedgeBits[sz]? = some 4 → ∀ w ∈ blockWidth[sz]?, ∀ h ∈ blockHeight[sz]?,
    (∀ k ∈ List.range 16, ∃ e ∈ (wedgeEntry sz k).toOption, e.1 < 6 ∧ e.2.1 * w / 8 ≤ 32 ∧ e.2.2 * h / 8 ≤ 32 ∧ 32 - e.2.1 * w / 8 + w ≤ 64 ∧ 32 - e.2.2 * h / 8 + h ≤ 64) ∧
    (∀ k ∈ List.range 16, ∀ k' ∈ List.range 16, wedgeEntry sz k = wedgeEntry sz k' → k = k') := by decide +kernel

/-- The code book of a block higher than wide has more horizontal wedges, of one wider than high more vertical ones. -/
theorem C173_shape : ∀ sz ∈ List.range 22, ∀ w ∈ blockWidth[sz]?, ∀ h ∈ blockHeight[sz]?,
    let n := fun d => ((List.range 16).filter fun k => decide ((wedgeEntry sz k).toOption.map (·.1) = some d)).length
    (w < h → n 1 < n 0) ∧ (h < w → n 0 < n 1) ∧ (w = h → n 0 = n 1) := by decide +kernel

example : wedgeEntry 4 6 = .ok (0, 4, 6) ∧ wedgeEntry 5 6 = .ok (1, 6, 4) := by decide
example : masterSpec 3 0 47 = 27 ∧ masterSpec 3 63 16 = 37 := by decide

end Gov1
