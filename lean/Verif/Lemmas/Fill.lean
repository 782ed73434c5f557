import Verif.Model.TxSize
import Verif.Lemmas.Grid
/-! # Filling the units of a block -/
namespace Gov1

/-- `m'` is `m` with `v` in the rectangle. -/
def Filled {α : Type} (r c h w : Nat) (v : α) (m m' : List (List α)) : Prop :=
  ∀ y x, at2 m' y x = if (r ≤ y ∧ y < r + h) ∧ (c ≤ x ∧ x < c + w) then some v else at2 m y x

theorem fillBlock_inv {α : Type} {r c h w : Nat} {v : α} {m m' : List (List α)} (hf : fillBlock r c h w v m = .ok m') :
    Filled r c h w v m m' ∧ (∀ y x, r ≤ y → y < r + h → c ≤ x → x < c + w → (at2 m y x).isSome) ∧ (∀ H W, Shape H W m → Shape H W m') := by
  have key := forN_inv (fun i (g : List (List α)) =>
      (∀ y x, at2 g y x = if (r ≤ y ∧ y < r + i) ∧ (c ≤ x ∧ x < c + w) then some v else at2 m y x) ∧
      (∀ y x, r ≤ y → y < r + i → c ≤ x → x < c + w → (at2 m y x).isSome) ∧ (∀ H W, Shape H W m → Shape H W g)) (by
    intro i g g' _ _ hP hg
    obtain ⟨p1, p2, p3⟩ := hP
    have inner := forN_inv (fun j (q : List (List α)) =>
        (∀ y x, at2 q y x = if ((r ≤ y ∧ y < r + i) ∧ (c ≤ x ∧ x < c + w)) ∨ (y = r + i ∧ c ≤ x ∧ x < c + j) then some v else at2 m y x) ∧
        (∀ x, c ≤ x → x < c + j → (at2 m (r + i) x).isSome) ∧ (∀ H W, Shape H W m → Shape H W q)) (by
      intro j q q' _ _ hQ hq
      obtain ⟨q1, q2, q3⟩ := hQ
      obtain ⟨-, -, c1, c2, c3, c4⟩ := gset_inv hq
      simp only [Int.toNat_natCast] at c1 c2 c3
      refine ⟨fun y x => ?_, fun x hx1 hx2 => ?_, fun H W hs => c4 H W (q3 H W hs)⟩
      · by_cases hyx : y = r + i ∧ x = c + j
        · obtain ⟨rfl, rfl⟩ := hyx
          rw [c2, if_pos (by right; omega)]
        · rw [c3 y x (by intro h; exact hyx (by simpa [Prod.ext_iff] using h)), q1]
          by_cases hh : ((r ≤ y ∧ y < r + i) ∧ (c ≤ x ∧ x < c + w)) ∨ (y = r + i ∧ c ≤ x ∧ x < c + j)
          · rw [if_pos hh, if_pos (by omega)]
          · rw [if_neg hh, if_neg (by omega)]
      · by_cases hx : x = c + j
        · subst hx
          have := q1 (r + i) (c + j)
          rw [if_neg (by omega)] at this
          rw [← this]; exact c1
        · exact q2 x hx1 (by omega)) hg
        ⟨fun y x => by
          rw [p1]
          by_cases hh : (r ≤ y ∧ y < r + i) ∧ (c ≤ x ∧ x < c + w)
          · rw [if_pos hh, if_pos (.inl hh)]
          · rw [if_neg hh, if_neg (by omega)], fun x h1 h2 => by omega, p3⟩
    rw [Nat.zero_add] at inner
    obtain ⟨q1, q2, q3⟩ := inner
    refine ⟨fun y x => ?_, fun y x h1 h2 h3 h4 => ?_, q3⟩
    · rw [q1]
      by_cases hh : (r ≤ y ∧ y < r + (i + 1)) ∧ (c ≤ x ∧ x < c + w)
      · rw [if_pos hh, if_pos (by omega)]
      · rw [if_neg hh, if_neg (by omega)]
    · by_cases hy : y = r + i
      · subst hy; exact q2 x h3 h4
      · exact p2 y x h1 (by omega) h3 h4) hf
      ⟨fun y x => by rw [if_neg (by omega)], fun y x h1 h2 => by omega, fun _ _ h => h⟩
  rw [Nat.zero_add] at key
  exact key

theorem fillBlock_ok {α : Type} {H W r c h w : Nat} (v : α) {m : List (List α)} (hs : Shape H W m) (hr : r + h ≤ H) (hc : c + w ≤ W) :
    ∃ m', fillBlock r c h w v m = .ok m' ∧ Shape H W m' ∧ Filled r c h w v m m' := by
  have hstep : ∀ i (g : List (List α)), 0 ≤ i → i < 0 + h → Shape H W g →
      ∃ g', forN (fun x g => gset g ((r + i : Nat) : Int) ((c + x : Nat) : Int) v) w 0 g = .ok g' ∧ Shape H W g' := by
    intro i g _ hi hg
    have hin : ∀ j (q : List (List α)), 0 ≤ j → j < 0 + w → Shape H W q →
        ∃ q', gset q ((r + i : Nat) : Int) ((c + j : Nat) : Int) v = .ok q' ∧ Shape H W q' := by
      intro j q _ hj hq
      obtain ⟨x, hx⟩ := hq.at2 (i := r + i) (j := c + j) (by omega) (by omega)
      obtain ⟨q', e⟩ := gset_lt v (show (at2 q (r + i) (c + j)).isSome by rw [hx]; rfl)
      obtain ⟨-, -, -, -, -, c4⟩ := gset_inv e
      exact ⟨q', e, c4 H W hq⟩
    exact forN_total (fun _ q => Shape H W q) hin hg
  obtain ⟨m', e, hs'⟩ := forN_total (fun _ q => Shape H W q) hstep hs
  exact ⟨m', e, hs', (fillBlock_inv e).1⟩

theorem shape_lt {α : Type} {H W : Nat} {m : List (List α)} (hs : Shape H W m) {y x : Nat} (h : (at2 m y x).isSome) : y < H ∧ x < W := by
  obtain ⟨a, ha⟩ := Option.isSome_iff_exists.mp h
  unfold at2 at ha
  cases hr : m[y]? with
  | none => rw [hr] at ha; cases ha
  | some row =>
    rw [hr] at ha
    obtain ⟨h1, h2⟩ := List.getElem?_eq_some_iff.mp hr
    obtain ⟨h3, -⟩ := List.getElem?_eq_some_iff.mp (show row[x]? = some a from ha)
    have := hs.2 row (List.mem_of_getElem? hr)
    exact ⟨by rw [← hs.1]; exact h1, by rw [← this]; exact h3⟩

/-- A block that does not fit cannot be filled. -/
theorem fillBlock_never {α : Type} {H W r c h w : Nat} {v : α} {m m' : List (List α)} (hs : Shape H W m) (hh : 0 < h) (hw : 0 < w)
    (hbig : H < r + h ∨ W < c + w) : fillBlock r c h w v m ≠ .ok m' := by
  intro e
  have := shape_lt hs ((fillBlock_inv e).2.1 (r + h - 1) (c + w - 1) (by omega) (by omega) (by omega) (by omega))
  omega

end Gov1
