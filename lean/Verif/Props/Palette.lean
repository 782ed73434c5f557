import Verif.Model.Palette
import Verif.Lemmas.Grid
import Mathlib.Tactic.Linarith
/-!
# C58, C156: palettes
-/
namespace Gov1

theorem getD_of_lt {l : List Int} {i : Nat} (h : i < l.length) : l.getD i 0 = l[i] := by simp [List.getD, List.getElem?_eq_getElem h]

/-- The first `n` colours of a palette, in increasing order. -/
def Palette (l : List Int) (n : Nat) : Prop := n ≤ l.length ∧ (l.take n).Pairwise (· < ·)

theorem Palette.get {l : List Int} {n : Nat} (h : Palette l n) {i : Nat} (hi : i < n) : goGet l (i : Int) = .ok (l.getD i 0) := by
  have := h.1
  rw [goGet_lt' (by omega), getD_of_lt (by omega)]

theorem Palette.lt {l : List Int} {n : Nat} (h : Palette l n) {i j : Nat} (hij : i < j) (hj : j < n) : l.getD i 0 < l.getD j 0 := by
  have hl := h.1
  have := List.pairwise_iff_getElem.mp h.2 i j (by rw [List.length_take]; omega) (by rw [List.length_take]; omega) hij
  rw [List.getElem_take, List.getElem_take] at this
  rw [getD_of_lt (by omega), getD_of_lt (by omega)]
  exact this

theorem Palette.mem {l : List Int} {n : Nat} (h : Palette l n) (v : Int) : v ∈ l.take n ↔ ∃ i, i < n ∧ l.getD i 0 = v := by
  have hl := h.1
  rw [List.mem_iff_getElem]
  constructor
  · rintro ⟨i, hi, e⟩
    rw [List.length_take] at hi
    rw [List.getElem_take] at e
    exact ⟨i, by omega, by rw [getD_of_lt (by omega)]; exact e⟩
  · rintro ⟨i, hi, e⟩
    refine ⟨i, by rw [List.length_take]; omega, ?_⟩
    rw [List.getElem_take, ← e, getD_of_lt (by omega)]

/-- The colours of the cache so far: those of the first `ai` colours above and the first `li` to the left. -/
structure CacheInv (fa fl : Nat → Int) (aN lN : Nat) (s : CacheSt) (len : Nat) : Prop where
  ai : s.aboveIdx ≤ aN
  li : s.leftIdx ≤ lN
  n : s.n ≤ s.aboveIdx + s.leftIdx
  room : s.cache.length = len
  fits : s.n ≤ len
  sorted : (s.cache.take s.n).Pairwise (· < ·)
  mem : ∀ v, v ∈ s.cache.take s.n ↔ (∃ i, i < s.aboveIdx ∧ fa i = v) ∨ (∃ i, i < s.leftIdx ∧ fl i = v)
  ltA : ∀ v ∈ s.cache.take s.n, ∀ i, s.aboveIdx ≤ i → i < aN → v < fa i
  ltL : ∀ v ∈ s.cache.take s.n, ∀ i, s.leftIdx ≤ i → i < lN → v < fl i
  le : ∀ i, i < s.leftIdx → ∃ j, j < aN ∧ fl i ≤ fa j

/-- A colour that is larger than those in the cache is added. -/
theorem cachePush_new {s : CacheSt} {v : Int} (hn : s.n < s.cache.length) (hv : ∀ x ∈ s.cache.take s.n, x < v) :
    cachePush s v = .ok { s with n := s.n + 1, cache := s.cache.set s.n v } := by
  unfold cachePush
  by_cases h0 : s.n = 0
  · rw [if_pos h0, show goSet s.cache (0 : Int) v = .ok (s.cache.set 0 v) from goSet_lt' v (show 0 < s.cache.length by omega), Res.ok_bind, h0]; rfl
  · rw [if_neg h0, show (s.n : Int) - 1 = ((s.n - 1 : Nat) : Int) by omega, goGet_lt' (by omega), Res.ok_bind]
    have : s.cache[s.n - 1]'(by omega) < v := hv _ (by
      rw [List.mem_iff_getElem]
      exact ⟨s.n - 1, by rw [List.length_take]; omega, by rw [List.getElem_take]⟩)
    rw [if_pos (by omega), goSet_lt' v hn, Res.ok_bind]; rfl

theorem take_set_succ {l : List Int} {n : Nat} (v : Int) (hn : n < l.length) : (l.set n v).take (n + 1) = l.take n ++ [v] := by
  rw [List.take_succ_eq_append_getElem (by rw [List.length_set]; exact hn), List.getElem_set_self, List.take_set_of_le (le_refl _)]

/-- One turn of the merge. -/
theorem cacheTurn_inv {fa fl : Nat → Int} {aN lN : Nat} {s : CacheSt} {len : Nat} (hI : CacheInv fa fl aN lN s len) (hlen : aN + lN ≤ len)
    (ha : ∀ i j, i < j → j < aN → fa i < fa j) (hl : ∀ i j, i < j → j < lN → fl i < fl j) (h1 : s.aboveIdx < aN) (h2 : s.leftIdx < lN) :
    ∃ s', cacheTurn s (fa s.aboveIdx) (fl s.leftIdx) = .ok s' ∧ CacheInv fa fl aN lN s' len ∧ s.aboveIdx + s.leftIdx < s'.aboveIdx + s'.leftIdx := by
  obtain ⟨q1, q2, q3, q4, q5, q6, q7, q8, q9, q10⟩ := hI
  have room : s.n < s.cache.length := by omega
  unfold cacheTurn
  by_cases hlt : fl s.leftIdx < fa s.aboveIdx
  · rw [if_pos hlt, cachePush_new room (fun x hx => q9 x hx _ (le_refl _) h2), Res.ok_bind]
    refine ⟨_, rfl, ⟨q1, by dsimp only; omega, by dsimp only; omega, by rw [List.length_set]; exact q4, by dsimp only; omega, ?_, ?_, ?_, ?_, ?_⟩, by dsimp only; omega⟩
    all_goals dsimp only
    · rw [take_set_succ _ room, List.pairwise_append]
      refine ⟨q6, List.pairwise_singleton _ _, fun x hx y hy => ?_⟩
      rw [List.mem_singleton] at hy; rw [hy]; exact q9 x hx _ (le_refl _) h2
    · intro v
      rw [take_set_succ _ room, List.mem_append, q7, List.mem_singleton]
      constructor
      · rintro ((h | ⟨i, hi, h⟩) | h)
        · exact Or.inl h
        · exact Or.inr ⟨i, by omega, h⟩
        · exact Or.inr ⟨s.leftIdx, by omega, h.symm⟩
      · rintro (h | ⟨i, hi, h⟩)
        · exact Or.inl (Or.inl h)
        · rcases Nat.lt_or_ge i s.leftIdx with h' | h'
          · exact Or.inl (Or.inr ⟨i, h', h⟩)
          · have : i = s.leftIdx := by omega
            subst this; exact Or.inr h.symm
    · intro v hv i h3 h4
      rw [take_set_succ _ room, List.mem_append, List.mem_singleton] at hv
      rcases hv with hv | hv
      · exact q8 v hv i h3 h4
      · rw [hv]
        rcases Nat.lt_or_ge s.aboveIdx i with h5 | h5
        · have := ha _ _ h5 h4; omega
        · have : i = s.aboveIdx := by omega
          subst this; exact hlt
    · intro v hv i h3 h4
      rw [take_set_succ _ room, List.mem_append, List.mem_singleton] at hv
      rcases hv with hv | hv
      · exact q9 v hv i (by omega) h4
      · rw [hv]; exact hl _ _ (by omega) h4
    · intro i hi
      rcases Nat.lt_or_ge i s.leftIdx with h' | h'
      · exact q10 i h'
      · have : i = s.leftIdx := by omega
        subst this; exact ⟨s.aboveIdx, h1, by omega⟩
  · rw [if_neg hlt, cachePush_new room (fun x hx => q8 x hx _ (le_refl _) h1), Res.ok_bind]
    refine ⟨_, rfl, ⟨by dsimp only; omega, by dsimp only; split <;> omega, by dsimp only; split <;> omega, by rw [List.length_set]; exact q4, by dsimp only; omega, ?_, ?_, ?_, ?_, ?_⟩, by dsimp only; split <;> omega⟩
    all_goals dsimp only
    · rw [take_set_succ _ room, List.pairwise_append]
      refine ⟨q6, List.pairwise_singleton _ _, fun x hx y hy => ?_⟩
      rw [List.mem_singleton] at hy; rw [hy]; exact q8 x hx _ (le_refl _) h1
    · intro v
      rw [take_set_succ _ room, List.mem_append, q7, List.mem_singleton]
      constructor
      · rintro ((⟨i, hi, h⟩ | ⟨i, hi, h⟩) | h)
        · exact Or.inl ⟨i, by omega, h⟩
        · exact Or.inr ⟨i, by split <;> omega, h⟩
        · exact Or.inl ⟨s.aboveIdx, by omega, h.symm⟩
      · rintro (⟨i, hi, h⟩ | ⟨i, hi, h⟩)
        · rcases Nat.lt_or_ge i s.aboveIdx with h' | h'
          · exact Or.inl (Or.inl ⟨i, h', h⟩)
          · have : i = s.aboveIdx := by omega
            subst this; exact Or.inr h.symm
        · rcases Nat.lt_or_ge i s.leftIdx with h' | h'
          · exact Or.inl (Or.inr ⟨i, h', h⟩)
          · split at hi
            · have : i = s.leftIdx := by omega
              subst this; exact Or.inr (by omega)
            · omega
    · intro v hv i h3 h4
      rw [take_set_succ _ room, List.mem_append, List.mem_singleton] at hv
      rcases hv with hv | hv
      · exact q8 v hv i (by omega) h4
      · rw [hv]; exact ha _ _ (by omega) h4
    · intro v hv i h3 h4
      rw [take_set_succ _ room, List.mem_append, List.mem_singleton] at hv
      rcases hv with hv | hv
      · exact q9 v hv i (by split at h3 <;> omega) h4
      · rw [hv]
        split at h3
        · have := hl s.leftIdx i (by omega) h4; omega
        · rcases Nat.lt_or_ge s.leftIdx i with h5 | h5
          · have := hl _ _ h5 h4; omega
          · have : i = s.leftIdx := by omega
            subst this; omega
    · intro i hi
      rcases Nat.lt_or_ge i s.leftIdx with h' | h'
      · exact q10 i h'
      · split at hi
        · have : i = s.leftIdx := by omega
          subst this; exact ⟨s.aboveIdx, h1, by omega⟩
        · omega

theorem cacheMerge_inv {above left : List Int} {aN lN len : Nat} (hA : Palette above aN) (hL : Palette left lN) (hlen : aN + lN ≤ len) :
    ∀ fuel (s : CacheSt), CacheInv (above.getD · 0) (left.getD · 0) aN lN s len → aN + lN ≤ fuel + s.aboveIdx + s.leftIdx →
      ∃ s', cacheMerge above left aN lN fuel s = .ok s' ∧ CacheInv (above.getD · 0) (left.getD · 0) aN lN s' len ∧ (s'.aboveIdx = aN ∨ s'.leftIdx = lN) := by
  intro fuel
  induction fuel with
  | zero =>
    intro s hI hf
    have h1 := hI.ai
    have h2 := hI.li
    unfold cacheMerge
    rw [if_neg (by omega)]
    exact ⟨s, rfl, hI, by omega⟩
  | succ fuel ih =>
    intro s hI hf
    have h1 := hI.ai
    have h2 := hI.li
    unfold cacheMerge
    by_cases hc : s.aboveIdx < aN ∧ s.leftIdx < lN
    · rw [if_pos hc, hA.get hc.1, Res.ok_bind, hL.get hc.2, Res.ok_bind]
      obtain ⟨s', e, hI', hlt⟩ := cacheTurn_inv hI hlen (fun i j h1 h2 => hA.lt h1 h2) (fun i j h1 h2 => hL.lt h1 h2) hc.1 hc.2
      rw [e, Res.ok_bind]
      exact ih s' hI' (by omega)
    · rw [if_neg hc]
      exact ⟨s, rfl, hI, by omega⟩

/-- What the cache has, and what AV1's has not. -/
theorem mergeCache_spec {above left cache : List Int} {aN lN : Nat} (hA : Palette above aN) (hL : Palette left lN) (hc : aN + lN ≤ cache.length) :
    ∃ s, mergeCache above left aN lN cache = .ok s ∧ s.n ≤ s.cache.length ∧ (s.cache.take s.n).Pairwise (· < ·) ∧
      ∀ v, v ∈ s.cache.take s.n ↔ v ∈ above.take aN ∨ (v ∈ left.take lN ∧ ∃ a ∈ above.take aN, v ≤ a) := by
  have h0 : CacheInv (above.getD · 0) (left.getD · 0) aN lN { cache := cache } cache.length :=
    ⟨by dsimp only; omega, by dsimp only; omega, by dsimp only; omega, rfl, by dsimp only; omega, by simp, by simp, by simp, by simp, by simp⟩
  obtain ⟨s, e, hI, hend⟩ := cacheMerge_inv hA hL hc (aN + lN) _ h0 (by dsimp only; omega)
  unfold mergeCache
  rw [e, Res.ok_bind]
  unfold cacheRest
  have hle : ∀ i, i < s.leftIdx → ∃ j, j < aN ∧ left.getD i 0 ≤ above.getD j 0 := hI.le
  -- every colour left over is larger than all above
  have hover : ∀ i, s.leftIdx ≤ i → i < lN → ∀ j, j < aN → above.getD j 0 < left.getD i 0 := by
    intro i h1 h2 j hj
    rcases hend with h | h
    · exact hI.ltL _ ((hI.mem _).mpr (Or.inl ⟨j, by omega, rfl⟩)) i h1 h2
    · omega
  obtain ⟨s', e', hP⟩ := forN_total (f := fun i (s : CacheSt) => do
      let v ← goGet above i
      let s ← cachePush { s with aboveIdx := s.aboveIdx + 1 } v
      pure s) (fun k (t : CacheSt) => t.cache.length = cache.length ∧ t.n ≤ k + s.leftIdx ∧ (t.cache.take t.n).Pairwise (· < ·) ∧
        (∀ v, v ∈ t.cache.take t.n ↔ (∃ i, i < k ∧ above.getD i 0 = v) ∨ (∃ i, i < s.leftIdx ∧ left.getD i 0 = v)) ∧
        (∀ v ∈ t.cache.take t.n, ∀ i, k ≤ i → i < aN → v < above.getD i 0))
    (n := aN - s.aboveIdx) (i0 := s.aboveIdx) (s := s) (fun k t hk1 hk2 ht => by
      obtain ⟨t1, t2, t3, t4, t5⟩ := ht
      have hka : k < aN := by omega
      have hli := hI.li
      have room : t.n < t.cache.length := by omega
      rw [hA.get hka, Res.ok_bind]
      have hpush := cachePush_new (s := { t with aboveIdx := t.aboveIdx + 1 }) (v := above.getD k 0) room (fun x hx => t5 x hx k (le_refl _) hka)
      rw [hpush]
      refine ⟨_, rfl, by dsimp only; rw [List.length_set]; exact t1, by dsimp only; omega, ?_, ?_, ?_⟩
      all_goals dsimp only
      · rw [take_set_succ _ room, List.pairwise_append]
        refine ⟨t3, List.pairwise_singleton _ _, fun x hx y hy => ?_⟩
        rw [List.mem_singleton] at hy; rw [hy]; exact t5 x hx k (le_refl _) hka
      · intro v
        rw [take_set_succ _ room, List.mem_append, t4, List.mem_singleton]
        constructor
        · rintro ((⟨i, hi, h⟩ | h) | h)
          · exact Or.inl ⟨i, by omega, h⟩
          · exact Or.inr h
          · exact Or.inl ⟨k, by omega, h.symm⟩
        · rintro (⟨i, hi, h⟩ | h)
          · rcases Nat.lt_or_ge i k with h' | h'
            · exact Or.inl (Or.inl ⟨i, h', h⟩)
            · have : i = k := by omega
              subst this; exact Or.inr h.symm
          · exact Or.inl (Or.inr h)
      · intro v hv i h3 h4
        rw [take_set_succ _ room, List.mem_append, List.mem_singleton] at hv
        rcases hv with hv | hv
        · exact t5 v hv i (by omega) h4
        · rw [hv]; exact hA.lt (by omega) h4)
    ⟨hI.room, hI.n, hI.sorted, hI.mem, hI.ltA⟩
  have hai := hI.ai
  have hli := hI.li
  obtain ⟨p1, p2, p3, p4, p5⟩ := hP
  refine ⟨s', e', by omega, p3, fun v => ?_⟩
  rw [p4, hA.mem, hL.mem, show s.aboveIdx + (aN - s.aboveIdx) = aN by omega]
  constructor
  · rintro (h | ⟨i, hi, h⟩)
    · exact Or.inl h
    · obtain ⟨j, hj, hjj⟩ := hle i hi
      exact Or.inr ⟨⟨i, by omega, h⟩, above.getD j 0, (hA.mem _).mpr ⟨j, hj, rfl⟩, by omega⟩
  · rintro (h | ⟨⟨i, hi, h⟩, a, ha, hva⟩)
    · exact Or.inl h
    · obtain ⟨j, hj, hjj⟩ := (hA.mem _).mp ha
      rcases Nat.lt_or_ge i s.leftIdx with h' | h'
      · exact Or.inr ⟨i, h', h⟩
      · have := hover i h' hi j hj
        omega

/-- **C58 (with an allocated cache).**  If `PaletteCache` had room, the cache for two increasing palettes would be increasing (so free of duplicates), would have all colours above, and of the left palette
those that are not larger than all colours above.  (AV1's cache has all colours of both.) -/
theorem C58_cache_partial {above left cache : List Int} {aN lN : Nat} (hA : Palette above aN) (hL : Palette left lN) (hc : aN + lN ≤ cache.length) :
    ∃ s, mergeCache above left aN lN cache = .ok s ∧ (s.cache.take s.n).length = s.n ∧ (s.cache.take s.n).Pairwise (· < ·) ∧
      ∀ v, v ∈ s.cache.take s.n ↔ v ∈ above.take aN ∨ (v ∈ left.take lN ∧ ∃ a ∈ above.take aN, v ≤ a) := by
  obtain ⟨s, h1, h2, h3, h4⟩ := mergeCache_spec hA hL hc
  exact ⟨s, h1, by rw [List.length_take]; omega, h3, h4⟩

example : mergeCache [3, 5, 9] [1, 5, 12] 3 3 (List.replicate 16 0) = .ok ⟨3, 2, 4, [1, 3, 5, 9] ++ List.replicate 12 0⟩ := by decide +kernel
example : Palette [3, 5, 9] 3 ∧ Palette [1, 5, 12] 3 := by unfold Palette; decide

/-- **C58, refuted (left palette).**  A colour to the left that is larger than all above is lost; without colours above the cache is empty, whatever the left palette is. -/
theorem C58_left_refuted {above left cache : List Int} {lN : Nat} (hL : Palette left lN) (hc : lN ≤ cache.length) : ∃ s, mergeCache above left 0 lN cache = .ok s ∧ s.n = 0 := by
  obtain ⟨s, h1, h2, h3, h4⟩ := mergeCache_spec (above := above) (cache := cache) (aN := 0) ⟨by omega, by simp⟩ hL (by omega)
  refine ⟨s, h1, ?_⟩
  rcases Nat.eq_zero_or_pos s.n with h | h
  · exact h
  · have : s.cache[0]'(by omega) ∈ s.cache.take s.n := by
      rw [List.mem_iff_getElem]
      exact ⟨0, by rw [List.length_take]; omega, by rw [List.getElem_take]⟩
    rw [h4] at this
    simp at this

/-- **C58, refuted (allocation).**  `PaletteCache` is a slice that is never allocated: as soon as there is a colour above, `getPaletteCache` does not return. -/
theorem C58_nil_refuted (above left : List Int) (aN lN : Nat) (ha : 0 < aN) (s : CacheSt) : mergeCache above left aN lN [] ≠ .ok s := by
  have push : ∀ (t t' : CacheSt) (v : Int), t.cache = [] → t.n = 0 → cachePush t v ≠ .ok t' := by
    intro t t' v h1 h2 h
    unfold cachePush at h
    rw [if_pos h2, h1] at h
    cases h
  intro h
  unfold mergeCache at h
  obtain ⟨t, ht, h⟩ := Res.inv h
  obtain ⟨f, hf⟩ : ∃ f, aN + lN = f + 1 := ⟨aN + lN - 1, by omega⟩
  rw [hf] at ht
  unfold cacheMerge at ht
  dsimp only at ht
  by_cases hl : 0 < lN
  · rw [if_pos ⟨ha, hl⟩] at ht
    obtain ⟨a, -, ht⟩ := Res.inv ht
    obtain ⟨l, -, ht⟩ := Res.inv ht
    obtain ⟨u, hu, -⟩ := Res.inv ht
    unfold cacheTurn at hu
    split at hu
    · obtain ⟨u', hu', -⟩ := Res.inv hu
      exact push _ _ _ rfl rfl hu'
    · obtain ⟨u', hu', -⟩ := Res.inv hu
      exact push _ _ _ rfl rfl hu'
  · rw [if_neg (by omega)] at ht
    rw [← Except.ok.inj ht] at h
    unfold cacheRest at h
    obtain ⟨g, hg⟩ : ∃ g, aN - 0 = g + 1 := ⟨aN - 1, by omega⟩
    dsimp only at h
    rw [hg, forN] at h
    obtain ⟨u, hu, -⟩ := Res.inv h
    obtain ⟨v, -, hu⟩ := Res.inv hu
    exact push { aboveIdx := 0 + 1, cache := [] } u v rfl rfl hu

/-! ## C156: the order of the colour map -/

/-- Cell `p` is decoded before cell `q`: on an earlier diagonal, or on the same one, further right. -/
def WaveLt (p q : Nat × Nat) : Prop := p.1 + p.2 < q.1 + q.2 ∨ (p.1 + p.2 = q.1 + q.2 ∧ q.2 < p.2)

theorem mem_waveDiag {h w i : Nat} {p : Nat × Nat} (hh : 0 < h) (hw : 0 < w) : p ∈ waveDiag h w i ↔ p.1 < h ∧ p.2 < w ∧ p.1 + p.2 = i := by
  unfold waveDiag
  dsimp only
  rw [List.mem_map]
  constructor
  · rintro ⟨k, hk, rfl⟩
    rw [List.mem_range] at hk
    dsimp only
    omega
  · rintro ⟨h1, h2, h3⟩
    refine ⟨(min (i : Int) ((w : Int) - 1)).toNat - p.2, ?_, ?_⟩
    · rw [List.mem_range]; omega
    · ext <;> dsimp only <;> omega

theorem waveDiag_sorted {h w i : Nat} (hh : 0 < h) (hw : 0 < w) : (waveDiag h w i).Pairwise WaveLt := by
  unfold waveDiag
  dsimp only
  rw [List.pairwise_map]
  refine List.Pairwise.imp_of_mem ?_ List.pairwise_lt_range
  intro a b ha hb hab
  rw [List.mem_range] at ha hb
  unfold WaveLt
  dsimp only
  omega

theorem wave_sorted {h w : Nat} (hh : 0 < h) (hw : 0 < w) : (wave h w).Pairwise WaveLt := by
  unfold wave
  rw [List.pairwise_cons]
  constructor
  · intro p hp
    rw [List.mem_flatMap] at hp
    obtain ⟨i, hi, hp⟩ := hp
    rw [List.mem_map] at hi
    obtain ⟨k, -, rfl⟩ := hi
    rw [mem_waveDiag hh hw] at hp
    unfold WaveLt
    dsimp only
    omega
  · rw [List.pairwise_flatMap]
    refine ⟨fun i _ => waveDiag_sorted hh hw, ?_⟩
    rw [List.pairwise_map]
    refine List.Pairwise.imp ?_ List.pairwise_lt_range
    intro a b hab p hp q hq
    rw [mem_waveDiag hh hw] at hp hq
    unfold WaveLt
    omega

/-- **C156 (each pixel once).**  The colour indices of the on-screen part of a block, `h` rows of `w` pixels, are decoded each exactly once. -/
theorem C156_once {h w : Nat} (hh : 0 < h) (hw : 0 < w) : (wave h w).Nodup ∧ ∀ r c, (r, c) ∈ wave h w ↔ r < h ∧ c < w := by
  constructor
  · refine List.Pairwise.imp ?_ (wave_sorted hh hw)
    intro a b hab e
    unfold WaveLt at hab
    rw [e] at hab
    omega
  · intro r c
    unfold wave
    rw [List.mem_cons, List.mem_flatMap]
    constructor
    · rintro (e | ⟨i, -, hp⟩)
      · injection e with e1 e2
        omega
      · rw [mem_waveDiag hh hw] at hp
        exact ⟨hp.1, hp.2.1⟩
    · rintro ⟨h1, h2⟩
      rcases Nat.eq_zero_or_pos (r + c) with h0 | h0
      · exact Or.inl (by ext <;> dsimp only <;> omega)
      · refine Or.inr ⟨r + c, ?_, (mem_waveDiag hh hw).mpr ⟨h1, h2, rfl⟩⟩
        rw [List.mem_map]
        exact ⟨r + c - 1, by rw [List.mem_range]; omega, by omega⟩

/-- **C156 (neighbours first).**  When the index of a pixel is decoded, those of the pixels to the left, above and above left, from which its context is made, have been decoded. -/
theorem C156_neighbours {h w : Nat} (hh : 0 < h) (hw : 0 < w) {l1 l2 : List (Nat × Nat)} {r c : Nat} (hs : wave h w = l1 ++ (r, c) :: l2) :
    (0 < c → (r, c - 1) ∈ l1) ∧ (0 < r → (r - 1, c) ∈ l1) ∧ (0 < r → 0 < c → (r - 1, c - 1) ∈ l1) := by
  have hrc : r < h ∧ c < w := ((C156_once hh hw).2 r c).mp (by rw [hs]; simp)
  have hsort := wave_sorted hh hw
  rw [hs, List.pairwise_append, List.pairwise_cons] at hsort
  have key : ∀ q : Nat × Nat, q.1 < h → q.2 < w → q.1 + q.2 < r + c → q ∈ l1 := by
    intro q h1 h2 h3
    have hm : q ∈ wave h w := ((C156_once hh hw).2 q.1 q.2).mpr ⟨h1, h2⟩
    rw [hs, List.mem_append, List.mem_cons] at hm
    rcases hm with hm | hm | hm
    · exact hm
    · rw [hm] at h3; dsimp only at h3; omega
    · have := hsort.2.1.1 q hm
      unfold WaveLt at this
      dsimp only at this
      omega
  exact ⟨fun _ => key _ (by dsimp only; omega) (by dsimp only; omega) (by dsimp only; omega), fun _ => key _ (by dsimp only; omega) (by dsimp only; omega) (by dsimp only; omega),
    fun _ _ => key _ (by dsimp only; omega) (by dsimp only; omega) (by dsimp only; omega)⟩

example : wave 2 3 = [(0, 0), (0, 1), (1, 0), (0, 2), (1, 1), (1, 2)] := by decide

/-- **C156, refuted (4:2:2).**  With subsampling in the horizontal direction only, the on-screen chroma part has half of its rows. -/
theorem C156_chroma_refuted (bh bw oh ow : Nat) (hb : 4 ≤ bh) : (chromaMap bh bw oh ow 1 0).2.2.1 = oh / 2 ∧ (chromaMap bh bw oh ow 1 0).1 = bh := by
  unfold chromaMap
  dsimp only
  rw [Nat.shiftRight_zero, if_neg (by omega), if_neg (by omega), Nat.shiftRight_eq_div_pow]
  exact ⟨rfl, rfl⟩

/-- **C156 (chroma).**  With the same subsampling in both directions the on-screen part has AV1's size, and it is inside the block if the luma part is. -/
theorem C156_chroma_partial (bh bw oh ow s : Nat) (h1 : oh ≤ bh) (h2 : ow ≤ bw) : (chromaMap bh bw oh ow s s).2.2.1 = oh / 2 ^ s + (if bh / 2 ^ s < 4 then 2 else 0) ∧
    (chromaMap bh bw oh ow s s).2.2.2 = ow / 2 ^ s + (if bw / 2 ^ s < 4 then 2 else 0) ∧ (chromaMap bh bw oh ow s s).2.2.1 ≤ (chromaMap bh bw oh ow s s).1 ∧
    (chromaMap bh bw oh ow s s).2.2.2 ≤ (chromaMap bh bw oh ow s s).2.1 := by
  have d1 : oh / 2 ^ s ≤ bh / 2 ^ s := Nat.div_le_div_right h1
  have d2 : ow / 2 ^ s ≤ bw / 2 ^ s := Nat.div_le_div_right h2
  unfold chromaMap
  dsimp only
  simp only [Nat.shiftRight_eq_div_pow]
  refine ⟨?_, ?_, ?_, ?_⟩ <;> split <;> omega

/-- **C156, refuted (contexts).**  The table of scores is not allocated: no pixel after the first gets a context. -/
theorem C156_context_refuted (order : List Int) (r : List Int × List Int) : paletteScores [] order ≠ .ok r := by
  intro h
  unfold paletteScores at h
  rw [forN] at h
  obtain ⟨u, hu, -⟩ := Res.inv h
  obtain ⟨v, hv, -⟩ := Res.inv hu
  cases hv

end Gov1
