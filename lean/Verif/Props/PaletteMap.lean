import Verif.Lemmas.PaletteSort
import Verif.Props.Palette
import Mathlib.Data.List.ProdSigma
import Mathlib.Data.List.Nodup
/-!
# C197, C198: the colour context and the colour map of palette blocks
-/
namespace Gov1
open Spec

theorem mem_palOpts {n : Nat} {x : Option Nat} (h : ∀ v, x = some v → v < n) : x ∈ palOpts n := by
  cases x with
  | none => simp [palOpts]
  | some v => simp [palOpts, h v rfl]

theorem sort_spec {n : Nat} (h2 : 2 ≤ n) (h8 : n ≤ 8) {l al a : Option Nat} (hl : ∀ v, l = some v → v < n) (hal : ∀ v, al = some v → v < n) (ha : ∀ v, a = some v → v < n) :
    ∃ s, sortScores n ((List.range 8).map (palScore 1 l al a), (List.range 8).map Int.ofNat) =
      .ok (s, (palOrder 1 n l al a).map Int.ofNat ++ ((List.range 8).drop n).map Int.ofNat) ∧ contextHash s = .ok (palHash 1 n l al a) := by
  have hn : n ∈ [2, 3, 4, 5, 6, 7, 8] := by simp only [List.mem_cons]; omega
  have h := palCheck_all n hn l (mem_palOpts hl) al (mem_palOpts hal) a (mem_palOpts ha)
  unfold palCheck at h
  split at h
  · next s o e =>
    rw [Bool.and_eq_true, decide_eq_true_eq, decide_eq_true_eq] at h
    exact ⟨s, by rw [e, h.1], h.2⟩
  · cases h

theorem paletteScores_eight {fresh order : List Int} (hf : fresh.length = 8) (ho : order.length = 8) :
    paletteScores fresh order = .ok (List.replicate 8 0, (List.range 8).map Int.ofNat) := by
  match fresh, hf with
  | [a, b, c, d, e, f, g, h], _ =>
    match order, ho with
    | [a, b, c, d, e, f, g, h], _ => rfl

/-- Adding to the score of a colour. -/
theorem addScore_map (g : Nat → Int) {v : Nat} (hv : v < 8) (k : Int) : addScore ((List.range 8).map g) (v : Int) k = .ok ((List.range 8).map fun x => g x + if some v = some x then k else 0) := by
  unfold addScore
  rw [goGet_lt' (by simpa using hv), show ∀ x f, (Except.ok x >>= f : Res (List Int)) = f x from fun _ _ => rfl, goSet_lt' _ (by simpa using hv)]
  congr 1
  apply List.ext_getElem
  · simp
  · intro i h1 h2
    rw [List.getElem_set]
    simp only [List.getElem_map, List.getElem_range, Option.some.injEq]
    split
    · next h => subst h; simp
    · simp

theorem neighbourScores_spec {f : Nat → Nat → Nat} {m : List (List Int)} {r c : Nat} (hf : ∀ r c, f r c < 8) (h1 : 0 < c → at2 m r (c - 1) = some (f r (c - 1) : Int))
    (h2 : 0 < r → 0 < c → at2 m (r - 1) (c - 1) = some (f (r - 1) (c - 1) : Int)) (h3 : 0 < r → at2 m (r - 1) c = some (f (r - 1) c : Int)) :
    neighbourScores m r c (List.replicate 8 0) = .ok ((List.range 8).map (palScore 1 (palLeft f r c) (palAboveLeft f r c) (palAbove f r c))) := by
  have h0 : (List.replicate 8 0 : List Int) = (List.range 8).map fun _ => (0 : Int) := rfl
  rw [h0]
  have e1 : scoreLeft m r c ((List.range 8).map fun _ => (0 : Int)) = .ok ((List.range 8).map fun x => if palLeft f r c = some x then 2 else 0) := by
    unfold palLeft scoreLeft
    by_cases hc : 0 < c
    · rw [if_pos hc, if_pos hc, show ((c : Int) - 1) = ((c - 1 : Nat) : Int) by omega, gget_at2 (h1 hc)]
      show addScore _ _ _ = _
      rw [addScore_map _ (hf _ _)]
      simp
    · rw [if_neg hc, if_neg hc]; simp; rfl
  have e2 : scoreAboveLeft m r c ((List.range 8).map fun x => if palLeft f r c = some x then (2 : Int) else 0) =
      .ok ((List.range 8).map fun x => (if palLeft f r c = some x then (2 : Int) else 0) + if palAboveLeft f r c = some x then 1 else 0) := by
    unfold palAboveLeft scoreAboveLeft
    by_cases hc : 0 < r ∧ 0 < c
    · rw [if_pos hc, if_pos hc, show ((c : Int) - 1) = ((c - 1 : Nat) : Int) by omega, show ((r : Int) - 1) = ((r - 1 : Nat) : Int) by omega, gget_at2 (h2 hc.1 hc.2)]
      show addScore _ _ _ = _
      rw [addScore_map _ (hf _ _)]
    · rw [if_neg hc, if_neg hc]; simp; rfl
  have e3 : scoreAbove m r c ((List.range 8).map fun x => (if palLeft f r c = some x then (2 : Int) else 0) + if palAboveLeft f r c = some x then 1 else 0) =
      .ok ((List.range 8).map (palScore 1 (palLeft f r c) (palAboveLeft f r c) (palAbove f r c))) := by
    unfold palScore scoreAbove palAbove
    by_cases hr : 0 < r
    · rw [if_pos hr, if_pos hr, show ((r : Int) - 1) = ((r - 1 : Nat) : Int) by omega, gget_at2 (h3 hr)]
      show addScore _ _ _ = _
      rw [addScore_map _ (hf _ _)]
    · rw [if_neg hr, if_neg hr]; simp; rfl
  unfold neighbourScores
  rw [e1]
  show (scoreAboveLeft m r c _ >>= _) = _
  rw [e2]
  exact e3

/-- **C197 (partial).**  With arrays of eight entries in the place of the slices that are never allocated: at a pixel whose neighbours to the left, above left and above have been decoded, the colours are
ordered by how much they count among the neighbours (2, 1 and 1), ties by colour, and the context hash is computed from the three best scores. -/
theorem C197_context_partial {f : Nat → Nat → Nat} {fresh order : List Int} {m : List (List Int)} {r c n : Nat} (hfr : fresh.length = 8) (ho : order.length = 8) (h2 : 2 ≤ n) (h8 : n ≤ 8)
    (hf : ∀ r c, f r c < n) (hm1 : 0 < c → at2 m r (c - 1) = some (f r (c - 1) : Int)) (hm2 : 0 < r → 0 < c → at2 m (r - 1) (c - 1) = some (f (r - 1) (c - 1) : Int))
    (hm3 : 0 < r → at2 m (r - 1) c = some (f (r - 1) c : Int)) :
    colorContext fresh order m r c n = .ok ((palOrder 1 n (palLeft f r c) (palAboveLeft f r c) (palAbove f r c)).map Int.ofNat ++ ((List.range 8).drop n).map Int.ofNat,
      palHash 1 n (palLeft f r c) (palAboveLeft f r c) (palAbove f r c)) := by
  unfold colorContext
  rw [paletteScores_eight hfr ho]
  show (do
    let sc ← neighbourScores m r c (List.replicate 8 0)
    let s ← sortScores n (sc, (List.range 8).map Int.ofNat)
    let h ← contextHash s.1
    pure (s.2, h) : Res (List Int × Int)) = _
  rw [neighbourScores_spec (fun r c => lt_of_lt_of_le (hf r c) h8) hm1 hm2 hm3]
  obtain ⟨s, e, eh⟩ := sort_spec h2 h8 (l := palLeft f r c) (al := palAboveLeft f r c) (a := palAbove f r c)
    (by unfold palLeft; intro v hv; split at hv <;> cases hv; exact hf _ _) (by unfold palAboveLeft; intro v hv; split at hv <;> cases hv; exact hf _ _)
    (by unfold palAbove; intro v hv; split at hv <;> cases hv; exact hf _ _)
  show (do
    let s ← sortScores n ((List.range 8).map (palScore 1 (palLeft f r c) (palAboveLeft f r c) (palAbove f r c)), (List.range 8).map Int.ofNat)
    let h ← contextHash s.1
    pure (s.2, h) : Res (List Int × Int)) = _
  rw [e]
  show (do
    let h ← contextHash s
    pure ((palOrder 1 n (palLeft f r c) (palAboveLeft f r c) (palAbove f r c)).map Int.ofNat ++ ((List.range 8).drop n).map Int.ofNat, h) : Res (List Int × Int)) = _
  rw [eh]
  rfl

/-- **C197 (first row).**  In the first row of a block both the order and the hash are AV1's. -/
theorem C197_row_partial (f : Nat → Nat → Nat) (n c : Nat) : palOrder 1 n (palLeft f 0 c) (palAboveLeft f 0 c) (palAbove f 0 c) = palOrder 2 n (palLeft f 0 c) (palAboveLeft f 0 c) (palAbove f 0 c) ∧
    palHash 1 n (palLeft f 0 c) (palAboveLeft f 0 c) (palAbove f 0 c) = palHash 2 n (palLeft f 0 c) (palAboveLeft f 0 c) (palAbove f 0 c) := by
  have h : palAbove f 0 c = none := rfl
  rw [h]
  have hs : ∀ l al, palScore 1 l al none = palScore 2 l al none := by intro l al; funext v; simp [palScore]
  unfold palHash palOrder
  constructor <;> simp only [hs]

theorem hash_column : ∀ n ∈ [2, 3, 4, 5, 6, 7, 8], ∀ v ∈ List.range n, palHash 1 n none none (some v) = 1 ∧ palHash 2 n none none (some v) = 2 := by decide +kernel

/-- **C197 (hash, refuted).**  In the first column of a block, below the first row, the hash is 1, whatever the picture; AV1's is 2, and no context belongs to the hash 1. -/
theorem C197_hash_refuted (f : Nat → Nat → Nat) {fresh order : List Int} {m : List (List Int)} {r n : Nat} (hfr : fresh.length = 8) (ho : order.length = 8) (h2 : 2 ≤ n) (h8 : n ≤ 8)
    (hf : ∀ r c, f r c < n) (hr : 0 < r) (hm : at2 m (r - 1) 0 = some (f (r - 1) 0 : Int)) :
    (∃ o, colorContext fresh order m r 0 n = .ok (o, 1)) ∧ palHash 2 n (palLeft f r 0) (palAboveLeft f r 0) (palAbove f r 0) = 2 := by
  have h := C197_context_partial (f := f) (m := m) (r := r) (c := 0) hfr ho h2 h8 hf (fun h => absurd h (by omega)) (fun _ h => absurd h (by omega)) (fun _ => hm)
  have hn : n ∈ [2, 3, 4, 5, 6, 7, 8] := by simp only [List.mem_cons]; omega
  have ea : palAbove f r 0 = some (f (r - 1) 0) := by unfold palAbove; rw [if_pos hr]
  have el : palLeft f r 0 = none := rfl
  have el' : palAboveLeft f r 0 = none := by unfold palAboveLeft; rw [if_neg (by omega)]
  obtain ⟨k1, k2⟩ := hash_column n hn (f (r - 1) 0) (List.mem_range.mpr (hf _ _))
  rw [ea, el, el', k1] at h
  rw [ea, el, el', k2]
  exact ⟨⟨_, h⟩, rfl⟩

theorem order_differs : ∀ n ∈ [2, 3, 4, 5, 6, 7, 8], ∀ y ∈ List.range n, ∀ x ∈ List.range y, (palOrder 1 n (some x) (some y) (some y)).head? = some x ∧ (palOrder 2 n (some x) (some y) (some y)).head? = some y := by
  decide +kernel

/-- **C197 (order, refuted).**  Where the pixels above and above left have the same colour and the one to the left a smaller one, the code puts the latter first, AV1 the former. -/
theorem C197_order_refuted {n x y : Nat} (h2 : 2 ≤ n) (h8 : n ≤ 8) (hx : x < y) (hy : y < n) :
    (palOrder 1 n (some x) (some y) (some y)).head? = some x ∧ (palOrder 2 n (some x) (some y) (some y)).head? = some y :=
  order_differs n (by simp only [List.mem_cons]; omega) y (List.mem_range.mpr hy) x (List.mem_range.mpr hx)

/-- AV1's hash has a context in each case: the specification above gives one of the five values with a context. -/
theorem spec_hash : ∀ n ∈ [2, 3, 4], ∀ l ∈ List.range n, ∀ al ∈ List.range n, ∀ a ∈ List.range n, palHash 2 n (some l) (some al) (some a) ∈ [(5 : Int), 6, 7, 8] := by decide +kernel

example : colorContext (List.replicate 8 0) (List.replicate 8 0) [[0, 2], [1, 0]] 1 1 4 = .ok ([1, 0, 2, 3, 4, 5, 6, 7], 2 + 2 * 1 + 2 * 1) := by decide +kernel

/-! ## The colour map -/

theorem order_perm (k : Int) (n : Nat) (l al a : Option Nat) : (palOrder k n l al a).Perm (List.range n) := List.perm_insertionSort _ _

/-- The entry `idx` of the order, for `idx` less than the number of colours. -/
theorem order_get {n : Nat} {k : Int} {l al a : Option Nat} {idx : Nat} (hi : idx < n) :
    ∃ v, v < n ∧ goGet ((palOrder k n l al a).map Int.ofNat ++ ((List.range 8).drop n).map Int.ofNat) (idx : Int) = .ok (v : Int) ∧ (palOrder k n l al a)[idx]? = some v := by
  have hp := order_perm k n l al a
  have hl : (palOrder k n l al a).length = n := by rw [hp.length_eq, List.length_range]
  have hi' : idx < (palOrder k n l al a).length := by omega
  refine ⟨(palOrder k n l al a)[idx], ?_, ?_, List.getElem?_eq_getElem hi'⟩
  · exact List.mem_range.mp (hp.mem_iff.mp (List.getElem_mem hi'))
  · rw [goGet_lt' (by simp; omega)]
    rw [List.getElem_append_left (by simpa using hi')]
    simp

/-- One pixel: each colour below `n` is the result for exactly one index below `n`. -/
theorem mapCell_spec {f : Nat → Nat → Nat} {fresh : List Int} {H W n r c idx : Nat} {s : List Int × List (List Int)} (hfr : fresh.length = 8) (ho : s.1.length = 8) (hs : Shape H W s.2)
    (h2 : 2 ≤ n) (h8 : n ≤ 8) (hf : ∀ r c, f r c < n) (hm1 : 0 < c → at2 s.2 r (c - 1) = some (f r (c - 1) : Int))
    (hm2 : 0 < r → 0 < c → at2 s.2 (r - 1) (c - 1) = some (f (r - 1) (c - 1) : Int)) (hm3 : 0 < r → at2 s.2 (r - 1) c = some (f (r - 1) c : Int)) (hr : r < H) (hc : c < W) (hi : idx < n) :
    ∃ s' v, mapCell fresh n (r, c) idx s = .ok s' ∧ s'.1.length = 8 ∧ Shape H W s'.2 ∧ v < n ∧ at2 s'.2 r c = some (v : Int) ∧ (∀ a b, (a, b) ≠ (r, c) → at2 s'.2 a b = at2 s.2 a b) ∧
      (palOrder 1 n (palLeft f r c) (palAboveLeft f r c) (palAbove f r c))[idx]? = some v := by
  have h := C197_context_partial hfr ho h2 h8 hf hm1 hm2 hm3
  obtain ⟨v, hv, eg, ei⟩ := order_get (k := 1) (l := palLeft f r c) (al := palAboveLeft f r c) (a := palAbove f r c) hi
  obtain ⟨m', em, hs', k1, k2⟩ := gset_ok hs hr hc (v : Int)
  refine ⟨((palOrder 1 n (palLeft f r c) (palAboveLeft f r c) (palAbove f r c)).map Int.ofNat ++ ((List.range 8).drop n).map Int.ofNat, m'), v, ?_, ?_, hs', hv, k1, k2, ei⟩
  · unfold mapCell
    rw [h]
    refine (show (Except.ok _ >>= _ : Res _) = _ from ?_)
    dsimp only [bind, Except.bind]
    rw [eg]
    dsimp only
    rw [em]
    rfl
  · have := (order_perm 1 n (palLeft f r c) (palAboveLeft f r c) (palAbove f r c)).length_eq
    simp [this]
    omega

/-- Pixels that are not decoded are not changed. -/
theorem mapCells_frame {fresh : List Int} {n : Nat} : ∀ (ps : List ((Nat × Nat) × Nat)) (s s' : List Int × List (List Int)), mapCells fresh n ps s = .ok s' →
    ∀ a b, (a, b) ∉ ps.map (·.1) → at2 s'.2 a b = at2 s.2 a b := by
  intro ps
  induction ps with
  | nil => intro s s' h a b _; cases h; rfl
  | cons x ps ih =>
    obtain ⟨p, idx⟩ := x
    intro s s' h a b hab
    rw [mapCells] at h
    obtain ⟨s1, h1, h⟩ := Res.inv h
    rw [ih s1 s' h a b (fun hm => hab (by simp at hm ⊢; exact Or.inr hm))]
    unfold mapCell at h1
    obtain ⟨x, -, h1⟩ := Res.inv h1
    obtain ⟨v, -, h1⟩ := Res.inv h1
    obtain ⟨m, hm, h1⟩ := Res.inv h1
    cases h1
    obtain ⟨-, -, -, -, k, -⟩ := gset_inv hm
    exact k a b (fun e => hab (by simp only [List.map_cons, List.mem_cons]; left; simpa using e))

theorem zip_fst {α β : Type} {l : List α} {m : List β} (h : m.length = l.length) : (l.zip m).map (·.1) = l := by
  rw [List.map_fst_zip (by omega)]

theorem mapCells_unique {f : Nat → Nat → Nat} {fresh : List Int} {H W n h w : Nat} (hfr : fresh.length = 8) (h2 : 2 ≤ n) (h8 : n ≤ 8) (hf : ∀ r c, f r c < n) (hh : 0 < h) (hw : 0 < w)
    (hH : h ≤ H) (hW : w ≤ W) : ∀ (l l1 : List (Nat × Nat)) (s : List Int × List (List Int)), wave h w = l1 ++ l → s.1.length = 8 → Shape H W s.2 →
    (∀ p ∈ l1, at2 s.2 p.1 p.2 = some (f p.1 p.2 : Int)) →
    ∃ idxs : List Nat, idxs.length = l.length ∧ (∀ i ∈ idxs, i < n) ∧
      (∃ s', mapCells fresh n (l.zip idxs) s = .ok s' ∧ Shape H W s'.2 ∧ ∀ p ∈ l1 ++ l, at2 s'.2 p.1 p.2 = some (f p.1 p.2 : Int)) ∧
      ∀ js s'', js.length = l.length → (∀ i ∈ js, i < n) → mapCells fresh n (l.zip js) s = .ok s'' → (∀ p ∈ l, at2 s''.2 p.1 p.2 = some (f p.1 p.2 : Int)) → js = idxs := by
  intro l
  induction l with
  | nil =>
    intro l1 s _ ho hs hp
    refine ⟨[], rfl, by simp, ⟨s, rfl, hs, by simpa using hp⟩, ?_⟩
    intro js _ hj _ _ _
    exact List.eq_nil_of_length_eq_zero hj
  | cons p l ih =>
    obtain ⟨r, c⟩ := p
    intro l1 s e ho hs hp
    obtain ⟨n1, n2, n3⟩ := C156_neighbours hh hw e
    have hrc : r < h ∧ c < w := ((C156_once hh hw).2 r c).mp (by rw [e]; simp)
    have hnd := (C156_once hh hw).1
    rw [e, List.nodup_append, List.nodup_cons] at hnd
    have step := fun idx (hi : idx < n) => mapCell_spec (f := f) (fresh := fresh) (H := H) (W := W) (n := n) (r := r) (c := c) (idx := idx) (s := s) hfr ho hs h2 h8 hf
      (fun hc => hp _ (n1 hc)) (fun hr hc => hp _ (n3 hr hc)) (fun hr => hp _ (n2 hr)) (by omega) (by omega) hi
    have hperm := order_perm 1 n (palLeft f r c) (palAboveLeft f r c) (palAbove f r c)
    have hmem : f r c ∈ palOrder 1 n (palLeft f r c) (palAboveLeft f r c) (palAbove f r c) := hperm.mem_iff.mpr (List.mem_range.mpr (hf r c))
    obtain ⟨i, hi, ei⟩ := List.getElem_of_mem hmem
    have hin : i < n := by rw [hperm.length_eq, List.length_range] at hi; exact hi
    obtain ⟨s1, v, h1, ho1, hs1, hv, hat, hother, hord⟩ := step i hin
    have hvf : v = f r c := by rw [List.getElem?_eq_getElem hi, ei] at hord; exact (Option.some.inj hord).symm
    subst hvf
    have hp1 : ∀ p ∈ l1 ++ [(r, c)], at2 s1.2 p.1 p.2 = some (f p.1 p.2 : Int) := by
      intro p hm
      rcases List.mem_append.mp hm with hm | hm
      · rw [hother p.1 p.2 (fun e' => hnd.2.2 p hm (r, c) (by simp) e')]
        exact hp p hm
      · rw [List.mem_singleton] at hm
        subst hm
        exact hat
    obtain ⟨idxs, k1, k2, ⟨s', k3, k4, k5⟩, k6⟩ := ih (l1 ++ [(r, c)]) s1 (by rw [e]; simp) ho1 hs1 hp1
    refine ⟨i :: idxs, by simp [k1], ?_, ⟨s', ?_, k4, ?_⟩, ?_⟩
    · intro j hj
      rcases List.mem_cons.mp hj with rfl | hj
      · exact hin
      · exact k2 j hj
    · rw [List.zip_cons_cons, mapCells, h1]
      exact k3
    · simpa using k5
    · intro js s'' hl hj hm hf'
      cases js with
      | nil => simp at hl
      | cons j js =>
        rw [List.zip_cons_cons, mapCells] at hm
        obtain ⟨s2, v2, g1, -, -, -, gat, -, gord⟩ := step j (hj j (by simp))
        rw [g1] at hm
        have hm : mapCells fresh n (l.zip js) s2 = .ok s'' := hm
        have hlen : js.length = l.length := by simpa using hl
        have hfin := mapCells_frame _ _ _ hm r c (by rw [zip_fst hlen]; exact hnd.2.1.1)
        rw [hf' (r, c) (by simp), gat, Option.some.injEq] at hfin
        have hv2 : v2 = f r c := by exact_mod_cast hfin.symm
        subst hv2
        have hji : j = i := by
          obtain ⟨hjl, hje⟩ := List.getElem?_eq_some_iff.mp gord
          exact (hperm.nodup_iff.mpr List.nodup_range).getElem_inj_iff.mp (by rw [hje, ei])
        subst hji
        rw [h1] at g1
        cases g1
        rw [k6 js s'' hlen (fun i hi => hj i (by simp [hi])) hm (fun p hp => hf' p (by simp [hp]))]

theorem fillRow_spec {H W h w bw i : Nat} {g : Nat → Nat → Int} {m : List (List Int)} (hs : Shape H W m) (hi : i < H) (hw : 0 < w) (hb : w ≤ bw) (hW : bw ≤ W)
    (hm : ∀ a b, at2 m a b = some (g a b) ∨ ¬(a < h ∧ b < w)) (hih : i < h) :
    ∃ m', forN (fun j (m : List (List Int)) => do gset m i j (← gget m i ((w : Int) - 1))) (bw - w) w m = .ok m' ∧ Shape H W m' ∧
      (∀ b, b < bw → w ≤ b → at2 m' i b = some (g i (w - 1))) ∧ ∀ a b, (a ≠ i ∨ b < w) → at2 m' a b = at2 m a b := by
  have h := forN_total (f := fun j (m : List (List Int)) => do gset m i j (← gget m i ((w : Int) - 1)))
    (fun j (m' : List (List Int)) => Shape H W m' ∧ (∀ b, b < j → w ≤ b → at2 m' i b = some (g i (w - 1))) ∧ ∀ a b, (a ≠ i ∨ b < w) → at2 m' a b = at2 m a b) (n := bw - w) (i0 := w) (s := m) ?_ ?_
  · obtain ⟨m', e, h1, h2, h3⟩ := h
    exact ⟨m', e, h1, fun b hb hw => h2 b (by omega) hw, h3⟩
  · rintro j t hj1 hj2 ⟨h1, h2, h3⟩
    have hg : gget t (i : Int) ((w : Int) - 1) = .ok (g i (w - 1)) := by
      rw [show ((w : Int) - 1) = ((w - 1 : Nat) : Int) by omega]
      apply gget_at2
      rw [h3 i (w - 1) (Or.inr (by omega))]
      rcases hm i (w - 1) with h | h
      · exact h
      · exact absurd ⟨hih, by omega⟩ h
    obtain ⟨t', e, k1, k2, k3⟩ := gset_ok h1 hi (show j < W by omega) (g i (w - 1))
    refine ⟨t', ?_, k1, ?_, ?_⟩
    · rw [hg]
      exact e
    · intro b hb hwb
      rcases Nat.lt_or_ge b j with h | h
      · rw [k3 i b (by simp; omega)]; exact h2 b h hwb
      · have : b = j := by omega
        subst this
        exact k2
    · intro a b hab
      rw [k3 a b (by rw [ne_eq, Prod.mk.injEq]; omega)]
      exact h3 a b hab
  · exact ⟨hs, fun b hb hw => by omega, fun _ _ _ => rfl⟩

theorem fillRight_spec {H W h w bw : Nat} {g : Nat → Nat → Int} {m : List (List Int)} (hs : Shape H W m) (hh : h ≤ H) (hw : 0 < w) (hb : w ≤ bw) (hW : bw ≤ W)
    (hm : ∀ a b, a < h → b < w → at2 m a b = some (g a b)) :
    ∃ m', fillRight h w bw m = .ok m' ∧ Shape H W m' ∧ ∀ a b, a < h → b < bw → at2 m' a b = some (g a (min b (w - 1))) := by
  have key := forN_total (f := fun i m => forN (fun j (m : List (List Int)) => do gset m i j (← gget m i ((w : Int) - 1))) (bw - w) w m)
    (fun i (m' : List (List Int)) => Shape H W m' ∧ (∀ a b, a < i → b < bw → at2 m' a b = some (g a (min b (w - 1)))) ∧ ∀ a b, i ≤ a → at2 m' a b = at2 m a b) (n := h) (i0 := 0) (s := m) ?_ ?_
  · obtain ⟨m', e, h1, h2, h3⟩ := key
    exact ⟨m', e, h1, fun a b ha hb => h2 a b (by omega) hb⟩
  · rintro i t hi1 hi2 ⟨h1, h2, h3⟩
    obtain ⟨t', e, k1, k2, k3⟩ := fillRow_spec (h := i + 1) (i := i) (g := fun a b => (at2 t a b).getD 0) h1 (by omega) hw hb hW (fun a b => by
      by_cases hab : a < i + 1 ∧ b < w
      · left
        obtain ⟨v, hv⟩ := h1.at2 (show a < H by omega) (show b < W by omega)
        rw [hv]; rfl
      · exact Or.inr hab) (by omega)
    have hlast : (at2 t i (w - 1)).getD 0 = g i (w - 1) := by rw [h3 i _ (by omega), hm i _ (by omega) (by omega)]; rfl
    refine ⟨t', e, k1, ?_, ?_⟩
    · intro a b ha hbw
      rcases Nat.lt_or_ge a i with h | h
      · rw [k3 a b (Or.inl (by omega))]; exact h2 a b h hbw
      · have : a = i := by omega
        subst this
        rcases Nat.lt_or_ge b w with hbw' | hbw'
        · rw [k3 a b (Or.inr hbw'), h3 a b (by omega), hm a b (by omega) hbw', show min b (w - 1) = b by omega]
        · rw [k2 b hbw hbw', hlast, show min b (w - 1) = w - 1 by omega]
    · intro a b ha
      rw [k3 a b (Or.inl (by omega))]
      exact h3 a b (by omega)
  · exact ⟨hs, fun a b ha => by omega, fun _ _ _ => rfl⟩

theorem fillBelow_spec {H W h bh bw : Nat} {g : Nat → Nat → Int} {m : List (List Int)} (hs : Shape H W m) (hh : 0 < h) (hb : h ≤ bh) (hH : bh ≤ H) (hW : bw ≤ W)
    (hm : ∀ a b, a < h → b < bw → at2 m a b = some (g a b)) :
    ∃ m', fillBelow h bh bw m = .ok m' ∧ ∀ a b, a < bh → b < bw → at2 m' a b = some (g (min a (h - 1)) b) := by
  have key := forN_total (f := fun i m => forN (fun j (m : List (List Int)) => do gset m i j (← gget m ((h : Int) - 1) j)) bw 0 m)
    (fun i (m' : List (List Int)) => Shape H W m' ∧ (∀ a b, a < i → b < bw → at2 m' a b = some (g (min a (h - 1)) b))) (n := bh - h) (i0 := h) (s := m) ?_ ?_
  · obtain ⟨m', e, h1, h2⟩ := key
    exact ⟨m', e, fun a b ha hb => h2 a b (by omega) hb⟩
  · rintro i t hi1 hi2 ⟨h1, h2⟩
    have row := forN_total (f := fun j (m : List (List Int)) => do gset m i j (← gget m ((h : Int) - 1) j))
      (fun j (m' : List (List Int)) => Shape H W m' ∧ (∀ b, b < j → at2 m' i b = some (g (h - 1) b)) ∧ ∀ a b, a < i → at2 m' a b = at2 t a b) (n := bw) (i0 := 0) (s := t) ?_ ?_
    · obtain ⟨t', e, k1, k2, k3⟩ := row
      refine ⟨t', e, k1, ?_⟩
      intro a b ha hb
      rcases Nat.lt_or_ge a i with h' | h'
      · rw [k3 a b h']; exact h2 a b h' hb
      · have : a = i := by omega
        subst this
        rw [k2 b (by omega), show min a (h - 1) = h - 1 by omega]
    · rintro j u hj1 hj2 ⟨g1, g2, g3⟩
      have hg : gget u ((h : Int) - 1) (j : Int) = .ok (g (h - 1) j) := by
        rw [show ((h : Int) - 1) = ((h - 1 : Nat) : Int) by omega]
        apply gget_at2
        rw [g3 _ _ (by omega), h2 (h - 1) j (by omega) (by omega), show min (h - 1) (h - 1) = h - 1 by omega]
      obtain ⟨u', e, k1, k2, k3⟩ := gset_ok g1 (show i < H by omega) (show j < W by omega) (g (h - 1) j)
      refine ⟨u', ?_, k1, ?_, ?_⟩
      · rw [hg]
        exact e
      · intro b hb
        rcases Nat.lt_or_ge b j with h' | h'
        · rw [k3 i b (by simp; omega)]; exact g2 b h'
        · have : b = j := by omega
          subst this
          exact k2
      · intro a b ha
        rw [k3 a b (by rw [ne_eq, Prod.mk.injEq]; omega)]
        exact g3 a b ha
    · exact ⟨h1, fun b hb => by omega, fun _ _ _ => rfl⟩
  · exact ⟨hs, fun a b ha hb => by rw [hm a b ha hb, show min a (h - 1) = a by omega]⟩

theorem fillBelow_frame {h bh bw : Nat} {m m' : List (List Int)} (e : fillBelow h bh bw m = .ok m') (a b : Nat) (ha : a < h) : at2 m' a b = at2 m a b := by
  unfold fillBelow at e
  refine forN_inv (fun _ t => at2 t a b = at2 m a b) ?_ e rfl
  intro i t t' hi _ ht h1
  refine forN_inv (fun _ u => at2 u a b = at2 m a b) ?_ h1 ht
  intro j u u' _ _ hu h2
  obtain ⟨v, -, h2⟩ := Res.inv h2
  obtain ⟨-, -, -, -, k, -⟩ := gset_inv h2
  rw [k a b (by rw [ne_eq, Prod.mk.injEq]; omega)]
  exact hu

theorem fillRight_frame {h w bw : Nat} {m m' : List (List Int)} (e : fillRight h w bw m = .ok m') (a b : Nat) (hb : b < w) : at2 m' a b = at2 m a b := by
  unfold fillRight at e
  refine forN_inv (fun _ t => at2 t a b = at2 m a b) ?_ e rfl
  intro i t t' hi _ ht h1
  refine forN_inv (fun _ u => at2 u a b = at2 m a b) ?_ h1 ht
  intro j u u' hj _ hu h2
  obtain ⟨v, -, h2⟩ := Res.inv h2
  obtain ⟨-, -, -, -, k, -⟩ := gset_inv h2
  rw [k a b (by rw [ne_eq, Prod.mk.injEq]; omega)]
  exact hu

theorem wave_length {h w : Nat} (hh : 0 < h) (hw : 0 < w) : (wave h w).length = h * w := by
  have hp : (wave h w).Perm (List.range h ×ˢ List.range w) := by
    rw [List.perm_ext_iff_of_nodup (C156_once hh hw).1 (List.nodup_range.product List.nodup_range)]
    rintro ⟨r, c⟩
    rw [(C156_once hh hw).2, List.mem_product]
    simp
  rw [hp.length_eq, List.length_product, List.length_range, List.length_range]

theorem wave_tail (h w : Nat) : wave h w = [(0, 0)] ++ (wave h w).tail := rfl

/-- **C198 (partial).**  With arrays of the right sizes in the place of the slices that are never allocated: every picture of `n` colours is the colour map of exactly one sequence of indices, one below `n` for
each pixel in the frame after the first; beyond the frame the map repeats the last column and row. -/
theorem C198_map_partial {f : Nat → Nat → Nat} {fresh order : List Int} {m : List (List Int)} {H W n h w bh bw : Nat} (hfr : fresh.length = 8) (ho : order.length = 8) (hs : Shape H W m) (h2 : 2 ≤ n)
    (h8 : n ≤ 8) (hf : ∀ r c, f r c < n) (hh : 0 < h) (hw : 0 < w) (hbh : h ≤ bh) (hbw : w ≤ bw) (hH : bh ≤ H) (hW : bw ≤ W) :
    ∃! idxs : List Nat, idxs.length = h * w - 1 ∧ (∀ i ∈ idxs, i < n) ∧
      ∃ m', planeMap fresh order m n h w bh bw (f 0 0) idxs = .ok m' ∧ ∀ i j, i < bh → j < bw → at2 m' i j = some (f (min i (h - 1)) (min j (w - 1)) : Int) := by
  obtain ⟨m0, e0, s0, a0, -⟩ := gset_ok hs (show 0 < H by omega) (show 0 < W by omega) (f 0 0 : Int)
  obtain ⟨idxs, k1, k2, ⟨s', k3, k4, k5⟩, k6⟩ := mapCells_unique hfr h2 h8 hf hh hw (show h ≤ H by omega) (show w ≤ W by omega) (wave h w).tail [(0, 0)] (order, m0) (wave_tail h w) ho s0
    (by intro p hp; rw [List.mem_singleton] at hp; subst hp; exact a0)
  have hlen : (wave h w).tail.length = h * w - 1 := by rw [List.length_tail, wave_length hh hw]
  have hk5 : ∀ a b, a < h → b < w → at2 s'.2 a b = some (f a b : Int) := fun a b ha hb => k5 (a, b) (by rw [← wave_tail]; exact ((C156_once hh hw).2 a b).mpr ⟨ha, hb⟩)
  obtain ⟨m1, e1, s1, a1⟩ := fillRight_spec (g := fun a b => (f a b : Int)) k4 (show h ≤ H by omega) hw hbw hW hk5
  obtain ⟨m2, e2, a2⟩ := fillBelow_spec (g := fun a b => (f a (min b (w - 1)) : Int)) s1 hh hbh hH hW a1
  refine ⟨idxs, ⟨by rw [k1, hlen], k2, m2, ?_, a2⟩, ?_⟩
  · unfold planeMap
    rw [show ((0 : Int)) = ((0 : Nat) : Int) from rfl, e0]
    show (mapCells fresh n ((wave h w).tail.zip idxs) (order, m0) >>= _) = _
    rw [k3]
    show (fillRight h w bw s'.2 >>= _) = _
    rw [e1]
    exact e2
  · rintro js ⟨j1, j2, m', e, a⟩
    unfold planeMap at e
    rw [show ((0 : Int)) = ((0 : Nat) : Int) from rfl, e0] at e
    obtain ⟨s'', e3, e⟩ := Res.inv (show (mapCells fresh n ((wave h w).tail.zip js) (order, m0) >>= _) = _ from e)
    obtain ⟨m3, e4, e⟩ := Res.inv e
    refine k6 js s'' (by rw [j1, hlen]) j2 e3 ?_
    intro p hp
    obtain ⟨hp1, hp2⟩ := ((C156_once hh hw).2 p.1 p.2).mp (by rw [wave_tail]; simp [hp])
    have hm' := a p.1 p.2 (by omega) (by omega)
    rw [show min p.1 (h - 1) = p.1 by omega, show min p.2 (w - 1) = p.2 by omega] at hm'
    rw [← hm', fillBelow_frame e p.1 p.2 hp1, fillRight_frame e4 p.1 p.2 hp2]

theorem mapCells_total {fresh : List Int} {H W n h w : Nat} (hfr : fresh.length = 8) (h2 : 2 ≤ n) (h8 : n ≤ 8) (hh : 0 < h) (hw : 0 < w) (hH : h ≤ H) (hW : w ≤ W) :
    ∀ (l l1 : List (Nat × Nat)) (s : List Int × List (List Int)) (idxs : List Nat), wave h w = l1 ++ l → s.1.length = 8 → Shape H W s.2 → idxs.length = l.length → (∀ i ∈ idxs, i < n) →
    (∀ p ∈ l1, ∃ v : Nat, v < n ∧ at2 s.2 p.1 p.2 = some (v : Int)) →
    ∃ s', mapCells fresh n (l.zip idxs) s = .ok s' ∧ Shape H W s'.2 ∧ ∀ p ∈ l1 ++ l, ∃ v : Nat, v < n ∧ at2 s'.2 p.1 p.2 = some (v : Int) := by
  intro l
  induction l with
  | nil => intro l1 s idxs _ _ hs _ _ hp; exact ⟨s, rfl, hs, by simpa using hp⟩
  | cons p l ih =>
    obtain ⟨r, c⟩ := p
    intro l1 s idxs e ho hs hl hi hp
    cases idxs with
    | nil => simp at hl
    | cons j js =>
      obtain ⟨n1, n2, n3⟩ := C156_neighbours hh hw e
      have hrc : r < h ∧ c < w := ((C156_once hh hw).2 r c).mp (by rw [e]; simp)
      have hnd := (C156_once hh hw).1
      rw [e, List.nodup_append, List.nodup_cons] at hnd
      let f : Nat → Nat → Nat := fun a b => if ((at2 s.2 a b).getD 0).toNat < n then ((at2 s.2 a b).getD 0).toNat else 0
      have hf : ∀ a b, f a b < n := by intro a b; dsimp only [f]; split <;> omega
      have hval : ∀ p ∈ l1, at2 s.2 p.1 p.2 = some (f p.1 p.2 : Int) := by
        intro p hm
        obtain ⟨v, hv, ev⟩ := hp p hm
        dsimp only [f]
        rw [ev]
        simp [hv]
      obtain ⟨s1, v, h1, ho1, hs1, hv, hat, hother, -⟩ := mapCell_spec (f := f) (idx := j) hfr ho hs h2 h8 hf (fun hc => hval _ (n1 hc)) (fun hr hc => hval _ (n3 hr hc)) (fun hr => hval _ (n2 hr))
        (show r < H by omega) (show c < W by omega) (hi j (by simp))
      obtain ⟨s', k1, k2, k3⟩ := ih (l1 ++ [(r, c)]) s1 js (by rw [e]; simp) ho1 hs1 (by simpa using hl) (fun i h => hi i (by simp [h])) (by
        intro p hm
        rcases List.mem_append.mp hm with hm | hm
        · rw [hother p.1 p.2 (fun e' => hnd.2.2 p hm (r, c) (by simp) e')]
          exact hp p hm
        · rw [List.mem_singleton] at hm
          subst hm
          exact ⟨v, hv, hat⟩)
      refine ⟨s', ?_, k2, by simpa using k3⟩
      rw [List.zip_cons_cons, mapCells, h1]
      exact k1

/-- **C198 (total, partial).**  Every sequence of indices below the number of colours is decoded, to a map of such colours. -/
theorem C198_total_partial {fresh order : List Int} {m : List (List Int)} {H W n h w bh bw first : Nat} {idxs : List Nat} (hfr : fresh.length = 8) (ho : order.length = 8) (hs : Shape H W m) (h2 : 2 ≤ n)
    (h8 : n ≤ 8) (hh : 0 < h) (hw : 0 < w) (hbh : h ≤ bh) (hbw : w ≤ bw) (hH : bh ≤ H) (hW : bw ≤ W) (h1 : first < n) (hl : idxs.length = h * w - 1) (hi : ∀ i ∈ idxs, i < n) :
    ∃ m', planeMap fresh order m n h w bh bw first idxs = .ok m' ∧ ∀ i j, i < bh → j < bw → ∃ v : Nat, v < n ∧ at2 m' i j = some (v : Int) := by
  obtain ⟨m0, e0, s0, a0, -⟩ := gset_ok hs (show 0 < H by omega) (show 0 < W by omega) (first : Int)
  have hlen : (wave h w).tail.length = h * w - 1 := by rw [List.length_tail, wave_length hh hw]
  obtain ⟨s', k3, k4, k5⟩ := mapCells_total hfr h2 h8 hh hw (show h ≤ H by omega) (show w ≤ W by omega) (wave h w).tail [(0, 0)] (order, m0) idxs (wave_tail h w) ho s0 (by rw [hl, hlen]) hi
    (by intro p hp; rw [List.mem_singleton] at hp; subst hp; exact ⟨first, h1, a0⟩)
  have hk5 : ∀ a b, a < h → b < w → ∃ v : Nat, v < n ∧ at2 s'.2 a b = some (v : Int) := fun a b ha hb => k5 (a, b) (by rw [← wave_tail]; exact ((C156_once hh hw).2 a b).mpr ⟨ha, hb⟩)
  obtain ⟨m1, e1, s1, a1⟩ := fillRight_spec (g := fun a b => (at2 s'.2 a b).getD 0) k4 (show h ≤ H by omega) hw hbw hW (by
    intro a b ha hb
    obtain ⟨v, -, hv⟩ := hk5 a b ha hb
    rw [hv]; rfl)
  obtain ⟨m2, e2, a2⟩ := fillBelow_spec (g := fun a b => (at2 s'.2 a (min b (w - 1))).getD 0) s1 hh hbh hH hW a1
  refine ⟨m2, ?_, ?_⟩
  · unfold planeMap
    rw [show ((0 : Int)) = ((0 : Nat) : Int) from rfl, e0]
    show (mapCells fresh n ((wave h w).tail.zip idxs) (order, m0) >>= _) = _
    rw [k3]
    show (fillRight h w bw s'.2 >>= _) = _
    rw [e1]
    exact e2
  · intro i j hi hj
    rw [a2 i j hi hj]
    obtain ⟨v, hv, ev⟩ := hk5 (min i (h - 1)) (min j (w - 1)) (by omega) (by omega)
    exact ⟨v, hv, by rw [ev]; rfl⟩

/-- **C198 (refuted).**  The colour map of the code is a nil slice: no palette block is decoded, whatever its colours. -/
theorem C198_nil_refuted (fresh order : List Int) (n h w bh bw : Nat) (first : Int) (idxs : List Nat) (r : List (List Int)) : planeMap fresh order [] n h w bh bw first idxs ≠ .ok r := by
  intro e
  obtain ⟨m, e, -⟩ := Res.inv e
  cases e

/-- A block of 4 by 4 pixels of which 2 by 3 are in the frame. -/
example : planeMap (List.replicate 8 0) (List.replicate 8 0) (List.replicate 4 (List.replicate 4 0)) 3 2 3 4 4 1 [0, 1, 2, 0, 0] =
    .ok [[1, 1, 2, 2], [0, 0, 0, 0], [0, 0, 0, 0], [0, 0, 0, 0]] := by decide +kernel

end Gov1
