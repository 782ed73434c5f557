import Verif.Model.Grid
/-! # Reasoning about Go loops and two-dimensional arrays -/
namespace Gov1

/-- Inversion of a Go statement sequence that returned. -/
theorem Res.inv {α β : Type} {m : Res α} {f : α → Res β} {b : β} (h : (m >>= f) = .ok b) :
    ∃ a, m = .ok a ∧ f a = .ok b := by
  cases m with
  | error e => cases h
  | ok a => exact ⟨a, rfl, h⟩

theorem Res.bind_ok_eq {α β : Type} {m : Res α} {f : α → Res β} {a : α} (h : m = .ok a) :
    (m >>= f) = f a := by
  rw [h]; rfl

theorem Res.ok_bind {α β : Type} (a : α) (f : α → Res β) : ((Except.ok a : Res α) >>= f) = f a := rfl

/-- Loop invariant for a loop that returned. -/
theorem forN_inv {σ : Type} {f : Nat → σ → Res σ} (P : Nat → σ → Prop) {n i0 : Nat} {s s' : σ}
    (hstep : ∀ i t t', i0 ≤ i → i < i0 + n → P i t → f i t = .ok t' → P (i + 1) t')
    (h : forN f n i0 s = .ok s') (h0 : P i0 s) : P (i0 + n) s' := by
  induction n generalizing i0 s with
  | zero => cases h; exact h0
  | succ n ih =>
    rw [forN] at h
    obtain ⟨t, ht, h⟩ := Res.inv h
    have := ih (i0 := i0 + 1) (s := t) (fun i u u' h1 h2 => hstep i u u' (by omega) (by omega)) h
      (hstep i0 s t (by omega) (by omega) h0 ht)
    rw [show i0 + (n + 1) = i0 + 1 + n by omega]
    exact this

/-- A loop whose body never panics under an invariant returns. -/
theorem forN_total {σ : Type} {f : Nat → σ → Res σ} (P : Nat → σ → Prop) {n i0 : Nat} {s : σ}
    (hstep : ∀ i t, i0 ≤ i → i < i0 + n → P i t → ∃ t', f i t = .ok t' ∧ P (i + 1) t')
    (h0 : P i0 s) : ∃ s', forN f n i0 s = .ok s' ∧ P (i0 + n) s' := by
  induction n generalizing i0 s with
  | zero => exact ⟨s, rfl, h0⟩
  | succ n ih =>
    obtain ⟨t, ht, hp⟩ := hstep i0 s (by omega) (by omega) h0
    obtain ⟨s', hs', hP⟩ := ih (i0 := i0 + 1) (s := t) (fun i u h1 h2 => hstep i u (by omega) (by omega)) hp
    refine ⟨s', ?_, by rw [show i0 + (n + 1) = i0 + 1 + n by omega]; exact hP⟩
    rw [forN, ht]
    exact hs'

/-- A loop panics as soon as one iteration panics, whatever the state it starts from. -/
theorem forN_never {σ : Type} {f : Nat → σ → Res σ} {n i0 i : Nat} {s : σ} (h1 : i0 ≤ i) (h2 : i < i0 + n)
    (hbad : ∀ t t', f i t ≠ .ok t') : ∀ s', forN f n i0 s ≠ .ok s' := by
  induction n generalizing i0 s with
  | zero => omega
  | succ n ih =>
    intro s' h
    rw [forN] at h
    obtain ⟨t, ht, h⟩ := Res.inv h
    by_cases he : i0 = i
    · subst he; exact hbad _ _ ht
    · exact ih (i0 := i0 + 1) (by omega) (by omega) _ h

theorem goGet_lt' {α : Type} {l : List α} {i : Nat} (h : i < l.length) : goGet l (i : Int) = .ok (l[i]'h) := by
  rw [goGet, if_neg (by omega)]
  simp [List.getElem?_eq_getElem h]

theorem goGet_inv {α : Type} {l : List α} {i : Int} {a : α} (h : goGet l i = .ok a) :
    0 ≤ i ∧ l[i.toNat]? = some a := by
  rw [goGet] at h
  split at h
  · cases h
  · split at h
    · rename_i b hb; cases h; exact ⟨by omega, hb⟩
    · cases h

theorem goGet_inv_nat {α : Type} {l : List α} {i : Nat} {a : α} (h : goGet l (i : Int) = .ok a) :
    l[i]? = some a := by
  simpa using (goGet_inv h).2

theorem goSet_lt' {α : Type} {l : List α} {i : Nat} (v : α) (h : i < l.length) :
    goSet l (i : Int) v = .ok (l.set i v) := by
  rw [goSet, if_neg (by omega)]
  simp [h]

theorem goSet_inv' {α : Type} {l l' : List α} {i : Int} {v : α} (h : goSet l i v = .ok l') :
    0 ≤ i ∧ i.toNat < l.length ∧ l' = l.set i.toNat v := by
  rw [goSet] at h
  split at h
  · cases h
  · split at h
    · cases h; exact ⟨by omega, ‹_›, rfl⟩
    · cases h

/-- The entry of a two-dimensional array, if it is there. -/
def at2 {α : Type} (m : List (List α)) (i j : Nat) : Option α := m[i]?.bind (·[j]?)

/-- An array of `h` rows of `w` entries. -/
def Shape {α : Type} (h w : Nat) (m : List (List α)) : Prop := m.length = h ∧ ∀ r ∈ m, r.length = w

theorem Shape.row {α : Type} {h w : Nat} {m : List (List α)} (hs : Shape h w m) {i : Nat} (hi : i < h) :
    ∃ r, m[i]? = some r ∧ r.length = w :=
  ⟨m[i]'(by rw [hs.1]; exact hi), List.getElem?_eq_getElem _, hs.2 _ (List.getElem_mem _)⟩

theorem Shape.at2 {α : Type} {h w : Nat} {m : List (List α)} (hs : Shape h w m) {i j : Nat} (hi : i < h) (hj : j < w) :
    ∃ a, at2 m i j = some a := by
  obtain ⟨r, hr, hl⟩ := hs.row hi
  refine ⟨r[j]'(by omega), ?_⟩
  simp [Gov1.at2, hr, List.getElem?_eq_getElem (show j < r.length by omega)]

theorem Shape.replicate {α : Type} (h w : Nat) (a : α) : Shape h w (List.replicate h (List.replicate w a)) := by
  refine ⟨by simp, ?_⟩
  intro r hr
  rw [List.mem_replicate] at hr
  rw [hr.2]; simp

theorem gget_inv {α : Type} {m : List (List α)} {i j : Int} {a : α} (h : gget m i j = .ok a) :
    0 ≤ i ∧ 0 ≤ j ∧ at2 m i.toNat j.toNat = some a := by
  obtain ⟨r, h1, h2⟩ := Res.inv h
  obtain ⟨hi, h1⟩ := goGet_inv h1
  obtain ⟨hj, h2⟩ := goGet_inv h2
  exact ⟨hi, hj, by simp [at2, h1, h2]⟩

theorem gget_at2 {α : Type} {m : List (List α)} {i j : Nat} {a : α} (h : at2 m i j = some a) :
    gget m (i : Int) (j : Int) = .ok a := by
  unfold at2 at h
  cases hr : m[i]? with
  | none => simp [hr] at h
  | some r =>
    rw [hr] at h
    have h : r[j]? = some a := h
    have e1 : goGet m (i : Int) = .ok r := by rw [goGet, if_neg (by omega)]; simp [hr]
    have e2 : goGet r (j : Int) = .ok a := by rw [goGet, if_neg (by omega)]; simp [h]
    rw [gget, e1]
    exact e2

theorem gset_inv {α : Type} {m m' : List (List α)} {i j : Int} {v : α} (h : gset m i j v = .ok m') :
    0 ≤ i ∧ 0 ≤ j ∧ (at2 m i.toNat j.toNat).isSome ∧ at2 m' i.toNat j.toNat = some v ∧
    (∀ a b, (a, b) ≠ (i.toNat, j.toNat) → at2 m' a b = at2 m a b) ∧
    (∀ H W, Shape H W m → Shape H W m') := by
  obtain ⟨r, h1, h⟩ := Res.inv h
  obtain ⟨r', h2, h⟩ := Res.inv h
  obtain ⟨hi, h1⟩ := goGet_inv h1
  obtain ⟨hj, h2', hr'⟩ := goSet_inv' h2
  subst hr'
  obtain ⟨-, h3, rfl⟩ := goSet_inv' h
  refine ⟨hi, hj, ?_, ?_, ?_, ?_⟩
  · simp [at2, h1, h2']
  · simp [at2, h3, h2']
  · intro a b hab
    unfold at2
    by_cases ha : a = i.toNat
    · subst ha
      rw [List.getElem?_set_self h3, h1]
      simp only [Option.bind_some]
      rw [List.getElem?_set_ne]
      intro hb; apply hab; rw [hb]
    · rw [List.getElem?_set_ne (fun h => ha h.symm)]
  · intro H W hs
    refine ⟨by simpa using hs.1, ?_⟩
    intro r0 hr0
    rcases List.mem_or_eq_of_mem_set hr0 with h | h
    · exact hs.2 _ h
    · subst h
      rw [List.length_set]
      exact hs.2 _ (List.mem_of_getElem? h1)

theorem gset_lt {α : Type} {m : List (List α)} {i j : Nat} (v : α) (h : (at2 m i j).isSome) :
    ∃ m', gset m (i : Int) (j : Int) v = .ok m' := by
  unfold at2 at h
  cases hr : m[i]? with
  | none => simp [hr] at h
  | some r =>
    rw [hr] at h
    simp only [Option.bind_some] at h
    have hi : i < m.length := by
      have := (List.getElem?_eq_some_iff.mp hr).1; exact this
    have hj : j < r.length := by
      rcases Nat.lt_or_ge j r.length with hc | hc
      · exact hc
      · rw [List.getElem?_eq_none hc] at h
        cases h
    have e1 : goGet m (i : Int) = .ok r := by rw [goGet, if_neg (by omega)]; simp [hr]
    refine ⟨m.set i (r.set j v), ?_⟩
    rw [gset, e1, Res.ok_bind, goSet_lt' v hj, Res.ok_bind, goSet_lt' _ hi]

/-- Full description of an in-bounds write. -/
theorem gset_ok {α : Type} {H W : Nat} {m : List (List α)} (hs : Shape H W m) {i j : Nat} (hi : i < H) (hj : j < W)
    (v : α) : ∃ m', gset m (i : Int) (j : Int) v = .ok m' ∧ Shape H W m' ∧ at2 m' i j = some v ∧
      ∀ a b, (a, b) ≠ (i, j) → at2 m' a b = at2 m a b := by
  obtain ⟨a, ha⟩ := hs.at2 hi hj
  obtain ⟨m', hm'⟩ := gset_lt (m := m) (i := i) (j := j) v (by rw [ha]; rfl)
  obtain ⟨-, -, -, h4, h5, h6⟩ := gset_inv hm'
  refine ⟨m', hm', h6 H W hs, by simpa using h4, ?_⟩
  intro a b hab
  exact h5 a b (by simpa using hab)

end Gov1
