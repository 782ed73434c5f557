import Verif.Lemmas.Grid
import Verif.Lemmas.Rd
/-! # Total correctness of Go calls that may panic -/
namespace Gov1

/-- The call returns, and its result satisfies `Q`. -/
def Sat {α : Type} (r : Res α) (Q : α → Prop) : Prop := ∃ a, r = .ok a ∧ Q a

theorem Sat.bind {α β : Type} {r : Res α} {f : α → Res β} {P : α → Prop} {Q : β → Prop} (h : Sat r P)
    (hf : ∀ a, P a → Sat (f a) Q) : Sat (r >>= f) Q := by
  obtain ⟨a, rfl, ha⟩ := h
  exact hf a ha

theorem Sat.pure {α : Type} {a : α} {Q : α → Prop} (h : Q a) : Sat (Pure.pure a : Res α) Q := ⟨a, rfl, h⟩
theorem Sat.ok {α : Type} {a : α} {Q : α → Prop} (h : Q a) : Sat (.ok a : Res α) Q := ⟨a, rfl, h⟩

theorem Sat.mono {α : Type} {r : Res α} {P Q : α → Prop} (h : Sat r P) (hq : ∀ a, P a → Q a) : Sat r Q := by
  obtain ⟨a, e, ha⟩ := h
  exact ⟨a, e, hq a ha⟩

theorem Sat.and {α : Type} {r : Res α} {P Q : α → Prop} (h : Sat r P) (h' : Sat r Q) : Sat r (fun a => P a ∧ Q a) := by
  obtain ⟨a, e, ha⟩ := h
  obtain ⟨b, e', hb⟩ := h'
  rw [e] at e'; cases e'
  exact ⟨a, e, ha, hb⟩

theorem Sat.lift {α : Type} {L : Layout} {r : Res α} {Q : α → Prop} (h : Sat r Q) : (Rd.lift r).Safe L Q := by
  obtain ⟨a, rfl, ha⟩ := h
  exact ha

theorem Sat.liftPost {α : Type} {L : Layout} {r : Res α} {Q : α → Prop} (h : Sat r Q) : (Rd.lift r).Post L Q := by
  obtain ⟨a, rfl, ha⟩ := h
  exact ha

/-- Reading an array in range. -/
theorem Sat.get {α : Type} {l : List α} {i : Int} {Q : α → Prop} (h0 : 0 ≤ i) (h1 : i < l.length)
    (hq : ∀ a, l[i.toNat]? = some a → Q a) : Sat (goGet l i) Q := by
  have h : i.toNat < l.length := by omega
  refine ⟨l[i.toNat], ?_, hq _ (List.getElem?_eq_getElem h)⟩
  rw [goGet, if_neg (by omega), List.getElem?_eq_getElem h]

/-- Reading a constant table in range. -/
theorem Sat.tab {α : Type} {l : List α} {i : Nat} (d : α) (h : i < l.length) : goGet l (i : Int) = .ok (l.getD i d) := by
  rw [goGet_lt' h]; simp [List.getD, List.getElem?_eq_getElem h]

theorem goGet_of {α : Type} {l : List α} {i : Nat} {a : α} (h : l[i]? = some a) : goGet l (i : Int) = .ok a := by
  rw [goGet, if_neg (by omega)]; simp [h]

theorem Sat.set {α : Type} {l : List α} {i : Int} {v : α} {Q : List α → Prop} (h0 : 0 ≤ i) (h1 : i < l.length)
    (hq : Q (l.set i.toNat v)) : Sat (goSet l i v) Q := by
  refine ⟨_, ?_, hq⟩
  rw [goSet, if_neg (by omega), if_pos (by omega)]

theorem Sat.forN {σ : Type} {f : Nat → σ → Res σ} (P : Nat → σ → Prop) {n i0 : Nat} {s : σ} {Q : σ → Prop} (h0 : P i0 s)
    (hstep : ∀ i t, i0 ≤ i → i < i0 + n → P i t → Sat (f i t) (P (i + 1)))
    (hq : ∀ s, P (i0 + n) s → Q s) : Sat (Gov1.forN f n i0 s) Q := by
  obtain ⟨s', h1, h2⟩ := forN_total P hstep h0
  exact ⟨s', h1, hq _ h2⟩

/-- Every entry of a two-dimensional array satisfies `P`. -/
def Cells {α : Type} (P : α → Prop) (m : List (List α)) : Prop := ∀ r ∈ m, ∀ v ∈ r, P v

theorem Cells.at2 {α : Type} {P : α → Prop} {m : List (List α)} (h : Cells P m) {i j : Nat} {a : α}
    (ha : at2 m i j = some a) : P a := by
  unfold Gov1.at2 at ha
  cases hr : m[i]? with
  | none => simp [hr] at ha
  | some r =>
    rw [hr] at ha
    exact h r (List.mem_of_getElem? hr) a (List.mem_of_getElem? ha)

theorem Cells.of_at2 {α : Type} {P : α → Prop} {m : List (List α)} (h : ∀ i j a, Gov1.at2 m i j = some a → P a) :
    Cells P m := by
  intro r hr v hv
  obtain ⟨i, hi⟩ := List.mem_iff_getElem?.mp hr
  obtain ⟨j, hj⟩ := List.mem_iff_getElem?.mp hv
  exact h i j v (by simp [Gov1.at2, hi, hj])

theorem Cells.replicate {α : Type} {P : α → Prop} (h w : Nat) {a : α} (ha : P a) :
    Cells P (List.replicate h (List.replicate w a)) := by
  intro r hr v hv
  rw [List.mem_replicate] at hr
  rw [hr.2, List.mem_replicate] at hv
  rw [hv.2]; exact ha

/-- Reading a two-dimensional array in range. -/
theorem Sat.gget {α : Type} {H W : Nat} {m : List (List α)} {P Q : α → Prop} (hs : Shape H W m) (hc : Cells P m)
    {i j : Int} (hi : 0 ≤ i ∧ i < H) (hj : 0 ≤ j ∧ j < W) (hq : ∀ a, P a → Q a) : Sat (Gov1.gget m i j) Q := by
  obtain ⟨a, ha⟩ := hs.at2 (i := i.toNat) (j := j.toNat) (by omega) (by omega)
  refine ⟨a, ?_, hq a (hc.at2 ha)⟩
  have := gget_at2 ha
  rwa [Int.toNat_of_nonneg hi.1, Int.toNat_of_nonneg hj.1] at this

/-- Writing a two-dimensional array in range. -/
theorem Sat.gset {α : Type} {H W : Nat} {m : List (List α)} {P : α → Prop} (hs : Shape H W m) (hc : Cells P m)
    {i j : Int} (hi : 0 ≤ i ∧ i < H) (hj : 0 ≤ j ∧ j < W) {v : α} (hv : P v) {Q : List (List α) → Prop}
    (hq : ∀ m', Shape H W m' → Cells P m' → at2 m' i.toNat j.toNat = some v →
      (∀ a b, (a, b) ≠ (i.toNat, j.toNat) → at2 m' a b = at2 m a b) → Q m') : Sat (Gov1.gset m i j v) Q := by
  obtain ⟨m', h1, h2, h3, h4⟩ := gset_ok hs (i := i.toNat) (j := j.toNat) (by omega) (by omega) v
  rw [Int.toNat_of_nonneg hi.1, Int.toNat_of_nonneg hj.1] at h1
  refine ⟨m', h1, hq m' h2 ?_ h3 h4⟩
  apply Cells.of_at2
  intro a b x hx
  by_cases hab : (a, b) = (i.toNat, j.toNat)
  · simp only [Prod.mk.injEq] at hab
    obtain ⟨rfl, rfl⟩ := hab
    rw [h3] at hx; cases hx; exact hv
  · rw [h4 a b hab] at hx; exact hc.at2 hx

/-- A row of a two-dimensional array. -/
theorem Sat.row {α : Type} {H W : Nat} {m : List (List α)} {P : α → Prop} (hs : Shape H W m) (hc : Cells P m)
    {i : Int} (hi : 0 ≤ i ∧ i < H) {Q : List α → Prop} (hq : ∀ r, r.length = W → (∀ v ∈ r, P v) → Q r) :
    Sat (goGet m i) Q := by
  refine Sat.get hi.1 (by rw [hs.1]; exact hi.2) (fun a ha => ?_)
  have := List.mem_of_getElem? ha
  exact hq a (hs.2 a this) (hc a this)

theorem Sat.getMem {α : Type} {l : List α} {i : Int} {P Q : α → Prop} (h0 : 0 ≤ i) (h1 : i < l.length)
    (hp : ∀ v ∈ l, P v) (hq : ∀ a, P a → Q a) : Sat (goGet l i) Q :=
  Sat.get h0 h1 (fun a ha => hq a (hp a (List.mem_of_getElem? ha)))

end Gov1
