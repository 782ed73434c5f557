import Verif.Model.UncompressedHeader
import Verif.Lemmas.Fits
/-! # Loops of reads -/
namespace Gov1

/-- The results `r` of a loop over `l` are related to its indices pointwise by `P`. -/
inductive Each {ι α : Type} (P : ι → α → Prop) : List ι → List α → Prop
  | nil : Each P [] []
  | cons {i a l r} : P i a → Each P l r → Each P (i :: l) (a :: r)

namespace Each
variable {ι α : Type} {P : ι → α → Prop}

theorem length {l : List ι} {r : List α} (h : Each P l r) : r.length = l.length := by
  induction h with
  | nil => rfl
  | cons _ _ ih => simp [ih]

theorem mem {l : List ι} {r : List α} (h : Each P l r) : ∀ a ∈ r, ∃ i ∈ l, P i a := by
  induction h with
  | nil => simp
  | cons h0 _ ih =>
    intro a ha
    rcases List.mem_cons.mp ha with rfl | ha
    · exact ⟨_, List.mem_cons_self .., h0⟩
    · obtain ⟨i, hi, hp⟩ := ih a ha
      exact ⟨i, List.mem_cons_of_mem _ hi, hp⟩

theorem get {l : List ι} {r : List α} (h : Each P l r) : ∀ (k : Nat) i a, l[k]? = some i → r[k]? = some a → P i a := by
  induction h with
  | nil => simp
  | cons h0 _ ih =>
    intro k i a hi ha
    cases k with
    | zero => simp at hi ha; subst hi ha; exact h0
    | succ k => exact ih k i a (by simpa using hi) (by simpa using ha)

theorem mono {Q : ι → α → Prop} {l : List ι} {r : List α} (h : Each P l r)
    (hq : ∀ i a, P i a → Q i a) : Each Q l r := by
  induction h with
  | nil => exact .nil
  | cons h0 _ ih => exact .cons (hq _ _ h0) ih

/-- Every list of values that has the right length is pointwise related by a relation true of all. -/
theorem of_forall {l : List ι} {r : List α} (hl : r.length = l.length)
    (h : ∀ (k : Nat) i a, l[k]? = some i → r[k]? = some a → P i a) : Each P l r := by
  induction l generalizing r with
  | nil => match r, hl with
    | [], _ => exact .nil
  | cons i l ih => match r, hl with
    | a :: r, hl =>
      refine .cons (h 0 i a rfl rfl) (ih (by simpa using hl) fun k j b hj hb => ?_)
      exact h (k + 1) j b (by simpa using hj) (by simpa using hb)

end Each

theorem Streaming.mapBM {ι α : Type} {f : ι → BM α} (h : ∀ i, Streaming (f i)) (l : List ι) :
    Streaming (Gov1.mapBM f l) := by
  induction l with
  | nil => exact Streaming.pure _
  | cons i l ih =>
    unfold Gov1.mapBM
    exact Streaming.bind (h i) fun _ => Streaming.bind ih fun _ => Streaming.pure _

theorem Ensures.mapBM {ι α : Type} {f : ι → BM α} {P : ι → α → Prop} (l : List ι)
    (h : ∀ i ∈ l, Ensures (f i) (P i)) : Ensures (Gov1.mapBM f l) (Each P l) := by
  induction l with
  | nil => exact Ensures.pure .nil
  | cons i l ih =>
    unfold Gov1.mapBM
    refine Ensures.bind (h i (List.mem_cons_self ..)) fun a ha => Ensures.bind
      (ih fun j hj => h j (List.mem_cons_of_mem _ hj)) fun r hr => Ensures.pure (.cons ha hr)

theorem Good.mapBM {ι α : Type} {f : ι → BM α} {P : ι → α → Prop} (n : Nat) (l : List ι)
    (h : ∀ i ∈ l, Good (f i) n (P i)) : Good (Gov1.mapBM f l) (l.length * n) (Each P l) := by
  induction l with
  | nil => exact Good.pure .nil _
  | cons i l ih =>
    unfold Gov1.mapBM
    refine Good.bind' n (l.length * n) (h i (List.mem_cons_self ..)) (fun a ha => ?_)
      (by rw [List.length_cons, Nat.succ_mul]; omega)
    refine Good.bind' (l.length * n) 0 (ih fun j hj => h j (List.mem_cons_of_mem _ hj))
      (fun r hr => Good.pure (.cons ha hr) _) (by omega)

/-- Round trip of a loop: reading each element back gives the list back. -/
theorem Reads.mapBM {ι α : Type} {f : ι → BM α} {enc : ι → α → List Bool} {l : List ι} {r : List α}
    (h : Each (fun i a => Reads (f i) (enc i a) a) l r) :
    Reads (Gov1.mapBM f l) ((l.zip r).flatMap fun p => enc p.1 p.2) r := by
  induction h with
  | nil => exact Reads.pure _
  | cons h0 _ ih =>
    unfold Gov1.mapBM
    refine Reads.congr (Reads.bind h0 (Reads.bindLast ih)) ?_
    simp

/-- The same when the elements are encoded without looking at the index. -/
theorem Reads.mapBM_const {ι α : Type} {f : ι → BM α} {enc : α → List Bool} {l : List ι} {r : List α}
    (hl : r.length = l.length) (h : ∀ i, ∀ a ∈ r, Reads (f i) (enc a) a) :
    Reads (Gov1.mapBM f l) (r.flatMap enc) r := by
  refine Reads.congr (Reads.mapBM (enc := fun _ => enc) (Each.of_forall hl fun k i a _ ha =>
    h i a (List.mem_of_getElem? ha))) ?_
  induction l generalizing r with
  | nil => match r, hl with
    | [], _ => rfl
  | cons i l ih => match r, hl with
    | a :: r, hl =>
      simp only [List.zip_cons_cons, List.flatMap_cons]
      rw [ih (by simpa using hl) fun j b hb => h j b (List.mem_cons_of_mem _ hb)]

theorem Reads.su {n : Nat} {v : Int} (hn : 1 ≤ n) (h1 : -(2 ^ (n - 1)) ≤ v) (h2 : v < 2 ^ (n - 1)) :
    Reads (Gov1.su n) (encSu n v) v := by
  intro s rest hs
  rw [C02_su_roundtrip n v hn h1 h2 s rest hs]
  simp [encSu]

end Gov1
