import Verif.Props.CdefFrame
import Verif.Lemmas.CoeffRoundtrip
/-! # C109: the CDEF indices of a superblock

AV1 sets the index of every 64x64 block of a superblock to -1 before the superblock is decoded; the first block that is not
skipped carries `cdef_bits` bits, which become the index of all 64x64 blocks that block covers. -/
namespace Gov1
open Spec

/-- The index at row `i`, column `j` (in 4x4 units). -/
def idxAt (s : CdefIdx) (i j : Nat) : Option Int := s.elems[i]?.bind (fun r => r.elems[j]?)

theorem cdefIdxSet_inv {s s' : CdefIdx} {i j : Nat} {v : Int} (h : cdefIdxSet s i j v = .ok s') :
    idxAt s' i j = some v ∧ (∀ a b, (a, b) ≠ (i, j) → idxAt s' a b = idxAt s a b) ∧ i < s.elems.length ∧ s'.elems.length = s.elems.length := by
  obtain ⟨row, hr, h⟩ := Res.inv h
  obtain ⟨row', hr', h⟩ := Res.inv h
  obtain ⟨e, he, hr'⟩ := Res.inv hr'
  cases hr'
  obtain ⟨e2, he2, h⟩ := Res.inv h
  cases h
  obtain ⟨-, hl, rfl⟩ := goSet_inv' he
  obtain ⟨-, hl2, rfl⟩ := goSet_inv' he2
  have hr := goGet_inv_nat hr
  rw [Int.toNat_natCast] at hl hl2
  refine ⟨?_, ?_, hl2, by simp⟩
  · simp [idxAt, hl2, hl]
  · intro a b hab
    simp only [idxAt, Int.toNat_natCast]
    by_cases ha : a = i
    · subst ha
      have hb : b ≠ j := fun e => hab (by rw [e])
      rw [List.getElem?_set_self hl2, hr]
      simp only [Option.bind_some]
      rw [List.getElem?_set_ne (fun e => hb e.symm)]
    · rw [List.getElem?_set_ne (fun e => ha e.symm)]

theorem growTo_get {α : Type} (grow : Nat → Nat) (n : Nat) (x : α) (fuel : Nat) (s : GoSlice α) {i : Nat} {a : α}
    (h : s.elems[i]? = some a) : (s.growTo grow n x fuel).elems[i]? = some a := by
  induction fuel generalizing s with
  | zero => exact h
  | succ f ih =>
    rw [GoSlice.growTo]
    split
    · refine ih _ ?_
      rw [GoSlice.append]
      rw [List.getElem?_append_left (List.getElem?_eq_some_iff.mp h).1]
      exact h
    · exact h

theorem grown_cells {grow : Nat → Nat} {r c : Nat} {s s1 : CdefIdx} {row : GoSlice Int}
    (hrow : goGet (s.growTo grow (r + 1) {} (r + 1)).elems (r : Int) = .ok row)
    (hs : (s.growTo grow (r + 1) {} (r + 1)).set (r : Int) (row.growTo grow (c + 1) 0 (c + 1)) = .ok s1)
    {a b : Nat} {v : Int} (h : idxAt s a b = some v) : idxAt s1 a b = some v := by
  obtain ⟨e, he, hs⟩ := Res.inv hs
  cases hs
  obtain ⟨-, hl, rfl⟩ := goSet_inv' he
  have hrow := goGet_inv_nat hrow
  rw [Int.toNat_natCast] at hl
  unfold idxAt at h ⊢
  cases hr : s.elems[a]? with
  | none => rw [hr] at h; cases h
  | some ra =>
    rw [hr] at h
    have h : ra.elems[b]? = some v := h
    have hg := growTo_get grow (r + 1) {} (r + 1) s hr
    by_cases har : a = r
    · subst har
      have : ra = row := by rw [hg] at hrow; exact Option.some.inj hrow
      subst this
      simp only [Int.toNat_natCast]
      rw [List.getElem?_set_self hl]
      exact growTo_get _ _ _ _ _ h
    · simp only [Int.toNat_natCast]
      rw [List.getElem?_set_ne (fun e => har e.symm), hg]
      exact h

/-- **C109, clearing** (partial: the 64x64 block at the superblock's position only, and whenever the call returns; see
`C109_clear128_refuted`, `C109_wide_refuted`).  The index at the superblock's position becomes -1; with 64x64 superblocks no other index changes. -/
theorem C109_clear_partial (grow : Nat → Nat) (r c : Nat) (s s' : CdefIdx) (size4 : Nat) (h : clearCdef grow r c false size4 s = .ok s') :
    idxAt s' r c = some (-1) ∧ ∀ a b v, (a, b) ≠ (r, c) → idxAt s a b = some v → idxAt s' a b = some v := by
  unfold clearCdef at h
  obtain ⟨row, hrow, h⟩ := Res.inv h
  obtain ⟨s1, hs1, h⟩ := Res.inv h
  obtain ⟨s2, hs2, h⟩ := Res.inv h
  simp only [Bool.false_eq_true, if_false] at h
  cases h
  obtain ⟨h1, h2, -, -⟩ := cdefIdxSet_inv hs2
  exact ⟨h1, fun a b v hab hv => by rw [h2 a b hab]; exact grown_cells hrow hs1 hv⟩

/-- **C109 is false of the code** with 128x128 superblocks: the caller passes for the size of a 64x64 block a field that
nothing assigns, zero.  Of the four indices of the superblock only the one at its position is cleared, for every
superblock; all others keep their value. -/
theorem C109_clear128_refuted (grow : Nat → Nat) (r c : Nat) (s s' : CdefIdx) (h : clearCdef grow r c true 0 s = .ok s') :
    idxAt s' r c = some (-1) ∧ ∀ a b v, (a, b) ≠ (r, c) → idxAt s a b = some v → idxAt s' a b = some v := by
  unfold clearCdef at h
  obtain ⟨row, hrow, h⟩ := Res.inv h
  obtain ⟨s1, hs1, h⟩ := Res.inv h
  obtain ⟨s2, hs2, h⟩ := Res.inv h
  simp only [if_true, Nat.add_zero] at h
  obtain ⟨s3, hs3, h⟩ := Res.inv h
  obtain ⟨s4, hs4, h⟩ := Res.inv h
  obtain ⟨h1, h2, -, -⟩ := cdefIdxSet_inv hs2
  obtain ⟨h3, h4, -, -⟩ := cdefIdxSet_inv hs3
  obtain ⟨h5, h6, -, -⟩ := cdefIdxSet_inv hs4
  obtain ⟨h7, h8, -, -⟩ := cdefIdxSet_inv h
  exact ⟨h7, fun a b v hab hv => by rw [h8 a b hab, h6 a b hab, h4 a b hab, h2 a b hab]; exact grown_cells hrow hs1 hv⟩

/-- The four 64x64 blocks of a 128x128 superblock at the origin with the indices 3, 4, 5, 6: three of them survive. -/
example : ∃ s s' : CdefIdx, clearCdef (2 * ·) 0 0 true 0 s = .ok s' ∧ idxAt s 0 16 = some 4 ∧ idxAt s' 0 0 = some (-1) ∧ idxAt s' 0 16 = some 4 := by
  refine ⟨{ elems := [{ elems := 3 :: (List.replicate 15 0 ++ [4]), cap := 32 }], cap := 1 }, _, rfl, ?_, ?_, ?_⟩ <;> decide +kernel

/-- Clearing the superblocks of a row of 64x64 superblocks in turn: columns 0, 16, 32, ... -/
def clearRow (grow : Nat → Nat) (r : Nat) : Nat → CdefIdx → Res CdefIdx
  | 0, s => .ok s
  | n + 1, s => do
    let s ← clearRow grow r n s
    clearCdef grow r (16 * n) false 0 s

/-- Clearing panics whenever the row's memory, but not its length, reaches the column: the loops compare the capacity of the slice where the index needs its length. -/
theorem clear_short (grow : Nat → Nat) (r c : Nat) (sb : Bool) (size4 : Nat) (s s' : CdefIdx) (row : GoSlice Int) (hr : r + 1 ≤ s.cap)
    (h : s.elems[r]? = some row) (hcap : c + 1 ≤ row.cap) (hlen : row.elems.length ≤ c) : clearCdef grow r c sb size4 s ≠ .ok s' := by
  intro hc
  unfold clearCdef at hc
  have e1 : s.growTo grow (r + 1) {} (r + 1) = s := by rw [GoSlice.growTo, if_neg (by omega)]
  have e2 : row.growTo grow (c + 1) 0 (c + 1) = row := by rw [GoSlice.growTo, if_neg (by omega)]
  simp only [e1] at hc
  rw [goGet_of h, Res.ok_bind, e2] at hc
  obtain ⟨s1, hs1, hc⟩ := Res.inv hc
  obtain ⟨s2, hs2, -⟩ := Res.inv hc
  obtain ⟨e, he, hs1⟩ := Res.inv hs1
  cases hs1
  obtain ⟨-, hl, rfl⟩ := goSet_inv' he
  rw [Int.toNat_natCast] at hl
  obtain ⟨row', hr', hs2⟩ := Res.inv hs2
  have hr' := goGet_inv_nat hr'
  simp only [Int.toNat_natCast] at hr'
  rw [List.getElem?_set_self hl] at hr'
  cases hr'
  obtain ⟨row2, hs2, -⟩ := Res.inv hs2
  obtain ⟨e, he, -⟩ := Res.inv hs2
  have := (goSet_inv' he).2.1
  rw [Int.toNat_natCast] at this
  omega

theorem clearRow_prefix {grow : Nat → Nat} {r n m : Nat} {s s' : CdefIdx} (h : clearRow grow r n s = .ok s') (hm : m ≤ n) :
    ∃ s'', clearRow grow r m s = .ok s'' := by
  induction n generalizing s' with
  | zero => obtain rfl : m = 0 := by omega
            exact ⟨s', h⟩
  | succ n ih =>
    by_cases hmn : m = n + 1
    · subst hmn; exact ⟨s', h⟩
    · obtain ⟨s1, h1, -⟩ := Res.inv h
      exact ih h1 (by omega)

/-- **C109 is false of the code** for wide frames.  With the runtime's growth policy (doubling), no frame of four or
more 64x64 superblocks in a row can be decoded: clearing the first row of them never returns. -/
theorem C109_wide_refuted (n : Nat) (hn : 4 ≤ n) (s' : CdefIdx) : clearRow (2 * ·) 0 n {} ≠ .ok s' := by
  intro h
  obtain ⟨s4, h4⟩ := clearRow_prefix h hn
  have h3 : ∃ s3, clearRow (2 * ·) 0 3 {} = .ok s3 ∧ s3.cap = 1 ∧ ∃ row, s3.elems[0]? = some row ∧ row.cap = 64 ∧ row.elems.length = 33 := by
    refine ⟨_, rfl, ?_, _, rfl, ?_, ?_⟩ <;> decide +kernel
  obtain ⟨s3, e, hcap, row, hrow, hrc, hrl⟩ := h3
  rw [clearRow, e, Res.ok_bind] at h4
  exact clear_short _ 0 48 false 0 s3 s4 row (by omega) hrow (by omega) (by omega) h4

/-- Three superblocks are no problem. -/
example : ∃ s', clearRow (2 * ·) 0 3 {} = .ok s' ∧ idxAt s' 0 0 = some (-1) ∧ idxAt s' 0 16 = some (-1) ∧ idxAt s' 0 32 = some (-1) := by
  refine ⟨_, rfl, ?_, ?_, ?_⟩ <;> decide +kernel

/-! ## Reading -/

theorem litLoop_says {L : Layout} (n y x : Nat) : (Rd.litLoop n y).Says L (bitsMsb n x) (y * 2 ^ n + x % 2 ^ n) := by
  induction n generalizing y with
  | zero => simp [bitsMsb, Rd.litLoop, Rd.Says, Rd.run, Nat.mod_one]
  | succ n ih =>
    rw [bitsMsb]
    refine Rd.run_bit.mpr ⟨_, _, rfl, bit_lt x n, ?_⟩
    have := ih (2 * y + x / 2 ^ n % 2)
    rw [Rd.Says] at this
    rw [this, mod_succ x n]
    congr 2
    ring

theorem lit_says {L : Layout} {n x : Nat} (hx : x < 2 ^ n) : (Rd.lit (n : Int)).Says L (bitsMsb n x) x := by
  have := litLoop_says (L := L) n 0 x
  rw [Nat.mod_eq_of_lt hx] at this
  simpa [Rd.lit] using this

theorem idxAt_get {s : CdefIdx} {i j : Nat} {v : Int} (h : idxAt s i j = some v) : cdefIdxGet s i j = .ok v := by
  unfold idxAt at h
  cases hr : s.elems[i]? with
  | none => rw [hr] at h; cases h
  | some row => rw [hr] at h; rw [cdefIdxGet, goGet_of hr, Res.ok_bind]; exact goGet_of h

theorem idxAt_set {s : CdefIdx} {i j : Nat} {v : Int} (w : Int) (h : idxAt s i j = some v) : ∃ s', cdefIdxSet s i j w = .ok s' := by
  unfold idxAt at h
  cases hr : s.elems[i]? with
  | none => rw [hr] at h; cases h
  | some row =>
    rw [hr] at h
    have l1 := (List.getElem?_eq_some_iff.mp hr).1
    have l2 := (List.getElem?_eq_some_iff.mp (show row.elems[j]? = some v from h)).1
    rw [cdefIdxSet, goGet_of hr, Res.ok_bind, GoSlice.set, goSet_lt' _ l2, Res.ok_bind]
    simp only [GoSlice.set]
    rw [show (pure { row with elems := row.elems.set j w } : Res (GoSlice Int)) = .ok { row with elems := row.elems.set j w } from rfl, Res.ok_bind, goSet_lt' _ l1]
    exact ⟨_, rfl⟩

/-- **C109, blocks that carry no index**: nothing is read and nothing changes. -/
theorem C109_unchanged (L : Layout) (bits miRow miCol miSize : Nat) (s : CdefIdx) (off : Bool)
    (h : off = true ∨ ∃ v, idxAt s (miRow / 16 * 16) (miCol / 16 * 16) = some v ∧ v ≠ -1) :
    (readCdef off bits miRow miCol miSize s).Says L [] s := by
  rcases h with rfl | ⟨v, hv, hne⟩
  · rfl
  · unfold readCdef
    split
    · rfl
    · refine Rd.Says.lift (idxAt_get hv) ?_
      rw [if_neg hne]; rfl

/-- One turn of the outer loop when the inner one runs at most once. -/
theorem readCdefOuter_one {r c w4 h4 : Nat} (hrc : c ≤ r) (hw : w4 ≤ 16) (hh : h4 ≤ 16) {s : CdefIdx} {v : Int} (hv : idxAt s r c = some v)
    (fuel : Nat) : ∃ s', readCdefOuter r c w4 h4 (fuel + 2) s r = .ok s' ∧ idxAt s' r c = some v ∧
      ∀ a b, (a, b) ≠ (r, c) → idxAt s' a b = idxAt s a b := by
  have inner : ∀ f, ∃ s' i, readCdefInner s r c w4 f r = .ok (s', i) ∧ r ≤ i ∧ idxAt s' r c = some v ∧ ∀ a b, (a, b) ≠ (r, c) → idxAt s' a b = idxAt s a b := by
    intro f
    match f with
    | 0 => exact ⟨s, r, rfl, le_refl _, hv, fun _ _ _ => rfl⟩
    | f + 1 =>
      rw [readCdefInner]
      by_cases hlt : r < c + w4
      · obtain ⟨s1, h1⟩ := idxAt_set v hv
        obtain ⟨c1, c2, -, -⟩ := cdefIdxSet_inv h1
        rw [if_pos hlt, idxAt_get hv, Res.ok_bind, h1, Res.ok_bind]
        refine ⟨s1, r + 16, ?_, by omega, c1, c2⟩
        match f with
        | 0 => rfl
        | f + 1 => rw [readCdefInner, if_neg (by omega)]
      · rw [if_neg hlt]
        exact ⟨s, r, rfl, le_refl _, hv, fun _ _ _ => rfl⟩
  rw [readCdefOuter]
  by_cases hlt : r < r + h4
  · rw [if_pos hlt]
    obtain ⟨s1, i, e, hi, c1, c2⟩ := inner (c + w4)
    rw [e, Res.ok_bind]
    refine ⟨s1, ?_, c1, c2⟩
    rw [readCdefOuter, if_neg (by omega)]
  · rw [if_neg hlt]
    exact ⟨s, rfl, hv, fun _ _ _ => rfl⟩

/-- **C109, reading** (partial: blocks of at most 64x64 on or below the diagonal of the frame, and a field `bits` that holds
`cdef_bits`, which the code never stores there; see `C109_bits_refuted`, `C109_columns_refuted`).  The first block carrying an
index reads `bits` bits, which become the index of its 64x64 block; no other index changes. -/
theorem C109_read_partial (L : Layout) (bits miRow miCol miSize w4 h4 : Nat) (s : CdefIdx) (x : Nat) (hx : x < 2 ^ bits)
    (hcell : idxAt s (miRow / 16 * 16) (miCol / 16 * 16) = some (-1)) (hdiag : miCol / 16 ≤ miRow / 16)
    (hw : num4x4Wide[miSize]? = some w4) (hh : num4x4High[miSize]? = some h4) (hw16 : w4 ≤ 16) (hh16 : h4 ≤ 16) :
    ∃ s', (readCdef false bits miRow miCol miSize s).Says L (bitsMsb bits x) s' ∧
      idxAt s' (miRow / 16 * 16) (miCol / 16 * 16) = some (x : Int) ∧
      ∀ a b, (a, b) ≠ (miRow / 16 * 16, miCol / 16 * 16) → idxAt s' a b = idxAt s a b := by
  obtain ⟨s1, h1⟩ := idxAt_set (x : Int) hcell
  obtain ⟨c1, c2, -, -⟩ := cdefIdxSet_inv h1
  have hpos : ∃ k, h4 = k + 1 := by
    have : ∀ h ∈ num4x4High, ∃ k, h = k + 1 := by
      intro h hh
      have : ∀ h ∈ num4x4High, 0 < h := by decide
      exact ⟨h - 1, by have := this h hh; omega⟩
    exact this h4 (List.mem_of_getElem? hh)
  obtain ⟨k, rfl⟩ := hpos
  obtain ⟨s2, h2, d1, d2⟩ := readCdefOuter_one (r := miRow / 16 * 16) (c := miCol / 16 * 16) (w4 := w4) (h4 := k + 1) (by omega) hw16 hh16 c1 k
  refine ⟨s2, ?_, d1, fun a b hab => by rw [d2 a b hab, c2 a b hab]⟩
  unfold readCdef
  rw [if_neg (by simp)]
  refine Rd.Says.lift (idxAt_get hcell) ?_
  rw [if_pos rfl]
  rw [← List.append_nil (bitsMsb bits x)]
  refine Rd.Says.bind (lit_says hx) ?_
  refine Rd.Says.lift h1 ?_
  refine Rd.Says.lift (goGet_of hw) ?_
  refine Rd.Says.lift (goGet_of hh) ?_
  rw [h2]; rfl

example (L : Layout) : ∃ s', (readCdef false 3 5 6 3 { elems := [{ elems := [-1], cap := 1 }], cap := 1 }).Says L [1, 0, 1] s' ∧ idxAt s' 0 0 = some 5 := by
  obtain ⟨s', h1, h2, -⟩ := C109_read_partial L 3 5 6 3 2 2 { elems := [{ elems := [-1], cap := 1 }], cap := 1 } 5 (by omega) rfl (by omega) rfl rfl (by omega) (by omega)
  exact ⟨s', h1, h2⟩

/-- The result of a program that reads nothing. -/
theorem run_lift_inv {α : Type} {L : Layout} {r : Res α} {msg rest : List Nat} {a : α} (h : (Rd.lift r).run L msg = .ok (a, rest)) :
    r = .ok a ∧ rest = msg := by
  cases r with
  | error e => cases h
  | ok b => cases h; exact ⟨rfl, rfl⟩

theorem readCdefInner_keeps {r c w4 : Nat} {v : Int} (f : Nat) {s s' : CdefIdx} {i i' : Nat} (hv : idxAt s r c = some v)
    (h : readCdefInner s r c w4 f i = .ok (s', i')) : idxAt s' r c = some v := by
  induction f generalizing s i with
  | zero => cases h; exact hv
  | succ f ih =>
    rw [readCdefInner] at h
    split at h
    · rw [idxAt_get hv, Res.ok_bind] at h
      obtain ⟨s1, h1, h⟩ := Res.inv h
      obtain ⟨c1, c2, -, -⟩ := cdefIdxSet_inv h1
      refine ih ?_ h
      by_cases hi : i = r
      · subst hi; exact c1
      · rw [c2 r c (fun e => hi (Prod.mk.inj e).1.symm)]; exact hv
    · cases h; exact hv

theorem readCdefOuter_keeps {r c w4 h4 : Nat} {v : Int} (f : Nat) {s s' : CdefIdx} {i : Nat} (hv : idxAt s r c = some v)
    (h : readCdefOuter r c w4 h4 f s i = .ok s') : idxAt s' r c = some v := by
  induction f generalizing s i with
  | zero => cases h; exact hv
  | succ f ih =>
    rw [readCdefOuter] at h
    split at h
    · obtain ⟨p, hp, h⟩ := Res.inv h
      exact ih (readCdefInner_keeps _ hv hp) h
    · cases h; exact hv

/-- **C109 is false of the code**: the bits of the frame header are not the ones `readCdef` looks at.  The field it uses
is never assigned, zero: for every block, every tile and every `cdef_bits` of the frame header, no bit is read and the index becomes 0.  Every
frame with `cdef_bits` above zero is misread from there on. -/
theorem C109_bits_refuted (L : Layout) (miRow miCol miSize : Nat) (s s' : CdefIdx) (msg rest : List Nat)
    (hcell : idxAt s (miRow / 16 * 16) (miCol / 16 * 16) = some (-1))
    (h : (readCdef false 0 miRow miCol miSize s).run L msg = .ok (s', rest)) :
    rest = msg ∧ idxAt s' (miRow / 16 * 16) (miCol / 16 * 16) = some 0 := by
  unfold readCdef at h
  rw [if_neg (by simp)] at h
  dsimp only at h
  rw [idxAt_get hcell] at h
  obtain ⟨v, m1, h1, h⟩ := Rd.run_bind.mp h
  cases h1
  rw [if_pos rfl] at h
  obtain ⟨v, m1, h1, h⟩ := Rd.run_bind.mp h
  cases h1
  obtain ⟨s1, m1, k1, g1⟩ := Rd.run_bind.mp h
  obtain ⟨h1, rfl⟩ := run_lift_inv k1
  obtain ⟨w4, m2, k2, g2⟩ := Rd.run_bind.mp g1
  obtain ⟨h2, rfl⟩ := run_lift_inv k2
  obtain ⟨h4, m3, k3, g3⟩ := Rd.run_bind.mp g2
  obtain ⟨h3, rfl⟩ := run_lift_inv k3
  obtain ⟨g4, rfl⟩ := run_lift_inv g3
  clear h g1 g2 g3
  exact ⟨rfl, readCdefOuter_keeps _ (cdefIdxSet_inv h1).1 g4⟩

example (L : Layout) : ∃ s', (readCdef false 0 5 6 3 { elems := [{ elems := [-1], cap := 1 }], cap := 1 }).run L [1, 0, 1] = .ok (s', [1, 0, 1]) :=
  ⟨_, rfl⟩

/-- **C109 is false of the code** right of the diagonal: the inner loop advances the row.  In a 64x64 block right of the first
one of its row, while the rows below have not been reached, reading an index never returns, whatever the tile holds. -/
theorem C109_columns_refuted (L : Layout) (bits miRow miCol miSize : Nat) (s : CdefIdx) (msg : List Nat)
    (hcell : idxAt s (miRow / 16 * 16) (miCol / 16 * 16) = some (-1)) (hc : miRow / 16 < miCol / 16)
    (hrows : s.elems.length ≤ miRow / 16 * 16 + 16) (s' : CdefIdx) (rest : List Nat) :
    (readCdef false bits miRow miCol miSize s).run L msg ≠ .ok (s', rest) := by
  intro h
  unfold readCdef at h
  rw [if_neg (by simp)] at h
  dsimp only at h
  rw [idxAt_get hcell] at h
  obtain ⟨v, m1, h1, h⟩ := Rd.run_bind.mp h
  cases h1
  rw [if_pos rfl] at h
  obtain ⟨v, m1, -, h⟩ := Rd.run_bind.mp h
  obtain ⟨s1, m1, k1, g1⟩ := Rd.run_bind.mp h
  obtain ⟨h1, rfl⟩ := run_lift_inv k1
  obtain ⟨w4, m2, k2, g2⟩ := Rd.run_bind.mp g1
  obtain ⟨h2, rfl⟩ := run_lift_inv k2
  obtain ⟨h4, m3, k3, g3⟩ := Rd.run_bind.mp g2
  obtain ⟨h3, rfl⟩ := run_lift_inv k3
  obtain ⟨g4, rfl⟩ := run_lift_inv g3
  clear h g1 g2 g3
  have hw : 0 < w4 := by
    have : ∀ w ∈ num4x4Wide, 0 < w := by decide
    exact this w4 (List.mem_of_getElem? (goGet_inv_nat h2))
  have hh : 0 < h4 := by
    have : ∀ w ∈ num4x4High, 0 < w := by decide
    exact this h4 (List.mem_of_getElem? (goGet_inv_nat h3))
  obtain ⟨c1, -, -, hlen⟩ := cdefIdxSet_inv h1
  rw [readCdefOuter, if_pos (by omega)] at g4
  obtain ⟨p, hp, -⟩ := Res.inv g4
  obtain ⟨k, hk⟩ : ∃ k, miCol / 16 * 16 + w4 = k + 2 := ⟨miCol / 16 * 16 + w4 - 2, by omega⟩
  rw [hk, readCdefInner, if_pos (by omega), idxAt_get c1, Res.ok_bind] at hp
  obtain ⟨s2, e2, hp⟩ := Res.inv hp
  obtain ⟨d1, -, -, hlen2⟩ := cdefIdxSet_inv e2
  rw [readCdefInner, if_pos (by omega), idxAt_get d1, Res.ok_bind] at hp
  obtain ⟨s3, e3, -⟩ := Res.inv hp
  have := (cdefIdxSet_inv e3).2.2.1
  omega

/-- The second superblock of the first row, after the code has cleared both. -/
example (L : Layout) (msg : List Nat) (s' : CdefIdx) (rest : List Nat) : ∃ s, clearRow (2 * ·) 0 2 {} = .ok s ∧
    (readCdef false 0 3 20 3 s).run L msg ≠ .ok (s', rest) := by
  refine ⟨_, rfl, ?_⟩
  exact C109_columns_refuted L 0 3 20 3 _ msg (by decide +kernel) (by omega) (by decide +kernel) s' rest

end Gov1
