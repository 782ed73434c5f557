import Verif.Model.Partition
import Verif.Props.TileGroup
import Mathlib.Tactic.SplitIfs
/-! # C46, C84: the partition recursion -/
namespace Gov1

/-- The 4x4 unit `(y, x)` lies in the `w` x `h` rectangle at `(r, c)`. -/
def inRect (r c h w y x : Nat) : Bool := decide (r ≤ y ∧ y < r + h ∧ c ≤ x ∧ x < c + w)

/-- Width and height in 4x4 units of a block size, from its name (`BLOCK_4X4`, `BLOCK_4X8`, ...). -/
def blockDims : Nat → Nat × Nat
  | 0 => (1, 1) | 1 => (1, 2) | 2 => (2, 1) | 3 => (2, 2) | 4 => (2, 4) | 5 => (4, 2) | 6 => (4, 4)
  | 7 => (4, 8) | 8 => (8, 4) | 9 => (8, 8) | 10 => (8, 16) | 11 => (16, 8) | 12 => (16, 16)
  | 13 => (16, 32) | 14 => (32, 16) | 15 => (32, 32) | 16 => (1, 4) | 17 => (4, 1) | 18 => (2, 8)
  | 19 => (8, 2) | 20 => (4, 16) | 21 => (16, 4) | _ => (0, 0)

/-- The event decodes a block that contains the unit `(y, x)`. -/
def Ev.covers (y x : Nat) : Ev → Bool
  | .part .. => false
  | .block r c size => inRect r c (blockDims size).2 (blockDims size).1 y x

/-- How often the unit `(y, x)` is decoded. -/
def timesDecoded (es : List Ev) (y x : Nat) : Nat := es.countP (Ev.covers y x)

/-- The square block sizes the recursion is called with: 4x4, 8x8, ..., 128x128. -/
def IsSquare (b : Nat) : Prop := b = 0 ∨ b = 3 ∨ b = 6 ∨ b = 9 ∨ b = 12 ∨ b = 15

/-- A partition type the code lays out like AV1 does: all but `HORZ`, `HORZ_A`, `VERT_B`, and `VERT_4`
unless the (wrong) comparison with the frame height happens to agree with the one with the width. -/
def SoundPart (miRows miCols : Nat) : Ev → Prop
  | .block .. => True
  | .part b _ c p => p ≠ 1 ∧ p ≠ 4 ∧ p ≠ 7 ∧ (p = 9 → 
      (c + 3 * ((blockDims b).1 / 4) < miRows ↔ c + 3 * ((blockDims b).1 / 4) < miCols))

/-- What a partition symbol can be: below 10, below 4 for an 8x8 block, below 8 for a 128x128 block
(the sizes of the partition CDFs). -/
def PartRange {σ : Type} (ops : PartOps σ) : Prop :=
  ∀ b r c x s p x' s', ops.readPart b r c x s = .ok ((p, x'), s') →
    p < 10 ∧ (b = 3 → p < 4) ∧ (b = 15 → p < 8)

theorem timesDecoded_append (a b : List Ev) (y x : Nat) :
    timesDecoded (a ++ b) y x = timesDecoded a y x + timesDecoded b y x := List.countP_append

theorem timesDecoded_part (b r c p : Nat) (es : List Ev) (y x : Nat) :
    timesDecoded (.part b r c p :: es) y x = timesDecoded es y x := by
  simp [timesDecoded, Ev.covers]

theorem timesDecoded_block (r c size y x : Nat) :
    timesDecoded [.block r c size] y x
      = if inRect r c (blockDims size).2 (blockDims size).1 y x then 1 else 0 := by
  rw [timesDecoded, List.countP_singleton]
  rfl

theorem seqB_nil {σ : Type} {x x' : σ} {es : List Ev} {s s' : BitStream}
    (h : seqB [] x s = .ok ((x', es), s')) : es = [] := by cases h; rfl

theorem seqB_cons {σ : Type} {f : σ → BM (σ × List Ev)} {fs : List (σ → BM (σ × List Ev))} {x x' : σ}
    {es : List Ev} {s s' : BitStream} (h : seqB (f :: fs) x s = .ok ((x', es), s')) :
    ∃ x1 s1 e es', f x s = .ok ((x1, e), s1) ∧ seqB fs x1 s1 = .ok ((x', es'), s') ∧ es = e ++ es' := by
  rw [seqB] at h
  obtain ⟨⟨x1, e⟩, s1, h1, h⟩ := BM.bind_eq_ok.mp h
  obtain ⟨⟨x2, es'⟩, s2, h2, h⟩ := BM.bind_eq_ok.mp h
  cases h
  exact ⟨x1, s1, e, es', h1, h2, rfl⟩

theorem blockEv_ok {σ : Type} {ops : PartOps σ} {r c size : Nat} {x x' : σ} {es : List Ev}
    {s s' : BitStream} (h : blockEv ops r c size x s = .ok ((x', es), s')) : es = [.block r c size] := by
  rw [blockEv] at h
  obtain ⟨x1, s1, h1, h⟩ := BM.bind_eq_ok.mp h
  cases h
  rfl

/-- A sequence of blocks yields exactly these block events. -/
theorem seqB_blocks {σ : Type} {ops : PartOps σ} : ∀ (l : List (Nat × Nat × Nat)) (x x' : σ)
    (es : List Ev) (s s' : BitStream),
    seqB (l.map fun q => blockEv ops q.1 q.2.1 q.2.2) x s = .ok ((x', es), s') →
    es = l.map fun q => .block q.1 q.2.1 q.2.2 := by
  intro l
  induction l with
  | nil => intro x x' es s s' h; exact seqB_nil h
  | cons q l ih =>
    intro x x' es s s' h
    obtain ⟨x1, s1, e, es', h1, h2, rfl⟩ := seqB_cons h
    rw [blockEv_ok h1, ih _ _ _ _ _ h2]
    rfl

theorem splitOrCdf_fails (cdf : List Int) (idx : List Int) (r : List Int) : splitOrCdf cdf idx ≠ .ok r := by
  intro h
  rw [splitOrCdf] at h
  cases hp : psum cdf idx with
  | error e => rw [hp] at h; cases h
  | ok p =>
    rw [hp] at h
    simp [bind, Except.bind, goSet] at h

/-- How the partition is chosen, whenever the choice returns. -/
theorem choosePart_ok {σ : Type} {ops : PartOps σ} {b r c : Nat} {hasRows hasCols : Bool} {x x' : σ}
    {p : Nat} {s s' : BitStream} (h : choosePart ops b r c hasRows hasCols x s = .ok ((p, x'), s')) :
    (b < 3 ∧ p = 0) ∨
    (3 ≤ b ∧ hasRows = true ∧ hasCols = true ∧ ops.readPart b r c x s = .ok ((p, x'), s')) ∨
    (3 ≤ b ∧ hasRows = false ∧ hasCols = false ∧ p = 3) := by
  rw [choosePart] at h
  split at h
  · cases h; left; exact ⟨by assumption, rfl⟩
  split at h
  · rename_i h1 h2
    right; left; exact ⟨by omega, h2.1, h2.2, h⟩
  split at h
  · obtain ⟨cdf, s1, h1, h⟩ := BM.bind_eq_ok.mp h
    obtain ⟨cdf', s2, h2, h⟩ := BM.bind_eq_ok.mp h
    exact absurd (BM.lift_inv h2).1 (splitOrCdf_fails _ _ _)
  split at h
  · obtain ⟨cdf, s1, h1, h⟩ := BM.bind_eq_ok.mp h
    obtain ⟨cdf', s2, h2, h⟩ := BM.bind_eq_ok.mp h
    exact absurd (BM.lift_inv h2).1 (splitOrCdf_fails _ _ _)
  · cases h
    rename_i h1 h2 h3 h4
    right; right
    refine ⟨by omega, ?_, ?_, rfl⟩
    · simpa using h4
    · simpa using h3

/-- Inversion of one level of the recursion. -/
theorem decodePartition_ok {σ : Type} {ops : PartOps σ} {miRows miCols fuel r c b : Nat} {x x' : σ}
    {es : List Ev} {s s' : BitStream} (hb : IsSquare b) (hr : r < miRows) (hc : c < miCols)
    (h : decodePartition ops miRows miCols (fuel + 1) r c b x s = .ok ((x', es), s')) :
    let half := (blockDims b).1 / 2
    ∃ p x1 s1 es' row, choosePart ops b r c (decide (r + half < miRows)) (decide (c + half < miCols)) x s
        = .ok ((p, x1), s1) ∧ partitionSubsize[p]? = some row ∧ es = .part b r c p :: es' ∧
      seqB (partSteps ops (decodePartition ops miRows miCols fuel) miRows p r c half (half / 2)
        (row.getD b 0) ((partitionSubsize.getD 3 []).getD b 0) (decide (r + half < miRows))
        (decide (c + half < miCols))) x1 s1 = .ok ((x', es'), s') := by
  intro half
  rw [decodePartition, if_neg (by omega)] at h
  have hnum : goGet num4x4Wide b = .ok (blockDims b).1 := by
    rcases hb with rfl | rfl | rfl | rfl | rfl | rfl <;> rfl
  rw [hnum] at h
  simp only [BM.lift_ok, BM.pure_bind] at h
  have e1 : (blockDims b).1 >>> 1 = half := by simp [half, Nat.shiftRight_eq_div_pow]
  have e2 : half >>> 1 = half / 2 := by simp [Nat.shiftRight_eq_div_pow]
  rw [e1, e2] at h
  obtain ⟨⟨p, x1⟩, s1, h1, h⟩ := BM.bind_eq_ok.mp h
  dsimp only at h
  obtain ⟨row, s2, h2, h⟩ := BM.bind_eq_ok.mp h
  obtain ⟨sub, s3, h3, h⟩ := BM.bind_eq_ok.mp h
  obtain ⟨row3, s4, h4, h⟩ := BM.bind_eq_ok.mp h
  obtain ⟨split, s5, h5, h⟩ := BM.bind_eq_ok.mp h
  obtain ⟨⟨x2, es'⟩, s6, h6, h⟩ := BM.bind_eq_ok.mp h
  cases h
  obtain ⟨h2', rfl⟩ := BM.lift_inv h2
  obtain ⟨h3', rfl⟩ := BM.lift_inv h3
  obtain ⟨h4', rfl⟩ := BM.lift_inv h4
  obtain ⟨h5', rfl⟩ := BM.lift_inv h5
  have g2 := goGet_ok h2'
  have g3 := goGet_ok h3'
  have g4 := goGet_ok (i := 3) (by exact_mod_cast h4')
  have g5 := goGet_ok h5'
  refine ⟨p, x1, _, es', row, h1, g2, rfl, ?_⟩
  have hs : row.getD b 0 = sub := by simp [List.getD, g3]
  have hs3 : (partitionSubsize.getD 3 []).getD b 0 = split := by simp [List.getD, g4, g5]
  rw [hs, hs3]
  exact h6

/-- Sub-block dimensions according to the tables, for the square sizes that can be split. -/
theorem subDims {b : Nat} (hb : IsSquare b) (h3 : 3 ≤ b) :
    let n := (blockDims b).1
    n = 2 * (n / 2) ∧ (blockDims b).2 = n ∧
    blockDims ((partitionSubsize.getD 0 []).getD b 0) = (n, n) ∧
    blockDims ((partitionSubsize.getD 1 []).getD b 0) = (n, n / 2) ∧
    blockDims ((partitionSubsize.getD 2 []).getD b 0) = (n / 2, n) ∧
    blockDims ((partitionSubsize.getD 3 []).getD b 0) = (n / 2, n / 2) ∧
    IsSquare ((partitionSubsize.getD 3 []).getD b 0) ∧ (partitionSubsize.getD 3 []).getD b 0 + 3 = b ∧
    blockDims ((partitionSubsize.getD 4 []).getD b 0) = (n, n / 2) ∧
    blockDims ((partitionSubsize.getD 5 []).getD b 0) = (n, n / 2) ∧
    blockDims ((partitionSubsize.getD 6 []).getD b 0) = (n / 2, n) ∧
    blockDims ((partitionSubsize.getD 7 []).getD b 0) = (n / 2, n) ∧
    (b ≠ 3 → b ≠ 15 → n = 4 * (n / 4) ∧
      blockDims ((partitionSubsize.getD 8 []).getD b 0) = (n, n / 4) ∧
      blockDims ((partitionSubsize.getD 9 []).getD b 0) = (n / 4, n)) := by
  rcases hb with rfl | rfl | rfl | rfl | rfl | rfl
  · omega
  all_goals (unfold IsSquare; decide)

/-- Where each partition type puts its blocks, whenever it is not a split. -/
def layout (miRows p r c half quarter sub split : Nat) (hasRows hasCols : Bool) : List (Nat × Nat × Nat) :=
  if p = 0 then [(r, c, sub)]
  else if p = 1 then [(r + half, c, sub)] ++ (if hasRows then [(r + half, c, sub)] else [])
  else if p = 2 then [(r, c, sub)] ++ (if hasCols then [(r, c + half, sub)] else [])
  else if p = 4 then [(r, c, split), (r, c + half, split), (r + half, c, split)]
  else if p = 5 then [(r, c, sub), (r + half, c, split), (r + half, c + half, split)]
  else if p = 6 then [(r, c, split), (r + half, c, split), (r, c + half, sub)]
  else if p = 7 then [(r, c, sub), (r, c + half, split), (r + half, c + half, sub)]
  else if p = 8 then
    [(r + quarter * 0, c, sub), (r + quarter * 1, c, sub), (r + quarter * 2, c, sub)] ++
      (if r + quarter * 3 < miRows then [(r + quarter * 3, c, sub)] else [])
  else
    [(r, c + quarter * 0, sub), (r, c + quarter * 1, sub), (r, c + quarter * 2, sub)] ++
      (if c + quarter * 3 < miRows then [(r, c + quarter * 3, sub)] else [])

theorem partSteps_layout {σ : Type} (ops : PartOps σ) (rec : Nat → Nat → Nat → σ → BM (σ × List Ev))
    (miRows p r c half quarter sub split : Nat) (hasRows hasCols : Bool) (hp : p ≠ 3) :
    partSteps ops rec miRows p r c half quarter sub split hasRows hasCols
      = (layout miRows p r c half quarter sub split hasRows hasCols).map
          fun q => blockEv ops q.1 q.2.1 q.2.2 := by
  rcases (show p = 0 ∨ p = 1 ∨ p = 2 ∨ p = 4 ∨ p = 5 ∨ p = 6 ∨ p = 7 ∨ p = 8 ∨ 9 ≤ p by omega) with
    h | h | h | h | h | h | h | h | h
  · subst h; rfl
  · subst h; cases hasRows <;> rfl
  · subst h; cases hasCols <;> rfl
  · subst h; rfl
  · subst h; rfl
  · subst h; rfl
  · subst h; rfl
  · subst h
    by_cases hl : r + quarter * 3 < miRows <;> simp [partSteps, layout, hl]
  · have e0 : p ≠ 0 := by omega
    have e1 : p ≠ 1 := by omega
    have e2 : p ≠ 2 := by omega
    have e4 : p ≠ 4 := by omega
    have e5 : p ≠ 5 := by omega
    have e6 : p ≠ 6 := by omega
    have e7 : p ≠ 7 := by omega
    have e8 : p ≠ 8 := by omega
    by_cases hl : c + quarter * 3 < miRows <;>
      simp [partSteps, layout, hl, e0, e1, e2, hp, e4, e5, e6, e7, e8]

/-- How often the blocks of a layout cover a unit. -/
theorem timesDecoded_layout (l : List (Nat × Nat × Nat)) (y x : Nat) :
    timesDecoded (l.map fun q => Ev.block q.1 q.2.1 q.2.2) y x
      = (l.map fun q => if inRect q.1 q.2.1 (blockDims q.2.2).2 (blockDims q.2.2).1 y x then 1 else 0).sum := by
  induction l with
  | nil => rfl
  | cons q l ih =>
    simp only [List.map_cons, List.sum_cons]
    rw [← ih, ← timesDecoded_block, ← timesDecoded_append]
    rfl

theorem cover_layout {miRows miCols b r c p y z : Nat} (hb : IsSquare b) (h3 : 3 ≤ b) (hp10 : p < 10)
    (hp3 : p ≠ 3) (h8 : b = 3 → p < 4) (h15 : b = 15 → p < 8)
    (hs : SoundPart miRows miCols (.part b r c p)) (row : List Nat) (hrow : partitionSubsize[p]? = some row)
    (hr : r + (blockDims b).1 / 2 < miRows) (hc : c + (blockDims b).1 / 2 < miCols) :
    let n := (blockDims b).1
    let k := timesDecoded ((layout miRows p r c (n / 2) (n / 2 / 2) (row.getD b 0)
      ((partitionSubsize.getD 3 []).getD b 0) (decide (r + n / 2 < miRows))
      (decide (c + n / 2 < miCols))).map fun q => Ev.block q.1 q.2.1 q.2.2) y z
    (inRect r c n n y z = false → k = 0) ∧ (inRect r c n n y z = true → y < miRows → z < miCols → k = 1) := by
  have hrow' : row = partitionSubsize.getD p [] := by simp [List.getD, hrow]
  obtain ⟨t1, t2, d0, d1, d2, d3, -, -, d4, d5, d6, d7, d89⟩ := subDims hb h3
  simp only [SoundPart] at hs
  intro n k
  simp only [k]
  rw [timesDecoded_layout, hrow']
  have hp : p = 0 ∨ p = 2 ∨ p = 5 ∨ p = 6 ∨ p = 8 ∨ p = 9 := by omega
  have hq : n / 2 / 2 = n / 4 := by omega
  rw [hq]
  change r + n / 2 < miRows at hr
  change c + n / 2 < miCols at hc
  rcases hp with rfl | rfl | rfl | rfl | rfl | rfl
  · simp only [layout, if_true, List.map_cons, List.map_nil, List.sum_cons, List.sum_nil, d0, inRect,
      decide_eq_true_eq, decide_eq_false_iff_not]
    change (_ → (if r ≤ y ∧ y < r + n ∧ c ≤ z ∧ z < c + n then 1 else 0) + 0 = 0) ∧
      (_ → _ → _ → (if r ≤ y ∧ y < r + n ∧ c ≤ z ∧ z < c + n then 1 else 0) + 0 = 1)
    constructor <;> intro h <;> simp [h]
  · simp only [layout, List.map_cons, List.map_nil, List.sum_cons, List.sum_nil, d2, inRect,
      decide_eq_true_eq, decide_eq_false_iff_not, hc, hr, decide_true, if_true, List.cons_append, List.nil_append,
      show ¬ (2 = 0) by omega, show ¬ (2 = 1) by omega, if_false]
    change _ = 2 * (n / 2) at t1
    constructor <;> intro h <;> (try intro hy hz) <;> split_ifs <;> omega
  · simp only [layout, List.map_cons, List.map_nil, List.sum_cons, List.sum_nil, d5, d3, inRect,
      decide_eq_true_eq, decide_eq_false_iff_not, if_true, 
      show ¬ (5 = 0) by omega, show ¬ (5 = 1) by omega, show ¬ (5 = 2) by omega, show ¬ (5 = 4) by omega, if_false]
    change _ = 2 * (n / 2) at t1
    constructor <;> intro h <;> (try intro hy hz) <;> split_ifs <;> omega
  · simp only [layout, List.map_cons, List.map_nil, List.sum_cons, List.sum_nil, d6, d3, inRect,
      decide_eq_true_eq, decide_eq_false_iff_not, if_true, 
      show ¬ (6 = 0) by omega, show ¬ (6 = 1) by omega, show ¬ (6 = 2) by omega, show ¬ (6 = 4) by omega,
      show ¬ (6 = 5) by omega, if_false]
    change _ = 2 * (n / 2) at t1
    constructor <;> intro h <;> (try intro hy hz) <;> split_ifs <;> omega
  · obtain ⟨t4, d8, -⟩ := d89 (by omega) (by omega)
    change _ = 4 * (n / 4) at t4
    simp only [layout, List.map_cons, List.map_nil, List.sum_cons, List.sum_nil, d8, inRect,
      decide_eq_true_eq, decide_eq_false_iff_not, if_true, List.map_append, List.sum_append,
      show ¬ (8 = 0) by omega, show ¬ (8 = 1) by omega, show ¬ (8 = 2) by omega, show ¬ (8 = 4) by omega,
      show ¬ (8 = 5) by omega, show ¬ (8 = 6) by omega, show ¬ (8 = 7) by omega, if_false]
    by_cases hlast : r + n / 4 * 3 < miRows
    · rw [if_pos hlast]
      simp only [List.map_cons, List.map_nil, List.sum_cons, List.sum_nil, d8, decide_eq_true_eq]
      constructor <;> intro h <;> (try intro hy hz) <;> split_ifs <;> omega
    · rw [if_neg hlast]
      simp only [List.map_nil, List.sum_nil]
      constructor <;> intro h <;> (try intro hy hz) <;> split_ifs <;> omega
  · obtain ⟨t4, -, d9⟩ := d89 (by omega) (by omega)
    have hagree := hs.2.2.2 rfl
    change _ = 4 * (n / 4) at t4
    change c + 3 * (n / 4) < miRows ↔ c + 3 * (n / 4) < miCols at hagree
    simp only [layout, List.map_cons, List.map_nil, List.sum_cons, List.sum_nil, d9, inRect,
      decide_eq_true_eq, decide_eq_false_iff_not, if_true, List.map_append, List.sum_append,
      show ¬ (9 = 0) by omega, show ¬ (9 = 1) by omega, show ¬ (9 = 2) by omega, show ¬ (9 = 4) by omega,
      show ¬ (9 = 5) by omega, show ¬ (9 = 6) by omega, show ¬ (9 = 7) by omega, show ¬ (9 = 8) by omega, if_false]
    by_cases hlast : c + n / 4 * 3 < miRows
    · rw [if_pos hlast]
      simp only [List.map_cons, List.map_nil, List.sum_cons, List.sum_nil, d9, decide_eq_true_eq]
      constructor <;> intro h <;> (try intro hy hz) <;> split_ifs <;> omega
    · rw [if_neg hlast]
      simp only [List.map_nil, List.sum_nil]
      constructor <;> intro h <;> (try intro hy hz) <;> split_ifs <;> omega


theorem decodePartition_outside {σ : Type} {ops : PartOps σ} {miRows miCols fuel r c b : Nat} {x x' : σ}
    {es : List Ev} {s s' : BitStream} (hrc : r ≥ miRows ∨ c ≥ miCols)
    (h : decodePartition ops miRows miCols (fuel + 1) r c b x s = .ok ((x', es), s')) : es = [] := by
  rw [decodePartition, if_pos hrc] at h
  cases h
  rfl

/-- The four recursive calls of a split. -/
theorem cover_split {σ : Type} {ops : PartOps σ} {rec : Nat → Nat → Nat → σ → BM (σ × List Ev)}
    {miRows miCols b r c y z : Nat} {x1 x' : σ} {es' : List Ev} {s1 s' : BitStream} {row : List Nat}
    {hasRows hasCols : Bool}
    (hb : IsSquare b) (h3 : 3 ≤ b) (hrow : partitionSubsize[3]? = some row)
    (ih : ∀ r' c' x x' es s s', rec r' c' ((partitionSubsize.getD 3 []).getD b 0) x s = .ok ((x', es), s') →
      (∀ e ∈ es, SoundPart miRows miCols e) →
      let n := (blockDims ((partitionSubsize.getD 3 []).getD b 0)).1
      (inRect r' c' n n y z = false → timesDecoded es y z = 0) ∧
      (inRect r' c' n n y z = true → y < miRows → z < miCols → timesDecoded es y z = 1))
    (hseq : seqB (partSteps ops rec miRows 3 r c ((blockDims b).1 / 2) ((blockDims b).1 / 2 / 2)
        (row.getD b 0) ((partitionSubsize.getD 3 []).getD b 0) hasRows hasCols) x1 s1 = .ok ((x', es'), s'))
    (hs : ∀ e ∈ es', SoundPart miRows miCols e) :
    let n := (blockDims b).1
    (inRect r c n n y z = false → timesDecoded es' y z = 0) ∧
    (inRect r c n n y z = true → y < miRows → z < miCols → timesDecoded es' y z = 1) := by
  obtain ⟨t1, -, -, -, -, d3, -⟩ := subDims hb h3
  have hrow' : row.getD b 0 = (partitionSubsize.getD 3 []).getD b 0 := by simp [List.getD, hrow]
  rw [hrow'] at hseq
  rw [d3] at ih
  dsimp only at ih
  intro n
  change n = _ at t1
  change seqB (partSteps ops rec miRows 3 r c (n / 2) (n / 2 / 2) _ _ hasRows hasCols) x1 s1 = _ at hseq
  change ∀ r' c' x x' es s s', _ → _ → (inRect r' c' (n / 2) (n / 2) y z = false → timesDecoded es y z = 0) ∧
      (inRect r' c' (n / 2) (n / 2) y z = true → y < miRows → z < miCols → timesDecoded es y z = 1) at ih
  generalize n / 2 = hf at *
  rw [t1]
  obtain ⟨x2, s2, e1, es2, h1, q2, rfl⟩ := seqB_cons hseq
  obtain ⟨x3, s3, e2, es3, h2, q3, rfl⟩ := seqB_cons q2
  obtain ⟨x4, s4, e3, es4, h3, q4, rfl⟩ := seqB_cons q3
  obtain ⟨x5, s5, e4, es5, h4, q5, rfl⟩ := seqB_cons q4
  rw [seqB_nil q5] at hs ⊢
  have k1 := ih _ _ _ _ _ _ _ h1 (fun e he => hs e (by simp [he]))
  have k2 := ih _ _ _ _ _ _ _ h2 (fun e he => hs e (by simp [he]))
  have k3 := ih _ _ _ _ _ _ _ h3 (fun e he => hs e (by simp [he]))
  have k4 := ih _ _ _ _ _ _ _ h4 (fun e he => hs e (by simp [he]))
  simp only [timesDecoded_append, inRect, decide_eq_true_eq, decide_eq_false_iff_not] at k1 k2 k3 k4 ⊢
  have e0 : timesDecoded [] y z = 0 := rfl
  rw [e0]
  refine ⟨fun hout => ?_, fun hin hy hz => ?_⟩
  · rw [k1.1 (by omega), k2.1 (by omega), k3.1 (by omega), k4.1 (by omega)]
  · by_cases hy' : y < r + hf <;> by_cases hz' : z < c + hf
    · rw [k1.2 (by omega) hy hz, k2.1 (by omega), k3.1 (by omega), k4.1 (by omega)]
    · rw [k1.1 (by omega), k2.2 (by omega) hy hz, k3.1 (by omega), k4.1 (by omega)]
    · rw [k1.1 (by omega), k2.1 (by omega), k3.2 (by omega) hy hz, k4.1 (by omega)]
    · rw [k1.1 (by omega), k2.1 (by omega), k3.1 (by omega), k4.2 (by omega) hy hz]

/-- **C46.**  Whenever decoding the square block of size `b` at `(r, c)` returns, and each partition it
reads is one the code lays out like AV1 does (`SoundPart`), then no 4x4 unit outside the square is
decoded, and each one that is inside the square and the frame is decoded exactly once.  Missing: the
partition types excluded by `SoundPart`, for which the property is false (`C46_horz_refuted` and
following). -/
theorem C46_partition_cover_partial {σ : Type} {ops : PartOps σ} {miRows miCols : Nat} (hops : PartRange ops)
    (fuel r c b : Nat) (x x' : σ) (es : List Ev) (s s' : BitStream) (hb : IsSquare b)
    (h : decodePartition ops miRows miCols fuel r c b x s = .ok ((x', es), s'))
    (hs : ∀ e ∈ es, SoundPart miRows miCols e) (y z : Nat) :
    let n := (blockDims b).1
    (inRect r c n n y z = false → timesDecoded es y z = 0) ∧
    (inRect r c n n y z = true → y < miRows → z < miCols → timesDecoded es y z = 1) := by
  induction fuel generalizing r c b x x' es s s' with
  | zero => cases h
  | succ fuel ih =>
    intro n
    by_cases hrc : r ≥ miRows ∨ c ≥ miCols
    · rw [decodePartition_outside hrc h]
      refine ⟨fun _ => rfl, fun hin hy hz => ?_⟩
      simp only [inRect, decide_eq_true_eq] at hin
      omega
    obtain ⟨p, x1, s1, es', row, hch, hrow, rfl, hseq⟩ :=
      decodePartition_ok hb (by omega) (by omega) h
    rw [timesDecoded_part]
    have hs' : ∀ e ∈ es', SoundPart miRows miCols e := fun e he => hs e (List.mem_cons_of_mem _ he)
    have hsp := hs _ (List.mem_cons_self ..)
    rcases choosePart_ok hch with ⟨hlt, rfl⟩ | ⟨hge, hR, hC, hread⟩ | ⟨hge, hR, hC, rfl⟩
    · -- 4x4
      have hb0 : b = 0 := by rcases hb with h | h | h | h | h | h <;> omega
      subst hb0
      cases hrow
      obtain ⟨x2, s2, e, es2, h1, h2, rfl⟩ := seqB_cons hseq
      rw [blockEv_ok h1, seqB_nil h2, List.append_nil, timesDecoded_block]
      change (inRect r c 1 1 y z = false → (if inRect r c 1 1 y z = true then 1 else 0) = 0) ∧
        (inRect r c 1 1 y z = true → _ → _ → (if inRect r c 1 1 y z = true then 1 else 0) = 1)
      constructor <;> intro h <;> simp [h]
    · -- a partition was read
      obtain ⟨hp10, hp8, hp128⟩ := hops _ _ _ _ _ _ _ _ hread
      by_cases hp3 : p = 3
      · subst hp3
        exact cover_split hb hge hrow (fun r' c' x x' es s s' h hs => ih r' c' _ x x' es s s'
          (subDims hb hge).2.2.2.2.2.2.1 h hs) hseq hs'
      · rw [partSteps_layout _ _ _ _ _ _ _ _ _ _ _ _ hp3] at hseq
        rw [seqB_blocks _ _ _ _ _ _ hseq]
        exact cover_layout hb hge hp10 hp3 hp8 hp128 hsp row hrow (by simpa using hR) (by simpa using hC)
    · exact cover_split hb hge hrow (fun r' c' x x' es s s' h hs => ih r' c' _ x x' es s s'
          (subDims hb hge).2.2.2.2.2.2.1 h hs) hseq hs'

/-- The partition actually used at the top level of a call, and the blocks that follow. -/
theorem decodePartition_top {σ : Type} {ops : PartOps σ} {miRows miCols fuel r c b p : Nat} {x x' : σ}
    {es : List Ev} {s s' : BitStream} (hb : IsSquare b)
    (h : decodePartition ops miRows miCols (fuel + 1) r c b x s = .ok ((x', .part b r c p :: es), s'))
    (hp0 : p ≠ 0) (hp3 : p ≠ 3) :
    3 ≤ b ∧ r + (blockDims b).1 / 2 < miRows ∧ c + (blockDims b).1 / 2 < miCols ∧
    es = (layout miRows p r c ((blockDims b).1 / 2) ((blockDims b).1 / 2 / 2)
      ((partitionSubsize.getD p []).getD b 0) ((partitionSubsize.getD 3 []).getD b 0) true true).map
        fun q => Ev.block q.1 q.2.1 q.2.2 := by
  by_cases hrc : r ≥ miRows ∨ c ≥ miCols
  · have := decodePartition_outside hrc h
    cases this
  obtain ⟨p', x1, s1, es', row, hch, hrow, heq, hseq⟩ := decodePartition_ok hb (by omega) (by omega) h
  cases heq
  have hrow' : row = partitionSubsize.getD p [] := by simp [List.getD, hrow]
  rcases choosePart_ok hch with ⟨hlt, h0⟩ | ⟨hge, hR, hC, hread⟩ | ⟨hge, hR, hC, h0⟩
  · exact absurd h0 hp0
  · rw [partSteps_layout _ _ _ _ _ _ _ _ _ _ _ _ hp3, hR, hC] at hseq
    refine ⟨hge, by simpa using hR, by simpa using hC, ?_⟩
    rw [seqB_blocks _ _ _ _ _ _ hseq, hrow']
  · exact absurd h0 hp3

/-- **C46 is false**, HORZ: every block for which a horizontal split is read decodes the units of its
bottom half twice and those of its top half never. -/
theorem C46_horz_refuted {σ : Type} {ops : PartOps σ} {miRows miCols fuel r c b : Nat} {x x' : σ}
    {es : List Ev} {s s' : BitStream} (hb : IsSquare b)
    (h : decodePartition ops miRows miCols (fuel + 1) r c b x s = .ok ((x', .part b r c 1 :: es), s')) (y z : Nat) :
    let n := (blockDims b).1
    (inRect r c (n / 2) n y z → timesDecoded (.part b r c 1 :: es) y z = 0) ∧
    (inRect (r + n / 2) c (n / 2) n y z → timesDecoded (.part b r c 1 :: es) y z = 2) := by
  obtain ⟨hge, hR, hC, rfl⟩ := decodePartition_top hb h (by omega) (by omega)
  obtain ⟨t1, t2, d0, d1, d2, d3, -⟩ := subDims hb hge
  intro n
  rw [timesDecoded_part, timesDecoded_layout]
  change n = _ at t1
  change _ = (n, n / 2) at d1
  change r + n / 2 < miRows at hR
  change (_ → ((layout miRows 1 r c (n / 2) (n / 2 / 2) _ _ _ _).map _).sum = 0) ∧
    (_ → ((layout miRows 1 r c (n / 2) (n / 2 / 2) _ _ _ _).map _).sum = 2)
  simp only [layout, List.map_cons, List.map_nil, List.sum_cons, List.sum_nil, d1, inRect,
      decide_eq_true_eq, decide_eq_false_iff_not, if_true, List.cons_append, List.nil_append,
      show ¬ (1 = 0) by omega, if_false]
  constructor <;> intro h <;> split_ifs <;> omega

/-- **C46 is false**, HORZ_A: the bottom right quarter is never decoded. -/
theorem C46_horz_a_refuted {σ : Type} {ops : PartOps σ} {miRows miCols fuel r c b : Nat} {x x' : σ}
    {es : List Ev} {s s' : BitStream} (hb : IsSquare b)
    (h : decodePartition ops miRows miCols (fuel + 1) r c b x s = .ok ((x', .part b r c 4 :: es), s')) (y z : Nat) :
    let n := (blockDims b).1
    inRect (r + n / 2) (c + n / 2) (n / 2) (n / 2) y z → timesDecoded (.part b r c 4 :: es) y z = 0 := by
  obtain ⟨hge, hR, hC, rfl⟩ := decodePartition_top hb h (by omega) (by omega)
  obtain ⟨t1, t2, d0, d1, d2, d3, -⟩ := subDims hb hge
  intro n
  rw [timesDecoded_part, timesDecoded_layout]
  change n = _ at t1
  change _ = (n / 2, n / 2) at d3
  change (_ → ((layout miRows 4 r c (n / 2) (n / 2 / 2) _ _ _ _).map _).sum = 0)
  simp only [layout, List.map_cons, List.map_nil, List.sum_cons, List.sum_nil, d3, inRect,
      decide_eq_true_eq, if_true, show ¬ (4 = 0) by omega, show ¬ (4 = 1) by omega, show ¬ (4 = 2) by omega, if_false]
  intro h
  split_ifs <;> omega

/-- **C46 is false**, VERT_B: units *below* the block, outside its square, are decoded. -/
theorem C46_vert_b_refuted {σ : Type} {ops : PartOps σ} {miRows miCols fuel r c b : Nat} {x x' : σ}
    {es : List Ev} {s s' : BitStream} (hb : IsSquare b)
    (h : decodePartition ops miRows miCols (fuel + 1) r c b x s = .ok ((x', .part b r c 7 :: es), s')) (y z : Nat) :
    let n := (blockDims b).1
    inRect (r + n) (c + n / 2) (n / 2) (n / 2) y z →
      inRect r c n n y z = false ∧ timesDecoded (.part b r c 7 :: es) y z = 1 := by
  obtain ⟨hge, hR, hC, rfl⟩ := decodePartition_top hb h (by omega) (by omega)
  obtain ⟨t1, t2, d0, d1, d2, d3, -, -, -, -, -, d7, -⟩ := subDims hb hge
  intro n
  rw [timesDecoded_part, timesDecoded_layout]
  change n = _ at t1
  change _ = (n / 2, n / 2) at d3
  change _ = (n / 2, n) at d7
  change (_ → _ ∧ ((layout miRows 7 r c (n / 2) (n / 2 / 2) _ _ _ _).map _).sum = 1)
  simp only [layout, List.map_cons, List.map_nil, List.sum_cons, List.sum_nil, d3, d7, inRect,
      decide_eq_true_eq, decide_eq_false_iff_not, if_true, show ¬ (7 = 0) by omega, show ¬ (7 = 1) by omega,
      show ¬ (7 = 2) by omega, show ¬ (7 = 4) by omega, show ¬ (7 = 5) by omega, show ¬ (7 = 6) by omega, if_false]
  intro h
  refine ⟨by omega, ?_⟩
  split_ifs <;> omega

/-- **C46 is false**, VERT_4: the last strip is decoded or not depending on the frame *height*: in a
frame that is wide enough but not high enough it is skipped. -/
theorem C46_vert_4_refuted {σ : Type} {ops : PartOps σ} {miRows miCols fuel r c b : Nat} {x x' : σ}
    {es : List Ev} {s s' : BitStream} (hb : IsSquare b) (hb3 : b ≠ 3) (hb15 : b ≠ 15)
    (h : decodePartition ops miRows miCols (fuel + 1) r c b x s = .ok ((x', .part b r c 9 :: es), s'))
    (hlow : miRows ≤ c + 3 * ((blockDims b).1 / 4)) (y z : Nat) :
    let n := (blockDims b).1
    inRect r (c + 3 * (n / 4)) n (n / 4) y z → timesDecoded (.part b r c 9 :: es) y z = 0 := by
  obtain ⟨hge, hR, hC, rfl⟩ := decodePartition_top hb h (by omega) (by omega)
  obtain ⟨t1, -, -, -, -, -, -, -, -, -, -, -, d89⟩ := subDims hb hge
  obtain ⟨t4, -, d9⟩ := d89 hb3 hb15
  intro n
  rw [timesDecoded_part, timesDecoded_layout]
  change n = _ at t1
  change n = _ at t4
  change _ = (n / 4, n) at d9
  change miRows ≤ c + 3 * (n / 4) at hlow
  change (_ → ((layout miRows 9 r c (n / 2) (n / 2 / 2) _ _ _ _).map _).sum = 0)
  have hq : n / 2 / 2 = n / 4 := by omega
  rw [hq]
  simp only [layout, List.map_cons, List.map_nil, List.sum_cons, List.sum_nil, d9, inRect,
      decide_eq_true_eq, List.map_append, List.sum_append,
      show ¬ (9 = 0) by omega, show ¬ (9 = 1) by omega, show ¬ (9 = 2) by omega, show ¬ (9 = 4) by omega,
      show ¬ (9 = 5) by omega, show ¬ (9 = 6) by omega, show ¬ (9 = 7) by omega, show ¬ (9 = 8) by omega, if_false]
  rw [if_neg (show ¬ (c + n / 4 * 3 < miRows) by omega)]
  intro h
  simp only [List.map_nil, List.sum_nil]
  split_ifs <;> omega

/-- **C84.**  No block that crosses exactly one of the bottom and right frame edges at its middle is
ever decoded: the call never returns normally, whatever the stream, the contexts and the way blocks
are decoded. -/
theorem C84_edge_block_refuted {σ : Type} (ops : PartOps σ) (miRows miCols fuel r c b : Nat) (x : σ)
    (s : BitStream) (hb : IsSquare b) (hb3 : 3 ≤ b) (hr : r < miRows) (hc : c < miCols)
    (hedge : ¬ (r + (blockDims b).1 / 2 < miRows ↔ c + (blockDims b).1 / 2 < miCols)) :
    ∀ res, decodePartition ops miRows miCols fuel r c b x s ≠ .ok res := by
  intro ⟨⟨x', es⟩, s'⟩ h
  cases fuel with
  | zero => cases h
  | succ fuel =>
    obtain ⟨p, x1, s1, es', row, hch, -⟩ := decodePartition_ok hb hr hc h
    rcases choosePart_ok hch with ⟨hlt, -⟩ | ⟨-, hR, hC, -⟩ | ⟨-, hR, hC, -⟩
    · omega
    · simp only [decide_eq_true_eq] at hR hC; omega
    · simp only [decide_eq_false_iff_not] at hR hC; omega

/-- **C84**, the part that holds: a block crossing both edges is split without reading anything. -/
theorem C84_corner_block_partial {σ : Type} (ops : PartOps σ) (miRows miCols fuel r c b : Nat) (x x' : σ)
    (s s' : BitStream) (es : List Ev) (hb : IsSquare b) (hb3 : 3 ≤ b) (hr : r < miRows) (hc : c < miCols)
    (hR : miRows ≤ r + (blockDims b).1 / 2) (hC : miCols ≤ c + (blockDims b).1 / 2) 
    (h : decodePartition ops miRows miCols (fuel + 1) r c b x s = .ok ((x', es), s')) :
    ∃ es', es = .part b r c 3 :: es' ∧
      decodePartition ops miRows miCols fuel r c (b - 3) x s = .ok ((x', es'), s') := by
  obtain ⟨p, x1, s1, es', row, hch, hrow, rfl, hseq⟩ := decodePartition_ok hb hr hc h
  have e1 : decide (r + (blockDims b).1 / 2 < miRows) = false := by simp; omega
  have e2 : decide (c + (blockDims b).1 / 2 < miCols) = false := by simp; omega
  rw [e1, e2] at hch hseq
  have hch' : choosePart ops b r c false false x s = .ok ((3, x), s) := by
    rw [choosePart, if_neg (by omega)]
    rfl
  rw [hch'] at hch
  cases hch
  obtain ⟨t1, -, -, -, -, d3, hsq, hsub, -⟩ := subDims hb hb3
  have hrow' : row.getD b 0 = b - 3 := by
    have : row = partitionSubsize.getD 3 [] := by simp [List.getD, hrow]
    rw [this]
    omega
  rw [hrow'] at hseq
  obtain ⟨x2, s2, e1, es2, h1, q2, rfl⟩ := seqB_cons hseq
  obtain ⟨x3, s3, e2, es3, h2, q3, rfl⟩ := seqB_cons q2
  obtain ⟨x4, s4, e3, es4, h3, q4, rfl⟩ := seqB_cons q3
  obtain ⟨x5, s5, e4, es5, h4, q5, rfl⟩ := seqB_cons q4
  have out : ∀ r' c' (x x' : σ) es s s', (r' ≥ miRows ∨ c' ≥ miCols) →
      decodePartition ops miRows miCols fuel r' c' (b - 3) x s = .ok ((x', es), s') →
      x' = x ∧ es = [] ∧ s' = s := by
    intro r' c' x x' es s s' ho h
    cases fuel with
    | zero => cases h
    | succ f =>
      rw [decodePartition, if_pos ho] at h
      cases h
      exact ⟨rfl, rfl, rfl⟩
  obtain ⟨rfl, rfl, rfl⟩ := out _ _ _ _ _ _ _ (by omega) h2
  obtain ⟨rfl, rfl, rfl⟩ := out _ _ _ _ _ _ _ (by omega) h3
  obtain ⟨rfl, rfl, rfl⟩ := out _ _ _ _ _ _ _ (by omega) h4
  cases q5
  exact ⟨e1, by simp, h1⟩

theorem bind_congr_fun {α β : Type} (m : BM α) {f g : α → BM β} (h : ∀ a, f a = g a) :
    (m >>= f) = (m >>= g) := by
  rw [show f = g from funext h]

/-- **C85.**  The recursion needs no more depth than the block size allows: with `b / 3 + 1` levels it
has the same outcome (events, state, position, panics) as with any larger number. -/
theorem C85_partition_depth {σ : Type} (ops : PartOps σ) (miRows miCols fuel r c b : Nat) (x : σ)
    (s : BitStream) (hb : IsSquare b) (hf : b / 3 + 1 ≤ fuel) :
    decodePartition ops miRows miCols fuel r c b x s
      = decodePartition ops miRows miCols (b / 3 + 1) r c b x s := by
  generalize hk : b / 3 = k
  induction k generalizing b fuel r c x s with
  | zero =>
    have hb0 : b = 0 := by rcases hb with h | h | h | h | h | h <;> omega
    subst hb0
    obtain ⟨f, rfl⟩ : ∃ f, fuel = f + 1 := ⟨fuel - 1, by omega⟩
    rw [decodePartition, decodePartition]
    have hch : ∀ hR hC, choosePart ops 0 r c hR hC x = pure (0, x) := fun _ _ => by
      rw [choosePart, if_pos (by omega)]
    simp only [hch, BM.pure_bind]
    rfl
  | succ k ih =>
    obtain ⟨f, rfl⟩ : ∃ f, fuel = f + 1 := ⟨fuel - 1, by omega⟩
    have h3 : 3 ≤ b := by omega
    obtain ⟨-, -, -, -, -, -, hsq, hsub, -⟩ := subDims hb h3
    have hrec : ∀ r' c', decodePartition ops miRows miCols f r' c' (b - 3)
        = decodePartition ops miRows miCols (k + 1) r' c' (b - 3) := by
      intro r' c'
      funext x s
      have hb3 : IsSquare (b - 3) := by
        have : b - 3 = (partitionSubsize.getD 3 []).getD b 0 := by omega
        rw [this]; exact hsq
      rw [ih f r' c' (b - 3) x s hb3 (by omega) (by omega)]
    rw [decodePartition, decodePartition]
    by_cases hrc : r ≥ miRows ∨ c ≥ miCols
    · rw [if_pos hrc, if_pos hrc]
    rw [if_neg hrc, if_neg hrc]
    refine congrFun (bind_congr_fun _ fun num => ?_) s
    refine bind_congr_fun _ fun ⟨p, x1⟩ => ?_
    by_cases hp : p = 3
    · subst hp
      have e1 : goGet partitionSubsize (3 : Int) = .ok (partitionSubsize.getD 3 []) := rfl
      have e2 : goGet (partitionSubsize.getD 3 []) (b : Int) = .ok (b - 3) := by
        rcases hb with rfl | rfl | rfl | rfl | rfl | rfl <;> first | rfl | omega
      have e3 : goGet partitionSubsize ((3 : Nat) : Int) = .ok (partitionSubsize.getD 3 []) := rfl
      simp only [e1, e2, e3, BM.lift_ok, BM.pure_bind, partSteps, hrec, if_neg (show ¬ (3 = 0) by omega)]
    · simp only [partSteps_layout _ _ _ _ _ _ _ _ _ _ _ _ hp]

/-- Partition symbols are in range when they are read with the arithmetic decoder from CDFs of the
right sizes: 4 symbols for 8x8 blocks, 8 for 128x128, 10 in between. -/
theorem partRange_of_symbols {σ : Type} (ops : PartOps σ) (disable : Bool)
    (cdfOf : Nat → Nat → Nat → σ → List Int) (symOf : σ → Sym)
    (hread : ∀ b r c x s p x' s', ops.readPart b r c x s = .ok ((p, x'), s') →
      ∃ cdf' st', readSymbol disable (cdfOf b r c x) (symOf x) s = .ok ((p, cdf', st'), s'))
    (hv : ∀ b r c x, Spec.ValidCdf (cdfOf b r c x))
    (hsym : ∀ x, (2 ^ 15 ≤ (symOf x).range ∧ (symOf x).range < 2 ^ 16) ∧
      0 ≤ (symOf x).value ∧ (symOf x).value < (symOf x).range)
    (hlen : ∀ b r c x, (cdfOf b r c x).length = (if b = 3 then 4 else if b = 15 then 8 else 10) + 1) :
    PartRange ops := by
  intro b r c x s p x' s' h
  obtain ⟨cdf', st', h⟩ := hread _ _ _ _ _ _ _ _ h
  obtain ⟨hlt, -⟩ := C37_symbol disable _ _ _ _ _ _ _ (hv b r c x) (hsym x).1 (hsym x).2 h
  have hl := hlen b r c x
  simp only [Spec.symbols] at hlt
  refine ⟨?_, fun hb => ?_, fun hb => ?_⟩
  · split at hl
    · omega
    · split at hl <;> omega
  · rw [if_pos hb] at hl; omega
  · rw [if_neg (by omega), if_pos hb] at hl; omega


/-- A stand-in for the arithmetic decoder used in the examples: partitions are taken from a script. -/
def scriptOps : PartOps (List Nat) where
  readPart b _ _ x := match x with
    | p :: t => if p < 10 ∧ (b = 3 → p < 4) ∧ (b = 15 → p < 8) then pure (p, t) else BM.fail .index
    | [] => BM.fail .index
  partCdf _ _ _ _ := .ok [3, 4, 5, 6, 7, 8, 9, 10, 11, 32768, 0]
  readSplit _ x := pure (1, x)
  block _ _ _ x := pure x

theorem scriptOps_range : PartRange scriptOps := by
  intro b r c x s p x' s' h
  simp only [scriptOps] at h
  split at h
  · split at h
    · cases h; assumption
    · cases h
  · cases h

/-- A 64x64 block in a 16x16 unit frame: split into VERT_A, HORZ_4, another split (HORZ_B, VERT, NONE
and a split 8x8 blocks) and VERT_4. -/
example : ∃ x' es s', decodePartition scriptOps 16 16 5 0 0 12 [3, 6, 8, 3, 5, 2, 0, 3, 3, 0, 2, 0, 9]
      (newBitStream []) = .ok ((x', es), s') ∧
    (∀ e ∈ es, SoundPart 16 16 e) ∧ x' = [] ∧ 30 ≤ es.length ∧ timesDecoded es 9 3 = 1 := by
  refine ⟨_, _, _, rfl, ?_, rfl, ?_, ?_⟩
  · simp [SoundPart, blockDims]
  · decide
  · decide

/-- An 8x8 picture: the 64x64 superblock is split three times without reading, then one partition is read. -/
example : ∃ x' es s', decodePartition scriptOps 2 2 5 0 0 12 [3] (newBitStream []) = .ok ((x', es), s') ∧
    (∀ e ∈ es, SoundPart 2 2 e) ∧ timesDecoded es 1 1 = 1 := by
  refine ⟨_, _, _, rfl, ?_, ?_⟩
  · simp [SoundPart]
  · decide

/-- `C46_horz_refuted`, `C46_horz_a_refuted`, `C46_vert_b_refuted`, `C46_vert_4_refuted` are about
calls that do happen. -/
example : ∃ x' es s', decodePartition scriptOps 16 16 1 0 0 12 [1] (newBitStream []) =
    .ok ((x', .part 12 0 0 1 :: es), s') := ⟨_, _, _, rfl⟩
example : ∃ x' es s', decodePartition scriptOps 16 16 1 0 0 12 [4] (newBitStream []) =
    .ok ((x', .part 12 0 0 4 :: es), s') := ⟨_, _, _, rfl⟩
example : ∃ x' es s', decodePartition scriptOps 16 16 1 0 0 12 [7] (newBitStream []) =
    .ok ((x', .part 12 0 0 7 :: es), s') := ⟨_, _, _, rfl⟩
example : ∃ x' es s', decodePartition scriptOps 16 64 1 0 16 12 [9] (newBitStream []) =
    .ok ((x', .part 12 0 16 9 :: es), s') ∧ 16 ≤ 16 + 3 * ((blockDims 12).1 / 4) := ⟨_, _, _, rfl, by decide⟩
/-- `C84`: a 16x8 picture (4 x 2 units) and a 16x16 block. -/
example : ¬ (0 + (blockDims 6).1 / 2 < 2 ↔ 0 + (blockDims 6).1 / 2 < 4) ∧ IsSquare 6 := by
  unfold IsSquare; decide

end Gov1
