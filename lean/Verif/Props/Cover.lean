import Verif.Props.TileGroup
import Verif.Props.Partition
/-!
# Every 4x4 unit of a frame is decoded once

The loops over tiles, superblocks and partitions put together.
-/
namespace Gov1
open Spec

/-- The size and the width in units of a superblock. -/
def sbUnits (use128 : Bool) : Nat := if use128 then 32 else 16

theorem sbEvents_ok {σ : Type} {ops : PartOps (Sym × σ)} {pre : Nat → Nat → σ → Sym → BM (Sym × σ)} {miRows miCols size r c : Nat} {x y : σ × List Ev} {st st' : Sym}
    {s s' : BitStream} (hb : IsSquare size) (hops : PartRange ops) (h : sbEvents ops pre miRows miCols size r c x st s = .ok ((st', y), s')) :
    ∃ es, y.2 = x.2 ++ es ∧ ((∀ e ∈ es, SoundPart miRows miCols e) → ∀ u v, u < miRows → v < miCols →
      timesDecoded es u v = if r ≤ u ∧ u < r + (blockDims size).1 ∧ c ≤ v ∧ v < c + (blockDims size).1 then 1 else 0) := by
  unfold sbEvents at h
  obtain ⟨⟨st1, y1⟩, s1, -, h⟩ := BM.bind_eq_ok.mp h
  dsimp only at h
  obtain ⟨⟨⟨st2, y2⟩, es⟩, s2, h2, h⟩ := BM.bind_eq_ok.mp h
  cases h
  refine ⟨es, rfl, fun hs u v hu hv => ?_⟩
  obtain ⟨k1, k2⟩ := C46_partition_cover_partial hops _ _ _ _ _ _ _ _ _ hb h2 hs u v
  split
  · next h => exact k2 (by simp [inRect, h]) hu hv
  · next h => exact k1 (by simpa [inRect] using h)

/-- Units from `c` to the end of a row of superblocks. -/
theorem sbCols_cover {σ : Type} {ops : PartOps (Sym × σ)} {pre : Nat → Nat → σ → Sym → BM (Sym × σ)} {miRows miCols size r colEnd : Nat} (hb : IsSquare size)
    (hops : PartRange ops) (hn : 0 < (blockDims size).1) :
    ∀ (fuel c : Nat) (x y : σ × List Ev) (st st' : Sym) (s s' : BitStream), ((blockDims size).1 ∣ colEnd - c ∨ colEnd = miCols) →
    sbCols (sbEvents ops pre miRows miCols size) (blockDims size).1 colEnd r fuel c x st s = .ok ((st', y), s') →
    ∃ es, y.2 = x.2 ++ es ∧ ((∀ e ∈ es, SoundPart miRows miCols e) → ∀ u v, u < miRows → v < miCols →
      timesDecoded es u v = if r ≤ u ∧ u < r + (blockDims size).1 ∧ c ≤ v ∧ v < colEnd then 1 else 0) := by
  intro fuel
  induction fuel with
  | zero =>
    intro c x y st st' s s' ha h
    rw [sbCols] at h
    split at h
    · cases h
    · cases h
      exact ⟨[], by simp, fun _ u v _ _ => by rw [if_neg (by omega)]; rfl⟩
  | succ fuel ih =>
    intro c x y st st' s s' ha h
    rw [sbCols] at h
    split at h
    · rename_i hc
      dsimp only at h
      obtain ⟨⟨st1, x1⟩, s1, h1, h2⟩ := BM.bind_eq_ok.mp h
      dsimp only at h2
      obtain ⟨e1, q1, k1⟩ := sbEvents_ok hb hops h1
      have hfit : c + (blockDims size).1 ≤ colEnd ∨ colEnd = miCols := by
        rcases ha with ⟨q, hq⟩ | ha
        · left
          have : 0 < q := by
            rcases Nat.eq_zero_or_pos q with rfl | h
            · omega
            · exact h
          have := Nat.mul_le_mul_left (blockDims size).1 this
          omega
        · exact .inr ha
      have ha' : (blockDims size).1 ∣ colEnd - (c + (blockDims size).1) ∨ colEnd = miCols := by
        rcases ha with ha | ha
        · left
          rw [Nat.sub_add_eq]
          exact Nat.dvd_sub ha (Nat.dvd_refl _)
        · exact .inr ha
      obtain ⟨e2, q2, k2⟩ := ih _ _ _ _ _ _ _ ha' h2
      refine ⟨e1 ++ e2, by rw [q2, q1, List.append_assoc], fun hs u v hu hv => ?_⟩
      rw [timesDecoded_append, k1 (fun e he => hs e (by simp [he])) u v hu hv, k2 (fun e he => hs e (by simp [he])) u v hu hv]
      split_ifs <;> omega
    · cases h
      exact ⟨[], by simp, fun _ u v _ _ => by rw [if_neg (by omega)]; rfl⟩

theorem sbRows_cover {σ : Type} {ops : PartOps (Sym × σ)} {pre : Nat → Nat → σ → Sym → BM (Sym × σ)} {miRows miCols size colStart colEnd rowEnd : Nat} (hb : IsSquare size)
    (hops : PartRange ops) (hn : 0 < (blockDims size).1) (hcol : (blockDims size).1 ∣ colEnd - colStart ∨ colEnd = miCols) :
    ∀ (fuel r : Nat) (x y : σ × List Ev) (st st' : Sym) (s s' : BitStream), ((blockDims size).1 ∣ rowEnd - r ∨ rowEnd = miRows) →
    sbRows (sbEvents ops pre miRows miCols size) miRows (blockDims size).1 colStart colEnd rowEnd fuel r x st s = .ok ((st', y), s') →
    ∃ es, y.2 = x.2 ++ es ∧ ((∀ e ∈ es, SoundPart miRows miCols e) → ∀ u v, u < miRows → v < miCols →
      timesDecoded es u v = if r ≤ u ∧ u < rowEnd ∧ colStart ≤ v ∧ v < colEnd then 1 else 0) := by
  intro fuel
  induction fuel with
  | zero =>
    intro r x y st st' s s' ha h
    rw [sbRows] at h
    split at h
    · cases h
    · cases h
      exact ⟨[], by simp, fun _ u v _ _ => by rw [if_neg (by omega)]; rfl⟩
  | succ fuel ih =>
    intro r x y st st' s s' ha h
    rw [sbRows] at h
    split at h
    · rename_i hc
      dsimp only at h
      obtain ⟨u0, s0, -, h⟩ := BM.bind_eq_ok.mp h
      obtain ⟨⟨st1, x1⟩, s1, h1, h2⟩ := BM.bind_eq_ok.mp h
      dsimp only at h2
      obtain ⟨e1, q1, k1⟩ := sbCols_cover hb hops hn _ _ _ _ _ _ _ _ hcol h1
      have hfit : r + (blockDims size).1 ≤ rowEnd ∨ rowEnd = miRows := by
        rcases ha with ⟨q, hq⟩ | ha
        · left
          have : 0 < q := by
            rcases Nat.eq_zero_or_pos q with rfl | h
            · omega
            · exact h
          have := Nat.mul_le_mul_left (blockDims size).1 this
          omega
        · exact .inr ha
      have ha' : (blockDims size).1 ∣ rowEnd - (r + (blockDims size).1) ∨ rowEnd = miRows := by
        rcases ha with ha | ha
        · left
          rw [Nat.sub_add_eq]
          exact Nat.dvd_sub ha (Nat.dvd_refl _)
        · exact .inr ha
      obtain ⟨e2, q2, k2⟩ := ih _ _ _ _ _ _ _ ha' h2
      refine ⟨e1 ++ e2, by rw [q2, q1, List.append_assoc], fun hs u v hu hv => ?_⟩
      rw [timesDecoded_append, k1 (fun e he => hs e (by simp [he])) u v hu hv, k2 (fun e he => hs e (by simp [he])) u v hu hv]
      split_ifs <;> omega
    · cases h
      exact ⟨[], by simp, fun _ u v _ _ => by rw [if_neg (by omega)]; rfl⟩

/-- The tile ends at a multiple of the superblock size from its start, or with the frame. -/
def TileAligned (n miRows miCols : Nat) (run : TileRun) : Prop :=
  (n ∣ run.rowEnd - run.rowStart ∨ run.rowEnd = miRows) ∧ (n ∣ run.colEnd - run.colStart ∨ run.colEnd = miCols)

theorem tile_cover {σ : Type} {use128 : Bool} {miCols miRows : Nat} {reset : σ → σ} {ops : PartOps (Sym × σ)} {pre : Nat → Nat → σ → Sym → BM (Sym × σ)} (hops : PartRange ops)
    {run : TileRun} {x y : σ × List Ev} {st st' : Sym} {s s' : BitStream} (ha : TileAligned (sbUnits use128) miRows miCols run)
    (h : tileEvents use128 miCols miRows reset ops pre run x st s = .ok ((st', y), s')) :
    ∃ es, y.2 = x.2 ++ es ∧ ((∀ e ∈ es, SoundPart miRows miCols e) → ∀ u v, u < miRows → v < miCols →
      timesDecoded es u v = if run.rowStart ≤ u ∧ u < run.rowEnd ∧ run.colStart ≤ v ∧ v < run.colEnd then 1 else 0) := by
  unfold tileEvents at h
  rw [decodeTile] at h
  obtain ⟨u, s1, -, h⟩ := BM.bind_eq_ok.mp h
  have hb : IsSquare (sbSizeArg use128) := by cases use128 <;> simp [IsSquare, sbSizeArg]
  have hd : (blockDims (sbSizeArg use128)).1 = sbUnits use128 := by cases use128 <;> rfl
  have hn : 0 < (blockDims (sbSizeArg use128)).1 := by rw [hd]; cases use128 <;> decide
  rw [show (if use128 then 32 else 16) = (blockDims (sbSizeArg use128)).1 by rw [hd]; rfl] at h
  rw [← hd] at ha
  exact sbRows_cover hb hops hn ha.2 _ _ (reset x.1, x.2) _ _ _ _ _ ha.1 h

/-- **C174 (tile, partial).**  Whenever a tile is decoded and each partition read is one the code lays out like AV1 does, every 4x4 unit of the tile is decoded
exactly once and no other unit of the frame is decoded.  Missing: the partition types of `C46_horz_refuted` and following, and larger frames: as the code stands,
a tile is only ever decoded if the frame is at most three units high and wide (`C55_context_clearing_refuted`, `C55_left_clearing_refuted`). -/
theorem C174_tile_partial {σ : Type} {use128 : Bool} {miCols miRows : Nat} {reset : σ → σ} {ops : PartOps (Sym × σ)} {pre : Nat → Nat → σ → Sym → BM (Sym × σ)}
    (hops : PartRange ops) {run : TileRun} {x : σ} {y : σ × List Ev} {st st' : Sym} {s s' : BitStream} (ha : TileAligned (sbUnits use128) miRows miCols run)
    (h : tileEvents use128 miCols miRows reset ops pre run (x, []) st s = .ok ((st', y), s')) (hs : ∀ e ∈ y.2, SoundPart miRows miCols e)
    (u v : Nat) (hu : u < miRows) (hv : v < miCols) :
    (InRun run u v → timesDecoded y.2 u v = 1) ∧ (¬ InRun run u v → timesDecoded y.2 u v = 0) := by
  obtain ⟨es, e, k⟩ := tile_cover hops ha h
  rw [List.nil_append] at e
  rw [e] at hs ⊢
  rw [k hs u v hu hv]
  exact ⟨fun h => if_pos h, fun h => if_neg h⟩

/-! ## The frame -/

theorem tileLoop_cover {σ : Type} {use128 : Bool} {miCols miRows : Nat} {reset : σ → σ} {ops : PartOps (Sym × σ)} {pre : Nat → Nat → σ → Sym → BM (Sym × σ)}
    (hops : PartRange ops) (t : Tiles) (tgEnd : Int) (u v : Nat) (hu : u < miRows) (hv : v < miCols) :
    ∀ (k num : Nat) (sz : Int) (x y : σ × List Ev) (s s' : BitStream) (runs : List TileRun),
    tileLoop (tileEvents use128 miCols miRows reset ops pre) t tgEnd k num sz x s = .ok ((runs, y), s') →
    (∀ r ∈ runs, TileAligned (sbUnits use128) miRows miCols r) →
    ∃ es, y.2 = x.2 ++ es ∧ ((∀ e ∈ es, SoundPart miRows miCols e) →
      timesDecoded es u v = runs.countP fun r => decide (r.rowStart ≤ u ∧ u < r.rowEnd ∧ r.colStart ≤ v ∧ v < r.colEnd)) := by
  intro k
  induction k with
  | zero =>
    intro num sz x y s s' runs h _
    cases h
    exact ⟨[], by simp, fun _ => rfl⟩
  | succ k ih =>
    intro num sz x y s s' runs h ha
    rw [tileLoop] at h
    split at h
    · cases h
    dsimp only at h
    obtain ⟨⟨ts, sz1⟩, s1, -, h⟩ := BM.bind_eq_ok.mp h
    dsimp only at h
    obtain ⟨r0, s2, -, h⟩ := BM.bind_eq_ok.mp h
    obtain ⟨r1, s3, -, h⟩ := BM.bind_eq_ok.mp h
    obtain ⟨c0, s4, -, h⟩ := BM.bind_eq_ok.mp h
    obtain ⟨c1, s5, -, h⟩ := BM.bind_eq_ok.mp h
    obtain ⟨p, s6, -, h⟩ := BM.bind_eq_ok.mp h
    obtain ⟨st, s7, -, h⟩ := BM.bind_eq_ok.mp h
    obtain ⟨⟨st1, x1⟩, s8, hbody, h⟩ := BM.bind_eq_ok.mp h
    dsimp only at h
    obtain ⟨_, s9, -, h⟩ := BM.bind_eq_ok.mp h
    obtain ⟨⟨runs', y'⟩, s10, hrec, h⟩ := BM.bind_eq_ok.mp h
    cases h
    obtain ⟨e1, q1, k1⟩ := tile_cover hops (ha _ (by simp)) hbody
    obtain ⟨e2, q2, k2⟩ := ih _ _ _ _ _ _ _ hrec (fun r hr => ha r (by simp [hr]))
    refine ⟨e1 ++ e2, by rw [q2, q1, List.append_assoc], fun hs => ?_⟩
    rw [timesDecoded_append, k1 (fun e he => hs e (by simp [he])) u v hu hv, k2 (fun e he => hs e (by simp [he])), List.countP_cons, Nat.add_comm]
    congr 1
    simp only [decide_eq_true_eq]

theorem countP_one {α : Type} {p : α → Bool} {l : List α} (hd : l.Nodup) {a : α} (ha : a ∈ l) (hp : p a = true) (hu : ∀ b ∈ l, p b = true → b = a) : l.countP p = 1 := by
  induction l with
  | nil => cases ha
  | cons b l ih =>
    rw [List.nodup_cons] at hd
    rw [List.countP_cons]
    rcases List.mem_cons.1 ha with rfl | h
    · rw [if_pos hp, List.countP_eq_zero.2]
      intro c hc h
      exact hd.1 (hu c (by simp [hc]) h ▸ hc)
    · rw [ih hd.2 h (fun c hc => hu c (by simp [hc])), if_neg]
      intro hb
      exact hd.1 (hu b (by simp) hb ▸ h)

/-- All inner bounds are multiples of the superblock size. -/
def BoundsAligned (n total : Nat) (bounds : List Nat) : Prop := ∀ b ∈ bounds, n ∣ b ∨ b = total

theorem tileLoop_bounds {σ : Type} {body : TileRun → σ → Sym → BM (Sym × σ)} (t : Tiles) (tgEnd : Int) :
    ∀ (k num : Nat) (sz : Int) (x y : σ) (s s' : BitStream) (runs : List TileRun),
    tileLoop body t tgEnd k num sz x s = .ok ((runs, y), s') → ∀ r ∈ runs, HasBounds t r := by
  intro k
  induction k with
  | zero =>
    intro num sz x y s s' runs h
    cases h
    simp
  | succ k ih =>
    intro num sz x y s s' runs h
    rw [tileLoop] at h
    split at h
    · cases h
    dsimp only at h
    obtain ⟨⟨ts, sz1⟩, s1, -, h⟩ := BM.bind_eq_ok.mp h
    dsimp only at h
    obtain ⟨r0, s2, h0, h⟩ := BM.bind_eq_ok.mp h
    obtain ⟨r1, s3, h1, h⟩ := BM.bind_eq_ok.mp h
    obtain ⟨c0, s4, h2, h⟩ := BM.bind_eq_ok.mp h
    obtain ⟨c1, s5, h3, h⟩ := BM.bind_eq_ok.mp h
    obtain ⟨p, s6, -, h⟩ := BM.bind_eq_ok.mp h
    obtain ⟨st, s7, -, h⟩ := BM.bind_eq_ok.mp h
    obtain ⟨⟨st1, x1⟩, s8, -, h⟩ := BM.bind_eq_ok.mp h
    dsimp only at h
    obtain ⟨_, s9, -, h⟩ := BM.bind_eq_ok.mp h
    obtain ⟨⟨runs', y'⟩, s10, hrec, h⟩ := BM.bind_eq_ok.mp h
    cases h
    have g : ∀ {l : List Nat} {i a : Nat} {b b' : BitStream}, BM.lift (goGet l ((i : Nat) : Int)) b = .ok (a, b') → l[i]? = some a := by
      intro l i a b b' e
      unfold BM.lift at e
      cases hg : goGet l (i : Int) with
      | error f => rw [hg] at e; cases e
      | ok v =>
        rw [hg] at e
        cases e
        rw [goGet, if_neg (by omega), Int.toNat_natCast] at hg
        cases hl : l[i]? with
        | none => rw [hl] at hg; cases hg
        | some w => rw [hl] at hg; cases hg; rfl
    intro r hr
    rcases List.mem_cons.1 hr with rfl | hr
    · exact ⟨g h0, g h1, g h2, g h3⟩
    · exact ih _ _ _ _ _ _ _ hrec r hr

/-- Several tile groups one after the other, with all tiles decoded; between the groups everything but the log may change. -/
inductive Groups {σ : Type} (body : TileRun → σ × List Ev → Sym → BM (Sym × (σ × List Ev))) (t : Tiles) : List Ev → List TileRun → List Ev → Prop
  | nil (l : List Ev) : Groups body t l [] l
  | cons {sz : Int} {x : σ} {l l' : List Ev} {y : σ × List Ev} {s s' : BitStream} {runs runs' : List TileRun} {finished : Bool}
      (h : tileGroup body t sz (x, l) s = .ok ((runs, y, finished), s')) (hr : Groups body t y.2 runs' l') : Groups body t l (runs ++ runs') l'

theorem groups_cover {σ : Type} {use128 : Bool} {miCols miRows : Nat} {reset : σ → σ} {ops : PartOps (Sym × σ)} {pre : Nat → Nat → σ → Sym → BM (Sym × σ)}
    (hops : PartRange ops) {t : Tiles} {l l' : List Ev} {runs : List TileRun} (u v : Nat) (hu : u < miRows) (hv : v < miCols)
    (h : Groups (tileEvents use128 miCols miRows reset ops pre) t l runs l') :
    (∀ r ∈ runs, HasBounds t r) ∧ ((∀ r ∈ runs, TileAligned (sbUnits use128) miRows miCols r) →
      ∃ es, l' = l ++ es ∧ ((∀ e ∈ es, SoundPart miRows miCols e) →
        timesDecoded es u v = runs.countP fun r => decide (r.rowStart ≤ u ∧ u < r.rowEnd ∧ r.colStart ≤ v ∧ v < r.colEnd))) := by
  induction h with
  | nil l => exact ⟨by simp, fun _ => ⟨[], by simp, fun _ => rfl⟩⟩
  | cons h hr ih =>
    unfold tileGroup at h
    obtain ⟨p0, s1, -, h⟩ := BM.bind_eq_ok.mp h
    obtain ⟨⟨a, b⟩, s2, -, h⟩ := BM.bind_eq_ok.mp h
    dsimp only at h
    obtain ⟨_, s3, -, h⟩ := BM.bind_eq_ok.mp h
    obtain ⟨p1, s4, -, h⟩ := BM.bind_eq_ok.mp h
    obtain ⟨⟨rs, y'⟩, s5, hl, h⟩ := BM.bind_eq_ok.mp h
    cases h
    refine ⟨fun r hr => ?_, fun ha => ?_⟩
    · rcases List.mem_append.1 hr with hr | hr
      · exact tileLoop_bounds _ _ _ _ _ _ _ _ _ _ hl r hr
      · exact ih.1 r hr
    · obtain ⟨e1, q1, k1⟩ := tileLoop_cover hops t _ u v hu hv _ _ _ _ _ _ _ _ hl (fun r hr => ha r (by simp [hr]))
      obtain ⟨e2, q2, k2⟩ := ih.2 (fun r hr => ha r (by simp [hr]))
      refine ⟨e1 ++ e2, by rw [q2, q1, List.append_assoc], fun hs => ?_⟩
      rw [timesDecoded_append, k1 (fun e he => hs e (by simp [he])), k2 (fun e he => hs e (by simp [he])), List.countP_append]

theorem tileAligned_of {n miRows miCols : Nat} {t : Tiles} 
    (har : BoundsAligned n miRows t.rowBounds) (hac : BoundsAligned n miCols t.colBounds) (hr : ∀ b ∈ t.rowBounds, b ≤ miRows) (hc : ∀ b ∈ t.colBounds, b ≤ miCols) {r : TileRun} (hb : HasBounds t r)
    (hn : r.num < t.tileCols * t.tileRows) : TileAligned n miRows miCols r := by
  have hc0 : 0 < t.tileCols := by
    rcases Nat.eq_zero_or_pos t.tileCols with h | h
    · rw [h] at hn; omega
    · exact h
  have hrow : r.num / t.tileCols < t.tileRows := Nat.div_lt_of_lt_mul hn
  have hcol : r.num % t.tileCols < t.tileCols := Nat.mod_lt _ hc0
  obtain ⟨b1, b2, b3, b4⟩ := hb
  have d1 := List.mem_of_getElem? (getElem?_take_of (n := t.tileRows + 1) b1 (by omega))
  have d2 := List.mem_of_getElem? (getElem?_take_of (n := t.tileRows + 1) b2 (by omega))
  have d3 := List.mem_of_getElem? (getElem?_take_of (n := t.tileCols + 1) b3 (by omega))
  have d4 := List.mem_of_getElem? (getElem?_take_of (n := t.tileCols + 1) b4 (by omega))
  constructor
  · rcases har _ d2 with h2 | h2
    · rcases har _ d1 with h1 | h1
      · exact .inl (Nat.dvd_sub h2 h1)
      · have := hr _ d2
        left
        rw [show r.rowEnd - r.rowStart = 0 by omega]
        exact Nat.dvd_zero _
    · exact .inr h2
  · rcases hac _ d4 with h2 | h2
    · rcases hac _ d3 with h1 | h1
      · exact .inl (Nat.dvd_sub h2 h1)
      · have := hc _ d4
        left
        rw [show r.colEnd - r.colStart = 0 by omega]
        exact Nat.dvd_zero _
    · exact .inr h2

theorem divides_le {bounds : List Nat} {total w : Nat} (h : Divides bounds total w) : ∀ b ∈ bounds, b ≤ total := by
  intro b hb
  have hl := h.last
  rw [List.getLast?_eq_some_iff] at hl
  obtain ⟨ys, rfl⟩ := hl
  rcases List.mem_append.1 hb with hb | hb
  · have := (List.pairwise_append.1 h.increasing).2.2 b hb total (by simp)
    omega
  · rw [List.mem_singleton] at hb
    omega

/-- **C174 (frame, partial).**  Whenever tile groups decode all tiles of a frame, whose bounds divide the frame and are multiples of the superblock size, and each
partition read is one the code lays out like AV1 does, every 4x4 unit of the frame is decoded exactly once.  Missing: the partition types of `C46_horz_refuted` and following. -/
theorem C174_frame_partial {σ : Type} {use128 : Bool} {miCols miRows : Nat} {reset : σ → σ} {ops : PartOps (Sym × σ)} {pre : Nat → Nat → σ → Sym → BM (Sym × σ)}
    (hops : PartRange ops) {t : Tiles} {wr wc : Nat} (hr : Divides t.rowBounds miRows wr) (hc : Divides t.colBounds miCols wc)
    (hrl : t.rowBounds.length = t.tileRows + 1) (hcl : t.colBounds.length = t.tileCols + 1) (har : BoundsAligned (sbUnits use128) miRows t.rowBounds)
    (hac : BoundsAligned (sbUnits use128) miCols t.colBounds) {runs : List TileRun} {log : List Ev}
    (h : Groups (tileEvents use128 miCols miRows reset ops pre) t [] runs log) (hall : runs.map (·.num) = List.range' 0 (t.tileCols * t.tileRows))
    (hs : ∀ e ∈ log, SoundPart miRows miCols e) (u v : Nat) (hu : u < miRows) (hv : v < miCols) :
    timesDecoded log u v = 1 := by
  obtain ⟨hb, hcov⟩ := groups_cover hops u v hu hv h
  have hnum : ∀ r ∈ runs, r.num < t.tileCols * t.tileRows := by
    intro r hr
    have : r.num ∈ runs.map (·.num) := List.mem_map_of_mem hr
    rw [hall, List.mem_range'] at this
    obtain ⟨a, ha, hb⟩ := this
    omega
  obtain ⟨es, e, k⟩ := hcov (fun r hm => tileAligned_of har hac (divides_le hr) (divides_le hc) (hb r hm) (hnum r hm))
  rw [List.nil_append] at e
  subst e
  rw [k hs]
  obtain ⟨r, hm, hin, hu⟩ := C81_tiles_partition t miRows miCols wr wc hr hc hrl hcl runs hall hb u v hu hv
  have hd : runs.Nodup := by
    apply List.Nodup.of_map (·.num)
    rw [hall]
    exact List.nodup_range'
  exact countP_one hd hm (by simpa [InRun] using hin) (fun b hb hp => hu b hb (by simpa [InRun] using hp))

/-! ## A frame of 8 by 8 pixels -/

/-- Every partition read is `VERT`, and no block fails. -/
def vertOps : PartOps (Sym × Unit) where
  readPart _ _ _ x := pure (2, x)
  partCdf _ _ _ _ := .error .index
  readSplit _ x := pure (0, x)
  block _ _ _ x := pure x

example : PartRange vertOps := by
  intro b r c x s p x' s' h
  cases h
  exact ⟨by decide, fun _ => by decide, fun _ => by decide⟩

def oneTile : TileRun := ⟨0, 4, 0, 2, 0, 2, 0⟩
def demoBits : BitStream := newBitStream [0, 0, 0, 0]

example : (tileEvents false 2 2 id vertOps (fun _ _ x st => pure (st, x)) oneTile ((), []) ⟨32768, 0, 17⟩ demoBits).map (·.1.2.2) =
    .ok [.part 12 0 0 3, .part 9 0 0 3, .part 6 0 0 3, .part 3 0 0 2, .block 0 0 1, .block 0 1 1] := by decide +kernel
example : TileAligned (sbUnits false) 2 2 oneTile := ⟨.inr rfl, .inr rfl⟩
example : ∀ e ∈ [Ev.part 12 0 0 3, .part 9 0 0 3, .part 6 0 0 3, .part 3 0 0 2, .block 0 0 1, .block 0 1 1], SoundPart 2 2 e := by simp [SoundPart]

def coverTiles : Tiles := { tileCols := 1, tileRows := 1, tileColsLog2 := 0, tileRowsLog2 := 0, miColStarts := [0, 2], miRowStarts := [0, 2], tileSizeBytes := 0, contextUpdateTileId := 0 }

theorem groups_one {σ : Type} {body : TileRun → σ × List Ev → Sym → BM (Sym × (σ × List Ev))} {t : Tiles} {sz : Int} {x : σ} {l l' : List Ev} {s : BitStream} {n : List Nat}
    (h : (tileGroup body t sz (x, l) s).map (fun p => (p.1.1.map (·.num), p.1.2.1.2)) = .ok (n, l')) : ∃ runs, Groups body t l runs l' ∧ runs.map (·.num) = n := by
  match hr : tileGroup body t sz (x, l) s with
  | .error e => rw [hr] at h; cases h
  | .ok ((runs, y, f), s') =>
    rw [hr] at h
    cases h
    exact ⟨runs, by simpa using Groups.cons hr (.nil _), rfl⟩

example : ∃ runs, Groups (tileEvents false 2 2 id vertOps (fun _ _ x st => pure (st, x))) coverTiles []
    runs [.part 12 0 0 3, .part 9 0 0 3, .part 6 0 0 3, .part 3 0 0 2, .block 0 0 1, .block 0 1 1] ∧ runs.map (·.num) = List.range' 0 1 :=
  groups_one (sz := 4) (x := ()) (s := newBitStream [0, 0, 0, 0]) (by decide +kernel)
example : Divides coverTiles.rowBounds 2 16 := ⟨by decide, by decide, by decide, fun i h => by
  have h : i + 1 < 2 := h
  obtain rfl : i = 0 := by omega
  decide⟩
example : BoundsAligned 16 2 coverTiles.rowBounds := by
  intro b hb
  simp [coverTiles, Tiles.rowBounds] at hb
  rcases hb with rfl | rfl <;> simp

end Gov1
