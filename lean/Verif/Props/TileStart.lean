import Verif.Props.BlockComplete

/-!
# The context of a partition, and the start of a tile (C181, C182)
-/

namespace Gov1

/-! ## The context of a partition -/

/-- The unit at row `u`, column `v` is in the tile. -/
def UnitInTile (t : TileBox) (u v : Nat) : Prop := t.rowStart ≤ u ∧ u < t.rowEnd ∧ t.colStart ≤ v ∧ v < t.colEnd

instance (t : TileBox) (u v : Nat) : Decidable (UnitInTile t u v) := by unfold UnitInTile; infer_instance

/-- The block above `(r, c)` is in the tile and narrower than `w` pixels. -/
def narrowAbove (t : TileBox) (sizes : List (List Nat)) (w r c : Nat) : Bool :=
  decide (1 ≤ r ∧ UnitInTile t (r - 1) c) && ((at2 sizes (r - 1) c).bind sizeDims).any (fun d => decide (d.1 < w))

/-- The block left of `(r, c)` is in the tile and lower than `w` pixels. -/
def lowLeft (t : TileBox) (sizes : List (List Nat)) (w r c : Nat) : Bool :=
  decide (1 ≤ c ∧ UnitInTile t r (c - 1)) && ((at2 sizes r (c - 1)).bind sizeDims).any (fun d => decide (d.2 < w))

theorem partLog2_dims : ∀ b : Fin 22, ∀ z : Fin 22, ∃ lb lw lh db dz, miWidthLog2[b.val]? = some lb ∧ miWidthLog2[z.val]? = some lw ∧ miHeightLog2[z.val]? = some lh ∧ sizeDims b = some db ∧
    sizeDims z = some dz ∧ (lw < lb ↔ dz.1 < db.1) ∧ (lh < lb ↔ dz.2 < db.1) := by
  have : ∀ b : Fin 22, ∀ z : Fin 22, (match miWidthLog2[b.val]?, miWidthLog2[z.val]?, miHeightLog2[z.val]?, sizeDims b, sizeDims z with
      | some lb, some lw, some lh, some db, some dz => decide ((lw < lb ↔ dz.1 < db.1) ∧ (lh < lb ↔ dz.2 < db.1))
      | _, _, _, _, _ => false) = true := by decide +kernel
  intro b z
  have h := this b z
  split at h
  · next lb lw lh db dz h1 h2 h3 h4 h5 => exact ⟨lb, lw, lh, db, dz, h1, h2, h3, h4, h5, of_decide_eq_true h⟩
  · cases h

theorem part_names : ∀ b : Fin 22, ∀ w : Fin 129, 8 ≤ w.val → sizeDims b = some (w.val, w.val) → (miWidthLog2[b.val]?).map partTable = some ("PartitionW" ++ toString w.val) := by decide +kernel

theorem size_lt {z : Nat} {d : Nat × Nat} (h : sizeDims z = some d) : z < 22 := by
  by_contra hc
  have : blockWidth[z]? = none := List.getElem?_eq_none (by show 22 ≤ z; omega)
  unfold sizeDims at h
  rw [this] at h
  cases h

theorem dims_le : ∀ b : Fin 22, ∀ d ∈ sizeDims b, d.1 ≤ 128 ∧ d.2 ≤ 128 := by decide +kernel

theorem inside_above (t : TileBox) (r c : Nat) : isInside t ((r : Int) - 1) c = decide (1 ≤ r ∧ UnitInTile t (r - 1) c) := by
  unfold isInside UnitInTile
  rw [← Bool.decide_and, ← Bool.decide_and, ← Bool.decide_and, decide_eq_decide]
  omega

theorem inside_left (t : TileBox) (r c : Nat) : isInside t r ((c : Int) - 1) = decide (1 ≤ c ∧ UnitInTile t r (c - 1)) := by
  unfold isInside UnitInTile
  rw [← Bool.decide_and, ← Bool.decide_and, ← Bool.decide_and, decide_eq_decide]
  omega

theorem partAbove_eq {h : FrHdr} {b bsl w hb r c : Nat} {m : List (List Nat)} (hd : sizeDims b = some (w, hb)) (hl : miWidthLog2[b]? = some bsl)
    (hm : 1 ≤ r → UnitInTile h.tile (r - 1) c → ∃ z d, at2 m (r - 1) c = some z ∧ sizeDims z = some d) : partAbove h bsl r c m = .ok (narrowAbove h.tile m w r c) := by
  unfold partAbove narrowAbove
  rw [inside_above]
  by_cases hi : 1 ≤ r ∧ UnitInTile h.tile (r - 1) c
  · obtain ⟨z, d, hz, hzd⟩ := hm hi.1 hi.2
    obtain ⟨lb, lw, lh, db, dz, e1, e2, -, e4, e5, e6, -⟩ := partLog2_dims ⟨b, size_lt hd⟩ ⟨z, size_lt hzd⟩
    dsimp only at e1 e2 e4 e5
    obtain rfl : bsl = lb := Option.some.inj (hl.symm.trans e1)
    obtain rfl : (w, hb) = db := Option.some.inj (hd.symm.trans e4)
    obtain rfl : d = dz := Option.some.inj (hzd.symm.trans e5)
    rw [if_pos (decide_eq_true hi), show ((r : Int) - 1) = ((r - 1 : Nat) : Int) by omega, gget_at2 hz, Res.ok_bind, goGet_of e2, Res.ok_bind, hz, Option.bind_some, hzd, decide_eq_true hi]
    show Except.ok _ = _
    rw [Option.any_some, Bool.true_and, decide_eq_decide.mpr e6]
  · rw [decide_eq_false hi, if_neg (by decide), Bool.false_and]
    rfl

theorem partLeft_eq {h : FrHdr} {b bsl w hb r c : Nat} {m : List (List Nat)} (hd : sizeDims b = some (w, hb)) (hl : miWidthLog2[b]? = some bsl)
    (hm : 1 ≤ c → UnitInTile h.tile r (c - 1) → ∃ z d, at2 m r (c - 1) = some z ∧ sizeDims z = some d) : partLeft h bsl r c m = .ok (lowLeft h.tile m w r c) := by
  unfold partLeft lowLeft
  rw [inside_left]
  by_cases hi : 1 ≤ c ∧ UnitInTile h.tile r (c - 1)
  · obtain ⟨z, d, hz, hzd⟩ := hm hi.1 hi.2
    obtain ⟨lb, lw, lh, db, dz, e1, -, e3, e4, e5, -, e7⟩ := partLog2_dims ⟨b, size_lt hd⟩ ⟨z, size_lt hzd⟩
    dsimp only at e1 e3 e4 e5
    obtain rfl : bsl = lb := Option.some.inj (hl.symm.trans e1)
    obtain rfl : (w, hb) = db := Option.some.inj (hd.symm.trans e4)
    obtain rfl : d = dz := Option.some.inj (hzd.symm.trans e5)
    rw [if_pos (decide_eq_true hi), show ((c : Int) - 1) = ((c - 1 : Nat) : Int) by omega, gget_at2 hz, Res.ok_bind, goGet_of e3, Res.ok_bind, hz, Option.bind_some, hzd, decide_eq_true hi]
    show Except.ok _ = _
    rw [Option.any_some, Bool.true_and, decide_eq_decide.mpr e7]
  · rw [decide_eq_false hi, if_neg (by decide), Bool.false_and]
    rfl

/-- **C181.**  The partition of a square block of `w` pixels is read from the table of `w` with context 0 to 3: 1 if the block above is in the tile and narrower than `w`, plus 2 if the block on the
left is in the tile and lower than `w`. -/
theorem C181_context {h : FrHdr} {b w r c : Nat} {m : List (List Nat)} (hd : sizeDims b = some (w, w)) (hw : 8 ≤ w)
    (ha : 1 ≤ r → UnitInTile h.tile (r - 1) c → ∃ z d, at2 m (r - 1) c = some z ∧ sizeDims z = some d)
    (hl : 1 ≤ c → UnitInTile h.tile r (c - 1) → ∃ z d, at2 m r (c - 1) = some z ∧ sizeDims z = some d) :
    readPartition h b r c m = Rd.read ("PartitionW" ++ toString w) [2 * (lowLeft h.tile m w r c).toNat + (narrowAbove h.tile m w r c).toNat] := by
  have hb := size_lt hd
  have hw2 := (dims_le ⟨b, hb⟩ _ hd).1
  have hn := part_names ⟨b, hb⟩ ⟨w, by omega⟩ hw hd
  dsimp only at hn hw2
  cases hbl : miWidthLog2[b]? with
  | none => rw [hbl] at hn; cases hn
  | some bsl =>
    rw [hbl] at hn
    unfold readPartition partCtx
    rw [goGet_of hbl, Res.ok_bind, partAbove_eq hd hbl ha, Res.ok_bind, partLeft_eq hd hbl hl, Res.ok_bind]
    show Rd.read (partTable bsl) _ = _
    rw [Option.some.inj hn]
    cases lowLeft h.tile m w r c <;> cases narrowAbove h.tile m w r c <;> rfl

-- contexts 1 and 2: a 4x8 block above a 8x8 block, a 8x4 block on its left
example : narrowAbove ⟨0, 4, 0, 4⟩ [[1, 1], [1, 1], [3, 3], [3, 3]] 8 2 0 = true ∧ lowLeft ⟨0, 4, 0, 4⟩ [[1, 1], [1, 1], [3, 3], [3, 3]] 8 2 0 = false := by decide
example : narrowAbove ⟨0, 4, 0, 4⟩ [[2, 2, 3, 3], [2, 2, 3, 3]] 8 0 2 = false ∧ lowLeft ⟨0, 4, 0, 4⟩ [[2, 2, 3, 3], [2, 2, 3, 3]] 8 0 2 = true := by decide
example : sizeDims 3 = some (8, 8) ∧ UnitInTile ⟨0, 4, 0, 4⟩ 1 0 := by decide

/-! ## The start of a tile -/

/-- A state with other leftovers of earlier tiles: the contexts of coefficients, the deltas of the loop filter, the reference values of the self guided filter, and whether deltas are to be read. -/
def withLeftovers (x : TileSt) (l : LevelCtx) (d : List Int) (q : List (List Int)) (rd : Bool) : TileSt :=
  { x with
    blk := { x.blk with
      info := { x.blk.info with base := { x.blk.info.base with deltaLF := d } }
      tb := { x.blk.tb with coef := withLevels x.blk.tb.coef l }
      readDeltas := rd }
    lr := { x.lr with refXqd := q } }

/-- Only what the start of a tile does not set is left of the leftovers. -/
def withLefts (x : TileSt) (a b : List (List Int)) (rd : Bool) : TileSt :=
  { x with blk := { x.blk with tb := { x.blk.tb with coef := { x.blk.tb.coef with leftLevel := a, leftDc := b } }, readDeltas := rd } }

theorem tileReset_leftovers (h : FrHdr) (n : Nat) (x : TileSt) (l : LevelCtx) (d : List Int) (q : List (List Int)) (rd : Bool) (hq : q.drop n = x.lr.refXqd.drop n) :
    tileReset h n (withLeftovers x l d q rd) = withLefts (tileReset h n x) l.leftLevel l.leftDc rd := by
  unfold tileReset withLeftovers withLefts withLevels clearAbove
  dsimp only
  rw [hq]

theorem sbPre_lefts {grow : Nat → Nat} {L : Layout} {disable : Bool} {fuel : Nat} {h : FrHdr} {lh : LrHdr} {r c : Nat} {x : TileSt} {st : Sym} (hc : c = h.tile.colStart) (a b : List (List Int)) (rd : Bool) :
    sbPre grow L disable fuel h lh r c (withLefts x a b rd) st = sbPre grow L disable fuel h lh r c x st := by
  unfold sbPre
  have : sbClear grow h lh.numPlanes r c (withLefts x a b rd).blk = sbClear grow h lh.numPlanes r c x.blk := by
    unfold sbClear sbCoef withLefts
    dsimp only
    rw [if_pos hc, if_pos hc]
    rfl
  rw [this]
  rfl

/-- **C182.**  The decoding of a tile with at least one superblock does not depend on the contexts of coefficients, the deltas of the loop filter and the reference values of the self guided filter that
earlier tiles left: the tile data, the CDFs and the other state determine its pixels, its records and what is read. -/
theorem C182_leftovers (grow : Nat → Nat) (k : Fin 4) (disable : Bool) (fuel : Nat) {h : FrHdr} {lh : LrHdr} {run : TileRun} (hc : h.tile.colStart = run.colStart) (h1 : run.rowStart < run.rowEnd)
    (h2 : run.colStart < run.colEnd) (x : TileSt) (log : List Ev) (st : Sym) (l : LevelCtx) (d : List Int) (q : List (List Int)) (rd : Bool) (hq : q.drop lh.numPlanes = x.lr.refXqd.drop lh.numPlanes) :
    realTile grow k disable fuel h lh run (withLeftovers x l d q rd, log) st = realTile grow k disable fuel h lh run (x, log) st := by
  unfold realTile tileEvents decodeTile
  dsimp only
  rw [tileReset_leftovers h _ x l d q rd hq]
  congr 1
  funext u
  obtain ⟨n, hn⟩ : ∃ n, run.rowEnd - run.rowStart = n + 1 := ⟨run.rowEnd - run.rowStart - 1, by omega⟩
  obtain ⟨m, hm⟩ : ∃ m, run.colEnd - run.colStart = m + 1 := ⟨run.colEnd - run.colStart - 1, by omega⟩
  rw [hn, sbRows, sbRows, if_pos h1, if_pos h1]
  dsimp only
  congr 1
  funext v
  congr 1
  rw [hm, sbCols, sbCols, if_pos h2, if_pos h2]
  dsimp only
  congr 1
  unfold sbEvents
  dsimp only
  rw [sbPre_lefts hc.symm]

-- the hypotheses are met: the only tile of a frame of 8x8 pixels, with other contexts, deltas and references
example : bkHdr.tile.colStart = oneTile.colStart ∧ oneTile.rowStart < oneTile.rowEnd ∧ oneTile.colStart < oneTile.colEnd := by decide

/-- What the first tile of a frame leaves does not matter to the pixels of the next frame: a tile decoded with the contexts of the frame before. -/
example (l : LevelCtx) (st : Sym) : realTile (fun n => n) 1 false 32 bkHdr { types := [0, 0, 0] } oneTile (withLeftovers bkTile l [9, 9, 9, 9] bkTile.lr.refXqd true, []) st =
    realTile (fun n => n) 1 false 32 bkHdr { types := [0, 0, 0] } oneTile (bkTile, []) st :=
  C182_leftovers _ 1 false 32 rfl (by decide) (by decide) bkTile [] st l _ _ true rfl

end Gov1
