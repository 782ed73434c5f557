import Verif.Spec.TileCoding
import Verif.Props.Tiles
import Verif.Props.BitStream
import Verif.Lemmas.Reads

/-! # C203: the tile layout reads back -/

namespace Gov1
open Spec

/-! ## Limits -/

theorem log2Up_le (n k : Nat) : log2Up n ≤ k ↔ n ≤ 2 ^ k := by
  unfold log2Up
  have := Nat.two_pow_pos k
  split
  · exact ⟨fun _ => by omega, fun _ => Nat.zero_le _⟩
  · rw [Nat.succ_le_iff, Nat.log2_lt (by omega)]; omega

theorem halvings_le {part : Nat} (hp : 1 ≤ part) (n k : Nat) : halvings part n ≤ k ↔ n ≤ part * 2 ^ k := by
  unfold halvings
  rw [log2Up_le]
  constructor
  · intro h
    have := (Nat.div_lt_iff_lt_mul hp).mp (Nat.lt_succ_of_le h)
    rw [Nat.succ_mul, Nat.mul_comm] at this
    omega
  · intro h
    refine Nat.lt_succ_iff.mp ((Nat.div_lt_iff_lt_mul hp).mpr ?_)
    rw [Nat.succ_mul, Nat.mul_comm]
    omega

theorem tileLog2_halvings {part : Nat} (hp : 1 ≤ part) (n : Nat) : tileLog2 (part : Int) (n : Int) = .ok (halvings part n) := by
  obtain ⟨k, e, h1, h2⟩ := tileLog2_nat part n hp
  have : k = halvings part n := Nat.le_antisymm (h2 _ ((halvings_le hp n _).mp (Nat.le_refl _))) ((halvings_le hp n k).mpr h1)
  rw [e, this]

theorem tileLog2_one (n : Nat) : tileLog2 1 (n : Int) = .ok (log2Up n) := by
  have := tileLog2_halvings (Nat.le_refl 1) n
  unfold halvings at this
  rwa [Nat.add_sub_cancel, Nat.div_one] at this

/-- On any stream that starts with `bits`, the reader consumes exactly `bits` and returns something of which `P` holds. -/
def ReadsP {α : Type} (m : BM α) (bits : List Bool) (P : α → Prop) : Prop :=
  ∀ (s : BitStream) (rest : List Bool), unread s = bits ++ rest → ∃ a, m s = .ok (a, s.advance bits.length) ∧ P a

theorem Reads.toP {α : Type} {m : BM α} {b : List Bool} {a : α} (h : Reads m b a) : ReadsP m b (· = a) :=
  fun s rest hs => ⟨a, h s rest hs, rfl⟩

theorem ReadsP.bind {α β : Type} {m : BM α} {k : α → BM β} {b1 b2 : List Bool} {P : α → Prop} {Q : β → Prop}
    (hm : ReadsP m b1 P) (hk : ∀ a, P a → ReadsP (k a) b2 Q) : ReadsP (m >>= k) (b1 ++ b2) Q := by
  intro s rest h
  rw [List.append_assoc] at h
  obtain ⟨a, e, hp⟩ := hm s _ h
  obtain ⟨c, e2, hq⟩ := hk a hp _ rest (unread_drop h)
  exact ⟨c, by rw [BM.bind_ok e, e2, advance_advance, List.length_append], hq⟩

theorem ReadsP.of {α β : Type} {m : BM α} {k : α → BM β} {b1 b2 : List Bool} {a : α} {Q : β → Prop}
    (hm : Reads m b1 a) (hk : ReadsP (k a) b2 Q) : ReadsP (m >>= k) (b1 ++ b2) Q :=
  hm.toP.bind fun _ h => h ▸ hk

theorem ReadsP.of0 {α β : Type} {m : BM α} {k : α → BM β} {b2 : List Bool} {a : α} {Q : β → Prop}
    (hm : Reads m [] a) (hk : ReadsP (k a) b2 Q) : ReadsP (m >>= k) b2 Q := ReadsP.of hm hk

theorem ReadsP.pure {α : Type} {a : α} {P : α → Prop} (h : P a) : ReadsP (Pure.pure a : BM α) [] P := fun _ _ _ => ⟨a, rfl, h⟩

theorem ReadsP.mono {α : Type} {m : BM α} {b : List Bool} {P Q : α → Prop} (h : ReadsP m b P) (hq : ∀ a, P a → Q a) : ReadsP m b Q :=
  fun s rest hs => (h s rest hs).imp fun _ h => ⟨h.1, hq _ h.2⟩

theorem Reads.last' {α β : Type} {m : BM α} {k : α → BM β} {b : List Bool} {a : α} {c : β} (hm : Reads m b a) (hk : Reads (k a) [] c) :
    Reads (m >>= k) b c := by
  have := Reads.bind (b2 := []) hm hk; simpa using this

/-! ## Explicit sizes -/

theorem foldl_widest (ws : List Nat) : ∀ a, ws.foldl (fun a w => max w a) a = max a (ws.foldr max 0) := by
  induction ws with
  | nil => intro a; simp
  | cons w ws ih => intro a; rw [List.foldl_cons, ih, List.foldr_cons]; omega

/-- The slice after the boundaries of `ws` are written from entry `i` on. -/
def filled (shift start i : Nat) (ws starts : List Nat) : List Nat :=
  starts.take i ++ ((List.range ws.length).map fun k => (start + (ws.take k).sum) <<< shift) ++ starts.drop (i + ws.length)

theorem filled_cons {shift start i w : Nat} {ws starts : List Nat} (hi : i < starts.length) :
    filled shift (start + w) (i + 1) ws (starts.set i (start <<< shift)) = filled shift start i (w :: ws) starts := by
  unfold filled
  rw [List.drop_set_of_lt (by omega), List.take_set, List.length_cons, List.range_succ_eq_map, List.map_cons, List.map_map]
  have e : (starts.take (i + 1)).set i (start <<< shift) = starts.take i ++ [start <<< shift] := by
    rw [List.take_add_one, List.getElem?_eq_getElem hi]
    rw [List.set_append_right _ _ (by simp)]
    simp [Nat.min_eq_left (Nat.le_of_lt hi)]
  rw [e]
  have e2 : i + 1 + ws.length = i + (ws.length + 1) := by omega
  rw [e2]
  simp only [List.append_assoc, List.cons_append, List.nil_append, List.take_zero, List.sum_nil, Nat.add_zero]
  congr 3
  refine List.map_congr_left fun k _ => ?_
  simp only [Function.comp, List.take_succ_cons, List.sum_cons]
  rw [Nat.add_assoc]

theorem sizesLoop_reads {sb shift M : Nat} (ws : List Nat) : ∀ (fuel start i widest : Nat) (starts : List Nat),
    (∀ w ∈ ws, 1 ≤ w ∧ w ≤ M) → start + ws.sum = sb → ws.length ≤ fuel → i + ws.length ≤ starts.length →
    Reads (sizesLoop sb shift M fuel start i widest starts) (encSizes M ws)
      (i + ws.length, filled shift start i ws starts, ws.foldl (fun a w => max w a) widest) := by
  induction ws with
  | nil =>
    intro fuel start i widest starts _ hs _ _
    unfold sizesLoop
    rw [List.sum_nil] at hs
    rw [if_neg (by omega)]
    have e : filled shift start i [] starts = starts := by simp [filled]
    rw [e]
    exact Reads.pure _
  | cons w ws ih =>
    intro fuel start i widest starts hw hs hf hl
    obtain ⟨h1, h2⟩ := hw w (List.mem_cons_self ..)
    rw [List.sum_cons] at hs
    rw [List.length_cons] at hf hl
    unfold sizesLoop
    rw [if_pos (by omega)]
    cases fuel with
    | zero => omega
    | succ fuel =>
      dsimp only
      rw [goSet_nat, if_pos (by omega)]
      refine Reads.bind0 (a := starts.set i (start <<< shift)) (fun _ _ _ => rfl) ?_
      have em : minI ((sb : Int) - start) M = ((min (w + ws.sum) M : Nat) : Int) := by
        unfold minI
        split <;> omega
      rw [em]
      unfold encSizes
      refine Reads.bind (a := ((w - 1 : Nat) : Int)) (fun s rest h => C03_ns_roundtrip _ _ (by omega) s rest h) ?_
      have ez : ((((w - 1 : Nat) : Int) + 1).toNat) = w := by omega
      rw [ez]
      have := ih fuel (start + w) (i + 1) (max w widest) (starts.set i (start <<< shift)) (fun x hx => hw x (List.mem_cons_of_mem _ hx))
        (by omega) (by omega) (by rw [List.length_set]; omega)
      rw [filled_cons (by omega)] at this
      rw [show i + (w :: ws).length = i + 1 + ws.length by rw [List.length_cons]; omega]
      exact this

theorem length_le_sum {ws : List Nat} {M : Nat} (h : ∀ w ∈ ws, 1 ≤ w ∧ w ≤ M) : ws.length ≤ ws.sum := by
  induction ws with
  | nil => simp
  | cons w ws ih =>
    have := ih fun x hx => h x (List.mem_cons_of_mem _ hx)
    have := (h w (List.mem_cons_self ..)).1
    rw [List.length_cons, List.sum_cons]; omega

/-- The boundaries that a complete run leaves. -/
theorem filled_done {ws : List Nat} {sb total : Nat} (hl : ws.length ≤ sb) :
    goSet (filled 4 0 0 ws (List.replicate (sb + 1) 0)) (ws.length : Nat) total =
      .ok (((List.range ws.length).map fun k => 16 * (ws.take k).sum) ++ total :: List.replicate (sb - ws.length) 0) := by
  rw [goSet_nat]
  have e : filled 4 0 0 ws (List.replicate (sb + 1) 0) = ((List.range ws.length).map fun k => 16 * (ws.take k).sum) ++ List.replicate (sb + 1 - ws.length) 0 := by
    unfold filled
    rw [List.take_zero, List.nil_append, List.drop_replicate, Nat.zero_add]
    congr 2
    funext k
    rw [Nat.zero_add, Nat.shiftLeft_eq, Nat.mul_comm]
  rw [e, if_pos (by simp; omega), List.set_append_right _ _ (by simp)]
  have e2 : sb + 1 - ws.length = (sb - ws.length) + 1 := by omega
  simp [e2, List.replicate_succ]

theorem sb_eq (mi : Nat) : (mi + 15) >>> 4 = superblocks mi := by
  unfold superblocks; rw [Nat.shiftRight_eq_div_pow]

theorem widest_pos {ws : List Nat} {M : Nat} (h : ∀ w ∈ ws, 1 ≤ w ∧ w ≤ M) (hs : 0 < ws.sum) : ws.foldr max 0 ≠ 0 := by
  cases ws with
  | nil => simp at hs
  | cons w ws =>
    have := (h w (List.mem_cons_self ..)).1
    rw [List.foldr_cons]; omega

theorem take_edges (a : List Nat) (x : Nat) (b : List Nat) (n : Nat) (h : a.length = n) : (a ++ x :: b).take (n + 1) = a ++ [x] := by
  subst h
  rw [List.take_append, List.take_of_length_le (Nat.le_succ _), Nat.add_sub_cancel_left]
  rfl

/-- The tile layout read. -/
structure TilesRead (miCols miRows old : Nat) (t : TileCoding) (r : Tiles) : Prop where
  counts : (r.tileCols, r.tileRows) = t.layout.counts (superblocks miCols) (superblocks miRows)
  cols : r.colBounds = t.colEdges miCols
  rows : r.rowBounds = t.rowEdges miRows
  logs : (r.tileColsLog2, r.tileRowsLog2) = t.layout.logs
  tile : r.contextUpdateTileId = t.contextTile
  bytes : r.tileSizeBytes = if t.layout.logs = (0, 0) then old else t.sizeBytes

theorem explicit_reads {miCols miRows : Nat} (hc : 1 ≤ miCols) {w h : List Nat}
    (hv : (TileLayout.explicit w h).Valid (superblocks miCols) (superblocks miRows)) :
    Reads (explicitTiles 4 (superblocks miCols) (superblocks miRows) 64 (minTilesLog2 (superblocks miCols) (superblocks miRows)) miCols miRows)
      (encSizes 64 w ++ encSizes (maxHeight (superblocks miCols) (superblocks miRows) w) h)
      (((List.range w.length).map fun k => 16 * (w.take k).sum) ++ miCols :: List.replicate (superblocks miCols - w.length) 0, w.length, log2Up w.length,
       ((List.range h.length).map fun k => 16 * (h.take k).sum) ++ miRows :: List.replicate (superblocks miRows - h.length) 0, h.length, log2Up h.length) := by
  obtain ⟨⟨h1, h2⟩, h3, h4⟩ := hv
  have l1 := length_le_sum h1
  have l2 := length_le_sum h3
  have hp : 0 < superblocks miCols := by unfold superblocks; omega
  unfold explicitTiles
  refine Reads.bind (sizesLoop_reads w (superblocks miCols + 1) 0 0 0 _ h1 (by omega) (by omega) (by simp; omega)) ?_
  dsimp only
  rw [Nat.zero_add, filled_done (by omega)]
  refine Reads.bind0 (a := _) (fun _ _ _ => rfl) ?_
  rw [tileLog2_one]
  refine Reads.bind0 (a := _) (fun _ _ _ => rfl) ?_
  rw [foldl_widest, Nat.zero_max, if_neg (widest_pos h1 (by omega))]
  have eh : max ((if minTilesLog2 (superblocks miCols) (superblocks miRows) > 0 then
      (superblocks miRows * superblocks miCols) >>> (minTilesLog2 (superblocks miCols) (superblocks miRows) + 1)
      else superblocks miRows * superblocks miCols) / w.foldr max 0) 1 = maxHeight (superblocks miCols) (superblocks miRows) w := by
    unfold maxHeight
    by_cases h0 : minTilesLog2 (superblocks miCols) (superblocks miRows) = 0
    · rw [if_pos h0, if_neg (by omega)]
    · rw [if_neg h0, if_pos (by omega), Nat.shiftRight_eq_div_pow]
  rw [eh]
  refine Reads.last' (sizesLoop_reads h (superblocks miRows + 1) 0 0 0 _ h3 (by omega) (by omega) (by simp; omega)) ?_
  dsimp only
  rw [Nat.zero_add, filled_done (by omega)]
  refine Reads.bind0 (a := _) (fun _ _ _ => rfl) ?_
  rw [tileLog2_one]
  exact Reads.bind0 (a := _) (fun _ _ _ => rfl) (Reads.pure _)

/-! ## Uniform sizes -/

theorem incLoop_reads : ∀ (n lo v : Nat), lo ≤ v → v ≤ lo + n → Reads (incLoop n lo) (encSteps lo (lo + n) v) v := by
  intro n
  induction n with
  | zero =>
    intro lo v h1 h2
    have : v = lo := by omega
    subst this
    unfold encSteps incLoop
    rw [Nat.sub_self, if_neg (by omega)]
    exact Reads.pure _
  | succ n ih =>
    intro lo v h1 h2
    unfold incLoop
    rcases Nat.eq_or_lt_of_le h1 with h | h
    · subst h
      unfold encSteps
      rw [Nat.sub_self, if_pos (by omega)]
      exact Reads.bind (b1 := [false]) (b2 := []) (Reads.flag false) (Reads.pure _)
    · have e : encSteps lo (lo + (n + 1)) v = [true] ++ encSteps (lo + 1) (lo + 1 + n) v := by
        unfold encSteps
        rw [show v - lo = (v - (lo + 1)) + 1 by omega, List.replicate_succ, show lo + (n + 1) = lo + 1 + n by omega]
        rfl
      rw [e]
      refine Reads.bind (Reads.flag true) ?_
      rw [if_pos rfl]
      exact ih (lo + 1) v (by omega) (by omega)

theorem startsLoop_filled {sb shift w : Nat} : ∀ (n fuel start i : Nat) (starts : List Nat), (∀ k, k < n → start + k * w < sb) → sb ≤ start + n * w →
    n ≤ fuel → i + n ≤ starts.length →
    startsLoop sb shift w fuel start i starts = .ok (i + n, filled shift start i (List.replicate n w) starts) := by
  intro n
  induction n with
  | zero =>
    intro fuel start i starts _ h2 _ _
    unfold startsLoop
    rw [if_neg (by omega)]
    simp [filled]
  | succ n ih =>
    intro fuel start i starts h1 h2 h3 h4
    unfold startsLoop
    have h0 := h1 0 (by omega)
    rw [if_pos (by omega)]
    cases fuel with
    | zero => omega
    | succ fuel =>
      dsimp only
      rw [goSet_nat, if_pos (by omega)]
      dsimp only [bind, Except.bind]
      rw [ih fuel (start + w) (i + 1) _ (fun k hk => by have := h1 (k + 1) (by omega); rw [Nat.succ_mul] at this; omega)
        (by rw [Nat.succ_mul] at h2; omega) (by omega) (by rw [List.length_set]; omega), filled_cons (by omega), List.replicate_succ]
      congr 2
      omega

theorem uniform_starts {sb c total : Nat} (hs : 1 ≤ sb) :
    ∃ l, startsLoop sb 4 ((sb + (1 <<< c) - 1) >>> c) (sb + 1) 0 0 (List.replicate (sb + 1) 0) = .ok (uniformParts sb c, l) ∧
      goSet l (uniformParts sb c : Nat) total =
        .ok (((List.range (uniformParts sb c)).map fun k => 16 * (k * uniformSize sb c)) ++ total :: List.replicate (sb - uniformParts sb c) 0) := by
  have ew : (sb + (1 <<< c) - 1) >>> c = uniformSize sb c := by
    unfold uniformSize; rw [Nat.shiftRight_eq_div_pow, Nat.one_shiftLeft]
  have hw : 1 ≤ uniformSize sb c := ew ▸ ceil_pos hs
  rw [ew]
  have hn : ∀ k, k < uniformParts sb c ↔ k * uniformSize sb c < sb := by
    intro k
    unfold uniformParts
    rw [Nat.lt_iff_add_one_le, Nat.le_div_iff_mul_le hw, Nat.succ_mul]
    omega
  have hle : uniformParts sb c ≤ sb := by
    by_contra h
    have h1 := (hn sb).mp (by omega)
    have := Nat.mul_le_mul_left sb hw
    omega
  refine ⟨filled 4 0 0 (List.replicate (uniformParts sb c) (uniformSize sb c)) (List.replicate (sb + 1) 0), ?_, ?_⟩
  · rw [startsLoop_filled (uniformParts sb c) (sb + 1) 0 0 _ (fun k hk => by rw [Nat.zero_add]; exact (hn k).mp hk) ?_ (by omega) (by simp; omega), Nat.zero_add]
    rw [Nat.zero_add]
    by_contra h
    have := (hn (uniformParts sb c)).mpr (by omega)
    omega
  · have := filled_done (ws := List.replicate (uniformParts sb c) (uniformSize sb c)) (sb := sb) (total := total) (by simpa using hle)
    rw [List.length_replicate] at this
    rw [this]
    congr 2
    refine List.map_congr_left fun k hk => ?_
    rw [List.take_replicate, List.sum_replicate_nat, Nat.min_eq_left (Nat.le_of_lt (List.mem_range.mp hk))]

theorem uniform_reads {miCols miRows c r : Nat} (hc : 1 ≤ miCols) (hr : 1 ≤ miRows)
    (hv : (TileLayout.uniform c r).Valid (superblocks miCols) (superblocks miRows))
    (hR : maxLog2 (superblocks miRows) ≤ minTilesLog2 (superblocks miCols) (superblocks miRows) - c) :
    Reads (uniformTiles 4 (superblocks miCols) (superblocks miRows) (minColsLog2 (superblocks miCols)) (maxLog2 (superblocks miCols)) (maxLog2 (superblocks miRows))
        (minTilesLog2 (superblocks miCols) (superblocks miRows)) miCols miRows)
      (encSteps (minColsLog2 (superblocks miCols)) (maxLog2 (superblocks miCols)) c ++
        encSteps (minTilesLog2 (superblocks miCols) (superblocks miRows) - c) (maxLog2 (superblocks miRows)) r)
      (((List.range (uniformParts (superblocks miCols) c)).map fun k => 16 * (k * uniformSize (superblocks miCols) c)) ++ miCols ::
          List.replicate (superblocks miCols - uniformParts (superblocks miCols) c) 0, uniformParts (superblocks miCols) c, c,
       ((List.range (uniformParts (superblocks miRows) r)).map fun k => 16 * (k * uniformSize (superblocks miRows) r)) ++ miRows ::
          List.replicate (superblocks miRows - uniformParts (superblocks miRows) r) 0, uniformParts (superblocks miRows) r, r) := by
  obtain ⟨⟨h1, h2⟩, h3, h4⟩ := hv
  have er : r = minTilesLog2 (superblocks miCols) (superblocks miRows) - c := by omega
  have e0 : encSteps (minTilesLog2 (superblocks miCols) (superblocks miRows) - c) (maxLog2 (superblocks miRows)) r = [] := by
    unfold encSteps; rw [← er, Nat.sub_self, if_neg (by omega)]; rfl
  have hpc : 1 ≤ superblocks miCols := by unfold superblocks; omega
  have hpr : 1 ≤ superblocks miRows := by unfold superblocks; omega
  unfold uniformTiles
  rw [e0]
  have hi := incLoop_reads (maxLog2 (superblocks miCols) - minColsLog2 (superblocks miCols)) (minColsLog2 (superblocks miCols)) c h1 (by omega)
  rw [show minColsLog2 (superblocks miCols) + (maxLog2 (superblocks miCols) - minColsLog2 (superblocks miCols)) = maxLog2 (superblocks miCols) by omega] at hi
  refine Reads.bind hi ?_
  obtain ⟨l1, s1, s2⟩ := uniform_starts (c := c) (total := miCols) hpc
  obtain ⟨l2, s3, s4⟩ := uniform_starts (c := r) (total := miRows) hpr
  dsimp only
  rw [s1]
  refine Reads.bind0 (a := _) (fun _ _ _ => rfl) ?_
  dsimp only
  rw [s2]
  refine Reads.bind0 (a := _) (fun _ _ _ => rfl) ?_
  refine Reads.bind0 (a := r) (fun _ _ _ => ?_) ?_
  · rw [← er, decLoop_le (by omega)]; rfl
  rw [s3]
  refine Reads.bind0 (a := _) (fun _ _ _ => rfl) ?_
  dsimp only
  rw [s4]
  exact Reads.bind0 (a := _) (fun _ _ _ => rfl) (Reads.pure _)

/-! ## The whole syntax -/

theorem tiles_of {miCols miRows old : Nat} {t : TileCoding} (ht : t.Valid miCols miRows) {cs rs : List Nat} {i j : Nat}
    (hn : (i, j) = t.layout.counts (superblocks miCols) (superblocks miRows))
    (hc : cs.take (i + 1) = t.colEdges miCols) (hr : rs.take (j + 1) = t.rowEdges miRows) {m : BM (List Nat × Nat × Nat × List Nat × Nat × Nat)} {b : List Bool}
    (hm : Reads m b (cs, i, t.layout.logs.1, rs, j, t.layout.logs.2)) :
    ReadsP (m >>= fun r => if r.2.2.1 > 0 ∨ r.2.2.2.2.2 > 0 then do
            let id ← F (r.2.2.2.2.2 + r.2.2.1)
            let b ← F 2
            pure (⟨r.1, r.2.2.2.1, r.2.1, r.2.2.2.2.1, r.2.2.1, r.2.2.2.2.2, b + 1, id⟩ : Tiles)
          else pure ⟨r.1, r.2.2.2.1, r.2.1, r.2.2.2.2.1, r.2.2.1, r.2.2.2.2.2, old, 0⟩)
      (b ++ if t.layout.logs = (0, 0) then [] else encF (t.layout.logs.1 + t.layout.logs.2) t.contextTile ++ encF 2 (t.sizeBytes - 1))
      (TilesRead miCols miRows old t) := by
  refine ReadsP.of hm ?_
  dsimp only
  by_cases h0 : t.layout.logs = (0, 0)
  · have e1 : t.layout.logs.1 = 0 := by rw [h0]
    have e2 : t.layout.logs.2 = 0 := by rw [h0]
    rw [if_pos h0, if_neg (by omega)]
    refine ReadsP.pure ⟨hn, hc, hr, rfl, ?_, by rw [if_pos h0]⟩
    have := ht.tile
    rw [e1, e2] at this
    show 0 = t.contextTile
    omega
  · have h1 : t.layout.logs.1 > 0 ∨ t.layout.logs.2 > 0 := by
      by_contra h
      exact h0 (Prod.ext (by show _ = 0; omega) (by show _ = 0; omega))
    rw [if_neg h0, if_pos h1]
    rw [Nat.add_comm t.layout.logs.2]
    refine ReadsP.of (Reads.F ht.tile) ?_
    have := ht.bytes
    refine (Reads.toP (Reads.bindLast (f := fun b => (⟨cs, rs, i, j, t.layout.logs.1, t.layout.logs.2, b + 1, t.contextTile⟩ : Tiles))
      (Reads.F (n := 2) (v := t.sizeBytes - 1) (by omega)))).mono ?_
    rintro r rfl
    refine ⟨hn, hc, hr, rfl, rfl, ?_⟩
    rw [if_neg h0]
    show t.sizeBytes - 1 + 1 = _
    omega

/-- The rows of the layout need no bits: the tiles have explicit sizes, or their number of rows is determined. -/
def RowsFixed (miCols miRows : Nat) (t : TileCoding) : Prop :=
  ∀ c r, t.layout = .uniform c r → maxLog2 (superblocks miRows) ≤ minTilesLog2 (superblocks miCols) (superblocks miRows) - c

/-- C203 with `ReadsP`. -/
theorem newTileInfo_reads (miCols miRows old : Nat) (hc : 1 ≤ miCols) (hr : 1 ≤ miRows) (t : TileCoding) (ht : t.Valid miCols miRows)
    (hR : RowsFixed miCols miRows t) :
    ReadsP (newTileInfo false miCols miRows old) (t.enc miCols miRows) (TilesRead miCols miRows old t) := by
  have hl : ∀ sb, tileLog2 1 ((min sb 64 : Nat) : Int) = .ok (maxLog2 sb) := fun sb => tileLog2_one _
  have e1 := tileLog2_halvings (part := 64) (by omega) (superblocks miCols)
  have e2 := tileLog2_halvings (part := 2304) (by omega) (superblocks miRows * superblocks miCols)
  unfold newTileInfo TileCoding.enc
  simp only [tileSbCols, tileSbRows, tileSbShift, Bool.false_eq_true, if_false, sb_eq,
    show 4096 >>> (4 + 2) = 64 from rfl, show (4096 * 2304) >>> (2 * (4 + 2)) = 2304 from rfl, e1, e2, hl, BM.lift_ok, BM.pure_bind]
  obtain ⟨lay, ct, sz⟩ := t
  cases lay with
  | uniform c r =>
    rw [show TileLayout.enc (superblocks miCols) (superblocks miRows) (.uniform c r) = [true] ++ _ from rfl, List.append_assoc]
    refine ReadsP.of (Reads.flag true) ?_
    rw [if_pos rfl]
    exact tiles_of (t := ⟨.uniform c r, ct, sz⟩) ht rfl (take_edges _ _ _ _ (by rw [List.length_map, List.length_range]; rfl)) (take_edges _ _ _ _ (by rw [List.length_map, List.length_range]; rfl)) (uniform_reads hc hr ht.layout (hR c r rfl))
  | explicit w h =>
    rw [show TileLayout.enc (superblocks miCols) (superblocks miRows) (.explicit w h) = [false] ++ _ from rfl, List.append_assoc]
    refine ReadsP.of (Reads.flag false) ?_
    rw [if_neg Bool.false_ne_true]
    exact tiles_of (t := ⟨.explicit w h, ct, sz⟩) ht rfl (take_edges _ _ _ _ (by rw [List.length_map, List.length_range]; rfl)) (take_edges _ _ _ _ (by rw [List.length_map, List.length_range]; rfl)) (explicit_reads hc ht.layout)

/-- The AV1 property: the tile layout of every frame with 64x64 superblocks reads back.  False of the code for uniform tiles whose number of rows
is coded (C63). -/
def C203_tile_layout_statement : Prop :=
  ∀ (miCols miRows old : Nat) (t : TileCoding) (s : BitStream) (rest : List Bool), 1 ≤ miCols → 1 ≤ miRows → t.Valid miCols miRows →
    unread s = t.enc miCols miRows ++ rest →
    ∃ r, newTileInfo false miCols miRows old s = .ok (r, s.advance (t.enc miCols miRows).length) ∧ TilesRead miCols miRows old t r

/-- **C203** (partial: uniform tiles only if the number of their rows is not coded).  The tile layout reads back: the edges and numbers of columns and rows, the tile whose
probabilities are kept, and the length of the tile sizes; just its bits are consumed. -/
theorem C203_tile_layout_partial (miCols miRows old : Nat) (t : TileCoding) (s : BitStream) (rest : List Bool) (hc : 1 ≤ miCols) (hr : 1 ≤ miRows)
    (ht : t.Valid miCols miRows)
    (hR : ∀ c r, t.layout = .uniform c r → maxLog2 (superblocks miRows) ≤ minTilesLog2 (superblocks miCols) (superblocks miRows) - c)
    (hs : unread s = t.enc miCols miRows ++ rest) :
    ∃ r, newTileInfo false miCols miRows old s = .ok (r, s.advance (t.enc miCols miRows).length) ∧ TilesRead miCols miRows old t r :=
  newTileInfo_reads miCols miRows old hc hr t ht hR s rest hs

/-- Explicit tiles of every frame read back. -/
theorem C203_explicit_tiles (miCols miRows old : Nat) (w h : List Nat) (tile bytes : Nat) (s : BitStream) (rest : List Bool) (hc : 1 ≤ miCols) (hr : 1 ≤ miRows)
    (ht : TileCoding.Valid miCols miRows ⟨.explicit w h, tile, bytes⟩) (hs : unread s = TileCoding.enc miCols miRows ⟨.explicit w h, tile, bytes⟩ ++ rest) :
    ∃ r, newTileInfo false miCols miRows old s = .ok (r, s.advance (TileCoding.enc miCols miRows ⟨.explicit w h, tile, bytes⟩).length) ∧
      TilesRead miCols miRows old ⟨.explicit w h, tile, bytes⟩ r :=
  C203_tile_layout_partial miCols miRows old _ s rest hc hr ht (fun _ _ h => nomatch h) hs

/-- Columns of 3 and 2 superblocks, rows of 1, 2 and 1 superblocks, in a frame of 74 by 50 units: 13 bits. -/
def tileSample : TileCoding := ⟨.explicit [3, 2] [1, 2, 1], 5, 2⟩

theorem tileSample_valid : tileSample.Valid 74 50 where
  layout := by
    refine ⟨⟨by decide, by decide⟩, ?_, by decide⟩
    decide
  tile := by decide
  bytes := by decide

example : tileSample.enc 74 50 = [false, true, false, true, false, false, true, false, true, false, true, false, true] := by decide

example : tileSample.colEdges 74 = [0, 48, 74] ∧ tileSample.rowEdges 50 = [0, 16, 48, 50] := by decide

/-- Two uniform columns in a frame one superblock high. -/
example : TileCoding.Valid 32 16 ⟨.uniform 1 0, 1, 4⟩ ∧ RowsFixed 32 16 ⟨.uniform 1 0, 1, 4⟩ ∧
    TileCoding.enc 32 16 ⟨.uniform 1 0, 1, 4⟩ = [true, true, true, true, true] :=
  ⟨⟨by unfold TileLayout.Valid; decide, by decide, by decide⟩, fun c r h => by cases h; decide, by decide⟩

/-- **C203 is false of the code**: of the two bits for one uniform tile in a frame of two rows of superblocks, only the first is read. -/
theorem C203_tile_layout_statement_refuted : ¬ C203_tile_layout_statement := by
  intro H
  obtain ⟨r, e, -⟩ := H 16 32 0 ⟨.uniform 0 0, 0, 4⟩ ⟨[128], 0, 0⟩ (List.replicate 6 false) (by decide) (by decide)
    ⟨by unfold TileLayout.Valid; decide, by decide, by decide⟩ (by decide)
  have h1 : ((newTileInfo false 16 32 0 ⟨[128], 0, 0⟩).map fun p => p.2.pos) = .ok 1 := by decide
  rw [e] at h1
  have h2 : (BitStream.advance ⟨[128], 0, 0⟩ (TileCoding.enc 16 32 ⟨.uniform 0 0, 0, 4⟩).length).pos = 2 := by decide
  have h3 := Except.ok.inj h1
  dsimp only at h3
  rw [h2] at h3
  cases h3

end Gov1
