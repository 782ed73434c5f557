import Verif.Props.ModeInfo
import Verif.Props.Coeffs
/-!
# C124-C127, C129: skip flag, availability, records and contexts of a block
-/
namespace Gov1
open Spec

/-! ## C124: skip flag -/

/-- AV1's context: the number of available neighbours (above, left) with the skip flag set. -/
def skipContext (u l : Option Int) : Int := u.getD 0 + l.getD 0

theorem cells_eq {b : MiBlk} {m : List (List Int)} {u l : Option Int} (hu : NbVal b.availU m (b.miRow - 1) b.miCol u)
    (hl : NbVal b.availL m b.miRow (b.miCol - 1) l) (hr : b.availU = true → 1 ≤ b.miRow) (hc : b.availL = true → 1 ≤ b.miCol) :
    cellAbove b m = .ok (u.getD 0) ∧ cellLeft b m = .ok (l.getD 0) := by
  unfold cellAbove cellLeft
  unfold NbVal at hu hl
  constructor
  · cases hv : b.availU
    · rw [hv] at hu; simp only [Bool.false_eq_true, if_false] at hu ⊢; subst hu; rfl
    · rw [hv] at hu; simp only [if_true] at hu ⊢
      obtain ⟨v, -, e, rfl⟩ := hu
      have := hr hv
      rw [show ((b.miRow : Int) - 1) = ((b.miRow - 1 : Nat) : Int) by omega]
      exact gget_at2 e
  · cases hv : b.availL
    · rw [hv] at hl; simp only [Bool.false_eq_true, if_false] at hl ⊢; subst hl; rfl
    · rw [hv] at hl; simp only [if_true] at hl ⊢
      obtain ⟨v, -, e, rfl⟩ := hl
      have := hc hv
      rw [show ((b.miCol : Int) - 1) = ((b.miCol - 1 : Nat) : Int) by omega]
      exact gget_at2 e

/-- **C124, segment feature.**  If segment ids precede the skip flag and the segment has the skip feature, the block is skipped and nothing is read. -/
theorem C124_segment (h : MiHdr) (b : MiBlk) (m : List (List Int)) (id : Nat) (hp : h.segIdPreSkip = 1) (he : h.segEnabled = true)
    (hf : at2 h.featureEnabled id 6 = some 1) : readSkip h b m id = Rd.ret 1 := by
  unfold readSkip skipBySegment miSegFeature
  rw [if_pos hp, if_pos he, show (6 : Int) = ((6 : Nat) : Int) from rfl, gget_at2 hf]
  rfl

theorem readSkip_eq (h : MiHdr) {b : MiBlk} {m : List (List Int)} {u l : Option Int} (hu : NbVal b.availU m (b.miRow - 1) b.miCol u)
    (hl : NbVal b.availL m b.miRow (b.miCol - 1) l) (hr : b.availU = true → 1 ≤ b.miRow) (hc : b.availL = true → 1 ≤ b.miCol)
    (id : Int) (hs : skipBySegment h id = .ok false) : readSkip h b m id = Rd.read "Skip" [u.getD 0 + l.getD 0] := by
  obtain ⟨e1, e2⟩ := cells_eq hu hl hr hc
  unfold readSkip skipCtx
  rw [hs, e1, e2]
  rfl

/-- **C124, what holds.**  A block without available neighbours reads its flag with AV1's context, and the flag comes back.  Missing: neighbours,
see `C124_context_refuted`. -/
theorem C124_partial (k : Fin 4) (h : MiHdr) {b : MiBlk} (m : List (List Int)) (hu : b.availU = false) (hl : b.availL = false)
    (id : Int) (hs : skipBySegment h id = .ok false) :
    readSkip h b m id = Rd.read "Skip" [skipContext none none] ∧ ∀ s < 2, (readSkip h b m id).Says (cdfLayout k) [s] s := by
  have e : readSkip h b m id = Rd.read "Skip" [skipContext none none] :=
    readSkip_eq h (u := none) (l := none) (by unfold NbVal; rw [hu]; rfl) (by unfold NbVal; rw [hl]; rfl) (by rw [hu]; intro h; cases h)
      (by rw [hl]; intro h; cases h) id hs
  refine ⟨e, fun s hs => ?_⟩
  rw [e]
  have i : ∀ k, cdfInfo k "Skip" = some ([], .box [3], 2) := by decide +kernel
  exact Rd.Says.read (count1 k (i k) (by decide)) hs

/-- **C124, refuted (context).**  Where the recorded skip modes are 0 (as in every intra frame, see `C126_records`), the decoder uses context 0,
whatever the skip flags of the neighbours are; AV1's context is their number. -/
theorem C124_context_refuted (h : MiHdr) {b : MiBlk} {skipModes skips : List (List Int)} {u l u' l' : Option Int}
    (hu : NbVal b.availU skips (b.miRow - 1) b.miCol u) (hl : NbVal b.availL skips b.miRow (b.miCol - 1) l)
    (hu' : NbVal b.availU skipModes (b.miRow - 1) b.miCol u') (hl' : NbVal b.availL skipModes b.miRow (b.miCol - 1) l')
    (hr : b.availU = true → 1 ≤ b.miRow) (hc : b.availL = true → 1 ≤ b.miCol)
    (hu0 : u'.getD 0 = 0) (hl0 : l'.getD 0 = 0) (id : Int) (hs : skipBySegment h id = .ok false) (h1 : u = some 1 ∨ l = some 1) :
    readSkip h b skipModes id = Rd.read "Skip" [0] ∧ 1 ≤ skipContext u l := by
  constructor
  · rw [readSkip_eq h hu' hl' hr hc id hs, hu0, hl0]; rfl
  · have n1 := hu.nonneg
    have n2 := hl.nonneg
    unfold skipContext
    have p1 : 0 ≤ u.getD 0 := by cases u with | none => decide | some v => exact n1 v rfl
    have p2 : 0 ≤ l.getD 0 := by cases l with | none => decide | some v => exact n2 v rfl
    rcases h1 with rfl | rfl
    · show 1 ≤ (1 : Int) + _; omega
    · show 1 ≤ _ + (1 : Int); omega

/-- **C124, refuted (panic).**  The array is 2x2: a block with a neighbour above and beyond its second unit panics. -/
theorem C124_panic_refuted (h : MiHdr) {b : MiBlk} {m : List (List Int)} (hm : Shape 2 2 m) (hu : b.availU = true) (hr : 1 ≤ b.miRow)
    (hbig : 3 ≤ b.miRow ∨ 2 ≤ b.miCol) (id : Int) (hs : skipBySegment h id = .ok false) : readSkip h b m id = .fail .index := by
  have e : cellAbove b m = .error .index := by
    unfold cellAbove
    rw [if_pos hu, show ((b.miRow : Int) - 1) = ((b.miRow - 1 : Nat) : Int) by omega]
    unfold gget goGet
    rw [if_neg (by omega)]
    cases hg : m[((b.miRow - 1 : Nat) : Int).toNat]? with
    | none => rfl
    | some row =>
      have hlt := (List.getElem?_eq_some_iff.mp hg).1
      rw [hm.1] at hlt
      have hrow := hm.2 row (List.mem_of_getElem? hg)
      have e2 : row[(b.miCol : Int).toNat]? = none := List.getElem?_eq_none (by omega)
      dsimp only
      rw [Res.ok_bind, if_neg (by omega), e2]
  unfold readSkip skipCtx
  rw [hs, e]
  rfl

example : (readSkip {} { miRow := 5, miCol := 0, availU := true } [[0, 0], [0, 0]] 0) = .fail .index :=
  C124_panic_refuted {} (b := { miRow := 5, miCol := 0, availU := true }) (Shape.replicate 2 2 0) rfl (by decide) (by decide) 0 rfl

/-! ## C125: availability -/

theorem isInside_iff (t : TileBox) (r c : Int) : isInside t r c = true ↔ inTile t.rowStart t.rowEnd t.colStart t.colEnd r c := by
  unfold isInside inTile
  simp only [Bool.and_eq_true, decide_eq_true_eq]
  omega

theorem ownsChroma_iff {r c bw4 bh4 subX subY : Nat} (hh : 0 < bh4) (hw : 0 < bw4) (hsx : subX < 2) (hsy : subY < 2) :
    ownsChroma r c bh4 bw4 subX subY ↔ ¬ (bh4 = 1 ∧ subY ≠ 0 ∧ r % 2 = 0) ∧ ¬ (bw4 = 1 ∧ subX ≠ 0 ∧ c % 2 = 0) := by
  constructor
  · rintro ⟨y, x, h1, h2, h3, h4, h5, h6⟩
    refine ⟨?_, ?_⟩
    · rintro ⟨a, b, d⟩
      have := h5 (by omega)
      omega
    · rintro ⟨a, b, d⟩
      have := h6 (by omega)
      omega
  · rintro ⟨h1, h2⟩
    refine ⟨if r % 2 = 1 ∨ subY = 0 then r else r + 1, if c % 2 = 1 ∨ subX = 0 then c else c + 1, ?_, ?_, ?_, ?_, ?_, ?_⟩
    · split <;> omega
    · split <;> omega
    · split <;> omega
    · split <;> omega
    · intro hs; split <;> omega
    · intro hs; split <;> omega

/-- A block of two or more rows (columns) starts at an even one. -/
def Aligned (r c bh4 bw4 : Nat) : Prop := (2 ≤ bh4 → r % 2 = 0) ∧ (2 ≤ bw4 → c % 2 = 0)

/-- **C125.**  For every block of a tile whose bounds are even: the block codes chroma samples exactly if there is chroma and it holds the last luma unit of
their area; the units above and left count as available exactly if they lie in the tile; and the chroma samples above (left) are available exactly
if the luma unit above (left of) the start of the chroma area lies in the tile. -/
theorem C125_availability (t : TileBox) (h : MiHdr) (hsx : h.subX < 2) (hsy : h.subY < 2) {r c size w4 h4 : Nat} (hw : goGet num4x4Wide (size : Int) = .ok w4)
    (hh : goGet num4x4High (size : Int) = .ok h4) (hal : Aligned r c h4 w4) (hin : inTile t.rowStart t.rowEnd t.colStart t.colEnd r c)
    (hev : t.rowStart % 2 = 0 ∧ t.colStart % 2 = 0) :
    ∃ a, blockAvail t h r c size = .ok a ∧
      (a.hasChroma = true ↔ h.chroma = true ∧ ownsChroma r c h4 w4 h.subX h.subY) ∧
      (a.u = true ↔ inTile t.rowStart t.rowEnd t.colStart t.colEnd ((r : Int) - 1) c) ∧
      (a.l = true ↔ inTile t.rowStart t.rowEnd t.colStart t.colEnd r ((c : Int) - 1)) ∧
      (a.uChroma = true ↔ a.hasChroma = true ∧
        inTile t.rowStart t.rowEnd t.colStart t.colEnd ((chromaStart r h.subY : Int) - 1) (chromaStart c h.subX)) ∧
      (a.lChroma = true ↔ a.hasChroma = true ∧
        inTile t.rowStart t.rowEnd t.colStart t.colEnd (chromaStart r h.subY) ((chromaStart c h.subX : Int) - 1)) := by
  have hs : size < 22 := by
    obtain ⟨-, g⟩ := goGet_inv hw
    exact (List.getElem?_eq_some_iff.mp g).1
  obtain ⟨-, -, -, w4', h4', -, -, -, -, -, -, -, e1, e2, -, pw, ph⟩ := block_facts hs
  rw [hw] at e1; cases e1
  rw [hh] at e2; cases e2
  have own := ownsChroma_iff (r := r) (c := c) ph pw hsx hsy
  have hcr : hasChromaOf h r c w4 h4 = true ↔ h.chroma = true ∧ ownsChroma r c h4 w4 h.subX h.subY := by
    rw [own]
    unfold hasChromaOf
    split
    · rename_i hx
      constructor
      · intro hf; cases hf
      · intro hf; exact absurd hx hf.2.1
    · split
      · rename_i hx
        constructor
        · intro hf; cases hf
        · intro hf; exact absurd hx hf.2.2
      · rename_i h1 h2
        exact ⟨fun hf => ⟨hf, h1, h2⟩, fun hf => hf.1⟩
  obtain ⟨al1, al2⟩ := hal
  obtain ⟨in1, in2, in3, in4⟩ := hin
  unfold blockAvail
  rw [hw, Res.ok_bind, hh, Res.ok_bind]
  dsimp only
  by_cases hc : hasChromaOf h r c w4 h4 = true
  · rw [if_pos hc]
    refine ⟨_, rfl, ⟨fun _ => hcr.mp hc, fun _ => rfl⟩, isInside_iff _ _ _, isInside_iff _ _ _, ?_, ?_⟩
    · obtain ⟨o1, o2⟩ := own.mp (hcr.mp hc).2
      dsimp only
      simp only [true_and]
      unfold chromaStart
      by_cases hx : h.subY ≠ 0 ∧ h4 = 1
      · rw [if_pos hx, isInside_iff, if_pos (show h.subY = 1 by omega)]
        unfold inTile
        split <;> omega
      · rw [if_neg hx, isInside_iff]
        unfold inTile
        split <;> split <;> omega
    · obtain ⟨o1, o2⟩ := own.mp (hcr.mp hc).2
      dsimp only
      simp only [true_and]
      unfold chromaStart
      by_cases hx : h.subX ≠ 0 ∧ w4 = 1
      · rw [if_pos hx, isInside_iff, if_pos (show h.subX = 1 by omega)]
        unfold inTile
        split <;> omega
      · rw [if_neg hx, isInside_iff]
        unfold inTile
        split <;> split <;> omega
  · rw [if_neg hc]
    refine ⟨_, rfl, ⟨fun hf => (by cases hf), fun hf => absurd (hcr.mpr hf) hc⟩, isInside_iff _ _ _, isInside_iff _ _ _, ?_, ?_⟩ <;>
    · constructor
      · intro hf; cases hf
      · intro hf; cases hf.1

example : blockAvail { rowEnd := 16, colEnd := 16 } {} 1 1 0 = .ok ⟨true, true, true, false, false⟩ := by decide
example : blockAvail { rowEnd := 16, colEnd := 16 } {} 3 2 0 = .ok ⟨false, true, true, false, false⟩ := by decide

/-! ## C126: records of a block -/

/-- A loop seen through a projection of its state. -/
theorem forN_proj {σ τ : Type} (π : σ → τ) {f : Nat → σ → Res σ} {g : Nat → τ → Res τ} (hfg : ∀ i s s', f i s = .ok s' → g i (π s) = .ok (π s')) (n : Nat) :
    ∀ (i : Nat) (s s' : σ), forN f n i s = .ok s' → forN g n i (π s) = .ok (π s') := by
  induction n with
  | zero => intro i s s' h; cases h; rfl
  | succ n ih =>
    intro i s s' h
    rw [forN] at h ⊢
    obtain ⟨t, h1, h2⟩ := Res.inv h
    rw [hfg i s t h1, Res.ok_bind]
    exact ih (i + 1) t s' h2

/-- A loop that never changes a part of its state. -/
theorem forN_const {σ τ : Type} (π : σ → τ) {f : Nat → σ → Res σ} (hf : ∀ i s s', f i s = .ok s' → π s' = π s) (n i : Nat) (s s' : σ)
    (h : forN f n i s = .ok s') : π s' = π s :=
  forN_inv (fun _ t => π t = π s) (fun j t t' _ _ ht e => (hf j t t' e).trans ht) h rfl

theorem storeBlkCell_inv {v : BlkVal} {r c : Int} {s s' : BlkRec} (h : storeBlkCell v r c s = .ok s') :
    gset s.isInters r c v.isInter = .ok s'.isInters ∧ gset s.skipModes r c v.skipMode = .ok s'.skipModes ∧ gset s.skips r c v.skip = .ok s'.skips ∧
    gset s.txSizes r c v.txSize = .ok s'.txSizes ∧ gset s.miSizes r c v.miSize = .ok s'.miSizes ∧ gset s.palY r c v.palY = .ok s'.palY ∧
    gset s.palUV r c v.palUV = .ok s'.palUV ∧ gset s.deltaLFs r c v.deltaLF = .ok s'.deltaLFs ∧ s'.segIds = s.segIds := by
  unfold storeBlkCell at h
  obtain ⟨a, h1, h⟩ := Res.inv h
  obtain ⟨b, h2, h⟩ := Res.inv h
  obtain ⟨k, h3, h⟩ := Res.inv h
  obtain ⟨t, h4, h⟩ := Res.inv h
  obtain ⟨m, h5, h⟩ := Res.inv h
  obtain ⟨p, h6, h⟩ := Res.inv h
  obtain ⟨q, h7, h⟩ := Res.inv h
  obtain ⟨d, h8, h⟩ := Res.inv h
  cases h
  exact ⟨h1, h2, h3, h4, h5, h6, h7, h8, rfl⟩

theorem storeBlk_proj {α : Type} {r c h w : Nat} {v : BlkVal} {s s' : BlkRec} (e : storeBlk r c h w v s = .ok s') (π : BlkRec → List (List α)) (x : α)
    (hπ : ∀ (i j : Int) (a b : BlkRec), storeBlkCell v i j a = .ok b → gset (π a) i j x = .ok (π b)) : fillBlock r c h w x (π s) = .ok (π s') :=
  forN_proj π (fun _ a b hab => forN_proj π (fun _ a b hab => hπ _ _ a b hab) w 0 a b hab) h 0 s s' e

/-- **C126 (records after reconstruction).**  If a block records its data at all, each of its units gets the block's inter flag, skip mode, skip flag,
transform size, block size, palette sizes and loop filter deltas, and no other unit changes.  Missing: segment ids, and blocks beyond 8x8 pixels, see below. -/
theorem C126_records_partial {r c h w : Nat} {v : BlkVal} {s s' : BlkRec} (e : storeBlk r c h w v s = .ok s') :
    Filled r c h w v.isInter s.isInters s'.isInters ∧ Filled r c h w v.skipMode s.skipModes s'.skipModes ∧ Filled r c h w v.skip s.skips s'.skips ∧
    Filled r c h w v.txSize s.txSizes s'.txSizes ∧ Filled r c h w v.miSize s.miSizes s'.miSizes ∧ Filled r c h w v.palY s.palY s'.palY ∧
    Filled r c h w v.palUV s.palUV s'.palUV ∧ Filled r c h w v.deltaLF s.deltaLFs s'.deltaLFs :=
  ⟨(fillBlock_inv (storeBlk_proj e (·.isInters) _ (fun _ _ _ _ h => (storeBlkCell_inv h).1))).1,
   (fillBlock_inv (storeBlk_proj e (·.skipModes) _ (fun _ _ _ _ h => (storeBlkCell_inv h).2.1))).1,
   (fillBlock_inv (storeBlk_proj e (·.skips) _ (fun _ _ _ _ h => (storeBlkCell_inv h).2.2.1))).1,
   (fillBlock_inv (storeBlk_proj e (·.txSizes) _ (fun _ _ _ _ h => (storeBlkCell_inv h).2.2.2.1))).1,
   (fillBlock_inv (storeBlk_proj e (·.miSizes) _ (fun _ _ _ _ h => (storeBlkCell_inv h).2.2.2.2.1))).1,
   (fillBlock_inv (storeBlk_proj e (·.palY) _ (fun _ _ _ _ h => (storeBlkCell_inv h).2.2.2.2.2.1))).1,
   (fillBlock_inv (storeBlk_proj e (·.palUV) _ (fun _ _ _ _ h => (storeBlkCell_inv h).2.2.2.2.2.2.1))).1,
   (fillBlock_inv (storeBlk_proj e (·.deltaLFs) _ (fun _ _ _ _ h => (storeBlkCell_inv h).2.2.2.2.2.2.2.1))).1⟩

/-- All arrays of the record have `H` rows of `W` units. -/
structure BlkRec.Sized (s : BlkRec) (H W : Nat) : Prop where
  isInters : Shape H W s.isInters
  skipModes : Shape H W s.skipModes
  skips : Shape H W s.skips
  txSizes : Shape H W s.txSizes
  miSizes : Shape H W s.miSizes
  palY : Shape H W s.palY
  palUV : Shape H W s.palUV
  deltaLFs : Shape H W s.deltaLFs

theorem shape_gset {α : Type} {H W i j : Nat} {m : List (List α)} (hs : Shape H W m) (hi : i < H) (hj : j < W) (v : α) :
    ∃ m', gset m (i : Int) (j : Int) v = .ok m' ∧ Shape H W m' := by
  obtain ⟨x, hx⟩ := hs.at2 hi hj
  obtain ⟨m', e⟩ := gset_lt v (show (at2 m i j).isSome by rw [hx]; rfl)
  exact ⟨m', e, (gset_inv e).2.2.2.2.2 H W hs⟩

theorem storeBlkCell_ok {H W i j : Nat} {v : BlkVal} {s : BlkRec} (hs : s.Sized H W) (hi : i < H) (hj : j < W) :
    ∃ s', storeBlkCell v (i : Int) (j : Int) s = .ok s' ∧ s'.Sized H W := by
  obtain ⟨a, e1, p1⟩ := shape_gset hs.isInters hi hj v.isInter
  obtain ⟨b, e2, p2⟩ := shape_gset hs.skipModes hi hj v.skipMode
  obtain ⟨k, e3, p3⟩ := shape_gset hs.skips hi hj v.skip
  obtain ⟨t, e4, p4⟩ := shape_gset hs.txSizes hi hj v.txSize
  obtain ⟨m, e5, p5⟩ := shape_gset hs.miSizes hi hj v.miSize
  obtain ⟨p, e6, p6⟩ := shape_gset hs.palY hi hj v.palY
  obtain ⟨q, e7, p7⟩ := shape_gset hs.palUV hi hj v.palUV
  obtain ⟨d, e8, p8⟩ := shape_gset hs.deltaLFs hi hj v.deltaLF
  refine ⟨⟨a, b, k, t, m, p, q, d, s.segIds⟩, ?_, ⟨p1, p2, p3, p4, p5, p6, p7, p8⟩⟩
  unfold storeBlkCell
  rw [e1, Res.ok_bind, e2, Res.ok_bind, e3, Res.ok_bind, e4, Res.ok_bind, e5, Res.ok_bind, e6, Res.ok_bind, e7, Res.ok_bind, e8, Res.ok_bind]
  rfl

/-- **C126 (records, arrays that are large enough).**  If the block lies in the arrays, it is recorded. -/
theorem C126_fits_partial {H W r c h w : Nat} (v : BlkVal) {s : BlkRec} (hs : s.Sized H W) (hr : r + h ≤ H) (hc : c + w ≤ W) :
    ∃ s', storeBlk r c h w v s = .ok s' ∧ s'.Sized H W := by
  have hstep : ∀ i (g : BlkRec), 0 ≤ i → i < 0 + h → g.Sized H W →
      ∃ g', forN (fun x s => storeBlkCell v ((r + i : Nat) : Int) ((c + x : Nat) : Int) s) w 0 g = .ok g' ∧ g'.Sized H W := by
    intro i g _ hi hg
    have hin : ∀ j (q : BlkRec), 0 ≤ j → j < 0 + w → q.Sized H W →
        ∃ q', storeBlkCell v ((r + i : Nat) : Int) ((c + j : Nat) : Int) q = .ok q' ∧ q'.Sized H W :=
      fun j q _ hj hq => storeBlkCell_ok hq (by omega) (by omega)
    exact forN_total (fun _ (q : BlkRec) => q.Sized H W) hin hg
  exact forN_total (fun _ (q : BlkRec) => q.Sized H W) hstep hs

/-- **C126, refuted (blocks beyond the first 8x8 pixels).**  The arrays of inter flags, skip flags, ... have two rows of two units: recording any block
that reaches past them panics. -/
theorem C126_panic_refuted {r c h w : Nat} (hh : 0 < h) (hw : 0 < w) (v : BlkVal) {s : BlkRec} (hs : Shape 2 2 s.skips) (hbig : 2 < r + h ∨ 2 < c + w)
    (s' : BlkRec) : storeBlk r c h w v s ≠ .ok s' := fun e =>
  fillBlock_never hs hh hw hbig (storeBlk_proj e (·.skips) _ (fun _ _ _ _ h => (storeBlkCell_inv h).2.2.1))

/-- **C126, refuted (segment ids).**  AV1 records the segment id of every block; the decoder never does. -/
theorem C126_segment_refuted {r c h w : Nat} {v : BlkVal} {s s' : BlkRec} (e : storeBlk r c h w v s = .ok s') : s'.segIds = s.segIds :=
  forN_const (·.segIds) (fun _ a b hab => forN_const (·.segIds) (fun _ _ _ hab => (storeBlkCell_inv hab).2.2.2.2.2.2.2.2) w 0 a b hab) h 0 s s' e

theorem storeModeCell_inv {hc : Bool} {rf : Int × Int} {y u : Int} {mv : (Int × Int) × (Int × Int)} {r c : Int} {s s' : ModeRec}
    (h : storeModeCell hc rf y u mv r c s = .ok s') : gset s.yModes r c y = .ok s'.yModes ∧ storeUv hc rf u r c s.uvModes = .ok s'.uvModes ∧
      gset s.refFrames r c rf = .ok s'.refFrames ∧ s'.mvs = s.mvs := by
  unfold storeModeCell at h
  obtain ⟨a, h1, h⟩ := Res.inv h
  obtain ⟨b, h2, h⟩ := Res.inv h
  obtain ⟨k, h3, h⟩ := Res.inv h
  obtain ⟨t, h4, h⟩ := Res.inv h
  cases h
  have h4 : (Except.ok s.mvs : Res _) = .ok t := h4
  cases h4
  exact ⟨h1, h2, h3, rfl⟩

theorem storeModes_proj {α : Type} {r c h w : Nat} {hc : Bool} {rf : Int × Int} {y u : Int} {mv : (Int × Int) × (Int × Int)} {s s' : ModeRec}
    (e : storeModes r c h w hc rf y u mv s = .ok s') (π : ModeRec → List (List α)) (x : α)
    (hπ : ∀ (i j : Int) (a b : ModeRec), storeModeCell hc rf y u mv i j a = .ok b → gset (π a) i j x = .ok (π b)) :
    fillBlock r c h w x (π s) = .ok (π s') :=
  forN_proj π (fun _ a b hab => forN_proj π (fun _ a b hab => hπ _ _ a b hab) w 0 a b hab) h 0 s s' e

/-- **C126 (records before prediction).**  Each unit of a block gets the luma mode and the reference frames of the block, and, if the first reference frame is
recorded as intra and the block codes chroma, the chroma mode; no other unit changes. -/
theorem C126_modes_partial {r c h w : Nat} {hc : Bool} {rf : Int × Int} {y u : Int} {mv : (Int × Int) × (Int × Int)} {s s' : ModeRec}
    (e : storeModes r c h w hc rf y u mv s = .ok s') :
    Filled r c h w y s.yModes s'.yModes ∧ Filled r c h w rf s.refFrames s'.refFrames ∧
    (rf.1 = 0 → hc = true → Filled r c h w u s.uvModes s'.uvModes) := by
  refine ⟨(fillBlock_inv (storeModes_proj e (·.yModes) _ (fun _ _ _ _ h => (storeModeCell_inv h).1))).1,
   (fillBlock_inv (storeModes_proj e (·.refFrames) _ (fun _ _ _ _ h => (storeModeCell_inv h).2.2.1))).1, fun h1 h2 => ?_⟩
  refine (fillBlock_inv (storeModes_proj e (·.uvModes) u (fun i j a b h => ?_))).1
  have := (storeModeCell_inv h).2.1
  unfold storeUv at this
  rwa [if_pos ⟨h1, h2⟩] at this

/-- **C126, refuted (motion vectors).**  AV1 records the motion vectors of every inter block; the decoder never records any. -/
theorem C126_mvs_refuted {r c h w : Nat} {hc : Bool} {rf : Int × Int} {y u : Int} {mv : (Int × Int) × (Int × Int)} {s s' : ModeRec}
    (e : storeModes r c h w hc rf y u mv s = .ok s') : s'.mvs = s.mvs :=
  forN_const (·.mvs) (fun _ a b hab => forN_const (·.mvs) (fun _ _ _ hab => (storeModeCell_inv hab).2.2.2) w 0 a b hab) h 0 s s' e

theorem storeModes_uv_const {r c h w : Nat} {hc : Bool} {rf : Int × Int} {y u : Int} {mv : (Int × Int) × (Int × Int)} {s s' : ModeRec} (h0 : rf.1 ≠ 0)
    (e : storeModes r c h w hc rf y u mv s = .ok s') : s'.uvModes = s.uvModes := by
  refine forN_const (·.uvModes) (fun _ a b hab => forN_const (·.uvModes) (fun _ a b hab => ?_) w 0 a b hab) h 0 s s' e
  have := (storeModeCell_inv hab).2.1
  unfold storeUv at this
  rw [if_neg (fun h => h0 h.1)] at this
  exact (Except.ok.inj this).symm

example : (storeBlk 0 0 2 2 { skip := 1 } ⟨[[0, 0], [0, 0]], [[0, 0], [0, 0]], [[0, 0], [0, 0]], [[0, 0], [0, 0]], [[0, 0], [0, 0]], [[0, 0], [0, 0]],
    [[0, 0], [0, 0]], [[[], []], [[], []]], []⟩).toOption.map (·.skips) = some [[1, 1], [1, 1]] := by decide

/-! ## C127: contexts of skipped blocks -/

/-- Row `p` has zeros from `lo` up to `hi`, everything else is as before. -/
def Zeroed (p lo hi : Nat) (m m' : List (List Int)) : Prop := ∀ i j, at2 m' i j = if i = p ∧ lo ≤ j ∧ j < hi then some 0 else at2 m i j

theorem zeroRange_inv {p lo hi : Nat} {s s' : List (List Int) × List (List Int)} (h : zeroRange p lo hi s = .ok s') :
    Zeroed p lo hi s.1 s'.1 ∧ Zeroed p lo hi s.2 s'.2 := by
  have key := forN_inv (fun i (t : List (List Int) × List (List Int)) => Zeroed p lo i s.1 t.1 ∧ Zeroed p lo i s.2 t.2) (by
    intro i t t' h1 h2 hP e
    obtain ⟨a, e1, e⟩ := Res.inv e
    obtain ⟨d, e2, e⟩ := Res.inv e
    cases e
    have step : ∀ (m t t' : List (List Int)), Zeroed p lo i m t → gset t (p : Int) (i : Int) 0 = .ok t' → Zeroed p lo (i + 1) m t' := by
      intro m t t' hz hg x y
      obtain ⟨-, -, -, g1, g2, -⟩ := gset_inv hg
      simp only [Int.toNat_natCast] at g1 g2
      by_cases hxy : x = p ∧ y = i
      · obtain ⟨rfl, rfl⟩ := hxy
        rw [g1, if_pos (by omega)]
      · rw [g2 x y (by intro h; exact hxy (by simpa [Prod.ext_iff] using h)), hz x y]
        by_cases hh : x = p ∧ lo ≤ y ∧ y < i
        · rw [if_pos hh, if_pos (by omega)]
        · rw [if_neg hh, if_neg (by omega)]
    exact ⟨step _ _ _ hP.1 e1, step _ _ _ hP.2 e2⟩) h
    ⟨fun i j => by rw [if_neg (by omega)], fun i j => by rw [if_neg (by omega)]⟩
  by_cases hle : lo ≤ hi
  · rw [show lo + (hi - lo) = hi by omega] at key
    exact key
  · rw [show lo + (hi - lo) = lo by omega] at key
    refine ⟨fun i j => ?_, fun i j => ?_⟩
    · rw [key.1 i j, if_neg (by omega), if_neg (by omega)]
    · rw [key.2 i j, if_neg (by omega), if_neg (by omega)]

/-- AV1's range of a plane: the chroma (or luma) units that the block covers. -/
def ctxRange (p start n sub : Nat) (j : Nat) : Prop := (start / 2 ^ (if p > 0 then sub else 0)) ≤ j ∧ j ≤ (start + n - 1) / 2 ^ (if p > 0 then sub else 0)

instance (p start n sub j : Nat) : Decidable (ctxRange p start n sub j) := inferInstanceAs (Decidable (_ ∧ _))

/-- The array with zeros in AV1's range for the first `planes` planes. -/
def CtxCleared (planes start n sub : Nat) (m m' : List (List Int)) : Prop :=
  ∀ p j, at2 m' p j = if p < planes ∧ ctxRange p start n sub j then some 0 else at2 m p j

theorem range_iff {p start n sub j : Nat} (hsub : sub < 2) (hn : 0 < n) (hal : 2 ≤ n → start % 2 = 0 ∧ n % 2 = 0) (hch : p > 0 → n = 1 → sub = 1 → start % 2 = 1) :
    (start >>> (if p > 0 then sub else 0) ≤ j ∧ j < (start + n) >>> (if p > 0 then sub else 0)) ↔ ctxRange p start n sub j := by
  unfold ctxRange
  rw [Nat.shiftRight_eq_div_pow, Nat.shiftRight_eq_div_pow]
  by_cases hp : p > 0
  · rw [if_pos hp]
    rcases (show sub = 0 ∨ sub = 1 by omega) with rfl | rfl
    · simp only [Nat.pow_zero, Nat.div_one]; omega
    · simp only [Nat.pow_one]
      by_cases h2 : 2 ≤ n
      · have := hal h2; omega
      · have := hch hp (by omega) rfl; omega
  · rw [if_neg hp]
    simp only [Nat.pow_zero, Nat.div_one]; omega

/-- **C127, what holds.**  `resetBlockContext`, were it called, clears exactly the contexts AV1 clears: those of the units of each plane that the block covers.
Missing: it is never called, see `C127_refuted`. -/
theorem C127_reset_partial {h : MiHdr} (hsx : h.subX < 2) (hsy : h.subY < 2) {hasChroma : Bool} {r c bw4 bh4 : Nat} (hw : 0 < bw4) (hh : 0 < bh4)
    (halr : 2 ≤ bh4 → r % 2 = 0 ∧ bh4 % 2 = 0) (halc : 2 ≤ bw4 → c % 2 = 0 ∧ bw4 % 2 = 0)
    (hch : hasChroma = true → ownsChroma r c bh4 bw4 h.subX h.subY) {s s' : LevelCtx}
    (e : resetBlockContext h hasChroma r c bw4 bh4 s = .ok s') :
    CtxCleared (if hasChroma then 3 else 1) c bw4 h.subX s.aboveLevel s'.aboveLevel ∧ CtxCleared (if hasChroma then 3 else 1) c bw4 h.subX s.aboveDc s'.aboveDc ∧
    CtxCleared (if hasChroma then 3 else 1) r bh4 h.subY s.leftLevel s'.leftLevel ∧ CtxCleared (if hasChroma then 3 else 1) r bh4 h.subY s.leftDc s'.leftDc := by
  have key := forN_inv (fun i (t : LevelCtx) => CtxCleared i c bw4 h.subX s.aboveLevel t.aboveLevel ∧ CtxCleared i c bw4 h.subX s.aboveDc t.aboveDc ∧
      CtxCleared i r bh4 h.subY s.leftLevel t.leftLevel ∧ CtxCleared i r bh4 h.subY s.leftDc t.leftDc) (by
    intro i t t' h1 h2 hP e
    obtain ⟨a, e1, e⟩ := Res.inv e
    obtain ⟨l, e2, e⟩ := Res.inv e
    cases e
    obtain ⟨z1, z2⟩ := zeroRange_inv e1
    obtain ⟨z3, z4⟩ := zeroRange_inv e2
    have hcr : i > 0 → hasChroma = true := by
      intro hi
      cases hasChroma
      · simp at h2; omega
      · rfl
    have col : ∀ j, (c >>> (if i > 0 then h.subX else 0) ≤ j ∧ j < (c + bw4) >>> (if i > 0 then h.subX else 0)) ↔ ctxRange i c bw4 h.subX j :=
      fun j => range_iff hsx hw halc (fun hi hn hs => by
        have := ((ownsChroma_iff hh hw hsx hsy).mp (hch (hcr hi))).2
        omega)
    have row : ∀ j, (r >>> (if i > 0 then h.subY else 0) ≤ j ∧ j < (r + bh4) >>> (if i > 0 then h.subY else 0)) ↔ ctxRange i r bh4 h.subY j :=
      fun j => range_iff hsy hh halr (fun hi hn hs => by
        have := ((ownsChroma_iff hh hw hsx hsy).mp (hch (hcr hi))).1
        omega)
    have step : ∀ (st n sub lo hi : Nat) (m t t' : List (List Int)), (∀ j, (lo ≤ j ∧ j < hi) ↔ ctxRange i st n sub j) → CtxCleared i st n sub m t →
        Zeroed i lo hi t t' → CtxCleared (i + 1) st n sub m t' := by
      intro st n sub lo hi m t t' hr hc hz p j
      rw [hz p j]
      by_cases hp : p = i
      · subst hp
        by_cases hj : lo ≤ j ∧ j < hi
        · rw [if_pos ⟨rfl, hj⟩, if_pos ⟨by omega, (hr j).mp hj⟩]
        · rw [if_neg (fun h => hj h.2), if_neg (fun h => hj ((hr j).mpr h.2)), hc p j, if_neg (by omega)]
      · rw [if_neg (fun h => hp h.1), hc p j]
        by_cases hx : p < i ∧ ctxRange p st n sub j
        · rw [if_pos hx, if_pos ⟨by omega, hx.2⟩]
        · rw [if_neg hx, if_neg (fun h => hx ⟨by omega, h.2⟩)]
    exact ⟨step _ _ _ _ _ _ _ _ col hP.1 z1, step _ _ _ _ _ _ _ _ col hP.2.1 z2, step _ _ _ _ _ _ _ _ row hP.2.2.1 z3, step _ _ _ _ _ _ _ _ row hP.2.2.2 z4⟩) e
    ⟨fun p j => by rw [if_neg (by omega)], fun p j => by rw [if_neg (by omega)], fun p j => by rw [if_neg (by omega)], fun p j => by rw [if_neg (by omega)]⟩
  rw [Nat.zero_add] at key
  have hn : 1 + (if hasChroma = true then 2 else 0) = if hasChroma = true then 3 else 1 := by cases hasChroma <;> rfl
  rw [hn] at key
  exact key

/-- **C127, refuted.**  The decoder never clears the contexts of a skipped block (what it tests is not the skip flag of the block): they are as before, and
so not cleared whenever one of the luma contexts above the block was not 0. -/
theorem C127_refuted (h : MiHdr) (hasChroma : Bool) (r c bw4 bh4 : Nat) (s : LevelCtx) :
    ∃ s', resetIfSkip stateSkip h hasChroma r c bw4 bh4 s = .ok s' ∧
      ∀ j v, c ≤ j → j < c + bw4 → at2 s.aboveLevel 0 j = some v → v ≠ 0 →
        ¬ CtxCleared (if hasChroma then 3 else 1) c bw4 h.subX s.aboveLevel s'.aboveLevel := by
  refine ⟨s, rfl, fun j v h1 h2 hv h0 hc => ?_⟩
  have := hc 0 j
  rw [if_pos ⟨by split <;> decide, by unfold ctxRange; simp; omega⟩, hv] at this
  exact h0 (Option.some.inj this)

example : (resetBlockContext {} true 2 2 2 2 ⟨[[5, 5, 5, 5], [5, 5, 5, 5], [5, 5, 5, 5]], [[5, 5, 5, 5], [5, 5, 5, 5], [5, 5, 5, 5]],
    [[5, 5, 5, 5], [5, 5, 5, 5], [5, 5, 5, 5]], [[5, 5, 5, 5], [5, 5, 5, 5], [5, 5, 5, 5]]⟩).toOption.map (·.aboveLevel) =
    some [[5, 5, 0, 0], [5, 0, 5, 5], [5, 0, 5, 5]] := by decide

end Gov1
