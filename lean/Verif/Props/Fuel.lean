import Verif.Props.Endless
/-!
# C196: what decoding gives when it ends

The bound on the unbounded loops of the tile data is only a device of the model: once a stream is decoded within some bound, every larger bound gives the same result.
-/
namespace Gov1
open Spec

/-! ## The syntax -/

theorem golombLen_fuel {f g : Nat} (h : f ≤ g) (x : Nat) : (golombLen f x).Le (golombLen g x) := by
  induction f generalizing g x with
  | zero => exact .inl rfl
  | succ f ih =>
    obtain ⟨g, rfl⟩ : ∃ g', g = g' + 1 := ⟨g - 1, by omega⟩
    unfold golombLen
    refine Rd.Le.then fun b => ?_
    split
    · exact Rd.Le.refl _
    · exact ih (by omega) _

theorem readLevel_fuel {f g : Nat} (h : f ≤ g) (level : Int) : (readLevel f level).Le (readLevel g level) := by
  unfold readLevel readGolomb
  split
  · exact Rd.Le.bind (Rd.Le.bind (golombLen_fuel h 0) (fun _ => Rd.Le.refl _)) (fun _ => Rd.Le.refl _)
  · exact Rd.Le.refl _

theorem signLoop_fuel {f g : Nat} (h : f ≤ g) (cx : BlkCtx) (scan : List Nat) (plane w4 h4 : Nat) (x4 y4 : Int) (ptype n c : Nat)
    (st : CoefSt) (cul dc : Int) : (signLoop f cx scan plane w4 h4 x4 y4 ptype n c st cul dc).Le (signLoop g cx scan plane w4 h4 x4 y4 ptype n c st cul dc) := by
  induction n generalizing c st cul dc with
  | zero => exact Rd.Le.refl _
  | succ n ih =>
    unfold signLoop
    refine Rd.Le.then (fun pos => Rd.Le.then (fun level => Rd.Le.then (fun sign => ?_)))
    refine Rd.Le.bind (readLevel_fuel h level) (fun level => ?_)
    exact Rd.Le.then (fun q => ih _ _ _ _)

theorem coeffs_fuel {f g : Nat} (h : f ≤ g) (cx : BlkCtx) (st : CoefSt) (plane : Nat) (startX startY : Int) (t : Nat) :
    (coeffs f cx st plane startX startY t).Le (coeffs g cx st plane startX startY t) := by
  unfold coeffs
  refine Rd.Le.then (fun _ => Rd.Le.then (fun _ => Rd.Le.then (fun _ => Rd.Le.then (fun _ => ?_))))
  refine Rd.Le.then (fun _ => Rd.Le.then (fun _ => Rd.Le.then (fun _ => Rd.Le.then (fun _ => ?_))))
  refine Rd.Le.bind ?_ (fun _ => Rd.Le.refl _)
  unfold coefBody
  split
  · exact Rd.Le.refl _
  · unfold codedCoefs
    refine Rd.Le.then (fun _ => Rd.Le.then (fun _ => Rd.Le.then (fun _ => Rd.Le.then (fun _ => ?_))))
    refine Rd.Le.then (fun _ => Rd.Le.then (fun _ => ?_))
    exact Rd.Le.bind (signLoop_fuel h _ _ _ _ _ _ _ _ _ _ _ _ _) (fun _ => Rd.Le.refl _)

theorem transformBlock_fuel {f g : Nat} (h : f ≤ g) (c : TbCtx) (call : TxCall) (s : TbSt) : (transformBlock f c call s).Le (transformBlock g c call s) := by
  unfold transformBlock
  refine Rd.Le.then fun p => ?_
  cases p with
  | none => exact Rd.Le.refl _
  | some p =>
    unfold tbInside
    refine Rd.Le.then fun s => Rd.Le.bind ?_ fun _ => Rd.Le.refl _
    unfold tbCoeffs
    split
    · exact Rd.Le.refl _
    · exact Rd.Le.bind (coeffs_fuel h _ _ _ _ _ _) fun _ => Rd.Le.refl _

theorem runCalls_fuel {f g : Nat} (h : f ≤ g) (c : TbCtx) (l : List TxCall) (s : TbSt) : (runCalls f c l s).Le (runCalls g c l s) := by
  induction l generalizing s with
  | nil => exact Rd.Le.refl _
  | cons call l ih => exact Rd.Le.bind (transformBlock_fuel h _ _ _) fun _ => ih _

theorem decodeBlock_fuel {f g : Nat} (hf : f ≤ g) (h : FrHdr) (r c z : Nat) (s : BlkSt) : (decodeBlock f h r c z s).Le (decodeBlock g h r c z s) := by
  unfold decodeBlock
  refine Rd.Le.then fun _ => Rd.Le.then fun _ => Rd.Le.then fun _ => ?_
  unfold decodeBody
  refine Rd.Le.then fun _ => Rd.Le.then fun _ => Rd.Le.then fun _ => Rd.Le.then fun _ => Rd.Le.then fun _ => ?_
  refine Rd.Le.bind ?_ fun _ => Rd.Le.refl _
  unfold residual
  exact Rd.Le.then fun _ => runCalls_fuel hf _ _ _

theorem subexpBoolLoop_fuel {f g : Nat} (h : f ≤ g) (k x : Nat) : (subexpBoolLoop k f x).Le (subexpBoolLoop k g x) := by
  induction f generalizing g x with
  | zero => exact .inl rfl
  | succ f ih =>
    obtain ⟨g, rfl⟩ : ∃ g', g = g' + 1 := ⟨g - 1, by omega⟩
    unfold subexpBoolLoop
    refine Rd.Le.then fun b => ?_
    split
    · exact ih (by omega) _
    · exact Rd.Le.refl _

theorem readXqd_fuel {f g : Nat} (h : f ≤ g) (plane : Nat) (set : Int) (i : Nat) (p : LrUnitParams) : (readXqd f plane set i p).Le (readXqd g plane set i p) := by
  unfold readXqd
  refine Rd.Le.then fun _ => Rd.Le.then fun _ => Rd.Le.then fun _ => Rd.Le.bind ?_ fun _ => Rd.Le.refl _
  unfold readXqdValue
  split
  · unfold decodeSignedBool decodeUnsignedBool decodeSubexpBool
    refine Rd.Le.bind (Rd.Le.bind ?_ fun _ => Rd.Le.refl _) fun _ => Rd.Le.refl _
    split
    · exact Rd.Le.refl _
    · exact subexpBoolLoop_fuel h _ _
  · exact Rd.Le.refl _

theorem readLrUnit_fuel {f g : Nat} (h : f ≤ g) (ft : Int) (plane row col : Nat) (p : LrUnitParams) : (readLrUnit f ft plane row col p).Le (readLrUnit g ft plane row col p) := by
  unfold readLrUnit
  refine Rd.Le.then fun _ => Rd.Le.then fun _ => Rd.Le.then fun _ => Rd.Le.then fun _ => ?_
  split
  · exact Rd.Le.refl _
  · split
    · unfold readSgr
      exact Rd.Le.then fun _ => Rd.Le.then fun _ => Rd.Le.then fun _ => Rd.Le.then fun _ => Rd.Le.bind (readXqd_fuel h _ _ _ _) fun _ => readXqd_fuel h _ _ _ _
    · exact Rd.Le.refl _

theorem readLr_fuel {f g : Nat} (h : f ≤ g) (lh : LrHdr) (r c z : Nat) (p : LrUnitParams) : (readLr f lh r c z p).Le (readLr g lh r c z p) := by
  have hcols : ∀ ft plane row n col p, (readLrCols f ft plane row n col p).Le (readLrCols g ft plane row n col p) := by
    intro ft plane row n
    induction n with
    | zero => intro col p; exact Rd.Le.refl _
    | succ n ih => intro col p; exact Rd.Le.bind (readLrUnit_fuel h _ _ _ _ _) fun _ => ih _ _
  have hrows : ∀ ft plane c0 cn n row p, (readLrRows f ft plane c0 cn n row p).Le (readLrRows g ft plane c0 cn n row p) := by
    intro ft plane c0 cn n
    induction n with
    | zero => intro row p; exact Rd.Le.refl _
    | succ n ih => intro row p; exact Rd.Le.bind (hcols _ _ _ _ _ _) fun _ => ih _ _
  have hplanes : ∀ size n plane p, (readLrPlanes f lh r c size n plane p).Le (readLrPlanes g lh r c size n plane p) := by
    intro size n
    induction n with
    | zero => intro plane p; exact Rd.Le.refl _
    | succ n ih =>
      intro plane p
      refine Rd.Le.bind ?_ fun _ => ih _ _
      unfold readLrPlane
      refine Rd.Le.then fun _ => ?_
      split
      · exact Rd.Le.then fun _ => Rd.Le.then fun _ => hrows _ _ _ _ _ _ _
      · exact Rd.Le.refl _
  unfold readLr
  split
  · exact Rd.Le.refl _
  · exact Rd.Le.then fun _ => Rd.Le.then fun _ => hplanes _ _ _ _

/-! ## The tile data -/

/-- The second program does what the first does, unless the first has run out of steps. -/
def BM.Le {α : Type} (m m' : BM α) : Prop := ∀ s, m s = .error .hang ∨ m' s = m s

theorem BM.Le.refl {α : Type} (m : BM α) : BM.Le m m := fun _ => .inr rfl

theorem BM.Le.bind {α β : Type} {m m' : BM α} {k k' : α → BM β} (h : BM.Le m m') (hk : ∀ a, BM.Le (k a) (k' a)) : BM.Le (m >>= k) (m' >>= k') := by
  intro s
  rcases h s with h | h
  · exact .inl (BM.bind_error h)
  · cases hm : m s with
    | error e => rw [BM.bind_error hm, BM.bind_error (h.trans hm)]; exact .inr rfl
    | ok r =>
      obtain ⟨a, s1⟩ := r
      rw [BM.bind_ok hm, BM.bind_ok (h.trans hm)]
      exact hk a s1

theorem BM.Le.then {α β : Type} {m : BM α} {k k' : α → BM β} (hk : ∀ a, BM.Le (k a) (k' a)) : BM.Le (m >>= k) (m >>= k') := (BM.Le.refl m).bind hk

theorem BM.Le.ite {α : Type} {p : Prop} [Decidable p] {m m' n n' : BM α} (h1 : BM.Le m m') (h2 : BM.Le n n') : BM.Le (if p then m else n) (if p then m' else n') := by
  split
  · exact h1
  · exact h2

theorem exec_le {α : Type} (L : Layout) (disable : Bool) {p q : Rd α} (h : p.Le q) (cdfs : List (List Int)) (st : Sym) :
    BM.Le (p.exec L disable cdfs st) (q.exec L disable cdfs st) := by
  induction p generalizing q cdfs st with
  | ret a => cases h; exact BM.Le.refl _
  | fail e =>
    rcases h with h | h
    · subst h; exact fun _ => .inl rfl
    · subst h; exact BM.Le.refl _
  | sym t idx k ih =>
    obtain ⟨k', rfl, h⟩ := h
    unfold Rd.exec
    split
    · exact BM.Le.refl _
    · exact BM.Le.then fun _ => BM.Le.then fun _ => ih _ (h _) _ _
  | bit k ih =>
    obtain ⟨k', rfl, h⟩ := h
    unfold Rd.exec
    exact BM.Le.then fun _ => ih _ (h _) _ _

theorem execIn_le {α : Type} (L : Layout) (disable : Bool) {p q : Rd α} (h : p.Le q) (f : α → TileSt → TileSt) (x : Sym × TileSt) : BM.Le (execIn L disable p f x) (execIn L disable q f x) :=
  BM.Le.bind (exec_le L disable h _ _) fun _ => BM.Le.refl _

/-- The same operations, but that decoding a block may go on for longer. -/
structure PartOps.Le {σ : Type} (a b : PartOps σ) : Prop where
  readPart : b.readPart = a.readPart
  partCdf : b.partCdf = a.partCdf
  readSplit : b.readSplit = a.readSplit
  block : ∀ r c z x, BM.Le (a.block r c z x) (b.block r c z x)

theorem blockEv_le {σ : Type} {a b : PartOps σ} (h : a.Le b) (r c z : Nat) (x : σ) : BM.Le (blockEv a r c z x) (blockEv b r c z x) := BM.Le.bind (h.block r c z x) fun _ => BM.Le.refl _

theorem seqB_le {σ : Type} {l l' : List (σ → BM (σ × List Ev))} (h : List.Forall₂ (fun f g => ∀ x, BM.Le (f x) (g x)) l l') (x : σ) : BM.Le (seqB l x) (seqB l' x) := by
  induction h generalizing x with
  | nil => exact BM.Le.refl _
  | cons h _ ih => exact BM.Le.bind (h x) fun _ => BM.Le.bind (ih _) fun _ => BM.Le.refl _

theorem partSteps_le {σ : Type} {a b : PartOps σ} (h : a.Le b) {r1 r2 : Nat → Nat → Nat → σ → BM (σ × List Ev)} (hr : ∀ r c z x, BM.Le (r1 r c z x) (r2 r c z x))
    (miRows p r c half quarter sub split : Nat) (hasRows hasCols : Bool) : List.Forall₂ (fun f g => ∀ x, BM.Le (f x) (g x))
      (partSteps a r1 miRows p r c half quarter sub split hasRows hasCols) (partSteps b r2 miRows p r c half quarter sub split hasRows hasCols) := by
  have hb := blockEv_le h
  have ite : ∀ {q : Prop} [Decidable q] {l1 l2 m1 m2 : List (σ → BM (σ × List Ev))}, List.Forall₂ (fun f g => ∀ x, BM.Le (f x) (g x)) l1 m1 → List.Forall₂ (fun f g => ∀ x, BM.Le (f x) (g x)) l2 m2 →
      List.Forall₂ (fun f g => ∀ x, BM.Le (f x) (g x)) (if q then l1 else l2) (if q then m1 else m2) := by
    intro q _ l1 l2 m1 m2 h1 h2
    split
    · exact h1
    · exact h2
  unfold partSteps
  refine ite (.cons (hb _ _ _) .nil) (ite (.cons (hb _ _ _) (ite (.cons (hb _ _ _) .nil) .nil)) (ite (.cons (hb _ _ _) (ite (.cons (hb _ _ _) .nil) .nil)) ?_))
  refine ite (.cons (hr _ _ _) (.cons (hr _ _ _) (.cons (hr _ _ _) (.cons (hr _ _ _) .nil)))) ?_
  refine ite (.cons (hb _ _ _) (.cons (hb _ _ _) (.cons (hb _ _ _) .nil))) (ite (.cons (hb _ _ _) (.cons (hb _ _ _) (.cons (hb _ _ _) .nil))) ?_)
  refine ite (.cons (hb _ _ _) (.cons (hb _ _ _) (.cons (hb _ _ _) .nil))) (ite (.cons (hb _ _ _) (.cons (hb _ _ _) (.cons (hb _ _ _) .nil))) ?_)
  exact ite (.cons (hb _ _ _) (.cons (hb _ _ _) (.cons (hb _ _ _) (ite (.cons (hb _ _ _) .nil) .nil)))) (.cons (hb _ _ _) (.cons (hb _ _ _) (.cons (hb _ _ _) (ite (.cons (hb _ _ _) .nil) .nil))))

theorem decodePartition_le {σ : Type} {a b : PartOps σ} (h : a.Le b) (miRows miCols fuel : Nat) : ∀ r c z x, BM.Le (decodePartition a miRows miCols fuel r c z x) (decodePartition b miRows miCols fuel r c z x) := by
  induction fuel with
  | zero => intro r c z x; exact BM.Le.refl _
  | succ fuel ih =>
    intro r c z x
    unfold decodePartition
    refine BM.Le.ite (BM.Le.refl _) (BM.Le.then fun num => ?_)
    dsimp only
    have hc : choosePart b = choosePart a := by
      funext
      unfold choosePart
      rw [h.readPart, h.partCdf, h.readSplit]
    rw [hc]
    refine BM.Le.then fun y => BM.Le.then fun _ => BM.Le.then fun _ => BM.Le.then fun _ => BM.Le.then fun _ => ?_
    exact BM.Le.bind (seqB_le (partSteps_le h ih _ _ _ _ _ _ _ _ _ _) _) fun _ => BM.Le.refl _

theorem decodeTile_le {σ : Type} (use128 : Bool) (miCols miRows : Nat) (reset : σ → σ) {sb sb' : Nat → Nat → σ → Sym → BM (Sym × σ)} (h : ∀ r c x st, BM.Le (sb r c x st) (sb' r c x st))
    (run : TileRun) (x : σ) (st : Sym) : BM.Le (decodeTile use128 miCols miRows reset sb run x st) (decodeTile use128 miCols miRows reset sb' run x st) := by
  have hc : ∀ sb4 colEnd r n c x st, BM.Le (sbCols sb sb4 colEnd r n c x st) (sbCols sb' sb4 colEnd r n c x st) := by
    intro sb4 colEnd r n
    induction n with
    | zero => intro c x st; unfold sbCols; exact BM.Le.ite (BM.Le.refl _) (BM.Le.refl _)
    | succ n ih => intro c x st; unfold sbCols; exact BM.Le.ite (BM.Le.bind (h _ _ _ _) fun _ => ih _ _ _) (BM.Le.refl _)
  have hr : ∀ sb4 colStart colEnd rowEnd n r x st, BM.Le (sbRows sb miRows sb4 colStart colEnd rowEnd n r x st) (sbRows sb' miRows sb4 colStart colEnd rowEnd n r x st) := by
    intro sb4 colStart colEnd rowEnd n
    induction n with
    | zero => intro c x st; unfold sbRows; exact BM.Le.ite (BM.Le.refl _) (BM.Le.refl _)
    | succ n ih => intro c x st; unfold sbRows; exact BM.Le.ite (BM.Le.then fun _ => BM.Le.bind (hc _ _ _ _ _ _ _) fun _ => ih _ _ _) (BM.Le.refl _)
  unfold decodeTile
  exact BM.Le.then fun _ => hr _ _ _ _ _ _ _ _

theorem tileOps_le (L : Layout) (disable : Bool) {f g : Nat} (hf : f ≤ g) (h : FrHdr) : (tileOps L disable f h).Le (tileOps L disable g h) where
  readPart := rfl
  partCdf := rfl
  readSplit := rfl
  block r c z x := execIn_le L disable (decodeBlock_fuel hf h r c z x.2.blk) (fun b y => { y with blk := b }) x

theorem realTile_le (grow : Nat → Nat) (k : Fin 4) (disable : Bool) {f g : Nat} (hf : f ≤ g) (h : FrHdr) (lh : LrHdr) (run : TileRun) (x : TileSt × List Ev) (st : Sym) :
    BM.Le (realTile grow k disable f h lh run x st) (realTile grow k disable g h lh run x st) := by
  unfold realTile tileEvents
  refine decodeTile_le _ _ _ _ (fun r c x st => ?_) _ _ _
  unfold sbEvents
  refine BM.Le.bind ?_ fun y => BM.Le.bind (decodePartition_le (tileOps_le (cdfLayout k) disable hf h) _ _ _ _ _ _ _) fun _ => BM.Le.refl _
  unfold sbPre
  exact BM.Le.then fun b => execIn_le _ _ (readLr_fuel hf _ _ _ _ _) _ _

theorem tileLoop_le {σ : Type} {body body' : TileRun → σ → Sym → BM (Sym × σ)} (h : ∀ run x st, BM.Le (body run x st) (body' run x st)) (t : Tiles) (tgEnd : Int) (k : Nat) :
    ∀ num sz x, BM.Le (tileLoop body t tgEnd k num sz x) (tileLoop body' t tgEnd k num sz x) := by
  induction k with
  | zero => intro num sz x; exact BM.Le.refl _
  | succ k ih =>
    intro num sz x
    unfold tileLoop
    refine BM.Le.ite (BM.Le.refl _) ?_
    dsimp only
    refine BM.Le.then fun y => BM.Le.then fun _ => BM.Le.then fun _ => BM.Le.then fun _ => BM.Le.then fun _ => BM.Le.then fun _ => BM.Le.then fun st => ?_
    exact BM.Le.bind (h _ _ _) fun y => BM.Le.then fun _ => BM.Le.bind (ih _ _ _) fun _ => BM.Le.refl _

theorem decodeGroup_le (grow : Nat → Nat) {f g : Nat} (hf : f ≤ g) (sz : Int) (sr : State × DecR) (uh : DecUH) (sh : SeqHeader) :
    BM.Le (decodeGroup grow f sz sr uh sh) (decodeGroup grow g sz sr uh sh) := by
  unfold decodeGroup
  refine BM.Le.bind ?_ fun _ => BM.Le.refl _
  unfold tileGroup
  refine BM.Le.then fun _ => BM.Le.then fun _ => BM.Le.then fun _ => BM.Le.then fun _ => BM.Le.bind (tileLoop_le (fun run x st => ?_) _ _ _ _ _ _) fun _ => BM.Le.refl _
  unfold groupTile
  split
  · exact BM.Le.refl _
  · exact realTile_le _ _ _ hf _ _ _ _ _

/-! ## The stream -/

/-- The same payload parsers with another parser of tile groups. -/
def Codec.withGroup (C : Codec) (tg : Int → State × C.R → C.UH → SeqHeader → BM (C.TG × (State × C.R))) : Codec := { C with tileGroup := tg }

section stream

variable {C : Codec} {tg : Int → State × C.R → C.UH → SeqHeader → BM (C.TG × (State × C.R))}

/-- The same OBU. -/
def Obu.as (tg : Int → State × C.R → C.UH → SeqHeader → BM (C.TG × (State × C.R))) (o : Obu C) : Obu (C.withGroup tg) := ⟨o.size, o.header, o.sequenceHeader, o.uncompressedHeader, o.tileGroup⟩

/-- The same parser. -/
def Parser.as (tg : Int → State × C.R → C.UH → SeqHeader → BM (C.TG × (State × C.R))) (p : Parser C) : Parser (C.withGroup tg) := ⟨p.rest, p.sequenceHeader, p.uncompressedHeader, p.obus.map (Obu.as tg)⟩

/-- `BM.Le` for results of different types. -/
def BM.LeBy {α β : Type} (f : α → β) (m : BM α) (m' : BM β) : Prop := ∀ s, m s = .error .hang ∨ m' s = (m s).map fun r => (f r.1, r.2)

theorem BM.LeBy.pure {α β : Type} {f : α → β} (a : α) : BM.LeBy f (pure a) (pure (f a)) := fun _ => .inr rfl

theorem BM.LeBy.fail {α β : Type} {f : α → β} (e : Fault) : BM.LeBy f (BM.fail e) (BM.fail e) := fun _ => .inr rfl

theorem BM.LeBy.bindBy {α β γ δ : Type} {f : α → β} {g : γ → δ} {m : BM α} {m' : BM β} {k : α → BM γ} {k' : β → BM δ} (h : BM.LeBy f m m') (hk : ∀ a, BM.LeBy g (k a) (k' (f a))) :
    BM.LeBy g (m >>= k) (m' >>= k') := by
  intro s
  rcases h s with h | h
  · exact .inl (BM.bind_error h)
  · cases hm : m s with
    | error e => rw [hm] at h; rw [BM.bind_error hm, BM.bind_error h]; exact .inr rfl
    | ok r =>
      obtain ⟨a, s1⟩ := r
      rw [hm] at h
      rw [BM.bind_ok hm, BM.bind_ok h]
      exact hk a s1

theorem BM.LeBy.bind {α γ δ : Type} {g : γ → δ} {m m' : BM α} {k : α → BM γ} {k' : α → BM δ} (h : BM.Le m m') (hk : ∀ a, BM.LeBy g (k a) (k' a)) :
    BM.LeBy g (m >>= k) (m' >>= k') := by
  refine BM.LeBy.bindBy (f := id) (fun s => ?_) hk
  rcases h s with h | h
  · exact .inl h
  · refine .inr (h.trans ?_)
    cases m s <;> rfl

theorem BM.LeBy.then {α γ δ : Type} {g : γ → δ} {m : BM α} {k : α → BM γ} {k' : α → BM δ} (hk : ∀ a, BM.LeBy g (k a) (k' a)) : BM.LeBy g (m >>= k) (m >>= k') := BM.LeBy.bind (BM.Le.refl m) hk

theorem BM.LeBy.ite {α β : Type} {f : α → β} {p : Prop} [Decidable p] {m n : BM α} {m' n' : BM β} (h1 : BM.LeBy f m m') (h2 : BM.LeBy f n n') : BM.LeBy f (if p then m else n) (if p then m' else n') := by
  split
  · exact h1
  · exact h2

variable (htg : ∀ sz st uh sh, BM.Le (C.tileGroup sz st uh sh) (tg sz st uh sh))
include htg

theorem newFrame_le (sz : Int) (h : Header) (sh : SeqHeader) (st : State × C.R) : BM.Le (newFrame C sz h sh st) (newFrame (C.withGroup tg) sz h sh st) := by
  unfold newFrame
  exact BM.Le.then fun _ => BM.Le.then fun _ => BM.Le.then fun _ => BM.Le.then fun _ => BM.Le.bind (htg _ _ _ _) fun _ => BM.Le.refl _

theorem obuPayload_le (o : Obu C) (st : State × C.R) : BM.LeBy (fun r : Obu C × (State × C.R) => (r.1.as tg, r.2)) (obuPayload C o st) (obuPayload (C.withGroup tg) (o.as tg) st) := by
  unfold obuPayload
  refine BM.LeBy.ite (BM.LeBy.then fun _ => BM.LeBy.pure _) (BM.LeBy.ite (BM.LeBy.pure _) (BM.LeBy.ite (BM.LeBy.then fun _ => BM.LeBy.pure _) (BM.LeBy.ite (BM.LeBy.then fun _ => BM.LeBy.pure _) ?_)))
  refine BM.LeBy.ite (BM.LeBy.bind (newFrame_le htg _ _ _ _) fun _ => BM.LeBy.pure _) (BM.LeBy.ite (BM.LeBy.then fun _ => BM.LeBy.pure _) ?_)
  exact BM.LeBy.ite (BM.LeBy.bind (htg _ _ _ _) fun _ => BM.LeBy.pure _) (BM.LeBy.fail _)

theorem newObu_le (sz : Int) (st : State × C.R) (sh : SeqHeader) (uh : C.UH) :
    BM.LeBy (fun r : Obu C × (State × C.R) => (r.1.as tg, r.2)) (newObu C sz st sh uh) (newObu (C.withGroup tg) sz st sh uh) := by
  unfold newObu
  refine BM.LeBy.then fun h => BM.LeBy.then fun size => BM.LeBy.then fun start => BM.LeBy.ite (BM.LeBy.then fun _ => BM.LeBy.pure _) ?_
  refine BM.LeBy.bindBy (obuPayload_le htg _ _) fun _ => BM.LeBy.then fun _ => BM.LeBy.ite (BM.LeBy.then fun _ => BM.LeBy.pure _) (BM.LeBy.pure _)

theorem frameUnitLoop_le (fuel : Nat) : ∀ (sz : Int) (st : State × C.R) (p : Parser C), BM.LeBy (Parser.as tg) (frameUnitLoop C fuel sz st p) (frameUnitLoop (C.withGroup tg) fuel sz st (p.as tg)) := by
  induction fuel with
  | zero => intro sz st p; unfold frameUnitLoop; exact BM.LeBy.ite (BM.LeBy.fail _) (BM.LeBy.pure _)
  | succ fuel ih =>
    intro sz st p
    unfold frameUnitLoop
    refine BM.LeBy.ite (BM.LeBy.then fun _ => BM.LeBy.then fun _ => BM.LeBy.bindBy (newObu_le htg _ _ _ _) fun r => ?_) (BM.LeBy.pure _)
    have h := fun q => ih q r.2 (if r.1.header.type = OBU_SEQUENCE_HEADER then { p with obus := p.obus ++ [r.1], sequenceHeader := r.1.sequenceHeader }
      else if r.1.header.type = OBU_FRAME_HEADER then { p with obus := p.obus ++ [r.1], uncompressedHeader := r.1.uncompressedHeader } else { p with obus := p.obus ++ [r.1] })
    refine Eq.mp (congrArg (BM.LeBy _ _) (congrArg (frameUnitLoop _ _ _ _) ?_)) (h _)
    show Parser.as tg (ite _ _ _) = ite (r.1.header.type = OBU_SEQUENCE_HEADER) _ (ite (r.1.header.type = OBU_FRAME_HEADER) _ _)
    split
    · simp [Parser.as, Obu.as]
    · split <;> simp [Parser.as, Obu.as]

theorem temporalUnitLoop_le (fuel : Nat) : ∀ (sz : Int) (p : Parser C), BM.LeBy (Parser.as tg) (temporalUnitLoop C fuel sz p) (temporalUnitLoop (C.withGroup tg) fuel sz (p.as tg)) := by
  induction fuel with
  | zero => intro sz p; unfold temporalUnitLoop; exact BM.LeBy.ite (BM.LeBy.fail _) (BM.LeBy.pure _)
  | succ fuel ih =>
    intro sz p
    unfold temporalUnitLoop
    exact BM.LeBy.ite (BM.LeBy.then fun _ => BM.LeBy.then fun _ => BM.LeBy.bindBy (frameUnitLoop_le htg _ _ _ _) fun r => ih _ _) (BM.LeBy.pure _)

theorem bitstreamLoop_le (fuel : Nat) : ∀ (p : Parser C), BM.LeBy (Parser.as tg) (bitstreamLoop C fuel p) (bitstreamLoop (C.withGroup tg) fuel (p.as tg)) := by
  induction fuel with
  | zero =>
    intro p s
    unfold bitstreamLoop
    split
    · exact .inl rfl
    · exact .inr rfl
  | succ fuel ih =>
    intro p s
    rw [bitstreamLoop_succ, bitstreamLoop_succ]
    split
    · exact (BM.LeBy.then (m := leb128) fun _ => BM.LeBy.bindBy (temporalUnitLoop_le htg _ _ _) fun r => ih _) s
    · exact .inr rfl

theorem parseStream_le (s : BitStream) : parseStream C s = .error .hang ∨ parseStream (C.withGroup tg) s = (parseStream C s).map fun r => (r.1.map (Obu.as tg), r.2) := by
  exact (BM.LeBy.bindBy (g := List.map (Obu.as tg)) (bitstreamLoop_le htg (s.data.length + 2) { rest := C.startR, uncompressedHeader := C.zeroUH }) fun p => BM.LeBy.pure _) s

end stream

/-- C196, what holds: a stream that is decoded (or refused) within some number of steps of the unbounded loops gives the same result with every larger number, so that the result of a decoding that ends is
well defined. -/
theorem C196_ends_partial (grow : Nat → Nat) {f g : Nat} (hf : f ≤ g) (s : BitStream) :
    parseStream (decoder grow f) s = .error .hang ∨
    parseStream (decoder grow g) s = (parseStream (decoder grow f) s).map fun r => (r.1.map fun o => ⟨o.size, o.header, o.sequenceHeader, o.uncompressedHeader, o.tileGroup⟩, r.2) :=
  parseStream_le (C := decoder grow f) (tg := decodeGroup grow g) (decodeGroup_le grow hf) s

/-- Non-vacuity: a stream that is decoded within 1000 steps. -/
example : ∃ data : List UInt8, parseStream (decoder (fun _ => 8) 1000) (newBitStream data) ≠ .error .hang := by
  obtain ⟨data, o1, o2, o3, blk, p, ⟨s, hd⟩, -⟩ := stream_of_describes demo_describes
  exact ⟨data, by rw [hd]; intro h; cases h⟩

end Gov1
