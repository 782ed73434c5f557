import Verif.Props.HeaderSemantics
/-! # C71, C80: global motion; independence of intra headers from the past -/
namespace Gov1
open Spec

/-! ## C71: global motion -/

theorem gmTypeOf_reads (t : Nat) (h : t ≤ 3) : Reads gmTypeOf (encGmType t) t := by
  rcases (by omega : t = 0 ∨ t = 1 ∨ t = 2 ∨ t = 3) with rfl | rfl | rfl | rfl
  · exact Reads.bind (b2 := []) (Reads.flag false) (Reads.pure _)
  · exact Reads.bind (b1 := bit true) (b2 := bit false ++ bit true) (Reads.flag true)
      (Reads.bind (Reads.flag false) (Reads.bind (b2 := []) (Reads.flag true) (Reads.pure _)))
  · exact Reads.bind (b1 := bit true) (b2 := bit true) (Reads.flag true)
      (Reads.bind (b2 := []) (Reads.flag true) (Reads.pure _))
  · exact Reads.bind (b1 := bit true) (b2 := bit false ++ bit false) (Reads.flag true)
      (Reads.bind (Reads.flag false) (Reads.bind (b2 := []) (Reads.flag false) (Reads.pure _)))

/-- C71 (partial: types only): the global motion types of the seven references of an inter frame are read back
from their AV1 codes. -/
theorem C71_types_partial (old ts : List Nat) (ho : old.length = 8) (hl : ts.length = 7) (ht : ∀ t ∈ ts, t ≤ 3)
    (s : BitStream) (rest : List Bool) (hs : unread s = ts.flatMap encGmType ++ rest) :
    ∃ l, globalMotionParams false old s = .ok (l, s.advance (ts.flatMap encGmType).length) ∧ l.drop 1 = ts := by
  have hR : Reads (globalMotionParams false old) (ts.flatMap encGmType) (old.take 1 ++ ts) := by
    unfold globalMotionParams
    rw [if_neg (by simp)]
    refine Reads.bindLast (f := fun ts => old.take 1 ++ ts) ?_
    exact Reads.mapBM_const (by simp [hl]) fun _ t h => gmTypeOf_reads t (ht t h)
  refine ⟨_, hR s rest hs, ?_⟩
  rw [List.drop_append_of_le_length (by simp [ho]), List.drop_eq_nil_of_le (by simp), List.nil_append]

/-- C71 is false of the code for the parameters: whatever types and parameters a stream codes, every header the
parser returns has the identity parameters for all seven references (the function that reads parameters is never
called, and no bit is consumed for them). -/
theorem C71_params_refuted (h : Header) (sh : SeqHeader) (hs : SeqSupported sh) (st : FrameState)
    (hst : StateShape st) (s : BitStream) (hne : ¬ ShowsExisting sh s) (u : UHeader) (st' : FrameState)
    (s' : BitStream) (hr : newUncompressedHeader h sh st s = .ok ((u, st'), s')) :
    u.gmParams.drop 1 = List.replicate 7 [0, 0, 65536, 0, 0, 65536] :=
  (C72_header_consistent h sh hs st hst s hne u st' s' hr).gm

/-- C71: types are always known types, and intra frames have none but the identity. -/
theorem C71_intra_identity (h : Header) (sh : SeqHeader) (hs : SeqSupported sh) (st : FrameState)
    (hst : StateShape st) (s : BitStream) (hne : ¬ ShowsExisting sh s) (u : UHeader) (st' : FrameState)
    (s' : BitStream) (hr : newUncompressedHeader h sh st s = .ok ((u, st'), s')) :
    st'.gmType.length = 8 ∧ (∀ t ∈ st'.gmType.drop 1, t ≤ 3) ∧
      (u.frameIsIntra = true → st'.gmType.drop 1 = List.replicate 7 0) :=
  (C72_header_consistent h sh hs st hst s hne u st' s' hr).gmt

example : (globalMotionParams false (List.replicate 8 0) ⟨[0x9C, 0x00], 0, 0⟩).map (fun p => (p.1, p.2.pos)) =
    .ok ([0, 3, 2, 3, 0, 0, 0, 0], 12) := by decide +kernel

/-! ## C80: independence from the past -/

/-- Two readers agree on a stream: both return, at the same position, values related by `R`, or both fail alike. -/
def Same {α β : Type} (R : α → β → Prop) : Res (α × BitStream) → Res (β × BitStream) → Prop
  | .ok (a, s), .ok (b, t) => s = t ∧ R a b
  | .error e, .error f => e = f
  | _, _ => False

/-- On every stream. -/
def Rel {α β : Type} (R : α → β → Prop) (m : BM α) (n : BM β) : Prop := ∀ s, Same R (m s) (n s)

namespace Rel

theorem pure {α β : Type} {R : α → β → Prop} {a : α} {b : β} (h : R a b) :
    Rel R (Pure.pure a : BM α) (Pure.pure b : BM β) := fun _ => ⟨rfl, h⟩

theorem fail {α β : Type} {R : α → β → Prop} (e : Fault) : Rel R (BM.fail e : BM α) (BM.fail e : BM β) :=
  fun _ => rfl

theorem refl {α : Type} (m : BM α) : Rel Eq m m := by
  intro s
  cases h : m s with
  | ok p => exact ⟨rfl, rfl⟩
  | error e => exact rfl

theorem bind {α β γ δ : Type} {R : α → β → Prop} {Q : γ → δ → Prop} {m : BM α} {n : BM β} {k : α → BM γ}
    {l : β → BM δ} (hm : Rel R m n) (hk : ∀ a b, R a b → Rel Q (k a) (l b)) : Rel Q (m >>= k) (n >>= l) := by
  intro s
  have := hm s
  cases h1 : m s with
  | error e =>
    cases h2 : n s with
    | error f =>
      rw [h1, h2] at this
      rw [BM.bind_error h1, BM.bind_error h2]
      exact this
    | ok p => rw [h1, h2] at this; exact this.elim
  | ok p =>
    obtain ⟨a, s1⟩ := p
    cases h2 : n s with
    | error f => rw [h1, h2] at this; exact this.elim
    | ok q =>
      obtain ⟨b, s2⟩ := q
      rw [h1, h2] at this
      obtain ⟨rfl, hab⟩ := this
      rw [BM.bind_ok h1, BM.bind_ok h2]
      exact hk a b hab s1

/-- The same reader on both sides. -/
theorem same {α γ δ : Type} {Q : γ → δ → Prop} (m : BM α) {k : α → BM γ} {l : α → BM δ}
    (hk : ∀ a, Rel Q (k a) (l a)) : Rel Q (m >>= k) (m >>= l) :=
  bind (refl m) fun a b hab => by subst hab; exact hk a

theorem ite {α β : Type} {R : α → β → Prop} {c : Prop} [Decidable c] {m m' : BM α} {n n' : BM β}
    (h : c → Rel R m n) (h' : ¬ c → Rel R m' n') : Rel R (if c then m else m') (if c then n else n') := by
  split
  · exact h ‹_›
  · exact h' ‹_›

end Rel

/-- Equal tile layouts: the size of the tile size field matters only if there is more than one tile, and is
coded exactly then. -/
structure SameTiles (a b : Tiles) : Prop where
  starts : a.miColStarts = b.miColStarts ∧ a.miRowStarts = b.miRowStarts
  counts : a.tileCols = b.tileCols ∧ a.tileRows = b.tileRows ∧ a.tileColsLog2 = b.tileColsLog2 ∧
    a.tileRowsLog2 = b.tileRowsLog2
  id : a.contextUpdateTileId = b.contextUpdateTileId
  bytes : (0 < a.tileColsLog2 ∨ 0 < a.tileRowsLog2) → a.tileSizeBytes = b.tileSizeBytes

/-- Equal restoration parameters: the unit sizes matter only if restoration is used. -/
structure SameLr (a b : LrParams) : Prop where
  types : a.types = b.types
  uses : a.usesLr = b.usesLr
  sizes : a.usesLr = true → a.sizes = b.sizes

/-- Two parse results describe the same frame: the headers are equal and so is the decoder state set up for the
frame. -/
structure SameFrame (p q : UHeader × FrameState) : Prop where
  header : { p.1 with lr := q.1.lr } = q.1
  lr : SameLr p.1.lr q.1.lr
  mi : p.2.miCols = q.2.miCols ∧ p.2.miRows = q.2.miRows
  tiles : SameTiles p.2.tiles q.2.tiles
  features : p.2.featureEnabled = q.2.featureEnabled ∧ p.2.featureData = q.2.featureData
  segIds : p.2.prevSegmentIds = q.2.prevSegmentIds
  gm : p.2.gmType.drop 1 = q.2.gmType.drop 1 ∧ p.2.prevGmParams.drop 1 = q.2.prevGmParams.drop 1
  cdfs : p.2.nonCoeffCdfs = q.2.nonCoeffCdfs ∧ p.2.coeffCdfs = q.2.coeffCdfs
  lrSize : p.1.lr.usesLr = true → p.2.loopRestorationSize = q.2.loopRestorationSize

theorem tileInfo_rel (u128 : Bool) (c r o1 o2 : Nat) :
    Rel SameTiles (newTileInfo u128 c r o1) (newTileInfo u128 c r o2) := by
  unfold newTileInfo
  refine Rel.same _ fun _ => Rel.same _ fun _ => Rel.same _ fun _ => Rel.same _ fun _ => Rel.same _ fun _ =>
    Rel.same _ fun x => ?_
  obtain ⟨cols, i, cl, rows, j, rl⟩ := x
  dsimp only
  refine Rel.ite (fun _ => Rel.same _ fun _ => Rel.same _ fun _ => Rel.pure ?_) fun h => Rel.pure ?_
  · exact ⟨⟨rfl, rfl⟩, ⟨rfl, rfl, rfl, rfl⟩, rfl, fun _ => rfl⟩
  · exact ⟨⟨rfl, rfl⟩, ⟨rfl, rfl, rfl, rfl⟩, rfl, fun h' => absurd h' h⟩

theorem lr_rel (sh : SeqHeader) (a b : Bool) (o1 o2 : List Nat) :
    Rel SameLr (lrParams sh a b o1) (lrParams sh a b o2) := by
  unfold lrParams
  refine Rel.ite (fun _ => Rel.pure ⟨rfl, rfl, fun h => by cases h⟩) fun _ => Rel.same _ fun ts => ?_
  dsimp only
  refine Rel.ite (fun _ => Rel.same _ fun _ => Rel.same _ fun _ => Rel.pure ⟨rfl, rfl, fun _ => rfl⟩) fun h =>
    Rel.pure ⟨rfl, rfl, fun h' => absurd h' h⟩

theorem uhLossless_cur (seg : SegParams) (q : QuantParams) (d : Bool) (c1 c2 : Int) :
    uhLossless seg q d c1 = uhLossless seg q d c2 := by
  have : segLossless seg q d c1 = segLossless seg q d c2 := by
    funext i
    unfold segLossless getQIndex
    simp
  unfold uhLossless; rw [this]

/-- States as `setupPastIndependence` leaves them, for a frame of given size. -/
structure SetUp (a b : FrameState) : Prop where
  mi : a.miCols = b.miCols ∧ a.miRows = b.miRows
  features : a.featureEnabled = b.featureEnabled ∧ a.featureData = b.featureData
  segIds : a.prevSegmentIds = b.prevSegmentIds
  gm : a.prevGmParams.drop 1 = b.prevGmParams.drop 1
  gmType : a.gmType.length = 8 ∧ b.gmType.length = 8
  cdfs : a.nonCoeffCdfs = b.nonCoeffCdfs
  hints : a.refOrderHint.length = 8 ∧ b.refOrderHint.length = 8

theorem uhQuant_rel (sh : SeqHeader) (u : UHeader) (a b : FrameState) (h : SetUp a b) :
    Rel (fun p q => p.1 = q.1 ∧ (p.1.frameIsIntra = u.frameIsIntra ∧ p.1.refFrameIdx = u.refFrameIdx) ∧ SetUp p.2 q.2 ∧
      SameTiles p.2.tiles q.2.tiles ∧ p.2.coeffCdfs = q.2.coeffCdfs) (uhQuant sh u a) (uhQuant sh u b) := by
  unfold uhQuant
  rw [h.mi.1, h.mi.2, h.features.1, h.features.2]
  refine Rel.bind (tileInfo_rel _ _ _ _ _) fun t1 t2 ht => Rel.same _ fun q => Rel.same _ fun seg =>
    Rel.same _ fun d => ?_
  obtain ⟨dqp, dqr⟩ := d
  dsimp only
  refine Rel.same _ fun l => ?_
  obtain ⟨dlp, dlr, dlm⟩ := l
  dsimp only
  rw [uhLossless_cur seg q dqp a.currentQIndex b.currentQIndex]
  refine Rel.same _ fun ll => Rel.pure ?_
  refine ⟨rfl, ⟨rfl, rfl⟩, ?_, ht, rfl⟩
  exact ⟨⟨rfl, rfl⟩, ⟨rfl, rfl⟩, h.segIds, h.gm, h.gmType, h.cdfs, h.hints⟩

theorem uhFilters_rel (sh : SeqHeader) (u : UHeader) (er : Bool) (a b : FrameState) (h : SetUp a b)
    (ht : SameTiles a.tiles b.tiles) (hc : a.coeffCdfs = b.coeffCdfs) (hi : u.frameIsIntra = true)
    (hr : ∀ i ∈ u.refFrameIdx, i < 8) :
    Rel SameFrame (uhFilters sh u er a) (uhFilters sh u er b) := by
  unfold uhFilters
  refine Rel.same _ fun lf => Rel.same _ fun cdef => Rel.bind (lr_rel sh _ _ _ _) fun l1 l2 hl => Rel.same _ fun tx =>
    Rel.same _ fun rs => ?_
  have hh : ∀ x : List Nat, x.length = 8 → ∃ r, (u.refFrameIdx.mapM fun i => goGet x (i : Nat)) = .ok r := by
    intro x hx
    obtain ⟨r, h1, -⟩ := mapM_ok (fun i : Nat => goGet x (i : Int)) u.refFrameIdx fun i hi => by
      unfold goGet
      rw [if_neg (by omega), Int.toNat_natCast]
      have := hr i hi
      rw [List.getElem?_eq_getElem (by omega)]
      exact ⟨_, rfl⟩
    exact ⟨r, h1⟩
  obtain ⟨x1, e1⟩ := hh _ h.hints.1
  obtain ⟨x2, e2⟩ := hh _ h.hints.2
  rw [e1, e2]
  dsimp only [BM.lift_ok]
  rw [BM.pure_bind, BM.pure_bind]
  have hskip : ∀ n l, skipModeParams false n u.frameIsIntra rs u.orderHint l = pure 0 := fun n l => by
    funext s; exact C34_skip_mode_never _ _ _ _ _ s
  rw [hskip, hskip, BM.pure_bind, BM.pure_bind]
  refine Rel.same _ fun warp => Rel.same _ fun rts => ?_
  unfold globalMotionParams
  rw [if_pos hi, BM.pure_bind, if_pos hi, BM.pure_bind]
  refine Rel.same _ fun fg => Rel.pure ?_
  have hd : ∀ x : List Nat, x.length = 8 → (x.take 1 ++ List.replicate 7 0).drop 1 = List.replicate 7 0 := fun x hx => by
    rw [List.drop_append_of_le_length (by simp [hx]), List.drop_eq_nil_of_le (by simp), List.nil_append]
  exact {
    header := rfl, lr := hl, mi := h.mi, tiles := ht, features := h.features, segIds := h.segIds
    gm := ⟨by show (a.gmType.take 1 ++ _).drop 1 = (b.gmType.take 1 ++ _).drop 1; rw [hd _ h.gmType.1, hd _ h.gmType.2], h.gm⟩
    cdfs := ⟨h.cdfs, hc⟩
    lrSize := hl.sizes }

theorem uhIds_rel (h : Header) (sh : SeqHeader) (u : UHeader) (er : Bool) (a b : FrameState) (hi : u.frameIsIntra = true) :
    Rel (fun p q => p.1 = q.1 ∧ p.2 = a ∧ q.2 = b ∧ p.1.frameIsIntra = true ∧ p.1.refFrameIdx = u.refFrameIdx)
      (uhIds h sh u er a) (uhIds h sh u er b) := by
  unfold uhIds
  refine Rel.same _ fun dcu => Rel.same _ fun sc => ?_
  obtain ⟨sct, imv⟩ := sc
  dsimp only
  refine Rel.bind (R := fun p q => p.1 = q.1 ∧ p.2 = a ∧ q.2 = b) ?_ fun p q hpq => ?_
  · unfold uhFrameId
    refine Rel.ite (fun _ => Rel.same _ fun id => ?_) fun _ => Rel.pure ⟨rfl, rfl, rfl⟩
    have : ∀ rv, markRefFrames [] id (sh.deltaFrameIdLengthMinusTwo + 2) (idLen sh) rv = .error .index := fun rv => rfl
    rw [this, this]
    intro s
    exact rfl
  obtain ⟨id1, a1⟩ := p
  obtain ⟨id2, b1⟩ := q
  obtain ⟨h1, h2, h3⟩ := hpq
  dsimp only at h1 h2 h3 ⊢
  subst h1 h2 h3
  exact Rel.same _ fun _ => Rel.same _ fun _ => Rel.same _ fun _ => Rel.same _ fun _ => Rel.same _ fun _ =>
    Rel.pure ⟨rfl, rfl, rfl, hi, rfl⟩

theorem uhRest_rel (h : Header) (sh : SeqHeader) (u : UHeader) (er : Bool) (a b : FrameState) (hi : u.frameIsIntra = true)
    (hr : ∀ i ∈ u.refFrameIdx, i < 8) (ha : StateShape a) (hb : StateShape b)
    (hpa : a.prevGmParams.length = 8) (hpb : b.prevGmParams.length = 8) :
    Rel SameFrame (uhRest h sh u er a) (uhRest h sh u er b) := by
  unfold uhRest
  refine Rel.bind (uhIds_rel h sh u er a b hi) fun p q hpq => ?_
  obtain ⟨u1, a1⟩ := p
  obtain ⟨u2, b1⟩ := q
  obtain ⟨h1, h2, h3, h4, h5⟩ := hpq
  dsimp only at h1 h2 h3 h4 h5 ⊢
  subst h1 h2 h3
  rw [if_pos h4, if_pos h4]
  refine Rel.bind (R := fun p q => p.1 = q.1 ∧ p.1.frameIsIntra = true ∧ p.1.refFrameIdx = u.refFrameIdx ∧
    SetUp (setupPastIndependence p.2) (setupPastIndependence q.2)) ?_ fun p q hpq => ?_
  · unfold uhIntra
    refine Rel.same _ fun fs => Rel.same _ fun r => ?_
    obtain ⟨rw, rh⟩ := r
    dsimp only
    refine Rel.same _ fun ibc => Rel.pure ⟨rfl, h4, h5, ?_⟩
    refine ⟨⟨rfl, rfl⟩, ⟨rfl, rfl⟩, rfl, ?_, ?_, rfl, ha.hints, hb.hints⟩
    · show (a1.prevGmParams.take 1 ++ _).drop 1 = (b1.prevGmParams.take 1 ++ _).drop 1
      have hd : ∀ x : List (List Int), x.length = 8 → ∀ y, (x.take 1 ++ y).drop 1 = y := fun x hx y => by
        rw [List.drop_append_of_le_length (by simp [hx]), List.drop_eq_nil_of_le (by simp), List.nil_append]
      rw [hd _ hpa, hd _ hpb]
    · constructor
      · show (a1.gmType.take 1 ++ List.replicate 7 0).length = 8
        simp [ha.gmType]
      · show (b1.gmType.take 1 ++ List.replicate 7 0).length = 8
        simp [hb.gmType]
  obtain ⟨v1, a2⟩ := p
  obtain ⟨v2, b2⟩ := q
  obtain ⟨g1, g2, g3, g4⟩ := hpq
  dsimp only at g1 g2 g3 g4 ⊢
  subst g1
  refine Rel.same _ fun dfe => Rel.ite (fun _ => Rel.fail _) fun _ => Rel.ite (fun _ => Rel.fail _) fun _ => ?_
  refine Rel.bind (uhQuant_rel sh _ _ _ g4) fun p q hpq => ?_
  obtain ⟨w1, a3⟩ := p
  obtain ⟨w2, b3⟩ := q
  obtain ⟨k1, k2, k3, k4, k5⟩ := hpq
  dsimp only at k1 k2 k3 k4 k5 ⊢
  subst k1
  exact uhFilters_rel sh _ er _ _ k3 k4 k5 (k2.1.trans g2) (by rw [k2.2]; show ∀ i ∈ v1.refFrameIdx, i < 8; rw [g3]; exact hr)

/-- C80: parsing the header of a key frame or intra-only frame does not depend on what was decoded before: from
any two decoder states the same bits give the same header and set up the same frame state at the same position, or
fail in the same way.  (Frame types 0 and 2 are coded by two bits of which the second is 0.) -/
theorem C80_intra_independent (h : Header) (sh : SeqHeader) (a b : FrameState) (ha : StateShape a) (hb : StateShape b)
    (hpa : a.prevGmParams.length = 8) (hpb : b.prevGmParams.length = 8) (s : BitStream)
    (hk : sh.reducedStillPictureHeader = true ∨ ∃ t rest, unread s = false :: t :: false :: rest) :
    Same SameFrame (newUncompressedHeader h sh a s) (newUncompressedHeader h sh b s) := by
  have h0 : ∀ i ∈ List.replicate 7 0, i < 8 := by
    intro i hi; rw [(List.mem_replicate.mp hi).2]; omega
  unfold newUncompressedHeader
  by_cases hred : sh.reducedStillPictureHeader = true
  · rw [if_pos hred, if_pos hred]
    exact uhRest_rel h sh _ _ a b rfl h0 ha hb hpa hpb s
  · rw [if_neg hred, if_neg hred]
    obtain ⟨t, rest, hu⟩ := hk.resolve_left hred
    have hflag : flag s = .ok (false, s.advance 1) := Reads.flag false s _ (by rw [hu]; rfl)
    rw [BM.bind_ok hflag, BM.bind_ok hflag]
    simp only [Bool.false_eq_true, if_false]
    have hu1 : unread (s.advance 1) = t :: false :: rest := by rw [unread_advance, hu]; rfl
    cases e : uhFrameType sh (s.advance 1) with
    | error f => rw [BM.bind_error e, BM.bind_error e]; exact rfl
    | ok p =>
      obtain ⟨⟨u, er⟩, s1⟩ := p
      rw [BM.bind_ok e, BM.bind_ok e]
      have hE := uhFrameType_ensures sh _ _ _ e
      refine uhRest_rel h sh u er a b ?_ (by rw [hE.2.1]; exact h0) ha hb hpa hpb s1
      rw [hE.2.2.2.2]
      unfold uhFrameType at e
      have hft : F 2 (s.advance 1) = .ok (2 * t.toNat, (s.advance 1).advance 2) := by
        refine Reads.F (n := 2) (v := 2 * t.toNat) (by cases t <;> decide) _ rest ?_
        rw [hu1]; cases t <;> rfl
      rw [BM.bind_ok hft] at e
      obtain ⟨_, _, -, e⟩ := BM.bind_eq_ok.mp e
      obtain ⟨_, _, -, e⟩ := BM.bind_eq_ok.mp e
      obtain ⟨_, _, -, e⟩ := BM.bind_eq_ok.mp e
      obtain ⟨_, _, -, e⟩ := BM.bind_eq_ok.mp e
      cases e
      cases t <;> rfl

/-- Two different pasts, the same key frame. -/
example : (newUncompressedHeader sampleObu sampleSeq { currentQIndex := 9, refValid := List.replicate 8 1, gmType := List.replicate 8 2 }
    ⟨[0x05, 0x40, 0x00, 0x00, 0x00, 0x00, 0x00, 0x00, 0x00, 0x00], 0, 0⟩).map (fun p => (p.1.1, p.1.2.gmType.drop 1)) =
    (newUncompressedHeader sampleObu sampleSeq {}
    ⟨[0x05, 0x40, 0x00, 0x00, 0x00, 0x00, 0x00, 0x00, 0x00, 0x00], 0, 0⟩).map (fun p => (p.1.1, p.1.2.gmType.drop 1)) := by
  decide +kernel

end Gov1
