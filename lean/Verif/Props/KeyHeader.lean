import Verif.Spec.KeyHeader
import Verif.Props.HeaderSemantics
import Verif.Props.FrameSize
import Verif.Props.Segmentation
import Verif.Props.Filters
import Verif.Props.FilmGrain
import Verif.Props.TileCoding

/-! # C201, C202: deltas and whole key frame headers -/

namespace Gov1
open Spec

theorem Reads.last {α β : Type} {m : BM α} {k : α → BM β} {b : List Bool} {a : α} {c : β} (hm : Reads m b a) (hk : k a = Pure.pure c) :
    Reads (m >>= k) b c := by
  have := Reads.bind (b2 := []) hm (show Reads (k a) [] c by rw [hk]; exact Reads.pure c); simpa using this

/-! ## C201: the deltas -/

/-- **C201.**  The quantizer and loop filter deltas read back: they are coded just if the base quantizer is not 0, and those of the loop filter
only with those of the quantizer and without intra block copy. -/
theorem C201_deltas (k : KeyHeader) (h1 : ∀ r, k.deltaQ = some r → r < 4 ∧ k.quant.baseQIdx ≠ 0)
    (h2 : ∀ r, k.deltaLf = some r → r.1 < 4 ∧ k.deltaQ ≠ none ∧ k.usesBc = false) :
    ReadsP (do
      let q ← deltaQParams k.quant.baseQIdx
      let l ← deltaLfParams q.1 k.usesBc
      pure (q, l)) k.encDeltas
      (· = ((k.deltaQ.isSome, k.deltaQ.getD 0), (k.deltaLf.isSome, (k.deltaLf.getD (0, false)).1, (k.deltaLf.getD (0, false)).2.toNat))) := by
  unfold KeyHeader.encDeltas
  have hq : Reads (deltaQParams k.quant.baseQIdx)
      (if k.quant.baseQIdx = 0 then [] else match k.deltaQ with | none => bit false | some r => bit true ++ encF 2 r)
      (k.deltaQ.isSome, k.deltaQ.getD 0) := by
    unfold deltaQParams
    by_cases h0 : k.quant.baseQIdx = 0
    · rw [if_pos h0, if_neg (by omega)]
      cases hd : k.deltaQ with
      | none => exact Reads.bind0 (Reads.pure _) (Reads.pure _)
      | some r => exact absurd h0 (h1 r hd).2
    · rw [if_neg h0, if_pos (by omega)]
      cases hd : k.deltaQ with
      | none => exact Reads.bind (b2 := []) (Reads.flag false) (Reads.pure _)
      | some r =>
        refine Reads.bind (Reads.flag true) ?_
        rw [if_pos rfl]
        exact Reads.bindLast (f := fun r => (true, r)) (Reads.F (n := 2) (by have := (h1 r hd).1; omega))
  have hl : Reads (deltaLfParams k.deltaQ.isSome k.usesBc)
      (if k.deltaQ = none ∨ k.usesBc then [] else match k.deltaLf with | none => bit false | some r => bit true ++ (encF 2 r.1 ++ bit r.2))
      (k.deltaLf.isSome, (k.deltaLf.getD (0, false)).1, (k.deltaLf.getD (0, false)).2.toNat) := by
    unfold deltaLfParams
    cases hd : k.deltaQ with
    | none =>
      cases hl : k.deltaLf with
      | none => exact Reads.pure _
      | some r => exact absurd hd (h2 r hl).2.1
    | some q =>
      cases hb : k.usesBc
      · simp only [Option.isSome_some, if_true, Bool.not_false]
        rw [if_neg (by simp)]
        cases hl : k.deltaLf with
        | none => exact Reads.bind (b2 := []) (Reads.flag false) (Reads.pure _)
        | some r =>
          refine Reads.bind (Reads.flag true) ?_
          rw [if_pos rfl]
          refine Reads.bind (Reads.F (n := 2) (by have := (h2 r hl).1; omega)) ?_
          exact Reads.bindLast (f := fun m => (true, r.1, m)) (F1_bit r.2)
      · cases hl : k.deltaLf with
        | none => simpa using Reads.pure _
        | some r => rw [(h2 r hl).2.2] at hb; cases hb
  refine ReadsP.of hq (Reads.toP ?_)
  exact Reads.bindLast (f := fun l => ((k.deltaQ.isSome, k.deltaQ.getD 0), l)) hl

/-- Deltas of the quantizer in steps of 4 (code 2), and one of the loop filter for each plane in steps of 2: seven bits. -/
example : KeyHeader.encDeltas { quant := { baseQIdx := 1 }, deltaQ := some 2, deltaLf := some (1, true) } = [true, true, false, true, false, true, true] := by decide

/-! ## C202: a whole key frame header -/

namespace KeyHdr

/-- After `frame_type` and `show_frame`. -/
def u0 (k : KeyHeader) : UHeader :=
  { frameType := if k.hidden.isSome then 2 else 0, frameIsIntra := true, showFrame := !k.hidden.isSome
    showableFrame := (k.hidden.getD (false, false, 255)).1, framePresentationTime := k.presentation }

/-- `error_resilient_mode`. -/
def er0 (k : KeyHeader) : Bool := match k.hidden with | none => true | some x => x.2.1

theorem start (sh : SeqHeader) (k : KeyHeader) (hk : k.Valid sh) (hf : sh.reducedStillPictureHeader = false) :
    Reads (uhFrameType sh) (match k.hidden with
      | none => encF 2 0 ++ (bit true ++ k.encPresentation sh) | some x => encF 2 2 ++ (bit false ++ (bit x.1 ++ bit x.2.1)))
      (u0 k, er0 k) := by
  unfold uhFrameType u0 er0
  have hpr := hk.presentation
  cases hh : k.hidden with
  | none =>
    refine Reads.bind (Reads.F (n := 2) (v := 0) (by decide)) ?_
    refine Reads.bind (Reads.flag true) ?_
    refine Reads.last' (a := k.presentation) ?_ (Reads.bind0 (a := false) (Reads.pure _) (Reads.bind0 (a := true) (Reads.pure _) (Reads.pure _)))
    unfold temporalPoint KeyHeader.encPresentation
    rw [hh] at hpr
    by_cases hc : sh.decoderModelInfoPresent = true ∧ sh.timingInfo.equalPictureInterval = false
    · rw [if_pos ⟨hc.1, hc.2, rfl, hf⟩] at hpr
      rw [if_pos hc, hc.1, hc.2]
      exact Reads.F hpr
    · rw [if_neg (fun h => hc ⟨h.1, h.2.1⟩)] at hpr
      rw [if_neg hc, hpr]
      rw [if_neg]
      · exact Reads.pure _
      · intro h
        simp only [Bool.and_eq_true, Bool.not_eq_true', true_and] at h
        exact hc h
  | some x =>
    rw [hh, if_neg (by rintro ⟨-, -, h, -⟩; cases h)] at hpr
    rw [hpr]
    refine Reads.bind (Reads.F (n := 2) (v := 2) (by decide)) ?_
    refine Reads.bind (Reads.flag false) ?_
    exact Reads.bind0 (a := 0) (Reads.pure _) (Reads.bind (Reads.flag x.1) (Reads.last (Reads.flag x.2.1) rfl))

/-- After the order hint. -/
def u1 (k : KeyHeader) : UHeader :=
  { u0 k with disableCdfUpdate := k.disableCdfUpdate, allowScreenContentTools := k.screen.toNat, forceIntegerMv := true,
              frameSizeOverrideFlag := k.override, orderHint := k.orderHint, primaryRefFrame := 7, refreshFrameFlags := (k.hidden.getD (false, false, 255)).2.2 }

theorem ids (h : Header) (sh : SeqHeader) (hp : PlainSeq sh) (k : KeyHeader) (hk : k.Valid sh) (er : Bool) (he : ∀ x, k.hidden = some x → er = x.2.1) (st : FrameState) :
    Reads (uhIds h sh (u0 k) er st) (k.encIds sh) (u1 k, st) := by
  have hi : (u0 k).frameIsIntra = true := rfl
  have h3 : (u0 k).frameType ≠ 3 := by
    show (if k.hidden.isSome then 2 else 0) ≠ 3
    split <;> decide
  unfold uhIds KeyHeader.encIds
  rw [hi]
  refine Reads.bind (Reads.flag _) ?_
  refine Reads.bind (a := (k.screen.toNat, true)) ?_ ?_
  · unfold uhScreenContent
    refine Reads.bind (a := k.screen.toNat) ?_ ?_
    · rcases hp.tools with h | h
      · rw [if_neg (by omega), if_neg (by omega), hk.screen (by omega)]; exact Reads.pure _
      · rw [if_pos h, if_pos h]; exact F1_bit k.screen
    · cases hs : k.screen
      · rw [if_neg (show ¬ (false.toNat ≠ 0) from fun h => h rfl), if_neg (show ¬ (false = true ∧ sh.seqForceIntegerMv = 2) from fun h => nomatch h.1)]
        exact Reads.bind0 (a := false) (Reads.pure _) (Reads.pure _)
      · rw [if_pos (show true.toNat ≠ 0 by decide)]
        by_cases hm : sh.seqForceIntegerMv = 2
        · rw [if_pos (show true = true ∧ sh.seqForceIntegerMv = 2 from ⟨rfl, hm⟩), if_pos hm]
          exact Reads.bindLast (f := fun _ => (1, true)) (Reads.flag k.intMv)
        · rw [if_neg (show ¬ (true = true ∧ sh.seqForceIntegerMv = 2) from fun h => hm h.2), if_neg hm]
          exact Reads.bind0 (a := true) (Reads.pure _) (Reads.pure _)
  · refine Reads.bind0 (a := (0, st)) ?_ ?_
    · unfold uhFrameId; rw [hp.ids]; exact Reads.pure _
    · refine Reads.bind (a := k.override) ?_ ?_
      · rw [if_neg h3]
        cases hf : sh.reducedStillPictureHeader
        · exact Reads.flag _
        · rw [hk.still hf]; exact Reads.pure _
      · refine Reads.bind (Reads.F hk.hint) ?_
        refine Reads.bind0 (a := 7) (Reads.pure _) (Reads.bind (a := ()) ?_ (Reads.last (a := (k.hidden.getD (false, false, 255)).2.2) ?_ ?_))
        · unfold uhBufferRemoval KeyHeader.encRemoval
          cases hm : sh.decoderModelInfoPresent
          · exact Reads.pure _
          · refine Reads.bind (b2 := []) (Reads.flag k.removal) ?_
            cases k.removal
            · exact Reads.pure _
            · unfold bufferRemovalStep
              rw [hp.ops.1, hp.ops.2]
              intro s r hs
              rfl
        · unfold uhRefresh u0
          cases hh : k.hidden with
          | none => exact Reads.bind0 (a := 255) (Reads.pure _) (Reads.pure _)
          | some x =>
            obtain ⟨f1, f2, -⟩ := hk.flags x hh
            have e1 := he x hh
            refine Reads.last (a := x.2.2) ?_ ?_
            · rw [if_neg (by simp)]; exact Reads.F (by omega)
            · rw [if_neg]; rfl
              rw [e1]
              intro hc
              simp only [Bool.and_eq_true] at hc
              rw [f2 hc.1.2] at hc
              exact Bool.noConfusion hc.2
        · rfl

/-- Units of 4 samples, to a multiple of 8 samples. -/
def mi (n : Nat) : Nat := 2 * ((n + 7) >>> 3)

theorem mi_units (n : Nat) : mi n = KeyHeader.units n := by
  unfold mi KeyHeader.units; rw [Nat.shiftRight_eq_div_pow]

theorem mi_pos {n : Nat} (h : 1 ≤ n) : 1 ≤ mi n := by
  unfold mi; rw [Nat.shiftRight_eq_div_pow]; omega

theorem mi_even (n : Nat) : EvenUnits n (mi n) := by
  unfold mi EvenUnits; rw [Nat.shiftRight_eq_div_pow]; omega

theorem downscaled_eq {fs : FrameSize} (h1 : if fs.useSuperRes then 9 ≤ fs.superResDenom ∧ fs.superResDenom ≤ 16 else fs.superResDenom = 8)
    (h : Downscaled fs.upscaledWidth fs.superResDenom fs.frameWidth) :
    fs.frameWidth = (fs.upscaledWidth * 8 + fs.superResDenom / 2) / fs.superResDenom := by
  obtain ⟨a, d, c, f, e, g, i⟩ := fs
  dsimp only at *
  have hd : 0 < d := by
    revert h1
    split
    · omega
    · omega
  unfold Downscaled at h
  rw [Nat.mul_add, show d * (2 * f) = 2 * (d * f) by rw [Nat.mul_left_comm]] at h
  refine (Nat.div_eq_of_lt_le ?_ ?_).symm
  · rw [Nat.mul_comm f d]; omega
  · rw [Nat.add_mul, Nat.mul_comm f d]; omega

theorem codedWidth_pos {sh : SeqHeader} {k : KeyHeader} (hk : k.Valid sh) : 1 ≤ k.codedWidth := by
  unfold KeyHeader.codedWidth
  have h1 := hk.size.1
  cases hs : k.superRes with
  | none => simp only [Option.getD_none]; omega
  | some d =>
    obtain ⟨-, h2, h3⟩ := hk.superRes d hs
    rw [Option.getD_some, Nat.le_div_iff_mul_le (by omega)]; omega

def u2 (k : KeyHeader) : UHeader :=
  { u1 k with size := ⟨k.superRes.isSome, k.superRes.getD 8, k.width, k.codedWidth, k.height, mi k.codedWidth, mi k.height⟩
              renderWidth := (k.render.getD (k.width, 0)).1, renderHeight := (k.render.getD (k.width, 0)).2, allowIntraBc := k.usesBc }

theorem size (sh : SeqHeader) (k : KeyHeader) (hk : k.Valid sh) (st : FrameState) :
    Reads (uhIntra sh (u1 k) st) (k.encSize sh) (u2 k, { st with miCols := mi k.codedWidth, miRows := mi k.height }) := by
  unfold uhIntra KeyHeader.encSize
  refine Reads.bind (a := ⟨k.superRes.isSome, k.superRes.getD 8, k.width, k.codedWidth, k.height, mi k.codedWidth, mi k.height⟩) ?_ ?_
  · intro s rest hs
    obtain ⟨fs, e, e1, e2, e3, e4, e5⟩ := C29_size_roundtrip sh k.override k.width k.height k.superRes hk.size.1 hk.size.2 hk.coded
      hk.superRes s rest hs
    rw [show (u1 k).frameSizeOverrideFlag = k.override from rfl, e]
    have e6 : fs.frameWidth = k.codedWidth := by rw [downscaled_eq e5.denom e5.down, e1, e4]; rfl
    have e7 := e5.cols
    have e8 := e5.rows
    obtain ⟨a, b, c, d, f, g, i⟩ := fs
    dsimp only at e1 e2 e3 e4 e6 e7 e8
    subst e1 e2 e3 e4 e6
    have u := fun n => mi_even n
    have hc : g = mi k.codedWidth := by have := u k.codedWidth; unfold EvenUnits at this e7; omega
    have hr : i = mi k.height := by have := u k.height; unfold EvenUnits at this e8; omega
    subst hc hr
    rfl
  · refine Reads.bind (a := ((k.render.getD (k.width, 0)).1, (k.render.getD (k.width, 0)).2)) ?_ ?_
    · unfold renderSize
      cases hr : k.render with
      | none => exact Reads.bind (b2 := []) (Reads.flag false) (Reads.pure _)
      | some r =>
        obtain ⟨⟨h1, h2⟩, h3, h4⟩ := hk.render r hr
        refine Reads.bind (Reads.flag true) ?_
        rw [if_pos rfl]
        refine Reads.bind (Reads.F (n := 16) (v := r.1 - 1) (by omega)) ?_
        have := Reads.bindLast (f := fun x => (r.1 - 1 + 1, x + 1)) (Reads.F (n := 16) (v := r.2 - 1) (by omega))
        simpa [show r.1 - 1 + 1 = r.1 by omega, show r.2 - 1 + 1 = r.2 by omega] using this
    · refine Reads.last (a := k.usesBc) ?_ rfl
      unfold KeyHeader.usesBc u1
      dsimp only
      by_cases hc : k.screen = true ∧ k.width = k.codedWidth
      · rw [if_pos ⟨by rw [hc.1]; exact Nat.one_ne_zero, hc.2⟩, hc.1, decide_eq_true hc.2]; exact Reads.flag _
      · have : (k.screen && decide (k.width = k.codedWidth)) = false := by
          cases hs : k.screen
          · rfl
          · rw [Bool.true_and, decide_eq_false_iff_not]; exact fun h => hc ⟨hs, h⟩
        rw [if_neg (fun h => hc ⟨by cases hs : k.screen; rw [hs] at h; exact absurd rfl h.1; rfl, h.2⟩), this]
        exact Reads.pure _

/-- Feature flags and values. -/
def feats (k : KeyHeader) : List (List Nat) × List (List Int) :=
  match k.seg with
  | none => (List.replicate 8 (List.replicate 8 0), List.replicate 8 (List.replicate 8 0))
  | some f => (f.map (·.map Prod.fst), f.map (·.map Prod.snd))

/-- The segmentation parameters. -/
def segOf (k : KeyHeader) : SegParams :=
  ⟨k.seg.isSome, k.seg.isSome.toNat, 0, k.seg.isSome.toNat, (feats k).1, (feats k).2, (segScan (feats k).1).2, (segScan (feats k).1).1⟩

/-- The reference frame features fit in the two bits the code can return (C66). -/
def RefFits (k : KeyHeader) : Prop := ∀ f, k.seg = some f → ∀ row ∈ f, ∀ p, row[5]? = some p → p.2 < 4

theorem each_row {k : KeyHeader} {sh : SeqHeader} (hk : k.Valid sh) {f : List (List (Nat × Int))} (hf : k.seg = some f) :
    Each (fun _ row => Each CodedFeature (List.range 8) row) (List.range 8) f := by
  obtain ⟨h1, h2⟩ := hk.seg f hf
  refine Each.of_forall (by simpa using h1) fun _ _ row _ hr => ?_
  obtain ⟨h3, h4⟩ := h2 row (List.mem_of_getElem? hr)
  refine Each.of_forall (by simpa using h3) fun n j p hj hp => ?_
  have : j = n := by
    have h8 := (List.getElem?_eq_some_iff.mp hj).1
    rw [List.getElem?_range (by simpa using h8)] at hj
    exact (Option.some.inj hj).symm
  subst this
  exact h4 j p hp

theorem feats_ok {k : KeyHeader} {sh : SeqHeader} (hk : k.Valid sh) : FeaturesOk (feats k).1 (feats k).2 := by
  unfold feats
  cases hf : k.seg with
  | none => exact features_zero
  | some f => exact features_ok (each_row hk hf)

theorem seg (sh : SeqHeader) (k : KeyHeader) (hk : k.Valid sh) (hr : RefFits k) (a : List (List Nat)) (b : List (List Int)) :
    Reads (segmentationParams true a b) k.encSeg (segOf k) := by
  unfold segmentationParams KeyHeader.encSeg segOf feats
  cases hf : k.seg with
  | none => exact Reads.bind (b2 := []) (Reads.flag false) (Reads.pure _)
  | some f =>
    refine Reads.bind (Reads.flag true) ?_
    rw [if_pos rfl]
    refine Reads.bind0 (a := (1, 0, 1)) (Reads.pure _) ?_
    refine Reads.last (a := (f.map (·.map Prod.fst), f.map (·.map Prod.snd))) ?_ rfl
    rw [if_pos rfl]
    refine Reads.last (a := f) ?_ rfl
    unfold segFeatures
    refine Reads.mapBM_const (by simpa using (hk.seg f hf).1) fun _ row hrow => ?_
    obtain ⟨h3, h4⟩ := (hk.seg f hf).2 row hrow
    refine Reads.mapBM (enc := encFeature) (Each.of_forall (by simpa using h3) fun n j p hj hp => ?_)
    have h8 : n < 8 := by have := (List.getElem?_eq_some_iff.mp hj).1; simpa using this
    have : j = n := by
      rw [List.getElem?_range h8] at hj
      exact (Option.some.inj hj).symm
    subst this
    exact fun s rest hs => C66_feature_roundtrip_partial j h8 p (h4 j p hp) (fun h => hr f hf row hrow p (h ▸ hp)) s rest hs

/-- Level of the quantizer matrix of a segment. -/
def qm (k : KeyHeader) (i : Nat) : Nat := if k.quant.usingQMatrix then (if k.SegLossless i then 15 else k.quant.qmy) else 0

theorem segQ_eq {k : KeyHeader} {sh : SeqHeader} (hk : k.Valid sh) {i : Nat} (hi : i < 8) (cur : Int) :
    qIndexOf ((segOf k).enabled && ((segOf k).featureEnabled.getD i []).getD 0 0 == 1) k.quant.baseQIdx cur
      (((segOf k).featureData.getD i []).getD 0 0) false = k.segQ i := by
  unfold qIndexOf KeyHeader.segQ segOf feats
  cases hf : k.seg with
  | none => rfl
  | some f =>
    dsimp only
    obtain ⟨h1, h2⟩ := hk.seg f hf
    have hl : i < f.length := by omega
    have e : f[i]? = some f[i] := List.getElem?_eq_getElem hl
    have h3 := (h2 _ (List.getElem_mem hl)).1
    have e0 : (f[i])[0]? = some (f[i])[0] := List.getElem?_eq_getElem (by omega)
    simp [List.getD, e, e0]

theorem segLossless_eq {k : KeyHeader} {sh : SeqHeader} (hk : k.Valid sh) (dqp : Bool) (cur : Int) {i : Nat} (hi : i < 8) :
    segLossless (segOf k) k.quant dqp cur i = .ok (decide (k.SegLossless i), qm k i) := by
  have h := (C31_qindex_partial (segOf k).enabled _ _ (feats_ok hk) k.quant.baseQIdx hk.quant.base dqp cur i hi).1
  have h' := segQ_eq hk hi cur
  unfold segLossless
  rw [show getQIndex (segOf k).enabled (segOf k).featureEnabled (segOf k).featureData k.quant.baseQIdx dqp cur 1 i = _ from h.trans (congrArg Except.ok h')]
  have e : losslessOf k.quant (k.segQ i) = decide (k.SegLossless i) := by
    rw [Bool.eq_iff_iff, decide_eq_true_iff]
    unfold losslessOf KeyHeader.SegLossless
    simp only [Bool.and_eq_true, beq_iff_eq]
    tauto
  show Except.ok _ = _
  rw [e]
  unfold qm
  simp only [decide_eq_true_eq]

theorem mapM_all {α β : Type} (f : α → Res β) (g : α → β) (l : List α) (h : ∀ a ∈ l, f a = .ok (g a)) : l.mapM f = .ok (l.map g) := by
  induction l with
  | nil => rfl
  | cons a l ih =>
    rw [List.mapM_cons, h a (List.mem_cons_self ..)]
    simp only [bind, Except.bind, ih fun x hx => h x (List.mem_cons_of_mem _ hx)]
    rfl

def u3 (rs : Bool) (k : KeyHeader) : UHeader :=
  { u2 k with disableFrameEndUpdateCdf := rs || k.disableCdfUpdate || k.keepCdfs, loopFilter := initialLoopFilter, quant := k.quant, seg := segOf k
              delta := ⟨k.deltaQ.isSome, k.deltaQ.getD 0, k.deltaLf.isSome, (k.deltaLf.getD (0, false)).1, (k.deltaLf.getD (0, false)).2.toNat⟩
              losslessArray := (List.range 8).map fun i => decide (k.SegLossless i), segQMLevel := (List.range 8).map (qm k)
              codedLossless := decide k.Lossless, allLossless := decide k.AllLossless }

def s3 (k : KeyHeader) (tl : Tiles) (st : FrameState) : FrameState :=
  { st with tiles := tl
            featureEnabled := (segOf k).featureEnabled, featureData := (segOf k).featureData, coeffCdfs := some (coeffCdfIdx k.quant.baseQIdx) }

theorem quant (rs : Bool) (sh : SeqHeader) (hp : PlainSeq sh) (k : KeyHeader) (hk : k.Valid sh) (hr : RefFits k) (ht : RowsFixed (mi k.codedWidth) (mi k.height) k.tiles) (st : FrameState)
    (h1 : st.miCols = mi k.codedWidth) (h2 : st.miRows = mi k.height) :
    ReadsP (uhQuant sh { u2 k with disableFrameEndUpdateCdf := rs || k.disableCdfUpdate || k.keepCdfs, loopFilter := initialLoopFilter } st)
      (k.encQ sh) (fun p => ∃ tl, TilesRead (mi k.codedWidth) (mi k.height) st.tiles.tileSizeBytes k.tiles tl ∧ p = (u3 rs k, s3 k tl st)) := by
  unfold uhQuant KeyHeader.encQ
  rw [hp.sb, h1, h2]
  refine ReadsP.bind (P := TilesRead (mi k.codedWidth) (mi k.height) st.tiles.tileSizeBytes k.tiles) ?_ ?_
  · rw [← mi_units, ← mi_units]
    exact newTileInfo_reads _ _ _ (mi_pos (codedWidth_pos hk)) (mi_pos hk.size.2) _ (by rw [mi_units, mi_units]; exact hk.tiles) ht
  intro tl htl
  refine ReadsP.mono (P := (· = (u3 rs k, s3 k tl st))) (Reads.toP ?_) fun p hp => ⟨tl, htl, hp⟩
  refine Reads.bind (fun s rest h => C65_quant_roundtrip sh.colorConfig k.quant hk.quant s rest h) ?_
  refine Reads.bind (seg sh k hk hr _ _) ?_
  intro s rest h
  obtain ⟨x, e, rfl⟩ := C201_deltas k hk.deltaQ hk.deltaLf s rest h
  obtain ⟨q, s1, e1, e2⟩ := BM.bind_eq_ok.mp e
  obtain ⟨l, s2, e3, e4⟩ := BM.bind_eq_ok.mp e2
  cases e4
  rw [BM.bind_ok e1]
  dsimp only
  rw [show ({ u2 k with disableFrameEndUpdateCdf := rs || k.disableCdfUpdate || k.keepCdfs, loopFilter := initialLoopFilter } : UHeader).allowIntraBc = k.usesBc from rfl, BM.bind_ok e3]
  have el : uhLossless (segOf k) k.quant k.deltaQ.isSome st.currentQIndex = .ok ((List.range 8).map fun i => (decide (k.SegLossless i), qm k i)) :=
    mapM_all _ _ _ fun i hi => segLossless_eq hk _ _ (List.mem_range.mp hi)
  dsimp only
  rw [el]
  have ea : (decide k.Lossless && ((u2 k).size.frameWidth == (u2 k).size.upscaledWidth)) = decide k.AllLossless := by
    rw [Bool.eq_iff_iff, Bool.and_eq_true, beq_iff_eq, decide_eq_true_iff, decide_eq_true_iff]; rfl
  have ec : ((List.range 8).map fun i => (decide (k.SegLossless i), qm k i)).all (·.1) = decide k.Lossless := by
    rw [Bool.eq_iff_iff, decide_eq_true_iff, List.all_map, List.all_eq_true]
    unfold KeyHeader.Lossless
    simp only [List.mem_range, Function.comp, decide_eq_true_eq]
  show Except.ok _ = Except.ok _
  refine congrArg (fun x => Except.ok (x, _)) ?_
  refine Prod.ext ?_ (by unfold s3; rw [← h1, ← h2])
  unfold u3
  rw [ec, ea, List.map_map, List.map_map]
  rfl

def u4 (rs : Bool) (k : KeyHeader) (lf : LoopFilter) (cd : CdefParams) (lr : LrParams) : UHeader :=
  { u3 rs k with loopFilter := lf, cdef := cd, lr := lr, txMode := (if k.Lossless then 0 else if k.txSelect then 2 else 1)
                 reducedTxSet := k.reducedTx, gmParams := (u3 rs k).gmParams.take 1 ++ List.replicate 7 gmDefault
                 filmGrain := k.grain.getD {} }

/-- The part of the header after the filters. -/
def tailOf (sh : SeqHeader) (u : UHeader) (er : Bool) (st : FrameState) (coded : Bool) (lf : LoopFilter) (cdef : CdefParams) (lr : LrParams) :
    BM (UHeader × FrameState) := do
  let tx ← readTxMode coded
  let rs ← (if u.frameIsIntra then pure false else flag)
  let hints ← BM.lift (u.refFrameIdx.mapM fun i => goGet st.refOrderHint (i : Nat))
  let skip ← skipModeParams false sh.orderHintBits u.frameIsIntra rs u.orderHint
    (hints.map Int.ofNat)
  let warp ← (if u.frameIsIntra || er || !sh.enableWarpedMotion then pure false else flag)
  let rts ← flag
  let gm ← globalMotionParams u.frameIsIntra st.gmType
  let fg ← filmGrainParams sh u.showFrame u.showableFrame u.frameType
  pure ({ u with loopFilter := lf, cdef := cdef, lr := lr, txMode := tx, referenceSelect := rs,
                 skipModePresent := skip, allowWarpedMotion := warp, reducedTxSet := rts,
                 gmParams := u.gmParams.take 1 ++ List.replicate 7 gmDefault, filmGrain := fg },
    { st with loopRestorationSize := lr.sizes, gmType := gm })

theorem filters_eq (sh : SeqHeader) (u : UHeader) (er : Bool) (st : FrameState) : uhFilters sh u er st = (do
    let lf ← loopFilterParams u.loopFilter u.codedLossless u.allowIntraBc sh.colorConfig.numPlanes
    let cdef ← cdefParams u.codedLossless u.allowIntraBc sh.enableCdef sh.colorConfig.numPlanes
    let lr ← lrParams sh u.allLossless u.allowIntraBc st.loopRestorationSize
    tailOf sh u er st u.codedLossless lf cdef lr) := rfl

/-- Result of the filters. -/
theorem filters (w : Nat) (er rs : Bool) (sh : SeqHeader) (hp : PlainSeq sh) (k : KeyHeader) (hk : k.Valid sh) (hw : w = 6 ∨ k.Lossless ∨ k.usesBc = true) (st : FrameState)
    (h0 : st.refOrderHint.length = 8) :
    ReadsP (uhFilters sh (u3 rs k) er st) (k.encFilters w sh ++ k.encTail sh) (fun p => ∃ lf cd lr gm,
      p = (u4 rs k lf cd lr, { st with loopRestorationSize := lr.sizes, gmType := gm }) ∧
      (k.Filtered → lf.level = (if 1 < sh.colorConfig.numPlanes ∧ (k.levels.1 ≠ 0 ∨ k.levels.2.1 ≠ 0)
        then [k.levels.1, k.levels.2.1, k.levels.2.2.1, k.levels.2.2.2] else [k.levels.1, k.levels.2.1, 0, 0]) ∧
        lf.sharpness = k.sharpness ∧ lf.deltaEnabled = k.refDeltas) ∧
      (lf.refDeltas = [1, 0, 0, 0, -1, 0, -1, -1] ∧ lf.modeDeltas = [0, 0]) ∧
      (cd = if k.Filtered ∧ sh.enableCdef then
        ⟨k.cdefBits, k.damping, k.cdef.map (·.1), k.cdef.map (·.2.1), k.cdef.map (·.2.2.1), k.cdef.map (·.2.2.2)⟩ else ⟨0, 3, [0], [0], [0], [0]⟩) ∧
      (lr.types = if k.Restored ∧ sh.enableRestoration then k.lrTypes ++ List.replicate (3 - k.lrTypes.length) 0 else [0, 0, 0]) ∧
      (lr.usesLr = true ↔ (k.Restored ∧ sh.enableRestoration) ∧ ∃ t ∈ k.lrTypes, t ≠ 0) ∧
      ((k.Restored ∧ sh.enableRestoration) → (∃ t ∈ k.lrTypes, t ≠ 0) → ∃ c, lr.sizes = [k.lrSize, c, c] ∧
        (if sh.colorConfig.subsamplingX = true ∧ sh.colorConfig.subsamplingY = true ∧ ∃ t ∈ k.lrTypes.drop 1, t ≠ 0
         then k.lrSize = (if k.lrHalf then 2 * c else c) else c = k.lrSize))) := by
  have hL : (u3 rs k).codedLossless = decide k.Lossless := rfl
  have hA : (u3 rs k).allLossless = decide k.AllLossless := rfl
  have hB : (u3 rs k).allowIntraBc = k.usesBc := rfl
  have tail : ∀ lf cd lr, ReadsP (tailOf sh (u3 rs k) er st (decide k.Lossless) lf cd lr) (k.encTail sh)
      (fun p => ∃ gm, p = (u4 rs k lf cd lr, { st with loopRestorationSize := lr.sizes, gmType := gm })) := by
    intro lf cd lr
    unfold KeyHeader.encTail tailOf
    refine ReadsP.of (a := if k.Lossless then 0 else if k.txSelect then 2 else 1) ?_ ?_
    · unfold readTxMode
      by_cases hl : k.Lossless
      · rw [if_pos hl, if_pos hl, if_pos (decide_eq_true hl)]; exact Reads.pure _
      · rw [if_neg hl, if_neg hl, if_neg (by simpa using hl)]
        exact Reads.bindLast (f := fun sel => if sel then 2 else 1) (Reads.flag k.txSelect)
    refine ReadsP.of0 (a := false) (Reads.pure _) ?_
    obtain ⟨r, hr⟩ : ∃ r, ((u3 rs k).refFrameIdx.mapM fun i => goGet st.refOrderHint (i : Nat)) = .ok r := by
      obtain ⟨x, l, e⟩ : ∃ x l, st.refOrderHint = x :: l := by
        cases h : st.refOrderHint with
        | nil => rw [h] at h0; cases h0
        | cons x l => exact ⟨x, l, rfl⟩
      rw [e]
      exact ⟨_, rfl⟩
    refine ReadsP.of0 (a := r) (by rw [hr]; exact Reads.pure _) ?_
    refine ReadsP.of0 (a := 0) (Reads.pure _) ?_
    refine ReadsP.of0 (a := false) (Reads.pure _) ?_
    refine ReadsP.of (Reads.flag k.reducedTx) ?_
    refine ReadsP.of0 (a := _) (Reads.pure _) ?_
    have hg : Reads (filmGrainParams sh (u3 rs k).showFrame (u3 rs k).showableFrame (u3 rs k).frameType)
        (if sh.filmGrainParamsPresent ∧ k.visible then (match k.grain with | none => bit false | some g => encGrain sh.colorConfig 0 g) else []) (k.grain.getD {}) := by
      have hv : k.visible = (!k.hidden.isSome || (k.hidden.getD (false, false, 255)).1) := by
        unfold KeyHeader.visible; cases k.hidden <;> rfl
      have ht : ∀ g, encGrain sh.colorConfig (if k.hidden.isSome then 2 else 0) g = encGrain sh.colorConfig 0 g := by
        intro g; cases k.hidden.isSome <;> rfl
      show Reads (filmGrainParams sh (!k.hidden.isSome) (k.hidden.getD (false, false, 255)).1 (if k.hidden.isSome then 2 else 0)) _ _
      intro s rest h
      by_cases hf : sh.filmGrainParamsPresent = true ∧ k.visible = true
      · rw [if_pos hf] at h ⊢
        have hv' : (!k.hidden.isSome) = true ∨ (k.hidden.getD (false, false, 255)).1 = true := by
          have := hf.2; rw [hv] at this; simpa only [Bool.or_eq_true] using this
        cases hg : k.grain with
        | none => rw [hg] at h; exact (C36_no_grain sh _ _ _ s).2 hf.1 hv' rest h
        | some g =>
          rw [hg] at h
          dsimp only at h ⊢
          rw [← ht] at h ⊢
          exact C36_film_grain_roundtrip sh _ _ _ hf.1 hv' g (hk.grain g hg).1 s rest h
      · rw [if_neg hf]
        cases hg : k.grain with
        | none =>
          refine (C36_no_grain sh _ _ _ s).1 ?_
          by_cases h1 : sh.filmGrainParamsPresent = true
          · right
            have h2 : k.visible = false := by simpa using fun h2 => hf ⟨h1, h2⟩
            rw [hv] at h2
            simpa only [Bool.or_eq_false_iff] using h2
          · left; simpa using h1
        | some g => exact absurd (hk.grain g hg).2 hf
    intro s rest hs
    rw [BM.bind_ok (hg s rest hs)]
    exact ⟨_, rfl, _, rfl⟩
  have restore : ∀ lf cd, ReadsP (do
      let lr ← lrParams sh (decide k.AllLossless) k.usesBc st.loopRestorationSize
      tailOf sh (u3 rs k) er st (decide k.Lossless) lf cd lr)
      ((if k.AllLossless ∨ k.usesBc ∨ sh.enableRestoration = false then [] else encLr sh k.lrTypes k.lrSize k.lrHalf) ++ k.encTail sh)
      (fun p => ∃ lr gm, p = (u4 rs k lf cd lr, { st with loopRestorationSize := lr.sizes, gmType := gm }) ∧
      (lr.types = if k.Restored ∧ sh.enableRestoration then k.lrTypes ++ List.replicate (3 - k.lrTypes.length) 0 else [0, 0, 0]) ∧
      (lr.usesLr = true ↔ (k.Restored ∧ sh.enableRestoration) ∧ ∃ t ∈ k.lrTypes, t ≠ 0) ∧
      ((k.Restored ∧ sh.enableRestoration) → (∃ t ∈ k.lrTypes, t ≠ 0) → ∃ c, lr.sizes = [k.lrSize, c, c] ∧
        (if sh.colorConfig.subsamplingX = true ∧ sh.colorConfig.subsamplingY = true ∧ ∃ t ∈ k.lrTypes.drop 1, t ≠ 0
         then k.lrSize = (if k.lrHalf then 2 * c else c) else c = k.lrSize))) := by
    intro lf cd
    refine ReadsP.bind (P := fun lr =>
      (lr.types = if k.Restored ∧ sh.enableRestoration then k.lrTypes ++ List.replicate (3 - k.lrTypes.length) 0 else [0, 0, 0]) ∧
      (lr.usesLr = true ↔ (k.Restored ∧ sh.enableRestoration) ∧ ∃ t ∈ k.lrTypes, t ≠ 0) ∧
      ((k.Restored ∧ sh.enableRestoration) → (∃ t ∈ k.lrTypes, t ≠ 0) → ∃ c, lr.sizes = [k.lrSize, c, c] ∧
        (if sh.colorConfig.subsamplingX = true ∧ sh.colorConfig.subsamplingY = true ∧ ∃ t ∈ k.lrTypes.drop 1, t ≠ 0
         then k.lrSize = (if k.lrHalf then 2 * c else c) else c = k.lrSize))) ?_ ?_
    · by_cases hR : k.Restored ∧ sh.enableRestoration = true
      · intro s rest h
        obtain ⟨hF, hr⟩ := hR
        have ea : decide k.AllLossless = false := decide_eq_false hF.1
        rw [if_neg (by rintro (h | h | h); exact hF.1 h; rw [hF.2] at h; cases h; rw [hr] at h; cases h)] at h ⊢
        rw [ea, hF.2]
        obtain ⟨p, e, e1, e2, e3⟩ := C69_restoration_roundtrip sh hr k.lrTypes hk.lr.1 hk.lr.2.1 k.lrSize hk.lr.2.2
          (fun h => by rw [hp.sb] at h; cases h) k.lrHalf st.loopRestorationSize s rest h
        refine ⟨p, e, by rw [if_pos ⟨hF, hr⟩]; exact e1, ?_, ?_⟩
        · constructor
          · intro hu
            refine ⟨⟨hF, hr⟩, ?_⟩
            by_contra hn
            have := (e3 (fun t ht => by by_contra h; exact hn ⟨t, ht, h⟩)).1
            rw [this] at hu; cases hu
          · exact fun hu => (e2 hu.2).1
        · intro _ hu
          obtain ⟨-, -, e4, e5⟩ := e2 hu
          by_cases hc : sh.colorConfig.subsamplingX = true ∧ sh.colorConfig.subsamplingY = true ∧ ∃ t ∈ k.lrTypes.drop 1, t ≠ 0
          · rw [e4 hc]
            cases k.lrHalf
            · exact ⟨_, rfl, by rw [if_pos hc]; rfl⟩
            · refine ⟨_, rfl, ?_⟩
              rw [if_pos hc, if_pos rfl]
              rcases hk.lr.2.2 with h | h | h <;> rw [h]
          · exact ⟨_, e5 hc, by rw [if_neg hc]⟩
      · have hc : k.AllLossless ∨ k.usesBc = true ∨ sh.enableRestoration = false := by
          by_contra hn
          refine hR ⟨⟨fun h => hn (.inl h), ?_⟩, ?_⟩
          · cases h : k.usesBc
            · rfl
            · exact absurd (.inr (.inl h)) hn
          · cases h : sh.enableRestoration
            · exact absurd (.inr (.inr h)) hn
            · rfl
        rw [if_pos hc]
        intro s rest _
        refine ⟨⟨[0, 0, 0], false, st.loopRestorationSize⟩, ?_, by rw [if_neg hR], by simp only [hR, false_and]; exact iff_of_false Bool.noConfusion id, fun h => absurd h hR⟩
        unfold lrParams
        rw [if_pos]
        · rfl
        · rcases hc with h | h | h
          · simp [h]
          · simp [h]
          · simp [h]
    · intro lr hlr
      refine (tail lf cd lr).mono fun p hp => ?_
      obtain ⟨gm, rfl⟩ := hp
      exact ⟨lr, gm, rfl, hlr.1, hlr.2.1, hlr.2.2⟩
  rw [filters_eq, hL, hA, hB]
  unfold KeyHeader.encFilters
  rw [List.append_assoc]
  by_cases hF : k.Filtered
  · have hl : decide k.Lossless = false := by simpa using hF.1
    rw [hl] at restore
    rw [hl]
    rw [show loopFilterParams (u3 rs k).loopFilter false k.usesBc = loopFilterParams (u3 rs k).loopFilter false false by rw [hF.2],
      show cdefParams false k.usesBc = cdefParams false false by rw [hF.2],
      if_neg (show ¬ (k.Lossless ∨ k.usesBc = true) by rw [hF.2]; simp [hF.1])]
    have hw : w = 6 := by
      rcases hw with h | h | h
      · exact h
      · exact absurd h hF.1
      · rw [hF.2] at h; cases h
    subst hw
    simp only [List.append_assoc]
    refine ReadsP.bind (P := fun lf => (lf.level = (if 1 < sh.colorConfig.numPlanes ∧ (k.levels.1 ≠ 0 ∨ k.levels.2.1 ≠ 0)
        then [k.levels.1, k.levels.2.1, k.levels.2.2.1, k.levels.2.2.2] else [k.levels.1, k.levels.2.1, 0, 0]) ∧
        lf.sharpness = k.sharpness ∧ lf.deltaEnabled = k.refDeltas) ∧
      (lf.refDeltas = [1, 0, 0, 0, -1, 0, -1, -1] ∧ lf.modeDeltas = [0, 0])) ?_ ?_
    · intro s rest h
      refine ⟨_, C67_loop_filter_roundtrip_partial (u3 rs k).loopFilter sh.colorConfig.numPlanes k.levels.1 k.levels.2.1
        k.levels.2.2.1 k.levels.2.2.2 k.sharpness k.refDeltas none hk.levels.1 hk.levels.2.1 hk.levels.2.2.1 hk.levels.2.2.2
        (by have := hk.sharp; omega) (fun _ h => nomatch h) s rest h, ⟨rfl, rfl, rfl⟩, ?_, ?_⟩
      · cases k.refDeltas <;> rfl
      · cases k.refDeltas <;> rfl
    intro lf hlf
    refine ReadsP.of (a := if k.Filtered ∧ sh.enableCdef then
        ⟨k.cdefBits, k.damping, k.cdef.map (·.1), k.cdef.map (·.2.1), k.cdef.map (·.2.2.1), k.cdef.map (·.2.2.2)⟩ else ⟨0, 3, [0], [0], [0], [0]⟩) ?_ ?_
    · cases hc : sh.enableCdef
      · rw [if_neg (by simp), if_neg (by simp)]; exact Reads.pure _
      · rw [if_pos rfl, if_pos ⟨hF, rfl⟩]
        exact fun s rest h => C68_cdef_roundtrip _ _ _ _ hk.cdef.1 hk.cdef.2.1 hk.cdef.2.2.1 hk.cdef.2.2.2 s rest h
    refine (restore lf _).mono fun p hp => ?_
    obtain ⟨lr, gm, rfl, h⟩ := hp
    exact ⟨lf, _, lr, gm, rfl, fun _ => hlf.1, hlf.2, rfl, h⟩
  · have hF' : k.Lossless ∨ k.usesBc = true := by
      by_contra hn
      exact hF ⟨fun h => hn (.inl h), by cases h : k.usesBc; rfl; exact absurd (.inr h) hn⟩
    have hc : (decide k.Lossless || k.usesBc) = true := by
      rcases hF' with h | h <;> simp [h]
    rw [if_pos hF', List.nil_append]
    refine ReadsP.of0 (a := { initialLoopFilter with level := [0, 1, 0, 0], refDeltas := defaultRefDeltas, modeDeltas := [0, 0] })
      (by unfold loopFilterParams; rw [if_pos hc]; exact Reads.pure _) ?_
    refine ReadsP.of0 (a := ⟨0, 3, [0], [0], [0], [0]⟩) (by unfold cdefParams; rw [hc]; exact Reads.pure _) ?_
    refine (restore _ _).mono fun p hp => ?_
    obtain ⟨lr, gm, rfl, h⟩ := hp
    exact ⟨_, _, lr, gm, rfl, fun h => absurd h hF, ⟨rfl, rfl⟩, by simp [hF], h⟩

end KeyHdr

theorem KeyHdr.rest (w : Nat) (h : Header) (sh : SeqHeader) (k : KeyHeader) (st : FrameState) (hp : PlainSeq sh) (hk : k.Valid sh) (hst : StateShape st)
    (hw : w = 6 ∨ k.Lossless ∨ k.usesBc = true) (hr : KeyHdr.RefFits k) (ht : RowsFixed (KeyHdr.mi k.codedWidth) (KeyHdr.mi k.height) k.tiles) (er : Bool) (he : ∀ x, k.hidden = some x → er = x.2.1) :
    ReadsP (uhRest h sh (KeyHdr.u0 k) er st)
      (k.encIds sh ++ (k.encSize sh ++ ((if sh.reducedStillPictureHeader ∨ k.disableCdfUpdate then [] else bit k.keepCdfs) ++
        (k.encQ sh ++ (k.encFilters w sh ++ k.encTail sh))))) (fun p => KeyHeader.Decoded sh k p.1 p.2) := by
  unfold uhRest
  refine ReadsP.of (KeyHdr.ids h sh hp k hk er he st) ?_
  refine ReadsP.of (KeyHdr.size sh k hk st) ?_
  refine ReadsP.of (a := sh.reducedStillPictureHeader || k.disableCdfUpdate || k.keepCdfs) ?_ ?_
  · show Reads (if (sh.reducedStillPictureHeader || k.disableCdfUpdate) = true then _ else _) _ _
    cases sh.reducedStillPictureHeader <;> cases k.disableCdfUpdate
    · exact Reads.flag _
    · exact Reads.pure _
    · exact Reads.pure _
    · exact Reads.pure _
  rw [if_neg (show ¬ ((KeyHdr.u2 k).primaryRefFrame ≠ 7) from fun h => h rfl), if_neg (show ¬ ((KeyHdr.u2 k).useRefFrameMvs = true) from Bool.noConfusion)]
  refine ReadsP.bind (KeyHdr.quant sh.reducedStillPictureHeader sh hp k hk hr ht _ rfl rfl) ?_
  rintro _ ⟨tl, htl, rfl⟩
  generalize hS : KeyHdr.s3 k tl _ = S
  have h8 : S.refOrderHint.length = 8 := by rw [← hS]; exact hst.hints
  refine (KeyHdr.filters w er sh.reducedStillPictureHeader sh hp k hk hw S h8).mono ?_
  subst hS
  rintro p ⟨lf, cd, lr, gm, rfl, f1, f2, f3, f4, f5, f6⟩
  exact {
    frame := ⟨rfl, rfl, rfl, rfl, rfl, rfl⟩
    ids := ⟨rfl, rfl, rfl, rfl, rfl, rfl⟩
    size := ⟨rfl, rfl, rfl, rfl, rfl, KeyHdr.mi_even _, KeyHdr.mi_even _, rfl, rfl⟩
    render := by
      cases hr : k.render with
      | none => show (k.render.getD _).1 = _; rw [hr]; rfl
      | some r => show ((k.render.getD _).1, (k.render.getD _).2) = _; rw [hr]; rfl
    copy := rfl
    cdfs := rfl
    tiles := by
      rw [← KeyHdr.mi_units, ← KeyHdr.mi_units]
      exact ⟨htl.counts, htl.cols, htl.rows, htl.logs, htl.tile, fun h => by have := htl.bytes; rwa [if_neg h] at this⟩
    quant := rfl
    seg := by
      have hS := segScan_ok (KeyHdr.feats k).1
      have e : (KeyHdr.u4 sh.reducedStillPictureHeader k lf cd lr).seg = KeyHdr.segOf k := rfl
      dsimp only
      rw [e]
      unfold KeyHdr.segOf KeyHdr.feats at *
      cases hf : k.seg with
      | none => rfl
      | some f =>
        rw [hf] at hS
        refine ⟨rfl, rfl, rfl, rfl, rfl, rfl, hS.pre.2.trans ⟨fun ⟨i, j, a, b⟩ => ⟨i, j, b, a⟩, fun ⟨i, j, a, b⟩ => ⟨i, j, b, a⟩⟩, fun ⟨i, j, hE⟩ => ⟨?_, hS.upper⟩⟩
        rcases hS.attained with h0 | h
        · have := hS.upper i j hE
          refine ⟨j, ?_⟩
          show Enabled _ (segScan _).1 j
          rw [h0]
          rw [h0] at this
          rw [Nat.le_zero.mp this] at hE
          exact hE
        · exact h
    delta := rfl
    lossless := ⟨decide_eq_true_iff, decide_eq_true_iff, rfl⟩
    filter := f1
    refDeltas := f2
    cdef := f3
    lr := f4
    lrUsed := f5
    lrSize := f6
    tx := rfl
    reduced := rfl
    motion := ⟨rfl, rfl, rfl⟩
    grain := rfl }

/-- The AV1 property, with 3 bits of sharpness: every key frame header reads back.  False of the code whenever filters are coded (C67). -/
def C202_key_roundtrip_statement : Prop :=
  ∀ (h : Header) (sh : SeqHeader) (k : KeyHeader) (st : FrameState) (s : BitStream) (rest : List Bool), PlainSeq sh → k.Valid sh → StateShape st →
    unread s = k.enc 3 sh ++ rest →
    ∃ u st', newUncompressedHeader h sh st s = .ok ((u, st'), s.advance (k.enc 3 sh).length) ∧ KeyHeader.Decoded sh k u st'

/-- **C202** (partial: with filters, only if the sharpness is coded with the 6 bits the code reads; reference frame features of segments below 4, C66; explicit tile sizes or no choice of the number of tile rows, C63).  The header of a shown key frame or a hidden intra-only frame reads back field by field, and
just its bits are consumed; in particular every AV1 header of a frame coded without loss or with intra block copy. -/
theorem C202_key_roundtrip_partial (w : Nat) (h : Header) (sh : SeqHeader) (k : KeyHeader) (st : FrameState) (s : BitStream) (rest : List Bool)
    (hp : PlainSeq sh) (hk : k.Valid sh) (hst : StateShape st) (hw : w = 6 ∨ k.Lossless ∨ k.usesBc = true)
    (hr : ∀ f, k.seg = some f → ∀ row ∈ f, ∀ p, row[5]? = some p → p.2 < 4)
    (ht : ∀ c r, k.tiles.layout = .uniform c r → maxLog2 (superblocks (KeyHeader.units k.height)) ≤
      minTilesLog2 (superblocks (KeyHeader.units k.codedWidth)) (superblocks (KeyHeader.units k.height)) - c)
    (hs : unread s = k.enc w sh ++ rest) :
    ∃ u st', newUncompressedHeader h sh st s = .ok ((u, st'), s.advance (k.enc w sh).length) ∧ KeyHeader.Decoded sh k u st' := by
  suffices hR : ReadsP (newUncompressedHeader h sh st) (k.enc w sh) (fun p => KeyHeader.Decoded sh k p.1 p.2) by
    obtain ⟨⟨u, st'⟩, e, hd⟩ := hR s rest hs
    exact ⟨u, st', e, hd⟩
  have rest : ∀ er, (∀ x, k.hidden = some x → er = x.2.1) → ReadsP (uhRest h sh (KeyHdr.u0 k) er st)
      (k.encIds sh ++ (k.encSize sh ++ ((if sh.reducedStillPictureHeader ∨ k.disableCdfUpdate then [] else bit k.keepCdfs) ++
        (k.encQ sh ++ (k.encFilters w sh ++ k.encTail sh))))) (fun p => KeyHeader.Decoded sh k p.1 p.2) := by
    intro er he
    exact KeyHdr.rest w h sh k st hp hk hst hw hr (by rw [KeyHdr.mi_units, KeyHdr.mi_units]; exact ht) er he
  unfold newUncompressedHeader KeyHeader.enc KeyHeader.encStart
  cases hf : sh.reducedStillPictureHeader
  · rw [if_neg (by decide), if_neg (by decide), List.append_assoc]
    refine ReadsP.of (Reads.flag false) ?_
    rw [if_neg (by decide)]
    refine ReadsP.of (KeyHdr.start sh k hk hf) ?_
    rw [hf] at rest
    exact rest (KeyHdr.er0 k) fun x hx => by unfold KeyHdr.er0; rw [hx]
  · rw [if_pos rfl, if_pos rfl, List.nil_append]
    rw [hf] at rest
    have hn : k.hidden = none := by
      cases hh : k.hidden with
      | none => rfl
      | some x => rw [(hk.flags x hh).2.2] at hf; cases hf
    have hu : KeyHdr.u0 k = { frameType := 0, frameIsIntra := true, showFrame := true } := by unfold KeyHdr.u0; rw [hn, (by have := hk.presentation; rwa [if_neg (by rintro ⟨-, -, -, h⟩; rw [hf] at h; cases h)] at this : k.presentation = 0)]; rfl
    rw [hu] at rest
    exact rest false fun x hx => by rw [hn] at hx; cases hx

/-- A sequence of 64x64 frames with CDEF, loop restoration and film grain. -/
def keySeq : SeqHeader :=
  { maxFrameWidthMinusOne := 63, maxFrameHeightMinusOne := 63, seqForceScreenContentTools := 2, seqForceIntegerMv := 2, enableOrderHint := true,
    orderHintBits := 7, decoderModelPresentForThisOp := [false], enableCdef := true, enableRestoration := true, filmGrainParamsPresent := true,
    colorConfig := { numPlanes := 3, subsamplingX := true, subsamplingY := true } }

/-- A header that uses most of the fields. -/
def keySample : KeyHeader :=
  { orderHint := 5, render := some (100, 50), quant := { baseQIdx := 40, deltaQYDc := -3 },
    seg := some ([(1, -7), (0, 0), (0, 0), (0, 0), (0, 0), (1, 2), (0, 0), (0, 0)] :: List.replicate 7 (List.replicate 8 (0, 0))), deltaQ := some 2, deltaLf := some (1, true),
    width := 64, height := 64, levels := (10, 11, 12, 13), sharpness := 1, refDeltas := true, damping := 4, cdefBits := 1,
    cdef := [(3, 1, 0, 4), (15, 2, 7, 0)], lrTypes := [1, 0, 2], lrSize := 128, lrHalf := true, txSelect := true, reducedTx := true }

theorem keySeq_plain : PlainSeq keySeq := ⟨rfl, .inr rfl, rfl, rfl, rfl⟩

theorem keySample_valid : keySample.Valid keySeq where
  size := by decide
  superRes := fun d h => nomatch h
  tiles := ⟨by decide, by decide, by decide⟩
  coded := by decide
  flags := fun x h => by cases h
  still := by decide
  hint := by decide
  screen := fun h => absurd rfl h
  presentation := by decide
  removal := fun h => nomatch h
  render := fun r h => by cases h; decide
  quant := ⟨by decide, by unfold Signed7; decide, by decide, by decide, by decide, by decide⟩
  seg := fun f h => by
    cases h
    refine ⟨rfl, fun row hr => ?_⟩
    rcases List.mem_cons.mp hr with rfl | hr
    · refine ⟨rfl, fun j p hp => ?_⟩
      have hj : j < 8 := (List.getElem?_eq_some_iff.mp hp).1
      rcases (by omega : j = 0 ∨ j = 1 ∨ j = 2 ∨ j = 3 ∨ j = 4 ∨ j = 5 ∨ j = 6 ∨ j = 7) with rfl | rfl | rfl | rfl | rfl | rfl | rfl | rfl <;>
        cases hp <;> (unfold FeatureOk; decide)
    · obtain rfl := (List.mem_replicate.mp hr).2
      refine ⟨rfl, fun j p hp => ?_⟩
      have hj : j < 8 := (List.getElem?_eq_some_iff.mp hp).1
      rcases (by omega : j = 0 ∨ j = 1 ∨ j = 2 ∨ j = 3 ∨ j = 4 ∨ j = 5 ∨ j = 6 ∨ j = 7) with rfl | rfl | rfl | rfl | rfl | rfl | rfl | rfl <;>
        cases hp <;> (unfold FeatureOk; decide)
  deltaQ := fun r h => by cases h; decide
  deltaLf := fun r h => by cases h; decide
  levels := by decide
  sharp := by decide
  cdef := ⟨by decide, by decide, by decide, by
    intro p hp
    simp only [keySample, List.mem_cons, List.not_mem_nil, or_false] at hp
    rcases hp with rfl | rfl <;> (unfold CdefStrengthOk; decide)⟩
  lr := ⟨by decide, by decide, by decide⟩
  grain := fun g h => by cases h

theorem keySample_refs : ∀ f, keySample.seg = some f → ∀ row ∈ f, ∀ p, row[5]? = some p → p.2 < 4 := by
  intro f h
  cases h
  intro row hr p hp
  rcases List.mem_cons.mp hr with rfl | hr
  · cases hp; decide
  · obtain rfl := (List.mem_replicate.mp hr).2
    cases hp; decide

/-- Its 224 bits, with 6 of them for the sharpness, and padding. -/
def keyBytes : BitStream := ⟨[16, 22, 0, 198, 0, 98, 148, 126, 143, 242, 20, 0, 0, 0, 0, 0, 0, 0, 107, 40, 179, 13, 6, 83, 67, 249, 200, 238], 0, 0⟩

/-- Its 221 bits in AV1, and padding. -/
def keyBytesAv1 : BitStream := ⟨[16, 22, 0, 198, 0, 98, 148, 126, 143, 242, 20, 0, 0, 0, 0, 0, 0, 0, 107, 40, 179, 13, 50, 154, 31, 206, 71, 112], 0, 0⟩

example : ∃ u st', newUncompressedHeader sampleObu keySeq {} keyBytes = .ok ((u, st'), keyBytes.advance 224) ∧ KeyHeader.Decoded keySeq keySample u st' := by
  have h1 : (keySample.enc 6 keySeq).length = 224 := by decide +kernel
  rw [← h1]
  exact C202_key_roundtrip_partial 6 sampleObu keySeq keySample {} keyBytes (List.replicate 0 false) keySeq_plain keySample_valid ⟨rfl, rfl, rfl⟩
    (.inl rfl) keySample_refs (fun c r h => by cases h; decide) (by decide +kernel)

/-- A sequence of 352x288 frames with super resolution. -/
def cifSeq : SeqHeader := { keySeq with maxFrameWidthMinusOne := 351, maxFrameHeightMinusOne := 287, enableSuperRes := true }

/-- Such a frame, coded with two thirds of its width (235), with two columns of tiles, the wider one left, and rows of 2 and 3 superblocks. -/
def cifSample : KeyHeader := { keySample with width := 352, height := 288, superRes := some 12, tiles := ⟨.explicit [3, 1] [2, 3], 3, 2⟩ }

/-- Its header reads back, whatever follows. -/
example (s : BitStream) (rest : List Bool) (hs : unread s = cifSample.enc 6 cifSeq ++ rest) :
    ∃ u st', newUncompressedHeader sampleObu cifSeq {} s = .ok ((u, st'), s.advance (cifSample.enc 6 cifSeq).length) ∧ KeyHeader.Decoded cifSeq cifSample u st' :=
  C202_key_roundtrip_partial 6 sampleObu cifSeq cifSample {} s rest ⟨rfl, .inr rfl, rfl, rfl, rfl⟩
    { size := by decide, superRes := fun d h => by cases h; decide, tiles := ⟨by decide, by decide, by decide⟩, coded := by decide, flags := keySample_valid.flags, still := keySample_valid.still
      screen := keySample_valid.screen, presentation := by decide, removal := fun h => nomatch h
      hint := keySample_valid.hint, render := keySample_valid.render, quant := keySample_valid.quant, seg := keySample_valid.seg, deltaQ := keySample_valid.deltaQ
      deltaLf := keySample_valid.deltaLf, levels := keySample_valid.levels, sharp := keySample_valid.sharp, cdef := keySample_valid.cdef, lr := keySample_valid.lr
      grain := keySample_valid.grain } ⟨rfl, rfl, rfl⟩
    (.inl rfl) keySample_refs (fun c r h => nomatch h) hs

example : (cifSample.enc 6 cifSeq).length = 238 ∧ cifSample.codedWidth = 235 ∧ cifSample.tiles.colEdges 60 = [0, 48, 60] ∧ cifSample.tiles.rowEdges 72 = [0, 32, 72] := by decide +kernel

/-- With a decoder model (presentation times of 9 bits, the buffer removal flag set, no time for it): 10 bits more, and it reads back. -/
def modelSeq : SeqHeader := { keySeq with decoderModelInfoPresent := true, decoderModelInfo := { framePresentationTimeLengthMinusOne := 8 } }

example (s : BitStream) (rest : List Bool) (hs : unread s = { keySample with presentation := 300, removal := true }.enc 6 modelSeq ++ rest) :
    ∃ u st', newUncompressedHeader sampleObu modelSeq {} s = .ok ((u, st'), s.advance ({ keySample with presentation := 300, removal := true }.enc 6 modelSeq).length) ∧
      KeyHeader.Decoded modelSeq { keySample with presentation := 300, removal := true } u st' :=
  C202_key_roundtrip_partial 6 sampleObu modelSeq _ {} s rest ⟨rfl, .inr rfl, rfl, rfl, rfl⟩
    { keySample_valid with presentation := by decide, removal := fun _ => rfl, flags := fun x h => (nomatch h) } ⟨rfl, rfl, rfl⟩
    (.inl rfl) keySample_refs (fun c r h => by cases h; decide) hs

example : ({ keySample with presentation := 300, removal := true }.enc 6 modelSeq).length = 234 := by decide +kernel

/-- A hidden intra-only frame that can be shown later and refreshes slots 0 and 2, and the header of a still picture: four bits more and eight bits
(frame type, visibility, size override, end update) less. -/
example : ({ keySample with hidden := some (true, false, 5) }.enc 6 keySeq).length = 234 ∧
    (keySample.enc 6 { keySeq with reducedStillPictureHeader := true }).length = 218 := by decide +kernel

/-- Without loss, the AV1 header is the one the code reads. -/
example : KeyHeader.Lossless {} ∧ KeyHeader.enc 3 keySeq {} = KeyHeader.enc 6 keySeq {} := by decide +kernel

/-- **C202 is false of the code**: of the AV1 header above, it takes three of the bits that follow the sharpness for a part of it. -/
theorem C202_key_roundtrip_statement_refuted : ¬ C202_key_roundtrip_statement := by
  intro H
  obtain ⟨u, st', e, hd⟩ := H sampleObu keySeq keySample {} keyBytesAv1 (List.replicate 3 false) keySeq_plain keySample_valid ⟨rfl, rfl, rfl⟩ (by decide +kernel)
  have h1 : ((newUncompressedHeader sampleObu keySeq {} keyBytesAv1).map fun p => p.1.1.loopFilter.sharpness) ≠ .ok 1 := by decide +kernel
  rw [e] at h1
  exact h1 (congrArg Except.ok (hd.filter (by decide)).2.1)

end Gov1
