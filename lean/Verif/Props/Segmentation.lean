import Verif.Spec.FrameHeader
import Verif.Lemmas.MapBM
import Verif.Props.Util
import Verif.Model.FrameHeader
import Mathlib.Tactic.ByContra
import Mathlib.Tactic.Tauto
/-! # C30, C31, C65, C66: segmentation and quantizer parameters -/
namespace Gov1
open Spec

/-! ## C30 -/

theorem clip3_bounds {lo hi : Int} (h : lo ≤ hi) (x : Int) : lo ≤ clip3 lo hi x ∧ clip3 lo hi x ≤ hi := by
  unfold clip3; split
  · omega
  · split <;> omega

/-- A coded feature: enabled flag and value. -/
def CodedFeature (j : Nat) (p : Nat × Int) : Prop := p.1 ≤ 1 ∧ (p.1 = 0 → p.2 = 0) ∧ FeatureOk j p.2

theorem feature_tables : ∀ j, j < 8 → segFeatureBits.getD j 0 = featureBits j ∧
    (segFeatureSigned.getD j 0 = 1 ↔ featureSigned j = true) ∧ (segFeatureMax.getD j 0 : Int) = featureLimit j ∧
    0 ≤ featureLimit j ∧ featureBits j ≤ 8 := by decide

theorem segFeature_good (j : Nat) (hj : j < 8) : Good (segFeature j) 10 (CodedFeature j) := by
  obtain ⟨h1, h2, h3, h4, h5⟩ := feature_tables j hj
  unfold segFeature
  refine Good.bind' 1 9 (Good.F 1) (fun e he => ?_) (by omega)
  refine Good.ite (fun he1 => ?_) fun he1 => Good.pure ?_ _
  · subst he1
    simp only [h1, h3]
    refine Good.ite (fun hs => ?_) fun hs => ?_
    · refine Good.bind' (1 + featureBits j) 0 (P := fun _ => True) ⟨Fits.su _, Ensures.true _⟩ (fun v _ => Good.pure ?_ _)
        (by omega)
      have := clip3_bounds (show -featureLimit j ≤ featureLimit j by omega) v
      refine ⟨by simp, by simp, ?_, this.2⟩
      rw [if_pos (h2.mp hs)]; exact this.1
    · refine Good.bind' (featureBits j) 0 (P := fun _ => True) ⟨Fits.su _, Ensures.true _⟩ (fun v _ => Good.pure ?_ _)
        (by omega)
      have := clip3_bounds h4 v
      refine ⟨by simp, by simp, ?_, this.2⟩
      rw [if_neg (fun h => hs (h2.mpr h))]; exact this.1
  · have : e = 0 := by omega
    subst this
    refine ⟨by simp, by simp, ?_, h4⟩
    split <;> simp <;> omega

/-- Tables built from coded features are consistent. -/
theorem features_ok {fs : List (List (Nat × Int))}
    (h : Each (fun _ row => Each CodedFeature (List.range 8) row) (List.range 8) fs) :
    FeaturesOk (fs.map (·.map Prod.fst)) (fs.map (·.map Prod.snd)) := by
  have hlen : fs.length = 8 := by simpa using h.length
  have hrow : ∀ row ∈ fs, row.length = 8 ∧ Each CodedFeature (List.range 8) row := by
    intro row hr
    obtain ⟨i, -, hp⟩ := h.mem row hr
    exact ⟨by simpa using hp.length, hp⟩
  have key : ∀ i j, ((∃ p, CodedFeature j p ∧ ((fs.map (·.map Prod.fst)).getD i []).getD j 0 = p.1 ∧
      ((fs.map (·.map Prod.snd)).getD i []).getD j 0 = p.2)) ∨
      ((8 ≤ i ∨ 8 ≤ j) ∧ ((fs.map (·.map Prod.fst)).getD i []).getD j 0 = 0 ∧
      ((fs.map (·.map Prod.snd)).getD i []).getD j 0 = 0) := by
    intro i j
    cases hi : fs[i]? with
    | none =>
      right
      have := List.getElem?_eq_none_iff.mp hi
      simp [List.getD, hi]; omega
    | some row =>
      have ⟨hl, hE⟩ := hrow row (List.mem_of_getElem? hi)
      cases hj : row[j]? with
      | none =>
        right
        have := List.getElem?_eq_none_iff.mp hj
        simp [List.getD, hi, hj]; omega
      | some p =>
        left
        have hjl : j < 8 := by
          have := (List.getElem?_eq_some_iff.mp hj).1; omega
        refine ⟨p, hE.get j j p (by simp [hjl]) hj, ?_⟩
        simp [List.getD, hi, hj]
  refine ⟨⟨by simp [hlen], by simp [hlen], ?_, ?_⟩, ?_, ?_, ?_⟩
  · intro r hr
    obtain ⟨row, h1, rfl⟩ := List.mem_map.mp hr
    simp [(hrow row h1).1]
  · intro r hr
    obtain ⟨row, h1, rfl⟩ := List.mem_map.mp hr
    simp [(hrow row h1).1]
  · intro i j
    rcases key i j with ⟨p, hp, e1, e2⟩ | ⟨_, e1, e2⟩
    · rw [e1]; exact hp.1
    · omega
  · intro i j h0
    rcases key i j with ⟨p, hp, e1, e2⟩ | ⟨_, e1, e2⟩
    · rw [e2]; exact hp.2.1 (by omega)
    · exact e2
  · intro i j hi hj
    rcases key i j with ⟨p, hp, e1, e2⟩ | ⟨hh, _⟩
    · rw [e2]; exact hp.2.2
    · omega

theorem features_zero : FeaturesOk (List.replicate 8 (List.replicate 8 0)) (List.replicate 8 (List.replicate 8 0)) := by
  have hz : ∀ {α : Type} (z : α) (i j : Nat), ((List.replicate 8 (List.replicate 8 z)).getD i []).getD j z = z := by
    intro α z i j
    simp only [List.getD, List.getElem?_replicate]
    split
    · simp only [Option.getD_some, List.getElem?_replicate]; split <;> rfl
    · rfl
  refine ⟨⟨rfl, rfl, ?_, ?_⟩, fun i j => ?_, fun i j _ => hz _ _ _, fun i j hi hj => ?_⟩
  · intro r hr; rw [(List.mem_replicate.mp hr).2]; rfl
  · intro r hr; rw [(List.mem_replicate.mp hr).2]; rfl
  · rw [hz]; omega
  · rw [hz]
    have := (feature_tables j hj).2.2.2.1
    refine ⟨?_, this⟩
    split <;> omega

theorem segScan_foldl (fe : List (List Nat)) (L : List (Nat × Nat)) (acc : Nat × Nat)
    (hs : L.Pairwise (fun p q => p.1 ≤ q.1)) (ha : acc.2 ≤ 1) :
    let r := L.foldl (segScanStep fe) acc
    (∀ p ∈ L, (fe.getD p.1 []).getD p.2 0 = 1 → p.1 ≤ r.1) ∧
    (r.1 = acc.1 ∨ ∃ p ∈ L, (fe.getD p.1 []).getD p.2 0 = 1 ∧ r.1 = p.1) ∧
    r.2 ≤ 1 ∧ (r.2 = 1 ↔ acc.2 = 1 ∨ ∃ p ∈ L, (fe.getD p.1 []).getD p.2 0 = 1 ∧ 5 ≤ p.2) := by
  induction L generalizing acc with
  | nil => simp [ha]
  | cons p L ih =>
    have hs' := List.pairwise_cons.mp hs
    dsimp only at ih ⊢
    rw [List.foldl_cons]
    by_cases he : (fe.getD p.1 []).getD p.2 0 = 1
    · have hstep : segScanStep fe acc p = (p.1, if p.2 ≥ 5 then 1 else acc.2) := by
        unfold segScanStep; rw [if_pos he]
      rw [hstep]
      obtain ⟨h1, h2, h3, h4⟩ := ih (p.1, if p.2 ≥ 5 then 1 else acc.2) hs'.2
        (by dsimp only; split <;> omega)
      generalize L.foldl (segScanStep fe) _ = r at *
      dsimp only at h2 h4
      refine ⟨?_, ?_, h3, ?_⟩
      · intro q hq hqe
        rcases List.mem_cons.mp hq with rfl | hq
        · rcases h2 with h2 | ⟨q', hq', _, h2⟩
          · omega
          · rw [h2]; exact hs'.1 q' hq'
        · exact h1 q hq hqe
      · right
        rcases h2 with h2 | ⟨q', hq', he', h2⟩
        · exact ⟨p, List.mem_cons_self .., he, h2⟩
        · exact ⟨q', List.mem_cons_of_mem _ hq', he', h2⟩
      · rw [h4]
        constructor
        · rintro (h | ⟨q, hq, e1, e2⟩)
          · by_cases h5 : p.2 ≥ 5
            · exact Or.inr ⟨p, List.mem_cons_self .., he, h5⟩
            · rw [if_neg h5] at h; exact Or.inl h
          · exact Or.inr ⟨q, List.mem_cons_of_mem _ hq, e1, e2⟩
        · rintro (h | ⟨q, hq, e1, e2⟩)
          · left; split <;> omega
          · rcases List.mem_cons.mp hq with rfl | hq
            · left; rw [if_pos e2]
            · exact Or.inr ⟨q, hq, e1, e2⟩
    · have hstep : segScanStep fe acc p = acc := by unfold segScanStep; rw [if_neg he]
      rw [hstep]
      obtain ⟨h1, h2, h3, h4⟩ := ih acc hs'.2 ha
      generalize L.foldl (segScanStep fe) _ = r at *
      refine ⟨?_, ?_, h3, ?_⟩
      · intro q hq hqe
        rcases List.mem_cons.mp hq with rfl | hq
        · exact absurd hqe he
        · exact h1 q hq hqe
      · rcases h2 with h2 | ⟨q', hq', he', h2⟩
        · exact Or.inl h2
        · exact Or.inr ⟨q', List.mem_cons_of_mem _ hq', he', h2⟩
      · rw [h4]
        constructor
        · rintro (h | ⟨q, hq, e1, e2⟩)
          · exact Or.inl h
          · exact Or.inr ⟨q, List.mem_cons_of_mem _ hq, e1, e2⟩
        · rintro (h | ⟨q, hq, e1, e2⟩)
          · exact Or.inl h
          · rcases List.mem_cons.mp hq with rfl | hq
            · exact absurd e1 he
            · exact Or.inr ⟨q, hq, e1, e2⟩

/-- `LastActiveSegId` and `SegIdPreSkip` summarise the enabled features. -/
structure SummaryOk (fe : List (List Nat)) (last pre : Nat) : Prop where
  upper : ∀ i j, Enabled fe i j → i ≤ last
  attained : last = 0 ∨ ∃ j, Enabled fe last j
  pre : pre ≤ 1 ∧ (pre = 1 ↔ ∃ i j, Enabled fe i j ∧ 5 ≤ j)

theorem segScan_ok (fe : List (List Nat)) : SummaryOk fe (segScan fe).1 (segScan fe).2 := by
  have hs : ((List.range 8).flatMap fun i => (List.range 8).map fun j => (i, j)).Pairwise
      (fun p q => p.1 ≤ q.1) := by decide
  have hmem : ∀ p : Nat × Nat, p ∈ ((List.range 8).flatMap fun i => (List.range 8).map fun j => (i, j)) ↔
      p.1 < 8 ∧ p.2 < 8 := by
    rintro ⟨i, j⟩; simp
  obtain ⟨h1, h2, h3, h4⟩ := segScan_foldl fe _ (0, 0) hs (by simp)
  refine ⟨fun i j he => h1 (i, j) ((hmem _).mpr ⟨he.1, he.2.1⟩) he.2.2, ?_, h3, ?_⟩
  · rcases h2 with h2 | ⟨p, hp, he, h2⟩
    · exact Or.inl h2
    · right
      refine ⟨p.2, ?_⟩
      have := (hmem p).mp hp
      show Enabled fe (segScan fe).1 p.2
      have h2' : (segScan fe).1 = p.1 := h2
      rw [h2']
      exact ⟨this.1, this.2, he⟩
  · refine h4.trans ⟨?_, ?_⟩
    · rintro (h | ⟨p, hp, he, h5⟩)
      · simp at h
      · have := (hmem p).mp hp
        exact ⟨p.1, p.2, ⟨this.1, this.2, he⟩, h5⟩
    · rintro ⟨i, j, ⟨hi, hj, he⟩, h5⟩
      exact Or.inr ⟨(i, j), (hmem _).mpr ⟨hi, hj⟩, he, h5⟩

theorem segUpdates_good (b : Bool) : Good (segUpdates b) 3 (fun r => r.1 ≤ 1 ∧ r.2.1 ≤ 1 ∧ r.2.2 ≤ 1 ∧
    (b = true → r.2.2 = 1)) := by
  unfold segUpdates
  refine Good.ite (fun hb => Good.pure (by simp) _) fun hb => ?_
  refine Good.bind' 1 2 (Good.F 1) (fun m hm => ?_) (by omega)
  refine Good.bind' 1 1 (P := fun t => t < 2 ^ 1) (Good.ite (fun _ => Good.F 1) fun _ => Good.pure (by omega) _)
    (fun t ht => ?_) (by omega)
  refine Good.bind' 1 0 (Good.F 1) (fun d hd => Good.pure ?_ _) (by omega)
  dsimp only
  exact ⟨by omega, by omega, by omega, fun h => absurd h hb⟩

theorem segmentation_good (b : Bool) (oe : List (List Nat)) (od : List (List Int)) (ho : FeaturesOk oe od) :
    Good (segmentationParams b oe od) 644 (fun p =>
      FeaturesOk p.featureEnabled p.featureData ∧ SummaryOk p.featureEnabled p.lastActiveSegId p.idPreSkip ∧
      (p.enabled = false → (∀ i j, ¬ Enabled p.featureEnabled i j)) ∧
      (p.updateMap ≤ 1 ∧ p.temporalUpdate ≤ 1 ∧ p.updateData ≤ 1)) := by
  unfold segmentationParams
  refine Good.bind' 1 643 Good.flag (fun e _ => ?_) (by omega)
  refine Good.ite (fun he => ?_) fun he => Good.pure ?_ _
  · refine Good.bind' 3 640 (segUpdates_good b) (fun r hr => ?_) (by omega)
    obtain ⟨m, t, d⟩ := r
    dsimp only at hr ⊢
    refine Good.bind' 640 0 (P := fun q : List (List Nat) × List (List Int) => FeaturesOk q.1 q.2) (Good.ite (fun _ => ?_) fun _ => Good.pure (a := (oe, od)) ho _)
      (fun q hq => ?_) (by omega)
    · refine Good.bind' 640 0 (P := Each (fun _ row => Each CodedFeature (List.range 8) row) (List.range 8))
        ?_ (fun fs hfs => Good.pure (a := (fs.map (·.map Prod.fst), fs.map (·.map Prod.snd))) (features_ok hfs) _) (by omega)
      refine Good.mapBM 80 (List.range 8) fun i _ => ?_
      exact Good.mapBM 10 (List.range 8) fun j hj => segFeature_good j (by simpa using hj)
    · obtain ⟨fe, fd⟩ := q
      exact Good.pure ⟨hq, segScan_ok fe, fun h => by simp [he] at h, hr.1, hr.2.1, hr.2.2.1⟩ _
  · refine ⟨features_zero, segScan_ok _, fun _ i j hE => ?_, by simp⟩
    have h1 : (((List.replicate 8 (List.replicate 8 0)).getD i []).getD j 0 : Nat) = 1 := hE.2.2
    simp only [List.getD, List.getElem?_replicate, if_pos hE.1, if_pos hE.2.1, Option.getD_some] at h1
    cases h1

/-- C30: from consistent feature tables, whatever the bits, parsing the segmentation parameters
yields consistent tables (flags 0/1, disabled features 0, signed features within ± limit, unsigned
within 0..limit), `LastActiveSegId` is the largest segment with an enabled feature and `SegIdPreSkip`
says whether a feature from the reference feature on is enabled; 644 bits always suffice. -/
theorem C30_segmentation (primaryNone : Bool) (oe : List (List Nat)) (od : List (List Int))
    (ho : FeaturesOk oe od) (s : BitStream) :
    (644 ≤ (unread s).length → ∃ p s', segmentationParams primaryNone oe od s = .ok (p, s')) ∧
    ∀ p s', segmentationParams primaryNone oe od s = .ok (p, s') →
      FeaturesOk p.featureEnabled p.featureData ∧
      SummaryOk p.featureEnabled p.lastActiveSegId p.idPreSkip := by
  have hG := segmentation_good primaryNone oe od ho
  refine ⟨fun h => ?_, fun p s' h => ?_⟩
  · obtain ⟨a, k, _, h2, _⟩ := hG.1 s h
    exact ⟨a, _, h2⟩
  · have := hG.2 s p s' h
    exact ⟨this.1, this.2.1⟩

/-- The tables a fresh header starts from (`setupPastIndependence`) meet the hypothesis. -/
example : FeaturesOk (setupPastIndependence {}).featureEnabled (setupPastIndependence {}).featureData :=
  features_zero
/-- All features enabled with all-ones values. -/
example : (segmentationParams true [] [] ⟨List.replicate 81 0xFF, 0, 0⟩).map
    (fun p => (p.1.featureData.headD [], p.1.lastActiveSegId, p.1.idPreSkip)) =
    .ok ([-1, -1, -1, -1, -1, 0, 0, 0], 7, 1) := by decide +kernel

/-! ## C66: coded features are read back -/

/-- C66 is false of the code: the reference-frame feature is read as a signed number, so the
references 4 .. 7 (GOLDEN, BWDREF, ALTREF2, ALTREF) are read back as 0 (INTRA). -/
theorem C66_feature_roundtrip_refuted (v : Nat) (hv : 4 ≤ v ∧ v ≤ 7) (s : BitStream) (rest : List Bool)
    (hs : unread s = encFeature 5 (1, v) ++ rest) :
    segFeature 5 s = .ok ((1, 0), s.advance 4) ∧ FeatureOk 5 v ∧ (0 : Int) ≠ v := by
  have h1 : Reads (segFeature 5) (bit true ++ encSu 3 (v - 8)) (1, 0) := by
    unfold segFeature
    refine Reads.bind (a := 1) (Reads.F (n := 1) (v := 1) (by omega)) ?_
    have h2 : Reads (su 3) (encSu 3 (v - 8)) (v - 8) := Reads.su (by omega) (by simp; omega) (by simp; omega)
    have h3 := Reads.bindLast (f := fun v => ((1 : Nat), clip3 0 7 v)) h2
    have h4 : clip3 0 7 (v - 8) = 0 := by unfold clip3; rw [if_pos (by omega)]
    rw [h4] at h3
    exact h3
  refine ⟨?_, ?_, by omega⟩
  · have he : encFeature 5 (1, v) = bit true ++ encSu 3 (v - 8) := by
      rcases (by omega : v = 4 ∨ v = 5 ∨ v = 6 ∨ v = 7) with rfl | rfl | rfl | rfl <;> decide
    rw [he] at hs
    have := h1 s rest hs
    simpa [bit, encSu] using this
  · refine ⟨?_, ?_⟩ <;> simp [featureSigned, featureLimit] <;> omega

/-- C66 (partial: reference features below 4): every other legal feature is read back exactly. -/
theorem C66_feature_roundtrip_partial (j : Nat) (hj : j < 8) (p : Nat × Int) (hp : CodedFeature j p)
    (h5 : j = 5 → p.2 < 4) (s : BitStream) (rest : List Bool) (hs : unread s = encFeature j p ++ rest) :
    segFeature j s = .ok (p, s.advance (encFeature j p).length) := by
  suffices h : Reads (segFeature j) (encFeature j p) p from h s rest hs
  obtain ⟨t1, t2, t3, t4, t5⟩ := feature_tables j hj
  obtain ⟨e, v⟩ := p
  obtain ⟨he, hz, hv1, hv2⟩ := hp
  dsimp only at he hz hv1 hv2 h5
  unfold segFeature encFeature
  dsimp only
  rcases (by omega : e = 0 ∨ e = 1) with rfl | rfl
  · rw [hz rfl]
    exact Reads.bind (b2 := []) (Reads.F (n := 1) (v := 0) (by omega)) (Reads.pure _)
  · rw [if_neg (by decide)]
    refine Reads.bind (a := 1) (Reads.F (n := 1) (v := 1) (by omega)) ?_
    simp only [if_true, t1, t3]
    by_cases hsg : featureSigned j = true
    · rw [if_pos (t2.mpr hsg), if_pos hsg]
      rw [if_pos hsg] at hv1
      have hr : featureLimit j < 2 ^ featureBits j := by
        have : ∀ j, j < 8 → featureSigned j = true → featureLimit j < 2 ^ featureBits j := by decide
        exact this j hj hsg
      have h2 : Reads (su (1 + featureBits j)) (encSu (1 + featureBits j) v) v :=
        Reads.su (by omega) (by rw [show 1 + featureBits j - 1 = featureBits j by omega]; omega)
          (by rw [show 1 + featureBits j - 1 = featureBits j by omega]; omega)
      have h3 := Reads.bindLast (f := fun v => ((1 : Nat), clip3 (-featureLimit j) (featureLimit j) v)) h2
      rw [C11_clip3_id _ _ _ hv1 hv2] at h3
      exact h3
    · rw [if_neg (fun h => hsg (t2.mp h)), if_neg hsg]
      rw [if_neg hsg] at hv1
      have h3 : Reads (su (featureBits j)) (encF (featureBits j) v.toNat) v := by
        rcases (by
          have : ∀ j, j < 8 → ¬ featureSigned j = true → j = 5 ∨ j = 6 ∨ j = 7 := by decide
          exact this j hj hsg : j = 5 ∨ j = 6 ∨ j = 7) with rfl | rfl | rfl
        · have h4 := h5 rfl
          simp only [featureLimit] at hv1 hv2
          have : encF (featureBits 5) v.toNat = encSu 3 v := by
            rcases (by omega : v = 0 ∨ v = 1 ∨ v = 2 ∨ v = 3) with rfl | rfl | rfl | rfl <;> decide
          rw [this]
          show Reads (su 3) _ _
          exact Reads.su (by omega) (by simp; omega) (by simp; omega)
        · have : v = 0 := by simp [featureLimit] at hv2; omega
          subst this
          exact Reads.bind (b2 := []) (Reads.F (n := 0) (v := 0) (by omega)) (Reads.pure _)
        · have : v = 0 := by simp [featureLimit] at hv2; omega
          subst this
          exact Reads.bind (b2 := []) (Reads.F (n := 0) (v := 0) (by omega)) (Reads.pure _)
      have h4 := Reads.bindLast (f := fun v => ((1 : Nat), clip3 0 (featureLimit j) v)) h3
      rw [C11_clip3_id _ _ _ hv1 hv2] at h4
      exact h4

example : CodedFeature 0 (1, -200) ∧ CodedFeature 5 (1, 3) := by
  unfold CodedFeature FeatureOk; decide
example : (segFeature 0 ⟨[0xCE, 0x00], 0, 0⟩).map (fun p => p.1) = .ok (1, -200) := by decide +kernel

/-! ## C65: quantization parameters -/

theorem readDeltaQ_reads (v : Int) (h : Signed7 v) : Reads readDeltaQ (encDeltaQ v) v := by
  unfold readDeltaQ encDeltaQ
  split
  · rename_i h0; subst h0
    exact Reads.bind (b2 := []) (Reads.flag false) (Reads.pure _)
  · exact Reads.bind (Reads.flag true) (Reads.su (by omega) (by simpa using h.1) (by simpa using h.2))

/-- C65: every legal set of quantization parameters is read back exactly from its AV1 encoding. -/
theorem C65_quant_roundtrip (cc : ColorConfig) (q : QuantParams) (hq : ValidQuant cc q) (s : BitStream)
    (rest : List Bool) (hs : unread s = encQuant cc q ++ rest) :
    quantizationParams cc s = .ok (q, s.advance (encQuant cc q).length) := by
  suffices h : Reads (quantizationParams cc) (encQuant cc q) q from h s rest hs
  obtain ⟨hb, ⟨d1, d2, d3, d4, d5⟩, hm, hj, ⟨m1, m2, m3⟩, hn⟩ := hq
  have hchroma : Reads (chromaDeltaQ cc)
      (if 1 < cc.numPlanes then
        (if cc.separateUvDeltaQ then bit (q.deltaQVDc != q.deltaQUDc || q.deltaQVAc != q.deltaQUAc) else []) ++
        encDeltaQ q.deltaQUDc ++ encDeltaQ q.deltaQUAc ++
        (if cc.separateUvDeltaQ ∧ (q.deltaQVDc ≠ q.deltaQUDc ∨ q.deltaQVAc ≠ q.deltaQUAc) then
          encDeltaQ q.deltaQVDc ++ encDeltaQ q.deltaQVAc else []) else [])
      (q.deltaQUDc, q.deltaQUAc, q.deltaQVDc, q.deltaQVAc) := by
    unfold chromaDeltaQ
    by_cases hp : 1 < cc.numPlanes
    · rw [if_pos hp, if_pos hp, List.append_assoc, List.append_assoc]
      by_cases hd : cc.separateUvDeltaQ = true ∧ (q.deltaQVDc ≠ q.deltaQUDc ∨ q.deltaQVAc ≠ q.deltaQUAc)
      · rw [if_pos hd, if_pos hd.1]
        have hbit : (q.deltaQVDc != q.deltaQUDc || q.deltaQVAc != q.deltaQUAc) = true := by
          simpa [bne_iff_ne] using hd.2
        rw [hbit]
        refine Reads.bind (a := true) ?_ ?_
        · rw [if_pos hd.1]; exact Reads.flag true
        · refine Reads.bind (readDeltaQ_reads _ d2) (Reads.bind (readDeltaQ_reads _ d3) ?_)
          exact Reads.bind (readDeltaQ_reads _ d4) (Reads.bindLast (readDeltaQ_reads _ d5))
      · rw [if_neg hd]
        have heq : q.deltaQVDc = q.deltaQUDc ∧ q.deltaQVAc = q.deltaQUAc := by
          cases hs : cc.separateUvDeltaQ
          · exact ⟨(hj hs).1, (hj hs).2.1⟩
          · constructor
            · by_contra h; exact hd ⟨hs, Or.inl h⟩
            · by_contra h; exact hd ⟨hs, Or.inr h⟩
        refine Reads.bind (a := false) ?_ ?_
        · cases hs : cc.separateUvDeltaQ
          · exact Reads.pure _
          · simp only [if_true, heq.1, heq.2, bne_self_eq_false, Bool.or_false]; exact Reads.flag false
        · refine Reads.bind (readDeltaQ_reads _ d2) ?_
          rw [List.append_nil, heq.1, heq.2]
          exact Reads.bindLast (readDeltaQ_reads _ d3)
    · rw [if_neg hp, if_neg hp]
      obtain ⟨e1, e2, e3, e4⟩ := hm (by omega)
      rw [e1, e2, e3, e4]
      exact Reads.pure _
  have hqm : Reads (qmParams cc) (bit q.usingQMatrix ++
      (if q.usingQMatrix then encF 4 q.qmy ++ encF 4 q.qmu ++
        (if cc.separateUvDeltaQ then encF 4 q.qmv else []) else []))
      (q.usingQMatrix, q.qmy, q.qmu, q.qmv) := by
    unfold qmParams
    refine Reads.bind (Reads.flag q.usingQMatrix) ?_
    cases hu : q.usingQMatrix
    · obtain ⟨e1, e2, e3⟩ := hn hu
      simp only [Bool.false_eq_true, if_false, e1, e2, e3]
      exact Reads.pure _
    · simp only [if_true, List.append_assoc]
      refine Reads.bind (Reads.F (by omega)) ?_
      cases hs : cc.separateUvDeltaQ
      · rw [(hj hs).2.2]
        exact Reads.bind (Reads.F (by omega)) (Reads.pure _)
      · exact Reads.bind (Reads.F (by omega)) (Reads.bindLast (Reads.F (by omega)))
  unfold quantizationParams encQuant
  refine Reads.congr (Reads.bind (Reads.F hb) (Reads.bind (readDeltaQ_reads _ d1)
    (Reads.bind hchroma (Reads.bindLast (f := fun m => (⟨q.baseQIdx, q.deltaQYDc, q.deltaQUDc, q.deltaQUAc,
      q.deltaQVDc, q.deltaQVAc, m.1, m.2.1, m.2.2.1, m.2.2.2⟩ : QuantParams)) hqm)))) ?_
  simp only [List.append_assoc]

example : ValidQuant { numPlanes := 3, separateUvDeltaQ := true }
    ⟨100, -5, 3, 0, 7, -64, true, 15, 3, 2⟩ := by
  refine ⟨?_, ?_, ?_, ?_, ?_, ?_⟩ <;> (try unfold Signed7) <;> decide

/-! ## C31 -/

/-- The quantizer index AV1 7.12.2 prescribes for a segment: the frame's base index (or the running
index where deltas are coded and not ignored) plus the segment's delta, clipped to 0..255. -/
def qIndexOf (active : Bool) (base cur data : Int) (useCur : Bool) : Int :=
  let b := if useCur then cur else base
  if active then max 0 (min 255 (b + data)) else b

theorem goGet2_col0 {i : Nat} (hi : i < 8) {α : Type} (t : List (List α)) (z : α) (hl : t.length = 8)
    (hr : ∀ r ∈ t, r.length = 8) : goGet2 t i 0 = .ok ((t.getD i []).getD 0 z) := by
  have h1 : i < t.length := by omega
  have h2 : 0 < (t[i]).length := by rw [hr _ (List.getElem_mem h1)]; omega
  have e1 : goGet t (i : Int) = .ok t[i] := by
    unfold goGet
    rw [if_neg (by omega), Int.toNat_natCast, List.getElem?_eq_getElem h1]
  have e2 : goGet t[i] 0 = .ok t[i][0] := by
    unfold goGet
    rw [if_neg (by omega), Int.toNat_zero, List.getElem?_eq_getElem h2]
  unfold goGet2
  rw [e1]
  show goGet t[i] 0 = _
  rw [e2]
  simp [List.getD, List.getElem?_eq_getElem h1, List.getElem?_eq_getElem h2]

/-- C31: with the running index ignored (as for the frame-level lossless decision), the index of every
segment is the base index plus the segment's delta when the feature is active, clipped to 0..255;
the call never panics. -/
theorem C31_qindex_partial (en : Bool) (fe : List (List Nat)) (fd : List (List Int)) (hf : FeaturesOk fe fd)
    (base : Nat) (hb : base < 256) (dqp : Bool) (cur : Int) (i : Nat) (hi : i < 8) :
    getQIndex en fe fd base dqp cur 1 i = .ok (qIndexOf (en && (fe.getD i []).getD 0 0 == 1) base cur
      ((fd.getD i []).getD 0 0) false) ∧
    0 ≤ qIndexOf (en && (fe.getD i []).getD 0 0 == 1) base cur ((fd.getD i []).getD 0 0) false ∧
    qIndexOf (en && (fe.getD i []).getD 0 0 == 1) base cur ((fd.getD i []).getD 0 0) false ≤ 255 := by
  obtain ⟨⟨l1, l2, l3, l4⟩, hfl, -, -⟩ := hf
  have hfl0 := hfl i 0
  refine ⟨?_, ?_, ?_⟩
  · unfold getQIndex segFeatureActiveIdx qIndexOf
    cases en
    · simp [bind, Except.bind, pure, Except.pure]
    · simp only [if_true, goGet2_col0 hi fe 0 l1 l3, Except.map, Bool.true_and, bind, Except.bind, pure,
        Except.pure]
      by_cases h1 : (fe.getD i []).getD 0 0 = 1
      · rw [h1, goGet2_col0 hi fd 0 l2 l4]
        simp only [show ¬ ((1 : Int) = 0 ∧ dqp = true) by omega, if_false, Bool.false_eq_true]
        simp only [bne_iff_ne, ne_eq, Nat.one_ne_zero, not_false_eq_true, if_true, beq_self_eq_true]
        congr 1
        unfold clip3
        split
        · omega
        · split <;> omega
      · have h0 : (fe.getD i []).getD 0 0 = 0 := by omega
        rw [h0]
        simp
  · unfold qIndexOf; simp only [Bool.false_eq_true, if_false]; split <;> omega
  · unfold qIndexOf; simp only [Bool.false_eq_true, if_false]; split <;> omega

/-- C31 is false of the code when the running index is used: in every segment with an active
quantizer feature the segment's delta is dropped. -/
theorem C31_qindex_refuted (fe : List (List Nat)) (fd : List (List Int)) (hf : FeaturesOk fe fd)
    (base : Nat) (cur : Int) (hc : 0 ≤ cur ∧ cur ≤ 255) (i : Nat) (hi : i < 8)
    (ha : (fe.getD i []).getD 0 0 = 1) :
    getQIndex true fe fd base true cur 0 i = .ok cur ∧
    (1 ≤ (fd.getD i []).getD 0 0 → cur < 255 →
      cur ≠ qIndexOf true base cur ((fd.getD i []).getD 0 0) true) := by
  obtain ⟨⟨l1, l2, l3, l4⟩, -, -, -⟩ := hf
  refine ⟨?_, fun h1 h2 => ?_⟩
  · unfold getQIndex segFeatureActiveIdx
    simp only [if_true, goGet2_col0 hi fe 0 l1 l3, ha, Except.map, bind, Except.bind, pure, Except.pure,
      goGet2_col0 hi fd 0 l2 l4]
    rw [if_pos (by decide), if_pos (by simp)]
    congr 1
    unfold clip3
    rw [if_neg (by omega), if_neg (by omega)]
  · unfold qIndexOf
    simp only [if_true]
    omega

/-- C31: a segment is declared lossless exactly when its quantizer index is 0 and no plane has a delta. -/
theorem C31_lossless (seg : SegParams) (hf : FeaturesOk seg.featureEnabled seg.featureData)
    (q : QuantParams) (hb : q.baseQIdx < 256) (dqp : Bool) (cur : Int) (i : Nat) (hi : i < 8) :
    ∃ l m, segLossless seg q dqp cur i = .ok (l, m) ∧
      (l = true ↔ qIndexOf (seg.enabled && (seg.featureEnabled.getD i []).getD 0 0 == 1) q.baseQIdx cur
          ((seg.featureData.getD i []).getD 0 0) false = 0 ∧
        q.deltaQYDc = 0 ∧ q.deltaQUDc = 0 ∧ q.deltaQUAc = 0 ∧ q.deltaQVDc = 0 ∧ q.deltaQVAc = 0) := by
  have h := (C31_qindex_partial seg.enabled _ _ hf q.baseQIdx hb dqp cur i hi).1
  unfold segLossless
  rw [h]
  refine ⟨_, _, rfl, ?_⟩
  unfold losslessOf
  simp only [Bool.and_eq_true, beq_iff_eq]
  tauto

end Gov1
