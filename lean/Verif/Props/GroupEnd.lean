import Verif.Props.Marks
/-!
# C188, C189: what a finished frame leaves behind

The end of a tile group, read off its success alone: no hypotheses on sizes.
-/
namespace Gov1

/-! ## The reference slots, by inversion -/

theorem copyHints_inv {src dst D : List Int} (h : copyHints src dst = .ok D) : ∀ j, 1 ≤ j → j ≤ 7 → D[j]? = src[j]? := by
  unfold copyHints at h
  have := forN_inv (fun i (t : List Int) => ∀ j, 1 ≤ j → j ≤ i → t[j]? = src[j]?) (by
    intro i t t' _ _ hP ht j h1 h2
    obtain ⟨v, e1, ht⟩ := Res.inv ht
    obtain ⟨-, hl, rfl⟩ := goSet_inv' ht
    have e1 := goGet_inv_nat e1
    rw [Int.toNat_natCast] at hl ⊢
    by_cases he : j = i + 1
    · subst he
      rw [List.getElem?_set_self hl, e1]
    · rw [List.getElem?_set_ne (by omega)]
      exact hP j h1 (by omega)) h (by intro j a b; omega)
  exact fun j a b => this j a (by omega)

theorem copyGm_inv {src dst D : List (List Int)} (h : copyGm src dst = .ok D) : ∀ r j, 1 ≤ r → r ≤ 7 → j ≤ 5 → at2 D r j = at2 src r j := by
  unfold copyGm at h
  have := forN_inv (fun k D => CopyInv src dst (fun a b => 1 ≤ a ∧ a ≤ k ∧ b < 6) D) (by
    intro k t t' _ _ hP ht
    have := forN_inv (fun j D => CopyInv src dst (fun a b => (1 ≤ a ∧ a ≤ k ∧ b < 6) ∨ (a = k + 1 ∧ b < j)) D) (by
      intro j u u' _ _ hQ hu
      exact hQ.step hu (by omega) (by intro a b; omega)) ht (hP.congr (by intro a b; omega))
    exact this.congr (by intro a b; omega)) h (CopyInv.start src dst (by intro a b; omega))
  exact fun r j a b c => (this.1 r j ⟨a, by omega, by omega⟩).1

theorem slotArrays_inv {f : CurFrame} {s s' : RefSlot} (h : slotArrays f s = .ok s') :
    (∀ j, 1 ≤ j → j ≤ 7 → s'.orderHints[j]? = f.orderHints[j]?) ∧
    (∀ r c, r < f.miRows → c < f.miCols → at2 s'.refFrames r c = at2 f.refFrames r c ∧ at2 s'.mvs0 r c = at2 f.mvs0 r c ∧
      at2 s'.mvs1 r c = at2 f.mvs1 r c ∧ at2 s'.segIds r c = at2 f.segIds r c) ∧
    (∀ r j, 1 ≤ r → r ≤ 7 → j ≤ 5 → at2 s'.gm r j = at2 f.gm r j) ∧
    s' = { s with orderHints := s'.orderHints, refFrames := s'.refFrames, mvs0 := s'.mvs0, mvs1 := s'.mvs1, gm := s'.gm, segIds := s'.segIds } := by
  unfold slotArrays at h
  obtain ⟨d1, e1, h⟩ := Res.inv h
  obtain ⟨d2, e2, h⟩ := Res.inv h
  obtain ⟨d3, e3, h⟩ := Res.inv h
  obtain ⟨d4, e4, h⟩ := Res.inv h
  obtain ⟨d5, e5, h⟩ := Res.inv h
  obtain ⟨d6, e6, h⟩ := Res.inv h
  have cp : ∀ {src dst D : List (List Int)}, copyRows src f.miRows f.miCols dst = .ok D → ∀ r c, r < f.miRows → c < f.miCols → at2 D r c = at2 src r c := by
    intro src dst D e r c h1 h2
    rw [(copyRows_inv e).1 r c, if_pos ⟨h1, h2⟩]
  cases h
  exact ⟨copyHints_inv e1, fun r c h1 h2 => ⟨cp e2 r c h1 h2, cp e3 r c h1 h2, cp e4 r c h1 h2, cp e6 r c h1 h2⟩, copyGm_inv e5, rfl⟩

/-- The copy of one plane of the picture. -/
theorem savePlane_inv {lr P P' : Planes} {k h w : Nat} {src dst D : List (List Int)} (e1 : goGet lr (k : Int) = .ok src) (_ : goGet P (k : Int) = .ok dst)
    (e3 : copyCols src h w dst = .ok D) (e4 : goSet P (k : Int) D = .ok P') :
    (∀ y x, y < h → x < w → at3 P' k y x = at3 lr k y x) ∧ ∀ q, q ≠ k → P'[q]? = P[q]? := by
  obtain ⟨-, hl, rfl⟩ := goSet_inv' e4
  rw [Int.toNat_natCast] at hl ⊢
  refine ⟨fun y x hy hx => ?_, fun q hq => List.getElem?_set_ne (fun h => hq h.symm)⟩
  unfold at3
  rw [List.getElem?_set_self hl, goGet_inv_nat e1]
  show at2 D y x = at2 src y x
  rw [(copyCols_inv e3).1 y x, if_pos ⟨hy, hx⟩]

theorem savePicture_inv {f : CurFrame} (hx : f.subX ≤ 1) (hy : f.subY ≤ 1) {pic pic' : Planes} (h : savePicture f pic = .ok pic') :
    ∀ p y x, p < 3 → y < f.frameHeight → x < f.upscaledWidth → at3 pic' p y x = at3 f.lr p y x := by
  unfold savePicture at h
  obtain ⟨src, e1, h⟩ := Res.inv h
  obtain ⟨dst, e2, h⟩ := Res.inv h
  obtain ⟨D, e3, h⟩ := Res.inv h
  obtain ⟨P, e4, h⟩ := Res.inv h
  obtain ⟨v0, -⟩ := savePlane_inv (k := 0) e1 e2 e3 e4
  have hx' : f.upscaledWidth + f.subX >>> f.subX = f.upscaledWidth := by rw [subShift _ hx]; rfl
  have hy' : f.frameHeight + f.subY >>> f.subY = f.frameHeight := by rw [subShift _ hy]; rfl
  rw [hx', hy'] at h
  have := forN_inv (fun k (P : Planes) => ∀ q y x, q ≤ k → y < f.frameHeight → x < f.upscaledWidth → at3 P q y x = at3 f.lr q y x) (by
    intro k t t' _ _ hP ht q y x hq hy hx
    obtain ⟨src, e1, ht⟩ := Res.inv ht
    obtain ⟨dst, e2, ht⟩ := Res.inv ht
    obtain ⟨D, e3, ht⟩ := Res.inv ht
    obtain ⟨v, w⟩ := savePlane_inv e1 e2 e3 ht
    by_cases he : q = k + 1
    · subst he; exact v y x hy hx
    · have := w q he
      have h2 := hP q y x (by omega) hy hx
      unfold at3 at h2 ⊢
      rw [this]; exact h2) h (by
    intro q y x hq hy hx
    obtain rfl : q = 0 := by omega
    exact v0 y x hy hx)
  exact fun p y x hp => this p y x (by omega)

theorem saveHints_inv {f : CurFrame} {l l' : List RefSlot} (h : saveHints f l = .ok l') :
    ∀ j, j < 8 → l'[j]? = if Refreshed f j then l[j]?.map (fun s => { s with orderHint := f.orderHint }) else l[j]? := by
  unfold saveHints at h
  have := forN_inv (fun i (t : List RefSlot) => (∀ j, j < i → t[j]? = if Refreshed f j then
        l[j]?.map (fun s => { s with orderHint := f.orderHint }) else l[j]?) ∧ ∀ j, i ≤ j → t[j]? = l[j]?) (by
    intro i t t' _ _ ⟨h1, h2⟩ ht
    split at ht
    · rename_i hr
      obtain ⟨s, e1, ht⟩ := Res.inv ht
      obtain ⟨-, hl, rfl⟩ := goSet_inv' ht
      have e1 := goGet_inv_nat e1
      rw [Int.toNat_natCast] at hl ⊢
      constructor
      · intro j hj
        by_cases he : j = i
        · subst he
          rw [List.getElem?_set_self hl, if_pos (show Refreshed f j from hr), ← h2 j (by omega), e1]; rfl
        · rw [List.getElem?_set_ne (by omega)]; exact h1 j (by omega)
      · intro j hj
        rw [List.getElem?_set_ne (by omega)]; exact h2 j (by omega)
    · rename_i hr
      cases ht
      refine ⟨fun j hj => ?_, fun j hj => h2 j (by omega)⟩
      by_cases he : j = i
      · subst he; rw [if_neg (show ¬ Refreshed f j from hr)]; exact h2 j (by omega)
      · exact h1 j (by omega)) h ⟨by intro j hj; omega, fun _ _ => rfl⟩
  exact fun j hj => this.1 j (by omega)

theorem updateSlot_inv {γ : Type} {f : CurFrame} (hx : f.subX ≤ 1) (hy : f.subY ≤ 1) {cdfs : γ} {i : Nat} (hi : i < 8) (hfl : Refreshed f i) {m m' : RefMem γ}
    (h : updateSlot f cdfs i m = .ok m') :
    (∃ s pic, SlotIs m' i s pic cdfs ∧ Describes f s pic) ∧
      (∀ j, j ≠ i → j < 8 → m'.store[j]? = m.store[j]? ∧ m'.cdfs[j]? = m.cdfs[j]? ∧
        m'.slots[j]? = if Refreshed f j then m.slots[j]?.map (fun s => { s with orderHint := f.orderHint }) else m.slots[j]?) := by
  unfold updateSlot at h
  obtain ⟨s0, e1, h⟩ := Res.inv h
  obtain ⟨pic0, e2, h⟩ := Res.inv h
  obtain ⟨s', e3, h⟩ := Res.inv h
  obtain ⟨pic', e4, h⟩ := Res.inv h
  obtain ⟨l1, e5, h⟩ := Res.inv h
  obtain ⟨st1, e6, h⟩ := Res.inv h
  obtain ⟨l', e7, h⟩ := Res.inv h
  unfold saveCdfs at h
  obtain ⟨c1, e8, h⟩ := Res.inv h
  cases h
  obtain ⟨-, h1, rfl⟩ := goSet_inv' e5
  obtain ⟨-, h2, rfl⟩ := goSet_inv' e6
  obtain ⟨-, h3, rfl⟩ := goSet_inv' e8
  rw [Int.toNat_natCast] at h1 h2 h3 e7
  simp only [Int.toNat_natCast]
  have vl := saveHints_inv e7
  obtain ⟨v1, v2, v3, v4⟩ := slotArrays_inv e3
  have vp := savePicture_inv hx hy e4
  refine ⟨⟨{ s' with orderHint := f.orderHint }, pic', ⟨?_, ?_, ?_⟩, ?_⟩, ?_⟩
  · show l'[i]? = _
    rw [vl i hi, if_pos hfl, List.getElem?_set_self h1]; rfl
  · exact List.getElem?_set_self h2
  · exact List.getElem?_set_self h3
  · refine { valid := ?_, size := ?_, type := ?_, colour := ?_, order := rfl, hints := v1, units := v2, motion := v3, picture := ?_ }
    · show s'.valid = 1
      rw [v4]; rfl
    · show s'.upscaledWidth = f.upscaledWidth ∧ s'.frameWidth = f.frameWidth ∧ s'.frameHeight = f.frameHeight ∧
        s'.renderWidth = f.renderWidth ∧ s'.renderHeight = f.renderHeight ∧ s'.miCols = f.miCols ∧ s'.miRows = f.miRows
      rw [v4]; exact ⟨rfl, rfl, rfl, rfl, rfl, rfl, rfl⟩
    · show s'.frameType = f.frameType
      rw [v4]; rfl
    · show s'.subX = f.subX ∧ s'.subY = f.subY ∧ s'.bitDepth = f.bitDepth
      rw [v4]; exact ⟨rfl, rfl, rfl⟩
    · intro p y x hp hy' hx'
      refine vp p y x hp ?_ ?_
      · unfold planeH at hy'
        split at hy'
        · exact hy'
        · have := planeDim_le f.frameHeight f.subY hy (by omega); omega
      · unfold planeW at hx'
        split at hx'
        · exact hx'
        · have := planeDim_le f.upscaledWidth f.subX hx (by omega); omega
  · intro j hj hj8
    refine ⟨List.getElem?_set_ne (fun h => hj h.symm), List.getElem?_set_ne (fun h => hj h.symm), ?_⟩
    show l'[j]? = _
    rw [vl j hj8, List.getElem?_set_ne (fun h => hj h.symm)]

/-- What an update that succeeds has done, whatever the sizes. -/
theorem refUpdate_inv {γ : Type} {f : CurFrame} (hx : f.subX ≤ 1) (hy : f.subY ≤ 1) {cdfs : γ} {m m' : RefMem γ} (h : refUpdate f cdfs m = .ok m') :
    (∀ i, i < 8 → Refreshed f i → ∃ s pic, SlotIs m' i s pic cdfs ∧ Describes f s pic) ∧
      (∀ i, i < 8 → ¬ Refreshed f i → m'.slots[i]? = m.slots[i]? ∧ m'.store[i]? = m.store[i]? ∧ m'.cdfs[i]? = m.cdfs[i]?) := by
  unfold refUpdate at h
  have := forN_inv (fun i (t : RefMem γ) => (∀ j, j < i → Refreshed f j → ∃ s pic, SlotIs t j s pic cdfs ∧ Describes f s pic) ∧
      (∀ j, j < 8 → ¬ Refreshed f j → t.slots[j]? = m.slots[j]? ∧ t.store[j]? = m.store[j]? ∧ t.cdfs[j]? = m.cdfs[j]?)) (by
    intro i t t' _ hi ⟨h1, h2⟩ ht
    split at ht
    · rename_i hfl
      obtain ⟨here, there⟩ := updateSlot_inv hx hy (by omega : i < 8) hfl ht
      constructor
      · intro j hj hR
        by_cases hji : j = i
        · subst hji; exact here
        · obtain ⟨s, pic, ⟨a, b, c⟩, hd⟩ := h1 j (by omega) hR
          obtain ⟨x, y, z⟩ := there j hji (by omega)
          refine ⟨{ s with orderHint := f.orderHint }, pic, ⟨?_, ?_, ?_⟩, ?_⟩
          · rw [z, if_pos hR, a]; rfl
          · rw [x, b]
          · rw [y, c]
          · exact { valid := hd.valid, size := hd.size, type := hd.type, colour := hd.colour, order := rfl, hints := hd.hints,
                    units := hd.units, motion := hd.motion, picture := hd.picture }
      · intro j hj hR
        have hji : j ≠ i := fun e => hR (e ▸ hfl)
        obtain ⟨x, y, z⟩ := there j hji hj
        rw [if_neg hR] at z
        obtain ⟨a, b, c⟩ := h2 j hj hR
        exact ⟨z.trans a, x.trans b, y.trans c⟩
    · rename_i hfl
      cases ht
      refine ⟨fun j hj hR => ?_, h2⟩
      by_cases hji : j = i
      · subst hji; exact absurd hR hfl
      · exact h1 j (by omega) hR) h ⟨by intro j hj; omega, fun _ _ _ => ⟨rfl, rfl, rfl⟩⟩
  exact ⟨fun i hi => this.1 i (by omega), this.2⟩

end Gov1
