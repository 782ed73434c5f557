import Verif.Lemmas.Copy
import Verif.Props.CdefFrame
import Verif.Props.LoopFilter
/-!
# C54: the reference frame memory

`referenceFrameUpdate` saves the current frame in the slots of the refresh mask.  The header fields and block data of the
slots behave as AV1 says as long as the frame is at most 9 by 9 pixels (the arrays are no larger); the pictures are lost
with the next tile group, and loading a frame always panics.
-/
namespace Gov1

/-- Sizes of the arrays of a slot (those of the Go declarations). -/
structure RefSlot.Ok (s : RefSlot) : Prop where
  hints : s.orderHints.length = 8
  refFrames : Shape 64 64 s.refFrames
  mvs0 : Shape 64 64 s.mvs0
  mvs1 : Shape 64 64 s.mvs1
  gm : Shape 8 6 s.gm
  segIds : Shape 64 64 s.segIds

/-- Sizes of the reference memory. -/
structure RefMem.Ok {γ : Type} (m : RefMem γ) : Prop where
  slots : m.slots.length = 8
  slotOk : ∀ s ∈ m.slots, s.Ok
  store : m.store.length = 8
  storeOk : ∀ p ∈ m.store, Pic 16 16 p
  cdfs : m.cdfs.length = 8

/-- Sizes of the arrays of the current frame. -/
structure CurFrame.Ok (f : CurFrame) : Prop where
  hints : f.orderHints.length = 8
  refFrames : Shape 64 64 f.refFrames
  mvs0 : Shape 64 64 f.mvs0
  mvs1 : Shape 64 64 f.mvs1
  gm : Shape 8 6 f.gm
  segIds : Shape 64 64 f.segIds
  lr : Pic 9 9 f.lr
  subX : f.subX ≤ 1
  subY : f.subY ≤ 1

/-- Width of a plane. -/
def planeW (f : CurFrame) (plane : Nat) : Nat := if plane = 0 then f.upscaledWidth else planeDim f.upscaledWidth f.subX
/-- Height of a plane. -/
def planeH (f : CurFrame) (plane : Nat) : Nat := if plane = 0 then f.frameHeight else planeDim f.frameHeight f.subY

/-- A slot describes the frame `f`: the frame header, the data of all 4x4 units and the picture. -/
structure Describes (f : CurFrame) (s : RefSlot) (pic : Planes) : Prop where
  valid : s.valid = 1
  size : s.upscaledWidth = f.upscaledWidth ∧ s.frameWidth = f.frameWidth ∧ s.frameHeight = f.frameHeight ∧
    s.renderWidth = f.renderWidth ∧ s.renderHeight = f.renderHeight ∧ s.miCols = f.miCols ∧ s.miRows = f.miRows
  type : s.frameType = f.frameType
  colour : s.subX = f.subX ∧ s.subY = f.subY ∧ s.bitDepth = f.bitDepth
  order : s.orderHint = f.orderHint
  hints : ∀ j, 1 ≤ j → j ≤ 7 → s.orderHints[j]? = f.orderHints[j]?
  units : ∀ r c, r < f.miRows → c < f.miCols → at2 s.refFrames r c = at2 f.refFrames r c ∧ at2 s.mvs0 r c = at2 f.mvs0 r c ∧
    at2 s.mvs1 r c = at2 f.mvs1 r c ∧ at2 s.segIds r c = at2 f.segIds r c
  motion : ∀ r j, 1 ≤ r → r ≤ 7 → j ≤ 5 → at2 s.gm r j = at2 f.gm r j
  picture : ∀ p y x, p < 3 → y < planeH f p → x < planeW f p → at3 pic p y x = at3 f.lr p y x

/-- The slot is one of those to refresh. -/
def Refreshed (f : CurFrame) (i : Nat) : Prop := (f.refresh >>> i) % 2 = 1

instance (f : CurFrame) (i : Nat) : Decidable (Refreshed f i) := inferInstanceAs (Decidable (_ = _))

/-- Contents of slot `i`. -/
def SlotIs {γ : Type} (m : RefMem γ) (i : Nat) (s : RefSlot) (pic : Planes) (c : γ) : Prop :=
  m.slots[i]? = some s ∧ m.store[i]? = some pic ∧ m.cdfs[i]? = some c

theorem copyHints_ok {src dst : List Int} (h1 : src.length = 8) (h2 : dst.length = 8) :
    ∃ D, copyHints src dst = .ok D ∧ D.length = 8 ∧ ∀ j, 1 ≤ j → j ≤ 7 → D[j]? = src[j]? := by
  have hstep : ∀ i t, 0 ≤ i → i < 0 + 7 → (t.length = 8 ∧ ∀ j, 1 ≤ j → j ≤ i → t[j]? = src[j]?) →
      ∃ t', (do let v ← goGet src ((i + 1 : Nat) : Int); goSet t ((i + 1 : Nat) : Int) v : Res (List Int)) = .ok t' ∧
        (t'.length = 8 ∧ ∀ j, 1 ≤ j → j ≤ i + 1 → t'[j]? = src[j]?) := by
    intro i t _ hi ⟨ht, hP⟩
    refine ⟨t.set (i + 1) (src[i + 1]'(by omega)), ?_, by simpa using ht, ?_⟩
    · rw [goGet_lt' (by omega), Res.ok_bind, goSet_lt' _ (by omega)]
    · intro j hj1 hj2
      by_cases h : j = i + 1
      · subst h
        rw [List.getElem?_set_self (by omega), List.getElem?_eq_getElem]
      · rw [List.getElem?_set_ne (by omega)]
        exact hP j hj1 (by omega)
  obtain ⟨D, hD, hl, hv⟩ := forN_total (fun i (t : List Int) => t.length = 8 ∧ ∀ j, 1 ≤ j → j ≤ i → t[j]? = src[j]?) hstep
    ⟨h2, by intro j a b; omega⟩
  exact ⟨D, hD, hl, fun j a b => hv j a (by omega)⟩

theorem copyGm_ok {src dst : List (List Int)} (h1 : Shape 8 6 src) (h2 : Shape 8 6 dst) :
    ∃ D, copyGm src dst = .ok D ∧ Shape 8 6 D ∧ ∀ r j, 1 ≤ r → r ≤ 7 → j ≤ 5 → at2 D r j = at2 src r j := by
  have hstep : ∀ k t, 0 ≤ k → k < 0 + 7 → CopyInv src dst (fun a b => 1 ≤ a ∧ a ≤ k ∧ b < 6) t →
      ∃ t', forN (fun j D => do
        let v ← gget src ((k + 1 : Nat) : Int) (j : Int)
        gset D ((k + 1 : Nat) : Int) (j : Int) v) 6 0 t = .ok t' ∧ CopyInv src dst (fun a b => 1 ≤ a ∧ a ≤ k + 1 ∧ b < 6) t' := by
    intro k t _ hk hP
    have hin : ∀ j u, 0 ≤ j → j < 0 + 6 → CopyInv src dst (fun a b => (1 ≤ a ∧ a ≤ k ∧ b < 6) ∨ (a = k + 1 ∧ b < j)) u →
        ∃ u', (do let v ← gget src ((k + 1 : Nat) : Int) (j : Int); gset u ((k + 1 : Nat) : Int) (j : Int) v) = .ok u' ∧
          CopyInv src dst (fun a b => (1 ≤ a ∧ a ≤ k ∧ b < 6) ∨ (a = k + 1 ∧ b < j + 1)) u' := by
      intro j u _ hj hQ
      obtain ⟨a, ha⟩ := h1.at2 (i := k + 1) (j := j) (by omega) (by omega)
      obtain ⟨b, hb⟩ := (hQ.2.2 8 6 h2).at2 (i := k + 1) (j := j) (by omega) (by omega)
      obtain ⟨u', hu⟩ := copyCell_ok (src := src) (D := u) (y := k + 1) (x := j) (by rw [ha]; rfl) (by rw [hb]; rfl)
      exact ⟨u', hu, hQ.step hu (by omega) (by intro a b; omega)⟩
    obtain ⟨t', ht, hQ⟩ := forN_total _ hin (hP.congr (by intro a b; omega))
    exact ⟨t', ht, hQ.congr (by intro a b; omega)⟩
  obtain ⟨D, hD, hP⟩ := forN_total _ hstep (CopyInv.start src dst (by intro a b; omega))
  exact ⟨D, hD, hP.2.2 8 6 h2, fun r j a b c => (hP.1 r j ⟨a, by omega, by omega⟩).1⟩

theorem slotArrays_ok {f : CurFrame} (hf : f.Ok) (hr : f.miRows ≤ 64) (hc : f.miCols ≤ 64) {s : RefSlot} (hs : s.Ok) :
    ∃ s', slotArrays f s = .ok s' ∧ s'.Ok ∧
      (∀ j, 1 ≤ j → j ≤ 7 → s'.orderHints[j]? = f.orderHints[j]?) ∧
      (∀ r c, r < f.miRows → c < f.miCols → at2 s'.refFrames r c = at2 f.refFrames r c ∧ at2 s'.mvs0 r c = at2 f.mvs0 r c ∧
        at2 s'.mvs1 r c = at2 f.mvs1 r c ∧ at2 s'.segIds r c = at2 f.segIds r c) ∧
      (∀ r j, 1 ≤ r → r ≤ 7 → j ≤ 5 → at2 s'.gm r j = at2 f.gm r j) ∧
      s' = { s with orderHints := s'.orderHints, refFrames := s'.refFrames, mvs0 := s'.mvs0, mvs1 := s'.mvs1, gm := s'.gm, segIds := s'.segIds } := by
  obtain ⟨d1, e1, l1, v1⟩ := copyHints_ok hf.hints hs.hints
  have cp : ∀ {src dst : List (List Int)}, Shape 64 64 src → Shape 64 64 dst →
      ∃ D, copyRows src f.miRows f.miCols dst = .ok D ∧ Shape 64 64 D ∧ ∀ r c, r < f.miRows → c < f.miCols → at2 D r c = at2 src r c := by
    intro src dst h1 h2
    obtain ⟨D, hD⟩ := copyRows_total (Room.of_shape h1 h2 hr hc hr hc)
    obtain ⟨a, -, b⟩ := copyRows_inv hD
    exact ⟨D, hD, b 64 64 h2, fun r c x y => by rw [a r c, if_pos ⟨x, y⟩]⟩
  obtain ⟨d2, e2, l2, v2⟩ := cp hf.refFrames hs.refFrames
  obtain ⟨d3, e3, l3, v3⟩ := cp hf.mvs0 hs.mvs0
  obtain ⟨d4, e4, l4, v4⟩ := cp hf.mvs1 hs.mvs1
  obtain ⟨d5, e5, l5, v5⟩ := copyGm_ok hf.gm hs.gm
  obtain ⟨d6, e6, l6, v6⟩ := cp hf.segIds hs.segIds
  refine ⟨{ s with orderHints := d1, refFrames := d2, mvs0 := d3, mvs1 := d4, gm := d5, segIds := d6 }, ?_, ⟨l1, l2, l3, l4, l5, l6⟩, v1,
    fun r c x y => ⟨v2 r c x y, v3 r c x y, v4 r c x y, v6 r c x y⟩, v5, rfl⟩
  unfold slotArrays
  rw [e1, Res.ok_bind, e2, Res.ok_bind, e3, Res.ok_bind, e4, Res.ok_bind, e5, Res.ok_bind, e6, Res.ok_bind]
  rfl

/-- Setting a plane. -/
theorem pic_set {H W : Nat} {P : Planes} (h : Pic H W P) {p : Nat} (hp : p < 3) {F : List (List Int)} (hF : Shape H W F) :
    Pic H W (P.set p F) ∧ ∀ q y x, at3 (P.set p F) q y x = if q = p then at2 F y x else at3 P q y x := by
  have hl : p < P.length := by rw [h.1]; exact hp
  refine ⟨⟨by simpa using h.1, ?_⟩, ?_⟩
  · intro m hm
    rcases List.mem_or_eq_of_mem_set hm with hh | hh
    · exact h.2 _ hh
    · rw [hh]; exact hF
  · intro q y x
    unfold at3
    by_cases hq : q = p
    · subst hq; rw [if_pos rfl, List.getElem?_set_self hl]; rfl
    · rw [if_neg hq, List.getElem?_set_ne (fun h => hq h.symm)]

theorem subShift (s : Nat) (h : s ≤ 1) : s >>> s = 0 := by
  rcases (show s = 0 ∨ s = 1 by omega) with rfl | rfl <;> rfl

theorem planeDim_le (x s : Nat) (h : s ≤ 1) (hx : 1 ≤ x ∨ s = 0 ∨ x = 0) : planeDim x s ≤ x := by
  unfold planeDim
  rcases (show s = 0 ∨ s = 1 by omega) with rfl | rfl
  · simp
  · rw [Nat.shiftRight_eq_div_pow]; omega

theorem savePicture_ok {f : CurFrame} (hf : f.Ok) (hw : f.upscaledWidth ≤ 9) (hh : f.frameHeight ≤ 9) {pic : Planes} (hp : Pic 16 16 pic) :
    ∃ pic', savePicture f pic = .ok pic' ∧ Pic 16 16 pic' ∧
      ∀ p y x, p < 3 → y < f.frameHeight → x < f.upscaledWidth → at3 pic' p y x = at3 f.lr p y x := by
  have one : ∀ (p : Nat) (P : Planes), p < 3 → Pic 16 16 P → ∃ src dst D, goGet f.lr (p : Int) = .ok src ∧ goGet P (p : Int) = .ok dst ∧
      copyCols src f.frameHeight f.upscaledWidth dst = .ok D ∧ goSet P (p : Int) D = .ok (P.set p D) ∧ Pic 16 16 (P.set p D) ∧
      ∀ q y x, y < f.frameHeight → x < f.upscaledWidth → at3 (P.set p D) q y x = if q = p then at3 f.lr p y x else at3 P q y x := by
    intro p P hp3 hP
    obtain ⟨src, e1, s1, -, a1⟩ := hf.lr.plane hp3
    obtain ⟨dst, e2, s2, -, a2⟩ := hP.plane hp3
    obtain ⟨D, hD⟩ := copyCols_total (Room.of_shape s1 s2 hh hw (by omega) (by omega) : Room src dst f.frameHeight f.upscaledWidth)
    obtain ⟨c1, -, c3⟩ := copyCols_inv hD
    obtain ⟨g1, g2⟩ := pic_set hP hp3 (c3 16 16 s2)
    refine ⟨src, dst, D, e1, e2, hD, goSet_lt' _ (by rw [hP.1]; exact hp3), g1, ?_⟩
    intro q y x hy hx
    rw [g2]
    by_cases hq : q = p
    · rw [if_pos hq, if_pos hq, c1 y x, if_pos ⟨hy, hx⟩, a1]
    · rw [if_neg hq, if_neg hq]
  obtain ⟨src, dst, D, e1, e2, e3, e4, hP0, v0⟩ := one 0 pic (by decide) hp
  have hstep : ∀ k P, 0 ≤ k → k < 0 + 2 → (Pic 16 16 P ∧ ∀ q y x, q ≤ k → y < f.frameHeight → x < f.upscaledWidth → at3 P q y x = at3 f.lr q y x) →
      ∃ P', (do
        let src ← goGet f.lr ((k + 1 : Nat) : Int)
        let dst ← goGet P ((k + 1 : Nat) : Int)
        let dst ← copyCols src (f.frameHeight + f.subY >>> f.subY) (f.upscaledWidth + f.subX >>> f.subX) dst
        goSet P ((k + 1 : Nat) : Int) dst : Res Planes) = .ok P' ∧
        (Pic 16 16 P' ∧ ∀ q y x, q ≤ k + 1 → y < f.frameHeight → x < f.upscaledWidth → at3 P' q y x = at3 f.lr q y x) := by
    intro k P _ hk ⟨hP, hv⟩
    obtain ⟨src, dst, D, e1, e2, e3, e4, hP', v'⟩ := one (k + 1) P (by omega) hP
    refine ⟨P.set (k + 1) D, ?_, hP', ?_⟩
    · have hx : f.upscaledWidth + f.subX >>> f.subX = f.upscaledWidth := by rw [subShift _ hf.subX]; rfl
      have hy : f.frameHeight + f.subY >>> f.subY = f.frameHeight := by rw [subShift _ hf.subY]; rfl
      rw [hx, hy, e1, Res.ok_bind, e2, Res.ok_bind, e3, Res.ok_bind, e4]
    · intro q y x hq hy hx
      rw [v' q y x hy hx]
      by_cases h : q = k + 1
      · rw [if_pos h, h]
      · rw [if_neg h]; exact hv q y x (by omega) hy hx
  have start : ∀ q y x, q ≤ 0 → y < f.frameHeight → x < f.upscaledWidth → at3 (pic.set 0 D) q y x = at3 f.lr q y x := by
    intro q y x hq hy hx
    obtain rfl : q = 0 := by omega
    rw [v0 0 y x hy hx, if_pos rfl]
  obtain ⟨pic', e5, hP', v'⟩ := forN_total (fun k (P : Planes) => Pic 16 16 P ∧ ∀ q y x, q ≤ k → y < f.frameHeight → x < f.upscaledWidth →
    at3 P q y x = at3 f.lr q y x) hstep ⟨hP0, start⟩
  refine ⟨pic', ?_, hP', fun p y x hp hy hx => v' p y x (by omega) hy hx⟩
  unfold savePicture
  have e1' : goGet f.lr 0 = .ok src := e1
  have e2' : goGet pic 0 = .ok dst := e2
  have e4' : goSet pic 0 D = .ok (pic.set 0 D) := e4
  rw [e1', Res.ok_bind, e2', Res.ok_bind, e3, Res.ok_bind, e4', Res.ok_bind]
  exact e5

theorem saveHints_ok (f : CurFrame) {l : List RefSlot} (hl : l.length = 8) :
    ∃ l', saveHints f l = .ok l' ∧ l'.length = 8 ∧
      ∀ j, j < 8 → l'[j]? = if Refreshed f j then l[j]?.map (fun s => { s with orderHint := f.orderHint }) else l[j]? := by
  have hstep : ∀ i t, 0 ≤ i → i < 0 + 8 → (t.length = 8 ∧ (∀ j, j < i → t[j]? = if Refreshed f j then
        l[j]?.map (fun s => { s with orderHint := f.orderHint }) else l[j]?) ∧ ∀ j, i ≤ j → t[j]? = l[j]?) →
      ∃ t', (if (f.refresh >>> i) % 2 = 1 then do
          let s ← goGet t (i : Int)
          goSet t (i : Int) { s with orderHint := f.orderHint }
        else pure t : Res (List RefSlot)) = .ok t' ∧ (t'.length = 8 ∧ (∀ j, j < i + 1 → t'[j]? = if Refreshed f j then
        l[j]?.map (fun s => { s with orderHint := f.orderHint }) else l[j]?) ∧ ∀ j, i + 1 ≤ j → t'[j]? = l[j]?) := by
    intro i t _ hi ⟨ht, h1, h2⟩
    by_cases hr : (f.refresh >>> i) % 2 = 1
    · rw [if_pos hr, goGet_lt' (by omega), Res.ok_bind, goSet_lt' _ (by omega)]
      refine ⟨_, rfl, by simpa using ht, ?_, ?_⟩
      · intro j hj
        by_cases he : j = i
        · subst he
          rw [List.getElem?_set_self (by omega), if_pos (show Refreshed f j from hr), ← h2 j (by omega), List.getElem?_eq_getElem (by omega)]; rfl
        · rw [List.getElem?_set_ne (by omega)]; exact h1 j (by omega)
      · intro j hj
        rw [List.getElem?_set_ne (by omega)]; exact h2 j (by omega)
    · rw [if_neg hr]
      refine ⟨t, rfl, ht, ?_, fun j hj => h2 j (by omega)⟩
      intro j hj
      by_cases he : j = i
      · subst he; rw [if_neg (show ¬ Refreshed f j from hr)]; exact h2 j (by omega)
      · exact h1 j (by omega)
  obtain ⟨l', e, hl', h1, -⟩ := forN_total (fun i (t : List RefSlot) => t.length = 8 ∧ (∀ j, j < i → t[j]? = if Refreshed f j then
        l[j]?.map (fun s => { s with orderHint := f.orderHint }) else l[j]?) ∧ ∀ j, i ≤ j → t[j]? = l[j]?) hstep
        ⟨hl, by intro j hj; omega, fun _ _ => rfl⟩
  exact ⟨l', e, hl', fun j hj => h1 j (by omega)⟩

theorem updateSlot_ok {γ : Type} {f : CurFrame} (hf : f.Ok) (hw : f.upscaledWidth ≤ 9) (hh : f.frameHeight ≤ 9) (hr : f.miRows ≤ 64)
    (hc : f.miCols ≤ 64) (cdfs : γ) {i : Nat} (hi : i < 8) (hfl : Refreshed f i) {m : RefMem γ} (hm : m.Ok) :
    ∃ m', updateSlot f cdfs i m = .ok m' ∧ m'.Ok ∧
      (∃ s pic, SlotIs m' i s pic cdfs ∧ Describes f s pic) ∧
      (∀ j, j ≠ i → j < 8 → m'.store[j]? = m.store[j]? ∧ m'.cdfs[j]? = m.cdfs[j]? ∧
        m'.slots[j]? = if Refreshed f j then m.slots[j]?.map (fun s => { s with orderHint := f.orderHint }) else m.slots[j]?) := by
  have h1 : i < m.slots.length := by rw [hm.slots]; exact hi
  have h2 : i < m.store.length := by rw [hm.store]; exact hi
  have h3 : i < m.cdfs.length := by rw [hm.cdfs]; exact hi
  have hs0 := hm.slotOk _ (List.getElem_mem h1)
  have hs0' : (slotFields f m.slots[i]).Ok := ⟨hs0.hints, hs0.refFrames, hs0.mvs0, hs0.mvs1, hs0.gm, hs0.segIds⟩
  obtain ⟨s', e1, ok', v1, v2, v3, v4⟩ := slotArrays_ok hf hr hc hs0'
  obtain ⟨pic', e2, okp, vp⟩ := savePicture_ok hf hw hh (hm.storeOk _ (List.getElem_mem h2))
  obtain ⟨l', e3, hl', vl⟩ := saveHints_ok f (l := m.slots.set i s') (by simpa using hm.slots)
  refine ⟨{ slots := l', store := m.store.set i pic', cdfs := m.cdfs.set i cdfs }, ?_, ?_, ?_, ?_⟩
  · unfold updateSlot saveCdfs
    rw [goGet_lt' h1, Res.ok_bind, goGet_lt' h2, Res.ok_bind, e1, Res.ok_bind, e2, Res.ok_bind, goSet_lt' _ h1, Res.ok_bind,
      goSet_lt' _ h2, Res.ok_bind, e3, Res.ok_bind]
    dsimp only
    rw [goSet_lt' _ h3, Res.ok_bind]
    rfl
  · refine ⟨hl', ?_, by simpa using hm.store, ?_, by simpa using hm.cdfs⟩
    · intro s hs
      obtain ⟨j, hj, rfl⟩ := List.mem_iff_getElem.mp hs
      have hset : ∀ t, (m.slots.set i s')[j]? = some t → t.Ok := by
        intro t ht
        rcases List.mem_or_eq_of_mem_set (List.mem_of_getElem? ht) with hh | hh
        · exact hm.slotOk _ hh
        · rw [hh]; exact ok'
      have hv := vl j (by have : j < l'.length := hj; omega)
      rw [List.getElem?_eq_getElem hj] at hv
      by_cases hR : Refreshed f j
      · rw [if_pos hR] at hv
        cases ht : (m.slots.set i s')[j]? with
        | none => rw [ht] at hv; exact absurd hv (by simp)
        | some t =>
          rw [ht] at hv
          have := hset t ht
          have he : l'[j] = { t with orderHint := f.orderHint } := by simpa using hv
          rw [he]
          exact ⟨this.hints, this.refFrames, this.mvs0, this.mvs1, this.gm, this.segIds⟩
      · rw [if_neg hR] at hv
        exact hset _ hv.symm
    · intro p hp
      rcases List.mem_or_eq_of_mem_set hp with hh | hh
      · exact hm.storeOk _ hh
      · rw [hh]; exact okp
  · refine ⟨{ s' with orderHint := f.orderHint }, pic', ⟨?_, ?_, ?_⟩, ?_⟩
    · show l'[i]? = _
      rw [vl i hi, if_pos hfl, List.getElem?_set_self h1]; rfl
    · exact List.getElem?_set_self h2
    · exact List.getElem?_set_self h3
    · refine { valid := ?_, size := ?_, type := ?_, colour := ?_, order := rfl, hints := v1, units := v2, motion := v3, picture := ?_ }
      · show s'.valid = 1
        rw [v4]; rfl
      · show s'.upscaledWidth = f.upscaledWidth ∧ s'.frameWidth = f.frameWidth ∧ s'.frameHeight = f.frameHeight ∧
          s'.renderWidth = f.renderWidth ∧ s'.renderHeight = f.renderHeight ∧ s'.miCols = f.miCols ∧ s'.miRows = f.miRows
        rw [v4]; exact ⟨rfl, rfl, rfl, rfl, rfl, rfl, rfl⟩
      · show s'.frameType = f.frameType
        rw [v4]; rfl
      · show s'.subX = f.subX ∧ s'.subY = f.subY ∧ s'.bitDepth = f.bitDepth
        rw [v4]; exact ⟨rfl, rfl, rfl⟩
      · intro p y x hp hy hx
        refine vp p y x hp ?_ ?_
        · unfold planeH at hy
          split at hy
          · exact hy
          · have := planeDim_le f.frameHeight f.subY hf.subY (by omega); omega
        · unfold planeW at hx
          split at hx
          · exact hx
          · have := planeDim_le f.upscaledWidth f.subX hf.subX (by omega); omega
  · intro j hj hj8
    refine ⟨List.getElem?_set_ne (fun h => hj h.symm), List.getElem?_set_ne (fun h => hj h.symm), ?_⟩
    show l'[j]? = _
    rw [vl j hj8, List.getElem?_set_ne (fun h => hj h.symm)]

/-- **C54 (update, frames of at most 9 by 9 pixels and 64 by 64 units).**  The slots of the refresh mask then describe the
frame and hold its CDFs, all other slots are unchanged. -/
theorem C54_update_partial {γ : Type} {f : CurFrame} (hf : f.Ok) (hw : f.upscaledWidth ≤ 9) (hh : f.frameHeight ≤ 9)
    (hr : f.miRows ≤ 64) (hc : f.miCols ≤ 64) (cdfs : γ) {m : RefMem γ} (hm : m.Ok) :
    ∃ m', refUpdate f cdfs m = .ok m' ∧ m'.Ok ∧
      (∀ i, i < 8 → Refreshed f i → ∃ s pic, SlotIs m' i s pic cdfs ∧ Describes f s pic) ∧
      (∀ i s pic c, i < 8 → ¬ Refreshed f i → SlotIs m i s pic c → SlotIs m' i s pic c) := by
  have hstep : ∀ i (t : RefMem γ), 0 ≤ i → i < 0 + 8 → (t.Ok ∧
        (∀ j, j < i → Refreshed f j → ∃ s pic, SlotIs t j s pic cdfs ∧ Describes f s pic) ∧
        (∀ j s pic c, j < 8 → ¬ Refreshed f j → SlotIs m j s pic c → SlotIs t j s pic c)) →
      ∃ t', (if (f.refresh >>> i) % 2 = 1 then updateSlot f cdfs i t else pure t : Res (RefMem γ)) = .ok t' ∧ (t'.Ok ∧
        (∀ j, j < i + 1 → Refreshed f j → ∃ s pic, SlotIs t' j s pic cdfs ∧ Describes f s pic) ∧
        (∀ j s pic c, j < 8 → ¬ Refreshed f j → SlotIs m j s pic c → SlotIs t' j s pic c)) := by
    intro i t _ hi ⟨ht, h1, h2⟩
    by_cases hfl : Refreshed f i
    · rw [if_pos (show (f.refresh >>> i) % 2 = 1 from hfl)]
      obtain ⟨t', e, ok', here, there⟩ := updateSlot_ok hf hw hh hr hc cdfs (by omega : i < 8) hfl ht
      refine ⟨t', e, ok', ?_, ?_⟩
      · intro j hj hR
        by_cases hji : j = i
        · subst hji; exact here
        · obtain ⟨s, pic, ⟨a, b, c⟩, hd⟩ := h1 j (by omega) hR
          obtain ⟨x, y, z⟩ := there j hji (by omega)
          refine ⟨{ s with orderHint := f.orderHint }, pic, ⟨?_, ?_, ?_⟩, ?_⟩
          · rw [z, if_pos hR, a]; rfl
          · rw [x, b]
          · rw [y, c]
          · exact { valid := hd.valid, size := hd.size, type := hd.type, colour := hd.colour, order := rfl, hints := hd.hints,
                    units := hd.units, motion := hd.motion, picture := hd.picture }
      · intro j s pic c hj hR hS
        have hji : j ≠ i := fun h => hR (h ▸ hfl)
        obtain ⟨x, y, z⟩ := there j hji hj
        obtain ⟨a, b, c'⟩ := h2 j s pic c hj hR hS
        refine ⟨?_, ?_, ?_⟩
        · rw [z, if_neg hR, a]
        · rw [x, b]
        · rw [y, c']
    · rw [if_neg (show ¬ (f.refresh >>> i) % 2 = 1 from hfl)]
      refine ⟨t, rfl, ht, ?_, h2⟩
      intro j hj hR
      by_cases hji : j = i
      · subst hji; exact absurd hR hfl
      · exact h1 j (by omega) hR
  obtain ⟨m', e, ok', h1, h2⟩ := forN_total _ hstep ⟨hm, by intro j hj; omega, fun _ _ _ _ _ _ h => h⟩
  exact ⟨m', e, ok', fun i hi hR => h1 i (by omega) hR, h2⟩

/-- A memory with eight empty slots. -/
def emptyMem : RefMem Nat := { slots := List.replicate 8 {}, store := List.replicate 8 (zeroPlanes 3 16 16), cdfs := List.replicate 8 0 }

theorem zeroPlanes_pic (h w : Nat) : Pic h w (zeroPlanes 3 h w) :=
  ⟨by simp [zeroPlanes], fun p hp => by rw [List.eq_of_mem_replicate hp]; exact Shape.replicate _ _ _⟩

theorem emptySlot_ok : ({} : RefSlot).Ok :=
  ⟨by simp, Shape.replicate _ _ _, Shape.replicate _ _ _, Shape.replicate _ _ _, Shape.replicate _ _ _, Shape.replicate _ _ _⟩

theorem emptyMem_ok : emptyMem.Ok :=
  ⟨by simp [emptyMem], fun s hs => by rw [List.eq_of_mem_replicate hs]; exact emptySlot_ok, by simp [emptyMem],
    fun p hp => by rw [List.eq_of_mem_replicate hp]; exact zeroPlanes_pic 16 16, by simp [emptyMem]⟩

/-- An 8 by 8 frame refreshing slots 0 and 2. -/
def smallFrame : CurFrame where
  refresh := 5
  frameWidth := 8
  upscaledWidth := 8
  frameHeight := 8
  miRows := 2
  miCols := 2
  subX := 1
  subY := 1
  orderHint := 3
  lr := List.replicate 3 (List.replicate 9 (List.replicate 9 7))

theorem smallFrame_ok : smallFrame.Ok :=
  ⟨by simp [smallFrame], Shape.replicate _ _ _, Shape.replicate _ _ _, Shape.replicate _ _ _, Shape.replicate _ _ _,
    Shape.replicate _ _ _, ⟨by simp [smallFrame], fun p hp => by rw [List.eq_of_mem_replicate hp]; exact Shape.replicate _ _ _⟩,
    by decide, by decide⟩

example : ∃ m', refUpdate smallFrame 9 emptyMem = .ok m' ∧ m'.Ok ∧
    (∀ i, i < 8 → Refreshed smallFrame i → ∃ s pic, SlotIs m' i s pic 9 ∧ Describes smallFrame s pic) ∧
    (∀ i s pic c, i < 8 → ¬ Refreshed smallFrame i → SlotIs emptyMem i s pic c → SlotIs m' i s pic c) :=
  C54_update_partial smallFrame_ok (by decide) (by decide) (by decide) (by decide) 9 emptyMem_ok

example : Refreshed smallFrame 0 ∧ ¬ Refreshed smallFrame 1 ∧ Refreshed smallFrame 2 := by decide

theorem updateSlot_fits {γ : Type} {f : CurFrame} (hf : Pic 9 9 f.lr) {cdfs : γ} {i : Nat} {m m' : RefMem γ}
    (h : updateSlot f cdfs i m = .ok m') : ∀ y x, y < f.frameHeight → x < f.upscaledWidth → y < 9 ∧ x < 9 := by
  unfold updateSlot at h
  obtain ⟨s, -, h⟩ := Res.inv h
  obtain ⟨pic, -, h⟩ := Res.inv h
  obtain ⟨s', -, h⟩ := Res.inv h
  obtain ⟨pic', hp, -⟩ := Res.inv h
  unfold savePicture at hp
  obtain ⟨src, e1, hp⟩ := Res.inv hp
  obtain ⟨dst, -, hp⟩ := Res.inv hp
  obtain ⟨D, e2, -⟩ := Res.inv hp
  obtain ⟨F, e3, hF, -⟩ := hf.plane (pl := 0) (by decide)
  have : F = src := by
    have e3' : goGet f.lr 0 = .ok F := e3
    rw [e3'] at e1; cases e1; rfl
  subst this
  obtain ⟨-, hr, -⟩ := copyCols_inv e2
  intro y x hy hx
  obtain ⟨a, ha⟩ := Option.isSome_iff_exists.mp (hr y x hy hx).1
  exact at2_lt hF ha

/-- **C54 fails for every frame larger than 9 by 9 pixels**: if any slot is to be refreshed, saving such a frame panics
(`state.LrFrame` is `[3][9][9]int`). -/
theorem C54_size_refuted {γ : Type} {f : CurFrame} (hf : Pic 9 9 f.lr) (hw : 0 < f.upscaledWidth) (hh : 0 < f.frameHeight)
    (hbig : 9 < f.upscaledWidth ∨ 9 < f.frameHeight) {i : Nat} (hi : i < 8) (hR : Refreshed f i) (cdfs : γ) (m m' : RefMem γ) :
    refUpdate f cdfs m ≠ .ok m' := by
  refine forN_never (i := i) (by omega) (by omega) ?_ m'
  intro t t' h
  rw [if_pos (show (f.refresh >>> i) % 2 = 1 from hR)] at h
  have := updateSlot_fits hf h (f.frameHeight - 1) (f.upscaledWidth - 1) (by omega) (by omega)
  omega

example (m' : RefMem Nat) : refUpdate { smallFrame with upscaledWidth := 16 } 9 emptyMem ≠ .ok m' :=
  C54_size_refuted (f := { smallFrame with upscaledWidth := 16 }) smallFrame_ok.lr (by decide) (by decide) (Or.inl (by decide)) (i := 0) (by decide) (by decide) _ _ _

/-- **C54 fails for loading**: the loading process never returns, whatever the memory. -/
theorem C54_load_refuted {γ : Type} (m : RefMem γ) (idx : Nat) (lr r : Planes) : refLoad m idx lr ≠ .ok r := by
  intro h
  unfold refLoad at h
  obtain ⟨_, -, h⟩ := Res.inv h
  obtain ⟨_, -, h⟩ := Res.inv h
  obtain ⟨_, -, h⟩ := Res.inv h
  obtain ⟨_, -, h⟩ := Res.inv h
  obtain ⟨_, -, h⟩ := Res.inv h
  obtain ⟨_, -, h⟩ := Res.inv h
  obtain ⟨_, -, h⟩ := Res.inv h
  cases h

/-- **C54 fails for pictures**: with the next tile group every slot shows a black picture, whatever was saved there. -/
theorem C54_pictures_refuted {γ : Type} (m : RefMem γ) (i : Nat) (hi : i < 8) :
    ∃ pic, (newTileGroupStore m).store[i]? = some pic ∧ Pic 16 16 pic ∧ ∀ p y x v, at3 pic p y x = some v → v = 0 := by
  refine ⟨zeroPlanes 3 16 16, ?_, zeroPlanes_pic 16 16, ?_⟩
  · show (List.replicate 8 (zeroPlanes 3 16 16))[i]? = _
    rw [List.getElem?_replicate, if_pos hi]
  · intro p y x v h
    unfold at3 zeroPlanes at h
    rw [List.getElem?_replicate] at h
    split at h
    · unfold at2 at h
      simp only [Option.bind_some] at h
      rw [List.getElem?_replicate] at h
      split at h
      · simp only [Option.bind_some] at h
        rw [List.getElem?_replicate] at h
        split at h
        · cases h; rfl
        · cases h
      · cases h
    · cases h

/-! ## Histories -/

/-- What happens to the memory: a frame is wrapped up, or a new tile group begins. -/
inductive MemOp (γ : Type) where
  | frame (f : CurFrame) (cdfs : γ)
  | tileGroup

/-- The memory after a history. -/
def runMem {γ : Type} : List (MemOp γ) → RefMem γ → Res (RefMem γ)
  | [], m => pure m
  | .frame f c :: ops, m => do
      let m ← refUpdate f c m
      runMem ops m
  | .tileGroup :: ops, m => runMem ops (newTileGroupStore m)

/-- The last frame of a history that refreshed slot `i`. -/
def lastSaved {γ : Type} (i : Nat) : List (MemOp γ) → Option (CurFrame × γ) → Option (CurFrame × γ)
  | [], acc => acc
  | .frame f c :: ops, acc => lastSaved i ops (if Refreshed f i then some (f, c) else acc)
  | .tileGroup :: ops, acc => lastSaved i ops acc

/-- The frames of a history the arrays have room for. -/
def OpsOk {γ : Type} (ops : List (MemOp γ)) : Prop :=
  ∀ f c, MemOp.frame f c ∈ ops → f.Ok ∧ f.upscaledWidth ≤ 9 ∧ f.frameHeight ≤ 9 ∧ f.miRows ≤ 64 ∧ f.miCols ≤ 64

/-- Header and block data and CDFs of slot `i` (the picture apart): those of `last`, or unchanged from `m0`. -/
def Holds {γ : Type} (m0 m : RefMem γ) (i : Nat) (last : Option (CurFrame × γ)) : Prop :=
  match last with
  | some (f, c) => ∃ s pic, SlotIs m i s pic c ∧ Describes f s f.lr
  | none => m.slots[i]? = m0.slots[i]? ∧ m.cdfs[i]? = m0.cdfs[i]?

theorem Describes.data {f : CurFrame} {s : RefSlot} {pic : Planes} (hd : Describes f s pic) : Describes f s f.lr :=
  { hd with picture := fun _ _ _ _ _ _ => rfl }

theorem runMem_holds {γ : Type} (m0 : RefMem γ) (i : Nat) (hi : i < 8) : ∀ (ops : List (MemOp γ)) (m : RefMem γ)
    (last : Option (CurFrame × γ)), OpsOk ops → m.Ok → Holds m0 m i last →
    ∃ m', runMem ops m = .ok m' ∧ m'.Ok ∧ Holds m0 m' i (lastSaved i ops last) := by
  intro ops
  induction ops with
  | nil => intro m last _ hm hH; exact ⟨m, rfl, hm, hH⟩
  | cons op ops ih =>
    intro m last hok hm hH
    have hok' : OpsOk ops := fun f c h => hok f c (List.mem_cons_of_mem _ h)
    cases op with
    | tileGroup =>
      refine ih (newTileGroupStore m) last hok' ⟨hm.slots, hm.slotOk, ?_, ?_, hm.cdfs⟩ ?_
      · exact List.length_replicate
      · intro p hp; rw [List.eq_of_mem_replicate hp]; exact zeroPlanes_pic 16 16
      · cases last with
        | none => exact hH
        | some fc =>
          obtain ⟨s, pic, ⟨a, b, c⟩, hd⟩ := hH
          exact ⟨s, zeroPlanes 3 16 16, ⟨a, by show (List.replicate 8 _)[i]? = _; rw [List.getElem?_replicate, if_pos hi], c⟩, hd⟩
    | frame f c =>
      obtain ⟨h1, h2, h3, h4, h5⟩ := hok f c List.mem_cons_self
      obtain ⟨m', e, ok', hin, hout⟩ := C54_update_partial h1 h2 h3 h4 h5 c hm
      show ∃ r, (refUpdate f c m >>= fun m => runMem ops m) = .ok r ∧ _
      rw [e, Res.ok_bind]
      refine ih m' _ hok' ok' ?_
      by_cases hR : Refreshed f i
      · rw [if_pos hR]
        obtain ⟨s, pic, hs, hd⟩ := hin i hi hR
        exact ⟨s, pic, hs, hd.data⟩
      · rw [if_neg hR]
        have e1 : m.slots[i]? = some (m.slots[i]'(by rw [hm.slots]; exact hi)) := List.getElem?_eq_getElem _
        have e2 : m.store[i]? = some (m.store[i]'(by rw [hm.store]; exact hi)) := List.getElem?_eq_getElem _
        have e3 : m.cdfs[i]? = some (m.cdfs[i]'(by rw [hm.cdfs]; exact hi)) := List.getElem?_eq_getElem _
        have hk := hout i _ _ _ hi hR ⟨e1, e2, e3⟩
        cases last with
        | none => exact ⟨by rw [hk.1, ← e1]; exact hH.1, by rw [hk.2.2, ← e3]; exact hH.2⟩
        | some fc =>
          obtain ⟨s, pic, hs, hd⟩ := hH
          exact ⟨s, pic, hout i _ _ _ hi hR hs, hd⟩

/-- **C54 (histories, pictures apart).**  After any sequence of frames of at most 9 by 9 pixels and new tile groups, each
slot holds the header values, the block data and the CDFs of the last frame that refreshed it, and what it held at first
if there is none. -/
theorem C54_history_partial {γ : Type} (m : RefMem γ) (hm : m.Ok) (ops : List (MemOp γ)) (hok : OpsOk ops) :
    ∃ m', runMem ops m = .ok m' ∧ m'.Ok ∧ ∀ i, i < 8 → Holds m m' i (lastSaved i ops none) := by
  obtain ⟨m', e, ok', -⟩ := runMem_holds m 0 (by decide) ops m none hok hm ⟨rfl, rfl⟩
  refine ⟨m', e, ok', fun i hi => ?_⟩
  obtain ⟨m'', e', -, h⟩ := runMem_holds m i hi ops m none hok hm ⟨rfl, rfl⟩
  rw [e] at e'; cases e'; exact h

/-- Two frames; the second refreshes slot 1 only. -/
def twoFrames : List (MemOp Nat) := [.tileGroup, .frame smallFrame 4, .tileGroup, .frame { smallFrame with refresh := 2 } 6]

example : ∃ m', runMem twoFrames emptyMem = .ok m' ∧ m'.Ok ∧ ∀ i, i < 8 → Holds emptyMem m' i (lastSaved i twoFrames none) :=
  C54_history_partial emptyMem emptyMem_ok twoFrames (by
    intro f c h
    rcases h with _ | ⟨_, _ | ⟨_, _ | ⟨_, _ | ⟨_, h⟩⟩⟩⟩
    · exact ⟨smallFrame_ok, by decide, by decide, by decide, by decide⟩
    · exact ⟨⟨smallFrame_ok.hints, smallFrame_ok.refFrames, smallFrame_ok.mvs0, smallFrame_ok.mvs1, smallFrame_ok.gm, smallFrame_ok.segIds,
        smallFrame_ok.lr, by decide, by decide⟩, by decide, by decide, by decide, by decide⟩
    · cases h)

example : (lastSaved 2 twoFrames none).map (·.2) = some 4 ∧ (lastSaved 1 twoFrames none).map (·.2) = some 6 ∧
    (lastSaved 3 twoFrames none).map (·.2) = none := by decide

end Gov1
