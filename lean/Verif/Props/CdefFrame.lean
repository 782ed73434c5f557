import Verif.Props.Cdef
/-! # C107, C108: CDEF on blocks and frames -/
set_option linter.unusedSimpArgs false
namespace Gov1
open Spec

/-- A picture of three planes of `H` rows of `W` entries (the arrays of the code are 16 by 16). -/
def Pic (H W : Nat) (P : List (List (List Int))) : Prop := P.length = 3 ∧ ∀ F ∈ P, Shape H W F

/-- A pixel of a picture. -/
def at3 (P : List (List (List Int))) (pl y x : Nat) : Option Int := P[pl]?.bind (fun F => at2 F y x)

theorem Pic.plane {H W : Nat} {P : List (List (List Int))} (h : Pic H W P) {pl : Nat} (hp : pl < 3) :
    ∃ F, goGet P (pl : Int) = .ok F ∧ Shape H W F ∧ P[pl]? = some F ∧ ∀ y x, at3 P pl y x = at2 F y x := by
  have hl : pl < P.length := by rw [h.1]; exact hp
  refine ⟨P[pl], goGet_lt' hl, h.2 _ (List.getElem_mem _), List.getElem?_eq_getElem hl, fun y x => ?_⟩
  rw [at3, List.getElem?_eq_getElem hl]; rfl

theorem cdefOnPlane_ok {c : CdefCtx} {H W : Nat} {out : List (List (List Int))} (hc : Pic H W c.cur) (ho : Pic H W out) {pl : Nat}
    (hp : pl < 3) (f : List (List Int) → List (List Int) → Res (List (List Int))) (val : Nat → Nat → Option Int)
    (hf : ∀ F G, Shape H W F → Shape H W G → c.cur[pl]? = some F → (∀ y x, at3 c.cur pl y x = at2 F y x) → (∀ y x, at3 out pl y x = at2 G y x) →
      ∃ G', f F G = .ok G' ∧ Shape H W G' ∧ ∀ y x, at2 G' y x = val y x) :
    ∃ out', cdefOnPlane c pl f out = .ok out' ∧ Pic H W out' ∧
      ∀ q y x, at3 out' q y x = if q = pl then val y x else at3 out q y x := by
  obtain ⟨F, e1, hF, oF, aF⟩ := hc.plane hp
  obtain ⟨G, e2, hG, -, aG⟩ := ho.plane hp
  obtain ⟨G', e3, hG', aG'⟩ := hf F G hF hG oF aF aG
  have hl : pl < out.length := by rw [ho.1]; exact hp
  refine ⟨out.set pl G', ?_, ⟨by simpa using ho.1, ?_⟩, ?_⟩
  · rw [cdefOnPlane, e1, Res.ok_bind, e2, Res.ok_bind, e3, Res.ok_bind, goSet_lt' _ hl]
  · intro m hm
    rcases List.mem_or_eq_of_mem_set hm with h | h
    · exact ho.2 _ h
    · rw [h]; exact hG'
  · intro q y x
    unfold at3
    by_cases hq : q = pl
    · subst hq
      rw [if_pos rfl, List.getElem?_set_self hl]; exact aG' y x
    · rw [if_neg hq, List.getElem?_set_ne (fun h => hq h.symm)]

/-- Subsampling of a plane. -/
def psx (c : CdefCtx) (pl : Nat) : Nat := if pl = 0 then 0 else c.subX
/-- Subsampling of a plane. -/
def psy (c : CdefCtx) (pl : Nat) : Nat := if pl = 0 then 0 else c.subY

theorem cdefCopy_ok {H W : Nat} {F G : List (List Int)} (hF : Shape H W F) (hG : Shape H W G) {y0 x0 h w : Nat}
    (hy : y0 + h ≤ H) (hx : x0 + w ≤ W) :
    ∃ G', cdefCopy F y0 x0 h w G = .ok G' ∧ Shape H W G' ∧
      ∀ y x, at2 G' y x = if y0 ≤ y ∧ y < y0 + h ∧ x0 ≤ x ∧ x < x0 + w then at2 F y x else at2 G y x := by
  obtain ⟨G', e, hs, hv⟩ := fillRect hG hy hx (fun i j => gget F ((y0 + i : Nat) : Int) ((x0 + j : Nat) : Int))
    (fun y x => (at2 F y x).getD 0) (by
      intro i j hi hj
      obtain ⟨v, hv⟩ := hF.at2 (i := y0 + i) (j := x0 + j) (by omega) (by omega)
      rw [gget_at2 hv, hv]; rfl)
  refine ⟨G', e, hs, fun y x => ?_⟩
  rw [hv]
  by_cases h : y0 ≤ y ∧ y < y0 + h ∧ x0 ≤ x ∧ x < x0 + w
  · rw [if_pos h, if_pos h]
    obtain ⟨v, hv⟩ := hF.at2 (i := y) (j := x) (by omega) (by omega)
    rw [hv]; rfl
  · rw [if_neg h, if_neg h]

theorem shr_ends {n s R : Nat} (hs : s ≤ 1) (hn : n % 2 = 0) (h : 4 * n + 8 ≤ R) :
    (n * 4) >>> s + ((n * 4 + 8) >>> s - (n * 4) >>> s) ≤ R ∧ (n * 4 + 8) >>> s - (n * 4) >>> s = 8 >>> s := by
  rw [Nat.shiftRight_eq_div_pow, Nat.shiftRight_eq_div_pow, Nat.shiftRight_eq_div_pow]
  rcases (show s = 0 ∨ s = 1 by omega) with rfl | rfl
  · simp only [pow_zero]; omega
  · simp only [pow_one]; omega

/-- The planes the frame has. -/
def HasPlane (c : CdefCtx) (pl : Nat) : Prop := pl = 0 ∨ pl < 3 ∧ 1 < c.numPlanes

instance (c : CdefCtx) (pl : Nat) : Decidable (HasPlane c pl) := by unfold HasPlane; infer_instance

/-- Well-formed content: the values the headers allow, and arrays of `H` by `W`. -/
structure CdefCtxOk (c : CdefCtx) (H W : Nat) : Prop where
  cur : Pic H W c.cur
  subX : c.subX ≤ 1
  subY : c.subY ≤ 1
  planes : c.numPlanes = 1 ∨ c.numPlanes = 3
  depth : 8 ≤ c.bitDepth
  yPri : ∀ v ∈ c.yPri, 0 ≤ v ∧ v ≤ 15
  ySec : ∀ v ∈ c.ySec, 0 ≤ v ∧ v ≤ 4
  uvPri : ∀ v ∈ c.uvPri, 0 ≤ v ∧ v ≤ 15
  uvSec : ∀ v ∈ c.uvSec, 0 ≤ v ∧ v ≤ 4

theorem cdefCopyBlock_ok {c : CdefCtx} {H W : Nat} (hc : CdefCtxOk c H W) {out : List (List (List Int))} (ho : Pic H W out) {r col : Nat}
    (hr : r % 2 = 0) (hcol : col % 2 = 0) (hy : 4 * r + 8 ≤ H) (hx : 4 * col + 8 ≤ W) :
    ∃ out', cdefCopyBlock c r col out = .ok out' ∧ Pic H W out' ∧
      ∀ pl y x, at3 out' pl y x = if HasPlane c pl ∧ InBlock r col (psx c pl) (psy c pl) y x then at3 c.cur pl y x else at3 out pl y x := by
  have rect : ∀ s t y x, s ≤ 1 → t ≤ 1 → ((r * 4) >>> t ≤ y ∧ y < (r * 4) >>> t + ((r * 4 + 8) >>> t - (r * 4) >>> t) ∧
      (col * 4) >>> s ≤ x ∧ x < (col * 4) >>> s + ((col * 4 + 8) >>> s - (col * 4) >>> s) ↔ InBlock r col s t y x) := by
    intro s t y x hs ht
    rw [(shr_ends ht hr hy).2, (shr_ends hs hcol hx).2]
    unfold InBlock
    have h1 := inBlock_iff (y := y) ht hr
    have h2 := inBlock_iff (y := x) hs hcol
    tauto
  have stepP : ∀ (o : List (List (List Int))) (pl s t : Nat), Pic H W o → pl < 3 → s ≤ 1 → t ≤ 1 →
      ∃ o', cdefOnPlane c pl (fun F G => cdefCopy F ((r * 4) >>> t) ((col * 4) >>> s) ((r * 4 + 8) >>> t - (r * 4) >>> t)
        ((col * 4 + 8) >>> s - (col * 4) >>> s) G) o = .ok o' ∧ Pic H W o' ∧
        ∀ q y x, at3 o' q y x = if q = pl then (if InBlock r col s t y x then at3 c.cur pl y x else at3 o pl y x) else at3 o q y x := by
    intro o pl s t ho hp hs ht
    refine cdefOnPlane_ok hc.cur ho hp _ _ ?_
    intro F G hF hG oF aF aG
    obtain ⟨G', e, hG', hv⟩ := cdefCopy_ok hF hG (shr_ends ht hr hy).1 (shr_ends hs hcol hx).1
    refine ⟨G', e, hG', fun y x => ?_⟩
    rw [hv, aF, aG]
    simp only [rect s t y x hs ht]
  obtain ⟨o1, e1, h1, v1⟩ := stepP out 0 0 0 ho (by omega) (by omega) (by omega)
  unfold cdefCopyBlock
  have e1' : cdefOnPlane c 0 (fun F G => cdefCopy F (r * 4) (col * 4) 8 8 G) out = .ok o1 := by
    rw [← e1]; simp only [Nat.shiftRight_zero, Nat.add_sub_cancel_left]
  rw [e1', Res.ok_bind]
  have sx0 : psx c 0 = 0 := rfl
  have sy0 : psy c 0 = 0 := rfl
  by_cases hn : c.numPlanes > 1
  · rw [if_pos hn]
    obtain ⟨o2, e2, h2, v2⟩ := stepP o1 1 c.subX c.subY h1 (by omega) hc.subX hc.subY
    obtain ⟨o3, e3, h3, v3⟩ := stepP o2 2 c.subX c.subY h2 (by omega) hc.subX hc.subY
    refine ⟨o3, ?_, h3, ?_⟩
    · simp only []
      exact (Res.bind_ok_eq e2).trans e3
    · intro pl y x
      rw [v3]
      by_cases q2 : pl = 2
      · subst q2
        rw [if_pos rfl, v2, if_neg (show ¬ (2 = 1) by omega), v1, if_neg (show ¬ (2 = 0) by omega)]
        have hh : HasPlane c 2 := Or.inr ⟨by omega, hn⟩
        simp only [hh, true_and]; simp only [psx, psy]; rfl
      · rw [if_neg q2, v2]
        by_cases q1 : pl = 1
        · subst q1
          rw [if_pos rfl, v1, if_neg (show ¬ (1 = 0) by omega)]
          have hh : HasPlane c 1 := Or.inr ⟨by omega, hn⟩
          simp only [hh, true_and]; simp only [psx, psy]; rfl
        · rw [if_neg q1, v1]
          by_cases q0 : pl = 0
          · subst q0
            rw [if_pos rfl]
            have hh : HasPlane c 0 := Or.inl rfl
            simp only [hh, true_and]; simp only [psx, psy]; rfl
          · rw [if_neg q0, if_neg]
            rintro ⟨hh | hh, -⟩ <;> omega
  · rw [if_neg hn]
    refine ⟨o1, rfl, h1, ?_⟩
    intro pl y x
    rw [v1]
    by_cases q0 : pl = 0
    · subst q0
      rw [if_pos rfl]
      have hh : HasPlane c 0 := Or.inl rfl
      simp only [hh, true_and]; rfl
    · rw [if_neg q0, if_neg]
      rintro ⟨hh | hh, -⟩
      · exact q0 hh
      · exact hn hh.2

theorem cdefSkip_ok {c : CdefCtx} {r col s1 s2 s3 s4 : Nat} (h1 : at2 c.skips r col = some s1) (h2 : at2 c.skips (r + 1) col = some s2)
    (h3 : at2 c.skips r (col + 1) = some s3) (h4 : at2 c.skips (r + 1) (col + 1) = some s4) :
    cdefSkip c.skips r col = .ok (decide (s1 ≠ 0 ∧ s2 ≠ 0 ∧ s3 ≠ 0 ∧ s4 ≠ 0)) := by
  unfold cdefSkip
  rw [gget_at2 h1, Res.ok_bind, gget_at2 h2, gget_at2 h3, gget_at2 h4]
  by_cases a : s1 = 0
  · rw [if_pos a]; simp [a]; rfl
  · rw [if_neg a, Res.ok_bind]
    by_cases b : s2 = 0
    · rw [if_pos b]; simp [b]; rfl
    · rw [if_neg b, Res.ok_bind]
      by_cases d : s3 = 0
      · rw [if_pos d]; simp [d]; rfl
      · rw [if_neg d, Res.ok_bind]
        by_cases e : s4 = 0
        · simp [e]; rfl
        · have : (s4 != 0) = true := by simpa using e
          rw [this]; simp [a, b, d, e]; rfl

/-- **C107, copied blocks.**  In every frame, a block whose index is -1 or whose four 4x4 units are all skipped is copied
unchanged, in all planes, and nothing else changes. -/
theorem C107_copied (c : CdefCtx) (H W : Nat) (hc : CdefCtxOk c H W) (out : List (List (List Int))) (ho : Pic H W out) (r col : Nat)
    (hr : r % 2 = 0) (hcol : col % 2 = 0) (hy : 4 * r + 8 ≤ H) (hx : 4 * col + 8 ≤ W) (idx : Int)
    (hskip : idx = -1 ∨ ∃ s1 s2 s3 s4, at2 c.skips r col = some s1 ∧ at2 c.skips (r + 1) col = some s2 ∧
      at2 c.skips r (col + 1) = some s3 ∧ at2 c.skips (r + 1) (col + 1) = some s4 ∧ s1 ≠ 0 ∧ s2 ≠ 0 ∧ s3 ≠ 0 ∧ s4 ≠ 0) :
    ∃ out', cdefBlock c r col idx out = .ok out' ∧ Pic H W out' ∧
      ∀ pl y x, at3 out' pl y x = if HasPlane c pl ∧ InBlock r col (psx c pl) (psy c pl) y x then at3 c.cur pl y x else at3 out pl y x := by
  obtain ⟨out', e, h, hv⟩ := cdefCopyBlock_ok hc ho hr hcol hy hx
  refine ⟨out', ?_, h, hv⟩
  rw [cdefBlock, e, Res.ok_bind]
  rcases hskip with rfl | ⟨s1, s2, s3, s4, h1, h2, h3, h4, h5⟩
  · rfl
  · by_cases hi : idx = -1
    · rw [if_pos hi]; rfl
    · rw [if_neg hi, cdefSkip_ok h1 h2 h3 h4, Res.ok_bind, if_pos (by simpa using h5)]; rfl

/-! ## Filtered blocks -/

theorem goGet_of' {α : Type} {l : List α} {i : Nat} {a : α} (h : l[i]? = some a) : goGet l (i : Int) = .ok a := by
  rw [goGet, if_neg (by omega)]; simp [h]

theorem cdefVarStr_ok (var : Int) (h : 0 ≤ var) :
    cdefVarStr var = .ok (if var < 64 then 0 else min 12 (log2 (var / 64))) := by
  unfold cdefVarStr
  rw [Int.shiftRight_eq_div_pow]
  show (if var / 64 ≠ 0 then _ else _) = _
  by_cases h64 : var < 64
  · rw [if_neg (by omega), if_pos h64]; rfl
  · rw [if_pos (by omega), if_neg h64, floorLog2Int]
    show (if var / 64 < 0 then _ else _) >>= _ = _
    rw [if_neg (by omega), floorLog2_eq _ (by omega), Res.ok_bind]
    refine congrArg Except.ok ?_
    show minI ((Nat.log2 (var / 64).toNat : Nat) : Int) 12 = min 12 (log2 (var / 64))
    unfold minI log2; split <;> omega

theorem lumaStrength_bounds (pri var : Int) (h : 0 ≤ pri) : 0 ≤ cdefLumaStrength pri var ∧ cdefLumaStrength pri var ≤ pri := by
  unfold cdefLumaStrength
  by_cases hv : var = 0
  · rw [if_pos hv]; omega
  · rw [if_neg hv]
    have hl : 0 ≤ log2 (var / 64) := by unfold log2; omega
    have hm : ∀ m : Int, 0 ≤ m → m ≤ 12 → 0 ≤ (pri * (4 + m) + 8) / 16 ∧ (pri * (4 + m) + 8) / 16 ≤ pri := by
      intro m h0 h1
      have a : 0 ≤ pri * (4 + m) := mul_nonneg h (by omega)
      have b : pri * (4 + m) ≤ pri * 16 := mul_le_mul_of_nonneg_left (by omega) h
      omega
    split
    · exact hm 0 (by omega) (by omega)
    · exact hm _ (by omega) (by omega)

theorem uvDir_ok : ∀ sx : Nat, sx ≤ 1 → ∀ sy : Nat, sy ≤ 1 → ∀ d : Nat, d < 8 → (do let m ← goGet Gov1.cdefUvDir (sx : Int); gget m (sy : Int) (d : Int) : Res Nat)
    = .ok (Spec.cdefUvDir sx sy d) := by decide +kernel

theorem uvDir_lt : ∀ sx ≤ 1, ∀ sy ≤ 1, ∀ d < 8, Spec.cdefUvDir sx sy d < 8 := by decide +kernel

/-- What the code calls the filter with: as AV1, except for the damping of chroma without primary strength. -/
def codeCall (c : CdefCtx) (pl : Nat) (yp ys up us : Int) (d : Nat) (var : Int) : CdefCall :=
  let k := cdefCall c.bitDepth pl c.subX c.subY yp ys up us c.damping d var
  if pl ≠ 0 ∧ up = 0 then { k with damping := k.damping + 1 } else k

theorem shl_mul (p : Int) (n : Nat) : p <<< n = p * 2 ^ n := Int.shiftLeft_eq p n

theorem str_lt {b : Nat} (hb : 8 ≤ b) {p : Int} (h : p ≤ 15) : p * 2 ^ (b - 8) < 2 ^ b := by
  obtain ⟨k, rfl⟩ : ∃ k, b = 8 + k := ⟨b - 8, by omega⟩
  rw [Nat.add_sub_cancel_left, pow_add]
  have hk : (0 : Int) < 2 ^ k := by positivity
  nlinarith

/-- **C107, filtered blocks, as the code does it.** -/
theorem cdefBlock_filtered (c : CdefCtx) (H W : Nat) (hc : CdefCtxOk c H W) (hcov : 4 * c.miRows ≤ H ∧ 4 * c.miCols ≤ W)
    (out : List (List (List Int))) (ho : Pic H W out) (r col : Nat)
    (hr : r % 2 = 0) (hcol : col % 2 = 0) (hy : 4 * r + 8 ≤ H) (hx : 4 * col + 8 ≤ W) (idx : Nat) (yp ys up us : Int)
    (i1 : c.yPri[idx]? = some yp) (i2 : c.ySec[idx]? = some ys) (i3 : c.uvPri[idx]? = some up) (i4 : c.uvSec[idx]? = some us)
    (s1 s2 s3 s4 : Nat) (h1 : at2 c.skips r col = some s1) (h2 : at2 c.skips (r + 1) col = some s2)
    (h3 : at2 c.skips r (col + 1) = some s3) (h4 : at2 c.skips (r + 1) (col + 1) = some s4) (hs : s1 = 0 ∨ s2 = 0 ∨ s3 = 0 ∨ s4 = 0)
    (g : Nat → Nat → Int) (hg : ∀ i j, i < 8 → j < 8 → at3 c.cur 0 (r * 4 + i) (col * 4 + j) = some (g i j)) :
    ∃ out' d, cdefBlock c r col idx out = .ok out' ∧ Pic H W out' ∧ CdefDirIs (cdefPx c.bitDepth g) d ∧
      ∀ pl y x, at3 out' pl y x = if HasPlane c pl ∧ InBlock r col (psx c pl) (psy c pl) y x
        then (at3 c.cur pl y x).map (fun v =>
          let k := codeCall c pl yp ys up us d
            ((cdefCost (cdefPx c.bitDepth g) d - cdefCost (cdefPx c.bitDepth g) ((d + 4) % 8)) / 1024)
          Spec.cdefPixel (4, 2) k.pri k.sec k.damping k.dir v
            (neighbour c ((c.cur[pl]?).getD []) y x (psx c pl) (psy c pl)))
        else at3 out pl y x := by
  obtain ⟨o1, e1, p1, v1⟩ := cdefCopyBlock_ok hc ho hr hcol hy hx
  obtain ⟨F0, eF, hF, oF, aF⟩ := hc.cur.plane (pl := 0) (by omega)
  obtain ⟨d, var, ed, hd, hvar, hvar0⟩ := C105_direction c.bitDepth (F := F0) r col g (fun i j hi hj => by rw [← aF]; exact hg i j hi hj)
  have hd8 := hd.1
  have hyp := hc.yPri yp (List.mem_of_getElem? i1)
  have hys := hc.ySec ys (List.mem_of_getElem? i2)
  have hup := hc.uvPri up (List.mem_of_getElem? i3)
  have hus := hc.uvSec us (List.mem_of_getElem? i4)
  have hpw : (0 : Int) < 2 ^ (c.bitDepth - 8) := by positivity
  -- one plane
  have plane : ∀ (o : List (List (List Int))) (pl : Nat), Pic H W o → pl < 3 → ∀ pri sec damping : Int, ∀ dir : Nat, dir < 8 → 0 ≤ pri → 0 ≤ sec →
      pri < 2 ^ c.bitDepth → ∃ o', cdefOnPlane c pl (cdefFilter c pl r col pri sec damping (dir : Int)) o = .ok o' ∧ Pic H W o' ∧
        ∀ q y x, at3 o' q y x = if q = pl then (if InBlock r col (psx c pl) (psy c pl) y x then (at3 c.cur pl y x).map (fun v =>
          Spec.cdefPixel (4, 2) pri sec damping dir v (neighbour c ((c.cur[pl]?).getD []) y x (psx c pl) (psy c pl)))
          else at3 o pl y x) else at3 o q y x := by
    intro o pl hpo hpl pri sec damping dir hdir hp hs hb
    refine cdefOnPlane_ok hc.cur hpo hpl _ _ ?_
    intro F G hF hG oF aF aG
    have hsx : psx c pl ≤ 1 := by unfold psx; split; · omega
                                  · exact hc.subX
    have hsy : psy c pl ≤ 1 := by unfold psy; split; · omega
                                  · exact hc.subY
    have le2 : ∀ n s : Nat, n ≤ n * 2 ^ s := fun n s => Nat.le_mul_of_pos_right _ (by positivity)
    obtain ⟨G', e, hG', hv⟩ := cdefFilter_ok c pl r col H W F G hF hG (psx c pl) (psy c pl)
      (by unfold psx; by_cases h : pl = 0 <;> simp [h, Nat.pos_of_ne_zero])
      (by unfold psy; by_cases h : pl = 0 <;> simp [h, Nat.pos_of_ne_zero]) hsx hsy hr hcol
      ⟨hcov.1.trans (le2 _ _), hcov.2.trans (le2 _ _)⟩ (hy.trans (le2 _ _)) (hx.trans (le2 _ _)) pri sec damping dir hdir hp hs hb
    refine ⟨G', e, hG', fun y x => ?_⟩
    rw [hv, aF, aG]
    have hFeq : (c.cur[pl]?).getD [] = F := by rw [oF]; rfl
    rw [hFeq]
  -- luma
  have hk0 : ∀ q : Nat, codeCall c 0 yp ys up us d var = { pri := cdefLumaStrength (yp * 2 ^ (c.bitDepth - 8)) var, sec := ys * 2 ^ (c.bitDepth - 8), damping := c.damping + (c.bitDepth - 8 : Nat), dir := if yp = 0 then 0 else d } := by
    intro _; simp [codeCall, cdefCall]
  have hlb := lumaStrength_bounds (yp * 2 ^ (c.bitDepth - 8)) var (mul_nonneg hyp.1 hpw.le)
  have hlt := str_lt hc.depth hyp.2
  have hdir0 : (if yp = 0 then 0 else d) < 8 := by split <;> omega
  obtain ⟨o2, e2, p2, v2⟩ := plane o1 0 p1 (by omega) (cdefLumaStrength (yp * 2 ^ (c.bitDepth - 8)) var) (ys * 2 ^ (c.bitDepth - 8))
    (c.damping + (c.bitDepth - 8 : Nat)) (if yp = 0 then 0 else d) hdir0 hlb.1 (mul_nonneg hys.1 hpw.le) (by omega)
  have eL : cdefLuma c r col idx d var o1 = .ok o2 := by
    rw [cdefLuma, goGet_of' i1, Res.ok_bind, goGet_of' i2, Res.ok_bind]
    simp only []
    rw [cdefVarStr_ok var hvar0, Res.ok_bind, shl_mul, shl_mul]
    have hz : (yp * 2 ^ (c.bitDepth - 8) = 0) ↔ yp = 0 := by
      rw [mul_eq_zero]; constructor
      · rintro (h | h)
        · exact h
        · omega
      · exact Or.inl
    have hp' : (if var ≠ 0 then (yp * 2 ^ (c.bitDepth - 8) * (4 + if var < 64 then 0 else min 12 (log2 (var / 64))) + 8) >>> (4 : Nat) else 0)
        = cdefLumaStrength (yp * 2 ^ (c.bitDepth - 8)) var := by
      unfold cdefLumaStrength
      by_cases h : var = 0
      · rw [if_pos h, if_neg (by omega)]
      · rw [if_neg h, if_pos h, Int.shiftRight_eq_div_pow]; rfl
    rw [hp']
    simp only [hz]
    exact e2
  have hgoal : ∃ out', cdefChroma c r col idx d o2 = .ok out' ∧ Pic H W out' ∧
      ∀ pl y x, at3 out' pl y x = if HasPlane c pl ∧ InBlock r col (psx c pl) (psy c pl) y x
        then (at3 c.cur pl y x).map (fun v =>
          let k := codeCall c pl yp ys up us d var
          Spec.cdefPixel (4, 2) k.pri k.sec k.damping k.dir v
            (neighbour c ((c.cur[pl]?).getD []) y x (psx c pl) (psy c pl)))
        else at3 out pl y x := by
    have hP0 : HasPlane c 0 := Or.inl rfl
    unfold cdefChroma
    rcases hc.planes with hn | hn
    · rw [if_pos hn]
      refine ⟨o2, rfl, p2, ?_⟩
      intro pl y x
      rw [v2]
      by_cases q0 : pl = 0
      · subst q0
        rw [if_pos rfl, v1, hk0 0]
        simp only [hP0, true_and]
        by_cases hin : InBlock r col (psx c 0) (psy c 0) y x
        · rw [if_pos hin, if_pos hin]
        · rw [if_neg hin, if_neg hin, if_neg hin]
      · rw [if_neg q0, v1]
        have : ¬ HasPlane c pl := by rintro (h | h); · exact q0 h
                                     · omega
        simp only [this, false_and, if_false]
    · rw [if_neg (by omega), goGet_of' i3, Res.ok_bind, goGet_of' i4, Res.ok_bind]
      simp only []
      have hupz : (up * 2 ^ (c.bitDepth - 8) = 0) ↔ up = 0 := by
        rw [mul_eq_zero]; constructor
        · rintro (h | h)
          · exact h
          · omega
        · exact Or.inl
      have hk : ∀ pl, pl ≠ 0 → codeCall c pl yp ys up us d var = { pri := up * 2 ^ (c.bitDepth - 8), sec := us * 2 ^ (c.bitDepth - 8), damping := if up = 0 then c.damping + (c.bitDepth - 8 : Nat) else c.damping + (c.bitDepth - 8 : Nat) - 1, dir := if up = 0 then 0 else Spec.cdefUvDir c.subX c.subY d } := by
        intro pl hpl
        unfold codeCall cdefCall
        rw [if_neg hpl]
        by_cases h : up = 0
        · rw [if_pos ⟨hpl, h⟩, if_pos h, if_pos h]
          simp
        · rw [if_neg (fun hh => h hh.2), if_neg h, if_neg h]
      have hcd : cdefChromaDir c (up <<< (c.bitDepth - 8)) d = .ok (if up = 0 then 0 else Spec.cdefUvDir c.subX c.subY d,
          if up = 0 then c.damping + (c.bitDepth - 8 : Nat) else c.damping + (c.bitDepth - 8 : Nat) - 1) := by
        unfold cdefChromaDir
        rw [shl_mul]
        by_cases h : up = 0
        · rw [if_pos (hupz.mpr h), if_pos h, if_pos h]; rfl
        · rw [if_neg (fun hh => h (hupz.mp hh)), if_neg h, if_neg h]
          have := uvDir_ok c.subX hc.subX c.subY hc.subY d hd8
          obtain ⟨m, hm, h'⟩ := Res.inv this
          rw [hm, Res.ok_bind, h', Res.ok_bind]; rfl
      rw [hcd, Res.ok_bind, shl_mul, shl_mul]
      have hdirc : (if up = 0 then 0 else Spec.cdefUvDir c.subX c.subY d) < 8 := by
        split
        · omega
        · exact uvDir_lt _ hc.subX _ hc.subY _ hd8
      obtain ⟨o3, e3, p3, v3⟩ := plane o2 1 p2 (by omega) (up * 2 ^ (c.bitDepth - 8)) (us * 2 ^ (c.bitDepth - 8))
        (if up = 0 then c.damping + (c.bitDepth - 8 : Nat) else c.damping + (c.bitDepth - 8 : Nat) - 1)
        (if up = 0 then 0 else Spec.cdefUvDir c.subX c.subY d) hdirc (mul_nonneg hup.1 hpw.le) (mul_nonneg hus.1 hpw.le)
        (str_lt hc.depth hup.2)
      obtain ⟨o4, e4, p4, v4⟩ := plane o3 2 p3 (by omega) (up * 2 ^ (c.bitDepth - 8)) (us * 2 ^ (c.bitDepth - 8))
        (if up = 0 then c.damping + (c.bitDepth - 8 : Nat) else c.damping + (c.bitDepth - 8 : Nat) - 1)
        (if up = 0 then 0 else Spec.cdefUvDir c.subX c.subY d) hdirc (mul_nonneg hup.1 hpw.le) (mul_nonneg hus.1 hpw.le)
        (str_lt hc.depth hup.2)
      refine ⟨o4, (Res.bind_ok_eq e3).trans e4, p4, ?_⟩
      intro pl y x
      have hP1 : HasPlane c 1 := Or.inr ⟨by omega, by omega⟩
      have hP2 : HasPlane c 2 := Or.inr ⟨by omega, by omega⟩
      rw [v4]
      by_cases q2 : pl = 2
      · subst q2
        rw [if_pos rfl, v3, if_neg (show ¬ (2 = 1) by omega), v2, if_neg (show ¬ (2 = 0) by omega), v1, hk 2 (by omega)]
        simp only [hP2, true_and]
        by_cases hin : InBlock r col (psx c 2) (psy c 2) y x
        · rw [if_pos hin, if_pos hin]
        · rw [if_neg hin, if_neg hin, if_neg hin]
      · rw [if_neg q2, v3]
        by_cases q1 : pl = 1
        · subst q1
          rw [if_pos rfl, v2, if_neg (show ¬ (1 = 0) by omega), v1, hk 1 (by omega)]
          simp only [hP1, true_and]
          by_cases hin : InBlock r col (psx c 1) (psy c 1) y x
          · rw [if_pos hin, if_pos hin]
          · rw [if_neg hin, if_neg hin, if_neg hin]
        · rw [if_neg q1, v2]
          by_cases q0 : pl = 0
          · subst q0
            rw [if_pos rfl, v1, hk0 0]
            simp only [hP0, true_and]
            by_cases hin : InBlock r col (psx c 0) (psy c 0) y x
            · rw [if_pos hin, if_pos hin]
            · rw [if_neg hin, if_neg hin, if_neg hin]
          · rw [if_neg q0, v1]
            have : ¬ HasPlane c pl := by rintro (h | h) <;> omega
            simp only [this, false_and, if_false]
  obtain ⟨out', e3, p3, v3⟩ := hgoal
  refine ⟨out', d, ?_, p3, hd, ?_⟩
  · rw [cdefBlock, e1, Res.ok_bind, if_neg (by omega), cdefSkip_ok h1 h2 h3 h4, Res.ok_bind, if_neg (by simp; omega)]
    rw [show goGet c.cur 0 = .ok F0 from eF, Res.ok_bind, ed, Res.ok_bind, eL, Res.ok_bind]
    exact e3
  · rw [← hvar]; exact v3

/-- The luma pixels of the 8x8 block at `(r, col)`. -/
def lumaBlock (c : CdefCtx) (r col : Nat) (i j : Nat) : Int := (at3 c.cur 0 (r * 4 + i) (col * 4 + j)).getD 0

/-- The variance of a block of direction `d`. -/
def blockVar (px : Nat → Nat → Int) (d : Nat) : Int := (cdefCost px d - cdefCost px ((d + 4) % 8)) / 1024

/-- The value of a pixel of a block filtered as AV1 prescribes. -/
def av1Filtered (c : CdefCtx) (yp ys up us : Int) (d r col pl y x : Nat) : Option Int :=
  (at3 c.cur pl y x).map (fun v =>
    let k := cdefCall c.bitDepth pl c.subX c.subY yp ys up us c.damping d (blockVar (cdefPx c.bitDepth (lumaBlock c r col)) d)
    Spec.cdefPixel (cdefWeights c.bitDepth k.pri) k.pri k.sec k.damping k.dir v
      (neighbour c ((c.cur[pl]?).getD []) y x (psx c pl) (psy c pl)))

/-- The pixels for which the code agrees with AV1: the call for the plane has weights 4 and 2, and chroma has a primary
strength. -/
def Agrees (c : CdefCtx) (yp ys up us : Int) (d r col pl : Nat) : Prop :=
  (pl = 0 ∨ up ≠ 0) ∧ cdefWeights c.bitDepth (cdefCall c.bitDepth pl c.subX c.subY yp ys up us c.damping d
    (blockVar (cdefPx c.bitDepth (lumaBlock c r col)) d)).pri = (4, 2)

/-- **C107, filtered blocks** (partial: planes with weights 4 and 2 and, for chroma, a primary strength).  In every frame
whose arrays cover it, every block with an index and a unit that is not skipped gets the values of AV1, and nothing
else changes. -/
theorem C107_filtered_partial (c : CdefCtx) (H W : Nat) (hc : CdefCtxOk c H W) (hcov : 4 * c.miRows ≤ H ∧ 4 * c.miCols ≤ W)
    (out : List (List (List Int))) (ho : Pic H W out) (r col : Nat)
    (hr : r % 2 = 0) (hcol : col % 2 = 0) (hy : 4 * r + 8 ≤ H) (hx : 4 * col + 8 ≤ W) (idx : Nat) (yp ys up us : Int)
    (i1 : c.yPri[idx]? = some yp) (i2 : c.ySec[idx]? = some ys) (i3 : c.uvPri[idx]? = some up) (i4 : c.uvSec[idx]? = some us)
    (s1 s2 s3 s4 : Nat) (h1 : at2 c.skips r col = some s1) (h2 : at2 c.skips (r + 1) col = some s2)
    (h3 : at2 c.skips r (col + 1) = some s3) (h4 : at2 c.skips (r + 1) (col + 1) = some s4) (hs : s1 = 0 ∨ s2 = 0 ∨ s3 = 0 ∨ s4 = 0) :
    ∃ out' d, cdefBlock c r col idx out = .ok out' ∧ Pic H W out' ∧ CdefDirIs (cdefPx c.bitDepth (lumaBlock c r col)) d ∧
      ∀ pl y x, (HasPlane c pl ∧ InBlock r col (psx c pl) (psy c pl) y x → Agrees c yp ys up us d r col pl →
          at3 out' pl y x = av1Filtered c yp ys up us d r col pl y x) ∧
        (¬ (HasPlane c pl ∧ InBlock r col (psx c pl) (psy c pl) y x) → at3 out' pl y x = at3 out pl y x) := by
  obtain ⟨F0, -, hF, oF, aF⟩ := hc.cur.plane (pl := 0) (by omega)
  obtain ⟨out', d, e, hp, hd, hv⟩ := cdefBlock_filtered c H W hc hcov out ho r col hr hcol hy hx idx yp ys up us i1 i2 i3 i4 s1 s2 s3 s4
    h1 h2 h3 h4 hs (lumaBlock c r col) (fun i j hi hj => by
      obtain ⟨v, hv⟩ := hF.at2 (i := r * 4 + i) (j := col * 4 + j) (by omega) (by omega)
      rw [lumaBlock, aF, hv]; rfl)
  refine ⟨out', d, e, hp, hd, fun pl y x => ⟨fun hin hag => ?_, fun hn => by rw [hv, if_neg hn]⟩⟩
  rw [hv, if_pos hin]
  have hk : ∀ var, codeCall c pl yp ys up us d var = cdefCall c.bitDepth pl c.subX c.subY yp ys up us c.damping d var := by
    intro var
    unfold codeCall
    rw [if_neg]
    rintro ⟨hne, hz⟩
    rcases hag.1 with h | h
    · exact hne h
    · exact h hz
  unfold av1Filtered
  simp only [hk, hag.2]
  rfl

/-- The near pixels along the directions 6 and 2, which are those at 45 degrees to direction 0. -/
def nearSec : List (Int × Int) := [(-1, 0), (0, -1), (1, 0), (0, 1)]

theorem pixel_sec (x δ sec damping : Int) (px : Int × Int → Option Int)
    (hpx : ∀ t ∈ cdefTaps (4, 2) 0, px t.off = some (if t.off ∈ nearSec then x + δ else x)) :
    Spec.cdefPixel (4, 2) 0 sec damping 0 x px =
      max (min x (x + δ)) (min (max x (x + δ)) (x + (8 * cdefConstrain δ sec damping).sign * ((((8 * cdefConstrain δ sec damping).natAbs : Nat) + 8 : Int) / 16))) := by
  rw [cdefPixel_congr (4, 2) 0 sec damping 0 x px (fun o => some (if o ∈ nearSec then x + δ else x)) hpx]
  have hz : ∀ v, cdefConstrain v 0 damping = 0 := fun v => rfl
  have h0 : ∀ s, cdefConstrain 0 s damping = 0 := by
    intro s; unfold cdefConstrain; split <;> simp
  have h0' : cdefConstrain (x - x) = cdefConstrain 0 := by rw [sub_self]
  have h1' : cdefConstrain (x + δ - x) = cdefConstrain δ := by rw [add_sub_cancel_left]
  have e8 : 2 * cdefConstrain δ sec damping + (2 * cdefConstrain δ sec damping + (2 * cdefConstrain δ sec damping + 2 * cdefConstrain δ sec damping)) = 8 * cdefConstrain δ sec damping := by ring
  unfold Spec.cdefPixel
  simp only [cdefTaps, cdefOffset, nearSec, List.flatMap_cons, List.flatMap_nil, List.filterMap_append, List.filterMap_cons, List.filterMap_nil]
  simp [h0, h0', h1', hz, e8, nearSec]

theorem ilog2_bounds (t : Int) (ht : 0 < t) : 2 ^ (log2 t).toNat ≤ t ∧ t < 2 ^ ((log2 t).toNat + 1) := by
  have h0 : t.toNat ≠ 0 := by omega
  have h1 := Nat.log2_self_le h0
  have h2 := Nat.lt_log2_self (n := t.toNat)
  have e : (log2 t).toNat = Nat.log2 t.toNat := by unfold log2; omega
  rw [e]
  constructor
  · have : ((2 ^ Nat.log2 t.toNat : Nat) : Int) ≤ t.toNat := by exact_mod_cast h1
    push_cast at this; omega
  · have : ((t.toNat : Nat) : Int) < ((2 ^ (Nat.log2 t.toNat + 1) : Nat) : Int) := by exact_mod_cast h2
    push_cast at this; omega

theorem log2_le_of_lt {t : Int} (ht : 0 < t) {n : Nat} (h : t < 2 ^ (n + 1)) : log2 t ≤ n := by
  have hb := (ilog2_bounds t ht).1
  have hl : 0 ≤ log2 t := by unfold log2; omega
  by_contra hc
  have : n + 1 ≤ (log2 t).toNat := by omega
  have := pow_le_pow_right₀ (show (1 : Int) ≤ 2 by omega) this
  omega

/-- **C107 is false of the code** for chroma without primary strength.  In every frame with chroma, for every such block
with a secondary strength for chroma, and every pixel of a chroma plane of the block whose four nearest neighbours are
brighter by `δ` (the difference that AV1's damping suppresses), the others the filter looks at equal to it: the code makes
the pixel brighter, AV1 leaves it. -/
theorem C107_damping_refuted (c : CdefCtx) (H W : Nat) (hc : CdefCtxOk c H W) (hcov : 4 * c.miRows ≤ H ∧ 4 * c.miCols ≤ W)
    (out : List (List (List Int))) (ho : Pic H W out) (r col : Nat)
    (hr : r % 2 = 0) (hcol : col % 2 = 0) (hy : 4 * r + 8 ≤ H) (hx : 4 * col + 8 ≤ W) (idx : Nat) (yp ys us : Int)
    (i1 : c.yPri[idx]? = some yp) (i2 : c.ySec[idx]? = some ys) (i3 : c.uvPri[idx]? = some 0) (i4 : c.uvSec[idx]? = some us)
    (s1 s2 s3 s4 : Nat) (h1 : at2 c.skips r col = some s1) (h2 : at2 c.skips (r + 1) col = some s2)
    (h3 : at2 c.skips r (col + 1) = some s3) (h4 : at2 c.skips (r + 1) (col + 1) = some s4) (hs : s1 = 0 ∨ s2 = 0 ∨ s3 = 0 ∨ s4 = 0)
    (hus : 0 < us) (hdm : 3 ≤ c.damping) (pl y x : Nat) (v δ : Int) (hpl : pl = 1 ∨ pl = 2) (hpn : c.numPlanes = 3)
    (hin : InBlock r col (psx c pl) (psy c pl) y x) (hv : at3 c.cur pl y x = some v)
    (hδ : δ = us * 2 ^ (c.bitDepth - 8) * 2 ^ (c.damping + (c.bitDepth - 8 : Nat) - 1 - log2 (us * 2 ^ (c.bitDepth - 8))).toNat)
    (hn : ∀ t ∈ cdefTaps (4, 2) 0, neighbour c ((c.cur[pl]?).getD []) y x (psx c pl) (psy c pl) t.off = some (if t.off ∈ nearSec then v + δ else v)) :
    ∃ out' w, cdefBlock c r col idx out = .ok out' ∧ at3 out' pl y x = some w ∧ v < w ∧
      ∀ d, av1Filtered c yp ys 0 us d r col pl y x = some v := by
  obtain ⟨F0, -, hF, oF, aF⟩ := hc.cur.plane (pl := 0) (by omega)
  obtain ⟨out', d, e, hp, hd, hval⟩ := cdefBlock_filtered c H W hc hcov out ho r col hr hcol hy hx idx yp ys 0 us i1 i2 i3 i4 s1 s2 s3 s4
    h1 h2 h3 h4 hs (lumaBlock c r col) (fun i j hi hj => by
      obtain ⟨v, hv⟩ := hF.at2 (i := r * 4 + i) (j := col * 4 + j) (by omega) (by omega)
      rw [lumaBlock, aF, hv]; rfl)
  have hpl0 : pl ≠ 0 := by omega
  have hP : HasPlane c pl := Or.inr ⟨by omega, by omega⟩
  have hus4 := hc.uvSec us (List.mem_of_getElem? i4)
  set b8 := c.bitDepth - 8 with hb8
  set t := us * 2 ^ b8 with ht
  have hpw : (1 : Int) ≤ 2 ^ b8 := one_le_pow₀ (by omega)
  have htpos : 0 < t := by rw [ht]; positivity
  have hlog : log2 t ≤ (b8 + 2 : Nat) := log2_le_of_lt htpos (by rw [show b8 + 2 + 1 = 3 + b8 by omega, pow_add, ht]; nlinarith)
  set D : Int := c.damping + (b8 : Nat) with hD
  have hcall : ∀ d var, cdefCall c.bitDepth pl c.subX c.subY yp ys 0 us c.damping d var = { pri := 0, sec := t, damping := D - 1, dir := 0 } := by
    intro d var
    unfold cdefCall
    rw [if_neg hpl0]
    simp [← hb8, ht, hD]
  obtain ⟨n, hn1, hn2⟩ : ∃ n : Nat, (D - 1 - log2 t).toNat = n ∧ (D - log2 t).toNat = n + 1 := ⟨(D - 1 - log2 t).toNat, rfl, by omega⟩
  rw [hn1] at hδ
  have hpn1 : (1 : Int) ≤ 2 ^ n := one_le_pow₀ (by omega)
  have hδt : t ≤ δ := by rw [hδ]; nlinarith
  have habs : ((δ.natAbs : Nat) : Int) = δ := by omega
  have hc1 : cdefConstrain δ t (D - 1) = 0 := by
    unfold cdefConstrain
    rw [if_neg (by omega), hn1, habs, hδ, Int.mul_ediv_cancel _ (by omega), sub_self, ← hδ]
    rw [show max 0 (min δ 0) = 0 by omega, mul_zero]
  have hc2 : 1 ≤ cdefConstrain δ t D := by
    unfold cdefConstrain
    rw [if_neg (by omega), hn2, habs, Int.sign_eq_one_of_pos (by omega), one_mul]
    have : δ / 2 ^ (n + 1) = t / 2 := by
      rw [hδ, pow_succ, mul_comm (2 ^ n : Int) 2]
      exact Int.mul_ediv_mul_of_pos_left _ _ (by omega)
    rw [this]; omega
  have hw42 : cdefWeights c.bitDepth 0 = (4, 2) := by unfold cdefWeights; simp
  refine ⟨out', _, e, (by rw [hval, if_pos ⟨hP, hin⟩, hv]; rfl), ?_, ?_⟩
  · unfold codeCall
    rw [if_pos ⟨hpl0, rfl⟩, hcall]
    simp only [sub_add_cancel]
    rw [pixel_sec v δ t D _ hn]
    generalize cdefConstrain δ t D = k at hc2
    rw [Int.sign_eq_one_of_pos (by omega)]
    omega
  · intro d
    unfold av1Filtered
    rw [hv, hcall]
    simp only [Option.map_some, hw42]
    rw [pixel_sec v δ t (D - 1) _ hn, hc1]
    simp

/-! ## C108 the frame -/

theorem inBlock_div {i j sx sy y x : Nat} : InBlock (2 * i) (2 * j) sx sy y x ↔ y * 2 ^ sy / 8 = i ∧ x * 2 ^ sx / 8 = j := by
  unfold InBlock
  generalize y * 2 ^ sy = a
  generalize x * 2 ^ sx = b
  omega

/-- The loop over the blocks: if every block, from any picture, sets its pixels so that `Q` holds of them and changes
nothing else, then the frame gets pixels with `Q` and nothing else changes. -/
theorem process_ok {c : CdefCtx} {H W : Nat} (Q : Nat → Nat → Nat → Option Int → Prop)
    (hblk : ∀ i j, 2 * i < c.miRows → 2 * j < c.miCols → ∀ T, Pic H W T → ∃ T', (do
      let idx ← gget c.cdefIdx ((2 * i / 16 * 16 : Nat) : Int) ((2 * j / 16 * 16 : Nat) : Int)
      cdefBlock c (2 * i) (2 * j) idx T : Res (List (List (List Int)))) = .ok T' ∧ Pic H W T' ∧ ∀ pl y x,
        (HasPlane c pl ∧ InBlock (2 * i) (2 * j) (psx c pl) (psy c pl) y x → Q pl y x (at3 T' pl y x)) ∧
        (¬ (HasPlane c pl ∧ InBlock (2 * i) (2 * j) (psx c pl) (psy c pl) y x) → at3 T' pl y x = at3 T pl y x))
    (out : List (List (List Int))) (ho : Pic H W out) :
    ∃ out', cdefProcess c out = .ok out' ∧ Pic H W out' ∧ ∀ pl y x,
      (HasPlane c pl ∧ y * 2 ^ psy c pl < 8 * ((c.miRows + 1) / 2) ∧ x * 2 ^ psx c pl < 8 * ((c.miCols + 1) / 2) → Q pl y x (at3 out' pl y x)) ∧
      (¬ (HasPlane c pl ∧ y * 2 ^ psy c pl < 8 * ((c.miRows + 1) / 2) ∧ x * 2 ^ psx c pl < 8 * ((c.miCols + 1) / 2)) → at3 out' pl y x = at3 out pl y x) := by
  unfold cdefProcess
  obtain ⟨out', e, hp, hv⟩ := forN_total (f := fun i out => forN (fun j out => do
      let idx ← gget c.cdefIdx ((2 * i / 16 * 16 : Nat) : Int) ((2 * j / 16 * 16 : Nat) : Int)
      cdefBlock c (2 * i) (2 * j) idx out) ((c.miCols + 1) / 2) 0 out)
    (fun i T => Pic H W T ∧ ∀ pl y x,
      (HasPlane c pl ∧ y * 2 ^ psy c pl / 8 < i ∧ x * 2 ^ psx c pl / 8 < (c.miCols + 1) / 2 → Q pl y x (at3 T pl y x)) ∧
      (¬ (HasPlane c pl ∧ y * 2 ^ psy c pl / 8 < i ∧ x * 2 ^ psx c pl / 8 < (c.miCols + 1) / 2) → at3 T pl y x = at3 out pl y x))
    (n := (c.miRows + 1) / 2) (i0 := 0) (s := out)
    (by
      intro i T _ hi ⟨hT, hTv⟩
      obtain ⟨T', e, hp, hv⟩ := forN_total (f := fun j out => do
          let idx ← gget c.cdefIdx ((2 * i / 16 * 16 : Nat) : Int) ((2 * j / 16 * 16 : Nat) : Int)
          cdefBlock c (2 * i) (2 * j) idx out)
        (fun j U => Pic H W U ∧ ∀ pl y x,
          (HasPlane c pl ∧ y * 2 ^ psy c pl / 8 = i ∧ x * 2 ^ psx c pl / 8 < j → Q pl y x (at3 U pl y x)) ∧
          (¬ (HasPlane c pl ∧ y * 2 ^ psy c pl / 8 = i ∧ x * 2 ^ psx c pl / 8 < j) → at3 U pl y x = at3 T pl y x))
        (n := (c.miCols + 1) / 2) (i0 := 0) (s := T)
        (by
          intro j U _ hj ⟨hU, hUv⟩
          obtain ⟨U', e, hp, hv⟩ := hblk i j (by omega) (by omega) U hU
          refine ⟨U', e, hp, ?_⟩
          intro pl y x
          obtain ⟨a1, a2⟩ := hv pl y x
          obtain ⟨b1, b2⟩ := hUv pl y x
          rw [inBlock_div] at a1 a2
          constructor
          · rintro ⟨p, q, r⟩
            by_cases hjj : x * 2 ^ psx c pl / 8 = j
            · exact a1 ⟨p, q, hjj⟩
            · rw [a2 (fun h => hjj h.2.2)]
              exact b1 ⟨p, q, by omega⟩
          · intro hnot
            rw [a2 (fun h => hnot ⟨h.1, h.2.1, by omega⟩), b2 (fun h => hnot ⟨h.1, h.2.1, by omega⟩)])
        ⟨hT, fun pl y x => ⟨fun h => absurd h.2.2 (by omega), fun _ => rfl⟩⟩
      refine ⟨T', e, hp, ?_⟩
      intro pl y x
      obtain ⟨a1, a2⟩ := hv pl y x
      obtain ⟨b1, b2⟩ := hTv pl y x
      rw [Nat.zero_add] at a1 a2
      constructor
      · rintro ⟨p, q, r⟩
        by_cases hii : y * 2 ^ psy c pl / 8 = i
        · exact a1 ⟨p, hii, r⟩
        · rw [a2 (fun h => hii h.2.1)]
          exact b1 ⟨p, by omega, r⟩
      · intro hnot
        rw [a2 (fun h => hnot ⟨h.1, by omega, h.2.2⟩), b2 (fun h => hnot ⟨h.1, by omega, h.2.2⟩)])
    ⟨ho, fun pl y x => ⟨fun h => absurd h.2.1 (by omega), fun _ => rfl⟩⟩
  refine ⟨out', e, hp, ?_⟩
  intro pl y x
  obtain ⟨a1, a2⟩ := hv pl y x
  rw [Nat.zero_add] at a1 a2
  refine ⟨fun h => a1 ⟨h.1, by omega, by omega⟩, fun h => a2 (fun h' => h ⟨h'.1, by omega, by omega⟩)⟩

/-- The arrays cover the frame up to whole 8x8 blocks. -/
def FrameFits (c : CdefCtx) (H W : Nat) : Prop := 8 * ((c.miRows + 1) / 2) ≤ H ∧ 8 * ((c.miCols + 1) / 2) ≤ W

/-- What AV1 prescribes for a pixel of the frame: the index at its 64x64 block and the skip flags of its 8x8 block decide
whether it is copied; otherwise it is filtered with the strengths of that index (stated for the planes for which the code
agrees with AV1). -/
def Av1Pixel (c : CdefCtx) (pl y x : Nat) (v : Option Int) : Prop :=
  let r := 2 * (y * 2 ^ psy c pl / 8)
  let col := 2 * (x * 2 ^ psx c pl / 8)
  ∀ idx, at2 c.cdefIdx (r / 16 * 16) (col / 16 * 16) = some idx →
    if idx = -1 ∨ (at2 c.skips r col ≠ some 0 ∧ at2 c.skips (r + 1) col ≠ some 0 ∧ at2 c.skips r (col + 1) ≠ some 0 ∧ at2 c.skips (r + 1) (col + 1) ≠ some 0)
    then v = at3 c.cur pl y x
    else ∃ d yp ys up us, CdefDirIs (cdefPx c.bitDepth (lumaBlock c r col)) d ∧ c.yPri[idx.toNat]? = some yp ∧ c.ySec[idx.toNat]? = some ys ∧
      c.uvPri[idx.toNat]? = some up ∧ c.uvSec[idx.toNat]? = some us ∧
      (Agrees c yp ys up us d r col pl → v = av1Filtered c yp ys up us d r col pl y x)

/-- **C108** (partial: arrays that cover the frame, which those of the code do only for frames of one 8x8 block when any
index is not -1; planes as in C107).  CDEF on a frame returns; every pixel of the frame has the value AV1
prescribes, computed from the picture before CDEF; nothing else changes. -/
theorem C108_frame_partial (c : CdefCtx) (H W : Nat) (hc : CdefCtxOk c H W) (hf : FrameFits c H W)
    (hidx : ∀ i j, 2 * i < c.miRows → 2 * j < c.miCols → ∃ idx : Int, at2 c.cdefIdx (2 * i / 16 * 16) (2 * j / 16 * 16) = some idx ∧
      (idx = -1 ∨ 0 ≤ idx ∧ idx < c.yPri.length ∧ idx < c.ySec.length ∧ idx < c.uvPri.length ∧ idx < c.uvSec.length))
    (HS WS : Nat) (hskips : Shape HS WS c.skips) (hHS : 2 * ((c.miRows + 1) / 2) ≤ HS) (hWS : 2 * ((c.miCols + 1) / 2) ≤ WS)
    (out : List (List (List Int))) (ho : Pic H W out) :
    ∃ out', cdefProcess c out = .ok out' ∧ Pic H W out' ∧ ∀ pl y x,
      (HasPlane c pl ∧ y * 2 ^ psy c pl < 8 * ((c.miRows + 1) / 2) ∧ x * 2 ^ psx c pl < 8 * ((c.miCols + 1) / 2) → Av1Pixel c pl y x (at3 out' pl y x)) ∧
      (¬ (HasPlane c pl ∧ y * 2 ^ psy c pl < 8 * ((c.miRows + 1) / 2) ∧ x * 2 ^ psx c pl < 8 * ((c.miCols + 1) / 2)) → at3 out' pl y x = at3 out pl y x) := by
  refine process_ok (Av1Pixel c) ?_ out ho
  intro i j hi hj T hT
  obtain ⟨idx, e, hix⟩ := hidx i j hi hj
  have hy : 4 * (2 * i) + 8 ≤ H := by have := hf.1; omega
  have hx : 4 * (2 * j) + 8 ≤ W := by have := hf.2; omega
  obtain ⟨s1, h1⟩ := hskips.at2 (i := 2 * i) (j := 2 * j) (by omega) (by omega)
  obtain ⟨s2, h2⟩ := hskips.at2 (i := 2 * i + 1) (j := 2 * j) (by omega) (by omega)
  obtain ⟨s3, h3⟩ := hskips.at2 (i := 2 * i) (j := 2 * j + 1) (by omega) (by omega)
  obtain ⟨s4, h4⟩ := hskips.at2 (i := 2 * i + 1) (j := 2 * j + 1) (by omega) (by omega)
  rw [gget_at2 e, Res.ok_bind]
  by_cases hcp : idx = -1 ∨ (s1 ≠ 0 ∧ s2 ≠ 0 ∧ s3 ≠ 0 ∧ s4 ≠ 0)
  · obtain ⟨T', e', hp, hv⟩ := C107_copied c H W hc T hT (2 * i) (2 * j) (by omega) (by omega) hy hx idx
      (hcp.imp id (fun h => ⟨s1, s2, s3, s4, h1, h2, h3, h4, h⟩))
    refine ⟨T', e', hp, fun pl y x => ⟨fun hin => ?_, fun hnot => by rw [hv, if_neg hnot]⟩⟩
    obtain ⟨hpl, hb⟩ := hin
    obtain ⟨b1, b2⟩ := inBlock_div.mp hb
    unfold Av1Pixel
    simp only [b1, b2]
    intro idx' e''
    rw [e] at e''
    cases e''
    rw [if_pos, hv, if_pos ⟨hpl, hb⟩]
    rw [h1, h2, h3, h4]
    simpa using hcp
  · have hsk : s1 = 0 ∨ s2 = 0 ∨ s3 = 0 ∨ s4 = 0 := by omega
    rcases hix with hix | ⟨k0, k1, k2, k3, k4⟩
    · exact absurd (Or.inl hix) hcp
    · lift idx to Nat using k0
      have hgo : ∀ l : List Int, (idx : Int) < l.length → ∃ a ∈ l, l[idx]? = some a := fun l hl =>
        ⟨l[idx]'(by omega), List.getElem_mem _, List.getElem?_eq_getElem _⟩
      obtain ⟨yp, m1, g1⟩ := hgo _ k1
      obtain ⟨ys, m2, g2⟩ := hgo _ k2
      obtain ⟨up, m3, g3⟩ := hgo _ k3
      obtain ⟨us, m4, g4⟩ := hgo _ k4
      obtain ⟨T', d, e', hp, hd, hv⟩ := C107_filtered_partial c H W hc ⟨by have := hf.1; omega, by have := hf.2; omega⟩ T hT (2 * i) (2 * j)
        (by omega) (by omega) hy hx idx yp ys up us g1 g2 g3 g4 s1 s2 s3 s4 h1 h2 h3 h4 hsk
      refine ⟨T', e', hp, fun pl y x => ⟨fun hin => ?_, (hv pl y x).2⟩⟩
      obtain ⟨hpl, hb⟩ := hin
      obtain ⟨b1, b2⟩ := inBlock_div.mp hb
      unfold Av1Pixel
      simp only [b1, b2]
      intro idx' e''
      rw [e] at e''
      cases e''
      rw [if_neg]
      · exact ⟨d, yp, ys, up, us, hd, g1, g2, g3, g4, fun hag => (hv pl y x).1 ⟨hpl, hb⟩ hag⟩
      · rw [h1, h2, h3, h4]
        simpa using hcp

/-- **C108, switched off.**  Where every index is -1, CDEF is the identity on the frame, for all arrays that cover it. -/
theorem C108_off (c : CdefCtx) (H W : Nat) (hc : CdefCtxOk c H W) (hf : FrameFits c H W)
    (hidx : ∀ i j, 2 * i < c.miRows → 2 * j < c.miCols → at2 c.cdefIdx (2 * i / 16 * 16) (2 * j / 16 * 16) = some (-1))
    (out : List (List (List Int))) (ho : Pic H W out) :
    ∃ out', cdefProcess c out = .ok out' ∧ Pic H W out' ∧ ∀ pl y x,
      HasPlane c pl → y * 2 ^ psy c pl < 4 * c.miRows → x * 2 ^ psx c pl < 4 * c.miCols → at3 out' pl y x = at3 c.cur pl y x := by
  obtain ⟨out', e, hp, hv⟩ := process_ok (fun pl y x v => v = at3 c.cur pl y x) (c := c) (H := H) (W := W) (by
    intro i j hi hj T hT
    have hy : 4 * (2 * i) + 8 ≤ H := by have := hf.1; omega
    have hx : 4 * (2 * j) + 8 ≤ W := by have := hf.2; omega
    obtain ⟨T', e', hp, hv⟩ := C107_copied c H W hc T hT (2 * i) (2 * j) (by omega) (by omega) hy hx (-1) (Or.inl rfl)
    rw [gget_at2 (hidx i j hi hj), Res.ok_bind]
    exact ⟨T', e', hp, fun pl y x => ⟨fun h => by rw [hv, if_pos h], fun h => by rw [hv, if_neg h]⟩⟩) out ho
  exact ⟨out', e, hp, fun pl y x h1 h2 h3 => (hv pl y x).1 ⟨h1, by omega, by omega⟩⟩

theorem goGet_fail {α : Type} {l : List α} {i : Nat} (h : l.length ≤ i) (a : α) : goGet l (i : Int) ≠ .ok a := by
  intro e
  have := (goGet_inv e).2
  rw [Int.toNat_natCast, List.getElem?_eq_none h] at this
  cases this

/-- **C108 is false of the code.**  Its arrays have 16 by 16 pixels: CDEF returns for no frame of more than 16 rows or
columns, whatever the headers and the content. -/
theorem C108_size_refuted (c : CdefCtx) (hc : Pic 16 16 c.cur) (hsz : 4 < c.miRows ∧ 0 < c.miCols ∨ 4 < c.miCols ∧ 0 < c.miRows)
    (out out' : List (List (List Int))) : cdefProcess c out ≠ .ok out' := by
  have key : ∀ (r col : Nat) (idx : Int) (T T' : List (List (List Int))), 16 ≤ 4 * r ∨ 16 ≤ 4 * col → cdefBlock c r col idx T ≠ .ok T' := by
    intro r col idx T T' hbig h
    rw [cdefBlock] at h
    obtain ⟨o1, h1, -⟩ := Res.inv h
    rw [cdefCopyBlock] at h1
    obtain ⟨o2, h2, -⟩ := Res.inv h1
    rw [cdefOnPlane] at h2
    obtain ⟨F, hF, h2⟩ := Res.inv h2
    obtain ⟨G, -, h2⟩ := Res.inv h2
    obtain ⟨G', h3, -⟩ := Res.inv h2
    have hsh := hc.2 F (List.mem_of_getElem? (goGet_inv hF).2)
    refine forN_never (i := 0) (by omega) (by omega) ?_ _ h3
    intro U U' hU
    refine forN_never (i := 0) (by omega) (by omega) ?_ _ hU
    intro V V' hV
    obtain ⟨v, hv, -⟩ := Res.inv hV
    obtain ⟨-, -, ha⟩ := gget_inv hv
    rw [Int.toNat_natCast, Int.toNat_natCast, at2] at ha
    cases hrow : F[r * 4 + 0]? with
    | none => rw [hrow] at ha; cases ha
    | some row =>
      rw [hrow] at ha
      have l1 := (List.getElem?_eq_some_iff.mp hrow).1
      have l2 := (List.getElem?_eq_some_iff.mp (show row[col * 4 + 0]? = some v from ha)).1
      rw [hsh.1] at l1
      rw [hsh.2 _ (List.mem_of_getElem? hrow)] at l2
      omega
  intro h
  unfold cdefProcess at h
  rcases hsz with ⟨a, b⟩ | ⟨a, b⟩
  · refine forN_never (i := 2) (by omega) (by omega) ?_ _ h
    intro U U' hU
    refine forN_never (i := 0) (by omega) (by omega) ?_ _ hU
    intro V V' hV
    obtain ⟨idx, -, hV⟩ := Res.inv hV
    exact key _ _ _ _ _ (by omega) hV
  · refine forN_never (i := 0) (by omega) (by omega) ?_ _ h
    intro U U' hU
    refine forN_never (i := 2) (by omega) (by omega) ?_ _ hU
    intro V V' hV
    obtain ⟨idx, -, hV⟩ := Res.inv hV
    exact key _ _ _ _ _ (by omega) hV

/-- **C108 is false of the code**, smaller frames: the array of skip flags has 2 by 2 entries, so CDEF returns for no frame
of more than 8 rows or columns unless the index of its first 64x64 block is -1. -/
theorem C108_skips_refuted (c : CdefCtx) (hs : Shape 2 2 c.skips) (hsz : 2 < c.miRows ∧ 0 < c.miCols ∨ 2 < c.miCols ∧ 0 < c.miRows)
    (idx : Int) (hi : at2 c.cdefIdx 0 0 = some idx) (hne : idx ≠ -1)
    (out out' : List (List (List Int))) : cdefProcess c out ≠ .ok out' := by
  have key : ∀ (r col : Nat) (T T' : List (List (List Int))), 2 ≤ r ∨ 2 ≤ col → cdefBlock c r col idx T ≠ .ok T' := by
    intro r col T T' hbig h
    rw [cdefBlock] at h
    obtain ⟨o1, -, h⟩ := Res.inv h
    rw [if_neg hne] at h
    obtain ⟨sk, h1, -⟩ := Res.inv h
    rw [cdefSkip] at h1
    obtain ⟨a, ha, -⟩ := Res.inv h1
    obtain ⟨-, -, ha⟩ := gget_inv ha
    rw [Int.toNat_natCast, Int.toNat_natCast, at2] at ha
    cases hrow : c.skips[r]? with
    | none => rw [hrow] at ha; cases ha
    | some row =>
      rw [hrow] at ha
      have l1 := (List.getElem?_eq_some_iff.mp hrow).1
      have l2 := (List.getElem?_eq_some_iff.mp (show row[col]? = some a from ha)).1
      rw [hs.1] at l1
      rw [hs.2 _ (List.mem_of_getElem? hrow)] at l2
      omega
  intro h
  unfold cdefProcess at h
  rcases hsz with ⟨a, b⟩ | ⟨a, b⟩
  · refine forN_never (i := 1) (by omega) (by omega) ?_ _ h
    intro U U' hU
    refine forN_never (i := 0) (by omega) (by omega) ?_ _ hU
    intro V V' hV
    rw [show 2 * 1 / 16 * 16 = 0 from rfl, gget_at2 hi, Res.ok_bind] at hV
    exact key _ _ _ _ (by omega) hV
  · refine forN_never (i := 0) (by omega) (by omega) ?_ _ h
    intro U U' hU
    refine forN_never (i := 1) (by omega) (by omega) ?_ _ hU
    intro V V' hV
    rw [show 2 * 1 / 16 * 16 = 0 from rfl, gget_at2 hi, Res.ok_bind] at hV
    exact key _ _ _ _ (by omega) hV

/-- A frame of one 8x8 block: all pixels 100, except the four near neighbours of the pixel (4, 4) of each plane. -/
def exCdef : CdefCtx :=
  let F : List (List Int) := (List.range 16).map (fun y => (List.range 16).map (fun x => if (y, x) ∈ [(4, 5), (4, 3), (5, 4), (3, 4)] then 104 else 100))
  { miRows := 2, miCols := 2, yPri := [4], ySec := [1], uvPri := [0], uvSec := [1], damping := 3
    skips := [[0, 1], [1, 1]], cdefIdx := [[0]], cur := [F, F, F] }

theorem exCdef_ok : CdefCtxOk exCdef 16 16 where
  cur := ⟨rfl, by unfold Shape; decide +kernel⟩
  subX := by decide
  subY := by decide
  planes := by decide
  depth := by decide
  yPri := by decide
  ySec := by decide
  uvPri := by decide
  uvSec := by decide

example : ∃ out', cdefBlock exCdef 0 0 (-1) exCdef.cur = .ok out' ∧ Pic 16 16 out' := by
  obtain ⟨o, h1, h2, -⟩ := C107_copied exCdef 16 16 exCdef_ok exCdef.cur exCdef_ok.cur 0 0 rfl rfl (by omega) (by omega) (-1) (Or.inl rfl)
  exact ⟨o, h1, h2⟩

example : ∃ out' d, cdefBlock exCdef 0 0 0 exCdef.cur = .ok out' ∧ CdefDirIs (cdefPx exCdef.bitDepth (lumaBlock exCdef 0 0)) d := by
  obtain ⟨o, d, h1, -, h2, -⟩ := C107_filtered_partial exCdef 16 16 exCdef_ok (by decide) exCdef.cur exCdef_ok.cur 0 0 rfl rfl (by omega) (by omega) 0
    4 1 0 1 rfl rfl rfl rfl 0 1 1 1 rfl rfl rfl rfl (Or.inl rfl)
  exact ⟨o, d, h1, h2⟩

example : ∃ out' w, cdefBlock exCdef 0 0 0 exCdef.cur = .ok out' ∧ at3 out' 1 4 4 = some w ∧ 100 < w ∧
    ∀ d, av1Filtered exCdef 4 1 0 1 d 0 0 1 4 4 = some 100 :=
  C107_damping_refuted exCdef 16 16 exCdef_ok (by decide) exCdef.cur exCdef_ok.cur 0 0 rfl rfl (by omega) (by omega) 0
    4 1 1 rfl rfl rfl rfl 0 1 1 1 rfl rfl rfl rfl (Or.inl rfl) (by omega) (by decide) 1 4 4 100 4 (Or.inl rfl) rfl (by unfold InBlock; decide)
    (by decide +kernel) (by unfold log2; simp [exCdef]; rfl) (by decide +kernel)

example : ∃ out', cdefProcess exCdef exCdef.cur = .ok out' ∧ Pic 16 16 out' := by
  obtain ⟨o, h1, h2, -⟩ := C108_frame_partial exCdef 16 16 exCdef_ok (by unfold FrameFits; decide) (by
    intro i j hi hj
    obtain rfl : i = 0 := by have : 2 * i < 2 := hi; omega
    obtain rfl : j = 0 := by have : 2 * j < 2 := hj; omega
    exact ⟨0, rfl, Or.inr (by decide)⟩) 2 2 (by unfold Shape; decide) (by decide) (by decide) exCdef.cur exCdef_ok.cur
  exact ⟨o, h1, h2⟩

example : ∃ out', cdefProcess { exCdef with cdefIdx := [[-1]] } exCdef.cur = .ok out' ∧ Pic 16 16 out' := by
  obtain ⟨o, h1, h2, -⟩ := C108_off { exCdef with cdefIdx := [[-1]] } 16 16 { exCdef_ok with } (by unfold FrameFits; decide) (by
    intro i j hi hj
    obtain rfl : i = 0 := by have : 2 * i < 2 := hi; omega
    obtain rfl : j = 0 := by have : 2 * j < 2 := hj; omega
    rfl) exCdef.cur exCdef_ok.cur
  exact ⟨o, h1, h2⟩

example (out out' : List (List (List Int))) : cdefProcess { exCdef with miRows := 5 } out ≠ .ok out' :=
  C108_size_refuted { exCdef with miRows := 5 } (show Pic 16 16 exCdef.cur from exCdef_ok.cur) (Or.inl (by decide)) out out'

example (out out' : List (List (List Int))) : cdefProcess { exCdef with miRows := 4 } out ≠ .ok out' :=
  C108_skips_refuted { exCdef with miRows := 4 } (by unfold Shape; decide) (Or.inl (by decide)) 0 rfl (by decide) out out'

end Gov1
