import Verif.Model.Residual
import Verif.Props.TxSize
/-!
# C116, C117: the transform blocks of a block
-/
namespace Gov1
open Spec

/-- The call works on the pixel `(px, py)` of the plane. -/
def TxCall.covers (plane px py : Nat) (c : TxCall) : Bool :=
  decide (c.plane = plane) && match txDims c.txSz with
    | some (w, h) => decide ((c.baseX + 4 * c.x ≤ px ∧ px < c.baseX + 4 * c.x + w) ∧ (c.baseY + 4 * c.y ≤ py ∧ py < c.baseY + 4 * c.y + h))
    | none => false

theorem covers_iff {plane px py : Nat} {c : TxCall} {w h : Nat} (hd : txDims c.txSz = some (w, h)) :
    c.covers plane px py = true ↔ c.plane = plane ∧ (c.baseX + 4 * c.x ≤ px ∧ px < c.baseX + 4 * c.x + w) ∧
      (c.baseY + 4 * c.y ≤ py ∧ py < c.baseY + 4 * c.y + h) := by
  unfold TxCall.covers
  rw [hd]
  simp

/-! ## Counting -/

theorem count_flatMap {α : Type} {f : Nat → List α} {p : α → Bool} {n i0 k : Nat} (h : ∀ i, i < n → (f i).countP p = if i = i0 then k else 0) :
    ((List.range n).flatMap f).countP p = if i0 < n then k else 0 := by
  induction n with
  | zero => rfl
  | succ n ih =>
    rw [List.range_succ, List.flatMap_append, List.countP_append, ih (fun i hi => h i (by omega))]
    have : (List.flatMap f [n]).countP p = (f n).countP p := by simp
    rw [this, h n (by omega)]
    by_cases h1 : i0 < n
    · rw [if_pos h1, if_neg (by omega), if_pos (by omega)]; rfl
    · rw [if_neg h1]
      by_cases h2 : n = i0
      · rw [if_pos h2, if_pos (by omega)]; omega
      · rw [if_neg h2, if_neg (by omega)]

theorem count_map {α : Type} {f : Nat → α} {p : α → Bool} {n i0 : Nat} {P : Prop} [Decidable P] (h : ∀ i, i < n → (p (f i) = true ↔ (i = i0 ∧ P))) :
    ((List.range n).map f).countP p = if i0 < n ∧ P then 1 else 0 := by
  have := count_flatMap (f := fun i => [f i]) (p := p) (n := n) (i0 := i0) (k := if P then 1 else 0) (by
    intro i hi
    rw [List.countP_singleton]
    have := h i hi
    by_cases h1 : p (f i) = true
    · rw [if_pos h1, if_pos (this.mp h1).1, if_pos (this.mp h1).2]
    · rw [if_neg h1]
      by_cases h2 : i = i0
      · rw [if_pos h2, if_neg (fun hP => h1 (this.mpr ⟨h2, hP⟩))]
      · rw [if_neg h2])
  rw [← List.map_eq_flatMap] at this
  rw [this]
  by_cases h1 : i0 < n
  · rw [if_pos h1]
    by_cases hP : P
    · rw [if_pos hP, if_pos ⟨h1, hP⟩]
    · rw [if_neg hP, if_neg (fun h => hP h.2)]
  · rw [if_neg h1, if_neg (fun h => h1 h.1)]

theorem step_iff {a p s j : Nat} (hs : 0 < s) : (a + 4 * (j * s) ≤ p ∧ p < a + 4 * (j * s) + 4 * s) ↔ (j = (p - a) / (4 * s) ∧ a ≤ p) := by
  have h4 : 0 < 4 * s := by omega
  have e : 4 * (j * s) = j * (4 * s) := by ring
  rw [e]
  constructor
  · rintro ⟨h1, h2⟩
    have ha : a ≤ p := by omega
    refine ⟨?_, ha⟩
    symm
    rw [Nat.div_eq_iff h4]
    have : (j + 1) * (4 * s) = j * (4 * s) + 4 * s := by ring
    omega
  · rintro ⟨rfl, ha⟩
    have h1 := Nat.div_mul_le_self (p - a) (4 * s)
    have h2 := Nat.lt_div_mul_add h4 (a := p - a)
    omega

/-- Number of calls of the raster that work on a pixel. -/
theorem raster_count {plane baseX baseY txSz h w stepY stepX : Nat} (hx : 0 < stepX) (hy : 0 < stepY) (hd : txDims txSz = some (4 * stepX, 4 * stepY))
    (hw : stepX ∣ w) (hh : stepY ∣ h) (q px py : Nat) :
    (rasterCalls plane baseX baseY txSz h w stepY stepX 0 0).countP (TxCall.covers q px py) =
      if plane = q ∧ (baseX ≤ px ∧ px < baseX + 4 * w) ∧ (baseY ≤ py ∧ py < baseY + 4 * h) then 1 else 0 := by
  obtain ⟨n, rfl⟩ := hw
  obtain ⟨m, rfl⟩ := hh
  have cdiv : ∀ s k : Nat, 0 < s → (s * k + s - 1) / s = k := by
    intro s k hs
    rw [Nat.div_eq_iff hs]
    have : s * k = k * s := Nat.mul_comm _ _
    omega
  unfold rasterCalls
  rw [cdiv stepX n hx, cdiv stepY m hy]
  have lim : ∀ a p s k : Nat, 0 < s → a ≤ p → ((p - a) / (4 * s) < k ↔ p < a + 4 * (s * k)) := by
    intro a p s k hs hap
    rw [Nat.div_lt_iff_lt_mul (by omega)]
    have : k * (4 * s) = 4 * (s * k) := by ring
    omega
  rw [count_flatMap (i0 := (py - baseY) / (4 * stepY))
    (k := if (px - baseX) / (4 * stepX) < n ∧ (plane = q ∧ baseX ≤ px ∧ baseY ≤ py) then 1 else 0) ?_]
  · by_cases hc : plane = q ∧ baseX ≤ px ∧ baseY ≤ py
    · have l1 := lim baseX px stepX n hx hc.2.1
      have l2 := lim baseY py stepY m hy hc.2.2
      by_cases h1 : (py - baseY) / (4 * stepY) < m
      · rw [if_pos h1]
        by_cases h2 : (px - baseX) / (4 * stepX) < n
        · rw [if_pos ⟨h2, hc⟩, if_pos ⟨hc.1, ⟨hc.2.1, l1.mp h2⟩, hc.2.2, l2.mp h1⟩]
        · rw [if_neg (fun h => h2 h.1), if_neg (fun h => h2 (l1.mpr h.2.1.2))]
      · rw [if_neg h1, if_neg (fun h => h1 (l2.mpr h.2.2.2))]
    · rw [if_neg (show ¬ ((px - baseX) / (4 * stepX) < n ∧ (plane = q ∧ baseX ≤ px ∧ baseY ≤ py)) from fun h => hc h.2), if_neg (show ¬ (plane = q ∧ (baseX ≤ px ∧ px < baseX + 4 * (stepX * n)) ∧ baseY ≤ py ∧ py < baseY + 4 * (stepY * m)) from
        fun h => hc ⟨h.1, h.2.1.1, h.2.2.1⟩)]
      simp
  · intro i hi
    rw [count_map (i0 := (px - baseX) / (4 * stepX)) (P := (plane = q ∧ baseX ≤ px ∧ i = (py - baseY) / (4 * stepY) ∧ baseY ≤ py)) ?_]
    · by_cases h1 : i = (py - baseY) / (4 * stepY)
      · rw [if_pos h1]
        congr 1
        simp only [eq_iff_iff]
        constructor
        · rintro ⟨a, b, c, -, d⟩; exact ⟨a, b, c, d⟩
        · rintro ⟨a, b, c, d⟩; exact ⟨a, b, c, h1, d⟩
      · rw [if_neg h1, if_neg (fun h => h1 h.2.2.2.1)]
    · intro j hj
      rw [covers_iff hd]
      dsimp only
      rw [Nat.add_zero, Nat.add_zero, step_iff hx, step_iff hy]
      constructor
      · rintro ⟨a, ⟨b, c⟩, d, e⟩; exact ⟨b, a, c, d, e⟩
      · rintro ⟨b, a, c, d, e⟩; exact ⟨a, ⟨b, c⟩, d, e⟩

/-! ## The transform tree -/

theorem findTx_dims : ∀ a b : Fin 5, a.val ≤ b.val + 2 → b.val ≤ a.val + 2 →
    txDims (findTxSize (4 * 2 ^ a.val) (4 * 2 ^ b.val)) = some (4 * 2 ^ a.val, 4 * 2 ^ b.val) := by decide +kernel

theorem tx_le : (∀ w ∈ txWidth, w ≤ 64 ∧ 4 ≤ w) ∧ (∀ w ∈ txHeight, w ≤ 64 ∧ 4 ≤ w) := by decide

/-- All units of the frame have a transform size. -/
def ResCtx.Sized (cx : ResCtx) : Prop := ∀ r c, r < cx.miRows → c < cx.miCols → ∃ t, at2 cx.interTx r c = some t ∧ t < 19

/-- The calls of a subtree cover its part of the frame once. -/
def SubTree (cx : ResCtx) (f x y w h : Nat) : Prop := ∃ l, transformTree cx f x y w h = .ok l ∧ (∀ c ∈ l, c.plane = 0) ∧
      ∀ px py, px < cx.miCols * 4 → py < cx.miRows * 4 → l.countP (TxCall.covers 0 px py) =
        if (x ≤ px ∧ px < x + w) ∧ (y ≤ py ∧ py < y + h) then 1 else 0

theorem leaf_or {cx : ResCtx} (hg : cx.Sized) (f a b X Y : Nat) (hab : a ≤ b + 2) (hba : b ≤ a + 2)
    (hleaf : ∀ lw lh, lw ≤ 64 ∧ 4 ≤ lw → lh ≤ 64 ∧ 4 ≤ lh → (4 * 2 ^ a ≤ lw ∧ 4 * 2 ^ b ≤ lh) ∨ 0 < a + b)
    (h1 : b < a → SubTree cx f (4 * X) (4 * Y) (4 * 2 ^ a / 2) (4 * 2 ^ b) ∧ SubTree cx f (4 * X + 4 * 2 ^ a / 2) (4 * Y) (4 * 2 ^ a / 2) (4 * 2 ^ b))
    (h2 : a < b → SubTree cx f (4 * X) (4 * Y) (4 * 2 ^ a) (4 * 2 ^ b / 2) ∧ SubTree cx f (4 * X) (4 * Y + 4 * 2 ^ b / 2) (4 * 2 ^ a) (4 * 2 ^ b / 2))
    (h3 : a = b ∧ 0 < a → SubTree cx f (4 * X) (4 * Y) (4 * 2 ^ a / 2) (4 * 2 ^ b / 2) ∧ SubTree cx f (4 * X + 4 * 2 ^ a / 2) (4 * Y) (4 * 2 ^ a / 2) (4 * 2 ^ b / 2) ∧
      SubTree cx f (4 * X) (4 * Y + 4 * 2 ^ b / 2) (4 * 2 ^ a / 2) (4 * 2 ^ b / 2) ∧ SubTree cx f (4 * X + 4 * 2 ^ a / 2) (4 * Y + 4 * 2 ^ b / 2) (4 * 2 ^ a / 2) (4 * 2 ^ b / 2)) :
    SubTree cx (f + 1) (4 * X) (4 * Y) (4 * 2 ^ a) (4 * 2 ^ b) := by
  have pa := Nat.two_pow_pos a
  have pb := Nat.two_pow_pos b
  unfold SubTree
  rw [transformTree]
  by_cases hout : 4 * X ≥ cx.miCols * 4 ∨ 4 * Y ≥ cx.miRows * 4
  · rw [if_pos hout]
    exact ⟨[], rfl, fun _ h => (by cases h), fun px py hx hy => by rw [if_neg (by omega)]; rfl⟩
  · rw [if_neg hout]
    obtain ⟨t, ht, htl⟩ := hg Y X (by omega) (by omega)
    have eY : 4 * Y / 4 = Y := by omega
    have eX : 4 * X / 4 = X := by omega
    have hw : txWidth[t]? = some (txWidth[t]'htl) := List.getElem?_eq_getElem htl
    have hh : txHeight[t]? = some (txHeight[t]'htl) := List.getElem?_eq_getElem htl
    have bw := tx_le.1 _ (List.mem_of_getElem? hw)
    have bh := tx_le.2 _ (List.mem_of_getElem? hh)
    rw [eY, eX, gget_at2 ht, Res.ok_bind, goGet_of' hw, Res.ok_bind, goGet_of' hh, Res.ok_bind]
    have hl := hleaf _ _ bw bh
    generalize txWidth[t]'htl = lw at bw hl
    generalize txHeight[t]'htl = lh at bh hl
    by_cases hle : 4 * 2 ^ a ≤ lw ∧ 4 * 2 ^ b ≤ lh
    · rw [if_pos hle]
      have small : ∀ k, 4 * 2 ^ k ≤ 64 → k < 5 := by
        intro k hk
        by_contra hc
        have : 2 ^ 5 ≤ 2 ^ k := Nat.pow_le_pow_right (by decide) (by omega)
        omega
      have hd := findTx_dims ⟨a, small a (by omega)⟩ ⟨b, small b (by omega)⟩ hab hba
      refine ⟨_, rfl, fun c hc => by rw [List.mem_singleton] at hc; rw [hc], fun px py hx hy => ?_⟩
      rw [List.countP_singleton]
      have := covers_iff (plane := 0) (px := px) (py := py) (c := ⟨0, 4 * X, 4 * Y, findTxSize (4 * 2 ^ a) (4 * 2 ^ b), 0, 0⟩) hd
      dsimp only at this
      rw [Nat.mul_zero, Nat.add_zero, Nat.add_zero] at this
      by_cases hc : (4 * X ≤ px ∧ px < 4 * X + 4 * 2 ^ a) ∧ (4 * Y ≤ py ∧ py < 4 * Y + 4 * 2 ^ b)
      · rw [if_pos hc, if_pos (this.mpr ⟨rfl, hc⟩)]
      · rw [if_neg hc, if_neg (fun h => hc (this.mp h).2)]
    · rw [if_neg hle]
      have hpos : 0 < a + b := by tauto
      by_cases hba' : b < a
      · have hp : 2 ^ b < 2 ^ a := Nat.pow_lt_pow_right (by decide) hba'
        have even : 4 * 2 ^ a / 2 + 4 * 2 ^ a / 2 = 4 * 2 ^ a := by omega
        rw [if_pos (by omega)]
        obtain ⟨⟨l1, e1, p1, c1⟩, ⟨l2, e2, p2, c2⟩⟩ := h1 hba'
        rw [e1, Res.ok_bind, e2, Res.ok_bind]
        refine ⟨l1 ++ l2, rfl, fun c hc => ?_, fun px py hx hy => ?_⟩
        · rcases List.mem_append.mp hc with h | h
          · exact p1 c h
          · exact p2 c h
        · rw [List.countP_append, c1 px py hx hy, c2 px py hx hy]
          generalize 4 * 2 ^ a / 2 = w2 at *
          generalize 4 * 2 ^ a = w at *
          generalize 4 * 2 ^ b = h at *
          clear h1 h2 h3 c1 c2 e1 e2 p1 p2 hl hg hle
          split_ifs <;> omega
      · rw [if_neg (by
          have : 2 ^ a ≤ 2 ^ b := Nat.pow_le_pow_right (by decide) (by omega)
          omega)]
        by_cases hab' : a < b
        · have hp : 2 ^ a < 2 ^ b := Nat.pow_lt_pow_right (by decide) hab'
          have even : 4 * 2 ^ b / 2 + 4 * 2 ^ b / 2 = 4 * 2 ^ b := by omega
          rw [if_pos (by omega)]
          obtain ⟨⟨l1, e1, p1, c1⟩, ⟨l2, e2, p2, c2⟩⟩ := h2 hab'
          rw [e1, Res.ok_bind, e2, Res.ok_bind]
          refine ⟨l1 ++ l2, rfl, fun c hc => ?_, fun px py hx hy => ?_⟩
          · rcases List.mem_append.mp hc with h | h
            · exact p1 c h
            · exact p2 c h
          · rw [List.countP_append, c1 px py hx hy, c2 px py hx hy]
            generalize 4 * 2 ^ b / 2 = w2 at *
            generalize 4 * 2 ^ a = w at *
            generalize 4 * 2 ^ b = h at *
            clear h1 h2 h3 c1 c2 e1 e2 p1 p2 hl hg hle
            split_ifs <;> omega
        · have hab2 : a = b := by omega
          subst hab2
          rw [if_neg (by omega)]
          have even : 4 * 2 ^ a / 2 + 4 * 2 ^ a / 2 = 4 * 2 ^ a := by omega
          obtain ⟨⟨l1, e1, p1, c1⟩, ⟨l2, e2, p2, c2⟩, ⟨l3, e3, p3, c3⟩, ⟨l4, e4, p4, c4⟩⟩ := h3 ⟨rfl, by omega⟩
          rw [e1, Res.ok_bind, e2, Res.ok_bind, e3, Res.ok_bind, e4, Res.ok_bind]
          refine ⟨l1 ++ l2 ++ l3 ++ l4, rfl, fun c hc => ?_, fun px py hx hy => ?_⟩
          · simp only [List.mem_append] at hc
            rcases hc with ((h | h) | h) | h
            · exact p1 c h
            · exact p2 c h
            · exact p3 c h
            · exact p4 c h
          · rw [List.countP_append, List.countP_append, List.countP_append, c1 px py hx hy, c2 px py hx hy, c3 px py hx hy, c4 px py hx hy]
            generalize 4 * 2 ^ a / 2 = w2 at *
            generalize 4 * 2 ^ a = w at *
            clear h1 h2 h3 c1 c2 c3 c4 e1 e2 e3 e4 p1 p2 p3 p4 hl hg hle
            split_ifs <;> omega

theorem tree_count {cx : ResCtx} (hg : cx.Sized) (n : Nat) : ∀ (fuel a b X Y : Nat), a + b ≤ n → n < fuel → a ≤ b + 2 → b ≤ a + 2 →
    ∃ l, transformTree cx fuel (4 * X) (4 * Y) (4 * 2 ^ a) (4 * 2 ^ b) = .ok l ∧
      (∀ c ∈ l, c.plane = 0) ∧
      ∀ px py, px < cx.miCols * 4 → py < cx.miRows * 4 → l.countP (TxCall.covers 0 px py) =
        if (4 * X ≤ px ∧ px < 4 * X + 4 * 2 ^ a) ∧ (4 * Y ≤ py ∧ py < 4 * Y + 4 * 2 ^ b) then 1 else 0 := by
  induction n with
  | zero =>
    intro fuel a b X Y hn hf hab hba
    obtain ⟨rfl, rfl⟩ : a = 0 ∧ b = 0 := by omega
    obtain ⟨f, rfl⟩ : ∃ f, fuel = f + 1 := ⟨fuel - 1, by omega⟩
    exact leaf_or hg f 0 0 X Y (by omega) (by omega) (fun lw lh h1 h2 => .inl (by have := h1.2; have := h2.2; omega))
      (fun h => by omega) (fun h => by omega) (fun h => by omega)
  | succ n ih =>
    intro fuel a b X Y hn hf hab hba
    obtain ⟨f, rfl⟩ : ∃ f, fuel = f + 1 := ⟨fuel - 1, by omega⟩
    refine leaf_or hg f a b X Y hab hba (fun lw lh h1 h2 => by
      by_cases h0 : 0 < a + b
      · exact .inr h0
      · obtain ⟨rfl, rfl⟩ : a = 0 ∧ b = 0 := by omega
        exact .inl (by omega)) ?_ ?_ ?_
    · intro h
      obtain ⟨a, rfl⟩ : ∃ k, a = k + 1 := ⟨a - 1, by omega⟩
      have e : 4 * 2 ^ (a + 1) / 2 = 4 * 2 ^ a := by rw [Nat.pow_succ]; omega
      have e2 : 4 * X + 4 * 2 ^ a = 4 * (X + 2 ^ a) := by ring
      rw [e, e2]
      exact ⟨ih f a b X Y (by omega) (by omega) (by omega) (by omega), ih f a b (X + 2 ^ a) Y (by omega) (by omega) (by omega) (by omega)⟩
    · intro h
      obtain ⟨b, rfl⟩ : ∃ k, b = k + 1 := ⟨b - 1, by omega⟩
      have e : 4 * 2 ^ (b + 1) / 2 = 4 * 2 ^ b := by rw [Nat.pow_succ]; omega
      have e2 : 4 * Y + 4 * 2 ^ b = 4 * (Y + 2 ^ b) := by ring
      rw [e, e2]
      exact ⟨ih f a b X Y (by omega) (by omega) (by omega) (by omega), ih f a b X (Y + 2 ^ b) (by omega) (by omega) (by omega) (by omega)⟩
    · rintro ⟨rfl, h0⟩
      obtain ⟨a, rfl⟩ : ∃ k, a = k + 1 := ⟨a - 1, by omega⟩
      have e : 4 * 2 ^ (a + 1) / 2 = 4 * 2 ^ a := by rw [Nat.pow_succ]; omega
      have e2 : 4 * X + 4 * 2 ^ a = 4 * (X + 2 ^ a) := by ring
      have e3 : 4 * Y + 4 * 2 ^ a = 4 * (Y + 2 ^ a) := by ring
      rw [e, e2, e3]
      exact ⟨ih f a a X Y (by omega) (by omega) (by omega) (by omega), ih f a a (X + 2 ^ a) Y (by omega) (by omega) (by omega) (by omega),
        ih f a a X (Y + 2 ^ a) (by omega) (by omega) (by omega) (by omega), ih f a a (X + 2 ^ a) (Y + 2 ^ a) (by omega) (by omega) (by omega) (by omega)⟩

/-! ## The whole block -/

/-- A block of `n` pixels has at least 4 pixels in a plane with half the resolution. -/
def planeExtent (sub n : Nat) : Nat := if sub = 0 then n else max 4 (n / 2)

/-- The chroma formats, and the blocks that exist in 4:2:2. -/
def SubOk (sx sy bw bh : Nat) : Prop := (sx = 0 ∧ sy = 0) ∨ (sx = 1 ∧ sy = 1) ∨ (sx = 1 ∧ sy = 0 ∧ bh ≤ bw)

instance (sx sy bw bh : Nat) : Decidable (SubOk sx sy bw bh) := by unfold SubOk; infer_instance

/-- What the raster of a chroma plane needs. -/
theorem chroma_facts : ∀ (s : Fin 22) (sx sy : Fin 2), (match sizeDims s with
      | some d => decide (SubOk sx sy d.1 d.2 → ∀ plane : Fin 3, plane.val > 0 →
        (match getTxSize { miSize := s, subX := sx, subY := sy } plane 0, getPlaneResidualSize sx sy s plane with
        | .ok t, .ok p => (match txDims t, sizeDims p, txDims 0, num4x4Wide[p]?, num4x4High[p]? with
          | some (tw, th), some (pw, ph), some (fw, fh), some w4, some h4 => decide (pw = planeExtent sx d.1 ∧ ph = planeExtent sy d.2 ∧ pw = 4 * w4 ∧ ph = 4 * h4 ∧
              0 < tw >>> 2 ∧ 0 < th >>> 2 ∧ tw = 4 * (tw >>> 2) ∧ th = 4 * (th >>> 2) ∧ (tw >>> 2) ∣ w4 ∧ (th >>> 2) ∣ h4 ∧ fw = 4 ∧ fh = 4)
          | _, _, _, _, _ => false)
        | _, _ => false) = true)
      | none => false) = true := by decide +kernel

/-- The chroma facts in a usable form. -/
theorem chroma_use {cx : ResCtx} {bw bh plane : Nat} (hs : cx.miSize < 22) (hd : sizeDims cx.miSize = some (bw, bh)) (hsub : SubOk cx.subX cx.subY bw bh)
    (hp : 0 < plane) (hp3 : plane < 3) : ∃ txSz tw th p w4 h4, planeTxSize cx plane = .ok txSz ∧ goGet txWidth (txSz : Int) = .ok tw ∧ goGet txHeight (txSz : Int) = .ok th ∧
      getPlaneResidualSize cx.subX cx.subY cx.miSize plane = .ok p ∧ goGet num4x4Wide (p : Int) = .ok w4 ∧ goGet num4x4High (p : Int) = .ok h4 ∧
      planeExtent cx.subX bw = 4 * w4 ∧ planeExtent cx.subY bh = 4 * h4 ∧ 0 < tw >>> 2 ∧ 0 < th >>> 2 ∧ txDims txSz = some (4 * (tw >>> 2), 4 * (th >>> 2)) ∧
      (tw >>> 2) ∣ w4 ∧ (th >>> 2) ∣ h4 := by
  have hx : cx.subX < 2 := by unfold SubOk at hsub; omega
  have hy : cx.subY < 2 := by unfold SubOk at hsub; omega
  have h := chroma_facts ⟨cx.miSize, hs⟩ ⟨cx.subX, hx⟩ ⟨cx.subY, hy⟩
  dsimp only at h
  rw [hd] at h
  have h := of_decide_eq_true h hsub ⟨plane, hp3⟩ hp
  dsimp only at h
  have eg : ∀ t, getTxSize cx plane t = getTxSize { miSize := cx.miSize, subX := cx.subX, subY := cx.subY } plane 0 := by
    intro t
    unfold getTxSize
    rw [if_neg (by omega), if_neg (by omega)]
  split at h
  · rename_i t p ht hpp
    split at h
    · rename_i tw th pw ph fw fh w4 h4 e1 e2 e3 e4 e5
      obtain ⟨h1, h2, h3, h4', h5, h6, h7, h8, h9, h10, h11, h12⟩ := of_decide_eq_true h
      have d1 := e1
      unfold txDims at d1
      rw [Option.bind_eq_some_iff] at d1
      obtain ⟨a, ha, d1⟩ := d1
      rw [Option.map_eq_some_iff] at d1
      obtain ⟨b, hb, d1⟩ := d1
      injection d1 with d1 d2
      subst d1 d2
      unfold planeTxSize
      cases hl : cx.lossless
      · refine ⟨t, a, b, p, w4, h4, ?_, goGet_of' ha, goGet_of' hb, hpp, goGet_of' e4, goGet_of' e5, by omega, by omega, h5, h6, ?_, h9, h10⟩
        · rw [eg, ht]; rfl
        · rw [← h7, ← h8]; exact e1
      · exact ⟨0, 4, 4, p, w4, h4, rfl, rfl, rfl, hpp, goGet_of' e4, goGet_of' e5, by omega, by omega, by decide, by decide, by decide, one_dvd _, one_dvd _⟩
    · cases h
  · cases h

/-- What is known of the luma plane. -/
theorem luma_facts : ∀ s : Fin 22, (match sizeDims s, getPlaneResidualSize 0 0 s 0, getPlaneResidualSize 1 0 s 0, getPlaneResidualSize 1 1 s 0, num4x4Wide[s.val]?, num4x4High[s.val]? with
    | some d, .ok p, .ok p', .ok p'', some w, some h => decide (p = s.val ∧ p' = s.val ∧ p'' = s.val ∧ d.1 = 4 * w ∧ d.2 = 4 * h ∧
        ∃ a b : Fin 6, w = 2 ^ a.val ∧ h = 2 ^ b.val ∧ a.val ≤ b.val + 2 ∧ b.val ≤ a.val + 2)
    | _, _, _, _, _, _ => false) = true := by decide +kernel

theorem luma_use {cx : ResCtx} {bw bh : Nat} (hs : cx.miSize < 22) (hd : sizeDims cx.miSize = some (bw, bh)) (hsub : SubOk cx.subX cx.subY bw bh) :
    ∃ a b, getPlaneResidualSize cx.subX cx.subY cx.miSize 0 = .ok cx.miSize ∧ goGet num4x4Wide (cx.miSize : Int) = .ok (2 ^ a) ∧ goGet num4x4High (cx.miSize : Int) = .ok (2 ^ b) ∧
      bw = 4 * 2 ^ a ∧ bh = 4 * 2 ^ b ∧ a ≤ b + 2 ∧ b ≤ a + 2 ∧ a < 6 ∧ b < 6 := by
  have h := luma_facts ⟨cx.miSize, hs⟩
  dsimp only at h
  rw [hd] at h
  split at h
  · rename_i d p p' p'' w h4 e0 e1 e2 e3 e4 e5
    injection e0 with e0
    subst e0
    obtain ⟨h1, h2, h3, h5, h6, a, b, rfl, rfl, h7, h8⟩ := of_decide_eq_true h
    subst h1 h2 h3
    refine ⟨a, b, ?_, goGet_of' e4, goGet_of' e5, h5, h6, h7, h8, a.isLt, b.isLt⟩
    unfold SubOk at hsub
    rcases hsub with ⟨q1, q2⟩ | ⟨q1, q2⟩ | ⟨q1, q2, -⟩
    · rw [q1, q2]; exact e1
    · rw [q1, q2]; exact e3
    · rw [q1, q2]; exact e2
  · cases h

/-- The calls of one plane. -/
theorem plane_count {cx : ResCtx} {bw bh plane : Nat} (hs : cx.miSize < 22) (hd : sizeDims cx.miSize = some (bw, bh)) (hsub : SubOk cx.subX cx.subY bw bh)
    (hp3 : plane < 3) {tw th : Nat} (ht : txDims cx.txSize = some (4 * tw, 4 * th)) (htw : 0 < tw) (hth : 0 < th) (hwd : 4 * tw ∣ bw) (hhd : 4 * th ∣ bh)
    (hg : cx.isInter = true → cx.lossless = false → cx.Sized) :
    ∃ l, planeCalls cx cx.miSize 0 0 plane = .ok l ∧ ∀ q px py, (q = 0 → px < cx.miCols * 4 ∧ py < cx.miRows * 4) →
      l.countP (TxCall.covers q px py) = if plane = q ∧
        ((4 * (cx.miCol >>> (if plane > 0 then cx.subX else 0)) ≤ px ∧ px < 4 * (cx.miCol >>> (if plane > 0 then cx.subX else 0)) + planeExtent (if plane > 0 then cx.subX else 0) bw) ∧
        (4 * (cx.miRow >>> (if plane > 0 then cx.subY else 0)) ≤ py ∧ py < 4 * (cx.miRow >>> (if plane > 0 then cx.subY else 0)) + planeExtent (if plane > 0 then cx.subY else 0) bh))
        then 1 else 0 := by
  unfold planeCalls
  by_cases hp : 0 < plane
  · obtain ⟨txSz, w, h, p, w4, h4, e1, e2, e3, e4, e5, e6, e7, e8, e9, e10, e11, e12, e13⟩ := chroma_use hs hd hsub hp hp3
    rw [e1, Res.ok_bind, e2, Res.ok_bind, e3, Res.ok_bind, e4, Res.ok_bind, e5, Res.ok_bind, e6, Res.ok_bind]
    dsimp only
    rw [if_neg (show ¬ (cx.isInter = true ∧ (!cx.lossless) = true ∧ plane = 0) from fun h => by omega), if_pos hp, if_pos hp, e7, e8]
    refine ⟨_, rfl, fun q px py _ => ?_⟩
    rw [Nat.zero_shiftLeft, Nat.zero_shiftRight, Nat.zero_shiftRight, raster_count e9 e10 e11 e12 e13, Nat.mul_comm _ 4, Nat.mul_comm _ 4]
  · obtain rfl : plane = 0 := by omega
    obtain ⟨a, b, e1, e2, e3, rfl, rfl, h1, h2, h3, h4⟩ := luma_use hs hd hsub
    simp only [Nat.lt_irrefl, if_false, gt_iff_lt, Nat.shiftRight_zero, Nat.zero_shiftLeft, Nat.add_zero, planeExtent, if_true]
    have key : ∃ txSz w h, planeTxSize cx 0 = .ok txSz ∧ goGet txWidth (txSz : Int) = .ok (4 * w) ∧ goGet txHeight (txSz : Int) = .ok (4 * h) ∧ txDims txSz = some (4 * w, 4 * h) ∧ 0 < w ∧ 0 < h ∧ w ∣ 2 ^ a ∧ h ∣ 2 ^ b := by
      unfold planeTxSize
      cases hl : cx.lossless
      · have d1 := ht
        unfold txDims at d1
        rw [Option.bind_eq_some_iff] at d1
        obtain ⟨x, hx, d1⟩ := d1
        rw [Option.map_eq_some_iff] at d1
        obtain ⟨y, hy, d1⟩ := d1
        injection d1 with d1 d2
        subst d1 d2
        exact ⟨cx.txSize, tw, th, rfl, goGet_of' hx, goGet_of' hy, ht, htw, hth, Nat.dvd_of_mul_dvd_mul_left (by decide) hwd, Nat.dvd_of_mul_dvd_mul_left (by decide) hhd⟩
      · exact ⟨0, 1, 1, rfl, rfl, rfl, rfl, by decide, by decide, one_dvd _, one_dvd _⟩
    obtain ⟨txSz, w, h, k1, k2, k3, k4, k5, k6, k7, k8⟩ := key
    have s1 : (4 * w) >>> 2 = w := by rw [Nat.shiftRight_eq_div_pow]; omega
    have s2 : (4 * h) >>> 2 = h := by rw [Nat.shiftRight_eq_div_pow]; omega
    rw [k1, Res.ok_bind, k2, Res.ok_bind, k3, Res.ok_bind, e1, Res.ok_bind, e2, Res.ok_bind, e3, Res.ok_bind, s1, s2]
    by_cases hi : cx.isInter = true ∧ (!cx.lossless) = true ∧ True
    · rw [if_pos hi, Nat.mul_comm cx.miCol 4, Nat.mul_comm cx.miRow 4, Nat.mul_comm (2 ^ a) 4, Nat.mul_comm (2 ^ b) 4]
      obtain ⟨l, c1, c2, c3⟩ := tree_count (hg hi.1 (by simpa using hi.2.1)) 10 12 a b cx.miCol cx.miRow (by omega) (by omega) h1 h2
      refine ⟨l, c1, fun q px py hq => ?_⟩
      by_cases h0 : 0 = q
      · subst h0
        rw [c3 px py (hq rfl).1 (hq rfl).2]
        congr 1
        simp
      · rw [if_neg (fun h => h0 h.1), List.countP_eq_zero]
        intro c hc hcov
        have := c2 c hc
        unfold TxCall.covers at hcov
        rw [Bool.and_eq_true] at hcov
        have := of_decide_eq_true hcov.1
        omega
    · rw [if_neg hi]
      refine ⟨_, rfl, fun q px py _ => ?_⟩
      rw [raster_count k5 k6 k4 k7 k8, Nat.mul_comm _ 4, Nat.mul_comm _ 4]

theorem stateBlock_zero {s : Nat} (hs : s < 22) : goGet stateBlockWidth (s : Int) = .ok 0 ∧ goGet stateBlockHeight (s : Int) = .ok 0 := by
  unfold stateBlockWidth stateBlockHeight
  exact ⟨goGet_of' (by rw [List.getElem?_replicate, if_pos (by omega)]), goGet_of' (by rw [List.getElem?_replicate, if_pos (by omega)])⟩

theorem residual_eq {cx : ResCtx} (hs : cx.miSize < 22) : residualCalls cx = catLoop (planeCalls cx cx.miSize 0 0) (1 + (if cx.hasChroma then 2 else 0)) 0 := by
  have pb : ∀ r : Res (List TxCall), (do let a ← (do let a ← r; let b ← (pure [] : Res (List TxCall)); pure (a ++ b)); let b ← (pure [] : Res (List TxCall)); pure (a ++ b)) = r := by
    intro r
    cases r with
    | error e => rfl
    | ok l => simp [bind, Except.bind, pure, Except.pure]
  unfold residualCalls
  rw [(stateBlock_zero hs).1, Res.ok_bind, (stateBlock_zero hs).2, Res.ok_bind]
  exact pb _

/-- **C116.**  A block is covered by its transform blocks: a pixel of the frame in the area of the block belongs to exactly one
transform block of each plane that the block has, a pixel outside it to none. -/
theorem C116_cover {cx : ResCtx} {bw bh : Nat} (hs : cx.miSize < 22) (hd : sizeDims cx.miSize = some (bw, bh)) (hsub : SubOk cx.subX cx.subY bw bh)
    {tw th : Nat} (ht : txDims cx.txSize = some (tw, th)) (hwd : tw ∣ bw) (hhd : th ∣ bh) (hg : cx.isInter = true → cx.lossless = false → cx.Sized) :
    ∃ l, residualCalls cx = .ok l ∧ ∀ q px py, px < cx.miCols * 4 → py < cx.miRows * 4 →
      l.countP (TxCall.covers q px py) = if (q = 0 ∧ (4 * cx.miCol ≤ px ∧ px < 4 * cx.miCol + bw) ∧ (4 * cx.miRow ≤ py ∧ py < 4 * cx.miRow + bh)) ∨
        (cx.hasChroma = true ∧ (q = 1 ∨ q = 2) ∧ (4 * (cx.miCol >>> cx.subX) ≤ px ∧ px < 4 * (cx.miCol >>> cx.subX) + planeExtent cx.subX bw) ∧
          (4 * (cx.miRow >>> cx.subY) ≤ py ∧ py < 4 * (cx.miRow >>> cx.subY) + planeExtent cx.subY bh)) then 1 else 0 := by
  have four : ∀ t : Fin 19, (match txDims t with | some (w, h) => decide (w = 4 * (w / 4) ∧ 0 < w / 4 ∧ h = 4 * (h / 4) ∧ 0 < h / 4) | none => false) = true := by decide
  have htl : cx.txSize < 19 := by
    unfold txDims at ht
    rw [Option.bind_eq_some_iff] at ht
    obtain ⟨a, ha, -⟩ := ht
    exact (List.getElem?_eq_some_iff.mp ha).1
  have h4 := four ⟨cx.txSize, htl⟩
  dsimp only at h4
  rw [ht] at h4
  obtain ⟨f1, f2, f3, f4⟩ := of_decide_eq_true h4
  have key : ∀ plane, plane < 3 → _ := fun plane hp => plane_count (plane := plane) hs hd hsub hp (ht.trans (by rw [← f1, ← f3])) f2 f4 (f1 ▸ hwd) (f3 ▸ hhd) hg
  obtain ⟨l0, e0, c0⟩ := key 0 (by decide)
  obtain ⟨l1, e1, c1⟩ := key 1 (by decide)
  obtain ⟨l2, e2, c2⟩ := key 2 (by decide)
  simp only [Nat.lt_irrefl, if_false, gt_iff_lt, Nat.shiftRight_zero, Nat.zero_lt_succ, if_true] at c0 c1 c2
  rw [residual_eq hs]
  cases hc : cx.hasChroma
  · refine ⟨l0 ++ [], ?_, fun q px py hx hy => ?_⟩
    · show catLoop _ 1 0 = _
      rw [catLoop, e0]; rfl
    · rw [List.append_nil, c0 q px py (fun _ => ⟨hx, hy⟩)]
      congr 1
      simp [planeExtent, eq_comm]
  · refine ⟨l0 ++ (l1 ++ (l2 ++ [])), ?_, fun q px py hx hy => ?_⟩
    · show catLoop _ 3 0 = _
      rw [catLoop, e0, Res.ok_bind, catLoop, e1, Res.ok_bind, catLoop, e2]; rfl
    · rw [List.append_nil, List.countP_append, List.countP_append, c0 q px py (fun _ => ⟨hx, hy⟩), c1 q px py (fun _ => ⟨hx, hy⟩), c2 q px py (fun _ => ⟨hx, hy⟩)]
      generalize cx.miCol >>> cx.subX = X
      generalize cx.miRow >>> cx.subY = Y
      generalize planeExtent cx.subX bw = W
      generalize planeExtent cx.subY bh = H
      have p0 : ∀ n, planeExtent 0 n = n := fun _ => rfl
      rw [p0, p0]
      simp only [true_and]
      split_ifs <;> omega

/-- The transform sizes that a block can have divide it (see C115). -/
theorem split_divides : ∀ (s : Fin 22) (n : Fin 5), (match sizeDims s with
    | some d => decide ((txSplits n (txMax d)).1 ∣ d.1 ∧ (txSplits n (txMax d)).2 ∣ d.2)
    | none => false) = true := by decide +kernel

/-- An inter block of 16x8 pixels in 4:2:0: two luma blocks of 8x8, then a chroma block in each plane. -/
example : residualCalls { miSize := 5, miRows := 2, miCols := 4, isInter := true, txSize := 8, subX := 1, subY := 1, interTx := List.replicate 2 (List.replicate 4 1) } =
    .ok [⟨0, 0, 0, 1, 0, 0⟩, ⟨0, 8, 0, 1, 0, 0⟩, ⟨1, 0, 0, 6, 0, 0⟩, ⟨2, 0, 0, 6, 0, 0⟩] := rfl

example : ({ miSize := 5, miRows := 2, miCols := 4, isInter := true, txSize := 8, interTx := List.replicate 2 (List.replicate 4 1) } : ResCtx).Sized := by
  intro r c hr hc
  obtain ⟨t, ht⟩ := (Shape.replicate 2 4 1).at2 (i := r) (j := c) hr hc
  refine ⟨t, ht, ?_⟩
  unfold at2 at ht
  rw [List.getElem?_replicate, if_pos hr] at ht
  change (List.replicate 4 1)[c]? = some t at ht
  rw [List.getElem?_replicate, if_pos hc] at ht
  cases ht
  decide

end Gov1
