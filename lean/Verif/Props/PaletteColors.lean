import Verif.Model.PaletteColors
import Verif.Props.Util
import Verif.Props.IntraInfo
import Verif.Props.CdefIdx
import Verif.Props.Palette
/-!
# C199: the colours of a palette
-/
namespace Gov1
open Spec

/-- The syntax of palettes with the `b.S()` of the code, which panics, is the one that the model of mode info uses: a block that has a palette is never decoded. -/
def codeS : Rd Nat := .fail (.explicit "not implemented: S()")

theorem Rd.assoc_rd {α β γ : Type} (p : Rd α) (f : α → Rd β) (g : β → Rd γ) : ((p >>= f) >>= g) = (p >>= fun a => f a >>= g) := by
  induction p with
  | ret a => rfl
  | fail e => rfl
  | sym t idx k ih => exact congrArg _ (funext ih)
  | bit k ih => exact congrArg _ (funext ih)

/-- C199, no palette: with the `b.S()` of the code, which panics, mode info in full is what the model of mode info has for it, and leaves all colours and sizes as they are. -/
theorem C199_none_refuted (bd : Nat) (b : MiBlk) (yMode uvMode : Nat) (sizes : List (List Int)) (cache0 cache1 : Res CacheSt) (r : PalRes) :
    paletteFull codeS bd b yMode uvMode sizes cache0 cache1 r = (do
      paletteModeInfo b yMode uvMode sizes
      pure r) := by
  have hY : ∀ ctx, palYFull codeS bd b yMode sizes cache0 ctx r = (paletteY b yMode sizes ctx >>= fun _ => pure r) := by
    intro ctx
    unfold palYFull paletteY
    split
    · rw [Rd.assoc_rd]
      congr 1
      funext c
      rw [Rd.assoc_rd]
      congr 1
      funext has
      split <;> rfl
    · rfl
  have hU : palUVFull codeS bd b uvMode cache1 r = ((if b.hasChroma ∧ uvMode = 0 then .fail (.explicit "not implemented: S()") else pure () : Rd Unit) >>= fun _ => pure r) := by
    unfold palUVFull
    split <;> rfl
  unfold paletteFull paletteModeInfo
  rw [Rd.assoc_rd]
  congr 1
  funext wl
  rw [Rd.assoc_rd]
  congr 1
  funext hl
  rw [hY, Rd.assoc_rd, Rd.assoc_rd]
  congr 1
  funext u
  exact hU

variable {L : Layout}

theorem palFromCache_post {n : Nat} {cache : List Int} : ∀ (k i : Nat) (s : List Int × Nat), i + k ≤ cache.length → n ≤ s.1.length → s.2 ≤ n →
    (palFromCache n cache k i s).Post L (fun t => t.1.length = s.1.length ∧ s.2 ≤ t.2 ∧ t.2 ≤ n ∧
      ∃ ch : List Int, List.Sublist ch ((cache.drop i).take k) ∧ t.2 = s.2 + ch.length ∧ t.1.take t.2 = s.1.take s.2 ++ ch ∧ t.1.drop t.2 = s.1.drop t.2) := by
  intro k
  induction k with
  | zero =>
    intro i s _ _ h2
    exact ⟨rfl, le_refl _, h2, [], by simp, by simp, by simp, rfl⟩
  | succ k ih =>
    intro i s h1 h2 h3
    have hd : (cache.drop i).take (k + 1) = cache[i]'(by omega) :: (cache.drop (i + 1)).take k := by
      rw [List.drop_eq_getElem_cons (show i < cache.length by omega), List.take_succ_cons]
    unfold palFromCache
    split
    · rename_i hlt
      refine Rd.Post.bind ((post_lit 1).mono ?_)
      intro x hx
      by_cases hx0 : x ≠ 0
      · rw [if_pos hx0, goGet_lt' (show i < cache.length by omega)]
        show Rd.Post L (Rd.lift (goSet s.1 (s.2 : Int) (cache[i]'(by omega))) >>= fun c => palFromCache n cache k (i + 1) (c, s.2 + 1)) _
        rw [goSet_lt' _ (show s.2 < s.1.length by omega)]
        refine (ih (i + 1) (s.1.set s.2 (cache[i]'(by omega)), s.2 + 1) (by omega) (by simpa using h2) (by omega)).mono ?_
        rintro t ⟨g1, g2, g3, ch, g4, g5, g6, g7⟩
        refine ⟨by simpa using g1, by simp only at g2; omega, g3, cache[i]'(by omega) :: ch, ?_, ?_, ?_, ?_⟩
        · rw [hd]; exact g4.cons_cons _
        · simp only at g5; simp; omega
        · rw [g6]
          dsimp only
          rw [take_set_succ _ (by omega)]
          simp
        · rw [g7]
          dsimp only at g5 ⊢
          rw [List.drop_set_of_lt (by omega)]
      · rw [if_neg hx0]
        refine (ih (i + 1) s (by omega) h2 h3).mono ?_
        rintro t ⟨g1, g2, g3, ch, g4, g5, g6, g7⟩
        exact ⟨g1, g2, g3, ch, by rw [hd]; exact g4.cons _, g5, g6, g7⟩
    · exact ⟨rfl, le_refl _, h3, [], by simp, by simp, by simp, rfl⟩

theorem palFirst_post {bd n : Nat} {s : List Int × Nat} (h2 : n ≤ s.1.length) (h3 : s.2 ≤ n) :
    (palFirst bd n s).Post L (fun t => t.1.length = s.1.length ∧ ∃ v : Nat, v < 2 ^ bd ∧ t.2 = min n (s.2 + 1) ∧ t.1.take t.2 = (s.1.take s.2 ++ [(v : Int)]).take n ∧ t.1.drop n = s.1.drop n) := by
  unfold palFirst
  split
  · refine Rd.Post.bind ((post_lit bd).mono ?_)
    intro v hv
    rw [goSet_lt' _ (show s.2 < s.1.length by omega)]
    refine ⟨by simp, v, hv, by dsimp only; omega, ?_, ?_⟩
    · dsimp only
      rw [take_set_succ _ (by omega), List.take_of_length_le (l := s.1.take s.2 ++ [(v : Int)]) (by simp; omega)]
    · dsimp only
      rw [List.drop_set_of_lt (by omega)]
  · have : s.2 = n := by omega
    refine ⟨rfl, 0, Nat.two_pow_pos bd, by omega, ?_, rfl⟩
    rw [List.take_append_of_le_length (by simp; omega)]
    simp [this]

theorem palBits_post {minBits : Int} {n idx : Nat} : (palBits minBits n idx).Post L (fun _ => True) := by
  unfold palBits
  split
  · exact Rd.Post.bind ((post_lit 2).mono fun _ _ => trivial)
  · trivial

theorem post_litI (n : Int) : (Rd.lit n).Post L (fun v => v < 2 ^ n.toNat) := post_lit n.toNat

theorem palDeltas_post {bd n : Nat} (hb : 2 ≤ bd) {plus : Int} : ∀ (fuel : Nat) (bits : Int) (s : List Int × Nat), n ≤ s.1.length → s.2 ≤ n → 1 ≤ s.2 → n ≤ s.2 + fuel →
    (palDeltas bd n plus fuel bits s).Post L (fun t => t.1.length = s.1.length ∧ t.1.take n = s.1.take s.2 ++ List.replicate (n - s.2) 2 ∧ t.1.drop n = s.1.drop n) := by
  intro fuel
  induction fuel with
  | zero =>
    intro bits s h1 h2 h3 h4
    have : s.2 = n := by omega
    unfold palDeltas
    rw [if_neg (by omega)]
    exact ⟨rfl, by simp [this], rfl⟩
  | succ fuel ih =>
    intro bits s h1 h2 h3 h4
    unfold palDeltas
    split
    · refine Rd.Post.bind ((post_litI bits).mono ?_)
      intro d hd
      rw [show ((s.2 : Int) - 1) = ((s.2 - 1 : Nat) : Int) by omega, goGet_lt' (show s.2 - 1 < s.1.length by omega)]
      refine Rd.Post.bind (show Rd.Post L (Rd.ret _) _ from ?_)
      dsimp only [Rd.Post]
      rw [(C11_clip1_partial _ bd hb).1, goSet_lt' _ (show s.2 < s.1.length by omega)]
      refine (ih _ (s.1.set s.2 2, s.2 + 1) (by simpa using h1) (by dsimp only; omega) (by dsimp only; omega) (by dsimp only; omega)).mono ?_
      rintro t ⟨g1, g2, g3⟩
      refine ⟨by simpa using g1, ?_, ?_⟩
      · rw [g2]
        dsimp only
        rw [take_set_succ _ (by omega), List.append_assoc, show n - s.2 = (n - (s.2 + 1)) + 1 by omega, List.replicate_succ]
        rfl
      · rw [g3]
        dsimp only
        rw [List.drop_set_of_lt (by omega)]
    · have : s.2 = n := by omega
      exact ⟨rfl, by simp [this], rfl⟩

theorem sort_post {c : List Int} {n : Nat} (h1 : 1 ≤ n) (h : n ≤ c.length) : sortSeg c 0 ((n : Int) - 1) = .ok (sortInts (c.take n) ++ c.drop n) := by
  unfold sortSeg
  rw [if_neg (by omega)]
  simp

/-- **C199 (luma, refuted).**  With arrays that are large enough, the syntax of the luma colours is read to the end whatever the data, and the result is: some colours of the cache, the one colour that is coded by
itself, and 2 for every colour that is coded as a difference, whatever the difference; sorted. -/
theorem C199_luma_refuted {bd n cacheN : Nat} {cache colors : List Int} (hb : 2 ≤ bd) (h1 : 1 ≤ n) (hn : n ≤ colors.length) (hc : cacheN ≤ cache.length) :
    (palLuma bd n cacheN cache colors).Post L (fun r => r.length = colors.length ∧ r.drop n = colors.drop n ∧
      ∃ (ch : List Int) (v : Nat), List.Sublist ch (cache.take cacheN) ∧ v < 2 ^ bd ∧ (r.take n).Pairwise (· ≤ ·) ∧ (r.take n).Perm ((ch ++ (v : Int) :: List.replicate n 2).take n)) := by
  unfold palLuma
  refine Rd.Post.bind ((palFromCache_post cacheN 0 (colors, 0) (by omega) hn (by omega)).mono ?_)
  rintro s ⟨a1, -, a3, ch, a4, a5, a6, a7⟩
  refine Rd.Post.bind ((palFirst_post (bd := bd) (n := n) (s := s) (by dsimp only at a1; omega) a3).mono ?_)
  rintro t ⟨b1, v, b2, b3, b4, b5⟩
  refine Rd.Post.bind (palBits_post.mono ?_)
  rintro bits -
  dsimp only at a1 a5 a6
  refine Rd.Post.bind ((palDeltas_post hb n bits t (by omega) (by omega) (by omega) (by omega)).mono ?_)
  rintro u ⟨c1, c2, c3⟩
  rw [sort_post h1 (by omega)]
  have hl : (sortInts (u.1.take n)).length = n := by rw [(sortInts_perm _).length_eq, List.length_take]; omega
  have hall : u.1.take n = (ch ++ (v : Int) :: List.replicate n 2).take n := by
    rw [c2, b4, a6]
    simp only [List.take_zero, List.nil_append]
    rw [show ch ++ (v : Int) :: List.replicate n 2 = (ch ++ [(v : Int)]) ++ List.replicate n 2 by simp, List.take_append (l₁ := ch ++ [(v : Int)])]
    congr 1
    rw [List.take_replicate, List.length_append, List.length_singleton]
    congr 1
    omega
  refine ⟨?_, ?_, ch, v, by simpa using a4, b2, ?_, ?_⟩
  · simp only [List.length_append, hl, List.length_drop]
    omega
  · rw [List.drop_left' hl, c3, b5]
    have hd : s.1.drop n = ((s.1.drop s.2).drop (n - s.2)) := by rw [List.drop_drop]; congr 1; omega
    rw [hd, a7, List.drop_drop]
    congr 1
    omega
  · rw [List.take_left' hl]; exact sortInts_sorted _
  · rw [List.take_left' hl, ← hall]; exact sortInts_perm _

/-- **C199 (U, refuted).**  Colours that are taken from the cache for U are stored among the luma colours: U keeps, in their places, whatever it had before. -/
theorem C199_u_refuted {bd n cacheN : Nat} {cache colorsY colorsU : List Int} (hb : 2 ≤ bd) (h1 : 1 ≤ n) (hy : n ≤ colorsY.length) (hu : n ≤ colorsU.length) (hc : cacheN ≤ cache.length) :
    (palU bd n cacheN cache colorsY colorsU).Post L (fun r => ∃ (ch : List Int) (v : Nat), List.Sublist ch (cache.take cacheN) ∧ v < 2 ^ bd ∧ ch.length ≤ n ∧
      r.1 = ch ++ colorsY.drop ch.length ∧ (r.2.take n).Perm ((colorsU.take ch.length ++ (v : Int) :: List.replicate n 2).take n)) := by
  unfold palU
  refine Rd.Post.bind ((palFromCache_post cacheN 0 (colorsY, 0) (by omega) hy (by omega)).mono ?_)
  rintro s ⟨a1, -, a3, ch, a4, a5, a6, a7⟩
  dsimp only at a1 a5 a6 a7
  have hs2 : s.2 = ch.length := by omega
  refine Rd.Post.bind ((palFirst_post (bd := bd) (n := n) (s := (colorsU, s.2)) hu a3).mono ?_)
  rintro t ⟨b1, v, b2, b3, b4, b5⟩
  dsimp only at b1 b3 b4
  refine Rd.Post.bind (palBits_post.mono ?_)
  rintro bits -
  refine Rd.Post.bind ((palDeltas_post hb n bits t (by omega) (by omega) (by omega) (by omega)).mono ?_)
  rintro u ⟨c1, c2, c3⟩
  rw [sort_post h1 (by omega)]
  have hl : (sortInts (u.1.take n)).length = n := by rw [(sortInts_perm _).length_eq, List.length_take]; omega
  refine ⟨ch, v, by simpa using a4, b2, by omega, ?_, ?_⟩
  · rw [← hs2, ← List.take_append_drop s.2 s.1, a6, a7]
    simp
  · rw [List.take_left' hl]
    refine (sortInts_perm _).trans ?_
    rw [c2, b4, hs2]
    rw [show colorsU.take ch.length ++ (v : Int) :: List.replicate n 2 = (colorsU.take ch.length ++ [(v : Int)]) ++ List.replicate n 2 by simp,
      List.take_append (l₁ := colorsU.take ch.length ++ [(v : Int)])]
    rw [List.take_replicate, List.length_append, List.length_singleton, List.length_take]
    rw [show min (n - (min ch.length colorsU.length + 1)) n = n - t.2 by omega]

theorem palVDeltas_post {bd : Nat} (hb : 2 ≤ bd) {bits : Int} : ∀ (k idx : Nat) (c : List Int), 1 ≤ idx → idx + k ≤ c.length →
    (palVDeltas bd bits k idx c).Post L (fun r => r.take (idx + k) = c.take idx ++ List.replicate k 2 ∧ r.drop (idx + k) = c.drop (idx + k)) := by
  intro k
  induction k with
  | zero => intro idx c _ _; exact ⟨by simp, rfl⟩
  | succ k ih =>
    intro idx c h1 h2
    unfold palVDeltas
    refine Rd.Post.bind ((post_litI bits).mono ?_)
    intro d _
    refine Rd.Post.bind (Rd.Post.mono (Q := fun _ => True) ?_ ?_)
    · unfold palSign
      split
      · exact (post_lit 1).mono fun _ _ => trivial
      · trivial
    · intro neg _
      rw [show ((idx : Int) - 1) = ((idx - 1 : Nat) : Int) by omega, goGet_lt' (show idx - 1 < c.length by omega)]
      refine Rd.Post.bind (show Rd.Post L (Rd.ret _) _ from ?_)
      dsimp only [Rd.Post]
      rw [(C11_clip1_partial _ bd hb).1, goSet_lt' _ (show idx < c.length by omega)]
      refine (ih (idx + 1) (c.set idx 2) (by omega) (by simp; omega)).mono ?_
      rintro r ⟨g1, g2⟩
      refine ⟨?_, ?_⟩
      · rw [show idx + (k + 1) = idx + 1 + k by omega, g1, take_set_succ _ (by omega), List.append_assoc]
        rfl
      · rw [show idx + (k + 1) = idx + 1 + k by omega, g2, List.drop_set_of_lt (by omega)]

/-- **C199 (V, refuted).**  V colours that are coded as differences are 2, whatever the differences. -/
theorem C199_v_refuted {bd n : Nat} {bits : Int} {colors : List Int} (hb : 2 ≤ bd) (hn : n ≤ colors.length) (h1 : 1 ≤ n) :
    (palVDeltas bd bits (n - 1) 1 colors).Post L (fun r => r.take n = colors.take 1 ++ List.replicate (n - 1) 2) := by
  refine (palVDeltas_post hb (n - 1) 1 colors (by omega) (by omega)).mono ?_
  rintro r ⟨h, -⟩
  rw [show 1 + (n - 1) = n by omega] at h
  exact h

theorem palVDirect_says {bd : Nat} : ∀ (vs : List Nat) (idx : Nat) (c : List Int), (∀ v ∈ vs, v < 2 ^ bd) → idx + vs.length ≤ c.length →
    ∃ r, (palVDirect bd vs.length idx c).Says L (vs.flatMap (bitsMsb bd)) r ∧ r.take (idx + vs.length) = c.take idx ++ vs.map Int.ofNat ∧ r.drop (idx + vs.length) = c.drop (idx + vs.length) := by
  intro vs
  induction vs with
  | nil => intro idx c _ _; exact ⟨c, Rd.Says.ret _, by simp, rfl⟩
  | cons v vs ih =>
    intro idx c hv hl
    simp only [List.length_cons] at hl
    obtain ⟨r, k1, k2, k3⟩ := ih (idx + 1) (c.set idx (v : Int)) (fun x hx => hv x (by simp [hx])) (by simp; omega)
    refine ⟨r, ?_, ?_, ?_⟩
    · rw [List.flatMap_cons, List.length_cons]
      unfold palVDirect
      refine Rd.Says.bind (lit_says (hv v (by simp))) ?_
      rw [goSet_lt' _ (show idx < c.length by omega)]
      exact k1
    · rw [List.length_cons, show idx + (vs.length + 1) = idx + 1 + vs.length by omega, k2, take_set_succ _ (by omega)]
      simp
    · rw [List.length_cons, show idx + (vs.length + 1) = idx + 1 + vs.length by omega, k3, List.drop_set_of_lt (by omega)]

/-- **C199 (V, partial).**  V colours that are coded one by one are read as they were written, in their order, for every number of colours and bit depth. -/
theorem C199_v_partial {bd : Nat} {vs : List Nat} {colors : List Int} (hv : ∀ v ∈ vs, v < 2 ^ bd) (hn : vs.length ≤ colors.length) :
    (palV bd vs.length colors).Says L (0 :: vs.flatMap (bitsMsb bd)) (vs.map Int.ofNat ++ colors.drop vs.length) := by
  obtain ⟨r, k1, k2, k3⟩ := palVDirect_says (L := L) vs 0 colors hv (by omega)
  have hr : r = vs.map Int.ofNat ++ colors.drop vs.length := by
    rw [← List.take_append_drop (0 + vs.length) r, k2, k3]
    simp
  unfold palV
  refine Rd.Says.bind (m := [0]) (Rd.Says.lit1 (by omega)) ?_
  rw [if_neg (by simp), ← hr]
  exact k1

/-- **C199 (partial).**  A palette of which all but one colour come from the cache, or all: for every choice of cache entries and every other colour, the luma colours are those, sorted. -/
theorem C199_cache_partial {bd n cacheN : Nat} {cache colors : List Int} (h1 : 1 ≤ n) (hn : n ≤ colors.length) (hc : cacheN ≤ cache.length) (v : Nat) (hv : v < 2 ^ bd) (flags : List Bool)
    (hf : flags.length = cacheN) (hk : flags.count true = n - 1) :
    ∃ r, (palLuma bd n cacheN cache colors).Says L (flags.map (fun b => if b then 1 else 0) ++ bitsMsb bd v) r ∧ (r.take n).Pairwise (· ≤ ·) ∧
      (r.take n).Perm ((((cache.take cacheN).zip flags).filter (·.2)).map (·.1) ++ [(v : Int)]) ∧ r.drop n = colors.drop n := by
  have key : ∀ (flags : List Bool) (i : Nat) (s : List Int × Nat), i + flags.length ≤ cache.length → s.2 + flags.count true < n → n ≤ s.1.length →
      ∃ t : List Int × Nat, (palFromCache n cache flags.length i s).Says L (flags.map (fun b => if b then 1 else 0)) t ∧ t.1.length = s.1.length ∧ t.2 = s.2 + flags.count true ∧
        t.1.take t.2 = s.1.take s.2 ++ ((((cache.drop i).take flags.length).zip flags).filter (·.2)).map (·.1) ∧ t.1.drop n = s.1.drop n := by
    intro flags
    induction flags with
    | nil => intro i s _ _ _; exact ⟨s, Rd.Says.ret _, rfl, by simp, by simp, rfl⟩
    | cons b l ih =>
      intro i s g1 g2 g3
      simp only [List.length_cons] at g1
      have hd : (cache.drop i).take (l.length + 1) = cache[i]'(by omega) :: (cache.drop (i + 1)).take l.length := by
        rw [List.drop_eq_getElem_cons (show i < cache.length by omega), List.take_succ_cons]
      cases b with
      | false =>
        obtain ⟨t, k1, k2, k3, k4, k5⟩ := ih (i + 1) s (by omega) (by simpa using g2) g3
        refine ⟨t, ?_, k2, by simpa using k3, ?_, k5⟩
        · rw [List.length_cons]
          unfold palFromCache
          rw [if_pos (by simp at g2; omega)]
          refine Rd.Says.bind (m := [0]) (Rd.Says.lit1 (by omega)) ?_
          rw [if_neg (by simp)]
          exact k1
        · rw [k4, List.length_cons, hd]
          simp
      | true =>
        have g2' : s.2 + (l.count true + 1) < n := by simpa using g2
        obtain ⟨t, k1, k2, k3, k4, k5⟩ := ih (i + 1) (s.1.set s.2 (cache[i]'(by omega)), s.2 + 1) (by omega) (by dsimp only; omega) (by simpa using g3)
        refine ⟨t, ?_, by simpa using k2, ?_, ?_, ?_⟩
        · rw [List.length_cons]
          unfold palFromCache
          rw [if_pos (by omega)]
          refine Rd.Says.bind (m := [1]) (Rd.Says.lit1 (by omega)) ?_
          rw [if_pos (by simp), goGet_lt' (show i < cache.length by omega)]
          show (Rd.lift (goSet s.1 (s.2 : Int) (cache[i]'(by omega))) >>= fun c => palFromCache n cache l.length (i + 1) (c, s.2 + 1)).Says L _ _
          rw [goSet_lt' _ (show s.2 < s.1.length by omega)]
          exact k1
        · dsimp only at k3; simp; omega
        · rw [k4, List.length_cons, hd]
          dsimp only
          rw [take_set_succ _ (by omega)]
          simp
        · rw [k5]
          dsimp only
          rw [List.drop_set_of_lt (by omega)]
  obtain ⟨t, k1, k2, k3, k4, k5⟩ := key flags 0 (colors, 0) (by omega) (by dsimp only; omega) hn
  dsimp only at k2 k3 k5
  have hlt : t.2 < t.1.length := by omega
  have hset : (t.1.set t.2 (v : Int)).take n = t.1.take t.2 ++ [(v : Int)] := by rw [show n = t.2 + 1 by omega]; exact take_set_succ _ hlt
  have hl : (sortInts ((t.1.set t.2 (v : Int)).take n)).length = n := by rw [(sortInts_perm _).length_eq, List.length_take, List.length_set]; omega
  refine ⟨sortInts ((t.1.set t.2 (v : Int)).take n) ++ (t.1.set t.2 (v : Int)).drop n, ?_, ?_, ?_, ?_⟩
  · unfold palLuma
    rw [← hf]
    refine Rd.Says.bind k1 ?_
    rw [← List.append_nil (bitsMsb bd v)]
    refine Rd.Says.bind (a := (t.1.set t.2 (v : Int), t.2 + 1)) ?_ ?_
    · unfold palFirst
      rw [if_pos (by omega), ← List.append_nil (bitsMsb bd v)]
      refine Rd.Says.bind (lit_says hv) ?_
      rw [goSet_lt' _ hlt]
      exact Rd.Says.ret _
    · refine Rd.Says.bind (m := []) (a := 0) (by unfold palBits; rw [if_neg (by dsimp only; omega)]; exact Rd.Says.ret _) ?_
      refine Rd.Says.bind (m := []) (a := (t.1.set t.2 (v : Int), t.2 + 1)) (by
        cases n with
        | zero => omega
        | succ n => unfold palDeltas; rw [if_neg (by dsimp only; omega)]; exact Rd.Says.ret _) ?_
      rw [sort_post h1 (by rw [List.length_set]; omega)]
      exact Rd.Says.ret _
  · rw [List.take_left' hl]; exact sortInts_sorted _
  · rw [List.take_left' hl]
    refine (sortInts_perm _).trans ?_
    rw [hset, k4, ← hf]
    simp
  · rw [List.drop_left' hl, List.drop_set_of_lt (by omega), k5]

/-- **C199 (width, refuted).**  After the first luma colour of a palette of two and the 2 bits `e`, the difference is read from `bd - 1 + e` bits (AV1: `bd - 3 + e`), and does not matter. -/
theorem C199_width_refuted {bd v e d : Nat} {cache colors : List Int} (hb : 2 ≤ bd) (hn : 2 ≤ colors.length) (hv : v < 2 ^ bd) (he : e < 4) (hd : d < 2 ^ (bd - 1 + e)) :
    (palLuma bd 2 0 cache colors).Says L (bitsMsb bd v ++ (bitsMsb 2 e ++ bitsMsb (bd - 1 + e) d)) (sortInts [(v : Int), 2] ++ colors.drop 2) := by
  match colors, hn with
  | a :: b :: l, _ =>
    unfold palLuma
    refine Rd.Says.bind (m := []) (a := (a :: b :: l, 0)) (Rd.Says.ret _) ?_
    refine Rd.Says.bind (m := bitsMsb bd v) (a := ((v : Int) :: b :: l, 1)) ?_ ?_
    · unfold palFirst
      rw [if_pos (by simp), ← List.append_nil (bitsMsb bd v)]
      exact Rd.Says.bind (lit_says hv) (Rd.Says.ret _)
    · refine Rd.Says.bind (m := bitsMsb 2 e) (a := ((bd - 1 + e : Nat) : Int)) ?_ ?_
      · unfold palBits
        rw [if_pos (by simp), ← List.append_nil (bitsMsb 2 e)]
        refine Rd.Says.bind (lit_says he) ?_
        rw [show ((bd - 1 + e : Nat) : Int) = (bd : Int) - 1 + e by omega]
        exact Rd.Says.ret _
      · rw [← List.append_nil (bitsMsb (bd - 1 + e) d)]
        refine Rd.Says.bind (a := ((v : Int) :: 2 :: l, 2)) ?_ ?_
        · unfold palDeltas
          rw [if_pos (by simp), ← List.append_nil (bitsMsb (bd - 1 + e) d)]
          refine Rd.Says.bind (lit_says hd) ?_
          show (Rd.lift (goSet ((v : Int) :: b :: l) ((1 : Nat) : Int) (clip1 ((v : Int) + ((d : Int) + 1)) bd)) >>= fun c => palDeltas bd 2 1 1 (min ((bd - 1 + e : Nat) : Int) (ceilLog2 ((2 ^ bd : Nat) - clip1 ((v : Int) + ((d : Int) + 1)) bd - 1))) (c, 2)).Says L _ _
          rw [(C11_clip1_partial _ bd hb).1]
          show (palDeltas bd 2 1 1 (min ((bd - 1 + e : Nat) : Int) (ceilLog2 ((2 ^ bd : Nat) - 2 - 1))) ((v : Int) :: 2 :: l, 2)).Says L _ _
          unfold palDeltas
          rw [if_neg (by simp)]
          exact Rd.Says.ret _
        · rw [sort_post (by omega) (by simp)]
          exact Rd.Says.ret _

/-- Three colours of 8 bits: two of the cache 10, 20, 30 and 15. -/
example : (palLuma 8 3 3 [10, 20, 30, 0] (List.replicate 8 0)).run (cdfLayout 0) ([1, 0, 1] ++ bitsMsb 8 15) = .ok ([10, 15, 30, 0, 0, 0, 0, 0], []) := by decide +kernel

/-- The same for U: the colours of the cache are lost. -/
example : (palU 8 3 3 [10, 20, 30, 0] (List.replicate 8 0) (List.replicate 8 0)).run (cdfLayout 0) ([1, 0, 1] ++ bitsMsb 8 15) = .ok (([10, 30, 0, 0, 0, 0, 0, 0], [0, 0, 15, 0, 0, 0, 0, 0]), []) := by
  decide +kernel

end Gov1
