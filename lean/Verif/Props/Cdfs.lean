import Verif.Model.CdfWiring
import Verif.Props.Symbol
/-! # C42, C43: default probability tables -/
namespace Gov1
open Spec

/-- The Go `[]int` with the given contents. -/
def ints (l : List Nat) : List Int := List.map Int.ofNat l

/-- Decision procedure: strictly increasing from above `prev`, ending with `2^15` and a zero counter. -/
def checkCdf (prev : Nat) : List Nat → Bool
  | [] => false
  | c :: rest => decide (prev < c) && (if c = 32768 then rest == [0] else checkCdf c rest)

theorem checkCdf_sound (prev : Nat) (l : List Nat) (h : checkCdf prev l = true) :
    ∃ body, l = body ++ [32768, 0] ∧ (prev :: body ++ [32768]).Pairwise (· < ·) := by
  induction l generalizing prev with
  | nil => cases h
  | cons c rest ih =>
    rw [checkCdf, Bool.and_eq_true, decide_eq_true_eq] at h
    obtain ⟨h1, h2⟩ := h
    by_cases hc : c = 32768
    · rw [if_pos hc] at h2
      have : rest = [0] := by simpa using h2
      exact ⟨[], by simp [hc, this], by simp; omega⟩
    · rw [if_neg hc] at h2
      obtain ⟨body, rfl, hp⟩ := ih c h2
      refine ⟨c :: body, rfl, ?_⟩
      simp only [List.cons_append] at *
      refine List.Pairwise.cons ?_ hp
      intro x hx
      rcases List.mem_cons.mp hx with rfl | hx
      · exact h1
      · have := (List.pairwise_cons.mp hp).1 x hx; omega

/-- A valid CDF in its initial state: its values strictly increase and its counter is 0. -/
def FreshCdf (cdf : List Int) : Prop :=
  ValidCdf cdf ∧ cdf.getD (cdf.length - 1) 0 = 0 ∧
  ∀ i j, i < j → j + 1 < cdf.length → cdf.getD i 0 < cdf.getD j 0

theorem checkCdf_fresh (l : List Nat) (hl : l.length ≤ 17) (h : checkCdf 0 l = true) :
    FreshCdf (ints l) := by
  obtain ⟨body, rfl, hp⟩ := checkCdf_sound 0 l h
  have hlen : (ints (body ++ [32768, 0])).length = body.length + 2 := by simp [ints]
  have hg : ∀ i, i < body.length + 2 →
      (ints (body ++ [32768, 0])).getD i 0 = (((body ++ [32768, 0])[i]?).getD 0 : Nat) := by
    intro i hi
    have hi' : i < (body ++ [32768, 0]).length := by simpa using hi
    rw [List.getD, ints, List.getElem?_map, List.getElem?_eq_getElem hi']
    rfl
  have hg2 : ∀ i, i < body.length + 1 →
      (ints (body ++ [32768, 0])).getD i 0 = (((body ++ [32768])[i]?).getD 0 : Nat) := by
    intro i hi
    rw [hg i (by omega)]
    congr 2
    rcases Nat.lt_or_ge i body.length with h1 | h1
    · rw [List.getElem?_append_left h1, List.getElem?_append_left h1]
    · have : i = body.length := by omega
      subst this; simp
  have hlt : ∀ i j, i < j → j < body.length + 1 →
      (ints (body ++ [32768, 0])).getD i 0 < (ints (body ++ [32768, 0])).getD j 0 := by
    intro i j hij hj
    rw [hg2 i (by omega), hg2 j hj]
    have hp' : (body ++ [32768]).Pairwise (· < ·) := (List.pairwise_cons.mp hp).2
    have hl1 : (body ++ [32768]).length = body.length + 1 := by simp
    have := List.pairwise_iff_getElem.mp hp' i j (by omega) (by omega) hij
    rw [List.getElem?_eq_getElem (show i < (body ++ [32768]).length by omega),
      List.getElem?_eq_getElem (show j < (body ++ [32768]).length by omega)]
    simp only [Option.getD_some]
    exact_mod_cast this
  have hl' : body.length + 2 ≤ 17 := by simpa using hl
  refine ⟨⟨by omega, ?_, ?_, ?_, ?_⟩, ?_, ?_⟩
  · rw [hg2 0 (by omega)]
    have hl1 : (body ++ [32768]).length = body.length + 1 := by simp
    have := (List.pairwise_cons.mp hp).1 ((body ++ [32768])[0]'(by omega)) (List.getElem_mem _)
    rw [List.getElem?_eq_getElem (by omega)]
    simp only [Option.getD_some]
    exact_mod_cast this
  · intro i j hij hj
    rcases Nat.eq_or_lt_of_le hij with rfl | h1
    · exact le_refl _
    · exact le_of_lt (hlt i j h1 (by omega))
  · rw [hlen, hg _ (by omega)]; simp
  · rw [hlen, hg _ (by omega)]; simp
  · rw [hlen, hg _ (by omega)]; simp
  · intro i j hij hj
    exact hlt i j hij (by omega)

/-- The two tables that are wrong in the code. -/
def badTables : List String := ["DEFAULT_SKIP_MODE_CDF", "DEFAULT_SEGMENT_ID_PREDICTED_CDF"]

theorem tables_checked : defaultTables.all (fun p =>
    badTables.contains p.1 || p.2.all fun l => decide (l.length ≤ 17) && checkCdf 0 l) = true := by
  decide +kernel

/-- C43 (partial: two of the tables are excluded): every default CDF of every other table is a valid
distribution, strictly increasing, with a zero counter. -/
theorem C43_default_tables_partial (name : String) (tab : List (List Nat))
    (hmem : (name, tab) ∈ defaultTables) (hok : name ∉ badTables) :
    ∀ l ∈ tab, FreshCdf (ints l) := by
  intro l hl
  have h := List.all_eq_true.mp tables_checked _ hmem
  rw [Bool.or_eq_true] at h
  rcases h with h | h
  · exact absurd (by simpa using h) hok
  · have := List.all_eq_true.mp h l hl
    rw [Bool.and_eq_true, decide_eq_true_eq] at this
    exact checkCdf_fresh l this.1 this.2

/-- The excluded tables are a small minority: 94 of the 96 Go tables (139 of 141 counting the
coefficient tables once per quantizer class) are covered, about 5000 distributions. -/
example : defaultTables.length = 135 ∧
    (defaultTables.filter fun p => !badTables.contains p.1).length = 133 := by decide +kernel

/-- C43 is false of the code: no CDF of the segment-id-predicted table is valid (it ends with 32678),
and decoding with one panics in every decoder state on every stream. -/
theorem C43_segment_id_predicted_refuted :
    ("DEFAULT_SEGMENT_ID_PREDICTED_CDF", defaultSegmentIdPredictedCdf) ∈ defaultTables ∧
    ∀ l ∈ defaultSegmentIdPredictedCdf, ¬ ValidCdf (ints l) ∧
      ∀ (disable : Bool) (st : Sym) (bs : BitStream),
        readSymbol disable (ints l) st bs = .error (.explicit "Violated precondition") := by
  refine ⟨by decide +kernel, ?_⟩
  intro l hl
  have hl' : l = [16384, 32678, 0] := by
    simpa [defaultSegmentIdPredictedCdf] using hl
  subst hl'
  constructor
  · intro h; have := h.last; revert this; decide
  · intro disable st bs; rfl

/-- C43 is false of the code: the entries of the skip-mode table have their digits doubled, none is a
valid CDF, and decoding with one panics (negative shift) from every consistent decoder state. -/
theorem C43_skip_mode_refuted :
    ("DEFAULT_SKIP_MODE_CDF", defaultSkipModeCdf) ∈ defaultTables ∧
    ∀ l ∈ defaultSkipModeCdf, ¬ ValidCdf (ints l) ∧
      ∀ (disable : Bool) (st : Sym) (bs : BitStream), 2 ^ 15 ≤ st.range ∧ st.range < 2 ^ 16 →
        0 ≤ st.value ∧ st.value < st.range →
        readSymbol disable (ints l) st bs = .error .shift := by
  refine ⟨by decide +kernel, ?_⟩
  intro l hl
  have hl' : ∃ a : Nat, 81278127 ≤ a ∧ l = [a, 32768, 0] := by
    simp only [defaultSkipModeCdf, List.mem_cons, List.not_mem_nil, or_false] at hl
    rcases hl with rfl | rfl | rfl
    · exact ⟨_, by decide, rfl⟩
    · exact ⟨_, by decide, rfl⟩
    · exact ⟨_, by decide, rfl⟩
  obtain ⟨a, ha, rfl⟩ := hl'
  constructor
  · intro h
    have := h.mono 0 1 (by omega) (by simp [ints])
    simp [ints] at this
    omega
  · intro disable st bs hr hv
    have hf : (((1 <<< 15 : Nat) : Int) - (a : Int)) / 2 ^ 6 ≤ -1000000 := by
      have : ((1 <<< 15 : Nat) : Int) = 32768 := rfl
      omega
    have hR : 128 ≤ st.range / 2 ^ 8 := by omega
    have hprod : st.range / (2 : Int) ^ 8 * ((((1 <<< 15 : Nat) : Int) - (a : Int)) / 2 ^ 6) ≤ -128000000 := by
      generalize (((1 <<< 15 : Nat) : Int) - (a : Int)) / 2 ^ 6 = x at *
      generalize st.range / (2 : Int) ^ 8 = y at *
      nlinarith
    unfold readSymbol
    have h3 : (ints [a, 32768, 0]).length = 3 := rfl
    have hg : goGet (ints [a, 32768, 0]) ((3 : Nat) - 1 - 1) = .ok ((1 <<< 15 : Nat) : Int) := rfl
    simp only [h3, hg, BM.lift_ok, BM.pure_bind]
    rw [if_neg (by omega), if_neg (by simp)]
    have hcur : ∃ cur : Int, cur ≤ -60000000 ∧
        symLoop st.range st.value (((3 : Nat) : Int) - 1).toNat (ints [a, 32768, 0]) 0 st.range
          = .ok (0, st.range, cur) := by
      refine ⟨(st.range / (2 : Int) ^ 8 * ((((1 <<< 15 : Nat) : Int) - (a : Int)) / 2 ^ 6)) / 2 ^ 1
        + 4 * (((2 : Nat) : Int) - (0 : Nat) - 1), by omega, ?_⟩
      show symLoop st.range st.value 2 ((a : Int) :: _) 0 st.range = _
      unfold symLoop
      dsimp only
      simp only [ishr]
      rw [if_pos (by omega)]
    obtain ⟨cur, hc, hs⟩ := hcur
    rw [hs]
    simp only [BM.lift_ok, BM.pure_bind]
    have hpos : 0 < (st.range - cur).toNat := by omega
    have hlg : floorLog2Int (st.range - cur) = .ok (Nat.log2 (st.range - cur).toNat : Int) := by
      rw [floorLog2Int, if_neg (by omega), floorLog2_eq _ hpos]
    have h16 : 16 ≤ Nat.log2 (st.range - cur).toNat := by
      rw [Nat.le_log2 (by omega)]
      omega
    rw [hlg]
    simp only [BM.lift_ok, BM.pure_bind]
    rw [if_pos (by omega)]
    rfl

/-- All the usable default distributions, as the contexts of a frame without primary reference. -/
def startContexts : List (List Int) :=
  (defaultTables.filter fun p => !badTables.contains p.1).flatMap fun p => p.2.map ints

/-- C43/C38: with the default contexts (the two broken tables aside), decoding any number of symbols,
chosen in any way, from any tile data present in the stream, succeeds. -/
theorem C43_default_contexts_decode (disable : Bool) (sel : List Nat → Option Nat) (n sz : Nat)
    (bs : BitStream) (hsel : Selects sel startContexts) (hsz : 8 * sz ≤ (unread bs).length) :
    ∃ r, (do let st ← initSymbol sz
             decodeMany disable sel n [] startContexts st : BM _) bs = .ok r := by
  refine C38_never_fails disable sel n sz startContexts bs ?_ hsel hsz
  intro c hc
  simp only [startContexts, List.mem_flatMap, List.mem_filter, List.mem_map] at hc
  obtain ⟨⟨name, tab⟩, ⟨h1, h2⟩, l, h3, rfl⟩ := hc
  exact (C43_default_tables_partial name tab h1 (by simpa using h2) l h3).1

example : 4000 ≤ startContexts.length := by decide +kernel

/-! ## aliasing -/

/-- The int slices of the process: a Go `[]int` is an address into this list.  (The outer levels of
nested slices are not modelled: only innermost slices are written.) -/
abbrev Mem := List (List Int)

/-- internal/uncompressedheader/cdf.go:9-135: `state.XCdf = DEFAULT_X_CDF` copies slice headers, so
the frame contexts are the addresses of the global tables. -/
def frameContexts (globals : List Nat) : List Nat := globals

/-- internal/tilegroup/tile_group.go:480-579: `state.TileXCdf = state.XCdf`, again by reference. -/
def tileContexts (frame : List Nat) : List Nat := frame

/-- `symbol.ReadSymbol(ctx, ...)` where `ctx` is the slice at address `a` (symbol.go:14-66). -/
def readSymbolAt (disable : Bool) (a : Nat) (mem : Mem) (st : Sym) : BM (Nat × Mem × Sym) := do
  let cdf ← BM.lift (goGet mem a)
  let (s, cdf, st) ← readSymbol disable cdf st
  pure (s, mem.set a cdf, st)

/-- The probabilities a list of contexts denotes. -/
def contents (mem : Mem) (ctx : List Nat) : List (List Int) := ctx.map fun a => mem.getD a []

theorem readSymbolAt_ok {disable : Bool} {a : Nat} {mem mem' : Mem} {st st' : Sym} {bs bs' : BitStream}
    {s : Nat} (h : readSymbolAt disable a mem st bs = .ok ((s, mem', st'), bs')) :
    a < mem.length ∧ ∃ cdf', readSymbol disable (mem.getD a []) st bs = .ok ((s, cdf', st'), bs') ∧
      mem' = mem.set a cdf' := by
  rw [readSymbolAt] at h
  by_cases ha : a < mem.length
  · rw [goGet_nat mem a ha] at h
    simp only [BM.lift_ok, BM.pure_bind] at h
    obtain ⟨⟨s1, c1, st1⟩, b1, h1, h2⟩ := BM.bind_eq_ok.mp h
    cases h2
    exact ⟨ha, c1, by rw [getD_lt mem a [] ha]; exact h1, rfl⟩
  · exfalso
    have : goGet mem (a : Int) = .error .index := by
      unfold goGet
      rw [if_neg (by omega)]
      simp only [Int.toNat_natCast, List.getElem?_eq_none (Nat.le_of_not_lt ha)]
    rw [this] at h
    cases h

/-- C42 is false of the code: decoding a single adaptive symbol in a frame that starts from the
default tables changes the default table itself, so a later frame without primary reference does not
start from the same probabilities.  For every context, symbol, stream and decoder state. -/
theorem C42_defaults_constant_refuted (globals : List Nat) (a : Nat) (mem mem' : Mem) (st st' : Sym)
    (bs bs' : BitStream) (s : Nat)
    (ha : a ∈ tileContexts (frameContexts globals)) (hfresh : FreshCdf (mem.getD a []))
    (hr : 2 ^ 15 ≤ st.range ∧ st.range < 2 ^ 16) (hx : 0 ≤ st.value ∧ st.value < st.range)
    (h : readSymbolAt false a mem st bs = .ok ((s, mem', st'), bs')) :
    contents mem' (frameContexts globals) ≠ contents mem (frameContexts globals) := by
  obtain ⟨hlt, cdf', hread, rfl⟩ := readSymbolAt_ok h
  obtain ⟨s0, hs, _, _, heq⟩ := readSymbol_aux false hfresh.1 ⟨hr.1, hr.2, hx.1, hx.2⟩
  rw [heq bs] at hread
  intro hcon
  cases hF : F (min (15 - Nat.log2 (highEnd st.range (mem.getD a []) s0
      - lowEnd st.range (mem.getD a []) s0).toNat) st.maxBits.toNat) bs with
  | error e => rw [hF] at hread; cases hread
  | ok p =>
    rw [hF] at hread
    obtain ⟨v, b⟩ := p
    simp only [Bool.false_eq_true, if_false, Except.ok.injEq, Prod.mk.injEq] at hread
    obtain ⟨⟨-, hc, -⟩, -⟩ := hread
    have h1 : (mem.set a cdf').getD a [] = mem.getD a [] := by
      simp only [contents] at hcon
      exact List.map_inj_left.mp hcon a ha
    have h2 : (mem.set a cdf').getD a [] = cdf' := by simp [List.getD, hlt]
    rw [h2, ← hc] at h1
    have h3 := congrArg (fun l => l.getD (symbols (mem.getD a [])) 0) h1
    have hl := hfresh.1.len
    rw [adapted_getD _ _ _ (by simp only [symbols]; omega)] at h3
    rw [if_neg (by omega), if_pos rfl] at h3
    have h4 := hfresh.2.1
    have h5 : (mem.getD a []).getD (symbols (mem.getD a [])) 0 = 0 := h4
    split at h3 <;> omega

/-- C42 (partial): with adaptation disabled the default tables are not changed. -/
theorem C42_defaults_constant_partial (globals : List Nat) (a : Nat) (mem mem' : Mem) (st st' : Sym)
    (bs bs' : BitStream) (s : Nat) (hv : ValidCdf (mem.getD a []))
    (hr : 2 ^ 15 ≤ st.range ∧ st.range < 2 ^ 16) (hx : 0 ≤ st.value ∧ st.value < st.range)
    (h : readSymbolAt true a mem st bs = .ok ((s, mem', st'), bs')) :
    contents mem' (frameContexts globals) = contents mem (frameContexts globals) := by
  obtain ⟨hlt, cdf', hread, rfl⟩ := readSymbolAt_ok h
  obtain ⟨s0, hs, _, _, heq⟩ := readSymbol_aux true hv ⟨hr.1, hr.2, hx.1, hx.2⟩
  rw [heq bs] at hread
  cases hF : F (min (15 - Nat.log2 (highEnd st.range (mem.getD a []) s0
      - lowEnd st.range (mem.getD a []) s0).toNat) st.maxBits.toNat) bs with
  | error e => rw [hF] at hread; cases hread
  | ok p =>
    rw [hF] at hread
    obtain ⟨v, b⟩ := p
    simp only [if_true, Except.ok.injEq, Prod.mk.injEq] at hread
    obtain ⟨⟨-, hc, -⟩, -⟩ := hread
    rw [← hc, getD_lt mem a [] hlt, List.set_getElem_self]

/-- The refutation applies: a concrete first read from the default intra-bc table. -/
example : readSymbolAt false 0 (defaultIntrabcCdf.map ints) ⟨2 ^ 15, 12345, 17⟩
    (newBitStream [1, 2, 3, 4]) = .ok ((0, [[30670, 32768, 1]], ⟨61176, 20331, 16⟩), ⟨[1, 2, 3, 4], 1, 0⟩) := by
  decide +kernel
example : FreshCdf ((defaultIntrabcCdf.map ints).getD 0 []) :=
  checkCdf_fresh _ (by decide) (by decide)

/-! ## wiring of contexts (C61) -/

/-- C61 (partial): every tile context is made to refer to a frame context that the initialisation of
an independent frame assigns, or directly to a default table that exists, except `RefMvCdf`. -/
theorem C61_contexts_wired_partial : ∀ p ∈ tileWiring, p.1 ≠ "TileRefMvCdf" →
    (∃ q ∈ frameWiring, q.1 = p.2 ∧
      ((∃ t ∈ defaultTables, t.1 = q.2) ∨ ∀ k < 4, ∃ t ∈ defaultTables, t.1 = q.2 ++ s!"[{k}]")) ∨
    ∃ t ∈ defaultTables, t.1 = p.2 := by
  decide +kernel

/-- C61 is false of the code: the reference-motion-vector context of a tile refers to a frame context
that nothing initialises (it stays nil). -/
theorem C61_contexts_wired_refuted :
    ("TileRefMvCdf", "RefMvCdf") ∈ tileWiring ∧ ∀ q ∈ frameWiring, q.1 ≠ "RefMvCdf" := by
  decide +kernel

end Gov1
