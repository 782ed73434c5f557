import Verif.Lemmas.Rd
/-!
# C93: what the block syntax reads is exactly a sequence of in-range symbols

`Rd.exec` (the arithmetic decoder on bytes) and `Rd.run` (a list of replies) are related in both
directions.  All later statements about block syntax are made about `Rd.run`, `Rd.Post` or `Rd.Wlp` and
hold of the decoder on bytes by the theorems of this file.
-/
namespace Gov1
open Spec

/-- The store holds, for every array the layout knows, a valid CDF with the right number of symbols. -/
structure Layout.Fits (L : Layout) (cdfs : List (List Int)) : Prop where
  valid : AllValid cdfs
  slots : ∀ t idx n, L.count t idx = some n → ∃ i, L.slot t idx = some i ∧ ∃ h : i < cdfs.length, symbols cdfs[i] = n
  known : ∀ t idx i, L.slot t idx = some i → ∃ n, L.count t idx = some n

/-- One symbol, for all data. -/
theorem readSymbol_step (disable : Bool) {cdf : List Int} (hv : ValidCdf cdf) {st : Sym} (hi : SymInv st)
    (bs : BitStream) :
    (∃ s cdf' st' bs', readSymbol disable cdf st bs = .ok ((s, cdf', st'), bs') ∧ s < symbols cdf ∧
      ValidCdf cdf' ∧ cdf'.length = cdf.length ∧ SymInv st' ∧ bs'.data = bs.data ∧
      bs'.pos + st'.maxBits.toNat = bs.pos + st.maxBits.toNat ∧ st'.maxBits ≤ st.maxBits) ∨
    (readSymbol disable cdf st bs = .error .index ∧ (unread bs).length < st.maxBits.toNat) := by
  have hrun := decodeMany_run disable (fun _ => some 0) 1 [] [cdf] st bs
    (by intro c hc; rw [List.mem_singleton] at hc; rw [hc]; exact hv) (by intro h i hh; cases hh; simp) hi
  have hs := decodeMany_succ disable (fun _ => some 0) 0 [] [cdf] st bs (by intro i hh; cases hh; simp)
  have hpick : pick [cdf] (some 0) = cdf := rfl
  simp only [hpick] at hs
  rw [hs] at hrun
  cases hr : readSymbol disable cdf st bs with
  | error e =>
    rw [hr] at hrun
    rcases hrun with ⟨_, _, _, _, h, _⟩ | h
    · cases h
    · simp only at h
      obtain ⟨h1, h2⟩ := h
      cases h1
      exact .inr ⟨rfl, h2⟩
  | ok r =>
    obtain ⟨⟨s, cdf', st'⟩, bs'⟩ := r
    rw [hr] at hrun
    left
    rcases hrun with ⟨msg, cdfs', st1, bs1, h, -, -, -, -, h6, -, h8, h9, -, h11⟩ | h
    · have h : decodeMany disable (fun _ => some 0) 0 [s] (putCdf [cdf] (some 0) cdf') st' bs' = _ := h
      rw [decodeMany] at h
      cases h
      obtain ⟨a, b, c⟩ := C37_symbol disable cdf st bs _ s cdf' _ hv ⟨hi.1, hi.2.1⟩ ⟨hi.2.2.1, hi.2.2.2⟩ hr
      exact ⟨s, cdf', _, _, rfl, a, b, c, h6, h9, h11, h8⟩
    · have h : decodeMany disable (fun _ => some 0) 0 [s] (putCdf [cdf] (some 0) cdf') st' bs' = _ ∧ _ := h
      rw [decodeMany] at h
      cases h.1

theorem Layout.Fits.set {L : Layout} {cdfs : List (List Int)} (h : L.Fits cdfs) {i : Nat} (hi : i < cdfs.length)
    {c : List Int} (hc : ValidCdf c) (hl : c.length = cdfs[i].length) : L.Fits (cdfs.set i c) := by
  refine ⟨set_valid h.valid i hc, ?_, h.known⟩
  intro t idx n hn
  obtain ⟨j, h1, h2, h3⟩ := h.slots t idx n hn
  refine ⟨j, h1, by simpa using h2, ?_⟩
  rw [List.getElem_set]
  split
  · rename_i he
    subst he
    rw [← h3]
    simp only [symbols, hl]
  · exact h3

theorem exec_sym {α : Type} {L : Layout} {disable : Bool} {t : String} {idx : List Int} {k : Nat → Rd α}
    {cdfs : List (List Int)} {st : Sym} {bs : BitStream} {i : Nat} (hslot : L.slot t idx = some i)
    (hi : i < cdfs.length) :
    (Rd.sym t idx k).exec L disable cdfs st bs = match readSymbol disable cdfs[i] st bs with
      | .error e => .error e
      | .ok ((s, cdf, st'), bs') => (k s).exec L disable (cdfs.set i cdf) st' bs' := by
  rw [Rd.exec, hslot]
  simp only
  rw [goGet_nat cdfs i hi]
  simp only [BM.lift_ok, BM.pure_bind]
  rw [BM.bind_apply]
  cases readSymbol disable cdfs[i] st bs <;> rfl

theorem exec_bit {α : Type} {L : Layout} {disable : Bool} {k : Nat → Rd α}
    {cdfs : List (List Int)} {st : Sym} {bs : BitStream} :
    (Rd.bit k).exec L disable cdfs st bs = match readSymbol disable [2 ^ 14, 2 ^ 15, 0] st bs with
      | .error e => .error e
      | .ok ((s, _, st'), bs') => (k s).exec L disable cdfs st' bs' := by
  rw [Rd.exec, readBool]
  have e1 : [((1 <<< 14 : Nat) : Int), ((1 <<< 15 : Nat) : Int), 0] = [2 ^ 14, 2 ^ 15, 0] := rfl
  rw [e1]
  simp only [BM.bind_apply]
  cases readSymbol disable [2 ^ 14, 2 ^ 15, 0] st bs <;> rfl

theorem unread_step {bs bs' : BitStream} {m m' : Nat} (hd : bs'.data = bs.data) (hp : bs'.pos + m' = bs.pos + m)
    (hm : m' ≤ m) (h : m ≤ (unread bs).length) : m' ≤ (unread bs').length := by
  simp only [unread, List.length_drop] at *
  rw [hd]
  omega

/-- **C93, soundness.**  For every program of block syntax, every store of valid CDFs and all data: if the
decoder returns, the program returned the same result on some list of replies, each below the number of
symbols of its CDF; the CDFs stay valid and of the same sizes, the decoder state stays within its
invariant. -/
theorem C93_sound {α : Type} (L : Layout) (disable : Bool) (p : Rd α) (cdfs cdfs' : List (List Int)) (st st' : Sym)
    (bs bs' : BitStream) (a : α) (hL : L.Fits cdfs) (hr : 2 ^ 15 ≤ st.range ∧ st.range < 2 ^ 16)
    (hx : 0 ≤ st.value ∧ st.value < st.range)
    (h : p.exec L disable cdfs st bs = .ok ((a, cdfs', st'), bs')) :
    (∃ msg, p.run L msg = .ok (a, [])) ∧ L.Fits cdfs' ∧ (2 ^ 15 ≤ st'.range ∧ st'.range < 2 ^ 16) ∧
    (0 ≤ st'.value ∧ st'.value < st'.range) := by
  have hi : SymInv st := ⟨hr.1, hr.2, hx.1, hx.2⟩
  clear hr hx
  induction p generalizing cdfs st bs with
  | ret a => cases h; exact ⟨⟨[], rfl⟩, hL, ⟨hi.1, hi.2.1⟩, hi.2.2.1, hi.2.2.2⟩
  | fail e => cases h
  | sym t idx k ih =>
    cases hslot : L.slot t idx with
    | none => rw [Rd.exec, hslot] at h; cases h
    | some i =>
      obtain ⟨n, hn⟩ := hL.known t idx i hslot
      obtain ⟨j, hj, hlt, hsym⟩ := hL.slots t idx n hn
      rw [hslot] at hj
      cases hj
      rw [exec_sym hslot hlt] at h
      have hv : ValidCdf cdfs[i] := hL.valid _ (List.getElem_mem hlt)
      rcases readSymbol_step disable hv hi bs with ⟨s, cdf', st1, bs1, e, h1, h2, h3, h4, -, -, -⟩ | ⟨e, -⟩
      · rw [e] at h
        obtain ⟨⟨msg, hm⟩, r⟩ := ih s (cdfs.set i cdf') st1 bs1 (hL.set hlt h2 h3) h h4
        exact ⟨⟨s :: msg, Rd.run_sym.mpr ⟨n, s, msg, hn, rfl, by omega, hm⟩⟩, r⟩
      · rw [e] at h; cases h
  | bit k ih =>
    rw [exec_bit] at h
    rcases readSymbol_step disable boolCdf_valid hi bs with ⟨s, cdf', st1, bs1, e, h1, h2, h3, h4, -, -, -⟩ | ⟨e, -⟩
    · rw [e] at h
      obtain ⟨⟨msg, hm⟩, r⟩ := ih s cdfs st1 bs1 hL h h4
      exact ⟨⟨s :: msg, Rd.run_bit.mpr ⟨s, msg, rfl, h1, hm⟩⟩, r⟩
    · rw [e] at h; cases h

/-- **C93, totality.**  A program that neither panics nor leaves `Q` on any in-range replies never panics on
any data, as long as the tile's bytes are there, and its result satisfies `Q`. -/
theorem C93_total {α : Type} (L : Layout) (disable : Bool) (p : Rd α) (Q : α → Prop) (hp : p.Post L Q)
    (cdfs : List (List Int)) (hL : L.Fits cdfs) (sz : Nat) (bs : BitStream) (hsz : 8 * sz ≤ (unread bs).length) :
    ∃ a cdfs' st' bs', (do let st ← initSymbol sz
                           p.exec L disable cdfs st : BM _) bs = .ok ((a, cdfs', st'), bs') ∧ Q a := by
  have key : ∀ (p : Rd α) (cdfs : List (List Int)) (st : Sym) (bs : BitStream), p.Post L Q → L.Fits cdfs →
      SymInv st → st.maxBits.toNat ≤ (unread bs).length →
      ∃ a cdfs' st' bs', p.exec L disable cdfs st bs = .ok ((a, cdfs', st'), bs') ∧ Q a := by
    intro p
    induction p with
    | ret a => intro cdfs st bs hp _ _ _; exact ⟨a, cdfs, st, bs, rfl, hp⟩
    | fail e => intro cdfs st bs hp; cases hp
    | sym t idx k ih =>
      intro cdfs st bs hp hL hi hlen
      obtain ⟨n, hn, hk⟩ := hp
      obtain ⟨i, hslot, hlt, hsym⟩ := hL.slots t idx n hn
      rw [exec_sym hslot hlt]
      have hv : ValidCdf cdfs[i] := hL.valid _ (List.getElem_mem hlt)
      rcases readSymbol_step disable hv hi bs with ⟨s, cdf', st1, bs1, e, h1, h2, h3, h4, h5, h6, h7⟩ | ⟨e, h⟩
      · rw [e]
        exact ih s (cdfs.set i cdf') st1 bs1 (hk s (by omega)) (hL.set hlt h2 h3) h4 (unread_step h5 h6 (by omega) hlen)
      · omega
    | bit k ih =>
      intro cdfs st bs hp hL hi hlen
      rw [exec_bit]
      rcases readSymbol_step disable boolCdf_valid hi bs with ⟨s, cdf', st1, bs1, e, h1, h2, h3, h4, h5, h6, h7⟩ | ⟨e, h⟩
      · rw [e]
        exact ih s cdfs st1 bs1 (hp s h1) hL h4 (unread_step h5 h6 (by omega) hlen)
      · omega
  have hu : unread bs = (unread bs).take (8 * sz) ++ (unread bs).drop (8 * sz) :=
    (List.take_append_drop _ _).symm
  have h0 := initSymbol_ok (sz := sz) hu (by simp [hsz])
  obtain ⟨hi, hm, hd, hpos⟩ := initSymbol_inv h0
  rw [BM.bind_ok h0]
  exact key p cdfs _ _ hp hL hi (unread_step (m := 8 * sz) hd hpos (by omega) hsz)

/-- **C93, safety.**  The same for a program with an unbounded loop: on any data it returns a result in `Q`, or it
stays in the loop. -/
theorem C93_safe {α : Type} (L : Layout) (disable : Bool) (p : Rd α) (Q : α → Prop) (hp : p.Safe L Q)
    (cdfs : List (List Int)) (hL : L.Fits cdfs) (sz : Nat) (bs : BitStream) (hsz : 8 * sz ≤ (unread bs).length) :
    (∃ a cdfs' st' bs', (do let st ← initSymbol sz
                            p.exec L disable cdfs st : BM _) bs = .ok ((a, cdfs', st'), bs') ∧ Q a) ∨
    (do let st ← initSymbol sz
        p.exec L disable cdfs st : BM _) bs = .error .hang := by
  have key : ∀ (p : Rd α) (cdfs : List (List Int)) (st : Sym) (bs : BitStream), p.Safe L Q → L.Fits cdfs →
      SymInv st → st.maxBits.toNat ≤ (unread bs).length →
      (∃ a cdfs' st' bs', p.exec L disable cdfs st bs = .ok ((a, cdfs', st'), bs') ∧ Q a) ∨
      p.exec L disable cdfs st bs = .error .hang := by
    intro p
    induction p with
    | ret a => intro cdfs st bs hp _ _ _; exact .inl ⟨a, cdfs, st, bs, rfl, hp⟩
    | fail e => intro cdfs st bs hp _ _ _; cases hp; exact .inr rfl
    | sym t idx k ih =>
      intro cdfs st bs hp hL hi hlen
      obtain ⟨n, hn, hk⟩ := hp
      obtain ⟨i, hslot, hlt, hsym⟩ := hL.slots t idx n hn
      rw [exec_sym hslot hlt]
      have hv : ValidCdf cdfs[i] := hL.valid _ (List.getElem_mem hlt)
      rcases readSymbol_step disable hv hi bs with ⟨s, cdf', st1, bs1, e, h1, h2, h3, h4, h5, h6, h7⟩ | ⟨e, h⟩
      · rw [e]
        exact ih s (cdfs.set i cdf') st1 bs1 (hk s (by omega)) (hL.set hlt h2 h3) h4 (unread_step h5 h6 (by omega) hlen)
      · omega
    | bit k ih =>
      intro cdfs st bs hp hL hi hlen
      rw [exec_bit]
      rcases readSymbol_step disable boolCdf_valid hi bs with ⟨s, cdf', st1, bs1, e, h1, h2, h3, h4, h5, h6, h7⟩ | ⟨e, h⟩
      · rw [e]
        exact ih s cdfs st1 bs1 (hp s h1) hL h4 (unread_step h5 h6 (by omega) hlen)
      · omega
  have hu : unread bs = (unread bs).take (8 * sz) ++ (unread bs).drop (8 * sz) :=
    (List.take_append_drop _ _).symm
  have h0 := initSymbol_ok (sz := sz) hu (by simp [hsz])
  obtain ⟨hi, hm, hd, hpos⟩ := initSymbol_inv h0
  rw [BM.bind_ok h0]
  exact key p cdfs _ _ hp hL hi (unread_step (m := 8 * sz) hd hpos (by omega) hsz)

/-- Which CDF a program asks for after a history of replies. -/
def Rd.sel {α : Type} (L : Layout) : Rd α → List Nat → Option Nat
  | .ret _, _ => none
  | .fail _, _ => none
  | .sym t idx _, [] => L.slot t idx
  | .sym _ _ k, s :: h => (k s).sel L h
  | .bit _, [] => none
  | .bit k, s :: h => (k s).sel L h

theorem codable_of_run {α : Type} {L : Layout} (disable : Bool) (sel : List Nat → Option Nat) (p : Rd α)
    (hist msg : List Nat) (cdfs : List (List Int)) (a : α) (hL : L.Fits cdfs) (hsel : ∀ h, sel (hist ++ h) = p.sel L h)
    (h : p.run L msg = .ok (a, [])) : Codable disable sel msg hist cdfs := by
  induction p generalizing hist msg cdfs with
  | ret b => cases h; trivial
  | fail e => cases h
  | sym t idx k ih =>
    obtain ⟨n, s, l, hn, rfl, hs, h⟩ := Rd.run_sym.mp h
    obtain ⟨i, hslot, hlt, hsym⟩ := hL.slots t idx n hn
    have h0 : sel hist = some i := by have := hsel []; rw [List.append_nil] at this; rw [this]; exact hslot
    have hpick : pick cdfs (some i) = cdfs[i] := by rw [pick, getD_lt cdfs i [] hlt]
    have hv := hL.valid _ (List.getElem_mem hlt)
    refine ⟨?_, ?_, ?_⟩
    · intro j hj; rw [h0] at hj; cases hj; exact hlt
    · rw [h0, hpick, hsym]; exact hs
    · refine ih s (hist ++ [s]) l _ ?_ ?_ h
      · rw [h0, updated]
        cases disable
        · simp only [Bool.false_eq_true, if_false]
          exact hL.set hlt (by rw [getD_lt cdfs i [] hlt]; exact adapted_valid hv s)
            (by rw [getD_lt cdfs i [] hlt, adapted_length])
        · exact hL
      · intro h'
        rw [List.append_assoc, List.singleton_append, hsel (s :: h')]
        rfl
  | bit k ih =>
    obtain ⟨s, l, rfl, hs, h⟩ := Rd.run_bit.mp h
    have h0 : sel hist = none := by have := hsel []; rw [List.append_nil] at this; rw [this]; rfl
    refine ⟨?_, ?_, ?_⟩
    · intro j hj; rw [h0] at hj; cases hj
    · rw [h0]; exact hs
    · refine ih s (hist ++ [s]) l _ ?_ ?_ h
      · rw [h0]; exact hL
      · intro h'
        rw [List.append_assoc, List.singleton_append, hsel (s :: h')]
        rfl

theorem decodeMany_prefix {disable : Bool} {sel : List Nat → Option Nat} {n : Nat} {hist h' : List Nat}
    {cdfs cdfs' : List (List Int)} {st st' : Sym} {bs bs' : BitStream}
    (h : decodeMany disable sel n hist cdfs st bs = .ok ((h', cdfs', st'), bs')) : h'.take hist.length = hist := by
  induction n generalizing hist cdfs st bs with
  | zero => rw [decodeMany] at h; cases h; exact List.take_length
  | succ n ih =>
    have key : ∀ s : Nat, h'.take (hist ++ [s]).length = hist ++ [s] → h'.take hist.length = hist := by
      intro s hs
      have : (h'.take (hist ++ [s]).length).take hist.length = (hist ++ [s]).take hist.length := by rw [hs]
      rw [List.take_take, List.take_append_of_le_length (le_refl _), List.take_length] at this
      rwa [Nat.min_eq_left (by simp)] at this
    cases hs : sel hist with
    | some i =>
      simp only [decodeMany, hs] at h
      obtain ⟨c, s1, -, h⟩ := BM.bind_eq_ok.mp h
      obtain ⟨⟨s, cdf, st1⟩, s2, -, h⟩ := BM.bind_eq_ok.mp h
      exact key s (ih h)
    | none =>
      simp only [decodeMany, hs] at h
      obtain ⟨⟨s, st1⟩, s2, -, h⟩ := BM.bind_eq_ok.mp h
      exact key s (ih h)

theorem exec_of_decodeMany {α : Type} {L : Layout} (disable : Bool) (sel : List Nat → Option Nat) (p : Rd α)
    (hist msg : List Nat) (cdfs cdfs' : List (List Int)) (st st' : Sym) (bs bs' : BitStream) (a : α)
    (hL : L.Fits cdfs) (hi : SymInv st) (hsel : ∀ h, sel (hist ++ h) = p.sel L h)
    (h : p.run L msg = .ok (a, []))
    (hd : decodeMany disable sel msg.length hist cdfs st bs = .ok ((hist ++ msg, cdfs', st'), bs')) :
    p.exec L disable cdfs st bs = .ok ((a, cdfs', st'), bs') := by
  induction p generalizing hist msg cdfs st bs with
  | ret b => cases h; rw [List.append_nil] at hd; cases hd; rfl
  | fail e => cases h
  | sym t idx k ih =>
    obtain ⟨n, s, l, hn, rfl, hs, h⟩ := Rd.run_sym.mp h
    obtain ⟨i, hslot, hlt, hsym⟩ := hL.slots t idx n hn
    have h0 : sel hist = some i := by have := hsel []; rw [List.append_nil] at this; rw [this]; exact hslot
    have hpick : pick cdfs (some i) = cdfs[i] := by rw [pick, getD_lt cdfs i [] hlt]
    have hv : ValidCdf cdfs[i] := hL.valid _ (List.getElem_mem hlt)
    rw [List.length_cons, decodeMany_succ _ _ _ _ _ _ _ (by intro j hj; rw [h0] at hj; cases hj; exact hlt), h0, hpick] at hd
    rw [exec_sym hslot hlt]
    rcases readSymbol_step disable hv hi bs with ⟨s1, cdf1, st1, bs1, e, -, h2, h3, h4, -, -, -⟩ | ⟨e, -⟩
    · rw [e] at hd ⊢
      have hd : decodeMany disable sel l.length (hist ++ [s1]) (cdfs.set i cdf1) st1 bs1 = _ := hd
      show (k s1).exec L disable (cdfs.set i cdf1) st1 bs1 = _
      have hs1 : s1 = s := by
        have := decodeMany_prefix hd
        have e2 : (hist ++ [s1]).length = hist.length + 1 := by simp
        rw [e2] at this
        have t1 : (hist ++ s :: l).take (hist.length + 1) = hist ++ [s] := by
          rw [show hist ++ s :: l = (hist ++ [s]) ++ l by simp]
          rw [List.take_append_of_le_length (by simp)]
          exact List.take_of_length_le (by simp)
        rw [t1] at this
        have := List.append_cancel_left this
        simpa using this.symm
      subst hs1
      refine ih s1 (hist ++ [s1]) l _ st1 bs1 (hL.set hlt h2 h3) h4 ?_ h (by rw [List.append_assoc, List.singleton_append]; exact hd)
      intro h'
      rw [List.append_assoc, List.singleton_append, hsel (s1 :: h')]
      rfl
    · rw [e] at hd; cases hd
  | bit k ih =>
    obtain ⟨s, l, rfl, hs, h⟩ := Rd.run_bit.mp h
    have h0 : sel hist = none := by have := hsel []; rw [List.append_nil] at this; rw [this]; rfl
    rw [List.length_cons, decodeMany_succ _ _ _ _ _ _ _ (by intro j hj; rw [h0] at hj; cases hj), h0] at hd
    rw [exec_bit]
    have hpick : pick cdfs none = [2 ^ 14, 2 ^ 15, 0] := rfl
    rw [hpick] at hd
    rcases readSymbol_step disable boolCdf_valid hi bs with ⟨s1, cdf1, st1, bs1, e, -, h2, h3, h4, -, -, -⟩ | ⟨e, -⟩
    · rw [e] at hd ⊢
      have hd : decodeMany disable sel l.length (hist ++ [s1]) cdfs st1 bs1 = _ := hd
      show (k s1).exec L disable cdfs st1 bs1 = _
      have hs1 : s1 = s := by
        have := decodeMany_prefix hd
        have e2 : (hist ++ [s1]).length = hist.length + 1 := by simp
        rw [e2] at this
        have t1 : (hist ++ s :: l).take (hist.length + 1) = hist ++ [s] := by
          rw [show hist ++ s :: l = (hist ++ [s]) ++ l by simp]
          rw [List.take_append_of_le_length (by simp)]
          exact List.take_of_length_le (by simp)
        rw [t1] at this
        have := List.append_cancel_left this
        simpa using this.symm
      subst hs1
      refine ih s1 (hist ++ [s1]) l _ st1 bs1 hL h4 ?_ h (by rw [List.append_assoc, List.singleton_append]; exact hd)
      intro h'
      rw [List.append_assoc, List.singleton_append, hsel (s1 :: h')]
      rfl
    · rw [e] at hd; cases hd

/-- **C93, completeness.**  For every program of block syntax, every store and every list of replies on
which the program returns `a`, there are tile data from which the decoder returns `a`. -/
theorem C93_complete {α : Type} (L : Layout) (disable : Bool) (p : Rd α) (cdfs : List (List Int)) (hL : L.Fits cdfs)
    (msg : List Nat) (a : α) (h : p.run L msg = .ok (a, [])) :
    ∃ (data : List UInt8) (cdfs' : List (List Int)) (st' : Sym) (bs' : BitStream),
      (do let st ← initSymbol data.length
          p.exec L disable cdfs st : BM _) (newBitStream data) = .ok ((a, cdfs', st'), bs') := by
  obtain ⟨data, -, st', bs', hdec⟩ := C39_encodable disable (p.sel L) msg cdfs hL.valid
    (codable_of_run disable _ p [] msg cdfs a hL (fun _ => rfl) h)
  obtain ⟨st, bs1, h1, h2⟩ := BM.bind_eq_ok.mp hdec
  obtain ⟨hi, -⟩ := initSymbol_inv h1
  refine ⟨data, (encode disable (p.sel L) msg [] cdfs encInit).2, st', bs', ?_⟩
  rw [BM.bind_ok h1]
  exact exec_of_decodeMany disable (p.sel L) p [] msg cdfs _ st st' bs1 bs' a hL hi (fun _ => rfl) h h2

/-- A layout of two arrays, with three and two symbols. -/
def demoLayout : Layout :=
  ⟨fun t idx => if t = "A" ∧ idx = [0] then some 0 else if t = "A" ∧ idx = [1] then some 1 else none,
   fun t idx => if t = "A" ∧ idx = [0] then some 3 else if t = "A" ∧ idx = [1] then some 2 else none⟩

theorem demo_fits : demoLayout.Fits demoCdfs := by
  refine ⟨demo_valid, ?_, ?_⟩
  · intro t idx n h
    simp only [demoLayout] at h ⊢
    split at h
    · cases h; exact ⟨0, by simp [*], by decide, rfl⟩
    · split at h
      · cases h; exact ⟨1, by simp [*], by decide, rfl⟩
      · cases h
  · intro t idx i h
    simp only [demoLayout] at h ⊢
    split at h
    · exact ⟨3, by simp [*]⟩
    · split at h
      · exact ⟨2, by simp [*]⟩
      · cases h

/-- A program: read a symbol, then use it to choose between a context and two raw bits. -/
def demoProg : Rd Nat := do
  let s ← Rd.read "A" [0]
  if s = 2 then Rd.lit 2 else Rd.read "A" [1]

/-- The hypotheses of C93 are met. -/
example : demoProg.Post demoLayout (fun a => a < 4) := by
  refine ⟨3, rfl, ?_⟩
  intro s hs
  by_cases h : s = 2
  · subst h
    intro b hb c hc
    show _ < 4
    omega
  · show Rd.Post demoLayout (if s = 2 then Rd.lit 2 else Rd.read "A" [1]) _
    rw [if_neg h]
    exact ⟨2, rfl, fun b hb => by show b < 4; omega⟩

example : demoProg.run demoLayout [2, 1, 0] = .ok (2, []) := by decide +kernel

end Gov1
