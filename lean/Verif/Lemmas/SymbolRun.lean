import Verif.Lemmas.Symbol
/-! # Helper lemmas about runs of the symbol decoder (no property is stated here) -/
namespace Gov1
open Spec

theorem boolCdf_valid : ValidCdf [2 ^ 14, 2 ^ 15, 0] := by
  refine ⟨by simp, by simp, ?_, by simp, by simp⟩
  intro i j hij hj
  simp at hj
  have : j = 0 ∨ j = 1 := by omega
  rcases this with rfl | rfl
  · have : i = 0 := by omega
    subst this; simp
  · have : i = 0 ∨ i = 1 := by omega
    rcases this with rfl | rfl <;> simp

/-- Complemented value of the first `15+t` bits of the tile. -/
def codeVal (tile : List Bool) (t : Nat) : Int :=
  2 ^ (15 + t) - 1 - bitsVal (padBits tile (15 + t))

theorem codeVal_add (tile : List Bool) (t b : Nat) :
    codeVal tile (t + b)
      = codeVal tile t * 2 ^ b + (2 ^ b - 1 - bitsVal (padBits (tile.drop (15 + t)) b)) := by
  simp only [codeVal]
  rw [← Nat.add_assoc, padBits_add, bitsVal_append, padBits_length]
  push_cast
  rw [pow_add]
  ring

theorem pad_bounds (tl : List Bool) (b : Nat) :
    0 ≤ (2 : Int) ^ b - 1 - bitsVal (padBits tl b) ∧ (2 : Int) ^ b - 1 - bitsVal (padBits tl b) < 2 ^ b := by
  have h := bitsVal_lt (padBits tl b)
  rw [padBits_length] at h
  have h' : (bitsVal (padBits tl b) : Int) < 2 ^ b := by exact_mod_cast h
  omega

theorem between {x l w r p : Int} (hp : 0 < p) (hr : 0 ≤ r) (hr' : r < p)
    (h1 : l * p ≤ x * p + r) (h2 : x * p + r < l * p + w * p) : l ≤ x ∧ x < l + w := by
  constructor
  · by_contra h
    have : (x + 1) * p ≤ l * p := mul_le_mul_of_nonneg_right (by omega) (by omega)
    rw [add_mul] at this
    omega
  · by_contra h
    have : (l + w) * p ≤ x * p := mul_le_mul_of_nonneg_right (by omega) (by omega)
    rw [add_mul] at this
    omega

/-- If the tile carries the interval after a symbol, then before it the code point lies in that
symbol's sub-interval. -/
theorem carries_step {tile : List Bool} {e : Enc} {cdf : List Int} {s : Nat}
    (h : Carries tile (encSymbol e cdf s)) :
    lowEnd e.range cdf s ≤ codeVal tile e.bits - e.low ∧
    codeVal tile e.bits - e.low < highEnd e.range cdf s := by
  obtain ⟨h1, h2⟩ := h
  change _ ≤ codeVal tile (encSymbol e cdf s).bits at h1
  change codeVal tile (encSymbol e cdf s).bits < _ at h2
  simp only [encSymbol] at h1 h2
  rw [codeVal_add] at h1 h2
  have hb := pad_bounds (tile.drop (15 + e.bits))
    (15 - Nat.log2 (highEnd e.range cdf s - lowEnd e.range cdf s).toNat)
  have := between (by positivity) hb.1 hb.2 h1 h2
  omega

theorem encSymbol_range {e : Enc} {cdf : List Int} {s : Nat} (hc : ValidCdf cdf)
    (hs : s < symbols cdf) (h1 : 2 ^ 15 ≤ e.range) (h2 : e.range < 2 ^ 16) :
    2 ^ 15 ≤ (encSymbol e cdf s).range ∧ (encSymbol e cdf s).range < 2 ^ 16 := by
  have := low_lt_high e.range hc h1 hs
  have := high_le_range e.range hc h1 hs
  have := lowEnd_nonneg e.range hc (by omega) hs
  have := renorm (w := highEnd e.range cdf s - lowEnd e.range cdf s) (by omega) (by omega)
  exact ⟨this.1, this.2.1⟩

theorem carries_symbol {tile : List Bool} {e : Enc} {cdf : List Int} {s : Nat} (hc : ValidCdf cdf)
    (hs : s < symbols cdf) (hr : 2 ^ 15 ≤ e.range) (h : Carries tile (encSymbol e cdf s)) :
    Carries tile e := by
  have := carries_step h
  have := high_le_range e.range hc hr hs
  have := lowEnd_nonneg e.range hc (by omega) hs
  have e2 : (2 : Int) ^ (15 + e.bits) - 1 - bitsVal (padBits tile (15 + e.bits)) = codeVal tile e.bits :=
    rfl
  constructor <;> rw [e2] <;> omega

/-- All contexts are valid distributions. -/
def AllValid (cdfs : List (List Int)) : Prop := ∀ c ∈ cdfs, ValidCdf c

theorem pick_valid {cdfs : List (List Int)} (h : AllValid cdfs) {k : Option Nat}
    (hk : ∀ i, k = some i → i < cdfs.length) : ValidCdf (pick cdfs k) := by
  cases k with
  | none => exact boolCdf_valid
  | some i =>
    have hi := hk i rfl
    simp only [pick, getD_lt cdfs i [] hi]
    exact h _ (List.getElem_mem hi)

theorem set_valid {cdfs : List (List Int)} (h : AllValid cdfs) (i : Nat) {c : List Int}
    (hc : ValidCdf c) : AllValid (cdfs.set i c) := by
  intro x hx
  rcases List.mem_or_eq_of_mem_set hx with h1 | h1
  · exact h x h1
  · rw [h1]; exact hc

theorem updated_valid (disable : Bool) {cdfs : List (List Int)} (h : AllValid cdfs) {k : Option Nat}
    (hk : ∀ i, k = some i → i < cdfs.length) (s : Nat) : AllValid (updated disable cdfs k s) := by
  cases k with
  | none => exact h
  | some i =>
    simp only [updated]
    split
    · exact h
    · exact set_valid h i (adapted_valid (pick_valid h hk) s)

theorem updated_length (disable : Bool) (cdfs : List (List Int)) (k : Option Nat) (s : Nat) :
    (updated disable cdfs k s).length = cdfs.length := by
  cases k with
  | none => rfl
  | some i => simp only [updated]; split <;> simp

theorem carries_encode {tile : List Bool} (disable : Bool) (sel : List Nat → Option Nat)
    (msg hist : List Nat) (cdfs : List (List Int)) (e : Enc) (hv : AllValid cdfs)
    (hc : Codable disable sel msg hist cdfs) (h1 : 2 ^ 15 ≤ e.range) (h2 : e.range < 2 ^ 16)
    (h : Carries tile (encode disable sel msg hist cdfs e).1) : Carries tile e := by
  induction msg generalizing hist cdfs e with
  | nil => exact h
  | cons s msg ih =>
    obtain ⟨hk, hs, hc'⟩ := hc
    have hp := pick_valid hv hk
    have hr := encSymbol_range hp hs h1 h2
    exact carries_symbol hp hs h1 (ih _ _ _ (updated_valid disable hv hk s) hc' hr.1 hr.2 h)

/-- Store the new contents of the chosen context. -/
def putCdf (cdfs : List (List Int)) (k : Option Nat) (cdf : List Int) : List (List Int) :=
  match k with | some i => cdfs.set i cdf | none => cdfs

/-- One step of a client, whichever kind of read it is. -/
theorem decodeMany_succ (disable : Bool) (sel : List Nat → Option Nat) (n : Nat) (hist : List Nat)
    (cdfs : List (List Int)) (st : Sym) (bs : BitStream)
    (hk : ∀ i, sel hist = some i → i < cdfs.length) :
    decodeMany disable sel (n + 1) hist cdfs st bs =
      match readSymbol disable (pick cdfs (sel hist)) st bs with
      | .error e => .error e
      | .ok ((s, cdf, st'), bs') =>
        decodeMany disable sel n (hist ++ [s])
          (putCdf cdfs (sel hist) cdf) st' bs' := by
  rw [decodeMany]
  cases hsel : sel hist with
  | some i =>
    dsimp only
    have hi := hk i hsel
    rw [goGet_nat cdfs i hi]
    simp only [BM.lift_ok, BM.pure_bind, pick, getD_lt cdfs i [] hi]
    rw [BM.bind_apply]
    cases readSymbol disable cdfs[i] st bs <;> rfl
  | none =>
    dsimp only [pick]
    rw [readBool]
    have e1 : [((1 <<< 14 : Nat) : Int), ((1 <<< 15 : Nat) : Int), 0] = [2 ^ 14, 2 ^ 15, 0] := rfl
    rw [e1]
    simp only [BM.bind_apply]
    cases readSymbol disable [2 ^ 14, 2 ^ 15, 0] st bs <;> rfl

theorem upd_eq (disable : Bool) (cdfs : List (List Int)) (k : Option Nat) (s : Nat)
    (hk : ∀ i, k = some i → i < cdfs.length) :
    putCdf cdfs k (if disable then pick cdfs k else adapted (pick cdfs k) s) = updated disable cdfs k s := by
  cases k with
  | none => rfl
  | some i =>
    have hi := hk i rfl
    cases disable
    · rfl
    · simp only [putCdf, updated, if_true, pick, getD_lt cdfs i [] hi, List.set_getElem_self]

theorem encode_carries_decodes (disable : Bool) (sel : List Nat → Option Nat) (tile rest : List Bool)
    (msg hist : List Nat) (cdfs : List (List Int)) (e : Enc) (hv : AllValid cdfs)
    (hc : Codable disable sel msg hist cdfs) (h1 : 2 ^ 15 ≤ e.range) (h2 : e.range < 2 ^ 16)
    (hcar : Carries tile (encode disable sel msg hist cdfs e).1)
    (st : Sym) (bs : BitStream) (hr : st.range = e.range)
    (hval : st.value = codeVal tile e.bits - e.low)
    (hmax : st.maxBits = (tile.length : Int) - 15 - e.bits)
    (hbs : unread bs = tile.drop (15 + e.bits) ++ rest) :
    decodeMany disable sel msg.length hist cdfs st bs =
      let r := encode disable sel msg hist cdfs e
      .ok ((hist ++ msg, r.2,
        { range := r.1.range
          value := codeVal tile r.1.bits - r.1.low
          maxBits := (tile.length : Int) - 15 - r.1.bits }),
        bs.advance ((tile.drop (15 + e.bits)).length - (tile.drop (15 + r.1.bits)).length)) := by
  induction msg generalizing hist cdfs e st bs with
  | nil =>
    simp only [encode, List.length_nil, decodeMany, List.append_nil, BM.pure_apply, Nat.sub_self,
      advance_zero]
    cases st
    simp only at hr hval hmax
    subst hr hval hmax
    rfl
  | cons s msg ih =>
    obtain ⟨hk, hs, hc'⟩ := hc
    have hp := pick_valid hv hk
    have hr' := encSymbol_range hp hs h1 h2
    have hv' := updated_valid disable hv hk s
    have hcs := carries_encode disable sel msg _ _ _ hv' hc' hr'.1 hr'.2 hcar
    have hst := carries_step hcs
    have hce := carries_symbol hp hs h1 hcs
    have hinv : SymInv st := by
      have a : (2 : Int) ^ (15 + e.bits) - 1 - bitsVal (padBits tile (15 + e.bits)) = codeVal tile e.bits := rfl
      obtain ⟨b, c⟩ := hce
      rw [a] at b c
      exact ⟨by omega, by omega, by omega, by omega⟩
    obtain ⟨s', hs', hlo, hhi, heq⟩ := readSymbol_ok disable hp hinv hbs
      (by rw [hmax, List.length_drop]; omega)
    have : s' = s := by
      refine symbol_unique st.range st.value hp (by have := hinv.1; omega) hs' hs hlo hhi ?_ ?_
      · rw [hr, hval]; exact hst.1
      · rw [hr, hval]; exact hst.2
    subst this
    rw [List.length_cons, decodeMany_succ _ _ _ _ _ _ _ hk, heq]
    dsimp only
    rw [upd_eq disable cdfs _ _ hk]
    rw [hr]
    generalize hlo' : lowEnd e.range (pick cdfs (sel hist)) s' = lo at *
    generalize hhi' : highEnd e.range (pick cdfs (sel hist)) s' = hi at *
    have hes : encSymbol e (pick cdfs (sel hist)) s' =
      ⟨(e.low + lo) * 2 ^ (15 - Nat.log2 (hi - lo).toNat), (hi - lo) * 2 ^ (15 - Nat.log2 (hi - lo).toNat),
        e.bits + (15 - Nat.log2 (hi - lo).toNat)⟩ := by
      simp only [encSymbol, hlo', hhi']
    have hcar' : Carries tile (encode disable sel msg (hist ++ [s'])
        (updated disable cdfs (sel hist) s') (encSymbol e (pick cdfs (sel hist)) s')).1 := hcar
    rw [ih (hist ++ [s']) _ (encSymbol e (pick cdfs (sel hist)) s') hv' hc' hr'.1 hr'.2 hcar'
      (symNext st lo hi (tile.drop (15 + e.bits))) _ ?_ ?_ ?_ ?_]
    · simp only [encode, List.append_assoc, List.singleton_append, advance_advance]
      congr 3
      rw [hes]
      simp only [List.length_drop]
      have hmono : ∀ (m h : List Nat) (cc : List (List Int)) (e : Enc),
          e.bits ≤ (encode disable sel m h cc e).1.bits := by
        intro m
        induction m with
        | nil => intros; exact Nat.le_refl _
        | cons a m ihm => 
          intro h cc e
          have h1 := ihm (h ++ [a]) (updated disable cc (sel h) a) (encSymbol e (pick cc (sel h)) a)
          have h2 : e.bits ≤ (encSymbol e (pick cc (sel h)) a).bits := Nat.le_add_right _ _
          exact Nat.le_trans h2 h1
      have := hmono msg (hist ++ [s']) (updated disable cdfs (sel hist) s')
        (encSymbol e (pick cdfs (sel hist)) s')
      rw [hes] at this
      simp only at this
      omega
    · rw [hes]; rfl
    · rw [hes]
      simp only [symNext, hval]
      rw [codeVal_add]
      ring
    · rw [hes]
      simp only [symNext, hmax]
      push_cast
      ring
    · rw [hes, unread_advance, hbs]
      rw [List.drop_append, List.drop_drop]
      have e1 : min (15 - Nat.log2 (hi - lo).toNat) (tile.drop (15 + e.bits)).length
          - (tile.drop (15 + e.bits)).length = 0 := by omega
      rw [e1, List.drop_zero]
      congr 1
      simp only [List.length_drop]
      by_cases hb : 15 - Nat.log2 (hi - lo).toNat ≤ tile.length - (15 + e.bits)
      · rw [Nat.min_eq_left hb, Nat.add_assoc]
      · rw [Nat.min_eq_right (by omega), List.drop_of_length_le (by omega),
          List.drop_of_length_le (by omega)]

theorem initSymbol_ok {bs : BitStream} {tile rest : List Bool} {sz : Nat}
    (hbs : unread bs = tile ++ rest) (hlen : tile.length = 8 * sz) :
    initSymbol sz bs = .ok (⟨2 ^ 15, codeVal tile 0, (tile.length : Int) - 15 - (0 : Nat)⟩, bs.advance (min 15 tile.length)) := by
  unfold initSymbol
  have e1 : (minI ((sz : Int) * 8) 15).toNat = min 15 tile.length := by
    simp only [minI]; split <;> omega
  have e2 : (15 - minI ((sz : Int) * 8) 15).toNat = 15 - min 15 tile.length := by
    simp only [minI]; split <;> omega
  dsimp only
  rw [e1, e2, BM.bind_ok (padded_read tile rest 15 bs hbs), BM.pure_apply]
  congr 3
  · rw [← padBits_val]
    have h := bitsVal_lt (padBits tile 15)
    rw [padBits_length] at h
    have := xor_low (bitsVal (padBits tile 15)) 0 15 h
    simp only [codeVal, Nat.add_zero]
    rw [Nat.zero_add, Nat.zero_mul, Nat.zero_add, Nat.xor_comm] at this
    rw [this]
    have : (2 : Nat) ^ 15 = 32768 := rfl
    have : (2 : Int) ^ 15 = 32768 := rfl
    omega
  · push_cast; omega

end Gov1
