import Verif.Lemmas.SymbolRun
/-! # C37-C41, C44: the arithmetic decoder -/
namespace Gov1
open Spec

/-- A reasonable client: whatever has been decoded, it asks for an existing context. -/
def Selects (sel : List Nat → Option Nat) (cdfs : List (List Int)) : Prop :=
  ∀ hist i, sel hist = some i → i < cdfs.length

/-- Everything known about `n` reads, for all data. -/
theorem decodeMany_run (disable : Bool) (sel : List Nat → Option Nat) (n : Nat) (hist : List Nat)
    (cdfs : List (List Int)) (st : Sym) (bs : BitStream) (hv : AllValid cdfs)
    (hsel : Selects sel cdfs) (hi : SymInv st) :
    (∃ msg cdfs' st' bs', decodeMany disable sel n hist cdfs st bs = .ok ((hist ++ msg, cdfs', st'), bs') ∧
      msg.length = n ∧ Codable disable sel msg hist cdfs ∧ AllValid cdfs' ∧
      cdfs'.length = cdfs.length ∧ SymInv st' ∧
      st.maxBits - 15 * n ≤ st'.maxBits ∧ st'.maxBits ≤ st.maxBits ∧ bs'.data = bs.data ∧
      bs'.leb = bs.leb ∧ bs'.pos + st'.maxBits.toNat = bs.pos + st.maxBits.toNat) ∨
    (decodeMany disable sel n hist cdfs st bs = .error .index ∧
      (unread bs).length < st.maxBits.toNat) := by
  induction n generalizing hist cdfs st bs with
  | zero =>
    left
    refine ⟨[], cdfs, st, bs, by simp [decodeMany], rfl, trivial, hv, rfl, hi, ?_⟩
    refine ⟨by simp, le_refl _, rfl, rfl, rfl⟩
  | succ n ih =>
    have hk : ∀ i, sel hist = some i → i < cdfs.length := fun i => hsel hist i
    have hp := pick_valid hv hk
    rw [decodeMany_succ _ _ _ _ _ _ _ hk]
    obtain ⟨s, hs, hlo, hhi, heq⟩ := readSymbol_aux disable hp hi
    rw [heq bs, F_eq]
    have hle := high_le_range st.range hp hi.1 hs
    have hlon := lowEnd_nonneg st.range hp (by have := hi.1; omega) hs
    have hr2 := hi.2.1
    generalize hlo' : lowEnd st.range (pick cdfs (sel hist)) s = lo at *
    generalize hhi' : highEnd st.range (pick cdfs (sel hist)) s = hi' at *
    have hb15 : 15 - Nat.log2 (hi' - lo).toNat ≤ 15 := by omega
    by_cases hf : min (15 - Nat.log2 (hi' - lo).toNat) st.maxBits.toNat ≤ (unread bs).length
    · rw [if_pos hf]
      dsimp only
      rw [upd_eq disable cdfs _ _ hk]
      -- the new state, with the unread bits cut at the end of the tile
      have hstate : (⟨(hi' - lo) * 2 ^ (15 - Nat.log2 (hi' - lo).toNat),
          ((bitsVal ((unread bs).take (min (15 - Nat.log2 (hi' - lo).toNat) st.maxBits.toNat)) <<<
            (15 - Nat.log2 (hi' - lo).toNat - min (15 - Nat.log2 (hi' - lo).toNat) st.maxBits.toNat) ^^^
            ((((st.value - lo).toNat + 1) <<< (15 - Nat.log2 (hi' - lo).toNat)) - 1) : Nat) : Int),
          st.maxBits - (15 - Nat.log2 (hi' - lo).toNat : Nat)⟩ : Sym)
          = symNext st lo hi' ((unread bs).take (min (15 - Nat.log2 (hi' - lo).toNat) st.maxBits.toNat)) := by
        simp only [symNext]
        generalize hB : 15 - Nat.log2 (hi' - lo).toNat = B at *
        generalize hM : min B st.maxBits.toNat = M at *
        have hlen : ((unread bs).take M).length = M := by simp; omega
        have hlt := bitsVal_lt (padBits ((unread bs).take M) B)
        rw [padBits_length] at hlt
        have e1 := padBits_val ((unread bs).take M) B
        rw [hlen, List.take_take, Nat.min_eq_right (show M ≤ B by omega)] at e1
        rw [← e1, xor_low _ _ _ hlt]
        congr 1
        push_cast
        rw [Int.toNat_of_nonneg (by omega), Nat.sub_sub, Nat.cast_sub (by omega)]
        push_cast
        ring
      rw [hstate]
      have hinv := symNext_inv ((unread bs).take
        (min (15 - Nat.log2 (hi' - lo).toNat) st.maxBits.toNat)) hlo hhi (by omega)
      have hsel' : Selects sel (updated disable cdfs (sel hist) s) := by
        intro h i hh; rw [updated_length]; exact hsel h i hh
      have hmax : (symNext st lo hi' ((unread bs).take
        (min (15 - Nat.log2 (hi' - lo).toNat) st.maxBits.toNat))).maxBits
          = st.maxBits - (15 - Nat.log2 (hi' - lo).toNat : Nat) := rfl
      rcases ih (hist ++ [s]) (updated disable cdfs (sel hist) s) _
        (bs.advance (min (15 - Nat.log2 (hi' - lo).toNat) st.maxBits.toNat))
        (updated_valid disable hv hk s) hsel' hinv with h | h
      · left
        obtain ⟨msg, cdfs', st', bs', h1, h2, h3, h4, h5, h6, h7, h8, h9, h10, h11⟩ := h
        refine ⟨s :: msg, cdfs', st', bs', ?_, by simp [h2], ⟨hk, hs, h3⟩, h4, ?_, h6, ?_, ?_, ?_, ?_, ?_⟩
        · rw [h1]; simp
        · rw [h5, updated_length]
        · rw [hmax] at h7; push_cast at *; omega
        · rw [hmax] at h8; omega
        · simpa using h9
        · simpa using h10
        · rw [h11, hmax, advance_pos]; omega
      · right
        refine ⟨h.1, ?_⟩
        have := h.2
        rw [hmax, unread_advance, List.length_drop] at this
        omega
    · rw [if_neg hf]
      right
      exact ⟨rfl, by omega⟩

theorem Codable.range_of (disable : Bool) (sel : List Nat → Option Nat) (msg hist : List Nat)
    (cdfs : List (List Int)) (h : Codable disable sel msg hist cdfs) :
    ∀ (pre post : List Nat) (s : Nat), msg = pre ++ s :: post →
      s < symbols (pick (encode disable sel pre hist cdfs encInit).2 (sel (hist ++ pre))) := by
  suffices H : ∀ (pre hist : List Nat) (cdfs : List (List Int)) (e : Enc) (post : List Nat) (s : Nat),
      Codable disable sel (pre ++ s :: post) hist cdfs →
      s < symbols (pick (encode disable sel pre hist cdfs e).2 (sel (hist ++ pre))) by
    intro pre post s hm
    rw [hm] at h
    exact H pre hist cdfs encInit post s h
  intro pre
  induction pre with
  | nil => intro hist cdfs e post s hc; simpa [encode] using hc.2.1
  | cons a pre ih =>
    intro hist cdfs e post s hc
    have := ih (hist ++ [a]) (updated disable cdfs (sel hist) a) (encSymbol e (pick cdfs (sel hist)) a)
      post s hc.2.2
    simpa [encode] using this

/-- The decoder state at the start of a tile is consistent, for every data. -/
theorem initSymbol_inv {sz : Nat} {bs bs1 : BitStream} {st : Sym}
    (hinit : initSymbol sz bs = .ok (st, bs1)) :
    SymInv st ∧ st.maxBits = 8 * sz - 15 ∧ bs1.data = bs.data ∧
    bs1.pos + st.maxBits.toNat = bs.pos + 8 * sz := by
  rw [initSymbol] at hinit
  obtain ⟨v, s1, h1, h2⟩ := BM.bind_eq_ok.mp hinit
  obtain ⟨hv, -, hs⟩ := F_ok h1
  cases h2
  have hlt : v <<< (15 - minI ((sz : Int) * 8) 15).toNat < 2 ^ 15 := by
    rw [Nat.shiftLeft_eq]
    have hm : (minI ((sz : Int) * 8) 15).toNat + (15 - minI ((sz : Int) * 8) 15).toNat = 15 := by
      simp only [minI]; split <;> omega
    calc v * 2 ^ (15 - minI ((sz : Int) * 8) 15).toNat
        < 2 ^ (minI ((sz : Int) * 8) 15).toNat * 2 ^ (15 - minI ((sz : Int) * 8) 15).toNat :=
          Nat.mul_lt_mul_of_pos_right hv (Nat.two_pow_pos _)
      _ = 2 ^ 15 := by rw [← Nat.pow_add, hm]
  have hx : ((1 <<< 15) - 1) ^^^ (v <<< (15 - minI ((sz : Int) * 8) 15).toNat) < 2 ^ 15 :=
    Nat.xor_lt_two_pow (by decide) hlt
  refine ⟨⟨(by decide : (2 : Int) ^ 15 ≤ ((1 <<< 15 : Nat) : Int)),
    (by decide : ((1 <<< 15 : Nat) : Int) < 2 ^ 16), by positivity, ?_⟩, rfl, by rw [hs]; rfl, ?_⟩
  · show ((_ : Nat) : Int) < ((1 <<< 15 : Nat) : Int)
    exact_mod_cast hx
  · rw [hs, advance_pos]
    simp only [minI]
    split <;> omega

/-- C37, one symbol: from any valid CDF and any consistent decoder state, a decoded symbol is one of
the CDF's symbols and the CDF left behind is valid, of the same size. -/
theorem C37_symbol (disable : Bool) (cdf : List Int) (st : Sym) (bs bs' : BitStream)
    (s : Nat) (cdf' : List Int) (st' : Sym) (hv : ValidCdf cdf)
    (hr : 2 ^ 15 ≤ st.range ∧ st.range < 2 ^ 16) (hx : 0 ≤ st.value ∧ st.value < st.range)
    (h : readSymbol disable cdf st bs = .ok ((s, cdf', st'), bs')) :
    s < symbols cdf ∧ ValidCdf cdf' ∧ cdf'.length = cdf.length := by
  obtain ⟨s0, hs, _, _, heq⟩ := readSymbol_aux disable hv ⟨hr.1, hr.2, hx.1, hx.2⟩
  rw [heq bs] at h
  cases hF : F (min (15 - Nat.log2 (highEnd st.range cdf s0 - lowEnd st.range cdf s0).toNat)
      st.maxBits.toNat) bs with
  | error e => rw [hF] at h; cases h
  | ok p =>
    rw [hF] at h
    obtain ⟨v, b⟩ := p
    dsimp only at h
    cases h
    refine ⟨hs, ?_, ?_⟩
    · split
      · exact hv
      · exact adapted_valid hv _
    · split
      · rfl
      · simp

/-- C37, histories: through any history of reads from the start of a tile, chosen adaptively by the
client, all contexts stay valid and every symbol is in the range of the context it was read with. -/
theorem C37_history (disable : Bool) (sel : List Nat → Option Nat) (n : Nat) (sz : Nat)
    (cdfs cdfs' : List (List Int)) (bs bs1 bs' : BitStream) (st st' : Sym) (msg : List Nat)
    (hv : ∀ c ∈ cdfs, ValidCdf c) (hsel : Selects sel cdfs)
    (hinit : initSymbol sz bs = .ok (st, bs1))
    (h : decodeMany disable sel n [] cdfs st bs1 = .ok ((msg, cdfs', st'), bs')) :
    (∀ c ∈ cdfs', ValidCdf c) ∧ cdfs'.length = cdfs.length ∧ msg.length = n ∧
    ∀ pre post s, msg = pre ++ s :: post →
      s < symbols (pick (encode disable sel pre [] cdfs encInit).2 (sel pre)) := by
  have hi : SymInv st := (initSymbol_inv hinit).1
  rcases decodeMany_run disable sel n [] cdfs st bs1 hv hsel hi with h1 | h1
  · obtain ⟨m, c', s', b', e1, e2, e3, e4, e5, -⟩ := h1
    rw [h] at e1
    simp only [List.nil_append, Except.ok.injEq, Prod.mk.injEq] at e1
    obtain ⟨⟨rfl, rfl, rfl⟩, rfl⟩ := e1
    refine ⟨e4, e5, e2, ?_⟩
    intro pre post s hm
    have := Codable.range_of disable sel msg [] cdfs e3 pre post s hm
    simpa using this
  · rw [h1.1] at h; cases h

/-- C38: from the start of a tile through any sequence of reads the range keeps 16 significant bits,
the value stays below it, and each symbol renormalises by at most 15 bits. -/
theorem C38_invariants (disable : Bool) (sel : List Nat → Option Nat) (n : Nat) (sz : Nat)
    (cdfs cdfs' : List (List Int)) (bs bs1 bs' : BitStream) (st st' : Sym) (msg : List Nat)
    (hv : ∀ c ∈ cdfs, ValidCdf c) (hsel : Selects sel cdfs)
    (hinit : initSymbol sz bs = .ok (st, bs1))
    (h : decodeMany disable sel n [] cdfs st bs1 = .ok ((msg, cdfs', st'), bs')) :
    2 ^ 15 ≤ st'.range ∧ st'.range < 2 ^ 16 ∧ 0 ≤ st'.value ∧ st'.value < st'.range ∧
    8 * (sz : Int) - 15 - 15 * n ≤ st'.maxBits ∧ st'.maxBits ≤ 8 * (sz : Int) - 15 := by
  obtain ⟨hi, hm, -⟩ := initSymbol_inv hinit
  rcases decodeMany_run disable sel n [] cdfs st bs1 hv hsel hi with h1 | h1
  · obtain ⟨m, c', s', b', e1, e2, e3, e4, e5, e6, e7, e8, -⟩ := h1
    rw [h] at e1
    simp only [List.nil_append, Except.ok.injEq, Prod.mk.injEq] at e1
    obtain ⟨⟨rfl, rfl, rfl⟩, rfl⟩ := e1
    obtain ⟨a, b, c, d⟩ := e6
    exact ⟨a, b, c, d, by omega, by omega⟩
  · rw [h1.1] at h; cases h

/-- C38, totality: when the stream holds the tile's `sz` bytes, starting the decoder and reading any
number of symbols always succeeds, whatever the bytes are. -/
theorem C38_never_fails (disable : Bool) (sel : List Nat → Option Nat) (n : Nat) (sz : Nat)
    (cdfs : List (List Int)) (bs : BitStream) (hv : ∀ c ∈ cdfs, ValidCdf c) (hsel : Selects sel cdfs)
    (hsz : 8 * sz ≤ (unread bs).length) :
    ∃ r, (do let st ← initSymbol sz
             decodeMany disable sel n [] cdfs st : BM _) bs = .ok r := by
  have hu : unread bs = (unread bs).take (8 * sz) ++ (unread bs).drop (8 * sz) :=
    (List.take_append_drop _ _).symm
  have h0 := initSymbol_ok (sz := sz) hu (by simp [hsz])
  rw [BM.bind_ok h0]
  obtain ⟨hi, hm, -⟩ := initSymbol_inv h0
  rcases decodeMany_run disable sel n [] cdfs _
    (bs.advance (min 15 ((unread bs).take (8 * sz)).length)) hv hsel hi with h1 | h1
  · obtain ⟨m, c', s', b', e1, -⟩ := h1
    exact ⟨_, e1⟩
  · have h2 := h1.2
    rw [hm, unread_advance, List.length_drop, List.length_take] at h2
    omega

/-- C39 (flagship): *arithmetic coding round trip*.  Take any client context choice, any valid initial
contexts and any codable message.  Whenever the `sz` bytes of a tile carry the reference encoder's
final interval, starting the decoder on the tile and reading as many symbols returns exactly the
message, and leaves the contexts exactly as they are on the encoder's side. -/
theorem C39_roundtrip (disable : Bool) (sel : List Nat → Option Nat) (msg : List Nat)
    (cdfs : List (List Int)) (hv : ∀ c ∈ cdfs, ValidCdf c) (hc : Codable disable sel msg [] cdfs)
    (sz : Nat) (tile rest : List Bool) (bs : BitStream) (hbs : unread bs = tile ++ rest)
    (hsz : tile.length = 8 * sz) (hcar : Carries tile (encode disable sel msg [] cdfs encInit).1) :
    ∃ st bs', (do let st ← initSymbol sz
                  decodeMany disable sel msg.length [] cdfs st : BM _) bs =
      .ok ((msg, (encode disable sel msg [] cdfs encInit).2, st), bs') := by
  rw [BM.bind_ok (initSymbol_ok hbs hsz)]
  have := encode_carries_decodes disable sel tile rest msg [] cdfs encInit hv hc (by simp [encInit])
    (by norm_num [encInit]) hcar ⟨2 ^ 15, codeVal tile 0, (tile.length : Int) - 15 - (0 : Nat)⟩
    (bs.advance (min 15 tile.length)) rfl (by simp [encInit]) rfl (by
      rw [unread_advance, hbs, List.drop_append]
      simp only [encInit, Nat.add_zero]
      have e : min 15 tile.length - tile.length = 0 := by omega
      rw [e, List.drop_zero]
      congr 1
      by_cases h : 15 ≤ tile.length
      · rw [Nat.min_eq_left h]
      · rw [Nat.min_eq_right (by omega), List.drop_of_length_le (by omega),
          List.drop_of_length_le (by omega)])
  refine ⟨_, _, this⟩

theorem bytes_of_bits (n : Nat) (bits : List Bool) (h : bits.length = 8 * n) :
    ∃ d : List UInt8, bytesBits d = bits ∧ d.length = n := by
  induction n generalizing bits with
  | zero => exact ⟨[], by simp [bytesBits, List.length_eq_zero_iff.mp (by simpa using h)], rfl⟩
  | succ n ih =>
    match bits, h with
    | b0 :: b1 :: b2 :: b3 :: b4 :: b5 :: b6 :: b7 :: t, h =>
      obtain ⟨d, h1, h2⟩ := ih t (by simp at h; omega)
      refine ⟨UInt8.ofNat (bitsVal [b0, b1, b2, b3, b4, b5, b6, b7]) :: d, ?_, by simp [h2]⟩
      rw [bytesBits_cons, h1]
      have : ∀ b0 b1 b2 b3 b4 b5 b6 b7 : Bool,
          byteBits (UInt8.ofNat (bitsVal [b0, b1, b2, b3, b4, b5, b6, b7]))
            = [b0, b1, b2, b3, b4, b5, b6, b7] := by decide
      rw [this]; rfl

theorem encode_bounds (disable : Bool) (sel : List Nat → Option Nat) (msg hist : List Nat)
    (cdfs : List (List Int)) (e : Enc) (hv : AllValid cdfs) (hc : Codable disable sel msg hist cdfs)
    (h1 : 2 ^ 15 ≤ e.range) (h2 : e.range < 2 ^ 16) (h3 : 0 ≤ e.low)
    (h4 : e.low + e.range ≤ 2 ^ (15 + e.bits)) :
    let r := (encode disable sel msg hist cdfs e).1
    2 ^ 15 ≤ r.range ∧ 0 ≤ r.low ∧ r.low + r.range ≤ 2 ^ (15 + r.bits) := by
  induction msg generalizing hist cdfs e with
  | nil => exact ⟨h1, h3, h4⟩
  | cons s msg ih =>
    obtain ⟨hk, hs, hc'⟩ := hc
    have hp := pick_valid hv hk
    have hr := encSymbol_range hp hs h1 h2
    have ha := lowEnd_nonneg e.range hp (by omega) hs
    have hb := high_le_range e.range hp h1 hs
    refine ih _ _ (encSymbol e (pick cdfs (sel hist)) s) (updated_valid disable hv hk s) hc' hr.1 hr.2 ?_ ?_
    · simp only [encSymbol]; positivity
    · simp only [encSymbol]
      generalize 15 - Nat.log2 (highEnd e.range (pick cdfs (sel hist)) s
        - lowEnd e.range (pick cdfs (sel hist)) s).toNat = b
      rw [← Nat.add_assoc, pow_add, ← add_mul]
      exact mul_le_mul_of_nonneg_right (by omega) (by positivity)

/-- C39, existence: every codable message has a byte string that carries it, so the round trip is
never vacuous; decoding that byte string returns the message. -/
theorem C39_encodable (disable : Bool) (sel : List Nat → Option Nat) (msg : List Nat)
    (cdfs : List (List Int)) (hv : ∀ c ∈ cdfs, ValidCdf c) (hc : Codable disable sel msg [] cdfs) :
    ∃ data : List UInt8, Carries (bytesBits data) (encode disable sel msg [] cdfs encInit).1 ∧
      ∃ st bs', (do let st ← initSymbol data.length
                    decodeMany disable sel msg.length [] cdfs st : BM _) (newBitStream data) =
        .ok ((msg, (encode disable sel msg [] cdfs encInit).2, st), bs') := by
  have hb := encode_bounds disable sel msg [] cdfs encInit hv hc (by simp [encInit])
    (by norm_num [encInit]) (by simp [encInit]) (by simp [encInit])
  dsimp only at hb
  generalize he : (encode disable sel msg [] cdfs encInit) = r at *
  obtain ⟨h1, h2, h3⟩ := hb
  have hx : (r.1.low.toNat : Int) = r.1.low := Int.toNat_of_nonneg h2
  have hlt : r.1.low.toNat < 2 ^ (15 + r.1.bits) := by
    have : r.1.low < 2 ^ (15 + r.1.bits) := by omega
    rw [← hx] at this
    exact_mod_cast this
  obtain ⟨data, hd, hdl⟩ := bytes_of_bits (15 + r.1.bits)
    (encF (15 + r.1.bits) (2 ^ (15 + r.1.bits) - 1 - r.1.low.toNat)
      ++ List.replicate (7 * (15 + r.1.bits)) false) (by simp; omega)
  have hcar : Carries (bytesBits data) r.1 := by
    have e1 : padBits (bytesBits data) (15 + r.1.bits)
        = encF (15 + r.1.bits) (2 ^ (15 + r.1.bits) - 1 - r.1.low.toNat) := by
      rw [hd, padBits, List.append_assoc]
      exact List.take_left' (by simp)
    have e2 : bitsVal (padBits (bytesBits data) (15 + r.1.bits))
        = 2 ^ (15 + r.1.bits) - 1 - r.1.low.toNat := by
      rw [e1, bitsVal_encF, Nat.mod_eq_of_lt]
      have := Nat.two_pow_pos (15 + r.1.bits)
      omega
    have e3 : (2 : Int) ^ (15 + r.1.bits) - 1 - bitsVal (padBits (bytesBits data) (15 + r.1.bits))
        = r.1.low := by
      rw [e2, Nat.sub_sub, Nat.cast_sub (by omega)]
      push_cast
      omega
    exact ⟨e3.symm ▸ le_refl _, by rw [e3]; omega⟩
  refine ⟨data, hcar, ?_⟩
  have := C39_roundtrip disable sel msg cdfs hv hc data.length (bytesBits data) []
    (newBitStream data) (by simp [unread, newBitStream]) (by rw [bytesBits_length])
  rw [he] at this
  exact this hcar

/-- C40: starting the decoder on a tile of `sz` bytes, reading any number of symbols and finishing
leaves the stream exactly `sz` bytes after the tile start; finishing is refused exactly when the reads
ran more than 14 bits past the tile's data. -/
theorem C40_tile_consumed (disable : Bool) (sel : List Nat → Option Nat) (n : Nat) (sz : Nat)
    (cdfs cdfs' : List (List Int)) (bs bs1 bs2 : BitStream) (st st' : Sym) (msg : List Nat)
    (hv : ∀ c ∈ cdfs, ValidCdf c) (hsel : Selects sel cdfs)
    (hinit : initSymbol sz bs = .ok (st, bs1))
    (h : decodeMany disable sel n [] cdfs st bs1 = .ok ((msg, cdfs', st'), bs2)) :
    (-14 ≤ st'.maxBits → ∃ bs3, exitSymbol st' bs2 = .ok ((), bs3) ∧
      bs3.pos = bs.pos + 8 * sz ∧ bs3.data = bs.data) ∧
    (st'.maxBits < -14 → exitSymbol st' bs2 = .error (.explicit "Violating bitstream conformance!")) := by
  obtain ⟨hi, hm, hd, hp⟩ := initSymbol_inv hinit
  rcases decodeMany_run disable sel n [] cdfs st bs1 hv hsel hi with h1 | h1
  · obtain ⟨m, c', s', b', e1, e2, e3, e4, e5, e6, e7, e8, e9, e10, e11⟩ := h1
    rw [h] at e1
    simp only [List.nil_append, Except.ok.injEq, Prod.mk.injEq] at e1
    obtain ⟨⟨rfl, rfl, rfl⟩, rfl⟩ := e1
    constructor
    · intro hge
      refine ⟨{ bs2 with pos := bs2.pos + (maxI 0 st'.maxBits).toNat }, ?_, ?_, ?_⟩
      · rw [exitSymbol, if_neg (by omega)]; rfl
      · show bs2.pos + (maxI 0 st'.maxBits).toNat = _
        have : (maxI 0 st'.maxBits).toNat = st'.maxBits.toNat := by
          simp only [maxI]; split <;> omega
        rw [this]; omega
      · show bs2.data = _
        rw [e9, hd]
    · intro hlt
      rw [exitSymbol, if_pos hlt]; rfl
  · rw [h1.1] at h; cases h

/-- C41: with adaptation disabled any sequence of reads leaves every context array unchanged (for all
contexts, valid or not, all states and all data). -/
theorem C41_disabled (sel : List Nat → Option Nat) (n : Nat) (hist msg : List Nat)
    (cdfs cdfs' : List (List Int)) (bs bs' : BitStream) (st st' : Sym)
    (h : decodeMany true sel n hist cdfs st bs = .ok ((msg, cdfs', st'), bs')) : cdfs' = cdfs := by
  induction n generalizing hist cdfs st bs with
  | zero => cases h; rfl
  | succ n ih =>
    rw [decodeMany] at h
    cases hs : sel hist with
    | none =>
      rw [hs] at h
      dsimp only at h
      obtain ⟨⟨s, st1⟩, s1, h1, h2⟩ := BM.bind_eq_ok.mp h
      exact ih _ _ _ _ h2
    | some i =>
      rw [hs] at h
      dsimp only at h
      obtain ⟨cdf, s0, h0, h1⟩ := BM.bind_eq_ok.mp h
      obtain ⟨⟨s, cdf1, st1⟩, s1, h2, h3⟩ := BM.bind_eq_ok.mp h1
      dsimp only at h3
      have e1 : cdf1 = cdf := by
        rw [readSymbol] at h2
        dsimp only at h2
        split at h2
        · cases h2
        · obtain ⟨l, s2, h4, h5⟩ := BM.bind_eq_ok.mp h2
          split at h5
          · cases h5
          · obtain ⟨⟨x, y, z⟩, s3, h6, h7⟩ := BM.bind_eq_ok.mp h5
            dsimp only at h7
            obtain ⟨lg, s4, h8, h9⟩ := BM.bind_eq_ok.mp h7
            split at h9
            · cases h9
            · obtain ⟨v, s5, h10, h11⟩ := BM.bind_eq_ok.mp h9
              rw [if_pos rfl] at h11
              cases h11
              rfl
      have e2 : cdfs.set i cdf1 = cdfs := by
        rw [e1]
        unfold goGet at h0
        rw [if_neg (by omega)] at h0
        simp only [Int.toNat_natCast] at h0
        cases hg : cdfs[i]? with
        | none => rw [hg] at h0; cases h0
        | some c =>
          rw [hg] at h0
          cases h0
          obtain ⟨hi, rfl⟩ := List.getElem?_eq_some_iff.mp hg
          simp
      have := ih _ _ _ _ h3
      rw [this, e2]

/-! ## literals -/

/-- C44: `L(n)` is the `n` raw bits read one after the other, first bit most significant; in
particular the round trip C39 (with the context choice `none`) covers it. -/
theorem C44_literal_is_bits (disable : Bool) (n : Nat) (st : Sym) (bs : BitStream)
    (cdfs : List (List Int)) :
    lit disable n st bs = match decodeMany disable (fun _ => none) n [] cdfs st bs with
      | .ok ((msg, _, st'), bs') => .ok ((msg.foldl (fun x b => 2 * x + b) 0, st'), bs')
      | .error e => .error e := by
  suffices H : ∀ (n : Nat) (x : Nat) (hist : List Nat) (st : Sym) (bs : BitStream),
      x = hist.foldl (fun x b => 2 * x + b) 0 →
      litLoop disable n x st bs = match decodeMany disable (fun _ => none) n hist cdfs st bs with
      | .ok ((msg, _, st'), bs') => .ok ((msg.foldl (fun x b => 2 * x + b) 0, st'), bs')
      | .error e => .error e by
    have := H n 0 [] st bs rfl
    simpa [lit] using this
  intro n
  induction n with
  | zero => intro x hist st bs hx; simp [litLoop, decodeMany, hx]
  | succ n ih =>
    intro x hist st bs hx
    rw [litLoop, decodeMany]
    dsimp only
    rw [BM.bind_apply, BM.bind_apply]
    cases readBool disable st bs with
    | error e => rfl
    | ok p =>
      obtain ⟨⟨b, st1⟩, bs1⟩ := p
      dsimp only
      exact ih _ _ _ _ (by simp [hx])

theorem codable_none (disable : Bool) (msg hist : List Nat) (cdfs : List (List Int))
    (h : Codable disable (fun _ => none) msg hist cdfs) : ∀ b ∈ msg, b < 2 := by
  induction msg generalizing hist with
  | nil => simp
  | cons s msg ih =>
    intro b hb
    rcases List.mem_cons.mp hb with rfl | hb
    · have := h.2.1; simpa [pick, symbols] using this
    · exact ih _ h.2.2 b hb

theorem bits_lt (msg : List Nat) (h : ∀ b ∈ msg, b < 2) :
    msg.foldl (fun x b => 2 * x + b) 0 < 2 ^ msg.length := by
  suffices H : ∀ (msg : List Nat) (x : Nat), (∀ b ∈ msg, b < 2) →
      msg.foldl (fun x b => 2 * x + b) x < (x + 1) * 2 ^ msg.length by simpa using H msg 0 h
  intro msg
  induction msg with
  | nil => intro x _; simp
  | cons a msg ih =>
    intro x h
    simp only [List.foldl_cons, List.length_cons, Nat.pow_succ]
    have h1 := ih (2 * x + a) (fun b hb => h b (by simp [hb]))
    have h2 := h a (by simp)
    calc _ < (2 * x + a + 1) * 2 ^ msg.length := h1
      _ ≤ (2 * (x + 1)) * 2 ^ msg.length := Nat.mul_le_mul_right _ (by omega)
      _ = (x + 1) * (2 ^ msg.length * 2) := by ring

/-- C44: whatever the data, `L(n)` returns a value below `2^n` and keeps the decoder consistent. -/
theorem C44_literal_range (disable : Bool) (n : Nat) (st st' : Sym) (bs bs' : BitStream) (v : Nat)
    (hr : 2 ^ 15 ≤ st.range ∧ st.range < 2 ^ 16) (hx : 0 ≤ st.value ∧ st.value < st.range)
    (h : lit disable n st bs = .ok ((v, st'), bs')) :
    v < 2 ^ n ∧ (2 ^ 15 ≤ st'.range ∧ st'.range < 2 ^ 16) ∧ (0 ≤ st'.value ∧ st'.value < st'.range) := by
  rw [C44_literal_is_bits disable n st bs []] at h
  rcases decodeMany_run disable (fun _ => none) n [] [] st bs (by intro c hc; cases hc)
    (by intro h i hi; cases hi) ⟨hr.1, hr.2, hx.1, hx.2⟩ with h1 | h1
  · obtain ⟨m, c', s', b', e1, e2, e3, e4, e5, e6, -⟩ := h1
    rw [e1] at h
    cases h
    obtain ⟨a, b, c, d⟩ := e6
    refine ⟨?_, ⟨a, b⟩, c, d⟩
    have := bits_lt m (codable_none _ _ _ _ e3)
    rw [e2] at this
    simpa using this
  · rw [h1.1] at h; cases h

/-- C44: whatever the data, `NS(n)` returns a value in `[0, n)`, for every `n ≥ 1`. -/
theorem C44_ns_range (disable : Bool) (n : Nat) (hn : 1 ≤ n) (st st' : Sym) (bs bs' : BitStream) (v : Int)
    (hr : 2 ^ 15 ≤ st.range ∧ st.range < 2 ^ 16) (hx : 0 ≤ st.value ∧ st.value < st.range)
    (h : litNs disable n st bs = .ok ((v, st'), bs')) : 0 ≤ v ∧ v < n := by
  have hlg : floorLog2Int (n : Int) = .ok (Nat.log2 n : Int) := by
    rw [floorLog2Int, if_neg (by omega), Int.toNat_natCast, floorLog2_eq _ (by omega)]
  have h2 : 2 ^ n.log2 ≤ n := Nat.log2_self_le (by omega)
  have h3 : n < 2 ^ (n.log2 + 1) := Nat.lt_log2_self
  rw [Nat.pow_succ] at h3
  unfold litNs at h
  rw [hlg] at h
  simp only [BM.lift_ok, BM.pure_bind] at h
  have ew : ((n.log2 : Int) + 1).toNat = n.log2 + 1 := by omega
  have ew2 : (n.log2 : Int) + 1 - 1 = ((n.log2 : Nat) : Int) := by omega
  rw [ew, ew2, Nat.shiftLeft_eq, Nat.pow_succ] at h
  obtain ⟨⟨x, st1⟩, s1, h4, h5⟩ := BM.bind_eq_ok.mp h
  obtain ⟨hx1, hr2, hx2⟩ := C44_literal_range disable n.log2 st st1 bs s1 x hr hx h4
  dsimp only at h5
  have hp : ((2 : Nat) ^ n.log2 : Nat) = (2 ^ n.log2 : Nat) := rfl
  generalize 2 ^ n.log2 = P at *
  split at h5
  · cases h5; omega
  · obtain ⟨⟨y, st2⟩, s2, h6, h7⟩ := BM.bind_eq_ok.mp h5
    obtain ⟨hy, -⟩ := C44_literal_range disable 1 st1 st2 s1 s2 y hr2 hx2 h6
    cases h7
    rw [Nat.shiftLeft_eq]
    push_cast
    omega

/-! ## concrete cases -/

/-- A client alternating between two contexts and raw bits. -/
def demoSel (h : List Nat) : Option Nat :=
  if h.length % 3 = 2 then none else some (h.length % 3)
/-- Two concrete contexts. -/
def demoCdfs : List (List Int) := [[8000, 20000, 32768, 0], [16000, 32768, 31]]

theorem demo_valid : ∀ c ∈ demoCdfs, ValidCdf c := by
  intro c hc
  simp only [demoCdfs, List.mem_cons, List.not_mem_nil, or_false] at hc
  rcases hc with rfl | rfl
  · refine ⟨by decide, by decide, ?_, by decide, by decide⟩
    intro i j hij hj
    simp only [List.length_cons, List.length_nil] at hj
    have : ∀ i < 3, ∀ j < 3, i ≤ j →
      ([8000, 20000, 32768, 0] : List Int).getD i 0 ≤ ([8000, 20000, 32768, 0] : List Int).getD j 0 := by
      decide
    exact this i (by omega) j (by omega) hij
  · refine ⟨by decide, by decide, ?_, by decide, by decide⟩
    intro i j hij hj
    simp only [List.length_cons, List.length_nil] at hj
    have : ∀ i < 2, ∀ j < 2, i ≤ j →
      ([16000, 32768, 31] : List Int).getD i 0 ≤ ([16000, 32768, 31] : List Int).getD j 0 := by
      decide
    exact this i (by omega) j (by omega) hij

theorem demo_selects : Selects demoSel demoCdfs := by
  intro h i hi
  simp only [demoSel] at hi
  split at hi
  · cases hi
  · cases hi; simp [demoCdfs]; omega

/-- The hypotheses of C37-C41 are met: ten reads from a tile of 4 bytes. -/
example : (do let st ← initSymbol 4
              let r ← decodeMany false demoSel 10 [] demoCdfs st
              exitSymbol r.2.2
              pure (r.1, r.2.1) : BM _) (newBitStream [0x5a, 0xc3, 0x11, 0xf0, 0x77]) =
    .ok (([1, 0, 1, 1, 0, 0, 0, 0, 0, 0], [[10148, 22904, 32768, 4], [17026, 32768, 32]]),
      ⟨[0x5a, 0xc3, 0x11, 0xf0, 0x77], 32, 0⟩) := by
  decide +kernel

/-- A codable message for C39. -/
example : Codable false demoSel [2, 1, 0, 0, 0, 1, 1] [] demoCdfs := by
  simp only [Codable]
  refine ⟨?_, by decide, ?_, by decide, ?_, by decide, ?_, by decide, ?_, by decide, ?_, by decide, ?_,
    by decide, trivial⟩ <;> exact fun i hi => demo_selects _ i hi

/-- Literals: the hypotheses of C44 are met. -/
example : (do let st ← initSymbol 2
              let a ← lit false 5 st
              litNs false 5 a.2 : BM _) (newBitStream [0x5a, 0xc3]) =
    .ok ((1, ⟨65288, 44015, -7⟩), ⟨[0x5a, 0xc3], 16, 0⟩) := by decide +kernel

end Gov1
