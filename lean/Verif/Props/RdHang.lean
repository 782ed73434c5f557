import Verif.Props.Rd
/-! # Programs with an endless loop -/
namespace Gov1
open Spec

namespace Rd

/-- The replies `msg` lead the program into an endless loop, at the end of `msg`. -/
def Hangs {α : Type} (L : Layout) : Rd α → List Nat → Prop
  | ret _, _ => False
  | fail e, msg => e = .hang ∧ msg = []
  | sym _ _ _, [] => False
  | sym t idx k, s :: l => ∃ n, L.count t idx = some n ∧ s < n ∧ (k s).Hangs L l
  | bit _, [] => False
  | bit k, s :: l => s < 2 ∧ (k s).Hangs L l

/-- The second program goes on wherever the first does. -/
def Le {α : Type} : Rd α → Rd α → Prop
  | ret a, q => q = ret a
  | fail e, q => e = .hang ∨ q = fail e
  | sym t idx k, q => ∃ k', q = sym t idx k' ∧ ∀ s, (k s).Le (k' s)
  | bit k, q => ∃ k', q = bit k' ∧ ∀ s, (k s).Le (k' s)

variable {α β : Type} {L : Layout}

theorem Le.refl (p : Rd α) : p.Le p := by
  induction p with
  | ret a => rfl
  | fail e => exact .inr rfl
  | sym t idx k ih => exact ⟨k, rfl, ih⟩
  | bit k ih => exact ⟨k, rfl, ih⟩

theorem Le.bind {p q : Rd α} {f g : α → Rd β} (h : p.Le q) (hf : ∀ a, (f a).Le (g a)) : (p >>= f).Le (q >>= g) := by
  induction p generalizing q with
  | ret a => cases h; exact hf a
  | fail e =>
    rcases h with h | h
    · exact .inl h
    · subst h; exact .inr rfl
  | sym t idx k ih => obtain ⟨k', rfl, h⟩ := h; exact ⟨_, rfl, fun s => ih s (h s)⟩
  | bit k ih => obtain ⟨k', rfl, h⟩ := h; exact ⟨_, rfl, fun s => ih s (h s)⟩

theorem Le.then {p : Rd α} {f g : α → Rd β} (hf : ∀ a, (f a).Le (g a)) : (p >>= f).Le (p >>= g) := (Le.refl p).bind hf

theorem Hangs.bind {p : Rd α} {f : α → Rd β} {m : List Nat} (h : p.Hangs L m) : (p >>= f).Hangs L m := by
  induction p generalizing m with
  | ret a => cases h
  | fail e => exact h
  | sym t idx k ih =>
    cases m with
    | nil => cases h
    | cons s l => obtain ⟨n, h1, h2, h3⟩ := h; exact ⟨n, h1, h2, ih s h3⟩
  | bit k ih =>
    cases m with
    | nil => cases h
    | cons s l => exact ⟨h.1, ih s h.2⟩

theorem Hangs.after {p : Rd α} {f : α → Rd β} {m m' : List Nat} {a : α} (h : p.run L m = .ok (a, [])) (hf : (f a).Hangs L m') :
    (p >>= f).Hangs L (m ++ m') := by
  induction p generalizing m with
  | ret b => cases h; exact hf
  | fail e => cases h
  | sym t idx k ih =>
    obtain ⟨n, s, l, hn, rfl, hs, h⟩ := Rd.run_sym.mp h
    exact ⟨n, hn, hs, ih s h⟩
  | bit k ih =>
    obtain ⟨s, l, rfl, hs, h⟩ := Rd.run_bit.mp h
    exact ⟨hs, ih s h⟩

theorem Hangs.lift {r : Res α} {a : α} (h : r = .ok a) {f : α → Rd β} {m : List Nat} (h' : (f a).Hangs L m) :
    (Rd.lift r >>= f).Hangs L m := by rw [h]; exact h'

end Rd

theorem codable_of_hangs {α : Type} {L : Layout} (disable : Bool) (sel : List Nat → Option Nat) (p : Rd α)
    (hist msg : List Nat) (cdfs : List (List Int)) (hL : L.Fits cdfs) (hsel : ∀ h, sel (hist ++ h) = p.sel L h)
    (h : p.Hangs L msg) : Codable disable sel msg hist cdfs := by
  induction p generalizing hist msg cdfs with
  | ret b => cases h
  | fail e => rw [h.2]; trivial
  | sym t idx k ih =>
    cases msg with
    | nil => cases h
    | cons s l =>
    obtain ⟨n, hn, hs, h⟩ := h
    obtain ⟨i, hslot, hlt, hsym⟩ := hL.slots t idx n hn
    have h0 : sel hist = some i := by have := hsel []; rw [List.append_nil] at this; rw [this]; exact hslot
    have hpick : pick cdfs (some i) = cdfs[i] := by rw [pick, getD_lt cdfs i [] hlt]
    have hv := hL.valid _ (List.getElem_mem hlt)
    refine ⟨?_, ?_, ?_⟩
    · intro j hj; rw [h0] at hj; cases hj; exact hlt
    · rw [h0, hpick, hsym]; exact hs
    · refine ih s (hist ++ [s]) l _ ?_ ?_ h
      · rw [h0, updated]
        cases disable
        · simp only [Bool.false_eq_true, if_false]
          exact hL.set hlt (by rw [getD_lt cdfs i [] hlt]; exact adapted_valid hv s)
            (by rw [getD_lt cdfs i [] hlt, adapted_length])
        · exact hL
      · intro h'
        rw [List.append_assoc, List.singleton_append, hsel (s :: h')]
        rfl
  | bit k ih =>
    cases msg with
    | nil => cases h
    | cons s l =>
    obtain ⟨hs, h⟩ := h
    have h0 : sel hist = none := by have := hsel []; rw [List.append_nil] at this; rw [this]; rfl
    refine ⟨?_, ?_, ?_⟩
    · intro j hj; rw [h0] at hj; cases hj
    · rw [h0]; exact hs
    · refine ih s (hist ++ [s]) l _ ?_ ?_ h
      · rw [h0]; exact hL
      · intro h'
        rw [List.append_assoc, List.singleton_append, hsel (s :: h')]
        rfl

theorem take_one {hist l : List Nat} {s s1 : Nat} (h : (hist ++ s :: l).take (hist ++ [s1]).length = hist ++ [s1]) : s1 = s := by
  have e2 : (hist ++ [s1]).length = hist.length + 1 := by simp
  rw [e2] at h
  have t1 : (hist ++ s :: l).take (hist.length + 1) = hist ++ [s] := by
    rw [show hist ++ s :: l = (hist ++ [s]) ++ l by simp]
    rw [List.take_append_of_le_length (by simp)]
    exact List.take_of_length_le (by simp)
  rw [t1] at h
  have := List.append_cancel_left h
  simpa using this.symm

theorem exec_hang_of_decodeMany {α : Type} {L : Layout} (disable : Bool) (sel : List Nat → Option Nat) (p : Rd α)
    (hist msg : List Nat) (cdfs cdfs' : List (List Int)) (st st' : Sym) (bs bs' : BitStream)
    (hL : L.Fits cdfs) (hi : SymInv st) (hsel : ∀ h, sel (hist ++ h) = p.sel L h)
    (h : p.Hangs L msg)
    (hd : decodeMany disable sel msg.length hist cdfs st bs = .ok ((hist ++ msg, cdfs', st'), bs')) :
    p.exec L disable cdfs st bs = .error .hang := by
  induction p generalizing hist msg cdfs st bs with
  | ret b => cases h
  | fail e => rw [h.1]; rfl
  | sym t idx k ih =>
    cases msg with
    | nil => cases h
    | cons s l =>
    obtain ⟨n, hn, hs, h⟩ := h
    obtain ⟨i, hslot, hlt, hsym⟩ := hL.slots t idx n hn
    have h0 : sel hist = some i := by have := hsel []; rw [List.append_nil] at this; rw [this]; exact hslot
    have hpick : pick cdfs (some i) = cdfs[i] := by rw [pick, getD_lt cdfs i [] hlt]
    have hv : ValidCdf cdfs[i] := hL.valid _ (List.getElem_mem hlt)
    rw [List.length_cons, decodeMany_succ _ _ _ _ _ _ _ (by intro j hj; rw [h0] at hj; cases hj; exact hlt), h0, hpick] at hd
    rw [exec_sym hslot hlt]
    rcases readSymbol_step disable hv hi bs with ⟨s1, cdf1, st1, bs1, e, -, h2, h3, h4, -, -, -⟩ | ⟨e, -⟩
    · rw [e] at hd ⊢
      have hd : decodeMany disable sel l.length (hist ++ [s1]) (cdfs.set i cdf1) st1 bs1 = _ := hd
      show (k s1).exec L disable (cdfs.set i cdf1) st1 bs1 = _
      have hs1 : s1 = s := take_one (decodeMany_prefix hd)
      subst hs1
      refine ih s1 (hist ++ [s1]) l _ st1 bs1 (hL.set hlt h2 h3) h4 ?_ h (by rw [List.append_assoc, List.singleton_append]; exact hd)
      intro h'
      rw [List.append_assoc, List.singleton_append, hsel (s1 :: h')]
      rfl
    · rw [e] at hd; cases hd
  | bit k ih =>
    cases msg with
    | nil => cases h
    | cons s l =>
    obtain ⟨hs, h⟩ := h
    have h0 : sel hist = none := by have := hsel []; rw [List.append_nil] at this; rw [this]; rfl
    rw [List.length_cons, decodeMany_succ _ _ _ _ _ _ _ (by intro j hj; rw [h0] at hj; cases hj), h0] at hd
    rw [exec_bit]
    have hpick : pick cdfs none = [2 ^ 14, 2 ^ 15, 0] := rfl
    rw [hpick] at hd
    rcases readSymbol_step disable boolCdf_valid hi bs with ⟨s1, cdf1, st1, bs1, e, -, h2, h3, h4, -, -, -⟩ | ⟨e, -⟩
    · rw [e] at hd ⊢
      have hd : decodeMany disable sel l.length (hist ++ [s1]) cdfs st1 bs1 = _ := hd
      show (k s1).exec L disable cdfs st1 bs1 = _
      have hs1 : s1 = s := take_one (decodeMany_prefix hd)
      subst hs1
      refine ih s1 (hist ++ [s1]) l _ st1 bs1 hL h4 ?_ h (by rw [List.append_assoc, List.singleton_append]; exact hd)
      intro h'
      rw [List.append_assoc, List.singleton_append, hsel (s1 :: h')]
      rfl
    · rw [e] at hd; cases hd

/-- Two programs that go on alike are encoded alike. -/
theorem encode_le {α : Type} {L : Layout} (disable : Bool) (sel sel' : List Nat → Option Nat) (p q : Rd α)
    (hist msg : List Nat) (cdfs : List (List Int)) (e : Enc) (hsel : ∀ h, sel (hist ++ h) = p.sel L h)
    (hsel' : ∀ h, sel' (hist ++ h) = q.sel L h) (hle : p.Le q) (h : p.Hangs L msg) :
    encode disable sel msg hist cdfs e = encode disable sel' msg hist cdfs e := by
  induction p generalizing q hist msg cdfs e with
  | ret b => cases h
  | fail f => rw [h.2]; rfl
  | sym t idx k ih =>
    cases msg with
    | nil => cases h
    | cons s l =>
    obtain ⟨n, hn, hs, h⟩ := h
    obtain ⟨k', rfl, hk⟩ := hle
    have h0 : sel hist = L.slot t idx := by have := hsel []; rw [List.append_nil] at this; exact this
    have h0' : sel' hist = L.slot t idx := by have := hsel' []; rw [List.append_nil] at this; exact this
    rw [encode, encode, h0, h0']
    refine ih s (k' s) (hist ++ [s]) l _ _ ?_ ?_ (hk s) h
    · intro h'; rw [List.append_assoc, List.singleton_append, hsel (s :: h')]; rfl
    · intro h'; rw [List.append_assoc, List.singleton_append, hsel' (s :: h')]; rfl
  | bit k ih =>
    cases msg with
    | nil => cases h
    | cons s l =>
    obtain ⟨hs, h⟩ := h
    obtain ⟨k', rfl, hk⟩ := hle
    have h0 : sel hist = none := by have := hsel []; rw [List.append_nil] at this; exact this
    have h0' : sel' hist = none := by have := hsel' []; rw [List.append_nil] at this; exact this
    rw [encode, encode, h0, h0']
    refine ih s (k' s) (hist ++ [s]) l _ _ ?_ ?_ (hk s) h
    · intro h'; rw [List.append_assoc, List.singleton_append, hsel (s :: h')]; rfl
    · intro h'; rw [List.append_assoc, List.singleton_append, hsel' (s :: h')]; rfl

theorem encode_append (disable : Bool) (sel : List Nat → Option Nat) (m m' hist : List Nat) (cdfs : List (List Int)) (e : Enc) :
    encode disable sel (m ++ m') hist cdfs e =
      encode disable sel m' (hist ++ m) (encode disable sel m hist cdfs e).2 (encode disable sel m hist cdfs e).1 := by
  induction m generalizing hist cdfs e with
  | nil => simp [encode]
  | cons s m ih => rw [List.cons_append, encode, encode, ih, List.append_assoc, List.singleton_append]

theorem codable_append (disable : Bool) (sel : List Nat → Option Nat) (m m' hist : List Nat) (cdfs : List (List Int)) (e : Enc)
    (h : Codable disable sel (m ++ m') hist cdfs) :
    Codable disable sel m hist cdfs ∧ Codable disable sel m' (hist ++ m) (encode disable sel m hist cdfs e).2 := by
  induction m generalizing hist cdfs e with
  | nil => simpa [encode, Codable] using h
  | cons s m ih =>
    obtain ⟨h1, h2, h3⟩ := h
    obtain ⟨h4, h5⟩ := ih _ _ (encSymbol e (pick cdfs (sel hist)) s) h3
    refine ⟨⟨h1, h2, h4⟩, ?_⟩
    rw [encode]
    rw [List.append_assoc, List.singleton_append] at h5
    exact h5

/-- The code denotes the topmost point of the encoder's interval and has only zeros after it. -/
def Top (code : List Bool) (e : Enc) : Prop :=
  ∀ b, (bitsVal (padBits code (15 + e.bits + b)) : Int) = (2 ^ (15 + e.bits) - (e.low + e.range)) * 2 ^ b

theorem Top.zero {code : List Bool} {e : Enc} (h : Top code e) (cdf : List Int) : Top code (encSymbol e cdf 0) := by
  intro b
  simp only [encSymbol, highEnd, if_true]
  generalize 15 - Nat.log2 (e.range - lowEnd e.range cdf 0).toNat = c
  have := h (c + b)
  rw [← Nat.add_assoc] at this
  rw [← Nat.add_assoc, this, pow_add, pow_add]
  ring

theorem Top.zeros {code : List Bool} (disable : Bool) (sel : List Nat → Option Nat) (n : Nat) (hist : List Nat)
    (cdfs : List (List Int)) {e : Enc} (h : Top code e) : Top code (encode disable sel (List.replicate n 0) hist cdfs e).1 := by
  induction n generalizing hist cdfs e with
  | zero => exact h
  | succ n ih =>
    rw [List.replicate_succ, encode]
    exact ih _ _ (h.zero _)

theorem Top.carries {code : List Bool} {e : Enc} (h : Top code e) (hr : 0 < e.range) : Carries code e := by
  have := h 0
  rw [Nat.add_zero, pow_zero, mul_one] at this
  unfold Carries
  rw [this]
  constructor <;> omega

theorem top_exists_len {e : Enc} (h1 : 0 ≤ e.low) (h2 : e.low + e.range ≤ 2 ^ (15 + e.bits)) (h3 : 0 < e.range) :
    ∃ data : List UInt8, data.length = 15 + e.bits ∧ Top (bytesBits data) e := by
  obtain ⟨x, hx⟩ : ∃ x : Nat, (x : Int) = 2 ^ (15 + e.bits) - (e.low + e.range) :=
    ⟨(2 ^ (15 + e.bits) - (e.low + e.range)).toNat, Int.toNat_of_nonneg (by omega)⟩
  have hlt : x < 2 ^ (15 + e.bits) := by
    have : (x : Int) < 2 ^ (15 + e.bits) := by omega
    exact_mod_cast this
  obtain ⟨data, hd, hdl⟩ := bytes_of_bits (15 + e.bits)
    (encF (15 + e.bits) x ++ List.replicate (7 * (15 + e.bits)) false) (by simp; omega)
  refine ⟨data, hdl, fun b => ?_⟩
  rw [← hx, hd]
  have e1 : padBits (encF (15 + e.bits) x ++ List.replicate (7 * (15 + e.bits)) false) (15 + e.bits + b)
      = encF (15 + e.bits) x ++ List.replicate b false := by
    rw [padBits, List.append_assoc, List.replicate_append_replicate, List.take_append, List.take_of_length_le (by simp)]
    simp
    omega
  rw [e1, bitsVal_append]
  rw [bitsVal_encF, Nat.mod_eq_of_lt hlt]
  have : ∀ n, bitsVal (List.replicate n false) = 0 := by
    intro n
    induction n with
    | zero => rfl
    | succ n ih => rw [List.replicate_succ, show false :: List.replicate n false = [false] ++ List.replicate n false from rfl, bitsVal_append, ih]; simp [bitsVal]
  rw [this]
  simp

theorem top_exists {e : Enc} (h1 : 0 ≤ e.low) (h2 : e.low + e.range ≤ 2 ^ (15 + e.bits)) (h3 : 0 < e.range) :
    ∃ data : List UInt8, Top (bytesBits data) e := by
  obtain ⟨data, -, h⟩ := top_exists_len h1 h2 h3
  exact ⟨data, h⟩

/-- **C93, endless loops.**  If a program with an unbounded loop can be led into it and stays there on replies 0,
there are (finite) tile data on which the decoder never returns. -/
theorem C93_stall {α : Type} (L : Layout) (disable : Bool) (p : Nat → Rd α) (hle : ∀ n, (p 0).Le (p n)) (cdfs : List (List Int))
    (hL : L.Fits cdfs) (msg : List Nat) (h : ∀ n, (p n).Hangs L (msg ++ List.replicate n 0)) :
    ∃ data : List UInt8, ∀ fuel, (do let st ← initSymbol data.length
                                     (p fuel).exec L disable cdfs st : BM _) (newBitStream data) = .error .hang := by
  have h0 := h 0
  rw [List.replicate_zero, List.append_nil] at h0
  have hc0 := codable_of_hangs disable ((p 0).sel L) (p 0) [] msg cdfs hL (fun _ => rfl) h0
  have hb := encode_bounds disable ((p 0).sel L) msg [] cdfs encInit hL.valid hc0 (by simp [encInit])
    (by norm_num [encInit]) (by simp [encInit]) (by simp [encInit])
  dsimp only at hb
  obtain ⟨h1, h2, h3⟩ := hb
  obtain ⟨data, htop⟩ := top_exists h2 h3 (by omega)
  refine ⟨data, fun n => ?_⟩
  have hcn := codable_of_hangs disable ((p n).sel L) (p n) [] _ cdfs hL (fun _ => rfl) (h n)
  rw [encode_le disable ((p 0).sel L) ((p n).sel L) (p 0) (p n) [] msg cdfs encInit (fun _ => rfl) (fun _ => rfl) (hle n) h0] at htop
  have htop2 := Top.zeros disable ((p n).sel L) n ([] ++ msg) (encode disable ((p n).sel L) msg [] cdfs encInit).2 htop
  rw [← encode_append] at htop2
  have hbn := encode_bounds disable ((p n).sel L) _ [] cdfs encInit hL.valid hcn (by simp [encInit])
    (by norm_num [encInit]) (by simp [encInit]) (by simp [encInit])
  dsimp only at hbn
  obtain ⟨st', bs', hdec⟩ := C39_roundtrip disable ((p n).sel L) _ cdfs hL.valid hcn data.length (bytesBits data) []
    (newBitStream data) (by simp [unread, newBitStream]) (by rw [bytesBits_length]) (htop2.carries (by omega))
  obtain ⟨st, bs1, e1, e2⟩ := BM.bind_eq_ok.mp hdec
  obtain ⟨hi, -⟩ := initSymbol_inv e1
  rw [BM.bind_ok e1]
  exact exec_hang_of_decodeMany disable ((p n).sel L) (p n) [] _ cdfs _ st st' bs1 bs' hL hi (fun _ => rfl) (h n) e2

end Gov1
