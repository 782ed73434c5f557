import Verif.Lemmas.Descriptors
/-!
# C01–C08: the bit-level descriptors (internal/bitstream/bitstream.go)
-/
namespace Gov1

/-! ## C01 fixed-width reads -/

/-- C01: a value below `2^n` written on `n` bits is read back, and exactly `n` bits are consumed. -/
theorem C01_fixed_width_roundtrip (n v : Nat) (hv : v < 2 ^ n) (s : BitStream) (rest : List Bool)
    (h : unread s = encF n v ++ rest) : F n s = .ok (v, s.advance n) := by
  rw [F_enc h, Nat.mod_eq_of_lt hv]

/-- C01: `F n` panics exactly when fewer than `n` bits are left; otherwise it returns the value of
the next `n` bits, most significant first, and advances by `n`. -/
theorem C01_fixed_width_total (n : Nat) (s : BitStream) :
    (F n s = .error .index ↔ (unread s).length < n) ∧
    (n ≤ (unread s).length → F n s = .ok (bitsVal ((unread s).take n), s.advance n)) := by
  rw [F_eq]
  by_cases h : n ≤ (unread s).length
  · simp [h]
  · simp [h]; omega

/-- C01: the bits left are those of the data after the position: `8·len - pos` of them. -/
theorem C01_bits_left (s : BitStream) : (unread s).length = 8 * s.data.length - s.pos :=
  unread_length s

example : unread { data := [0xA5, 0x0F], pos := 3, leb := 0 } = encF 6 10 ++ encF 7 15 := by decide
example : F 6 { data := [0xA5, 0x0F], pos := 3, leb := 0 }
    = .ok (10, { data := [0xA5, 0x0F], pos := 9, leb := 0 }) := by rfl

/-! ## C02 signed reads -/

/-- C02: `Su(n)` inverts `n`-bit two's complement. -/
theorem C02_su_roundtrip (n : Nat) (v : Int) (hn : 1 ≤ n) (hlo : -(2 ^ (n - 1)) ≤ v)
    (hhi : v < 2 ^ (n - 1)) (s : BitStream) (rest : List Bool)
    (h : unread s = encSu n v ++ rest) : su n s = .ok (v, s.advance n) := by
  obtain ⟨k, rfl⟩ : ∃ k, n = k + 1 := ⟨n - 1, by omega⟩
  simp only [Nat.add_sub_cancel] at hlo hhi
  have hp : (0 : Int) < 2 ^ k := Int.pow_pos (by decide)
  have e2 : (2 : Int) ^ (k + 1) = 2 * 2 ^ k := by rw [Int.pow_succ, Int.mul_comm]
  have hpn : ((2 ^ k : Nat) : Int) = 2 ^ k := by norm_cast
  have hpn1 : ((2 ^ (k + 1) : Nat) : Int) = 2 * 2 ^ k := by rw [← e2]; norm_cast
  rw [encSu] at h
  have hF := F_enc h
  by_cases hv : 0 ≤ v
  · have e1 : v % (2 ^ (k + 1) : Int) = v := Int.emod_eq_of_lt hv (by omega)
    rw [e1] at hF
    have hlt : v.toNat < 2 ^ (k + 1) := by omega
    rw [Nat.mod_eq_of_lt hlt] at hF
    rw [su_of_F hF hlt, if_neg (by omega)]
    simp [Int.toNat_of_nonneg hv]
  · have e1 : v % (2 ^ (k + 1) : Int) = v + 2 * 2 ^ k := by
      rw [e2, ← Int.add_emod_right, Int.emod_eq_of_lt (by omega) (by omega)]
    rw [e1] at hF
    have hlt : (v + 2 * 2 ^ k).toNat < 2 ^ (k + 1) := by omega
    rw [Nat.mod_eq_of_lt hlt] at hF
    rw [su_of_F hF hlt, if_pos (by omega)]
    congr 2
    rw [e2]; omega

/-- C02: whatever the bits, `Su(n)` returns a value in `[-2^(n-1), 2^(n-1))`. -/
theorem C02_su_range (n : Nat) (hn : 1 ≤ n) (s s' : BitStream) (v : Int)
    (h : su n s = .ok (v, s')) : -(2 ^ (n - 1)) ≤ v ∧ v < 2 ^ (n - 1) := by
  obtain ⟨k, rfl⟩ : ∃ k, n = k + 1 := ⟨n - 1, by omega⟩
  have hF := F_eq (k + 1) s
  have e2 : (2 : Int) ^ (k + 1) = 2 * 2 ^ k := by rw [Int.pow_succ, Int.mul_comm]
  have hpn : ((2 ^ k : Nat) : Int) = 2 ^ k := by norm_cast
  by_cases hl : k + 1 ≤ (unread s).length
  · rw [if_pos hl] at hF
    have hlt : bitsVal ((unread s).take (k + 1)) < 2 ^ (k + 1) := by
      have := bitsVal_lt ((unread s).take (k + 1))
      simpa [Nat.min_eq_left hl] using this
    rw [su_of_F hF hlt] at h
    cases h
    rw [Nat.pow_succ] at hlt
    simp only [Nat.add_sub_cancel]
    split <;> omega
  · rw [if_neg hl] at hF
    rw [su, BM.bind_error hF] at h; cases h

example : unread { data := [0xA5, 0x0F], pos := 5, leb := 0 } = encSu 4 (-6) ++ encF 7 15 := by decide

/-! ## C03 non-symmetric reads -/

/-- C03: `Ns(n)` inverts the reference non-symmetric code of every `v < n`. -/
theorem C03_ns_roundtrip (n v : Nat) (hv : v < n) (s : BitStream) (rest : List Bool)
    (h : unread s = encNs n v ++ rest) :
    ns n s = .ok ((v : Int), s.advance (encNs n v).length) := by
  have hn : 0 < n := by omega
  have hlt : n < 2 ^ (Nat.log2 n + 1) := Nat.lt_log2_self
  have hle : 2 ^ Nat.log2 n ≤ n := Nat.log2_self_le (by omega)
  rw [ns_eq n hn, encNs_length n v hn]
  simp only [encNs, Nat.add_sub_cancel] at h
  rw [Nat.pow_succ] at *
  generalize hL : Nat.log2 n = L at *
  generalize hm : 2 ^ L * 2 - n = m at *
  by_cases hvm : v < m
  · rw [if_pos hvm] at h ⊢
    rw [BM.bind_ok (F_enc h), Nat.mod_eq_of_lt (by omega), if_pos hvm]
    rfl
  · rw [if_neg hvm] at h ⊢
    -- the first L bits are (v+m)/2, the last one (v+m)%2
    have hsplit : encF (L + 1) (v + m) = encF L ((v + m) / 2) ++ encF 1 ((v + m) % 2) := by
      have h1 : bitsVal (encF (L + 1) (v + m))
          = bitsVal (encF L ((v + m) / 2) ++ encF 1 ((v + m) % 2)) := by
        rw [bitsVal_append, bitsVal_encF, bitsVal_encF, bitsVal_encF, encF_length, Nat.pow_succ,
          Nat.mod_eq_of_lt (by omega : v + m < 2 ^ L * 2),
          Nat.mod_eq_of_lt (by omega : (v + m) / 2 < 2 ^ L)]
        omega
      have h2 := encF_bitsVal (encF (L + 1) (v + m))
      have h3 := encF_bitsVal (encF L ((v + m) / 2) ++ encF 1 ((v + m) % 2))
      rw [← h2, ← h3, h1]
      simp
    rw [hsplit, List.append_assoc] at h
    rw [BM.bind_ok (F_enc h), Nat.mod_eq_of_lt (by omega : (v + m) / 2 < 2 ^ L),
      if_neg (by omega)]
    have h' := unread_drop h
    rw [encF_length] at h'
    rw [BM.bind_ok (F_enc h')]
    simp only [BM.pure_apply, advance_advance]
    congr 2
    omega

/-- C03: whatever the bits, `Ns(n)` returns a value in `[0, n)`. -/
theorem C03_ns_range (n : Nat) (hn : 0 < n) (s s' : BitStream) (v : Int)
    (h : ns n s = .ok (v, s')) : 0 ≤ v ∧ v < n := by
  have hlt : n < 2 ^ (Nat.log2 n + 1) := Nat.lt_log2_self
  have hle : 2 ^ Nat.log2 n ≤ n := Nat.log2_self_le (by omega)
  rw [ns_eq n hn] at h
  obtain ⟨x, s1, h1, h2⟩ := BM.bind_eq_ok.mp h
  rw [F_eq] at h1
  split at h1
  · rename_i hl
    have hx : x < 2 ^ Nat.log2 n := by
      have := bitsVal_lt ((unread s).take (Nat.log2 n))
      cases h1
      simpa [Nat.min_eq_left hl] using this
    rw [Nat.pow_succ] at *
    split at h2
    · simp at h2; obtain ⟨rfl, -⟩ := h2; omega
    · obtain ⟨e, s2, h3, h4⟩ := BM.bind_eq_ok.mp h2
      have he : e < 2 := by
        rw [F_eq] at h3
        split at h3
        · have := bitsVal_lt ((unread s1).take 1)
          have hl2 : ((unread s1).take 1).length ≤ 1 := by simp; omega
          have h5 : 2 ^ ((unread s1).take 1).length ≤ 2 ^ 1 := Nat.pow_le_pow_right (by decide) hl2
          cases h3; omega
        · cases h3
      simp at h4
      obtain ⟨rfl, -⟩ := h4
      omega
  · cases h1

/-- C03, boundary: on a negative argument the Go call does not return (`FloorLog2` loops). -/
theorem C03_ns_negative_hangs (n : Int) (hn : n < 0) (s : BitStream) : ns n s = .error .hang := by
  unfold ns floorLog2Int
  rw [if_pos hn]; rfl

example : unread { data := [0xD8], pos := 1, leb := 0 } = encNs 5 2 ++ encNs 5 3 ++ encF 2 0 := by
  decide

/-! ## C04 LEB128 -/

/-- C04: a LEB128 encoding of `v` on `n ≤ 8` bytes, minimal or padded, is read back as `v`; the
length is recorded in `Leb128Bytes`. -/
theorem C04_leb128_roundtrip (n v : Nat) (hn : 1 ≤ n) (hn8 : n ≤ 8) (hv : v < 128 ^ n)
    (s : BitStream) (rest : List Bool) (h : unread s = encLeb (n - 1) v ++ rest) :
    leb128 s = .ok (v, { data := s.data, pos := s.pos + 8 * n, leb := n }) := by
  obtain ⟨k, rfl⟩ : ∃ k, n = k + 1 := ⟨n - 1, by omega⟩
  have := lebLoop_enc k 8 0 0 v { s with leb := 0 } rest hv (by omega) (by simp) h
  unfold leb128
  rw [setLeb_bind, this]
  simp [BitStream.advance]

/-- C04: whatever the bytes, at most 8 are consumed, the count is recorded, the value is below
`2^56`. -/
theorem C04_leb128_bounds (s s' : BitStream) (v : Nat) (h : leb128 s = .ok (v, s')) :
    v < 2 ^ 56 ∧ 1 ≤ s'.leb ∧ s'.leb ≤ 8 ∧ s'.pos = s.pos + 8 * s'.leb := by
  unfold leb128 at h
  rw [setLeb_bind] at h
  have h1 := lebLoop_bound 8 0 0 _ s' v (by simp) h
  have h2 := lebLoop_leb_le _ _ _ _ _ _ h
  have h3 := (Streaming.lebLoop 8 0 0 _ _ _ h).2.1
  simp at h1 h2 h3
  refine ⟨by simpa using h1.1, ?_, h2, by omega⟩
  rw [lebLoop] at h
  obtain ⟨b, s1, hb, hr⟩ := BM.bind_eq_ok.mp h
  rw [F_eq] at hb
  split at hb
  · cases hb
    simp only [BM.getLeb_bind, setLeb_bind] at hr
    split at hr
    · have := (lebLoop_bound 7 1 _ _ s' v (by rw [and_7f, or_shift_eq_add _ _ _ (by simp)]; simp; omega) hr).2.2.2
      simp at this; omega
    · simp at hr; obtain ⟨-, rfl⟩ := hr; simp
  · cases hb

example : encLeb 2 300 = bytesBits [0xAC, 0x82, 0x00] := by decide
example : unread { data := [0xAC, 0x82, 0x00, 0x55], pos := 0, leb := 3 }
    = encLeb (3 - 1) 300 ++ bytesBits [0x55] := by decide

/-! ## C05 little-endian -/

/-- C05: `Le(n)` inverts the `n`-byte little-endian encoding. -/
theorem C05_le_roundtrip (n v : Nat) (hv : v < 256 ^ n) (s : BitStream) (rest : List Bool)
    (h : unread s = encLe n v ++ rest) : le n s = .ok (v, s.advance (8 * n)) := by
  have := leLoop_enc n 0 v 0 s rest hv h
  simpa [le] using this

example : encLe 2 0x1234 = bytesBits [0x34, 0x12] := by decide

/-! ## C06 uvlc -/

/-- C06: `Uvlc` inverts the exponential-Golomb code for every `v < 2^32 - 1`. -/
theorem C06_uvlc_roundtrip (v : Nat) (hv : v < 2 ^ 32 - 1) (s : BitStream) (rest : List Bool)
    (h : unread s = encUvlc v ++ rest) :
    uvlc s = .ok (v, s.advance (2 * Nat.log2 (v + 1) + 1)) := by
  have hlt : v + 1 < 2 ^ (Nat.log2 (v + 1) + 1) := Nat.lt_log2_self
  have hle : 2 ^ Nat.log2 (v + 1) ≤ v + 1 := Nat.log2_self_le (by omega)
  have hk32 : Nat.log2 (v + 1) < 32 := (Nat.log2_lt (by omega)).mpr (by omega)
  simp only [encUvlc] at h
  generalize hk : Nat.log2 (v + 1) = k at *
  have htop : (v + 1).testBit k = true := by
    rw [testBit_top hlt]; simpa using hle
  have h1 : unread s = List.replicate k false ++ true :: (encF k (v + 1) ++ rest) := by
    rw [h, encF, htop]; simp
  have hz := uvlcZeros_run k (8 * s.data.length + 1) 0 s _ h1 (uvlc_fuel s k _ h1)
  unfold uvlc
  rw [BM.bind_ok hz]
  have h2 : unread (s.advance (k + 1)) = encF k (v + 1) ++ rest := by
    have : unread s = (List.replicate k false ++ [true]) ++ (encF k (v + 1) ++ rest) := by
      rw [h1]; simp
    have := unread_drop this
    simpa using this
  rw [Nat.zero_add, if_neg (by omega), BM.bind_ok (F_enc h2)]
  rw [Nat.pow_succ] at hlt
  have hmod : (v + 1) % 2 ^ k = v + 1 - 2 ^ k := by
    rw [Nat.mod_eq_sub_mod hle, Nat.mod_eq_of_lt (by omega)]
  rw [hmod, Nat.one_shiftLeft]
  simp only [BM.pure_apply, advance_advance]
  have e1 : v + 1 - 2 ^ k + 2 ^ k - 1 = v := by omega
  have e2 : k + 1 + k = 2 * k + 1 := by omega
  rw [e1, e2]

/-- C06: 32 or more leading zeros denote `2^32 - 1`. -/
theorem C06_uvlc_saturates (k : Nat) (hk : 32 ≤ k) (s : BitStream) (rest : List Bool)
    (h : unread s = List.replicate k false ++ true :: rest) :
    uvlc s = .ok (2 ^ 32 - 1, s.advance (k + 1)) := by
  unfold uvlc
  rw [BM.bind_ok (uvlcZeros_run k _ 0 s _ h (uvlc_fuel s k _ h)), Nat.zero_add, if_pos hk]
  rfl

/-- C06: `Uvlc` always returns or panics at the end of the data; it never loops forever. -/
theorem C06_uvlc_terminates (s : BitStream) : uvlc s ≠ .error .hang := by
  unfold uvlc
  rcases zeros_split (unread s) with ⟨k, rest, h⟩ | h
  · rw [BM.bind_ok (uvlcZeros_run k _ 0 s _ h (uvlc_fuel s k _ h))]
    split
    · simp
    · intro hh
      rw [BM.bind_apply, F_eq] at hh
      by_cases hc : 0 + k ≤ (unread (s.advance (k + 1))).length
      · rw [if_pos hc] at hh; cases hh
      · rw [if_neg hc] at hh; cases hh
  · have hl := unread_length s
    rw [BM.bind_error (uvlcZeros_all _ _ _ s h (by omega))]
    simp

example : unread { data := [0x14], pos := 1, leb := 0 } = encUvlc 4 ++ encF 2 0 := by decide

/-! ## C07 streaming discipline of the descriptors (the parsers built on them are in the files of
their own properties) -/

/-- C07: every descriptor reader is a streaming reader. -/
theorem C07_descriptors_streaming (n : Nat) (m : Int) :
    Streaming (F n) ∧ Streaming (su n) ∧ Streaming (ns m) ∧ Streaming (le n) ∧ Streaming leb128 ∧
    Streaming (trailingBits m) ∧ Streaming byteAlignment :=
  ⟨Streaming.F n, Streaming.su n, Streaming.ns m, Streaming.le n, Streaming.leb128,
    Streaming.trailingBits m, Streaming.byteAlignment⟩

/-- C07: `Uvlc` is a streaming reader as well. -/
theorem C07_uvlc_streaming : Streaming uvlc := by
  intro s a s' h
  have hS : Streaming (uvlcZeros (8 * s.data.length + 1) 0 >>= fun leadingZeros =>
      if leadingZeros ≥ 32 then pure ((1 <<< 32) - 1)
      else F leadingZeros >>= fun v => pure (v + (1 <<< leadingZeros) - 1)) := by
    refine Streaming.bind (Streaming.uvlcZeros _ _) fun _ => Streaming.ite (Streaming.pure _) ?_
    exact Streaming.bind (Streaming.F _) fun _ => Streaming.pure _
  obtain ⟨h1, h2, h3, h4⟩ := hS s a s' h
  refine ⟨h1, h2, h3, ?_⟩
  intro t hp hl hu
  rw [← h4 t hp hl hu]
  -- only the fuel differs; it is sufficient on both sides
  unfold uvlc
  rcases zeros_split (unread t) with ⟨k, rest, ht⟩ | ht
  · rw [BM.bind_ok (uvlcZeros_run k _ 0 t _ ht (uvlc_fuel t k _ ht))]
    by_cases hk : k < 8 * s.data.length + 1
    · rw [BM.bind_ok (uvlcZeros_run k _ 0 t _ ht hk)]
    · -- too few bits in `s`: contradiction with the run on `s`
      exfalso
      have hr := h4 t hp hl hu
      obtain ⟨z, s1, hz, h5⟩ := BM.bind_eq_ok.mp h
      rcases zeros_split (unread s) with ⟨j, rest', hs⟩ | hs
      · have hz' := uvlcZeros_run j _ 0 s _ hs (uvlc_fuel s j _ hs)
        rw [hz'] at hz
        cases hz
        have hge : j + 1 ≤ s'.pos - s.pos := by
          have := (Streaming.ite (c := 0 + j ≥ 32) (Streaming.pure ((1 <<< 32) - 1))
            (Streaming.bind (Streaming.F (0 + j)) fun v =>
              Streaming.pure (v + (1 <<< (0 + j)) - 1)) (s.advance (j + 1)) a s' h5).2.1
          simp at this; omega
        have h6 := congrArg (List.take (j + 1)) hu
        rw [List.take_take, List.take_take, Nat.min_eq_left hge, hs, ht] at h6
        have hjk : j < k := by
          have := uvlc_fuel s j _ hs; omega
        have a1 : ((List.replicate k false ++ true :: rest).take (j + 1))[j]? = some false := by
          rw [List.getElem?_take_of_lt (by omega), List.getElem?_append_left (by simpa using hjk)]
          simp [hjk]
        have a2 : ((List.replicate j false ++ true :: rest').take (j + 1))[j]? = some true := by
          rw [List.getElem?_take_of_lt (by omega), List.getElem?_append_right (by simp)]
          simp
        rw [h6, a2] at a1
        cases a1
      · rw [uvlcZeros_all _ _ _ s hs (by rw [unread_length]; omega)] at hz
        cases hz
  · have e := uvlcZeros_all _ (8 * t.data.length + 1) 0 t ht (by rw [unread_length]; omega)
    rw [BM.bind_error e]
    -- with any fuel the run on `t` cannot succeed
    have hr := h4 t hp hl hu
    obtain ⟨z, s1, hz, -⟩ := BM.bind_eq_ok.mp hr
    exfalso
    have hno : ∀ (f z0 : Nat) (u : BitStream), unread u = List.replicate (unread u).length false →
        ∀ r, uvlcZeros f z0 u ≠ .ok r := by
      intro f
      induction f with
      | zero => intro z0 u _ r hh; simp [uvlcZeros] at hh
      | succ f ih =>
        intro z0 u hu r hh
        rw [uvlcZeros] at hh
        obtain ⟨b, u1, hb, hc⟩ := BM.bind_eq_ok.mp hh
        cases hlen : (unread u).length with
        | zero =>
          rw [F_eq, hlen] at hb; simp at hb
        | succ n =>
          rw [hlen, List.replicate_succ] at hu
          have hF := F_append (a := [false]) (rest := List.replicate n false) (by simpa using hu)
          simp only [List.length_singleton] at hF
          rw [hF] at hb
          cases hb
          simp only [bitsVal, Bool.toNat_false, List.length_nil, Nat.zero_mul, Nat.zero_add] at hc
          rw [if_neg (by decide)] at hc
          refine ih _ _ ?_ r hc
          simp [hu]
    exact hno _ _ _ ht _ hz

example : ∃ r, uvlc { data := [0x14], pos := 1, leb := 0 } = .ok r := ⟨_, rfl⟩

/-! ## C08 alignment and trailing bits -/

/-- C08: `ByteAlignment` moves to the next multiple of 8, by `d < 8` bits, when these bits exist (on
a stream whose position is inside the data they always do, see `C08_byte_alignment_inside`). -/
theorem C08_byte_alignment (s : BitStream) (d : Nat) (hd : (s.pos + d) % 8 = 0) (hd8 : d < 8)
    (hlen : d ≤ (unread s).length) : byteAlignment s = .ok ((), s.advance d) := by
  unfold byteAlignment
  rw [byteAlignLoop_eq 8 s d hd hd8 hd8, if_pos hlen]

/-- C08: inside the data alignment never panics. -/
theorem C08_byte_alignment_inside (s : BitStream) (h : s.pos ≤ 8 * s.data.length) :
    ∃ s', byteAlignment s = .ok ((), s') ∧ s'.data = s.data ∧ s'.pos % 8 = 0 ∧
      s.pos ≤ s'.pos ∧ s'.pos < s.pos + 8 := by
  have hl := unread_length s
  refine ⟨s.advance ((8 - s.pos % 8) % 8), C08_byte_alignment s _ (by omega) (by omega) (by omega),
    rfl, ?_, ?_, ?_⟩ <;> simp <;> omega

/-- C08: `TrailingBits(nb)` consumes exactly `nb` bits for `nb ≥ 1`, whatever they are, and panics
exactly when they do not exist. -/
theorem C08_trailing_bits (nb : Nat) (hnb : 1 ≤ nb) (s : BitStream) :
    trailingBits nb s
      = if nb ≤ (unread s).length then .ok ((), s.advance nb) else .error .index := by
  rw [trailingBits_eq]
  have : 1 + ((nb : Int) - 1).toNat = nb := by omega
  rw [this]

/-- C08, boundary: with `nb ≤ 0` one bit is still consumed. -/
theorem C08_trailing_bits_nonpositive (nb : Int) (hnb : nb ≤ 0) (s : BitStream) :
    trailingBits nb s
      = if 1 ≤ (unread s).length then .ok ((), s.advance 1) else .error .index := by
  rw [trailingBits_eq]
  have : 1 + (nb - 1).toNat = 1 := by omega
  rw [this]

example : byteAlignment { data := [0xFF, 0x80], pos := 11, leb := 0 }
    = .ok ((), { data := [0xFF, 0x80], pos := 16, leb := 0 }) := by rfl

end Gov1
