import Verif.Props.StreamComplete
/-!
# C22: streams that fail

A fault of an OBU is a fault of the whole program.
-/
namespace Gov1
open Spec

theorem BM.error_after {α β : Type} {m : BM α} {k : α → BM β} {s s1 : BitStream} {a : α} {e : Fault} (h : m s = .ok (a, s1)) (hk : k a s1 = .error e) : (m >>= k) s = .error e := by
  rw [BM.bind_ok h]; exact hk

/-! ## A fault of an OBU is a fault of the stream -/

end Gov1

namespace Gov1.Spec

/-- An OBU on which the parser stops with the fault `e`. -/
def ObuFails (C : Codec) (st : State × C.R) (sh : SeqHeader) (uh : C.UH) (b : List Bool) (e : Fault) : Prop :=
  ∀ (s : BitStream) (rest : List Bool), s.pos % 8 = 0 → unread s = b ++ rest → newObu C ((b.length / 8 : Nat) : Int) st sh uh s = .error e

/-- OBUs of a frame unit that parse one after the other up to one that fails. -/
inductive FrameUnitFails (C : Codec) (e : Fault) : State × C.R → Parser C → List (Nat × List Bool) → Prop
  | here {st : State × C.R} {p : Parser C} {k : Nat} {b : List Bool} {l : List (Nat × List Bool)} (hv : ValidUnit k b)
      (ho : ObuFails C st p.sequenceHeader p.uncompressedHeader b e) : FrameUnitFails C e st p ((k, b) :: l)
  | later {st st' : State × C.R} {p : Parser C} {k : Nat} {b : List Bool} {l : List (Nat × List Bool)} {o : Obu C} (hv : ValidUnit k b)
      (ho : ObuParses C st p.sequenceHeader p.uncompressedHeader b o st') (hl : FrameUnitFails C e st' (afterObu p o) l) : FrameUnitFails C e st p ((k, b) :: l)

/-- Frame units that parse one after the other up to one that fails. -/
inductive TemporalUnitFails (C : Codec) (e : Fault) : Parser C → List (Nat × List (Nat × List Bool)) → Prop
  | here {p : Parser C} {k : Nat} {f : List (Nat × List Bool)} {l : List (Nat × List (Nat × List Bool))} (hv : ValidUnit k (encFrameUnit f))
      (hf : FrameUnitFails C e ({}, C.newR p.rest) p f) : TemporalUnitFails C e p ((k, f) :: l)
  | later {p p1 : Parser C} {k : Nat} {f : List (Nat × List Bool)} {l : List (Nat × List (Nat × List Bool))} (hv : ValidUnit k (encFrameUnit f))
      (hf : FrameUnitRun C ({}, C.newR p.rest) p f p1) (hl : TemporalUnitFails C e p1 l) : TemporalUnitFails C e p ((k, f) :: l)

/-- Temporal units that parse one after the other up to one that fails. -/
inductive StreamFails (C : Codec) (e : Fault) : Parser C → List (Nat × List (Nat × List (Nat × List Bool))) → Prop
  | here {p : Parser C} {k : Nat} {t : List (Nat × List (Nat × List Bool))} {l : List (Nat × List (Nat × List (Nat × List Bool)))} (hv : ValidUnit k (encTemporalUnit t))
      (ht : TemporalUnitFails C e p t) : StreamFails C e p ((k, t) :: l)
  | later {p p1 : Parser C} {k : Nat} {t : List (Nat × List (Nat × List Bool))} {l : List (Nat × List (Nat × List (Nat × List Bool)))} (hv : ValidUnit k (encTemporalUnit t))
      (ht : TemporalUnitRun C p t p1) (hl : StreamFails C e p1 l) : StreamFails C e p ((k, t) :: l)

end Gov1.Spec

namespace Gov1
open Spec

theorem frameUnitLoop_fails {C : Codec} {e : Fault} {st : State × C.R} {p : Parser C} {l : List (Nat × List Bool)} (h : FrameUnitFails C e st p l) (fuel : Nat) (sz : Int)
    (hsz : (((encFrameUnit l).length / 8 : Nat) : Int) ≤ sz) (hf : sz.toNat ≤ fuel) (s : BitStream) (rest : List Bool) (h8 : s.pos % 8 = 0)
    (hs : unread s = encFrameUnit l ++ rest) : frameUnitLoop C fuel sz st p s = .error e := by
  induction h generalizing fuel sz s with
  | @here st p k b l hv ho =>
    have hlen := encUnit_length hv
    unfold encFrameUnit at hsz hs
    rw [List.length_append] at hsz
    rw [List.append_assoc] at hs
    have hk := hv.1
    obtain ⟨f, rfl⟩ : ∃ f, fuel = f + 1 := ⟨fuel - 1, by omega⟩
    unfold frameUnitLoop
    rw [if_pos (by omega)]
    dsimp only
    obtain ⟨e1, u1⟩ := leb_unit hv hs
    rw [BM.bind_ok e1, BM.getLeb_bind]
    exact BM.bind_error (ho _ _ (by show (s.pos + 8 * k) % 8 = 0; omega) u1)
  | @later st st' p k b l o hv ho hl ih =>
    have hlen := encUnit_length hv
    unfold encFrameUnit at hsz hs
    rw [List.length_append] at hsz
    rw [List.append_assoc] at hs
    have hk := hv.1
    obtain ⟨f, rfl⟩ : ∃ f, fuel = f + 1 := ⟨fuel - 1, by omega⟩
    unfold frameUnitLoop
    rw [if_pos (by omega)]
    dsimp only
    obtain ⟨e1, u1⟩ := leb_unit hv hs
    obtain ⟨s2, e2, d2, p2⟩ := ho _ _ (by show (s.pos + 8 * k) % 8 = 0; omega) u1
    have u2 := unread_at u1 d2 p2
    rw [BM.bind_ok e1, BM.getLeb_bind, BM.bind_ok e2]
    dsimp only
    have hp : (if o.header.type = OBU_SEQUENCE_HEADER then
          { p with obus := p.obus ++ [o], sequenceHeader := o.sequenceHeader }
        else if o.header.type = OBU_FRAME_HEADER then
          { p with obus := p.obus ++ [o], uncompressedHeader := o.uncompressedHeader }
        else { p with obus := p.obus ++ [o] }) = afterObu p o := by
      unfold afterObu
      simp only [OBU_SEQUENCE_HEADER, OBU_FRAME_HEADER]
      by_cases h1 : o.header.type = 1
      · have : ¬ o.header.type = 3 := by omega
        simp [h1]
      · by_cases h3 : o.header.type = 3 <;> simp [h1, h3]
    rw [hp]
    have hb8 := hv.2.2.1
    exact ih f (sz - k - ((b.length / 8 : Nat) : Int)) (by omega) (by omega) s2 (by rw [p2]; show (s.pos + 8 * k + _) % 8 = 0; omega) u2

theorem temporalUnitLoop_fails {C : Codec} {e : Fault} {p : Parser C} {l : List (Nat × List (Nat × List Bool))} (h : TemporalUnitFails C e p l) (fuel : Nat) (sz : Int)
    (hsz : (((encTemporalUnit l).length / 8 : Nat) : Int) ≤ sz) (hf : sz.toNat ≤ fuel) (s : BitStream) (rest : List Bool) (h8 : s.pos % 8 = 0)
    (hs : unread s = encTemporalUnit l ++ rest) : temporalUnitLoop C fuel sz p s = .error e := by
  induction h generalizing fuel sz s with
  | @here p k fu l hv hfu =>
    have hlen := encUnit_length hv
    unfold encTemporalUnit at hsz hs
    rw [List.length_append] at hsz
    rw [List.append_assoc] at hs
    have hk := hv.1
    obtain ⟨f, rfl⟩ : ∃ f, fuel = f + 1 := ⟨fuel - 1, by omega⟩
    unfold temporalUnitLoop
    rw [if_pos (by omega)]
    dsimp only
    obtain ⟨e1, u1⟩ := leb_unit hv hs
    rw [BM.bind_ok e1, BM.getLeb_bind]
    refine BM.bind_error ?_
    unfold frameUnit
    rw [Int.toNat_natCast]
    exact frameUnitLoop_fails hfu _ _ le_rfl (by omega) _ _ (by show (s.pos + 8 * k) % 8 = 0; omega) u1
  | @later p p1 k fu l hv hfu hl ih =>
    have hlen := encUnit_length hv
    unfold encTemporalUnit at hsz hs
    rw [List.length_append] at hsz
    rw [List.append_assoc] at hs
    have hk := hv.1
    obtain ⟨f, rfl⟩ : ∃ f, fuel = f + 1 := ⟨fuel - 1, by omega⟩
    unfold temporalUnitLoop
    rw [if_pos (by omega)]
    dsimp only
    obtain ⟨e1, u1⟩ := leb_unit hv hs
    obtain ⟨s2, e2, d2, p2⟩ := frameUnitLoop_exact hfu ((encFrameUnit fu).length / 8)
      (((encFrameUnit fu).length / 8 : Nat) : Int) rfl (by omega) _ _ (by show (s.pos + 8 * k) % 8 = 0; omega) u1
    have u2 := unread_at u1 d2 p2
    have e2' : frameUnit C (((encFrameUnit fu).length / 8 : Nat) : Int) p
        { data := s.data, pos := s.pos + 8 * k, leb := k } = .ok (p1, s2) := by
      unfold frameUnit; rw [Int.toNat_natCast]; exact e2
    rw [BM.bind_ok e1, BM.getLeb_bind, BM.bind_ok e2']
    have hb8 := hv.2.2.1
    exact ih f (sz - k - (((encFrameUnit fu).length / 8 : Nat) : Int)) (by omega) (by omega) s2 (by rw [p2]; show (s.pos + 8 * k + _) % 8 = 0; omega) u2

theorem bitstreamLoop_fails {C : Codec} {e : Fault} {p : Parser C} {l : List (Nat × List (Nat × List (Nat × List Bool)))} (h : StreamFails C e p l) (fuel : Nat)
    (s : BitStream) (rest : List Bool) (hf : (encStream l).length < 8 * fuel) (hs : unread s = encStream l ++ rest) (h8 : s.pos % 8 = 0) :
    bitstreamLoop C fuel p s = .error e := by
  induction h generalizing fuel s with
  | @here p k t l hv ht =>
    have hlen := encUnit_length hv
    have hl' := congrArg List.length hs
    rw [unread_length] at hl'
    unfold encStream at hs hf hl'
    rw [List.append_assoc] at hs
    simp only [List.length_append] at hf hl'
    have hk := hv.1
    obtain ⟨f, rfl⟩ : ∃ f, fuel = f + 1 := ⟨fuel - 1, by omega⟩
    rw [bitstreamLoop_succ, if_pos]
    · obtain ⟨e1, u1⟩ := leb_unit hv hs
      rw [BM.bind_ok e1]
      refine BM.bind_error ?_
      unfold temporalUnit
      rw [Int.toNat_natCast]
      exact temporalUnitLoop_fails ht _ _ le_rfl (by omega) _ _ (by show (s.pos + 8 * k) % 8 = 0; omega) u1
    · unfold moreData
      simp only [bne_iff_ne, ne_eq]
      omega
  | @later p p1 k t l hv ht hl ih =>
    have hlen := encUnit_length hv
    have hl' := congrArg List.length hs
    rw [unread_length] at hl'
    unfold encStream at hs hf hl'
    rw [List.append_assoc] at hs
    simp only [List.length_append] at hf hl'
    have hk := hv.1
    obtain ⟨f, rfl⟩ : ∃ f, fuel = f + 1 := ⟨fuel - 1, by omega⟩
    rw [bitstreamLoop_succ, if_pos]
    · obtain ⟨e1, u1⟩ := leb_unit hv hs
      obtain ⟨s2, e2, d2, p2⟩ := temporalUnitLoop_exact ht ((encTemporalUnit t).length / 8)
        (((encTemporalUnit t).length / 8 : Nat) : Int) rfl (by omega) _ _ (by show (s.pos + 8 * k) % 8 = 0; omega) u1
      have u2 := unread_at u1 d2 p2
      have e2' : temporalUnit C (((encTemporalUnit t).length / 8 : Nat) : Int) p
          { data := s.data, pos := s.pos + 8 * k, leb := k } = .ok (p1, s2) := by
        unfold temporalUnit; rw [Int.toNat_natCast]; exact e2
      rw [BM.bind_ok e1, BM.bind_ok e2']
      have hb8 := hv.2.2.1
      simp only at p2 d2
      exact ih f s2 (by omega) u2 (by omega)
    · unfold moreData
      simp only [bne_iff_ne, ne_eq]
      omega

/-- C22: when everything before an OBU parses and the OBU fails, the program fails in the same way, whatever follows: nothing of what was decoded before is returned. -/
theorem C22_stream_fails (C : Codec) (e : Fault) (data : List UInt8) (tus : List (Nat × List (Nat × List (Nat × List Bool)))) (rest : List Bool)
    (hdata : bytesBits data = encStream tus ++ rest) (hrun : StreamFails C e { rest := C.startR, uncompressedHeader := C.zeroUH } tus) :
    parseStream C (newBitStream data) = .error e := by
  have hl := congrArg List.length hdata
  rw [bytesBits_length, List.length_append] at hl
  unfold parseStream
  exact BM.bind_error (bitstreamLoop_fails hrun (data.length + 2) (newBitStream data) rest (by omega) (by simpa [unread, newBitStream] using hdata) rfl)

/-- A tile group that fails. -/
theorem obu_tileGroup_fails (C : Codec) {st : State × C.R} (sh : SeqHeader) (uh : C.UH) {payload : List UInt8} {e : Fault} (hp : payload.length < 128 ^ 8)
    (h : ∀ s rest, s.pos % 8 = 0 → unread s = bytesBits payload ++ rest → C.tileGroup payload.length st uh sh s = .error e) :
    ObuFails C st sh uh (plainObu 4 payload) e := by
  intro s rest h8 hs
  have hf := plain_framed (t := 4) (by decide) hp
  obtain ⟨-, hu⟩ := newObu_prefix C _ st sh uh (plainHeader 4) 8 payload hf s rest hs
  rw [plain_after] at hu
  rw [C18_selected_tile_group C _ st sh uh (plainHeader 4) rfl 8 payload hf s rest hs (Or.inr (Or.inr (Or.inr (Or.inl rfl)))), plain_after,
    h (s.advance 8) rest (by simp; omega) hu]

/-- A stream of one temporal unit of one frame unit of three OBUs. -/
def threeObus (t1 t2 t3 : Nat) (a b c : List UInt8) : List (Nat × List (Nat × List (Nat × List Bool))) :=
  [(8, [(8, [(8, plainObu t1 a), (8, plainObu t2 b), (8, plainObu t3 c)])])]

theorem threeObus_bytes (t1 t2 t3 : Nat) {a b c : List UInt8} (hl : a.length + b.length + c.length < 2 ^ 40) : ∃ data : List UInt8, bytesBits data = encStream (threeObus t1 t2 t3 a b c) ∧
    ∀ (C : Codec) (e : Fault) {o1 o2 : Obu C} {st1 st2 : State × C.R}, ObuParses C ({}, C.newR C.startR) {} C.zeroUH (plainObu t1 a) o1 st1 →
      ObuParses C st1 (if o1.header.type = 1 then o1.sequenceHeader else {}) (if o1.header.type = 3 then o1.uncompressedHeader else C.zeroUH) (plainObu t2 b) o2 st2 →
      ObuFails C st2 (if o2.header.type = 1 then o2.sequenceHeader else if o1.header.type = 1 then o1.sequenceHeader else {})
        (if o2.header.type = 3 then o2.uncompressedHeader else if o1.header.type = 3 then o1.uncompressedHeader else C.zeroUH) (plainObu t3 c) e →
      parseStream C (newBitStream data) = .error e := by
  have l1 := plainObu_length t1 a
  have l2 := plainObu_length t2 b
  have l3 := plainObu_length t3 c
  have hb : (2 : Nat) ^ 40 = 1099511627776 := by norm_num
  have hk : (128 : Nat) ^ 8 = 72057594037927936 := by norm_num
  have v1 : ValidUnit 8 (plainObu t1 a) := ⟨by decide, by decide, by omega, by omega⟩
  have v2 : ValidUnit 8 (plainObu t2 b) := ⟨by decide, by decide, by omega, by omega⟩
  have v3 : ValidUnit 8 (plainObu t3 c) := ⟨by decide, by decide, by omega, by omega⟩
  have e1 := encUnit_length v1
  have e2 := encUnit_length v2
  have e3 := encUnit_length v3
  have lf : (encFrameUnit [(8, plainObu t1 a), (8, plainObu t2 b), (8, plainObu t3 c)]).length = 8 * (27 + a.length + b.length + c.length) := by
    simp only [encFrameUnit, List.length_append, List.length_nil]
    omega
  have vf : ValidUnit 8 (encFrameUnit [(8, plainObu t1 a), (8, plainObu t2 b), (8, plainObu t3 c)]) := ⟨by decide, by decide, by omega, by omega⟩
  have ef := encUnit_length vf
  have lt : (encTemporalUnit [(8, [(8, plainObu t1 a), (8, plainObu t2 b), (8, plainObu t3 c)])]).length = 8 * (35 + a.length + b.length + c.length) := by
    simp only [encTemporalUnit, List.length_append, List.length_nil]
    omega
  have vt : ValidUnit 8 (encTemporalUnit [(8, [(8, plainObu t1 a), (8, plainObu t2 b), (8, plainObu t3 c)])]) := ⟨by decide, by decide, by omega, by omega⟩
  have et := encUnit_length vt
  obtain ⟨data, hd, -⟩ := bytes_of_bits (43 + a.length + b.length + c.length) (encStream (threeObus t1 t2 t3 a b c)) (by
    simp only [threeObus, encStream, List.length_append, List.length_nil]
    omega)
  refine ⟨data, hd, ?_⟩
  intro C e o1 o2 st1 st2 h1 h2 h3
  exact C22_stream_fails C e data (threeObus t1 t2 t3 a b c) [] (by rw [hd, List.append_nil]) (.here vt (.here vf (.later v1 h1 (.later v2 h2 (.here v3 h3)))))

end Gov1
