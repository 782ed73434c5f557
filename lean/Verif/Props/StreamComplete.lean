import Verif.Props.Decoder
import Verif.Props.BlockComplete
import Verif.Props.Parser
import Verif.Lemmas.FrameMovable
import Verif.Lemmas.SeqMovable
/-!
# The whole decoder: streams for all frames

Every frame of 8x8 pixels that the syntax of frames allows is decoded from some stream: sequence header, frame header, tile data.
-/
namespace Gov1
open Spec

/-! ## Tile data at any place of a stream -/

theorem encode_bits_le (disable : Bool) (sel : List Nat → Option Nat) (msg hist : List Nat) (cdfs : List (List Int)) (e : Enc) :
    (encode disable sel msg hist cdfs e).1.bits ≤ e.bits + 15 * msg.length := by
  induction msg generalizing hist cdfs e with
  | nil => exact Nat.le_refl _
  | cons a m ih =>
    have h1 := ih (hist ++ [a]) (updated disable cdfs (sel hist) a) (encSymbol e (pick cdfs (sel hist)) a)
    have h2 : (encSymbol e (pick cdfs (sel hist)) a).bits ≤ e.bits + 15 := Nat.add_le_add_left (Nat.sub_le _ _) _
    have h3 : (encode disable sel (a :: m) hist cdfs e).1 =
      (encode disable sel m (hist ++ [a]) (updated disable cdfs (sel hist) a) (encSymbol e (pick cdfs (sel hist)) a)).1 := rfl
    rw [h3, List.length_cons]
    omega

/-- Every codable message has tile data that give it back at whatever position of a stream they stand, and that are not used up. -/
theorem encodable_at (disable : Bool) (sel : List Nat → Option Nat) (msg : List Nat) (cdfs : List (List Int)) (hv : ∀ c ∈ cdfs, ValidCdf c)
    (hc : Codable disable sel msg [] cdfs) :
    ∃ (data : List UInt8) (st st' : Sym), data.length ≤ 15 + 15 * msg.length ∧ 0 ≤ st'.maxBits ∧
      ∀ bs rest, unread bs = bytesBits data ++ rest → ∃ bs1 bs', initSymbol data.length bs = .ok (st, bs1) ∧
        decodeMany disable sel msg.length [] cdfs st bs1 = .ok ((msg, (encode disable sel msg [] cdfs encInit).2, st'), bs') ∧
        bs'.data = bs.data ∧ (bs'.pos : Int) + st'.maxBits = bs.pos + 8 * data.length := by
  have hb := encode_bounds disable sel msg [] cdfs encInit hv hc (by simp [encInit]) (by norm_num [encInit]) (by simp [encInit]) (by simp [encInit])
  have hle := encode_bits_le disable sel msg [] cdfs encInit
  have hle0 : encInit.bits = 0 := rfl
  dsimp only at hb
  generalize he : (encode disable sel msg [] cdfs encInit) = r at *
  obtain ⟨h1, h2, h3⟩ := hb
  have hx : (r.1.low.toNat : Int) = r.1.low := Int.toNat_of_nonneg h2
  have hlt : r.1.low.toNat < 2 ^ (15 + r.1.bits) := by
    have : r.1.low < 2 ^ (15 + r.1.bits) := by omega
    rw [← hx] at this
    exact_mod_cast this
  obtain ⟨data, hd, hdl⟩ := bytes_of_bits (15 + r.1.bits)
    (encF (15 + r.1.bits) (2 ^ (15 + r.1.bits) - 1 - r.1.low.toNat) ++ List.replicate (7 * (15 + r.1.bits)) false) (by simp; omega)
  have hcar : Carries (bytesBits data) r.1 := by
    have e1 : padBits (bytesBits data) (15 + r.1.bits) = encF (15 + r.1.bits) (2 ^ (15 + r.1.bits) - 1 - r.1.low.toNat) := by
      rw [hd, padBits, List.append_assoc]
      exact List.take_left' (by simp)
    have e2 : bitsVal (padBits (bytesBits data) (15 + r.1.bits)) = 2 ^ (15 + r.1.bits) - 1 - r.1.low.toNat := by
      rw [e1, bitsVal_encF, Nat.mod_eq_of_lt]
      have := Nat.two_pow_pos (15 + r.1.bits)
      omega
    have e3 : (2 : Int) ^ (15 + r.1.bits) - 1 - bitsVal (padBits (bytesBits data) (15 + r.1.bits)) = r.1.low := by
      rw [e2, Nat.sub_sub, Nat.cast_sub (by omega)]
      push_cast
      omega
    exact ⟨e3.symm ▸ le_refl _, by rw [e3]; omega⟩
  have hlen : (bytesBits data).length = 8 * (15 + r.1.bits) := by rw [bytesBits_length, hdl]
  refine ⟨data, ⟨2 ^ 15, codeVal (bytesBits data) 0, ((bytesBits data).length : Int) - 15 - (0 : Nat)⟩, ⟨r.1.range, codeVal (bytesBits data) r.1.bits - r.1.low, ((bytesBits data).length : Int) - 15 - r.1.bits⟩, by omega, ?_, ?_⟩
  · show (0 : Int) ≤ ((bytesBits data).length : Int) - 15 - r.1.bits
    rw [hlen]; push_cast; omega
  intro bs rest hbs
  have hin := initSymbol_ok (sz := data.length) hbs (by rw [bytesBits_length])
  have hun : unread (bs.advance (min 15 (bytesBits data).length)) = (bytesBits data).drop (15 + encInit.bits) ++ rest := by
    rw [unread_advance, hbs, List.drop_append, Nat.min_eq_left (by omega)]
    simp only [encInit, Nat.add_zero]
    have e : 15 - (bytesBits data).length = 0 := by omega
    rw [e, List.drop_zero]
  have := encode_carries_decodes disable sel (bytesBits data) rest msg [] cdfs encInit hv hc (by simp [encInit]) (by norm_num [encInit]) (by rw [he]; exact hcar)
    ⟨2 ^ 15, codeVal (bytesBits data) 0, ((bytesBits data).length : Int) - 15 - (0 : Nat)⟩ (bs.advance (min 15 (bytesBits data).length)) rfl (by simp [encInit]) rfl hun
  dsimp only at this
  rw [he] at this
  refine ⟨_, _, hin, this, rfl, ?_⟩
  simp only [advance_pos, List.length_drop, hle0]
  rw [hlen, hdl, Nat.min_eq_left (by omega)]
  push_cast
  omega

/-- The same for programs of block syntax. -/
theorem complete_at {α : Type} (L : Layout) (disable : Bool) (p : Rd α) (cdfs : List (List Int)) (hL : L.Fits cdfs) (msg : List Nat) (a : α)
    (h : p.run L msg = .ok (a, [])) :
    ∃ (data : List UInt8) (cdfs' : List (List Int)) (st st' : Sym), data.length ≤ 15 + 15 * msg.length ∧ SymInv st ∧
      ∀ bs rest, unread bs = bytesBits data ++ rest → ∃ bs1 bs', initSymbol data.length bs = .ok (st, bs1) ∧
        p.exec L disable cdfs st bs1 = .ok ((a, cdfs', st'), bs') ∧
        ∃ bs2, exitSymbol st' bs' = .ok ((), bs2) ∧ bs2.data = bs.data ∧ bs2.pos = bs.pos + 8 * data.length := by
  obtain ⟨data, st, st', hl, hm, hd⟩ := encodable_at disable (p.sel L) msg cdfs hL.valid (codable_of_run disable _ p [] msg cdfs a hL (fun _ => rfl) h)
  have hi : SymInv st := by
    obtain ⟨bs1, bs', h1, -⟩ := hd (newBitStream data) [] (by simp [unread, newBitStream])
    exact (initSymbol_inv h1).1
  refine ⟨data, (encode disable (p.sel L) msg [] cdfs encInit).2, st, st', hl, hi, fun bs rest hbs => ?_⟩
  obtain ⟨bs1, bs', h1, h2, h3, h4⟩ := hd bs rest hbs
  refine ⟨bs1, bs', h1, exec_of_decodeMany disable (p.sel L) p [] msg cdfs _ st st' bs1 bs' a hL hi (fun _ => rfl) h h2, ?_⟩
  refine ⟨{ bs' with pos := bs'.pos + (maxI 0 st'.maxBits).toNat }, ?_, h3, ?_⟩
  · rw [exitSymbol, if_neg (by omega)]; rfl
  · show bs'.pos + (maxI 0 st'.maxBits).toNat = _
    have : (maxI 0 st'.maxBits).toNat = st'.maxBits.toNat := by simp only [maxI]; split <;> omega
    rw [this]; omega

/-! ## OBUs -/

/-- An OBU header without extension and without size field. -/
def plainHeader (t : Nat) : Header := ⟨false, t, false, false, false, ⟨0, 0, 0⟩⟩

/-- The bits of an OBU of type `t`: the byte of the header and the payload. -/
def plainObu (t : Nat) (payload : List UInt8) : List Bool := encObu (plainHeader t) 8 payload

theorem plainObu_length (t : Nat) (payload : List UInt8) : (plainObu t payload).length = 8 * (1 + payload.length) := by
  unfold plainObu encObu encHeader plainHeader
  simp [Spec.bit, bytesBits_length]
  omega

theorem plain_framed {t : Nat} (ht : t < 16) {payload : List UInt8} (hp : payload.length < 128 ^ 8) :
    WellFramed (plainHeader t) 8 payload (((plainObu t payload).length / 8 : Nat) : Int) := by
  refine ⟨⟨ht, by simp [plainHeader]⟩, ⟨by decide, by decide⟩, hp, fun _ => ?_⟩
  rw [plainObu_length]
  unfold obuOverhead plainHeader
  simp

theorem plain_after (s : BitStream) (t : Nat) : afterSize s (plainHeader t) 8 = s.advance 8 := rfl

/-- The first bits of a payload, anywhere. -/
theorem Movable.payload {α : Type} {m : BM α} (hm : Movable m) {payload : List UInt8} {a : α} {e : BitStream} (h : m (newBitStream payload) = .ok (a, e))
    {s : BitStream} {rest : List Bool} (hs : unread s = bytesBits payload ++ rest) : m s = .ok (a, s.advance e.pos) := by
  obtain ⟨n, he, hn, hk⟩ := hm _ _ _ h
  have hu : unread (newBitStream payload) = bytesBits payload := by simp [unread, newBitStream]
  have hpos : e.pos = n := by rw [he]; simp [newBitStream]
  rw [hpos]
  refine hk s ?_
  rw [hs, hu] at *
  exact List.take_append_of_le_length hn

/-- A payload that is a sequence header, with at least one bit left. -/
theorem obu_seq (C : Codec) {st : State × C.R} (sh : SeqHeader) (uh : C.UH) {payload : List UInt8} {q : SeqHeader} {s1 : State} {e : BitStream}
    (h : newSequenceHeader st.1 (newBitStream payload) = .ok ((q, s1), e)) (he : e.pos < 8 * payload.length) (hp : payload.length < 128 ^ 8) :
    ObuParses C st sh uh (plainObu 1 payload) ⟨payload.length, plainHeader 1, q, uh, C.zeroTG⟩ (s1, st.2) := by
  intro s rest h8 hs
  obtain ⟨e1, hu⟩ := newObu_prefix C _ st sh uh (plainHeader 1) 8 payload (plain_framed (by decide) hp) s rest hs
  rw [e1]
  have hsq := (C07_sequenceHeader_anywhere st.1).payload h hu
  rw [plain_after] at *
  rw [obuRest_exact C st (s1, st.2) sh uh (plainHeader 1) payload.length ⟨payload.length, plainHeader 1, q, uh, C.zeroTG⟩ (s.advance 8) ((s.advance 8).advance e.pos)
    (Or.inl rfl) ⟨by decide, by decide, by decide⟩ ?_ rfl (fun _ => by simp; omega) (fun h0 => by rw [h0] at he; omega) ?_]
  · refine ⟨_, rfl, rfl, ?_⟩
    rw [plainObu_length]
    simp only [advance_pos]
    omega
  · rw [obuPayload_1 _ _ _ rfl, BM.bind_ok hsq]
    rfl
  · rw [hu, List.length_append, bytesBits_length]; omega

/-- A payload that is a frame header, with at least one bit left. -/
theorem obu_frameHeader (C : Codec) {st : State × C.R} (sh : SeqHeader) (uh : C.UH) {payload : List UInt8} {u : C.UH} {st1 : State × C.R} {e : BitStream}
    (hseen : st.1.seenFrameHeader = false) (hm : Movable (C.parseUH (plainHeader 3) sh ({ st.1 with seenFrameHeader := true }, st.2)))
    (h : C.parseUH (plainHeader 3) sh ({ st.1 with seenFrameHeader := true }, st.2) (newBitStream payload) = .ok ((u, st1), e)) (hshow : C.showExisting u = false)
    (he : e.pos < 8 * payload.length) (hp : payload.length < 128 ^ 8) :
    ObuParses C st sh uh (plainObu 3 payload) ⟨payload.length, plainHeader 3, sh, u, C.zeroTG⟩ ({ st1.1 with tileNum := 0, seenFrameHeader := true }, st1.2) := by
  intro s rest h8 hs
  obtain ⟨e1, hu⟩ := newObu_prefix C _ st sh uh (plainHeader 3) 8 payload (plain_framed (by decide) hp) s rest hs
  rw [e1]
  have hsq := hm.payload h hu
  rw [plain_after] at *
  have hfh : parseFrameHeader C (plainHeader 3) sh st (s.advance 8) = .ok ((u, ({ st1.1 with tileNum := 0, seenFrameHeader := true }, st1.2)), (s.advance 8).advance e.pos) := by
    unfold parseFrameHeader
    rw [hseen]
    simp only [Bool.false_eq_true, if_false]
    rw [BM.bind_ok hsq]
    simp [hshow]
  rw [obuRest_exact C st ({ st1.1 with tileNum := 0, seenFrameHeader := true }, st1.2) sh uh (plainHeader 3) payload.length
    ⟨payload.length, plainHeader 3, sh, u, C.zeroTG⟩ (s.advance 8) ((s.advance 8).advance e.pos)
    (Or.inr (Or.inr (Or.inr (Or.inl rfl)))) ⟨by decide, by decide, by decide⟩ ?_ rfl (fun _ => by simp; omega) (fun h0 => by rw [h0] at he; omega) ?_]
  · refine ⟨_, rfl, rfl, ?_⟩
    rw [plainObu_length]
    simp only [advance_pos]
    omega
  · rw [obuPayload_3 _ _ _ rfl, BM.bind_ok hfh]
    rfl
  · rw [hu, List.length_append, bytesBits_length]; omega

/-- A payload that is a tile group. -/
theorem obu_tileGroup (C : Codec) {st st' : State × C.R} (sh : SeqHeader) (uh : C.UH) {payload : List UInt8} {tg : C.TG} (hp : payload.length < 128 ^ 8)
    (h : ∀ s rest, s.pos % 8 = 0 → unread s = bytesBits payload ++ rest →
      ∃ s', C.tileGroup payload.length st uh sh s = .ok ((tg, st'), s') ∧ s'.data = s.data ∧ s'.pos = s.pos + 8 * payload.length) :
    ObuParses C st sh uh (plainObu 4 payload) ⟨payload.length, plainHeader 4, sh, uh, tg⟩ st' := by
  intro s rest h8 hs
  have hf := plain_framed (t := 4) (by decide) hp
  obtain ⟨-, hu⟩ := newObu_prefix C _ st sh uh (plainHeader 4) 8 payload hf s rest hs
  rw [plain_after] at hu
  obtain ⟨s', e1, e2, e3⟩ := h (s.advance 8) rest (by simp; omega) hu
  rw [C18_selected_tile_group C _ st sh uh (plainHeader 4) rfl 8 payload hf s rest hs (Or.inr (Or.inr (Or.inr (Or.inl rfl)))), plain_after, e1]
  refine ⟨s', rfl, e2, ?_⟩
  rw [e3, plainObu_length, advance_pos]
  omega

/-- A stream of one temporal unit of one frame unit of three OBUs. -/
theorem stream_three (C : Codec) {a b c : List UInt8} (hl : a.length + b.length + c.length < 2 ^ 40) {t1 t2 t3 : Nat} {o1 o2 o3 : Obu C} {st1 st2 st3 : State × C.R}
    (h1 : ObuParses C ({}, C.newR C.startR) {} C.zeroUH (plainObu t1 a) o1 st1)
    (h2 : ObuParses C st1 (if o1.header.type = 1 then o1.sequenceHeader else {}) (if o1.header.type = 3 then o1.uncompressedHeader else C.zeroUH) (plainObu t2 b) o2 st2)
    (h3 : ObuParses C st2 (if o2.header.type = 1 then o2.sequenceHeader else if o1.header.type = 1 then o1.sequenceHeader else {})
      (if o2.header.type = 3 then o2.uncompressedHeader else if o1.header.type = 3 then o1.uncompressedHeader else C.zeroUH) (plainObu t3 c) o3 st3) :
    ∃ (data : List UInt8) (s : BitStream), parseStream C (newBitStream data) = .ok ([o1, o2, o3], s) := by
  have l1 := plainObu_length t1 a
  have l2 := plainObu_length t2 b
  have l3 := plainObu_length t3 c
  have hb : (2 : Nat) ^ 40 = 1099511627776 := by norm_num
  have hk : (128 : Nat) ^ 8 = 72057594037927936 := by norm_num
  have v1 : ValidUnit 8 (plainObu t1 a) := ⟨by decide, by decide, by omega, by omega⟩
  have v2 : ValidUnit 8 (plainObu t2 b) := ⟨by decide, by decide, by omega, by omega⟩
  have v3 : ValidUnit 8 (plainObu t3 c) := ⟨by decide, by decide, by omega, by omega⟩
  have e1 := encUnit_length v1
  have e2 := encUnit_length v2
  have e3 := encUnit_length v3
  have lf : (encFrameUnit [(8, plainObu t1 a), (8, plainObu t2 b), (8, plainObu t3 c)]).length = 8 * (27 + a.length + b.length + c.length) := by
    simp only [encFrameUnit, List.length_append, List.length_nil]
    omega
  have vf : ValidUnit 8 (encFrameUnit [(8, plainObu t1 a), (8, plainObu t2 b), (8, plainObu t3 c)]) := ⟨by decide, by decide, by omega, by omega⟩
  have ef := encUnit_length vf
  have lt : (encTemporalUnit [(8, [(8, plainObu t1 a), (8, plainObu t2 b), (8, plainObu t3 c)])]).length = 8 * (35 + a.length + b.length + c.length) := by
    simp only [encTemporalUnit, List.length_append, List.length_nil]
    omega
  have vt : ValidUnit 8 (encTemporalUnit [(8, [(8, plainObu t1 a), (8, plainObu t2 b), (8, plainObu t3 c)])]) := ⟨by decide, by decide, by omega, by omega⟩
  have et := encUnit_length vt
  obtain ⟨data, hd, -⟩ := bytes_of_bits (43 + a.length + b.length + c.length) (encStream [(8, [(8, [(8, plainObu t1 a), (8, plainObu t2 b), (8, plainObu t3 c)])])]) (by
    simp only [encStream, List.length_append, List.length_nil]
    omega)
  obtain ⟨s', e, -⟩ := C22_stream_exact C data _ _ hd (.cons vt (.cons vf (.cons v1 h1 (.cons v2 h2 (.cons v3 h3 (.nil _ _)))) (.nil _)) (.nil _))
  exact ⟨data, s', e⟩

/-! ## The tile group -/

theorem tileGroup_of {σ : Type} (body : TileRun → σ → Sym → BM (Sym × σ)) {t : Tiles} (h1 : t.tileCols = 1) (h2 : t.tileRows = 1) (h3 : t.miColStarts = [0, 2])
    (h4 : t.miRowStarts = [0, 2]) {n : Nat} {x x' : σ} {st st' : Sym} {s s1 s2 s3 : BitStream} (h8 : s.pos % 8 = 0)
    (hi : initSymbol n s = .ok (st, s1)) (hb : body ⟨0, n, 0, 2, 0, 2, s.pos⟩ x st s1 = .ok ((st', x'), s2)) (he : exitSymbol st' s2 = .ok ((), s3)) :
    tileGroup body t n x s = .ok (([⟨0, n, 0, 2, 0, 2, s.pos⟩], x', true), s3) := by
  unfold tileGroup tileRange
  rw [h1, h2]
  refine BM.bind_eq_ok.mpr ⟨s.pos, s, rfl, ?_⟩
  refine BM.bind_eq_ok.mpr ⟨(0, 0), s, rfl, ?_⟩
  refine BM.bind_eq_ok.mpr ⟨(), s, ?_, ?_⟩
  · have := C08_byte_alignment s 0 (by omega) (by omega)
    simpa using this (Nat.zero_le _)
  refine BM.bind_eq_ok.mpr ⟨s.pos, s, rfl, ?_⟩
  dsimp only
  have hz : (n : Int) - (((s.pos - s.pos) / 8 : Nat) : Int) = n := by simp
  rw [hz]
  refine BM.bind_eq_ok.mpr ⟨([⟨0, n, 0, 2, 0, 2, s.pos⟩], x'), s3, ?_, rfl⟩
  rw [show ((0 : Int) + 1 - ((0 : Nat) : Int)).toNat = 1 from rfl, tileLoop, h1, h3, h4]
  refine BM.bind_eq_ok.mpr ⟨((n : Int), (n : Int)), s, rfl, ?_⟩
  refine BM.bind_eq_ok.mpr ⟨0, s, rfl, BM.bind_eq_ok.mpr ⟨2, s, rfl, BM.bind_eq_ok.mpr ⟨0, s, rfl, BM.bind_eq_ok.mpr ⟨2, s, rfl, ?_⟩⟩⟩⟩
  refine BM.bind_eq_ok.mpr ⟨s.pos, s, rfl, BM.bind_eq_ok.mpr ⟨st, s1, hi, BM.bind_eq_ok.mpr ⟨(st', x'), s2, hb, BM.bind_eq_ok.mpr ⟨(), s3, he, ?_⟩⟩⟩⟩
  exact BM.bind_eq_ok.mpr ⟨([], x'), s3, rfl, rfl⟩

/-- The state in which the first tile of a group starts. -/
def groupFirst (uh : UHeader) (r : DecR) : TileSt :=
  (setCurQ uh.quant.baseQIdx ({ cdfs := groupCdfs r, blk := groupStart r.arr, lr := { refXqd := List.replicate 3 [0, 0] } }, [])).1

/-- The only tile of a frame of 2x2 units. -/
def wholeTile : TileRun := ⟨0, 0, 0, 2, 0, 2, 0⟩

/-- The syntax of the frame whose header was read into the state `r`. -/
def headerSyntax (grow : Nat → Nat) (fuel : Nat) (sh : SeqHeader) (uh : UHeader) (r : DecR) : Rd (BlkSt × LrUnitParams × Nat) :=
  frameSyntax grow fuel (frHdrOf sh uh r.fs r.slots wholeTile) (lrHdrOf sh uh r.fs) (groupFirst uh r)

/-- The events of a frame whose 8x8 block has the partition `p`. -/
def wholeLog (p : Nat) : List Ev := [.part 12 0 0 3, .part 9 0 0 3, .part 6 0 0 3, .part 3 0 0 p] ++ smallLog p

theorem decodeGroup_of (grow : Nat → Nat) (fuel : Nat) {sh : SeqHeader} {uh : DecUH} {s : State} {r : DecR} (h1 : r.fs.tiles.tileCols = 1) (h2 : r.fs.tiles.tileRows = 1)
    (h3 : r.fs.tiles.miColStarts = [0, 2]) (h4 : r.fs.tiles.miRowStarts = [0, 2]) (h5 : r.fs.miRows = 2) (h6 : r.fs.miCols = 2) (hsb : sh.use128x128SuperBlock = false)
    {k : Fin 4} (hk : cdfClass r.fs = some k) (hL : (cdfLayout k).Fits (r.cdf.view k)) {msg : List Nat} {b : BlkSt} {l : LrUnitParams} {p : Nat}
    (hm : (headerSyntax grow fuel sh uh.hdr r).run (cdfLayout k) msg = .ok ((b, l, p), [])) {y : Planes × Planes × (RefMem Unit × Planes)}
    (hw : wrapup s.operatingPointIdc sh uh.hdr r.fs r.slots r.arr.cdef ⟨[], b, l⟩ (zeroPlanes 3 1 1) = .ok y) :
    ∃ (data : List UInt8) (tg : DecTG) (st' : State × DecR), data.length ≤ 15 + 15 * msg.length ∧
      tg.decoded = b.tb.frames ∧ tg.finished = true ∧ tg.log = wholeLog p ∧ tg.out = y.2.2.2 ∧ tg.store = y.2.2.1.store ∧
      tg.runs = [{ wholeTile with size := data.length }] ∧
      ∀ bs rest, bs.pos % 8 = 0 → unread bs = bytesBits data ++ rest →
        ∃ bs', decodeGroup grow fuel data.length (s, r) uh sh bs = .ok ((tg, st'), bs') ∧ bs'.data = bs.data ∧ bs'.pos = bs.pos + 8 * data.length := by
  have hcd : (groupFirst uh.hdr r).cdfs = r.cdf.view k := by
    show groupCdfs r = _
    unfold groupCdfs
    rw [hk]
  obtain ⟨data, cdfs', st, st', hl, hi, hd⟩ := complete_at (cdfLayout k) uh.hdr.disableCdfUpdate _ (groupFirst uh.hdr r).cdfs (by rw [hcd]; exact hL) msg _ hm
  have hw' : wrapup (tileNumAfter s [{ wholeTile with size := data.length }]).operatingPointIdc sh uh.hdr
      (groupMid uh r [{ wholeTile with size := data.length }] ⟨cdfs', b, l⟩).fs (groupMid uh r [{ wholeTile with size := data.length }] ⟨cdfs', b, l⟩).slots
      (groupMid uh r [{ wholeTile with size := data.length }] ⟨cdfs', b, l⟩).arr.cdef ⟨cdfs', b, l⟩ (zeroPlanes 3 1 1) = .ok y := hw
  obtain ⟨tg, st'', hG, hp⟩ : ∃ tg st'', groupEnd sh uh (tileNumAfter s [{ wholeTile with size := data.length }])
      (groupMid uh r [{ wholeTile with size := data.length }] ⟨cdfs', b, l⟩) [{ wholeTile with size := data.length }] ⟨cdfs', b, l⟩ (wholeLog p) = .ok (tg, st'') ∧
      tg.decoded = b.tb.frames ∧ tg.finished = true ∧ tg.log = wholeLog p ∧ tg.out = y.2.2.2 ∧ tg.store = y.2.2.1.store ∧
      tg.runs = [{ wholeTile with size := data.length }] := by
    unfold groupEnd
    rw [hw']
    exact ⟨_, _, rfl, rfl, rfl, rfl, rfl, rfl, rfl⟩
  refine ⟨data, tg, st'', hl, hp.1, hp.2.1, hp.2.2.1, hp.2.2.2.1, hp.2.2.2.2.1, hp.2.2.2.2.2, fun bs rest h8 hbs => ?_⟩
  obtain ⟨bs1, bs2, e1, e2, bs3, e3, e4, e5⟩ := hd bs rest hbs
  have hs : Small (frHdrOf sh uh.hdr r.fs r.slots ⟨0, data.length, 0, 2, 0, 2, bs.pos⟩) ⟨0, data.length, 0, 2, 0, 2, bs.pos⟩ := ⟨h5, h6, hsb, rfl, rfl, rfl, rfl⟩
  have ht := realTile_of (grow := grow) (fuel := fuel) (lh := lrHdrOf sh uh.hdr r.fs) hs (by rw [hcd]; exact hL) ⟨hi.1, hi.2.1⟩ ⟨hi.2.2.1, hi.2.2.2⟩ e2
  have hg := tileGroup_of (groupTile grow fuel sh uh.hdr r) h1 h2 h3 h4 (x := ({ cdfs := groupCdfs r, blk := groupStart r.arr, lr := { refXqd := List.replicate 3 [0, 0] } }, []))
    h8 e1 (by
      unfold groupTile
      rw [hk]
      exact ht) e3
  refine ⟨bs3, ?_, e4, e5⟩
  unfold decodeGroup
  dsimp only
  rw [BM.bind_ok hg]
  dsimp only
  rw [if_pos rfl]
  have hG' : groupEnd sh uh (tileNumAfter s [⟨0, data.length, 0, 2, 0, 2, bs.pos⟩])
      (groupMid uh r [⟨0, data.length, 0, 2, 0, 2, bs.pos⟩] ⟨cdfs', b, l⟩) [⟨0, data.length, 0, 2, 0, 2, bs.pos⟩] ⟨cdfs', b, l⟩ (wholeLog p) = .ok (tg, st'') := hG
  refine (congrFun (congrArg BM.lift (Eq.trans ?_ hG')) bs3).trans rfl
  rfl

/-! ## C185 -/

theorem cdfStart_view (k : Fin 4) : cdfStart.view k = cdfStore k := by
  revert k
  decide +kernel

/-- A sequence header only sets the operating point. -/
theorem newSequenceHeader_state (st : State) : Ensures (newSequenceHeader st) (fun x => x.2 = { st with operatingPointIdc := x.2.operatingPointIdc }) := by
  unfold newSequenceHeader
  refine Ensures.bindT fun _ => Ensures.bindT fun _ => Ensures.bindT fun red => Ensures.bindT fun _ => ?_
  dsimp only
  refine Ensures.bind (P := fun x : SeqHeader × State => x.2 = { st with operatingPointIdc := x.2.operatingPointIdc }) ?_ fun y hy => ?_
  · refine Ensures.ite (fun _ => ?_) fun _ => Ensures.pure rfl
    unfold seqBody
    refine Ensures.bindT fun _ => Ensures.bindT fun _ => Ensures.bindT fun _ => Ensures.bindT fun _ => Ensures.bindT fun _ => Ensures.pure rfl
  · exact Ensures.bindT fun _ => Ensures.bindT fun _ => Ensures.bindT fun _ => Ensures.bindT fun _ => Ensures.bindT fun _ => Ensures.pure hy

/-- The field `ShowExistingFrame` is never set. -/
theorem uhRest_notExisting (h : Header) (sh : SeqHeader) (u : UHeader) (er : Bool) (st : FrameState) (hu : u.showExistingFrame = false) :
    Ensures (uhRest h sh u er st) (fun x => x.1.showExistingFrame = false) := by
  unfold uhRest
  refine Ensures.bind (P := fun x : UHeader × FrameState => x.1.showExistingFrame = false) ?_ fun x hx => ?_
  · unfold uhIds
    refine Ensures.bindT fun _ => Ensures.bindT fun _ => Ensures.bindT fun _ => Ensures.bindT fun _ => Ensures.bindT fun _ => Ensures.bindT fun _ => ?_
    exact Ensures.bindT fun _ => Ensures.bindT fun _ => Ensures.pure hu
  dsimp only
  refine Ensures.bind (P := fun x : UHeader × FrameState => x.1.showExistingFrame = false) ?_ fun y hy => ?_
  · refine Ensures.ite (fun _ => ?_) (fun _ => ?_)
    · unfold uhIntra
      exact Ensures.bindT fun fs => Ensures.bindT fun _ => Ensures.bindT fun _ => Ensures.pure hx
    · unfold uhInter
      refine Ensures.bindT fun _ => Ensures.bindT fun _ => Ensures.ite (fun _ => Ensures.fail _) fun _ => ?_
      exact Ensures.bindT fun fs => Ensures.bindT fun _ => Ensures.bindT fun _ => Ensures.bindT fun _ =>
        Ensures.bindT fun _ => Ensures.bindT fun _ => Ensures.bindT fun _ => Ensures.pure hx
  refine Ensures.bindT fun dfe => Ensures.ite (fun _ => Ensures.fail _) fun _ => Ensures.ite (fun _ => Ensures.fail _) fun _ => ?_
  refine Ensures.bind (P := fun x : UHeader × FrameState => x.1.showExistingFrame = false) ?_ fun z hz => ?_
  · unfold uhQuant
    refine Ensures.bindT fun _ => Ensures.bindT fun _ => Ensures.bindT fun _ => Ensures.bindT fun _ => Ensures.bindT fun _ => Ensures.bindT fun _ => ?_
    exact Ensures.pure hy
  · unfold uhFilters
    refine Ensures.bindT fun _ => Ensures.bindT fun _ => Ensures.bindT fun _ => Ensures.bindT fun _ => Ensures.bindT fun _ => Ensures.bindT fun _ => ?_
    refine Ensures.bindT fun _ => Ensures.bindT fun _ => Ensures.bindT fun _ => Ensures.bindT fun _ => Ensures.bindT fun _ => ?_
    exact Ensures.pure hz

theorem newUncompressedHeader_notExisting (h : Header) (sh : SeqHeader) (st : FrameState) :
    Ensures (newUncompressedHeader h sh st) (fun x => x.1.showExistingFrame = false) := by
  unfold newUncompressedHeader
  refine Ensures.ite (fun _ => uhRest_notExisting _ _ _ _ _ rfl) fun _ => ?_
  refine Ensures.bindT fun se => Ensures.ite (fun _ => ?_) fun _ => ?_
  · unfold uhShowExisting
    refine Ensures.bindT fun _ => Ensures.bindT fun _ => Ensures.bindT fun _ => Ensures.bindT fun _ => ?_
    exact Ensures.ite (fun _ => Ensures.fail _) fun _ => Ensures.pure rfl
  · refine Ensures.bind (P := fun x : UHeader × Bool => x.1.showExistingFrame = false) ?_ fun x hx => uhRest_notExisting _ _ _ _ _ hx
    unfold uhFrameType
    exact Ensures.bindT fun ft => Ensures.bindT fun sf => Ensures.bindT fun t => Ensures.bindT fun sb => Ensures.bindT fun er => Ensures.pure rfl

/-- C185: any picture that the syntax of a tile can describe is what the whole program decodes from some stream.  Let the bytes `a` and `b` hold a sequence header and a frame header of a frame
of 8x8 pixels, and let `msg` be symbol values that the syntax of the tile accepts, leaving the blocks in the state `blk`; if the filters then accept that state, some stream makes the program
return three OBUs with these two headers, whose last one decodes the whole frame to exactly the pixels and blocks that `msg` stands for. -/
theorem C185_complete (grow : Nat → Nat) (fuel : Nat) {a b : List UInt8} {q : SeqHeader} {s1 : State} {ea eb : BitStream} {u : UHeader} {fs : FrameState}
    (ha : newSequenceHeader {} (newBitStream a) = .ok ((q, s1), ea)) (hae : ea.pos < 8 * a.length)
    (hb : newUncompressedHeader (plainHeader 3) q {} (newBitStream b) = .ok ((u, fs), eb)) (hbe : eb.pos < 8 * b.length)
    (hrows : fs.miRows = 2) (hcols : fs.miCols = 2) (hsb : q.use128x128SuperBlock = false) {k : Fin 4} (hk : cdfClass fs = some k)
    {msg : List Nat} {blk : BlkSt} {l : LrUnitParams} {p : Nat} (hm : (headerSyntax grow fuel q u { fs := fs }).run (cdfLayout k) msg = .ok ((blk, l, p), []))
    {y : Planes × Planes × (RefMem Unit × Planes)}
    (hw : wrapup s1.operatingPointIdc q u fs (List.replicate 8 {}) (zeroPlanes 3 16 16) ⟨[], blk, l⟩ (zeroPlanes 3 1 1) = .ok y)
    (hlen : a.length + b.length + 15 * (1 + msg.length) < 2 ^ 40) :
    ∃ (data : List UInt8) (o1 o2 o3 : Obu (decoder grow fuel)), Decodes grow fuel data [o1, o2, o3] ∧
      o1.header.type = 1 ∧ o1.sequenceHeader = q ∧ o2.header.type = 3 ∧ hdrOf o2 = u ∧
      o3.header.type = 4 ∧ o3.sequenceHeader = q ∧ hdrOf o3 = u ∧
      (groupOf o3).finished = true ∧ (groupOf o3).decoded = blk.tb.frames ∧ (groupOf o3).log = wholeLog p ∧ (groupOf o3).out = y.2.2.2 ∧ (groupOf o3).store = y.2.2.1.store ∧
      ∃ run ∈ (groupOf o3).runs, run.rowStart < run.rowEnd := by
  have hb40 : (2 : Nat) ^ 40 = 1099511627776 := by norm_num
  have hk8 : (128 : Nat) ^ 8 = 72057594037927936 := by norm_num
  have hs1 := newSequenceHeader_state _ _ _ _ ha
  dsimp only at hs1
  have hfs := newUncompressedHeader_tiles _ _ _ (Or.inl ⟨rfl, rfl⟩) _ _ _ hb
  dsimp only at hfs
  obtain ⟨t1, t2, t3, t4⟩ : fs.tiles.tileCols = 1 ∧ fs.tiles.tileRows = 1 ∧ fs.tiles.miColStarts = [0, 2] ∧ fs.tiles.miRowStarts = [0, 2] := by
    rcases hfs with ⟨-, h0⟩ | ⟨-, -, h⟩
    · omega
    · exact h hcols hrows
  obtain ⟨data, tg, st', hl, g1, g2, g3, g4, g5, g6, hd⟩ := decodeGroup_of grow fuel (sh := q) (uh := ⟨u, fs.tiles.contextUpdateTileId⟩)
    (s := { s1 with tileNum := 0, seenFrameHeader := true }) (r := { fs := fs }) t1 t2 t3 t4 hrows hcols hsb hk (by rw [cdfStart_view]; exact C94_layout_fits k) hm hw
  have p1 : ObuParses (decoder grow fuel) ({}, (decoder grow fuel).newR (decoder grow fuel).startR) {} (decoder grow fuel).zeroUH (plainObu 1 a)
      ⟨a.length, plainHeader 1, q, (decoder grow fuel).zeroUH, (decoder grow fuel).zeroTG⟩ (s1, ({} : DecR)) := obu_seq (decoder grow fuel) {} _ ha hae (by omega)
  have p2 := obu_frameHeader (decoder grow fuel) (st := (s1, ({} : DecR))) q (decoder grow fuel).zeroUH (payload := b) (u := ⟨u, fs.tiles.contextUpdateTileId⟩)
    (st1 := ({ s1 with seenFrameHeader := true }, ({ fs := fs } : DecR))) (e := eb) (by rw [hs1]) ?_ ?_ ?_ hbe (by omega)
  · have p3 := obu_tileGroup (decoder grow fuel) (st := ({ s1 with tileNum := 0, seenFrameHeader := true }, ({ fs := fs } : DecR))) (st' := st') q
      (⟨u, fs.tiles.contextUpdateTileId⟩ : DecUH) (payload := data) (tg := tg) (by omega) hd
    obtain ⟨bytes, s, h⟩ := stream_three (decoder grow fuel) (a := a) (b := b) (c := data) (by omega) p1 p2 p3
    exact ⟨bytes, _, _, _, ⟨s, h⟩, rfl, rfl, rfl, rfl, rfl, rfl, rfl, g2, g1, g3, g4, g5,
      { wholeTile with size := data.length }, by show _ ∈ tg.runs; rw [g6]; exact List.mem_singleton.mpr rfl, by show wholeTile.rowStart < wholeTile.rowEnd; decide⟩
  · exact Movable.bind (C07_uncompressedHeader_anywhere _ _ _) fun _ => Movable.pure _
  · show (newUncompressedHeader (plainHeader 3) q {} >>= _ : BM _) (newBitStream b) = _
    rw [BM.bind_ok hb]
    rfl
  · exact newUncompressedHeader_notExisting _ _ _ _ _ _ hb

/-- The hypotheses of `C185_complete` for given headers and symbols, and a test of the picture. -/
def describes (grow : Nat → Nat) (fuel : Nat) (a b : List UInt8) (msg : List Nat) (test : BlkSt → Nat → Planes → Bool) : Bool :=
  match newSequenceHeader {} (newBitStream a) with
  | .error _ => false
  | .ok ((q, s1), ea) =>
    match newUncompressedHeader (plainHeader 3) q {} (newBitStream b) with
    | .error _ => false
    | .ok ((u, fs), eb) =>
      match cdfClass fs with
      | none => false
      | some k =>
        match (headerSyntax grow fuel q u { fs := fs }).run (cdfLayout k) msg with
        | .error _ => false
        | .ok ((blk, l, p), rest) =>
          match wrapup s1.operatingPointIdc q u fs (List.replicate 8 {}) (zeroPlanes 3 16 16) ⟨[], blk, l⟩ (zeroPlanes 3 1 1) with
          | .error _ => false
          | .ok y => decide (ea.pos < 8 * a.length) && decide (eb.pos < 8 * b.length) && decide (fs.miRows = 2) && decide (fs.miCols = 2) && !q.use128x128SuperBlock &&
              rest.isEmpty && u.showFrame && decide (a.length + b.length + 15 * (1 + msg.length) < 2 ^ 40) && test blk p y.2.2.2

theorem stream_of_describes {grow : Nat → Nat} {fuel : Nat} {a b : List UInt8} {msg : List Nat} {test : BlkSt → Nat → Planes → Bool} (h : describes grow fuel a b msg test = true) :
    ∃ (data : List UInt8) (o1 o2 o3 : Obu (decoder grow fuel)) (blk : BlkSt) (p : Nat), Decodes grow fuel data [o1, o2, o3] ∧ (hdrOf o3).showFrame = true ∧
      (groupOf o3).finished = true ∧ (groupOf o3).decoded = blk.tb.frames ∧ (groupOf o3).log = wholeLog p ∧ test blk p (groupOf o3).out = true ∧
      o3.sequenceHeader.use128x128SuperBlock = false ∧ (∃ run ∈ (groupOf o3).runs, run.rowStart < run.rowEnd) ∧
      o1.header.type = 1 ∧ o2.header.type = 3 ∧ o3.header.type = 4 ∧ ∃ s1 ea, newSequenceHeader {} (newBitStream a) = .ok ((o3.sequenceHeader, s1), ea) := by
  unfold describes at h
  split at h
  · cases h
  rename_i q s1 ea ha
  split at h
  · cases h
  rename_i u fs eb hb
  split at h
  · cases h
  rename_i k hk
  split at h
  · cases h
  rename_i blk l p rest hm
  split at h
  · cases h
  rename_i y hw
  simp only [Bool.and_eq_true, decide_eq_true_eq, Bool.not_eq_true', List.isEmpty_iff] at h
  obtain ⟨⟨⟨⟨⟨⟨⟨⟨h1, h2⟩, h3⟩, h4⟩, h5⟩, h6⟩, h7⟩, h8⟩, h9⟩ := h
  subst h6
  obtain ⟨data, o1, o2, o3, hd, d1, -, d2, -, d3, e0, e1, e2, e3, e4, e5, -, e6⟩ := C185_complete grow fuel ha h1 hb h2 h3 h4 h5 hk hm hw h8
  exact ⟨data, o1, o2, o3, blk, p, hd, by rw [e1]; exact h7, e2, e3, e4, by rw [e5]; exact h9, by rw [e0]; exact h5, e6, d1, d2, d3, s1, ea, by rw [e0]; exact ha⟩

/-- Non-vacuity: a monochrome key frame; one 8x8 block that is skipped and predicted with SMOOTH_V.  The decoded picture is not uniform, the picture that is output consists of the value 2
(see `C183_content_refuted`). -/
theorem demo_describes : describes (fun _ => 8) 1000 [0x18, 0x02, 0] [0, 0, 0] [0, 1, 10]
    (fun blk p out => at3 blk.tb.frames 0 0 0 == some 128 && at3 blk.tb.frames 0 0 5 == some 75 && at3 blk.tb.frames 0 3 7 == some 8 && p == 0 && out == [[[2]], [[0]], [[0]]]) = true := by
  decide +kernel

/-- A stream with a picture that has been decoded. -/
example : ∃ (data : List UInt8) (obus : List (Obu (decoder (fun _ => 8) 1000))), Decodes (fun _ => 8) 1000 data obus ∧
    ∃ o ∈ obus, (groupOf o).finished = true ∧ (hdrOf o).showFrame = true ∧ (groupOf o).log = wholeLog 0 ∧ at3 (groupOf o).decoded 0 0 0 = some 128 ∧
      at3 (groupOf o).decoded 0 0 5 = some 75 ∧ at3 (groupOf o).decoded 0 3 7 = some 8 ∧ (groupOf o).out = [[[2]], [[0]], [[0]]] := by
  obtain ⟨data, o1, o2, o3, blk, p, hd, h1, h2, h3, h4, h5, -⟩ := stream_of_describes demo_describes
  simp only [Bool.and_eq_true, beq_iff_eq] at h5
  obtain ⟨⟨⟨⟨q1, q2⟩, q3⟩, q4⟩, q5⟩ := h5
  subst q4
  exact ⟨data, _, hd, o3, by simp, h2, h1, h4, by rw [h3]; exact q1, by rw [h3]; exact q2, by rw [h3]; exact q3, q5⟩

end Gov1
