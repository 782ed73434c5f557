import Verif.Props.Symbol
import Verif.Props.Tiles
import Verif.Spec.TileGroup
/-! # C45, C55, C81, C82: the tile group -/
namespace Gov1
open Spec

/-- What decoding a tile may do to the stream: it uses the arithmetic decoder only, so the position and
the number of bits left in the tile move together, and the data do not change. -/
def Coherent {σ : Type} (body : TileRun → σ → Sym → BM (Sym × σ)) : Prop :=
  ∀ run x st bs st' x' bs', SymInv st → body run x st bs = .ok ((st', x'), bs') →
    st'.maxBits ≤ st.maxBits ∧ bs'.data = bs.data ∧
    bs'.pos + st'.maxBits.toNat = bs.pos + st.maxBits.toNat

/-- `initSymbol_inv` for every declared size, even a negative one. -/
theorem initSymbol_int {sz : Int} {bs bs1 : BitStream} {st : Sym}
    (hinit : initSymbol sz bs = .ok (st, bs1)) :
    SymInv st ∧ st.maxBits = 8 * sz - 15 ∧ bs1.data = bs.data ∧
    bs1.pos + st.maxBits.toNat = bs.pos + (8 * sz).toNat := by
  rcases Int.le_total 0 sz with h0 | h0
  · obtain ⟨n, rfl⟩ := Int.eq_ofNat_of_zero_le h0
    obtain ⟨h1, h2, h3, h4⟩ := initSymbol_inv hinit
    exact ⟨h1, h2, h3, by rw [h4]; omega⟩
  · rw [initSymbol] at hinit
    obtain ⟨v, s1, h1, h2⟩ := BM.bind_eq_ok.mp hinit
    obtain ⟨hv, -, hs⟩ := F_ok h1
    have hz : (minI (sz * 8) 15).toNat = 0 := by simp only [minI]; split <;> omega
    rw [hz] at hv hs
    cases h2
    have hv0 : v = 0 := by simpa using hv
    subst hv0
    rw [hs]
    refine ⟨⟨(by decide : (2 : Int) ^ 15 ≤ ((1 <<< 15 : Nat) : Int)),
      (by decide : ((1 <<< 15 : Nat) : Int) < 2 ^ 16), by positivity, ?_⟩, rfl, rfl, ?_⟩
    · show ((_ : Nat) : Int) < ((1 <<< 15 : Nat) : Int)
      rw [Nat.zero_shiftLeft]
      decide
    · simp; omega

theorem exitSymbol_ok {st : Sym} {s s' : BitStream} (h : exitSymbol st s = .ok ((), s')) :
    -14 ≤ st.maxBits ∧ s'.data = s.data ∧ s'.pos = s.pos + st.maxBits.toNat := by
  rw [exitSymbol] at h
  split at h
  · cases h
  · rename_i hge
    cases h
    refine ⟨by omega, rfl, ?_⟩
    show s.pos + (maxI 0 st.maxBits).toNat = _
    simp only [maxI]; split <;> omega

theorem leLoop_ok {n i t : Nat} {s s' : BitStream} {v : Nat} (h : leLoop n i t s = .ok (v, s')) :
    ∃ w, w < 256 ^ n ∧ v = t + w * 2 ^ (8 * i) ∧ (∃ rest, unread s = encLe n w ++ rest) ∧
      s' = s.advance (8 * n) := by
  induction n generalizing i t s with
  | zero => cases h; exact ⟨0, by simp, by simp, ⟨_, rfl⟩, rfl⟩
  | succ n ih =>
    rw [leLoop] at h
    obtain ⟨b, s1, h1, h2⟩ := BM.bind_eq_ok.mp h
    obtain ⟨hb, ⟨r, hr⟩, rfl⟩ := F_ok h1
    obtain ⟨w, hw, rfl, ⟨r', hr'⟩, rfl⟩ := ih h2
    have hd := unread_drop hr
    rw [encF_length] at hd
    rw [hd] at hr'
    have hb' : b < 256 := by simpa using hb
    refine ⟨b + 256 * w, ?_, ?_, ⟨r', ?_⟩, ?_⟩
    · rw [Nat.pow_succ]; omega
    · rw [Nat.shiftLeft_eq, Nat.mul_comm i 8, Nat.mul_add 8 i 1, Nat.pow_add]
      ring
    · rw [hr, hr', encLe, List.append_assoc]
      have e1 : (b + 256 * w) % 256 = b := by omega
      have e2 : (b + 256 * w) / 256 = w := by omega
      rw [e1, e2]
    · rw [advance_advance]; congr 1; omega

theorem le_ok {n : Nat} {s s' : BitStream} {v : Nat} (h : le n s = .ok (v, s')) :
    v < 256 ^ n ∧ (∃ rest, unread s = encLe n v ++ rest) ∧ s' = s.advance (8 * n) := by
  obtain ⟨w, h1, h2, h3, h4⟩ := leLoop_ok h
  have : v = w := by simpa using h2
  subst this
  exact ⟨h1, h3, h4⟩

theorem goGet_ok {α : Type} {l : List α} {i : Nat} {a : α} (h : goGet l (i : Int) = .ok a) :
    l[i]? = some a := by
  rw [goGet, if_neg (by omega)] at h
  simp only [Int.toNat_natCast] at h
  split at h
  · rename_i b hb; cases h; exact hb
  · cases h

theorem BM.lift_inv {β : Type} {r : Res β} {a : β} {u v : BitStream}
    (h : BM.lift r u = .ok (a, v)) : r = .ok a ∧ v = u := by
  cases r with
  | ok b => cases h; exact ⟨rfl, rfl⟩
  | error e => cases h

theorem tileLoop_spec {σ : Type} {body : TileRun → σ → Sym → BM (Sym × σ)} (hb : Coherent body)
    (t : Tiles) (tgEnd : Int) : ∀ (k num : Nat) (sz : Int) (x x' : σ) (runs : List TileRun)
    (s s' : BitStream), k = (tgEnd + 1 - num).toNat →
    tileLoop body t tgEnd k num sz x s = .ok ((runs, x'), s') →
    runs.map (·.num) = List.range' num k ∧ (∀ r ∈ runs, HasBounds t r) ∧ s'.data = s.data ∧
    Layout s.data t.tileSizeBytes runs s.pos s'.pos ∧ (0 < k → (s'.pos : Int) = s.pos + 8 * sz) := by
  intro k
  induction k with
  | zero =>
    intro num sz x x' runs s s' hk h
    cases h
    exact ⟨rfl, by simp, rfl, rfl, by omega⟩
  | succ k ih =>
    intro num sz x x' runs s s' hk h
    rw [tileLoop] at h
    split at h
    · cases h
    obtain ⟨⟨tileSize, sz1⟩, s1, h1, h⟩ := BM.bind_eq_ok.mp h
    dsimp only at h
    obtain ⟨r0, s2, hr0, h⟩ := BM.bind_eq_ok.mp h
    obtain ⟨r1, s3, hr1, h⟩ := BM.bind_eq_ok.mp h
    obtain ⟨c0, s4, hc0, h⟩ := BM.bind_eq_ok.mp h
    obtain ⟨c1, s5, hc1, h⟩ := BM.bind_eq_ok.mp h
    rw [BM.getPos_bind] at h
    obtain ⟨st, s6, hi, h⟩ := BM.bind_eq_ok.mp h
    obtain ⟨⟨st', y⟩, s7, hbody, h⟩ := BM.bind_eq_ok.mp h
    dsimp only at h
    obtain ⟨⟨⟩, s8, hex, h⟩ := BM.bind_eq_ok.mp h
    obtain ⟨⟨runs', z⟩, s9, hrec, h⟩ := BM.bind_eq_ok.mp h
    cases h
    obtain ⟨hr0', rfl⟩ := BM.lift_inv hr0
    obtain ⟨hr1', rfl⟩ := BM.lift_inv hr1
    obtain ⟨hc0', rfl⟩ := BM.lift_inv hc0
    obtain ⟨hc1', rfl⟩ := BM.lift_inv hc1
    obtain ⟨e1, e2, e3, e4, e5⟩ := ih _ _ _ _ _ _ _ (by omega) hrec
    obtain ⟨i1, i2, i3, i4⟩ := initSymbol_int hi
    obtain ⟨j1, j2, j3⟩ := hb _ _ _ _ _ _ _ i1 hbody
    obtain ⟨k1, k2, k3⟩ := exitSymbol_ok hex
    have hsize : 1 ≤ tileSize := by omega
    have hpos8 : (s8.pos : Int) = s5.pos + 8 * tileSize := by omega
    have hdata8 : s8.data = s5.data := by rw [k2, j2, i3]
    have hbounds : HasBounds t ⟨num, tileSize, r0, r1, c0, c1, s5.pos⟩ :=
      ⟨goGet_ok hr0', goGet_ok (by exact_mod_cast hr1'), goGet_ok hc0', goGet_ok (by exact_mod_cast hc1')⟩
    by_cases hlast : (num : Int) = tgEnd
    · rw [if_pos hlast] at h1
      cases h1
      have hk0 : k = 0 := by omega
      subst hk0
      cases hrec
      refine ⟨rfl, ?_, hdata8, ⟨rfl, hsize, hpos8⟩, fun _ => hpos8⟩
      intro r hr
      simp at hr
      subst hr
      exact hbounds
    · rw [if_neg hlast] at h1
      obtain ⟨m1, s2, hle, h1⟩ := BM.bind_eq_ok.mp h1
      cases h1
      obtain ⟨l1, ⟨rest, l2⟩, l3⟩ := le_ok hle
      subst l3
      rw [advance_pos] at hpos8
      rw [advance_data] at hdata8
      have hk0 : 0 < k := by omega
      refine ⟨?_, ?_, by rw [e3, hdata8], ?_, ?_⟩
      · simp [e1, List.range'_succ]
      · intro r hr
        rcases List.mem_cons.mp hr with rfl | hr
        · exact hbounds
        · exact e2 r hr
      · cases runs' with
        | nil =>
          have := congrArg List.length e1
          simp at this
          omega
        | cons r' rs =>
          have em : ((m1 : Int) + 1 - 1).toNat = m1 := by omega
          have hle256 : (m1 : Int) + 1 ≤ 256 ^ t.tileSizeBytes := by
            have : ((m1 + 1 : Nat) : Int) ≤ ((256 ^ t.tileSizeBytes : Nat) : Int) := Nat.cast_le.mpr l1
            push_cast at this
            exact this
          refine ⟨hsize, ⟨rest, ?_⟩, hle256, rfl, ?_⟩
          · show _ = encLe _ ((m1 : Int) + 1 - 1).toNat ++ rest
            rw [em]; exact l2
          · have : s.pos + 8 * t.tileSizeBytes + 8 * ((m1 : Int) + 1).toNat = s8.pos := by omega
            show Layout _ _ _ (s.pos + 8 * t.tileSizeBytes + 8 * ((m1 : Int) + 1).toNat) _
            rw [this, ← hdata8]; exact e4
      · intro _
        have := e5 hk0
        omega

theorem tileRange_ok {t : Tiles} {s s' : BitStream} {a : Nat} {b : Int}
    (h : tileRange t s = .ok ((a, b), s')) :
    ∃ bits rest, CodesRange t bits a b ∧ unread s = bits ++ rest ∧ s' = s.advance bits.length := by
  rw [tileRange] at h
  obtain ⟨present, s1, h1, h⟩ := BM.bind_eq_ok.mp h
  by_cases hn : t.tileCols * t.tileRows > 1
  · rw [if_pos hn] at h1
    obtain ⟨r, hr, rfl⟩ := flag_ok h1
    cases present with
    | false =>
      rw [if_pos (Or.inr rfl)] at h
      cases h
      exact ⟨_, r, .all hn, hr, rfl⟩
    | true =>
      rw [if_neg (by rintro (hh | hh); · omega
                     · cases hh)] at h
      obtain ⟨f, s2, h2, h⟩ := BM.bind_eq_ok.mp h
      obtain ⟨l, s3, h3, h⟩ := BM.bind_eq_ok.mp h
      cases h
      obtain ⟨f1, ⟨r1, f2⟩, rfl⟩ := F_ok h2
      obtain ⟨g1, ⟨r2, g2⟩, rfl⟩ := F_ok h3
      have hd := unread_drop hr
      simp only [Spec.bit, List.length_singleton] at hd
      rw [hd] at f2
      have hd' := unread_drop (s := s.advance 1) (by rw [hd]; exact f2)
      rw [encF_length] at hd'
      rw [hd'] at g2
      refine ⟨_, r2, .some hn a l f1 g1, ?_, ?_⟩
      · rw [hr, f2, g2]; simp [Spec.bit]
      · simp [advance_advance]; congr 1; omega
  · rw [if_neg hn] at h1
    cases h1
    rw [if_pos (Or.inr rfl)] at h
    cases h
    exact ⟨[], unread s, .single (by omega), rfl, rfl⟩

theorem byteAlignment_ok {s s' : BitStream} (h : byteAlignment s = .ok ((), s')) :
    s'.data = s.data ∧ s'.pos = 8 * bytesFor s.pos := by
  rw [byteAlignment] at h
  have hd : (s.pos + (8 - s.pos % 8) % 8) % 8 = 0 := by omega
  rw [byteAlignLoop_eq 8 s _ hd (by omega) (by omega)] at h
  split at h
  · cases h
    refine ⟨rfl, ?_⟩
    rw [advance_pos, bytesFor]
    omega
  · cases h

/-- C45: a tile group that is decoded without panic contains a coded range of tiles; these tiles, and
no others, are decoded once each in increasing order, with the bounds the frame header gave them; each
is decoded from the bytes the size fields assign to it, the last tile taking the remainder; and the
group's bytes are consumed exactly.  The frame is finished exactly when the last tile of the frame was
in the group. -/
theorem C45_tile_loop {σ : Type} (body : TileRun → σ → Sym → BM (Sym × σ)) (hb : Coherent body)
    (t : Tiles) (sz : Int) (x x' : σ) (s s' : BitStream) (runs : List TileRun) (finished : Bool)
    (haligned : s.pos % 8 = 0)
    (h : tileGroup body t sz x s = .ok ((runs, x', finished), s')) :
    ∃ first last bits rest, CodesRange t bits first last ∧ unread s = bits ++ rest ∧
      runs.map (·.num) = List.range' first (last + 1 - first).toNat ∧
      (∀ r ∈ runs, HasBounds t r) ∧
      Layout s.data t.tileSizeBytes runs (s.pos + 8 * bytesFor bits.length) s'.pos ∧
      (runs ≠ [] → (s'.pos : Int) = s.pos + 8 * sz) ∧ s'.data = s.data ∧
      (finished = true ↔ last = (t.tileCols * t.tileRows : Nat) - 1) := by
  rw [tileGroup, BM.getPos_bind] at h
  obtain ⟨⟨first, last⟩, s1, h1, h⟩ := BM.bind_eq_ok.mp h
  dsimp only at h
  obtain ⟨⟨⟩, s2, h2, h⟩ := BM.bind_eq_ok.mp h
  rw [BM.getPos_bind] at h
  obtain ⟨⟨runs', y⟩, s3, h3, h⟩ := BM.bind_eq_ok.mp h
  cases h
  obtain ⟨bits, rest, hc, hu, rfl⟩ := tileRange_ok h1
  obtain ⟨hd, hp⟩ := byteAlignment_ok h2
  rw [advance_pos] at hp
  rw [advance_data] at hd
  obtain ⟨e1, e2, e3, e4, e5⟩ := tileLoop_spec hb t last _ _ _ _ _ _ _ _ rfl h3
  have hp2 : s2.pos = s.pos + 8 * bytesFor bits.length := by
    rw [hp]; simp only [bytesFor]; omega
  refine ⟨first, last, bits, rest, hc, hu, e1, e2, ?_, ?_, by rw [e3, hd], by simp⟩
  · rw [← hp2, ← hd]; exact e4
  · intro hne
    have hk : 0 < (last + 1 - first).toNat := by
      have := congrArg List.length e1
      rw [List.length_map, List.length_range'] at this
      have hl := List.length_pos_iff.mpr hne
      dsimp only at hl
      omega
    have := e5 hk
    have hq : (s2.pos - s.pos) / 8 = bytesFor bits.length := by rw [hp2]; omega
    rw [hq] at this
    rw [this, hp2]
    push_cast
    ring

/-- The bits of the tiles of a group: every payload but the last preceded by its size. -/
def encTiles (tsb : Nat) : List (List UInt8) → List Bool
  | [] => []
  | [p] => bytesBits p
  | p :: q :: ps => encLe tsb (p.length - 1) ++ bytesBits p ++ encTiles tsb (q :: ps)

/-- Number of bytes of `encTiles`. -/
def tilesBytes (tsb : Nat) : List (List UInt8) → Nat
  | [] => 0
  | [p] => p.length
  | p :: q :: ps => tsb + p.length + tilesBytes tsb (q :: ps)

/-- Started on the payload, the tile decoder returns without reading more than 14 bits past it. -/
def Accepts {σ : Type} (body : TileRun → σ → Sym → BM (Sym × σ)) (payload : List UInt8) : Prop :=
  ∀ run x st rest bs bs1, unread bs = bytesBits payload ++ rest →
    initSymbol payload.length bs = .ok (st, bs1) →
    ∃ st' x' bs', body run x st bs1 = .ok ((st', x'), bs') ∧ -14 ≤ st'.maxBits

theorem tileLoop_roundtrip {σ : Type} {body : TileRun → σ → Sym → BM (Sym × σ)} (hb : Coherent body)
    (t : Tiles) (tgEnd : Int) (hrows : t.tileRows + 1 ≤ t.miRowStarts.length)
    (hcols : t.tileCols + 1 ≤ t.miColStarts.length) :
    ∀ (ps : List (List UInt8)) (num : Nat) (x : σ) (s : BitStream) (rest : List Bool),
    tgEnd = num + ps.length - 1 → num + ps.length ≤ t.tileCols * t.tileRows →
    (∀ p ∈ ps, 1 ≤ p.length ∧ p.length ≤ 256 ^ t.tileSizeBytes ∧ Accepts body p) →
    unread s = encTiles t.tileSizeBytes ps ++ rest → s.pos ≤ 8 * s.data.length →
    ∃ runs x' s', tileLoop body t tgEnd ps.length num (tilesBytes t.tileSizeBytes ps) x s
        = .ok ((runs, x'), s') ∧
      List.Forall₂ (fun (r : TileRun) p => r.size = p.length ∧
        ∃ rest, (bytesBits s.data).drop r.start = bytesBits p ++ rest) runs ps := by
  intro ps
  induction ps with
  | nil => intro num x s rest _ _ _ _ _; exact ⟨[], x, s, rfl, .nil⟩
  | cons p ps ih =>
    intro num x s rest hend hnum hp hu hin
    obtain ⟨hp1, hp2, hacc⟩ := hp p (by simp)
    simp only [List.length_cons] at hend hnum
    have hcpos : t.tileCols ≠ 0 := by
      intro h0; rw [h0] at hnum; omega
    have hrow : num / t.tileCols < t.tileRows := by
      apply Nat.div_lt_of_lt_mul; omega
    have hcol : num % t.tileCols < t.tileCols := Nat.mod_lt _ (by omega)
    obtain ⟨a0, g0⟩ : ∃ a, goGet t.miRowStarts ((num / t.tileCols) : Nat) = .ok a := ⟨_, goGet_nat t.miRowStarts (num / t.tileCols) (by omega)⟩
    obtain ⟨a1, g1⟩ : ∃ a, goGet t.miRowStarts ((num / t.tileCols + 1) : Nat) = .ok a := ⟨_, goGet_nat t.miRowStarts (num / t.tileCols + 1) (by omega)⟩
    obtain ⟨a2, g2⟩ : ∃ a, goGet t.miColStarts ((num % t.tileCols) : Nat) = .ok a := ⟨_, goGet_nat t.miColStarts (num % t.tileCols) (by omega)⟩
    obtain ⟨a3, g3⟩ : ∃ a, goGet t.miColStarts ((num % t.tileCols + 1) : Nat) = .ok a := ⟨_, goGet_nat t.miColStarts (num % t.tileCols + 1) (by omega)⟩
    push_cast at g0 g1 g2 g3
    -- one tile, from the position at which its payload starts
    have step : ∀ (u : BitStream) (r : TileRun) (rest' : List Bool),
        unread u = bytesBits p ++ rest' → ∃ st st' x' u1 u2 u3,
          initSymbol p.length u = .ok (st, u1) ∧ body r x st u1 = .ok ((st', x'), u2) ∧
          exitSymbol st' u2 = .ok ((), u3) ∧ u3.pos = u.pos + 8 * p.length ∧ u3.data = u.data := by
      intro u r rest' hu'
      have hi := initSymbol_ok hu' (sz := p.length) (by rw [bytesBits_length])
      obtain ⟨i1, i2, i3, i4⟩ := initSymbol_inv hi
      obtain ⟨st', x', u2, hbo, hge⟩ := hacc r x _ rest' u _ hu' hi
      obtain ⟨j1, j2, j3⟩ := hb _ _ _ _ _ _ _ i1 hbo
      have hex : exitSymbol st' u2 = .ok ((), { u2 with pos := u2.pos + (maxI 0 st'.maxBits).toNat }) := by
        rw [exitSymbol, if_neg (by omega)]; rfl
      obtain ⟨-, k2, k3⟩ := exitSymbol_ok hex
      exact ⟨_, st', x', _, u2, _, hi, hbo, hex, by rw [k3]; omega, by rw [k2, j2, i3]⟩
    rw [List.length_cons, tileLoop, if_neg hcpos]
    cases ps with
    | nil =>
      have hl : (num : Int) = tgEnd := by simp at hend; omega
      rw [if_pos hl, BM.pure_bind]
      simp only [tilesBytes]
      rw [show ((num / t.tileCols : Nat) : Int) = (num : Int) / t.tileCols by push_cast; rfl,
        show ((num % t.tileCols : Nat) : Int) = (num : Int) % t.tileCols by push_cast; rfl, g0, g1, g2, g3]
      simp only [BM.lift_ok, BM.pure_bind]
      rw [BM.getPos_bind]
      simp only [encTiles] at hu
      obtain ⟨st, st', x', u1, u2, u3, h1, h2, h3, h4, h5⟩ := step s ⟨num, p.length, a0, a1, a2, a3, s.pos⟩ rest hu
      rw [BM.bind_ok h1, BM.bind_ok h2]
      dsimp only
      rw [BM.bind_ok h3]
      simp only [List.length_nil, tileLoop, BM.pure_bind]
      exact ⟨_, _, _, rfl, .cons ⟨rfl, rest, hu⟩ .nil⟩
    | cons q qs =>
      have hl : ¬ (num : Int) = tgEnd := by simp at hend; omega
      rw [if_neg hl]
      simp only [encTiles, List.append_assoc] at hu
      have hle := leLoop_enc t.tileSizeBytes 0 (p.length - 1) 0 s _ (by omega) hu
      have hle' : le t.tileSizeBytes s = .ok (p.length - 1, s.advance (8 * t.tileSizeBytes)) := by
        rw [le, hle]; simp
      have hd := unread_drop hu
      rw [encLe_length] at hd
      obtain ⟨st, st', x', u1, u2, u3, h1, h2, h3, h4, h5⟩ := step _
        ⟨num, p.length, a0, a1, a2, a3, (s.advance (8 * t.tileSizeBytes)).pos⟩ _ hd
      have hlen : s.pos + 8 * t.tileSizeBytes + 8 * p.length ≤ 8 * s.data.length := by
        have := congrArg List.length hu
        simp only [List.length_append, encLe_length, bytesBits_length, unread_length] at this
        omega
      have hu3 : unread u3 = encTiles t.tileSizeBytes (q :: qs) ++ rest := by
        have := unread_drop hd
        rw [← this]
        simp only [unread]
        rw [h4, h5, bytesBits_length]
        simp only [advance_pos, advance_data]
      obtain ⟨runs, y, s', hr, hf⟩ := ih (num + 1) x' u3 rest (by push_cast; simp at hend; simp; omega)
        (by simp at hnum ⊢; omega) (fun a ha => hp a (by simp at ha ⊢; tauto)) hu3
        (by rw [h4, h5]; simp only [advance_pos, advance_data]; exact hlen)
      have esz : ((p.length - 1 : Nat) : Int) + 1 = p.length := by omega
      have erest : (tilesBytes t.tileSizeBytes (p :: q :: qs) : Int) - ((p.length : Int) + t.tileSizeBytes)
          = tilesBytes t.tileSizeBytes (q :: qs) := by simp only [tilesBytes]; push_cast; ring
      refine ⟨⟨num, p.length, a0, a1, a2, a3, (s.advance (8 * t.tileSizeBytes)).pos⟩ :: runs, y, s', ?_, ?_⟩
      rotate_left
      · refine .cons ⟨rfl, _, hd⟩ ?_
        rw [h5] at hf
        exact hf
      · rw [BM.bind_apply, BM.bind_ok hle', BM.pure_apply]
        dsimp only
        rw [esz, erest]
        rw [show ((num / t.tileCols : Nat) : Int) = (num : Int) / t.tileCols by push_cast; rfl,
          show ((num % t.tileCols : Nat) : Int) = (num : Int) % t.tileCols by push_cast; rfl, g0, g1, g2, g3]
        simp only [BM.lift_ok, BM.pure_bind]
        rw [BM.getPos_bind, BM.bind_ok h1, BM.bind_ok h2]
        dsimp only
        rw [BM.bind_ok h3, BM.bind_ok hr]
        rfl

/-- C45, round trip: a tile group made of a coded range, zero or more bits up to a byte boundary, and
the payloads each preceded by its size (except the last) decodes, and tile number `first + i` is decoded
from exactly the bytes of the `i`-th payload.  `body` is any tile decoder that accepts the payloads. -/
theorem C45_roundtrip {σ : Type} (body : TileRun → σ → Sym → BM (Sym × σ)) (hb : Coherent body)
    (t : Tiles) (hrows : t.tileRows + 1 ≤ t.miRowStarts.length)
    (hcols : t.tileCols + 1 ≤ t.miColStarts.length) (bits pad rest : List Bool) (first : Nat) (last : Int)
    (hcode : CodesRange t bits first last) (ps : List (List UInt8))
    (hlast : last = first + ps.length - 1) (hnum : first + ps.length ≤ t.tileCols * t.tileRows)
    (hps : ∀ p ∈ ps, 1 ≤ p.length ∧ p.length ≤ 256 ^ t.tileSizeBytes ∧ Accepts body p)
    (s : BitStream) (haligned : s.pos % 8 = 0) (hpad : pad.length < 8 ∧ (bits ++ pad).length % 8 = 0)
    (hu : unread s = bits ++ pad ++ encTiles t.tileSizeBytes ps ++ rest)
    (hin : s.pos ≤ 8 * s.data.length) (x : σ) :
    ∃ runs x' s', tileGroup body t ((bytesFor bits.length + tilesBytes t.tileSizeBytes ps : Nat) : Int) x s
        = .ok ((runs, x', decide (last = (t.tileCols * t.tileRows : Nat) - 1)), s') ∧
      List.Forall₂ (fun (r : TileRun) p => r.size = p.length ∧
        ∃ rest, (bytesBits s.data).drop r.start = bytesBits p ++ rest) runs ps ∧
      runs.map (·.num) = List.range' first ps.length ∧
      (ps ≠ [] → s'.pos = s.pos + 8 * (bytesFor bits.length + tilesBytes t.tileSizeBytes ps)) := by
  have hrange : tileRange t s = .ok ((first, last), s.advance bits.length) := by
    rw [List.append_assoc, List.append_assoc] at hu
    rw [tileRange]
    cases hcode with
    | single h => rw [if_neg (by omega), BM.pure_bind, if_pos (Or.inr rfl)]; rfl
    | all h =>
      rw [if_pos (by omega), BM.bind_ok (Reads.flag false s _ hu), if_pos (Or.inr rfl)]
      rfl
    | some h f l hf hl =>
      rw [if_pos (by omega)]
      have hu' : unread s = Spec.bit true ++ (encF (t.tileColsLog2 + t.tileRowsLog2) first ++
          (encF (t.tileColsLog2 + t.tileRowsLog2) l ++ (pad ++ (encTiles t.tileSizeBytes ps ++ rest)))) := by
        rw [hu]; simp [Spec.bit]
      rw [BM.bind_ok (Reads.flag true s _ hu')]
      rw [if_neg (by rintro (hh | hh); · omega
                     · cases hh)]
      have h1 := unread_drop hu'
      rw [BM.bind_ok (Reads.F hf _ _ h1)]
      have h2 := unread_drop h1
      rw [BM.bind_ok (Reads.F hl _ _ h2), BM.pure_apply]
      simp [Spec.bit, advance_advance]
      congr 1
      omega
  have hd := unread_drop (s := s) (a := bits) (by rw [hu, List.append_assoc, List.append_assoc])
  simp only [List.length_append] at hpad
  have halign : byteAlignment (s.advance bits.length) = .ok ((), s.advance (bits ++ pad).length) := by
    rw [byteAlignment, byteAlignLoop_eq 8 _ pad.length (by rw [advance_pos]; omega) hpad.1 (by omega),
      if_pos (by rw [hd]; simp), advance_advance, List.length_append]
  have hu2 := unread_drop (s := s) (a := bits ++ pad) (by rw [hu, List.append_assoc])
  have hin2 : (s.advance (bits ++ pad).length).pos ≤ 8 * (s.advance (bits ++ pad).length).data.length := by
    have := congrArg List.length hu
    simp only [List.length_append, unread_length] at this
    simp only [advance_pos, advance_data, List.length_append]
    omega
  have hbytes : (bits.length + pad.length) / 8 = bytesFor bits.length := by
    simp only [bytesFor]; omega
  obtain ⟨runs, x', s', hr, hf⟩ := tileLoop_roundtrip hb t last hrows hcols ps first x _ rest hlast hnum
    hps hu2 hin2
  have hk : (last + 1 - (first : Int)).toNat = ps.length := by omega
  have hsz : ((bytesFor bits.length + tilesBytes t.tileSizeBytes ps : Nat) : Int)
      - ((bits.length + pad.length) / 8 : Nat) = tilesBytes t.tileSizeBytes ps := by
    rw [hbytes]; push_cast; ring
  have hrun : tileGroup body t ((bytesFor bits.length + tilesBytes t.tileSizeBytes ps : Nat) : Int) x s
      = .ok ((runs, x', decide (last = (t.tileCols * t.tileRows : Nat) - 1)), s') := by
    rw [tileGroup, BM.getPos_bind, BM.bind_ok hrange]
    dsimp only
    rw [BM.bind_ok halign, BM.getPos_bind, hk, advance_pos, List.length_append, Nat.add_sub_cancel_left,
      hsz, ← List.length_append, BM.bind_ok hr]
    rfl
  obtain ⟨e1, e2, e3, e4, e5⟩ := tileLoop_spec hb t last ps.length first _ x x' runs _ s' hk.symm hr
  refine ⟨runs, x', s', hrun, hf, e1, ?_⟩
  intro hne
  have h5 := e5 (List.length_pos_iff.mpr hne)
  rw [advance_pos, List.length_append] at h5
  push_cast at h5
  have : bits.length + pad.length = 8 * bytesFor bits.length := by simp only [bytesFor]; omega
  omega

theorem getElem?_take_of {l : List Nat} {n i a : Nat} (h : l[i]? = some a) (hi : i < n) :
    (l.take n)[i]? = some a := by
  rw [List.getElem?_take_of_lt hi]; exact h

/-- C81: when the tile boundaries divide the frame (as C26 and C27 prove of the parsed ones), the tiles
of a frame partition it: if the tiles numbered `0 .. TileCols*TileRows-1` are decoded with the bounds of
their numbers, every 4x4 unit of the frame belongs to exactly one of them. -/
theorem C81_tiles_partition (t : Tiles) (miRows miCols wr wc : Nat)
    (hr : Divides t.rowBounds miRows wr) (hc : Divides t.colBounds miCols wc)
    (hrl : t.rowBounds.length = t.tileRows + 1) (hcl : t.colBounds.length = t.tileCols + 1)
    (runs : List TileRun) (hnum : runs.map (·.num) = List.range' 0 (t.tileCols * t.tileRows))
    (hb : ∀ r ∈ runs, HasBounds t r) (y x : Nat) (hy : y < miRows) (hx : x < miCols) :
    ∃ r ∈ runs, InRun r y x ∧ ∀ r' ∈ runs, InRun r' y x → r' = r := by
  obtain ⟨i, hi, hiu⟩ := divides_unique hr y hy
  obtain ⟨j, hj, hju⟩ := divides_unique hc x hx
  have hi1 : i < t.tileRows := by have := hi.1; omega
  have hj1 : j < t.tileCols := by have := hj.1; omega
  -- what the bounds of a run say about its row and column index
  have key : ∀ r ∈ runs, r.num < t.tileCols * t.tileRows ∧
      (InRun r y x ↔ InTile t.rowBounds (r.num / t.tileCols) y ∧ InTile t.colBounds (r.num % t.tileCols) x) := by
    intro r hrm
    have hlt : r.num < t.tileCols * t.tileRows := by
      have : r.num ∈ runs.map (·.num) := List.mem_map_of_mem hrm
      rw [hnum, List.mem_range'] at this
      obtain ⟨a, ha, hb⟩ := this
      omega
    have hc0 : 0 < t.tileCols := by omega
    have hrow : r.num / t.tileCols < t.tileRows := by
      apply Nat.div_lt_of_lt_mul; exact hlt
    have hcol : r.num % t.tileCols < t.tileCols := Nat.mod_lt _ hc0
    obtain ⟨b1, b2, b3, b4⟩ := hb r hrm
    have d1 := getElem?_take_of (n := t.tileRows + 1) b1 (by omega)
    have d2 := getElem?_take_of (n := t.tileRows + 1) b2 (by omega)
    have d3 := getElem?_take_of (n := t.tileCols + 1) b3 (by omega)
    have d4 := getElem?_take_of (n := t.tileCols + 1) b4 (by omega)
    refine ⟨hlt, ?_⟩
    simp only [InRun, InTile, hrl, hcl]
    simp only [Tiles.rowBounds, Tiles.colBounds, List.getD, d1, d2, d3, d4, Option.getD_some]
    constructor
    · rintro ⟨h1, h2, h3, h4⟩; exact ⟨⟨by omega, h1, h2⟩, ⟨by omega, h3, h4⟩⟩
    · rintro ⟨⟨-, h1, h2⟩, ⟨-, h3, h4⟩⟩; exact ⟨h1, h2, h3, h4⟩
  have hn : t.tileCols * i + j < t.tileCols * t.tileRows := by
    calc t.tileCols * i + j < t.tileCols * i + t.tileCols := by omega
      _ = t.tileCols * (i + 1) := by ring
      _ ≤ t.tileCols * t.tileRows := Nat.mul_le_mul_left _ (by omega)
  have hex : t.tileCols * i + j ∈ runs.map (·.num) := by
    rw [hnum, List.mem_range']; exact ⟨_, hn, by omega⟩
  obtain ⟨r, hrm, hrn⟩ := List.mem_map.mp hex
  have hdiv : (t.tileCols * i + j) / t.tileCols = i := by
    rw [Nat.mul_add_div (by omega), Nat.div_eq_of_lt hj1, Nat.add_zero]
  have hmod : (t.tileCols * i + j) % t.tileCols = j := by
    rw [Nat.mul_add_mod, Nat.mod_eq_of_lt hj1]
  refine ⟨r, hrm, ((key r hrm).2).mpr ?_, ?_⟩
  · rw [hrn, hdiv, hmod]; exact ⟨hi, hj⟩
  · intro r' hrm' hin
    obtain ⟨h1, h2⟩ := ((key r' hrm').2).mp hin
    have hi' := hiu _ h1
    have hj' := hju _ h2
    have hnum' : r'.num = r.num := by
      rw [hrn, ← hi', ← hj', Nat.div_add_mod]
    -- equal numbers in a strictly increasing list
    have hnd : (runs.map (·.num)).Nodup := by rw [hnum]; exact List.nodup_range'
    exact List.inj_on_of_nodup_map hnd hrm' hrm hnum'

theorem clearContext_ok (k i : Nat) (level seg : List Nat) (hl : i + k ≤ level.length)
    (hs : i + k ≤ seg.length) (h0 : level = List.replicate level.length 0)
    (h1 : seg = List.replicate seg.length 0) : clearContext k i level seg = .ok (level, seg) := by
  induction k generalizing i with
  | zero => rfl
  | succ k ih =>
    have hset : ∀ (l : List Nat), l = List.replicate l.length 0 → l.set i 0 = l := by
      intro l hl
      rw [hl]
      apply List.ext_getElem?
      intro m
      simp
    rw [clearContext, goSet_nat, if_pos (by omega)]
    simp only [bind, Except.bind]
    rw [goSet_nat, if_pos (by omega)]
    simp only [hset level h0, hset seg h1]
    exact ih (i + 1) (by omega) (by omega)

theorem clearContext_fails (k i : Nat) (level seg : List Nat) (hi : i ≤ seg.length)
    (hs : seg.length < i + k) : clearContext k i level seg = .error .index := by
  induction k generalizing i level seg with
  | zero => omega
  | succ k ih =>
    rw [clearContext, goSet_nat]
    by_cases hl : i < level.length
    · rw [if_pos hl]
      simp only [bind, Except.bind]
      rw [goSet_nat]
      by_cases hseg : i < seg.length
      · rw [if_pos hseg]
        exact ih (i + 1) _ _ (by simp; omega) (by simp; omega)
      · rw [if_neg hseg]
    · rw [if_neg hl]; rfl

/-- C55, what does hold: on frames of at most three columns (rows) all contexts are cleared. -/
theorem C55_context_clearing_partial (n : Nat) (h : n ≤ 3) :
    clearContexts n = .ok (List.replicate n 0, [0, 0, 0]) :=
  clearContext_ok n 0 _ _ (by simp) (by simp; omega) (by simp) (by simp)

/-- C55, refuted: for every frame wider than three 4x4 units the clearing of the above contexts panics,
so no tile of such a frame is ever decoded: a tile group returns only if it contains no tile at all. -/
theorem C55_context_clearing_refuted {σ : Type} (use128 : Bool) (miCols miRows : Nat) (h : 3 < miCols)
    (reset : σ → σ) (sb : Nat → Nat → σ → Sym → BM (Sym × σ)) :
    clearContexts miCols = .error .index ∧
    (∀ run x st, NeverReturns (decodeTile use128 miCols miRows reset sb run x st)) ∧
    (∀ t sz x s runs x' fin s', tileGroup (decodeTile use128 miCols miRows reset sb) t sz x s
      = .ok ((runs, x', fin), s') → runs = []) := by
  have h1 : clearContexts miCols = .error .index :=
    clearContext_fails miCols 0 _ _ (by simp) (by simp; omega)
  have h2 : ∀ run x st, NeverReturns (decodeTile use128 miCols miRows reset sb run x st) := by
    intro run x st s a s' hh
    rw [decodeTile, h1] at hh
    cases hh
  refine ⟨h1, h2, ?_⟩
  intro t sz x s runs x' fin s' hh
  rw [tileGroup, BM.getPos_bind] at hh
  obtain ⟨⟨first, last⟩, s1, -, hh⟩ := BM.bind_eq_ok.mp hh
  dsimp only at hh
  obtain ⟨⟨⟩, s2, -, hh⟩ := BM.bind_eq_ok.mp hh
  rw [BM.getPos_bind] at hh
  obtain ⟨⟨runs', y⟩, s3, h3, hh⟩ := BM.bind_eq_ok.mp hh
  cases hh
  generalize (last + 1 - (first : Int)).toNat = k at h3
  cases k with
  | zero => cases h3; rfl
  | succ k =>
    exfalso
    rw [tileLoop] at h3
    split at h3
    · cases h3
    obtain ⟨⟨tileSize, sz1⟩, s1, -, h⟩ := BM.bind_eq_ok.mp h3
    dsimp only at h
    obtain ⟨r0, s2, -, h⟩ := BM.bind_eq_ok.mp h
    obtain ⟨r1, s3, -, h⟩ := BM.bind_eq_ok.mp h
    obtain ⟨c0, s4, -, h⟩ := BM.bind_eq_ok.mp h
    obtain ⟨c1, s5, -, h⟩ := BM.bind_eq_ok.mp h
    rw [BM.getPos_bind] at h
    obtain ⟨st, s6, hi, h⟩ := BM.bind_eq_ok.mp h
    obtain ⟨⟨st', y⟩, s7, hbody, h⟩ := BM.bind_eq_ok.mp h
    exact h2 _ _ _ _ _ _ hbody

/-- C55, refuted for the left contexts: every tile with at least one row of a frame higher than three
4x4 units panics. -/
theorem C55_left_clearing_refuted {σ : Type} (use128 : Bool) (miCols miRows : Nat) (h : 3 < miRows)
    (reset : σ → σ) (sb : Nat → Nat → σ → Sym → BM (Sym × σ)) (run : TileRun) (x : σ) (st : Sym)
    (hrun : run.rowStart < run.rowEnd) :
    NeverReturns (decodeTile use128 miCols miRows reset sb run x st) := by
  have h1 : clearContexts miRows = .error .index :=
    clearContext_fails miRows 0 _ _ (by simp) (by simp; omega)
  intro s a s' hh
  rw [decodeTile] at hh
  obtain ⟨u, s1, -, hh⟩ := BM.bind_eq_ok.mp hh
  obtain ⟨k, hk⟩ : ∃ k, run.rowEnd - run.rowStart = k + 1 := ⟨run.rowEnd - run.rowStart - 1, by omega⟩
  rw [hk, sbRows, if_pos hrun] at hh
  rw [h1] at hh
  cases hh

/-! ## C82: superblocks of a tile -/

/-- The superblock decoder `sb`, keeping a log of the superblocks it is called on. -/
def logged {σ : Type} (sb : Nat → Nat → σ → Sym → BM (Sym × σ)) :
    Nat → Nat → σ × List (Nat × Nat) → Sym → BM (Sym × (σ × List (Nat × Nat))) :=
  fun r c x st => do
    let (st, y) ← sb r c x.1 st
    pure (st, (y, x.2 ++ [(r, c)]))

/-- Number of steps of `d` that start below `n`. -/
def stepsBelow (n d : Nat) : Nat := (n + d - 1) / d

theorem stepsBelow_succ {n d : Nat} (hd : 0 < d) (hn : 0 < n) : stepsBelow n d = stepsBelow (n - d) d + 1 := by
  unfold stepsBelow
  rcases Nat.le_total d n with h | h
  · rw [show n + d - 1 = (n - d + d - 1) + d by omega, Nat.add_div_right _ hd]
  · rw [show n - d = 0 by omega]
    have : (0 + d - 1) / d = 0 := Nat.div_eq_of_lt (by omega)
    rw [this, show n + d - 1 = (n - 1) + d by omega, Nat.add_div_right _ hd,
      Nat.div_eq_of_lt (by omega)]

theorem sbCols_log {σ : Type} (sb : Nat → Nat → σ → Sym → BM (Sym × σ)) (sb4 colEnd r : Nat)
    (h4 : 0 < sb4) : ∀ (fuel c : Nat) (x y : σ × List (Nat × Nat)) (st st' : Sym) (s s' : BitStream),
    sbCols (logged sb) sb4 colEnd r fuel c x st s = .ok ((st', y), s') →
    y.2 = x.2 ++ (List.range (stepsBelow (colEnd - c) sb4)).map fun j => (r, c + sb4 * j) := by
  intro fuel
  induction fuel with
  | zero =>
    intro c x y st st' s s' h
    rw [sbCols] at h
    split at h
    · cases h
    · cases h
      have : stepsBelow (colEnd - c) sb4 = 0 := by
        rw [show colEnd - c = 0 by omega]; exact Nat.div_eq_of_lt (by omega)
      rw [this]; simp
  | succ fuel ih =>
    intro c x y st st' s s' h
    rw [sbCols] at h
    split at h
    · rename_i hc
      dsimp only at h
      obtain ⟨⟨st1, x1⟩, s1, h1, h2⟩ := BM.bind_eq_ok.mp h
      dsimp only at h2
      have := ih _ _ _ _ _ _ _ h2
      rw [logged] at h1
      obtain ⟨⟨st2, y2⟩, s2, h3, h4'⟩ := BM.bind_eq_ok.mp h1
      cases h4'
      rw [this, stepsBelow_succ h4 (show 0 < colEnd - c by omega), List.range_succ_eq_map]
      rw [show colEnd - (c + sb4) = colEnd - c - sb4 by omega]
      simp only [List.append_assoc, List.map_cons, List.map_map, Nat.mul_zero, Nat.add_zero,
        List.singleton_append]
      congr 3
      funext j
      simp only [Function.comp]
      congr 1
      rw [Nat.mul_succ]
      omega
    · cases h
      have : stepsBelow (colEnd - c) sb4 = 0 := by
        rw [show colEnd - c = 0 by omega]; exact Nat.div_eq_of_lt (by omega)
      rw [this]; simp

theorem sbRows_log {σ : Type} (sb : Nat → Nat → σ → Sym → BM (Sym × σ)) (miRows sb4 colStart colEnd rowEnd : Nat)
    (h4 : 0 < sb4) : ∀ (fuel r : Nat) (x y : σ × List (Nat × Nat)) (st st' : Sym) (s s' : BitStream),
    sbRows (logged sb) miRows sb4 colStart colEnd rowEnd fuel r x st s = .ok ((st', y), s') →
    y.2 = x.2 ++ (List.range (stepsBelow (rowEnd - r) sb4)).flatMap fun i =>
      (List.range (stepsBelow (colEnd - colStart) sb4)).map fun j => (r + sb4 * i, colStart + sb4 * j) := by
  intro fuel
  induction fuel with
  | zero =>
    intro r x y st st' s s' h
    rw [sbRows] at h
    split at h
    · cases h
    · cases h
      have : stepsBelow (rowEnd - r) sb4 = 0 := by
        rw [show rowEnd - r = 0 by omega]; exact Nat.div_eq_of_lt (by omega)
      rw [this]; simp
  | succ fuel ih =>
    intro r x y st st' s s' h
    rw [sbRows] at h
    split at h
    · rename_i hc
      dsimp only at h
      obtain ⟨u, s0, -, h⟩ := BM.bind_eq_ok.mp h
      obtain ⟨⟨st1, x1⟩, s1, h1, h2⟩ := BM.bind_eq_ok.mp h
      dsimp only at h2
      have e1 := sbCols_log sb sb4 colEnd r h4 _ _ _ _ _ _ _ _ h1
      rw [ih _ _ _ _ _ _ _ h2, e1, stepsBelow_succ h4 (show 0 < rowEnd - r by omega), List.range_succ_eq_map]
      rw [show rowEnd - (r + sb4) = rowEnd - r - sb4 by omega]
      simp only [List.append_assoc, List.flatMap_cons, Nat.mul_zero, Nat.add_zero, List.flatMap_map]
      congr 2
      apply List.flatMap_congr
      intro i _
      apply List.map_congr_left
      intro j _
      simp only [Nat.succ_eq_add_one]
      congr 1
      ring
    · cases h
      have : stepsBelow (rowEnd - r) sb4 = 0 := by
        rw [show rowEnd - r = 0 by omega]; exact Nat.div_eq_of_lt (by omega)
      rw [this]; simp

/-- The 4x4 unit at row `y`, column `x` belongs to the superblock at `p`, cut at the tile's end. -/
def InSuperblock (n : Nat) (p : Nat × Nat) (y x : Nat) : Prop :=
  p.1 ≤ y ∧ y < p.1 + n ∧ p.2 ≤ x ∧ x < p.2 + n

theorem step_unique {a e d y : Nat} (hd : 0 < d) (h1 : a ≤ y) (h2 : y < e) :
    (y - a) / d < stepsBelow (e - a) d ∧ a + d * ((y - a) / d) ≤ y ∧ y < a + d * ((y - a) / d) + d ∧
    ∀ i, a + d * i ≤ y → y < a + d * i + d → i = (y - a) / d := by
  have hm := Nat.div_add_mod (y - a) d
  have hlt := Nat.mod_lt (y - a) hd
  refine ⟨?_, by omega, by omega, ?_⟩
  · unfold stepsBelow
    rw [Nat.div_lt_iff_lt_mul hd]
    have h3 := Nat.div_add_mod (e - a + d - 1) d
    have h4 := Nat.mod_lt (e - a + d - 1) hd
    rw [Nat.mul_comm]
    omega
  · intro i hi1 hi2
    have e1 : y - a = d * i + (y - a - d * i) := by omega
    have : (d * i + (y - a - d * i)) / d = i := by
      rw [Nat.mul_add_div hd, Nat.div_eq_of_lt (by omega), Nat.add_zero]
    rw [← e1] at this
    exact this.symm

/-- C82: whenever a tile is decoded, the superblocks decoded cover it exactly: every 4x4 unit of the
tile belongs to exactly one visited superblock, and no superblock is visited twice or starts outside the
tile; they are visited row by row, left to right. -/
theorem C82_superblocks_cover_tile {σ : Type} (use128 : Bool) (miCols miRows : Nat)
    (reset : σ × List (Nat × Nat) → σ × List (Nat × Nat)) (hreset : ∀ x, (reset x).2 = x.2)
    (sb : Nat → Nat → σ → Sym → BM (Sym × σ)) (run : TileRun) (x y : σ × List (Nat × Nat)) (st st' : Sym)
    (s s' : BitStream) (hx : x.2 = [])
    (h : decodeTile use128 miCols miRows reset (logged sb) run x st s = .ok ((st', y), s')) :
    let n := if use128 then 32 else 16
    (∀ p ∈ y.2, run.rowStart ≤ p.1 ∧ p.1 < run.rowEnd ∧ run.colStart ≤ p.2 ∧ p.2 < run.colEnd) ∧
    (∀ r c, InRun run r c → ∃ p ∈ y.2, InSuperblock n p r c ∧ ∀ p' ∈ y.2, InSuperblock n p' r c → p' = p) ∧
    y.2.Pairwise (fun p q => p.1 < q.1 ∨ (p.1 = q.1 ∧ p.2 < q.2)) := by
  intro n
  have hn : 0 < n := by simp only [n]; split <;> omega
  rw [decodeTile] at h
  obtain ⟨u, s1, -, h⟩ := BM.bind_eq_ok.mp h
  have hlog := sbRows_log sb miRows n run.colStart run.colEnd run.rowEnd hn _ _ _ _ _ _ _ _ h
  rw [hreset, hx, List.nil_append] at hlog
  have below : ∀ (a e i : Nat), i < stepsBelow (e - a) n → a + n * i < e := by
    intro a e i hi
    unfold stepsBelow at hi
    rw [Nat.lt_div_iff_mul_lt hn] at hi
    rw [Nat.mul_comm]
    omega
  refine ⟨?_, ?_, ?_⟩
  · intro p hp
    rw [hlog] at hp
    simp only [List.mem_flatMap, List.mem_map, List.mem_range] at hp
    obtain ⟨i, hi, j, hj, rfl⟩ := hp
    exact ⟨by simp, below _ _ _ hi, by simp, below _ _ _ hj⟩
  · rintro r c ⟨h1, h2, h3, h4⟩
    obtain ⟨a1, a2, a3, a4⟩ := step_unique hn h1 h2
    obtain ⟨b1, b2, b3, b4⟩ := step_unique hn h3 h4
    refine ⟨(run.rowStart + n * ((r - run.rowStart) / n), run.colStart + n * ((c - run.colStart) / n)), ?_,
      ⟨a2, a3, b2, b3⟩, ?_⟩
    · rw [hlog]
      simp only [List.mem_flatMap, List.mem_map, List.mem_range]
      exact ⟨_, a1, _, b1, rfl⟩
    · intro p' hp' hin
      rw [hlog] at hp'
      simp only [List.mem_flatMap, List.mem_map, List.mem_range] at hp'
      obtain ⟨i, -, j, -, rfl⟩ := hp'
      obtain ⟨c1, c2, c3, c4⟩ := hin
      rw [a4 i c1 c2, b4 j c3 c4]
  · rw [hlog, List.pairwise_flatMap]
    constructor
    · intro i _
      rw [List.pairwise_map]
      refine List.Pairwise.imp ?_ List.pairwise_lt_range
      intro a b hab
      right
      exact ⟨rfl, by simpa using (Nat.mul_lt_mul_left hn).mpr hab⟩
    · refine List.Pairwise.imp ?_ List.pairwise_lt_range
      intro a b hab p hp q hq
      simp only [List.mem_map] at hp hq
      obtain ⟨j, -, rfl⟩ := hp
      obtain ⟨k, -, rfl⟩ := hq
      left
      simpa using (Nat.mul_lt_mul_left hn).mpr hab

/-! ## C83: availability flags of a superblock -/

/-- The shape of `BlockDecoded[plane]` (internal/state/state.go:47). -/
def FlagShape (m : List (List Bool)) : Prop := m.length = 13 ∧ ∀ row ∈ m, row.length = 13

/-- Write one flag. -/
def clearFlag (m : List (List Bool)) (i j : Nat) : List (List Bool) := m.set i ((m.getD i []).set j false)

theorem goSet2_flag {m : List (List Bool)} (hm : FlagShape m) {i j : Nat} (hi : i < 13) (hj : j < 13) :
    goGet m (i : Int) = .ok (m.getD i []) ∧ (m.getD i []).length = 13 ∧
    goSet2 m (i : Int) (j : Int) false = .ok (clearFlag m i j) ∧ FlagShape (clearFlag m i j) := by
  have hl : i < m.length := by rw [hm.1]; exact hi
  have hg : goGet m (i : Int) = .ok (m.getD i []) := by rw [goGet_nat m i hl, getD_lt m i [] hl]
  have hrow : (m.getD i []).length = 13 := by
    rw [getD_lt m i [] hl]; exact hm.2 _ (List.getElem_mem hl)
  refine ⟨hg, hrow, ?_, ?_⟩
  · rw [goSet2, hg]
    simp only [bind, Except.bind]
    rw [goSet_nat, if_pos (by omega)]
    dsimp only
    rw [goSet_nat, if_pos hl]
    rfl
  · refine ⟨by simp [clearFlag, hm.1], ?_⟩
    intro row hr
    rcases List.mem_or_eq_of_mem_set hr with h | h
    · exact hm.2 row h
    · rw [h]; simpa using hrow

theorem clearFlag_getD (m : List (List Bool)) (i j a b : Nat) :
    ((clearFlag m i j).getD a []).getD b false
      = if a = i ∧ b = j then false else (m.getD a []).getD b false := by
  simp only [clearFlag, List.getD, List.getElem?_set]
  by_cases ha : i = a
  · subst ha
    by_cases hl : i < m.length
    · simp only [hl, if_true, Option.getD_some, List.getElem?_set, true_and]
      by_cases hb : j = b
      · subst hb
        simp only [if_true]
        split <;> simp
      · simp [hb, Ne.symm hb]
    · simp only [hl, if_true, if_false]
      have : m[i]? = none := List.getElem?_eq_none (by omega)
      simp [this]
  · simp [ha, Ne.symm ha]

theorem flagRows_small {yMax xMax sbW sbH : Int} (hy : 0 ≤ yMax ∧ yMax ≤ 12) (hx : 0 ≤ xMax ∧ xMax ≤ 12)
    {m : List (List Bool)} (hm : FlagShape m) :
    flagRows yMax xMax sbW sbH (yMax + 2).toNat (-1) m = .ok (clearFlag m 12 12) := by
  obtain ⟨g1, g2, g3, g4⟩ := goSet2_flag hm (i := 12) (j := 12) (by omega) (by omega)
  obtain ⟨k, hk⟩ : ∃ k, (yMax + 2).toNat = k + 1 := ⟨(yMax + 1).toNat, by omega⟩
  obtain ⟨l, hl⟩ : ∃ l, (xMax + 2).toNat = l + 1 := ⟨(xMax + 1).toNat, by omega⟩
  have hcols : flagCols xMax sbW sbH (l + 1) (-1) (-1) m = .ok (12, clearFlag m 12 12) := by
    rw [flagCols, if_pos (by omega)]
    dsimp only
    rw [if_pos (by decide), hm.1, show ((13 : Nat) : Int) + -1 = ((12 : Nat) : Int) by rfl, g1]
    simp only [bind, Except.bind]
    rw [if_pos (by decide), g2, show ((13 : Nat) : Int) + -1 = ((12 : Nat) : Int) by rfl]
    rw [show decide (((12 : Nat) : Int) < 0 ∧ ((12 : Nat) : Int) < sbW ∨ ((12 : Nat) : Int) < 0 ∧ ((12 : Nat) : Int) < sbH) = false from
      decide_eq_false (by omega), g3]
    dsimp only
    unfold flagCols
    rw [if_neg (by push_cast; omega)]
    rfl
  rw [hk, flagRows, if_pos (by omega)]
  dsimp only
  rw [hl, hcols]
  simp only [bind, Except.bind]
  unfold flagRows
  rw [if_neg (by omega)]

/-- C83, refuted: starting a 64x64 superblock writes at most two of the 169 flags of a plane, and both
to false: nothing is marked as available, and stale flags of the previous superblock survive. -/
theorem C83_flags_refuted (subX subY : Nat) (sbW sbH : Int)
    (m : List (List Bool)) (hm : FlagShape m) :
    ∃ m', clearFlagsPlane (sbSizeArg false) subX subY sbW sbH m = .ok m' ∧
      (∀ i j, (i, j) ≠ (12, 12) → (i, j) ≠ (12 >>> subY, 12) →
        (m'.getD i []).getD j false = (m.getD i []).getD j false) ∧
      (∀ i j, (m'.getD i []).getD j false = true → (m.getD i []).getD j false = true) := by
  have hs : 12 >>> subY ≤ 12 := by
    rw [Nat.shiftRight_eq_div_pow]; exact Nat.div_le_self _ _
  have hsx : 12 >>> subX ≤ 12 := by
    rw [Nat.shiftRight_eq_div_pow]; exact Nat.div_le_self _ _
  obtain ⟨-, -, -, hm1⟩ := goSet2_flag hm (i := 12) (j := 12) (by omega) (by omega)
  obtain ⟨g1, g2, g3, g4⟩ := goSet2_flag hm1 (i := 12 >>> subY) (j := 12) (by omega) (by omega)
  refine ⟨clearFlag (clearFlag m 12 12) (12 >>> subY) 12, ?_, ?_, ?_⟩
  · rw [clearFlagsPlane]
    simp only [sbSizeArg, Bool.false_eq_true, if_false]
    rw [flagRows_small ⟨Int.natCast_nonneg _, by exact_mod_cast hs⟩ ⟨Int.natCast_nonneg _, by exact_mod_cast hsx⟩ hm]
    simp only [bind, Except.bind]
    rw [g1]
    dsimp only
    rw [g2, show ((13 : Nat) : Int) - 1 = ((12 : Nat) : Int) by rfl, g3]
  · intro i j h1 h2
    rw [clearFlag_getD, clearFlag_getD, if_neg (by rintro ⟨rfl, rfl⟩; exact h2 rfl),
      if_neg (by rintro ⟨rfl, rfl⟩; exact h1 rfl)]
  · intro i j h
    rw [clearFlag_getD, clearFlag_getD] at h
    split at h
    · cases h
    split at h
    · cases h
    exact h

/-- C83, refuted for 128x128 superblocks: the first plane always indexes outside the 13x13 flags, so a
stream using 128x128 superblocks never gets past its first superblock. -/
theorem C83_flags_128_refuted (sbW sbH : Int) (m : List (List Bool)) (hm : FlagShape m) :
    clearFlagsPlane (sbSizeArg true) 0 0 sbW sbH m = .error .index := by
  obtain ⟨g1, g2, g3, g4⟩ := goSet2_flag hm (i := 12) (j := 12) (by omega) (by omega)
  obtain ⟨g5, g6, -, -⟩ := goSet2_flag g4 (i := 12) (j := 12) (by omega) (by omega)
  have hcols : flagCols 15 sbW sbH 17 (-1) (-1) m = .error .index := by
    rw [flagCols, if_pos (by omega)]
    dsimp only
    rw [if_pos (by decide), hm.1, show ((13 : Nat) : Int) + -1 = ((12 : Nat) : Int) by rfl, g1]
    simp only [bind, Except.bind]
    rw [if_pos (by decide), g2, show ((13 : Nat) : Int) + -1 = ((12 : Nat) : Int) by rfl]
    rw [show decide (((12 : Nat) : Int) < 0 ∧ ((12 : Nat) : Int) < sbW ∨ ((12 : Nat) : Int) < 0 ∧ ((12 : Nat) : Int) < sbH) = false from
      decide_eq_false (by omega), g3]
    dsimp only
    rw [flagCols, if_pos (by decide)]
    dsimp only
    rw [if_neg (by decide), g5]
    simp only [bind, Except.bind]
    rw [if_neg (by decide), goSet2, g5]
    simp only [bind, Except.bind]
    rw [show ((12 : Nat) : Int) + 1 = ((13 : Nat) : Int) by rfl, goSet_nat, if_neg (by omega)]
  rw [clearFlagsPlane]
  simp only [sbSizeArg, if_true, Nat.shiftRight_zero]
  rw [flagRows.eq_def]
  simp only [show (((15 : Nat) : Int) + 2).toNat = 17 by rfl]
  rw [if_pos (by decide)]
  show (do let (y, m) ← flagCols 15 sbW sbH 17 (-1) (-1) m
           flagRows 15 15 sbW sbH 16 (y + 1) m) >>= _ = _
  rw [hcols]
  rfl

/-! ## concrete cases -/

/-- Two tiles side by side (geometry of a 2x1 tiling of a 32x16-unit frame). -/
def demoTiles : Tiles := ⟨[0, 16, 32], [0, 16], 2, 1, 1, 0, 1, 0⟩

/-- Any tile decoder made of symbol reads with fixed valid contexts is coherent: the hypothesis of C45
is met. -/
theorem symbols_coherent (disable : Bool) (sel : List Nat → Option Nat) (n : Nat) (cdfs : List (List Int))
    (hv : AllValid cdfs) (hs : Selects sel cdfs) :
    Coherent (σ := List (List Nat)) (fun _ x st => do
      let (msg, _, st) ← decodeMany disable sel n [] cdfs st
      pure (st, x ++ [msg])) := by
  intro run x st bs st' x' bs' hi h
  obtain ⟨⟨msg, c', st1⟩, s1, h1, h2⟩ := BM.bind_eq_ok.mp h
  cases h2
  rcases decodeMany_run disable sel n [] cdfs st bs hv hs hi with hh | hh
  · obtain ⟨m, c', s', b', e1, e2, e3, e4, e5, e6, e7, e8, e9, e10, e11⟩ := hh
    rw [h1] at e1
    simp only [List.nil_append, Except.ok.injEq, Prod.mk.injEq] at e1
    obtain ⟨⟨rfl, rfl, rfl⟩, rfl⟩ := e1
    exact ⟨e8, e9, e11⟩
  · rw [h1] at hh; cases hh.1

/-- C45 on a concrete group of two tiles of 3 and 2 bytes. -/
example : ∃ x s', tileGroup (fun _ x st => do
      let (msg, _, st) ← decodeMany false demoSel 5 [] demoCdfs st
      pure (st, x ++ [msg])) demoTiles 7 ([] : List (List Nat))
      (newBitStream [0x00, 0x02, 0x5a, 0xc3, 0x11, 0x77, 0x12, 0xff]) =
    .ok (([⟨0, 3, 0, 16, 0, 16, 16⟩, ⟨1, 2, 0, 16, 16, 32, 40⟩], x, true), s') ∧ s'.pos = 56 :=
  ⟨[[1, 0, 1, 1, 0], [1, 1, 0, 1, 1]], ⟨[0x00, 0x02, 0x5a, 0xc3, 0x11, 0x77, 0x12, 0xff], 56, 0⟩,
    by decide +kernel, rfl⟩

/-- C81 on the two tiles. -/
example : Divides demoTiles.rowBounds 16 16 ∧ Divides demoTiles.colBounds 32 16 ∧
    demoTiles.rowBounds.length = demoTiles.tileRows + 1 ∧ demoTiles.colBounds.length = demoTiles.tileCols + 1 ∧
    HasBounds demoTiles ⟨1, 2, 0, 16, 16, 32, 40⟩ := by
  refine ⟨⟨by decide, by decide, by decide, ?_⟩, ⟨by decide, by decide, by decide, ?_⟩, rfl, rfl,
    by decide, by decide, by decide, by decide⟩
  · intro i hi; simp [Tiles.rowBounds, demoTiles] at hi; have : i = 0 := by omega
    subst this; decide
  · intro i hi
    simp [Tiles.colBounds, demoTiles] at hi
    have : i = 0 ∨ i = 1 := by omega
    rcases this with rfl | rfl <;> decide

/-- C82 on an 8x8 frame: one superblock. -/
example : decodeTile false 2 2 id (logged fun _ _ (x : Nat) st => pure (st, x + 1)) ⟨0, 1, 0, 2, 0, 2, 0⟩ (0, [])
    ⟨0, 0, 0⟩ (newBitStream []) = .ok ((⟨0, 0, 0⟩, (1, [(0, 0)])), newBitStream []) := by decide +kernel

/-- C83: the flags of a fresh plane have the required shape, and so do flags that are all set. -/
example : FlagShape (List.replicate 13 (List.replicate 13 true)) := by
  refine ⟨rfl, ?_⟩
  intro row hr
  rw [List.eq_of_mem_replicate hr]; rfl

/-- C55 concerns real frames: a 16x16 frame has 4 columns of 4x4 units. -/
example : clearContexts 4 = .error .index ∧ clearContexts 2 = .ok ([0, 0], [0, 0, 0]) := by decide +kernel

end Gov1
