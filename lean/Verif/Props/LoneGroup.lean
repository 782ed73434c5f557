import Verif.Props.RandomAccess
/-!
# C195: tile groups without a frame header

A frame unit that starts with a tile group OBU: no frame header has been parsed in it.
-/
namespace Gov1

/-- A group of a frame without tiles reads nothing but the alignment. -/
theorem tileGroup_none {σ : Type} (body : TileRun → σ → Sym → BM (Sym × σ)) (t : Tiles) (h0 : t.tileCols * t.tileRows = 0) (sz : Int) (x : σ) :
    Ensures (tileGroup body t sz x) (fun r => r = ([], x, true)) := by
  unfold tileGroup
  refine Ensures.bindT fun p0 => ?_
  refine Ensures.bind (P := fun r : Nat × Int => r = (0, -1)) ?_ fun r hr => ?_
  · unfold tileRange
    dsimp only
    rw [h0, if_neg (by decide)]
    refine Ensures.bind (P := fun b => b = false) (Ensures.pure rfl) fun b hb => ?_
    rw [if_pos (Or.inr hb)]
    exact Ensures.pure rfl
  subst hr
  dsimp only
  refine Ensures.bindT fun _ => Ensures.bindT fun p1 => ?_
  rw [h0]
  refine Ensures.bind (P := fun r : List TileRun × σ => r = ([], x)) ?_ fun r hr => ?_
  · have hk : ((-1 : Int) + 1 - ((0 : Nat) : Int)).toNat = 0 := rfl
    rw [hk, tileLoop]
    exact Ensures.pure rfl
  · subst hr
    exact Ensures.pure rfl

theorem byteAlignment_at {b : BitStream} (h : b.pos % 8 = 0) : byteAlignment b = .ok ((), b) := by
  have h7 : b.pos &&& 7 = 0 := by rw [show (7 : Nat) = 2 ^ 3 - 1 from rfl, Nat.and_two_pow_sub_one_eq_mod]; exact h
  unfold byteAlignment byteAlignLoop
  show (do let p ← BM.getPos; _ : BM Unit) b = _
  rw [BM.bind_apply]
  show (if (b.pos &&& 7 != 0) = true then _ else _ : BM Unit) b = _
  rw [h7]
  rfl

theorem tileGroup_none_of {σ : Type} (body : TileRun → σ → Sym → BM (Sym × σ)) (t : Tiles) (h0 : t.tileCols * t.tileRows = 0) (sz : Int) (x : σ) {b : BitStream} (h : b.pos % 8 = 0) :
    tileGroup body t sz x b = .ok (([], x, true), b) := by
  have hr : tileRange t b = .ok ((0, -1), b) := by
    unfold tileRange
    rw [h0]
    rfl
  unfold tileGroup
  refine BM.bind_eq_ok.mpr ⟨b.pos, b, rfl, BM.bind_eq_ok.mpr ⟨_, _, hr, ?_⟩⟩
  refine BM.bind_eq_ok.mpr ⟨_, _, byteAlignment_at h, BM.bind_eq_ok.mpr ⟨b.pos, b, rfl, ?_⟩⟩
  rw [h0]
  rfl

/-- C195 (what holds): in a frame unit in which no frame header has been parsed, a tile group decodes no tile, whatever headers are left over from earlier units: it reads nothing, decodes no pixel and
adapts no table.  But it counts as the end of a frame. -/
theorem C195_nothing_partial {grow : Nat → Nat} {fuel : Nat} {sz : Int} {s s' : State} {m : CdfMem} {r' : DecR} {u : DecUH} {sh : SeqHeader} {b b' : BitStream} {t : DecTG}
    (h : decodeGroup grow fuel sz (s, { cdf := m }) u sh b = .ok ((t, (s', r')), b')) :
    t.runs = [] ∧ t.log = [] ∧ t.finished = true ∧ r'.cdf = m ∧ (∀ p y x v, at3 t.decoded p y x = some v → v = 0) ∧ (b.pos % 8 = 0 → b' = b) := by
  obtain ⟨runs, x, log, fin, e1, e2, e3, e4, e5⟩ := decodeGroup_inv h
  obtain ⟨runs2, x2, log2, fin2, f1, f2, f3⟩ := decodeGroup_cdf h
  have hn := tileGroup_none (groupTile grow fuel sh u.hdr { cdf := m }) ({ cdf := m } : DecR).fs.tiles rfl sz _ _ _ _ e1
  have hn2 := tileGroup_none (groupTile grow fuel sh u.hdr { cdf := m }) ({ cdf := m } : DecR).fs.tiles rfl sz _ _ _ _ f1
  injection hn with h1 h2
  injection h2 with h2 h3
  injection h2 with h2 h4
  injection hn2 with k1 k2
  injection k2 with k2 k3
  injection k2 with k2 k4
  have hg := e4 h3
  subst h1 h2 h4
  unfold groupEnd at hg
  obtain ⟨y, -, hg⟩ := Res.inv hg
  injection hg with hg
  injection hg with hg _
  refine ⟨by rw [e3]; rfl, by rw [← hg], by rw [e2, h3], ?_, ?_, ?_⟩
  · rw [f3, k2]
    exact putCdfs_same _
  · rw [← hg]
    intro p y x v hv
    exact at3_zero (H := 16) (W := 16) hv
  · intro hb
    rw [tileGroup_none_of _ _ rfl _ _ hb] at e1
    injection e1 with e1
    injection e1 with _ e1
    exact e1.symm

/-- The state at the end of an empty group. -/
def emptySt (cdfs : List (List Int)) : TileSt := { cdfs := cdfs, blk := groupStart {}, lr := { refXqd := List.replicate 3 [0, 0] } }

theorem wrapup_zero : (wrapup 0 {} {} {} (({ cdf := cdfStart } : DecR).slots) (({ cdf := cdfStart } : DecR).arr.cdef) (emptySt []) (zeroPlanes 3 1 1)).toOption.isSome = true := by
  decide +kernel

theorem wrapup_any (op : Nat) (l : List (List Int)) :
    wrapup op {} {} {} (({ cdf := cdfStart } : DecR).slots) (({ cdf := cdfStart } : DecR).arr.cdef) (emptySt l) (zeroPlanes 3 1 1) =
    wrapup 0 {} {} {} (({ cdf := cdfStart } : DecR).slots) (({ cdf := cdfStart } : DecR).arr.cdef) (emptySt []) (zeroPlanes 3 1 1) := by
  unfold wrapup frameEnd
  dsimp only
  rfl

theorem groupEnd_of {sh : SeqHeader} {u : DecUH} {s : State} {r : DecR} {runs : List TileRun} {x : TileSt} {log : List Ev} {y}
    (hy : wrapup s.operatingPointIdc sh u.hdr r.fs r.slots r.arr.cdef x (zeroPlanes 3 1 1) = .ok y) :
    ∃ t s' r', groupEnd sh u s r runs x log = .ok (t, (s', r')) ∧ t.finished = true := by
  unfold groupEnd
  rw [hy]
  exact ⟨_, _, _, rfl, rfl⟩

/-- C195 is false of the code: a tile group without any header, at the start of a frame unit, is accepted as a whole frame, whatever its payload says: the payload is not even skipped. -/
theorem C195_accepted_refuted (grow : Nat → Nat) (fuel : Nat) (sz : Int) (s : State) (m : CdfMem) (b : BitStream) (hb : b.pos % 8 = 0) :
    ∃ t s' r', decodeGroup grow fuel sz (s, { cdf := m }) {} {} b = .ok ((t, (s', r')), b) ∧ t.finished = true := by
  have hw := wrapup_zero
  rw [← wrapup_any s.operatingPointIdc (groupCdfs { cdf := m })] at hw
  cases hy : wrapup s.operatingPointIdc {} {} {} (({ cdf := cdfStart } : DecR).slots) (({ cdf := cdfStart } : DecR).arr.cdef) (emptySt (groupCdfs { cdf := m })) (zeroPlanes 3 1 1) with
  | error e => rw [hy] at hw; cases hw
  | ok y =>
    unfold decodeGroup
    dsimp only
    rw [BM.bind_apply, tileGroup_none_of _ _ rfl _ _ hb]
    dsimp only
    rw [if_pos rfl]
    obtain ⟨t, s', r', e1, e2⟩ := groupEnd_of (runs := []) (log := []) (sh := {}) (u := {}) (s := tileNumAfter s []) (r := groupMid {} { cdf := m } [] (emptySt (groupCdfs { cdf := m })))
      (x := emptySt (groupCdfs { cdf := m })) hy
    exact ⟨t, s', r', congrFun (congrArg BM.lift e1) b, e2⟩

/-- Neither is vacuous: the six bytes are one temporal unit with one frame unit holding a single tile group OBU, and are decoded to the end, as a frame without tiles. -/
example : (parseStream (decoder (fun n => n) 10) (newBitStream [5, 4, 3, 0x22, 1, 0])).toOption.map
    (fun r => r.1.map (fun o => (o.header.type, (groupOf o).finished, (groupOf o).runs.length, at3 (groupOf o).out 0 0 0))) = some [(4, true, 0, some 0)] := by
  decide +kernel

end Gov1
