import Verif.Props.Marks
import Verif.Lemmas.StreamIf
/-!
# C187: the range of all pixels of a stream
-/
namespace Gov1

/-- All pixels of a picture are numbers of `b` bits. -/
def PixIn (b : Nat) (p : Planes) : Prop := ∀ (plane : Nat) F, p[plane]? = some F → ∀ row col v, at2 F row col = some v → 0 ≤ v ∧ v ≤ 2 ^ b - 1

theorem pixIn_zero (b n h w : Nat) : PixIn b (zeroPlanes n h w) := by
  intro plane F hF row col v hv
  have hp : (0 : Int) < 2 ^ b := by positivity
  have h1 : F = List.replicate h (List.replicate w 0) := List.eq_of_mem_replicate (List.mem_of_getElem? hF)
  subst h1
  unfold at2 at hv
  cases hr : (List.replicate h (List.replicate w (0 : Int)))[row]? with
  | none => rw [hr] at hv; cases hv
  | some r =>
    rw [hr] at hv
    have h2 := List.eq_of_mem_replicate (List.mem_of_getElem? hr)
    subst h2
    have h3 := List.eq_of_mem_replicate (List.mem_of_getElem? (show (List.replicate w (0 : Int))[col]? = some v from hv))
    omega

theorem group_pixels (grow : Nat → Nat) (fuel : Nat) (sz : Int) (r : DecR) (u : UHeader) (sh : SeqHeader) {b : Nat} (hb : 2 ≤ b) (hd : sh.colorConfig.bitDepth = b) (hm : MemOk r.cdf)
    (hp : PixIn b r.arr.curr) :
    Ensures (tileGroup (groupTile grow fuel sh u r) r.fs.tiles sz ({ cdfs := groupCdfs r, blk := groupStart r.arr, lr := { refXqd := List.replicate 3 [0, 0] } }, []))
      (fun y => PixIn b y.2.1.1.blk.tb.frames) := by
  subst hd
  have hz : (0 : Int) ≤ 2 ^ sh.colorConfig.bitDepth - 1 := by
    have : (0 : Int) < 2 ^ sh.colorConfig.bitDepth := by positivity
    omega
  have h0 : TbIn sh.colorConfig.bitDepth (groupStart r.arr).tb := ⟨hp, fun _ => ⟨le_refl _, hz⟩, fun _ => ⟨le_refl _, hz⟩⟩
  cases hk : cdfClass r.fs with
  | none =>
    exact tileGroup_keeps (I := fun x : TileSt × List Ev => PixIn sh.colorConfig.bitDepth x.1.blk.tb.frames) (groupTile grow fuel sh u r) (by
      intro run x st s st' x' s' hst hx e
      unfold groupTile at e
      rw [hk] at e
      cases e) r.fs.tiles sz _ hp
  | some k =>
    have hg : groupCdfs r = r.cdf.view k := by unfold groupCdfs; rw [hk]
    have := tileGroup_keeps (I := fun x : TileSt × List Ev => (cdfLayout k).Fits x.1.cdfs ∧ TbIn sh.colorConfig.bitDepth x.1.blk.tb) (groupTile grow fuel sh u r) (by
      intro run x st s st' x' s' hst hx e
      unfold groupTile at e
      rw [hk] at e
      obtain ⟨es, -, ht⟩ := realTile_rel (h := frHdrOf sh u r.fs r.slots run) hb e
      obtain ⟨g, -, -⟩ := ht ⟨hx.1, ⟨hst.1, hst.2.1⟩, ⟨hst.2.2.1, hst.2.2.2⟩, hx.2⟩
      exact ⟨g.fits, g.pixels⟩) r.fs.tiles sz
      ({ cdfs := groupCdfs r, blk := groupStart r.arr, lr := { refXqd := List.replicate 3 [0, 0] } }, []) ⟨by rw [hg]; exact hm.fits k, h0⟩
    exact fun s y s' h => (this s y s' h).2.frames

theorem decodeGroup_decoded (grow : Nat → Nat) (fuel : Nat) (sz : Int) (sr : State × DecR) (u : DecUH) (sh : SeqHeader) {P : Planes → Prop}
    (h : Ensures (tileGroup (groupTile grow fuel sh u.hdr sr.2) sr.2.fs.tiles sz ({ cdfs := groupCdfs sr.2, blk := groupStart sr.2.arr, lr := { refXqd := List.replicate 3 [0, 0] } }, []))
      (fun y => P y.2.1.1.blk.tb.frames)) : Ensures (decodeGroup grow fuel sz sr u sh) (fun x => P x.1.decoded) := by
  unfold decodeGroup
  dsimp only
  refine Ensures.bind h fun y hy => Ensures.ite (fun hf => Ensures.lift fun a e => ?_) (fun hf => Ensures.pure hy)
  unfold groupEnd at e
  obtain ⟨w, h1, e⟩ := Res.inv e
  cases e
  exact hy

theorem decoder_pixels (grow : Nat → Nat) (fuel : Nat) {b : Nat} (hb : 2 ≤ b) :
    (decoder grow fuel).KeepsIf (fun st => ((MemOk (DecR.cdf st.2) ∧ FsTiles (DecR.fs st.2)) ∧ ArrOk (DecR.arr st.2)) ∧ PixIn b (DecR.arr st.2).curr) (fun sh => sh.colorConfig.bitDepth = b)
      (fun _ _ t => PixIn b (DecTG.decoded t)) where
  free _ _ _ h := h
  start := ⟨(decoder_no128 grow fuel).start, pixIn_zero b 3 16 16⟩
  fresh s r h := ⟨(decoder_no128 grow fuel).fresh s r h.1, pixIn_zero b 3 16 16⟩
  tg0 sh u := by intro p F h; cases h
  uh h sh st hS := by
    show Ensures (decodeHeader h sh st) _
    unfold decodeHeader
    exact Ensures.bind (newUncompressedHeader_tiles h sh _ hS.1.1.2) fun x hx => Ensures.pure ⟨⟨⟨hS.1.1.1, hx⟩, hS.1.2⟩, hS.2⟩
  tg sz st u sh hS hG := fun s a s' h => by
    have h1 := decodeGroup_decoded grow fuel sz st u sh (group_pixels grow fuel sz st.2 u.hdr sh hb hG hS.1.1.1 hS.2) s a s' h
    have h2 := decodeGroup_arr grow fuel sz st u sh hS.1.1.1 hS.1.2 s a s' h
    have h3 := ((decoder_stands grow fuel).tg sz st u sh hS.1.1 trivial trivial s a s' h).2
    refine ⟨h1, ⟨h3, h2.1⟩, ?_⟩
    rw [show (DecR.arr a.2.2).curr = a.1.decoded from h2.2]
    exact h1

/-- C187: in every stream whose frames all have the same bit depth (8, 10 or 12), every pixel of every decoded picture is a number of that many bits.  Frame (6) and tile group (4) OBUs are the
ones that carry tiles. -/
theorem C187_range (grow : Nat → Nat) (fuel : Nat) (data : List UInt8) (obus : List (Obu (decoder grow fuel))) (h : Decodes grow fuel data obus) (b : Nat) (hb : 2 ≤ b)
    (hd : ∀ o ∈ obus, o.header.type = 6 ∨ o.header.type = 4 → o.sequenceHeader.colorConfig.bitDepth = b) :
    ∀ o ∈ obus, ∀ plane row col v, at3 (groupOf o).decoded plane row col = some v → 0 ≤ v ∧ v ≤ 2 ^ b - 1 := by
  obtain ⟨s, h⟩ := h
  intro o ho plane row col v hv
  have := (decoder_pixels grow fuel hb).stream _ _ _ h hd o ho
  unfold at3 at hv
  cases hF : (groupOf o).decoded[plane]? with
  | none => rw [hF] at hv; cases hv
  | some F => rw [hF] at hv; exact this plane F hF row col v hv

/-- Non-vacuity: the stream of `demo_describes` has bit depth 8. -/
example : ∃ (data : List UInt8) (obus : List (Obu (decoder (fun _ => 8) 1000))), Decodes (fun _ => 8) 1000 data obus ∧
    (∀ o ∈ obus, o.header.type = 6 ∨ o.header.type = 4 → o.sequenceHeader.colorConfig.bitDepth = 8) ∧ ∃ o ∈ obus, (o.header.type = 6 ∨ o.header.type = 4) ∧ at3 (groupOf o).decoded 0 0 0 = some 128 := by
  obtain ⟨data, o1, o2, o3, blk, p, hd, -, -, h3, -, h5, -, -, t1, t2, t3, s1, ea, ha⟩ := stream_of_describes demo_describes
  simp only [Bool.and_eq_true, beq_iff_eq] at h5
  have hq : (newSequenceHeader {} (newBitStream [0x18, 0x02, 0])).toOption.map (fun x => x.1.1.colorConfig.bitDepth) = some 8 := by decide +kernel
  rw [ha] at hq
  have hq : o3.sequenceHeader.colorConfig.bitDepth = 8 := Option.some.inj hq
  refine ⟨data, _, hd, fun o ho ht => ?_, o3, by simp, Or.inr t3, by rw [h3]; exact h5.1.1.1.1⟩
  simp only [List.mem_cons, List.not_mem_nil, or_false] at ho
  rcases ho with rfl | rfl | rfl
  · omega
  · omega
  · exact hq

end Gov1
