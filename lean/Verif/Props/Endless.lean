import Verif.Props.LoneGroup
import Verif.Props.RdHang
import Verif.Props.StreamFails
/-!
# C196: decoding ends

The loop that counts the zeros of an Exp-Golomb code has no bound and the symbol decoder reads zeros after the end of the data: some streams are decoded for ever.
-/
namespace Gov1
open Spec

/-! ## Programs that grow with their fuel -/

namespace Rd

/-- The second program is the first one, but goes on for `n` replies 0 where the first one has run out of fuel. -/
def Grows {α : Type} (L : Layout) (n : Nat) : Rd α → Rd α → Prop
  | ret a, q => q = ret a
  | fail e, q => q = fail e ∨ e = .hang ∧ q.Hangs L (List.replicate n 0)
  | sym t idx k, q => ∃ k', q = sym t idx k' ∧ ∀ s, Grows L n (k s) (k' s)
  | bit k, q => ∃ k', q = bit k' ∧ ∀ s, Grows L n (k s) (k' s)

variable {α β : Type} {L : Layout} {n : Nat}

theorem Grows.refl (p : Rd α) : p.Grows L n p := by
  induction p with
  | ret a => rfl
  | fail e => exact .inl rfl
  | sym t idx k ih => exact ⟨k, rfl, ih⟩
  | bit k ih => exact ⟨k, rfl, ih⟩

theorem Grows.bind {p q : Rd α} {f g : α → Rd β} (h : p.Grows L n q) (hf : ∀ a, (f a).Grows L n (g a)) : (p >>= f).Grows L n (q >>= g) := by
  induction p generalizing q with
  | ret a => cases h; exact hf a
  | fail e =>
    rcases h with h | h
    · subst h; exact .inl rfl
    · exact .inr ⟨h.1, h.2.bind⟩
  | sym t idx k ih => obtain ⟨k', rfl, h⟩ := h; exact ⟨_, rfl, fun s => ih s (h s)⟩
  | bit k ih => obtain ⟨k', rfl, h⟩ := h; exact ⟨_, rfl, fun s => ih s (h s)⟩

theorem Grows.then {p : Rd α} {f g : α → Rd β} (hf : ∀ a, (f a).Grows L n (g a)) : (p >>= f).Grows L n (p >>= g) := (Grows.refl p).bind hf

theorem Grows.le {p q : Rd α} (h : p.Grows L n q) : p.Le q := by
  induction p generalizing q with
  | ret a => exact h
  | fail e =>
    rcases h with h | h
    · exact .inr h
    · exact .inl h.1
  | sym t idx k ih => obtain ⟨k', rfl, h⟩ := h; exact ⟨_, rfl, fun s => ih s (h s)⟩
  | bit k ih => obtain ⟨k', rfl, h⟩ := h; exact ⟨_, rfl, fun s => ih s (h s)⟩

theorem Grows.hangs {p q : Rd α} (h : p.Grows L n q) {m : List Nat} (hm : p.Hangs L m) : ∃ z, q.Hangs L (m ++ List.replicate z 0) := by
  induction p generalizing q m with
  | ret a => cases hm
  | fail e =>
    rw [hm.2]
    rcases h with h | h
    · subst h; exact ⟨0, hm.1, rfl⟩
    · exact ⟨n, h.2⟩
  | sym t idx k ih =>
    obtain ⟨k', rfl, h⟩ := h
    cases m with
    | nil => cases hm
    | cons s l =>
      obtain ⟨c, h1, h2, h3⟩ := hm
      obtain ⟨z, hz⟩ := ih s (h s) h3
      exact ⟨z, c, h1, h2, hz⟩
  | bit k ih =>
    obtain ⟨k', rfl, h⟩ := h
    cases m with
    | nil => cases hm
    | cons s l =>
      obtain ⟨z, hz⟩ := ih s (h s) hm.2
      exact ⟨z, hm.1, hz⟩

/-- A test for `Hangs`. -/
def hangsB {α : Type} (L : Layout) : Rd α → List Nat → Bool
  | ret _, _ => false
  | fail e, msg => decide (e = .hang) && msg.isEmpty
  | sym _ _ _, [] => false
  | sym t idx k, s :: l => match L.count t idx with
    | some n => decide (s < n) && (k s).hangsB L l
    | none => false
  | bit _, [] => false
  | bit k, s :: l => decide (s < 2) && (k s).hangsB L l

theorem hangs_of {p : Rd α} {m : List Nat} (h : p.hangsB L m = true) : p.Hangs L m := by
  induction p generalizing m with
  | ret a => cases h
  | fail e =>
    rw [hangsB, Bool.and_eq_true, decide_eq_true_eq] at h
    exact ⟨h.1, List.isEmpty_iff.mp h.2⟩
  | sym t idx k ih =>
    cases m with
    | nil => cases h
    | cons s l =>
      rw [hangsB] at h
      split at h
      · rename_i n hn
        rw [Bool.and_eq_true, decide_eq_true_eq] at h
        exact ⟨n, hn, h.1, ih s h.2⟩
      · cases h
  | bit k ih =>
    cases m with
    | nil => cases h
    | cons s l =>
      rw [hangsB, Bool.and_eq_true, decide_eq_true_eq] at h
      exact ⟨h.1, ih s h.2⟩

end Rd

/-- `C93_stall` anywhere in a stream. -/
theorem stall_at {α : Type} (L : Layout) (disable : Bool) (p : Nat → Rd α) (hg : ∀ n, (p 0).Grows L n (p n)) (cdfs : List (List Int))
    (hL : L.Fits cdfs) (msg : List Nat) (h0 : (p 0).Hangs L msg) :
    ∃ data : List UInt8, data.length ≤ 15 + 15 * msg.length ∧ ∀ bs rest, unread bs = bytesBits data ++ rest →
      ∃ st bs1, initSymbol data.length bs = .ok (st, bs1) ∧ SymInv st ∧ ∀ fuel, (p fuel).exec L disable cdfs st bs1 = .error .hang := by
  have hc0 := codable_of_hangs disable ((p 0).sel L) (p 0) [] msg cdfs hL (fun _ => rfl) h0
  have hb := encode_bounds disable ((p 0).sel L) msg [] cdfs encInit hL.valid hc0 (by simp [encInit])
    (by norm_num [encInit]) (by simp [encInit]) (by simp [encInit])
  dsimp only at hb
  obtain ⟨h1, h2, h3⟩ := hb
  obtain ⟨data, hlen, htop0⟩ := top_exists_len h2 h3 (by omega)
  have hle := encode_bits_le disable ((p 0).sel L) msg [] cdfs encInit
  have hle0 : encInit.bits = 0 := rfl
  refine ⟨data, by omega, fun bs rest hbs => ?_⟩
  have hini := initSymbol_ok hbs (sz := data.length) (by rw [bytesBits_length])
  refine ⟨_, _, hini, (initSymbol_inv hini).1, fun n => ?_⟩
  obtain ⟨z, hz⟩ := (hg n).hangs h0
  have hcn := codable_of_hangs disable ((p n).sel L) (p n) [] _ cdfs hL (fun _ => rfl) hz
  have htop := htop0
  rw [encode_le disable ((p 0).sel L) ((p n).sel L) (p 0) (p n) [] msg cdfs encInit (fun _ => rfl) (fun _ => rfl) (hg n).le h0] at htop
  have htop2 := Top.zeros disable ((p n).sel L) z ([] ++ msg) (encode disable ((p n).sel L) msg [] cdfs encInit).2 htop
  rw [← encode_append] at htop2
  have hbn := encode_bounds disable ((p n).sel L) _ [] cdfs encInit hL.valid hcn (by simp [encInit])
    (by norm_num [encInit]) (by simp [encInit]) (by simp [encInit])
  dsimp only at hbn
  obtain ⟨st', bs', hdec⟩ := C39_roundtrip disable ((p n).sel L) _ cdfs hL.valid hcn data.length (bytesBits data) rest
    bs hbs (by rw [bytesBits_length]) (htop2.carries (by omega))
  obtain ⟨st, bs1, e1, e2⟩ := BM.bind_eq_ok.mp hdec
  rw [hini] at e1
  injection e1 with e1
  injection e1 with e1 e1'
  subst e1 e1'
  exact exec_hang_of_decodeMany disable ((p n).sel L) (p n) [] _ cdfs _ _ st' _ bs' hL (initSymbol_inv hini).1 (fun _ => rfl) hz e2

/-! ## The syntax of a frame grows with its fuel -/

variable {L : Layout}

theorem golombLen_grows (n x : Nat) : (golombLen 0 x).Grows L n (golombLen n x) := .inr ⟨rfl, golombLen_hangs n x⟩

theorem readLevel_grows (n : Nat) (level : Int) : (readLevel 0 level).Grows L n (readLevel n level) := by
  unfold readLevel readGolomb
  split
  · exact Rd.Grows.bind (Rd.Grows.bind (golombLen_grows n 0) (fun _ => Rd.Grows.refl _)) (fun _ => Rd.Grows.refl _)
  · exact Rd.Grows.refl _

theorem signLoop_grows (fuel : Nat) (cx : BlkCtx) (scan : List Nat) (plane w4 h4 : Nat) (x4 y4 : Int) (ptype n c : Nat)
    (st : CoefSt) (cul dc : Int) : (signLoop 0 cx scan plane w4 h4 x4 y4 ptype n c st cul dc).Grows L fuel
      (signLoop fuel cx scan plane w4 h4 x4 y4 ptype n c st cul dc) := by
  induction n generalizing c st cul dc with
  | zero => exact Rd.Grows.refl _
  | succ n ih =>
    unfold signLoop
    refine Rd.Grows.then (fun pos => Rd.Grows.then (fun level => Rd.Grows.then (fun sign => ?_)))
    refine Rd.Grows.bind (readLevel_grows fuel level) (fun level => ?_)
    exact Rd.Grows.then (fun q => ih _ _ _ _)

theorem coeffs_grows (fuel : Nat) (cx : BlkCtx) (st : CoefSt) (plane : Nat) (startX startY : Int) (t : Nat) :
    (coeffs 0 cx st plane startX startY t).Grows L fuel (coeffs fuel cx st plane startX startY t) := by
  unfold coeffs
  refine Rd.Grows.then (fun _ => Rd.Grows.then (fun _ => Rd.Grows.then (fun _ => Rd.Grows.then (fun _ => ?_))))
  refine Rd.Grows.then (fun _ => Rd.Grows.then (fun _ => Rd.Grows.then (fun _ => Rd.Grows.then (fun _ => ?_))))
  refine Rd.Grows.bind ?_ (fun _ => Rd.Grows.refl _)
  unfold coefBody
  split
  · exact Rd.Grows.refl _
  · unfold codedCoefs
    refine Rd.Grows.then (fun _ => Rd.Grows.then (fun _ => Rd.Grows.then (fun _ => Rd.Grows.then (fun _ => ?_))))
    refine Rd.Grows.then (fun _ => Rd.Grows.then (fun _ => ?_))
    exact Rd.Grows.bind (signLoop_grows _ _ _ _ _ _ _ _ _ _ _ _ _ _) (fun _ => Rd.Grows.refl _)

theorem transformBlock_grows (fuel : Nat) (c : TbCtx) (call : TxCall) (s : TbSt) : (transformBlock 0 c call s).Grows L fuel (transformBlock fuel c call s) := by
  unfold transformBlock
  refine Rd.Grows.then fun p => ?_
  cases p with
  | none => exact Rd.Grows.refl _
  | some p =>
    unfold tbInside
    refine Rd.Grows.then fun s => Rd.Grows.bind ?_ fun _ => Rd.Grows.refl _
    unfold tbCoeffs
    split
    · exact Rd.Grows.refl _
    · exact Rd.Grows.bind (coeffs_grows _ _ _ _ _ _ _) fun _ => Rd.Grows.refl _

theorem runCalls_grows (fuel : Nat) (c : TbCtx) (l : List TxCall) (s : TbSt) : (runCalls 0 c l s).Grows L fuel (runCalls fuel c l s) := by
  induction l generalizing s with
  | nil => exact Rd.Grows.refl _
  | cons call l ih => exact Rd.Grows.bind (transformBlock_grows _ _ _ _) fun _ => ih _

theorem decodeBlock_grows (fuel : Nat) (h : FrHdr) (r c z : Nat) (s : BlkSt) : (decodeBlock 0 h r c z s).Grows L fuel (decodeBlock fuel h r c z s) := by
  unfold decodeBlock
  refine Rd.Grows.then fun _ => Rd.Grows.then fun _ => Rd.Grows.then fun _ => ?_
  unfold decodeBody
  refine Rd.Grows.then fun _ => Rd.Grows.then fun _ => Rd.Grows.then fun _ => Rd.Grows.then fun _ => Rd.Grows.then fun _ => ?_
  refine Rd.Grows.bind ?_ fun _ => Rd.Grows.refl _
  unfold residual
  exact Rd.Grows.then fun _ => runCalls_grows _ _ _ _

theorem blocksSyntax_grows (fuel : Nat) (h : FrHdr) (l : List (Nat × Nat × Nat)) (s : BlkSt) : (blocksSyntax 0 h l s).Grows L fuel (blocksSyntax fuel h l s) := by
  induction l generalizing s with
  | nil => exact Rd.Grows.refl _
  | cons x l ih => exact Rd.Grows.bind (decodeBlock_grows _ _ _ _ _ _) fun _ => ih _

/-- Without restoration nothing is read and no fuel is used. -/
theorem readLr_none (fuel : Nat) {lh : LrHdr} (ht : lh.types = [0, 0, 0]) (r c z : Nat) (p : LrUnitParams) : readLr fuel lh r c z p = readLr 0 lh r c z p := by
  have h1 : ∀ size plane p, readLrPlane fuel lh r c size plane p = readLrPlane 0 lh r c size plane p := by
    intro size plane p
    unfold readLrPlane
    rw [ht]
    cases hg : goGet ([0, 0, 0] : List Int) ((plane : Nat) : Int) with
    | error e => exact (show _ = Rd.fail e from rfl).trans (show Rd.fail e = _ from rfl)
    | ok v =>
      have hv : v = 0 := by
        have := List.mem_of_getElem? (goGet_inv hg).2
        simp only [List.mem_cons, List.not_mem_nil, or_false, or_self] at this
        exact this
      subst hv
      exact (show _ = Rd.ret p from rfl).trans (show Rd.ret p = _ from rfl)
  have h2 : ∀ size n plane p, readLrPlanes fuel lh r c size n plane p = readLrPlanes 0 lh r c size n plane p := by
    intro size n
    induction n with
    | zero => intro plane p; rfl
    | succ n ih =>
      intro plane p
      rw [readLrPlanes, readLrPlanes, h1]
      congr 1
      funext p
      exact ih _ _
  unfold readLr
  rw [show readLrPlanes fuel lh r c = readLrPlanes 0 lh r c from by funext size n plane p; exact h2 _ _ _ _]

theorem frameSyntax_grows (grow : Nat → Nat) (fuel : Nat) (h : FrHdr) {lh : LrHdr} (ht : lh.types = [0, 0, 0]) (x : TileSt) :
    (frameSyntax grow 0 h lh x).Grows L fuel (frameSyntax grow fuel h lh x) := by
  unfold frameSyntax
  refine Rd.Grows.then fun b => ?_
  rw [readLr_none fuel ht]
  exact Rd.Grows.then fun _ => Rd.Grows.then fun _ => Rd.Grows.bind (blocksSyntax_grows _ _ _ _) fun _ => Rd.Grows.refl _

/-! ## A fault of the syntax is a fault of the tile -/

theorem BM.bind_eq_error {α β : Type} {m : BM α} {k : α → BM β} {s : BitStream} {e : Fault} (h : (m >>= k) s = .error e) :
    m s = .error e ∨ ∃ a s1, m s = .ok (a, s1) ∧ k a s1 = .error e := by
  cases hm : m s with
  | error e' =>
    rw [BM.bind_error hm] at h
    injection h with h
    subst h
    exact .inl rfl
  | ok r =>
    obtain ⟨a, s1⟩ := r
    rw [BM.bind_ok hm] at h
    exact .inr ⟨a, s1, rfl, h⟩

theorem exec_bind_error {α β : Type} {L : Layout} {disable : Bool} {f : α → Rd β} {p : Rd α} {cdfs : List (List Int)} {st : Sym} {s : BitStream} {e : Fault}
    (h : (p >>= f).exec L disable cdfs st s = .error e) :
    p.exec L disable cdfs st s = .error e ∨ ∃ a cdfs1 st1 s1, p.exec L disable cdfs st s = .ok ((a, cdfs1, st1), s1) ∧ (f a).exec L disable cdfs1 st1 s1 = .error e := by
  rw [exec_bind] at h
  rcases BM.bind_eq_error h with h | ⟨⟨a, c1, st1⟩, s1, h1, h2⟩
  · exact .inl h
  · exact .inr ⟨a, c1, st1, s1, h1, h2⟩

theorem blocksRun_error {k : Fin 4} {disable : Bool} {fuel : Nat} {h : FrHdr} {e : Fault} : ∀ (l : List (Nat × Nat × Nat)) {b : BlkSt} {cdfs : List (List Int)} {st : Sym} {s : BitStream} (lr : LrUnitParams),
    (blocksSyntax fuel h l b).exec (cdfLayout k) disable cdfs st s = .error e →
    blocksRun (tileOps (cdfLayout k) disable fuel h) l (st, ⟨cdfs, b, lr⟩) s = .error e := by
  intro l
  induction l with
  | nil => intro b cdfs st s lr h; cases h
  | cons x l ih =>
    obtain ⟨r, c, z⟩ := x
    intro b cdfs st s lr h
    rw [blocksSyntax] at h
    rw [blocksRun]
    rcases exec_bind_error h with h1 | ⟨b1, c1, st1, s1, h1, h2⟩
    · exact BM.bind_error (BM.bind_error h1)
    · refine BM.error_after (a := (st1, ⟨c1, b1, lr⟩)) (s1 := s1) ?_ (ih lr h2)
      simp only [tileOps, blockOp, execIn]
      exact BM.bind_eq_ok.mpr ⟨_, _, h1, rfl⟩

theorem seqB_head_error {σ : Type} {f : σ → BM (σ × List Ev)} {fs : List (σ → BM (σ × List Ev))} {x : σ} {s : BitStream} {e : Fault} (h : f x s = .error e) : seqB (f :: fs) x s = .error e := by
  rw [seqB]
  exact BM.bind_error h

theorem seqB_tail_error {σ : Type} {f : σ → BM (σ × List Ev)} {fs : List (σ → BM (σ × List Ev))} {x y : σ} {es : List Ev} {s t : BitStream} {e : Fault}
    (h1 : f x s = .ok ((y, es), t)) (h2 : seqB fs y t = .error e) : seqB (f :: fs) x s = .error e := by
  rw [seqB]
  exact BM.error_after h1 (BM.bind_error h2)

theorem blockEv_error {σ : Type} {ops : PartOps σ} {r c z : Nat} {x : σ} {s : BitStream} {e : Fault} (h : ops.block r c z x s = .error e) : blockEv ops r c z x s = .error e :=
  BM.bind_error h

theorem decodePartition_error {σ : Type} {ops : PartOps σ} {fuel r c b p : Nat} {x x1 : σ} {s s1 : BitStream} {e : Fault} (hb : IsSquare b) (hr : r < 2) (hc : c < 2) (hp : p < 4)
    (hch : choosePart ops b r c (decide (r + (blockDims b).1 / 2 < 2)) (decide (c + (blockDims b).1 / 2 < 2)) x s = .ok ((p, x1), s1))
    (hs : seqB (partSteps ops (decodePartition ops 2 2 fuel) 2 p r c ((blockDims b).1 / 2) ((blockDims b).1 / 2 / 2)
        ((partitionSubsize.getD p []).getD b 0) ((partitionSubsize.getD 3 []).getD b 0) (decide (r + (blockDims b).1 / 2 < 2))
        (decide (c + (blockDims b).1 / 2 < 2))) x1 s1 = .error e) :
    decodePartition ops 2 2 (fuel + 1) r c b x s = .error e := by
  rw [decodePartition, if_neg (by omega)]
  have hnum : goGet num4x4Wide b = .ok (blockDims b).1 := by rcases hb with rfl | rfl | rfl | rfl | rfl | rfl <;> rfl
  rw [hnum]
  refine BM.error_after (a := (blockDims b).1) (s1 := s) rfl ?_
  dsimp only
  simp only [Nat.shiftRight_one]
  refine BM.error_after hch ?_
  dsimp only
  have hsub : goGet partitionSubsize (p : Nat) = .ok (partitionSubsize.getD p []) ∧ goGet (partitionSubsize.getD p []) (b : Nat) = .ok ((partitionSubsize.getD p []).getD b 0) ∧
      goGet partitionSubsize 3 = .ok (partitionSubsize.getD 3 []) ∧ goGet (partitionSubsize.getD 3 []) (b : Nat) = .ok ((partitionSubsize.getD 3 []).getD b 0) := by
    rcases (show p = 0 ∨ p = 1 ∨ p = 2 ∨ p = 3 by omega) with rfl | rfl | rfl | rfl <;> rcases hb with rfl | rfl | rfl | rfl | rfl | rfl <;> exact ⟨rfl, rfl, rfl, rfl⟩
  obtain ⟨e1, e2, e3, e4⟩ := hsub
  rw [e1]
  refine BM.error_after (s1 := s1) rfl ?_
  rw [e2]
  refine BM.error_after (s1 := s1) rfl ?_
  rw [e3]
  refine BM.error_after (s1 := s1) rfl ?_
  rw [e4]
  refine BM.error_after (s1 := s1) rfl ?_
  exact BM.bind_error hs

theorem decodePartition_error0 {σ : Type} {ops : PartOps σ} {fuel r c b : Nat} {x : σ} {s : BitStream} {e : Fault} (hb : IsSquare b) (hr : r < 2) (hc : c < 2)
    (hch : choosePart ops b r c (decide (r + (blockDims b).1 / 2 < 2)) (decide (c + (blockDims b).1 / 2 < 2)) x s = .error e) :
    decodePartition ops 2 2 (fuel + 1) r c b x s = .error e := by
  rw [decodePartition, if_neg (by omega)]
  have hnum : goGet num4x4Wide b = .ok (blockDims b).1 := by rcases hb with rfl | rfl | rfl | rfl | rfl | rfl <;> rfl
  rw [hnum]
  refine BM.error_after (a := (blockDims b).1) (s1 := s) rfl ?_
  dsimp only
  simp only [Nat.shiftRight_one]
  exact BM.bind_error hch

theorem corner_error {σ : Type} {ops : PartOps σ} {fuel b : Nat} (hb : b = 6 ∨ b = 9 ∨ b = 12) {x : σ} {s : BitStream} {e : Fault}
    (h : decodePartition ops 2 2 (fuel + 1) 0 0 (b - 3) x s = .error e) : decodePartition ops 2 2 (fuel + 2) 0 0 b x s = .error e := by
  have hsq : IsSquare b := by unfold IsSquare; omega
  have hhalf : 2 ≤ (blockDims b).1 / 2 := by rcases hb with rfl | rfl | rfl <;> decide
  have hsub : (partitionSubsize.getD 3 []).getD b 0 = b - 3 := by rcases hb with rfl | rfl | rfl <;> rfl
  refine decodePartition_error hsq (by decide) (by decide) (by decide : 3 < 4) (x1 := x) (s1 := s) ?_ ?_
  · rw [show decide (0 + (blockDims b).1 / 2 < 2) = false from decide_eq_false (by omega), choosePart, if_neg (by omega), if_neg (by simp), if_neg (by simp), if_neg (by simp)]
    rfl
  · rw [partSteps, if_neg (by decide), if_neg (by decide), if_neg (by decide), if_pos rfl, hsub]
    exact seqB_head_error h

theorem leaf_error {σ : Type} {ops : PartOps σ} {fuel r c : Nat} (hr : r < 2) (hc : c < 2) {x : σ} {s : BitStream} {e : Fault} (h : ops.block r c 0 x s = .error e) :
    decodePartition ops 2 2 (fuel + 1) r c 0 x s = .error e := by
  refine decodePartition_error (.inl rfl) hr hc (by decide : 0 < 4) (x1 := x) (s1 := s) ?_ ?_
  · rw [choosePart, if_pos (by decide)]
    rfl
  · rw [partSteps, if_pos rfl]
    exact seqB_head_error (blockEv_error h)

theorem blocksRun_cons_error {σ : Type} {ops : PartOps σ} {r c z : Nat} {l : List (Nat × Nat × Nat)} {x : σ} {s : BitStream} {e : Fault} (h : blocksRun ops ((r, c, z) :: l) x s = .error e) :
    ops.block r c z x s = .error e ∨ ∃ x1 s1, ops.block r c z x s = .ok (x1, s1) ∧ blocksRun ops l x1 s1 = .error e := by
  rw [blocksRun] at h
  exact BM.bind_eq_error h

theorem eight_error {σ : Type} {ops : PartOps σ} {fuel p : Nat} (hp : p < 4) {x x1 : σ} {s s1 : BitStream} {e : Fault} (h : ops.readPart 3 0 0 x s = .ok ((p, x1), s1))
    (hl : blocksRun ops (smallBlocks p) x1 s1 = .error e) : decodePartition ops 2 2 (fuel + 2) 0 0 3 x s = .error e := by
  refine decodePartition_error (.inr (.inl rfl)) (by decide) (by decide) hp (x1 := x1) (s1 := s1) ?_ ?_
  · rw [choosePart, if_neg (by decide), if_pos (by decide)]
    exact h
  · rcases (show p = 0 ∨ p = 1 ∨ p = 2 ∨ p = 3 by omega) with rfl | rfl | rfl | rfl
    · rcases blocksRun_cons_error hl with h1 | ⟨xa, sa, h1, w1⟩
      · exact seqB_head_error (blockEv_error h1)
      · cases w1
    · rcases blocksRun_cons_error hl with h1 | ⟨xa, sa, h1, w1⟩
      · exact seqB_head_error (blockEv_error h1)
      · rcases blocksRun_cons_error w1 with h2 | ⟨xb, sb, h2, w2⟩
        · exact seqB_tail_error (blockEv_of h1) (seqB_head_error (blockEv_error h2))
        · cases w2
    · rcases blocksRun_cons_error hl with h1 | ⟨xa, sa, h1, w1⟩
      · exact seqB_head_error (blockEv_error h1)
      · rcases blocksRun_cons_error w1 with h2 | ⟨xb, sb, h2, w2⟩
        · exact seqB_tail_error (blockEv_of h1) (seqB_head_error (blockEv_error h2))
        · cases w2
    · rcases blocksRun_cons_error hl with h1 | ⟨xa, sa, h1, w1⟩
      · exact seqB_head_error (leaf_error (by decide) (by decide) h1)
      · rcases blocksRun_cons_error w1 with h2 | ⟨xb, sb, h2, w2⟩
        · exact seqB_tail_error (leaf_of (by decide) (by decide) h1) (seqB_head_error (leaf_error (by decide) (by decide) h2))
        · rcases blocksRun_cons_error w2 with h3 | ⟨xc, sc, h3, w3⟩
          · exact seqB_tail_error (leaf_of (by decide) (by decide) h1) (seqB_tail_error (leaf_of (by decide) (by decide) h2) (seqB_head_error (leaf_error (by decide) (by decide) h3)))
          · rcases blocksRun_cons_error w3 with h4 | ⟨xd, sd, h4, w4⟩
            · exact seqB_tail_error (leaf_of (by decide) (by decide) h1) (seqB_tail_error (leaf_of (by decide) (by decide) h2) (seqB_tail_error (leaf_of (by decide) (by decide) h3)
                (seqB_head_error (leaf_error (by decide) (by decide) h4))))
            · cases w4

/-- The tile fails where its syntax does. -/
theorem realTile_error {grow : Nat → Nat} {k : Fin 4} {disable : Bool} {fuel : Nat} {h : FrHdr} {lh : LrHdr} {run : TileRun} (hs : Small h run) {x : TileSt} (hL : (cdfLayout k).Fits x.cdfs)
    {st : Sym} (hi : SymInv st) {s : BitStream} {e : Fault} (he : (frameSyntax grow fuel h lh x).exec (cdfLayout k) disable x.cdfs st s = .error e) :
    realTile grow k disable fuel h lh run (x, []) st s = .error e := by
  have hsb : sbEvents (tileOps (cdfLayout k) disable fuel h) (sbPre grow (cdfLayout k) disable fuel h lh) 2 2 12 0 0 (tileReset h lh.numPlanes x, []) st s = .error e := by
    unfold frameSyntax at he
    unfold sbEvents
    rcases exec_bind_error he with h1 | ⟨b1, c1, st1, s1, h1', e1⟩
    · refine BM.bind_error ?_
      unfold sbPre
      refine BM.bind_error ?_
      cases hc : sbClear grow h lh.numPlanes 0 0 (tileReset h lh.numPlanes x).blk with
      | error e' => rw [hc] at h1; cases h1; rfl
      | ok b => rw [hc] at h1; cases h1
    obtain ⟨h1, hc, hst, hs1⟩ := exec_lift_ok h1'
    subst hc hst hs1
    rcases exec_bind_error e1 with h2 | ⟨l2, c2, st2, s2, h2, e2⟩
    · refine BM.bind_error ?_
      unfold sbPre
      rw [h1]
      refine BM.error_after (s1 := s1) rfl ?_
      unfold execIn
      rw [hs.sb]
      exact BM.bind_error h2
    have hpre : sbPre grow (cdfLayout k) disable fuel h lh 0 0 (tileReset h lh.numPlanes x) st1 s1 = .ok ((st2, ⟨c2, b1, l2⟩), s2) := by
      unfold sbPre
      rw [h1]
      refine BM.bind_eq_ok.mpr ⟨_, _, rfl, ?_⟩
      unfold execIn
      rw [hs.sb]
      exact BM.bind_eq_ok.mpr ⟨_, _, h2, rfl⟩
    refine BM.error_after hpre (BM.bind_error ?_)
    obtain ⟨i1, i2, i3, i4⟩ := hi
    obtain ⟨-, hf2, hr2, hv2⟩ := C93_sound _ disable _ _ _ _ _ _ _ _ hL ⟨i1, i2⟩ ⟨i3, i4⟩ h2
    refine corner_error (b := 12) (fuel := 11) (.inr (.inr rfl)) (corner_error (b := 9) (fuel := 10) (.inr (.inl rfl)) (corner_error (b := 6) (fuel := 9) (.inl rfl) ?_))
    rcases exec_bind_error e2 with h3 | ⟨p3, c3, st3, s3, h3, e3⟩
    · refine decodePartition_error0 (.inr (.inl rfl)) (by decide) (by decide) ?_
      rw [choosePart, if_neg (by decide), if_pos (by decide)]
      exact BM.bind_error h3
    · have hp : p3 < 4 := (exec_wlp (readPartition_wlp k h 3 0 0 b1.recs.miSizes) hf2 hr2 hv2 h3).2.1 rfl
      rcases exec_bind_error e3 with h4 | ⟨b4, c4, st4, s4, h4, e4⟩
      · exact eight_error (ops := tileOps (cdfLayout k) disable fuel h) (fuel := 8) hp (x := (st2, ⟨c2, b1, l2⟩)) (x1 := (st3, ⟨c3, b1, l2⟩)) (BM.bind_eq_ok.mpr ⟨_, _, h3, rfl⟩)
          (blocksRun_error (smallBlocks p3) l2 h4)
      · cases e4
  unfold realTile tileEvents decodeTile
  obtain ⟨r1, r2, r3, r4⟩ := hs.run
  rw [hs.sb, hs.rows, hs.cols, r1, r2, r3, r4]
  refine BM.error_after (s1 := s) rfl ?_
  dsimp only
  rw [show (2 - 0 : Nat) = 2 from rfl, sbRows, if_pos (by decide)]
  dsimp only
  refine BM.error_after (s1 := s) rfl ?_
  rw [show (2 - 0 : Nat) = 2 from rfl, sbCols, if_pos (by decide)]
  dsimp only
  exact BM.bind_error (BM.bind_error hsb)

/-! ## The tile group -/

theorem tileGroup_error {σ : Type} (body : TileRun → σ → Sym → BM (Sym × σ)) {t : Tiles} (h1 : t.tileCols = 1) (h2 : t.tileRows = 1) (h3 : t.miColStarts = [0, 2])
    (h4 : t.miRowStarts = [0, 2]) {n : Nat} {x : σ} {st : Sym} {s s1 : BitStream} {e : Fault} (h8 : s.pos % 8 = 0)
    (hi : initSymbol n s = .ok (st, s1)) (hb : body ⟨0, n, 0, 2, 0, 2, s.pos⟩ x st s1 = .error e) : tileGroup body t n x s = .error e := by
  unfold tileGroup tileRange
  rw [h1, h2]
  refine BM.error_after (a := s.pos) (s1 := s) rfl ?_
  refine BM.error_after (a := (0, 0)) (s1 := s) rfl ?_
  refine BM.error_after (a := ()) (s1 := s) ?_ ?_
  · have := C08_byte_alignment s 0 (by omega) (by omega)
    simpa using this (Nat.zero_le _)
  refine BM.error_after (a := s.pos) (s1 := s) rfl ?_
  dsimp only
  have hz : (n : Int) - (((s.pos - s.pos) / 8 : Nat) : Int) = n := by simp
  rw [hz]
  refine BM.bind_error ?_
  rw [show ((0 : Int) + 1 - ((0 : Nat) : Int)).toNat = 1 from rfl, tileLoop, h1, h3, h4]
  refine BM.error_after (a := ((n : Int), (n : Int))) (s1 := s) rfl ?_
  refine BM.error_after (a := 0) (s1 := s) rfl (BM.error_after (a := 2) (s1 := s) rfl (BM.error_after (a := 0) (s1 := s) rfl (BM.error_after (a := 2) (s1 := s) rfl ?_)))
  exact BM.error_after (a := s.pos) (s1 := s) rfl (BM.error_after hi (BM.bind_error hb))

theorem decodeGroup_stall (grow : Nat → Nat) {sh : SeqHeader} {uh : DecUH} {s : State} {r : DecR} (h1 : r.fs.tiles.tileCols = 1) (h2 : r.fs.tiles.tileRows = 1)
    (h3 : r.fs.tiles.miColStarts = [0, 2]) (h4 : r.fs.tiles.miRowStarts = [0, 2]) (h5 : r.fs.miRows = 2) (h6 : r.fs.miCols = 2) (hsb : sh.use128x128SuperBlock = false)
    {k : Fin 4} (hk : cdfClass r.fs = some k) (hL : (cdfLayout k).Fits (r.cdf.view k)) (ht : (lrHdrOf sh uh.hdr r.fs).types = [0, 0, 0]) {msg : List Nat}
    (hm : (headerSyntax grow 0 sh uh.hdr r).Hangs (cdfLayout k) msg) :
    ∃ data : List UInt8, data.length ≤ 15 + 15 * msg.length ∧ ∀ fuel bs rest, bs.pos % 8 = 0 → unread bs = bytesBits data ++ rest → decodeGroup grow fuel data.length (s, r) uh sh bs = .error .hang := by
  have hcd : (groupFirst uh.hdr r).cdfs = r.cdf.view k := by
    show groupCdfs r = _
    unfold groupCdfs
    rw [hk]
  obtain ⟨data, hl, hd⟩ := stall_at (cdfLayout k) uh.hdr.disableCdfUpdate (fun fuel => headerSyntax grow fuel sh uh.hdr r) (fun n => frameSyntax_grows _ _ _ ht _)
    (groupFirst uh.hdr r).cdfs (by rw [hcd]; exact hL) msg hm
  refine ⟨data, hl, fun fuel bs rest h8 hbs => ?_⟩
  obtain ⟨st, bs1, e1, hi, e2⟩ := hd bs rest hbs
  have hs : Small (frHdrOf sh uh.hdr r.fs r.slots ⟨0, data.length, 0, 2, 0, 2, bs.pos⟩) ⟨0, data.length, 0, 2, 0, 2, bs.pos⟩ := ⟨h5, h6, hsb, rfl, rfl, rfl, rfl⟩
  have ht := realTile_error (grow := grow) (fuel := fuel) (lh := lrHdrOf sh uh.hdr r.fs) hs (by rw [hcd]; exact hL) hi (e2 fuel)
  have hg := tileGroup_error (groupTile grow fuel sh uh.hdr r) h1 h2 h3 h4 (x := ({ cdfs := groupCdfs r, blk := groupStart r.arr, lr := { refXqd := List.replicate 3 [0, 0] } }, []))
    h8 e1 (by
      unfold groupTile
      rw [hk]
      exact ht)
  unfold decodeGroup
  dsimp only
  exact BM.bind_error hg

/-! ## C196 -/

/-- Headers and symbol values after which the program counts zeros for ever, wherever the frame allows it. -/
theorem endless_of (grow : Nat → Nat) {a b : List UInt8} {q : SeqHeader} {s1 : State} {ea eb : BitStream} {u : UHeader} {fs : FrameState}
    (ha : newSequenceHeader {} (newBitStream a) = .ok ((q, s1), ea)) (hae : ea.pos < 8 * a.length)
    (hb : newUncompressedHeader (plainHeader 3) q {} (newBitStream b) = .ok ((u, fs), eb)) (hbe : eb.pos < 8 * b.length)
    (hrows : fs.miRows = 2) (hcols : fs.miCols = 2) (hsb : q.use128x128SuperBlock = false) {k : Fin 4} (hk : cdfClass fs = some k) (ht : (lrHdrOf q u fs).types = [0, 0, 0])
    {msg : List Nat} (hm : (headerSyntax grow 0 q u { fs := fs }).Hangs (cdfLayout k) msg) (hlen : a.length + b.length + 15 * (1 + msg.length) < 2 ^ 40) :
    ∃ data : List UInt8, ∀ fuel, parseStream (decoder grow fuel) (newBitStream data) = .error .hang := by
  have hb40 : (2 : Nat) ^ 40 = 1099511627776 := by norm_num
  have hk8 : (128 : Nat) ^ 8 = 72057594037927936 := by norm_num
  have hs1 := newSequenceHeader_state _ _ _ _ ha
  dsimp only at hs1
  have hfs := newUncompressedHeader_tiles _ _ _ (Or.inl ⟨rfl, rfl⟩) _ _ _ hb
  dsimp only at hfs
  obtain ⟨t1, t2, t3, t4⟩ : fs.tiles.tileCols = 1 ∧ fs.tiles.tileRows = 1 ∧ fs.tiles.miColStarts = [0, 2] ∧ fs.tiles.miRowStarts = [0, 2] := by
    rcases hfs with ⟨-, h0⟩ | ⟨-, -, h⟩
    · omega
    · exact h hcols hrows
  obtain ⟨data, hl, hd⟩ := decodeGroup_stall grow (sh := q) (uh := ⟨u, fs.tiles.contextUpdateTileId⟩)
    (s := { s1 with tileNum := 0, seenFrameHeader := true }) (r := { fs := fs }) t1 t2 t3 t4 hrows hcols hsb hk (by rw [cdfStart_view]; exact C94_layout_fits k) ht hm
  obtain ⟨bytes, -, h⟩ := threeObus_bytes 1 3 4 (a := a) (b := b) (c := data) (by omega)
  refine ⟨bytes, fun fuel => ?_⟩
  have p1 : ObuParses (decoder grow fuel) ({}, (decoder grow fuel).newR (decoder grow fuel).startR) {} (decoder grow fuel).zeroUH (plainObu 1 a)
      ⟨a.length, plainHeader 1, q, (decoder grow fuel).zeroUH, (decoder grow fuel).zeroTG⟩ (s1, ({} : DecR)) := obu_seq (decoder grow fuel) {} _ ha hae (by omega)
  have p2 := obu_frameHeader (decoder grow fuel) (st := (s1, ({} : DecR))) q (decoder grow fuel).zeroUH (payload := b) (u := ⟨u, fs.tiles.contextUpdateTileId⟩)
    (st1 := ({ s1 with seenFrameHeader := true }, ({ fs := fs } : DecR))) (e := eb) (by rw [hs1]) ?_ ?_ ?_ hbe (by omega)
  · have p3 := obu_tileGroup_fails (decoder grow fuel) (st := ({ s1 with tileNum := 0, seenFrameHeader := true }, ({ fs := fs } : DecR))) q
      (⟨u, fs.tiles.contextUpdateTileId⟩ : DecUH) (payload := data) (by omega) (hd fuel)
    exact h (decoder grow fuel) .hang p1 p2 p3
  · exact Movable.bind (C07_uncompressedHeader_anywhere _ _ _) fun _ => Movable.pure _
  · show (newUncompressedHeader (plainHeader 3) q {} >>= _ : BM _) (newBitStream b) = _
    rw [BM.bind_ok hb]
    rfl
  · exact newUncompressedHeader_notExisting _ _ _ _ _ _ hb

/-- The hypotheses of `endless_of` as a test. -/
def stalls (grow : Nat → Nat) (a b : List UInt8) (msg : List Nat) : Bool :=
  match newSequenceHeader {} (newBitStream a) with
  | .error _ => false
  | .ok ((q, _), ea) =>
    match newUncompressedHeader (plainHeader 3) q {} (newBitStream b) with
    | .error _ => false
    | .ok ((u, fs), eb) =>
      match cdfClass fs with
      | none => false
      | some k => (headerSyntax grow 0 q u { fs := fs }).hangsB (cdfLayout k) msg && decide (ea.pos < 8 * a.length) && decide (eb.pos < 8 * b.length) &&
          decide (fs.miRows = 2) && decide (fs.miCols = 2) && !q.use128x128SuperBlock && decide ((lrHdrOf q u fs).types = [0, 0, 0]) &&
          decide (a.length + b.length + 15 * (1 + msg.length) < 2 ^ 40)

theorem endless_of_stalls {grow : Nat → Nat} {a b : List UInt8} {msg : List Nat} (h : stalls grow a b msg = true) :
    ∃ data : List UInt8, ∀ fuel, parseStream (decoder grow fuel) (newBitStream data) = .error .hang := by
  unfold stalls at h
  split at h
  · cases h
  rename_i q s1 ea ha
  split at h
  · cases h
  rename_i u fs eb hb
  split at h
  · cases h
  rename_i k hk
  simp only [Bool.and_eq_true, decide_eq_true_eq, Bool.not_eq_true'] at h
  obtain ⟨⟨⟨⟨⟨⟨⟨h1, h2⟩, h3⟩, h4⟩, h5⟩, h6⟩, h7⟩, h8⟩ := h
  exact endless_of grow ha h2 hb h3 h4 h5 h6 hk h7 (Rd.hangs_of h1) h8

/-- A monochrome key frame with one 8x8 block whose only coefficient has an Exp-Golomb part; the data of the tile ends there. -/
theorem demo_stalls (grow : Nat → Nat) : stalls grow [0x18, 0x02, 0] [0, 0, 0] [0, 0, 0, 0, 0, 0, 2, 3, 3, 3, 3, 0] = true := by
  run_tac do (← Lean.Elab.Tactic.getMainGoal).assign (Lean.mkApp2 (Lean.mkConst ``Eq.refl [1]) (Lean.mkConst ``Bool) (Lean.mkConst ``true))

/-- C196: the program does not always end.  There is a finite stream for which no number of steps of the loop that counts the zeros of an Exp-Golomb code is enough: the loop has no bound, and the symbol
decoder goes on after the end of the data as if zeros followed. -/
theorem C196_ends_refuted (grow : Nat → Nat) : ¬ ∀ data : List UInt8, ∃ fuel, parseStream (decoder grow fuel) (newBitStream data) ≠ .error .hang := by
  intro h
  obtain ⟨data, hd⟩ := endless_of_stalls (demo_stalls grow)
  obtain ⟨fuel, hf⟩ := h data
  exact hf (hd fuel)

end Gov1
