import Verif.Props.BlockRec
/-!
# C129: mode info of a block of an intra frame, as a whole
-/
namespace Gov1
open Spec

variable {L : Layout}

theorem wlp_true {α : Type} (p : Rd α) : p.Wlp L (fun _ => True) := by
  induction p with
  | ret a => trivial
  | fail e => trivial
  | sym t idx k ih => exact fun n h1 s hs => ih s
  | bit k ih => exact fun s hs => ih s

/-- A program whose result does not matter. -/
theorem wlp_skip {α β : Type} (p : Rd α) {f : α → Rd β} {Q : β → Prop} (h : ∀ a, (f a).Wlp L Q) : (p >>= f).Wlp L Q :=
  Rd.Wlp.bind ((wlp_true p).mono (fun a _ => h a))

theorem chromaModes_wlp (lim : Nat → Bool) (h : MiHdr) (b : MiBlk) (m : ModeInfo) :
    (chromaModes lim h b m).Wlp L (fun m' => m'.refFrame = m.refFrame ∧ m'.yMode = m.yMode ∧ m'.isInter = m.isInter) := by
  unfold chromaModes
  split
  · refine wlp_skip _ fun uv => wlp_skip _ fun c => wlp_skip _ fun a => ?_
    exact ⟨rfl, rfl, rfl⟩
  · exact ⟨rfl, rfl, rfl⟩

theorem filterIntra_wlp (h : MiHdr) (miSize yMode : Nat) :
    (filterIntraModeInfo h miSize yMode 0).Wlp L (fun _ => h.enableFilterIntra = true → yMode = 0 → ∀ d, sizeDims miSize = some d → 32 < max d.1 d.2) := by
  unfold filterIntraModeInfo
  split
  · refine Rd.Wlp.bind (Rd.Wlp.lift fun w hw => ?_)
    refine Rd.Wlp.bind (Rd.Wlp.lift fun ht hh => ?_)
    split
    · trivial
    · rename_i hx
      intro _ _ d hd
      obtain ⟨-, gw⟩ := goGet_inv hw
      obtain ⟨-, gh⟩ := goGet_inv hh
      unfold sizeDims at hd
      simp only [Int.toNat_natCast] at gw gh
      rw [gw, gh] at hd
      cases hd
      exact Nat.lt_of_not_le hx
  · rename_i hx
    intro h1 h2
    exact absurd ⟨h1, h2, rfl⟩ hx

theorem palette_wlp (h : MiHdr) (b : MiBlk) (y uv : Nat) (sizes : List (List Int)) :
    (paletteInfo h b y uv sizes).Wlp L (fun _ => h.allowScreen = true → b.hasChroma = true → uv = 0 → 3 ≤ b.miSize →
      ∀ d, sizeDims b.miSize = some d → 64 < max d.1 d.2) := by
  unfold paletteInfo
  split
  · refine Rd.Wlp.bind (Rd.Wlp.lift fun w hw => ?_)
    refine Rd.Wlp.bind (Rd.Wlp.lift fun ht hh => ?_)
    split
    · unfold paletteModeInfo
      refine wlp_skip _ fun wl => wlp_skip _ fun hl => wlp_skip _ fun _ => ?_
      split
      · trivial
      · rename_i hx
        intro _ h1 h2
        exact absurd ⟨h1, h2⟩ hx
    · rename_i hx
      intro h1 _ _ _ d hd
      obtain ⟨-, gw⟩ := goGet_inv hw
      obtain ⟨-, gh⟩ := goGet_inv hh
      unfold sizeDims at hd
      simp only [Int.toNat_natCast] at gw gh
      rw [gw, gh] at hd
      cases hd
      have hx : ¬ (w ≤ 64 ∧ ht ≤ 64) := fun h' => hx ⟨h'.1, h'.2, h1⟩
      show 64 < max w ht
      omega
  · rename_i hx
    intro _ _ _ h3
    exact absurd h3 hx

/-- What a returning call of mode info leaves. -/
theorem intraInfo_wlp (h : MiHdr) (b : MiBlk) (ar : MiArr) (rd : Bool) (m : ModeInfo) :
    (intraFrameModeInfo h b ar rd m).Wlp L (fun m' => h.allowIntraBc = false ∧ m'.refFrame = (-1, m.refFrame.2) ∧ m'.isInter = 0 ∧
      (h.enableFilterIntra = true → m'.yMode = 0 → ∀ d, sizeDims b.miSize = some d → 32 < max d.1 d.2) ∧
      (h.allowScreen = true → b.hasChroma = true → m'.uvMode = 0 → 3 ≤ b.miSize → ∀ d, sizeDims b.miSize = some d → 64 < max d.1 d.2)) := by
  unfold intraFrameModeInfo
  refine wlp_skip _ fun s => wlp_skip _ fun cdef => wlp_skip _ fun q => wlp_skip _ fun lf => ?_
  split
  · trivial
  · rename_i hbc
    have hbc : h.allowIntraBc = false := by simpa using hbc
    unfold intraModes
    refine wlp_skip _ fun y => wlp_skip _ fun a => ?_
    refine Rd.Wlp.bind ((chromaModes_wlp _ h b _).mono fun m1 h1 => ?_)
    refine Rd.Wlp.bind ((palette_wlp h b _ _ _).mono fun _ h2 => ?_)
    refine Rd.Wlp.bind ((filterIntra_wlp h _ _).mono fun _ h3 => ?_)
    exact ⟨hbc, h1.1, h1.2.2, h3, h2⟩

/-- **C129, refuted (reference frames).**  AV1 gives every block of an intra frame the reference frames (intra, none) = (0, -1).  The decoder sets the first one
to -1 and leaves the second one as it was: no block of an intra frame is ever recorded as intra. -/
theorem C129_reference_refuted (h : MiHdr) (b : MiBlk) (ar : MiArr) (rd : Bool) (m m' : ModeInfo) (msg rest : List Nat)
    (e : (intraFrameModeInfo h b ar rd m).run L msg = .ok (m', rest)) : m'.refFrame = (-1, m.refFrame.2) ∧ m'.refFrame ≠ (0, -1) := by
  have := (intraInfo_wlp h b ar rd m).of_run e
  refine ⟨this.2.1, fun h' => ?_⟩
  rw [this.2.1] at h'
  cases h'

/-- **C129, refuted (chroma modes).**  Consequently the chroma mode of a block of an intra frame is never recorded. -/
theorem C129_uv_mode_refuted (h : MiHdr) (b : MiBlk) (ar : MiArr) (rd : Bool) (m m' : ModeInfo) (msg rest : List Nat)
    (e : (intraFrameModeInfo h b ar rd m).run L msg = .ok (m', rest)) (bh4 bw4 : Nat) (mv : (Int × Int) × (Int × Int)) (s s' : ModeRec)
    (es : storeModes b.miRow b.miCol bh4 bw4 b.hasChroma m'.refFrame m'.yMode m'.uvMode mv s = .ok s') : s'.uvModes = s.uvModes :=
  storeModes_uv_const (by rw [((intraInfo_wlp h b ar rd m).of_run e).2.1]; exact (show (-1 : Int) ≠ 0 by decide)) es

/-- **C129, refuted (filter intra, palettes, intra block copy).**  With filter intra enabled, a block of up to 32x32 with `DC_PRED` never gets through; with screen
content tools, neither does a block of 8x8 up to 64x64 whose chroma mode is `DC_PRED`; with intra block copy, no block does. -/
theorem C129_tools_refuted (h : MiHdr) (b : MiBlk) (ar : MiArr) (rd : Bool) (m m' : ModeInfo) (msg rest : List Nat)
    (e : (intraFrameModeInfo h b ar rd m).run L msg = .ok (m', rest)) {d : Nat × Nat} (hd : sizeDims b.miSize = some d) :
    h.allowIntraBc = false ∧ (h.enableFilterIntra = true → max d.1 d.2 ≤ 32 → m'.yMode ≠ 0) ∧
    (h.allowScreen = true → b.hasChroma = true → 3 ≤ b.miSize → max d.1 d.2 ≤ 64 → m'.uvMode ≠ 0) := by
  obtain ⟨h1, -, -, h4, h5⟩ := (intraInfo_wlp h b ar rd m).of_run e
  exact ⟨h1, fun a b' c => absurd (h4 a c d hd) (by omega), fun a b' c' d' e' => absurd (h5 a b' e' c' d hd) (by omega)⟩

example : ((intraFrameModeInfo { subX := 0, subY := 0 } {} {} false {}).run (cdfLayout 0) [0, 1, 2, 9]).toOption.map (fun p => (p.1.yMode, p.1.uvMode, p.1.refFrame, p.2)) =
    some (1, 2, (-1, 0), [9]) := by decide +kernel

/-! ## What holds -/

theorem Post.lift' {α : Type} {r : Res α} {a : α} (h : r = .ok a) {Q : α → Prop} (hq : Q a) : (Rd.lift r).Post L Q := by
  rw [h]; exact hq

theorem post_read {t : String} {idx : List Int} {n : Nat} (h : L.count t idx = some n) {Q : Nat → Prop} (hq : ∀ s < n, Q s) : (Rd.read t idx).Post L Q :=
  ⟨n, h, fun s hs => hq s hs⟩

theorem post_litLoop (n : Nat) : ∀ x, (Rd.litLoop n x).Post L (fun v => v < 2 ^ n * (x + 1)) := by
  induction n with
  | zero => intro x; show x < 2 ^ 0 * (x + 1); omega
  | succ n ih =>
    intro x s hs
    refine (ih (2 * x + s)).mono fun v hv => ?_
    rw [Nat.pow_succ]
    calc v < 2 ^ n * (2 * x + s + 1) := hv
      _ ≤ 2 ^ n * (2 * (x + 1)) := Nat.mul_le_mul_left _ (by omega)
      _ = _ := by rw [Nat.mul_assoc]

theorem post_lit (n : Nat) : (Rd.lit (n : Int)).Post L (fun v => v < 2 ^ n) := by
  have := post_litLoop (L := L) n 0
  simpa [Rd.lit] using this

theorem post_true_deltaAbs {p : Rd Nat} (hp : p.Post L (fun _ => True)) :
    (p >>= fun a => if a = 3 then do
        let rem ← Rd.lit 3
        let n := rem + 1
        let bits ← Rd.lit (n : Int)
        pure (bits + 2 ^ n + 1)
      else pure a).Post L (fun _ => True) := by
  refine Rd.Post.bind (hp.mono fun a _ => ?_)
  split
  · refine Rd.Post.bind ((post_lit 3).mono fun rem _ => ?_)
    exact Rd.Post.bind ((post_lit _).mono fun bits _ => trivial)
  · trivial

theorem post_deltaQ (k : Fin 4) (h : MiHdr) (miSize skip : Nat) (rd : Bool) (cur : Int) (hc : 1 ≤ cur ∧ cur ≤ 255) :
    (readDeltaQIndex h miSize skip rd cur).Post (cdfLayout k) (fun q => 1 ≤ q ∧ q ≤ 255) := by
  have i : ∀ k, cdfInfo k "DeltaQ" = some ([], .box [], 4) := by decide +kernel
  unfold readDeltaQIndex
  split
  · exact hc
  · split
    · refine Rd.Post.bind ((post_true_deltaAbs (post_read (count0 k (i k)) (fun _ _ => trivial))).mono fun a _ => ?_)
      split
      · refine Rd.Post.bind ((post_lit 1).mono fun s _ => ?_)
        show 1 ≤ clip3 1 255 _ ∧ clip3 1 255 _ ≤ 255
        rw [clip3_eq _ _ _ (by decide)]; omega
      · exact hc
    · exact hc

/-- Four loop filter deltas in range. -/
def MiLfOk (lf : List Int) : Prop := lf.length = 4 ∧ ∀ x ∈ lf, -63 ≤ x ∧ x ≤ 63

theorem post_deltaLfs (k : Fin 4) (h : MiHdr) (n : Nat) : ∀ (i : Nat) (lf : List Int), i + n ≤ 4 → MiLfOk lf →
    (readDeltaLfs h n i lf).Post (cdfLayout k) MiLfOk := by
  have i0 : ∀ k, cdfInfo k "DeltaLF" = some ([], .box [], 4) := by decide +kernel
  have i1 : ∀ k, cdfInfo k "DeltaLFMulti" = some ([4], .box [], 4) := by decide +kernel
  induction n with
  | zero => intro i lf _ hl; exact hl
  | succ n ih =>
    intro i lf hi hl
    refine Rd.Post.bind (Rd.Post.mono (Q := MiLfOk) ?_ fun lf' hl' => ih (i + 1) lf' (by omega) hl')
    have hsym : (deltaLfSym h.deltaLfMulti i).Post (cdfLayout k) (fun _ => True) := by
      unfold deltaLfSym
      split
      · exact post_read (count0 k (i0 k)) fun _ _ => trivial
      · refine post_read (n := 4) ?_ fun _ _ => trivial
        rw [count_eq k (i1 k)]
        have : (0 : Int) ≤ (i : Int) ∧ (i : Int) < 4 := by omega
        simp [stripPre, ravel, Dims.ravel, this]
    unfold readDeltaLfOne
    refine Rd.Post.bind ((post_true_deltaAbs hsym).mono fun a _ => ?_)
    split
    · refine Rd.Post.bind ((post_lit 1).mono fun s _ => ?_)
      have hlt : i < lf.length := by rw [hl.1]; omega
      refine Rd.Post.bind (Post.lift' (goGet_of' (List.getElem?_eq_getElem hlt)) ?_)
      refine Post.lift' (goSet_lt' _ hlt) ⟨by rw [List.length_set]; exact hl.1, fun x hx => ?_⟩
      rcases List.mem_or_eq_of_mem_set hx with hx | rfl
      · exact hl.2 x hx
      · rw [clip3_eq _ _ _ (by decide)]; omega
    · exact hl

theorem post_deltaLf (k : Fin 4) (h : MiHdr) (miSize skip : Nat) (rd : Bool) (lf : List Int) (hl : MiLfOk lf) :
    (readDeltaLf h miSize skip rd lf).Post (cdfLayout k) MiLfOk := by
  unfold readDeltaLf
  split
  · exact hl
  · split
    · exact post_deltaLfs k h _ 0 lf (by unfold frameLfCount; split <;> (try split) <;> omega) hl
    · exact hl

/-- The modes of earlier blocks next to this one are intra modes, and their recorded skip modes are 0. -/
structure IntraNbs (b : MiBlk) (ar : MiArr) : Prop where
  row : b.availU = true → 1 ≤ b.miRow
  col : b.availL = true → 1 ≤ b.miCol
  yU : ∃ o, NbVal b.availU ar.yModes (b.miRow - 1) b.miCol o ∧ ∀ m ∈ o, m < 13
  yL : ∃ o, NbVal b.availL ar.yModes b.miRow (b.miCol - 1) o ∧ ∀ m ∈ o, m < 13
  sU : ∃ o, NbVal b.availU ar.skipModes (b.miRow - 1) b.miCol o ∧ o.getD 0 = 0
  sL : ∃ o, NbVal b.availL ar.skipModes b.miRow (b.miCol - 1) o ∧ o.getD 0 = 0

/-- Ranges of the mode info of a block of an intra frame. -/
structure InfoOk (m : ModeInfo) : Prop where
  skip : m.skip < 2
  seg : m.segmentId = 0
  q : 1 ≤ m.curQ ∧ m.curQ ≤ 255
  lf : MiLfOk m.deltaLF
  inter : m.isInter = 0
  y : m.yMode < 13
  ay : -3 ≤ m.angleY ∧ m.angleY ≤ 3
  uv : m.uvMode < 14
  cfl : -16 ≤ m.cflU ∧ m.cflU ≤ 16 ∧ -16 ≤ m.cflV ∧ m.cflV ≤ 16
  auv : -3 ≤ m.angleUV ∧ m.angleUV ≤ 3

theorem post_angle (k : Fin 4) {miSize mode : Nat} : (intraAngleInfo miSize mode).Post (cdfLayout k) (fun a => -3 ≤ a ∧ a ≤ 3) := by
  have i : ∀ k, cdfInfo k "AngleDelta" = some ([], .box [8], 7) := by decide +kernel
  unfold intraAngleInfo
  split
  · split
    · rename_i h1 h2
      have : 1 ≤ mode ∧ mode ≤ 8 := by simpa [isDirectionalMode] using h2
      refine Rd.Post.bind (post_read (count1 k (i k) (by omega)) fun a ha => ?_)
      show -3 ≤ (a : Int) - 3 ∧ (a : Int) - 3 ≤ 3
      omega
    · exact ⟨by decide, by decide⟩
  · exact ⟨by decide, by decide⟩

theorem post_alpha (k : Fin 4) {s o : Nat} (hs : s < 3) (ho : o < 3) : (readCflAlpha s o).Post (cdfLayout k) (fun a => -16 ≤ a ∧ a ≤ 16) := by
  have i : ∀ k, cdfInfo k "CflAlpha" = some ([], .box [6], 16) := by decide +kernel
  unfold readCflAlpha
  split
  · refine Rd.Post.bind (post_read (count1 k (i k) (by omega)) fun a ha => ?_)
    show -16 ≤ (if s = 2 then -(1 + (a : Int)) else 1 + (a : Int)) ∧ (if s = 2 then -(1 + (a : Int)) else 1 + (a : Int)) ≤ 16
    split <;> omega
  · exact ⟨by decide, by decide⟩

theorem post_cfl (k : Fin 4) {uv : Nat} {u v : Int} (h : -16 ≤ u ∧ u ≤ 16 ∧ -16 ≤ v ∧ v ≤ 16) :
    (cflIfUsed uv u v).Post (cdfLayout k) (fun c => -16 ≤ c.1 ∧ c.1 ≤ 16 ∧ -16 ≤ c.2 ∧ c.2 ≤ 16) := by
  have i : ∀ k, cdfInfo k "CflSign" = some ([], .box [], 8) := by decide +kernel
  unfold cflIfUsed
  split
  · unfold readCflAlphas
    refine Rd.Post.bind (post_read (count0 k (i k)) fun s hs => ?_)
    refine Rd.Post.bind ((post_alpha k (by omega) (by omega)).mono fun a ha => ?_)
    refine Rd.Post.bind ((post_alpha k (by omega) (by omega)).mono fun c hc => ?_)
    exact ⟨ha.1, ha.2, hc⟩
  · exact h

theorem post_uv (k : Fin 4) (lim : Nat → Bool) {h : MiHdr} (hsx : h.subX < 2) (hsy : h.subY < 2) {miSize : Nat} (hm : miSize < 22) (lossless : Bool) {y : Nat} (hy : y < 13) :
    (readUvMode lim h miSize lossless y).Post (cdfLayout k) (fun uv => uv < 14) := by
  have i1 : ∀ k, cdfInfo k "UVModeCflAllowed" = some ([], .box [13], 14) := by decide +kernel
  have i2 : ∀ k, cdfInfo k "UVModeCflNotAllowed" = some ([], .box [13], 13) := by decide +kernel
  have ha : ∃ a, cflAllowed lim h miSize lossless = .ok a := by
    unfold cflAllowed
    cases lossless
    · have t : ∀ m : Fin 22, blockWidth[m.val]?.isSome ∧ blockHeight[m.val]?.isSome := by decide
      obtain ⟨t1, t2⟩ := t ⟨miSize, hm⟩
      obtain ⟨w, hw⟩ := Option.isSome_iff_exists.mp t1
      obtain ⟨ht, hh⟩ := Option.isSome_iff_exists.mp t2
      rw [if_neg (by decide), goGet_of' hw, Res.ok_bind, goGet_of' hh, Res.ok_bind]
      exact ⟨_, rfl⟩
    · have t : ∀ m : Fin 22, ∀ sx sy : Fin 2, (match getPlaneResidualSize sx sy m.val 1 with | .ok _ => true | _ => false) = true := by decide
      have t := t ⟨miSize, hm⟩ ⟨h.subX, hsx⟩ ⟨h.subY, hsy⟩
      dsimp only at t
      rw [if_pos rfl]
      split at t
      · rename_i s e
        rw [e]
        exact ⟨_, rfl⟩
      · cases t
  obtain ⟨a, ha⟩ := ha
  unfold readUvMode
  refine Rd.Post.bind (Post.lift' ha ?_)
  split
  · exact post_read (count1 k (i1 k) (by omega)) fun s hs => hs
  · exact post_read (count1 k (i2 k) (by omega)) fun s hs => by omega

/-- **C129, what holds.**  In a frame without segmentation, CDEF, intra block copy, screen content tools and filter intra, mode info of every block whose
neighbours' records can be read never panics, whatever the symbols are, and leaves a skip flag, segment id 0, a quantizer index from 1 to 255, loop filter deltas
within 63, an intra luma mode, a chroma mode, angle deltas within 3 and alphas within 16. -/
theorem C129_total_partial (k : Fin 4) (h : MiHdr) (hsx : h.subX < 2) (hsy : h.subY < 2) (hseg : h.segEnabled = false) (hpre : h.segIdPreSkip < 2) (hll : 0 < h.losslessArray.length)
    (hcd : h.enableCdef = false) (hbc : h.allowIntraBc = false) (hsc : h.allowScreen = false) (hfi : h.enableFilterIntra = false)
    {b : MiBlk} (hm : b.miSize < 22) {ar : MiArr} (hn : IntraNbs b ar) (rd : Bool) {m : ModeInfo} (hmo : InfoOk m) :
    (intraFrameModeInfo h b ar rd m).Post (cdfLayout k) InfoOk := by
  have isk : ∀ k, cdfInfo k "Skip" = some ([], .box [3], 2) := by decide +kernel
  obtain ⟨sU, hsU, zU⟩ := hn.sU
  obtain ⟨sL, hsL, zL⟩ := hn.sL
  obtain ⟨yU, hyU, mU⟩ := hn.yU
  obtain ⟨yL, hyL, mL⟩ := hn.yL
  have hskip : ∀ id, (readSkip h b ar.skipModes id).Post (cdfLayout k) (fun s => s < 2) := by
    intro id
    rw [readSkip_eq h hsU hsL hn.row hn.col id (by
      unfold skipBySegment miSegFeature
      rw [hseg]; split <;> rfl), zU, zL]
    exact post_read (count1 k (isk k) (by decide)) fun s hs => hs
  have hid : ∀ sk, (intraSegmentId h b ar.segIds sk).Post (cdfLayout k) (fun s => s.1 = 0) := by
    intro sk
    unfold intraSegmentId segIdIfEnabled
    rw [hseg, if_neg (by decide)]
    exact Rd.Post.bind (p := Rd.lift (goGet h.losslessArray 0)) (Post.lift' (goGet_of' (List.getElem?_eq_getElem hll)) (by exact rfl))
  have hseg2 : (intraSegSkip h b ar m.segmentId m.lossless).Post (cdfLayout k) (fun s => s.1 < 2 ∧ s.2.1 = 0) := by
    unfold intraSegSkip
    split
    · refine Rd.Post.bind ((hid 0).mono fun s hs => ?_)
      exact Rd.Post.bind ((hskip _).mono fun sk hsk => ⟨hsk, hs⟩)
    · refine Rd.Post.bind ((hskip _).mono fun sk hsk => ?_)
      rw [if_pos (by omega)]
      exact Rd.Post.bind ((hid sk).mono fun s hs => ⟨hsk, hs⟩)
  unfold intraFrameModeInfo
  refine Rd.Post.bind (hseg2.mono fun s hs => ?_)
  have hcdef : readCdef (s.1 != 0 || h.codedLossless || !h.enableCdef || h.allowIntraBc) h.cdefBits b.miRow b.miCol b.miSize m.cdefIdx = Rd.ret m.cdefIdx := by
    unfold readCdef
    rw [hcd]; simp; rfl
  rw [hcdef]
  refine Rd.Post.bind (p := Rd.ret m.cdefIdx) ?_
  show Rd.Post _ _ _
  refine Rd.Post.bind ((post_deltaQ k h b.miSize s.1 rd m.curQ hmo.q).mono fun q hq => ?_)
  refine Rd.Post.bind ((post_deltaLf k h b.miSize s.1 rd m.deltaLF hmo.lf).mono fun lf hlf => ?_)
  rw [if_neg (by rw [hbc]; decide)]
  unfold intraModes
  have hy := (C123_y_mode k hyU hyL hn.row hn.col mU mL).1
  have iy : ∀ k, cdfInfo k "IntraFrameYMode" = some ([], .box [5, 5], 13) := by decide +kernel
  have cl : ∀ o, nbClass o < 5 := by
    intro o; unfold nbClass modeClass; split
    · split
      · decide
      · split
        · decide
        · split
          · decide
          · split <;> decide
    · decide
  have c1 := cl yU
  have c2 := cl yL
  rw [hy]
  refine Rd.Post.bind (post_read (count2 k (iy k) (by omega) (by omega)) fun y hy13 => ?_)
  refine Rd.Post.bind ((post_angle k).mono fun a ha => ?_)
  have hpal : ∀ y uv, paletteInfo h b y uv ar.palSizes = Rd.ret () := by
    intro y uv
    unfold paletteInfo
    split
    · have t : ∀ m : Fin 22, blockWidth[m.val]?.isSome ∧ blockHeight[m.val]?.isSome := by decide
      obtain ⟨t1, t2⟩ := t ⟨b.miSize, hm⟩
      obtain ⟨w, hw⟩ := Option.isSome_iff_exists.mp t1
      obtain ⟨ht, hh⟩ := Option.isSome_iff_exists.mp t2
      rw [goGet_of' hw, goGet_of' hh]
      show (if w ≤ 64 ∧ ht ≤ 64 ∧ h.allowScreen = true then _ else Rd.ret ()) = _
      rw [if_neg (by rw [hsc]; simp)]
    · rfl
  have hfil : ∀ y, filterIntraModeInfo h b.miSize y 0 = Rd.ret () := by
    intro y
    unfold filterIntraModeInfo
    rw [if_neg (by rw [hfi]; simp)]
    rfl
  have hfin : ∀ m1 : ModeInfo, InfoOk m1 → (paletteInfo h b m1.yMode m1.uvMode ar.palSizes >>= fun _ =>
      filterIntraModeInfo h b.miSize m1.yMode 0 >>= fun _ => (pure m1 : Rd ModeInfo)).Post (cdfLayout k) InfoOk := by
    intro m1 h1
    rw [hpal, hfil]
    exact h1
  refine Rd.Post.bind (Rd.Post.mono (Q := InfoOk) ?_ hfin)
  unfold chromaModes
  split
  · refine Rd.Post.bind ((post_uv k _ hsx hsy hm _ hy13).mono fun uv huv => ?_)
    refine Rd.Post.bind ((post_cfl k hmo.cfl).mono fun c hc => ?_)
    refine Rd.Post.bind ((post_angle k).mono fun a2 ha2 => ?_)
    exact ⟨hs.1, hs.2, hq, hlf, rfl, hy13, ha, huv, hc, ha2⟩
  · exact ⟨hs.1, hs.2, hq, hlf, rfl, hy13, ha, hmo.uv, hmo.cfl, hmo.auv⟩

example : IntraNbs { miRow := 1, miCol := 1, availU := true, availL := true } { yModes := [[0, 3], [12, 0]], skipModes := [[0, 0], [0, 0]] } where
  row := fun _ => by decide
  col := fun _ => by decide
  yU := ⟨some 3, ⟨3, by decide, rfl, rfl⟩, fun m hm => by cases hm; decide⟩
  yL := ⟨some 12, ⟨12, by decide, rfl, rfl⟩, fun m hm => by cases hm; decide⟩
  sU := ⟨some 0, ⟨0, by decide, rfl, rfl⟩, rfl⟩
  sL := ⟨some 0, ⟨0, by decide, rfl, rfl⟩, rfl⟩

end Gov1
