import Verif.Lemmas.Tiles
import Verif.Lemmas.Fuel
import Mathlib.Tactic.Ring
import Mathlib.Tactic.Linarith
import Mathlib.Tactic.ByContra
/-! # C26, C27, C28, C62, C63: tile layout -/
namespace Gov1
open Spec

/-- The tile column boundaries in force: entries `0 .. TileCols` of `MiColStarts`. -/
def Tiles.colBounds (t : Tiles) : List Nat := t.miColStarts.take (t.tileCols + 1)
/-- The tile row boundaries in force. -/
def Tiles.rowBounds (t : Tiles) : List Nat := t.miRowStarts.take (t.tileRows + 1)

/-- A division puts every unit in exactly one interval. -/
theorem divides_unique {bounds : List Nat} {total w : Nat} (h : Divides bounds total w) (x : Nat)
    (hx : x < total) : ∃ k, InTile bounds k x ∧ ∀ k', InTile bounds k' x → k' = k := by
  have hmono : ∀ i j, i < j → j < bounds.length → bounds.getD i 0 < bounds.getD j 0 := by
    intro i j hij hj
    have := List.pairwise_iff_getElem.mp h.increasing i j (by omega) hj hij
    simpa [List.getD, List.getElem?_eq_getElem, hj, show i < bounds.length by omega] using this
  have huniq : ∀ k k', InTile bounds k x → InTile bounds k' x → k' = k := by
    rintro k k' ⟨h1, h2, h3⟩ ⟨h4, h5, h6⟩
    rcases Nat.lt_trichotomy k k' with hl | hl | hl
    · exfalso
      rcases Nat.eq_or_lt_of_le (Nat.succ_le_of_lt hl) with he | he
      · rw [← he] at h5; simp only [Nat.succ_eq_add_one] at h5; omega
      · have := hmono (k + 1) k' he (by omega); omega
    · exact hl.symm
    · exfalso
      rcases Nat.eq_or_lt_of_le (Nat.succ_le_of_lt hl) with he | he
      · rw [← he] at h2; simp only [Nat.succ_eq_add_one] at h2; omega
      · have := hmono (k' + 1) k he (by omega); omega
  have hfirst : bounds.getD 0 0 = 0 := by
    have := h.first; rw [List.head?_eq_getElem?] at this; simp [List.getD, this]
  have hlast : bounds.getD (bounds.length - 1) 0 = total := by
    have := h.last; rw [List.getLast?_eq_getElem?] at this; simp [List.getD, this]
  have hex : ∀ n, n < bounds.length → x < bounds.getD n 0 → ∃ k, InTile bounds k x := by
    intro n
    induction n with
    | zero => intro _ h0; omega
    | succ n ih =>
      intro hn hxn
      rcases Nat.lt_or_ge x (bounds.getD n 0) with hl | hl
      · exact ih (by omega) hl
      · exact ⟨n, hn, hl, hxn⟩
  have hne : bounds ≠ [] := by intro he; rw [he] at h; have := h.first; simp at this
  have hlen : 0 < bounds.length := List.length_pos_iff.mpr hne
  obtain ⟨k, hk⟩ := hex (bounds.length - 1) (by omega) (by omega)
  exact ⟨k, hk, fun k' hk' => huniq k k' hk hk'⟩

theorem sb64 (mi x : Nat) : x < (mi + 15) >>> 4 ↔ x <<< 4 < mi := by
  simp only [Nat.shiftLeft_eq, Nat.shiftRight_eq_div_pow]; omega

theorem ceil_pos {sb k : Nat} (h : 0 < sb) : 1 ≤ (sb + (1 <<< k) - 1) >>> k := by
  rw [Nat.shiftRight_eq_div_pow, Nat.one_shiftLeft]
  have := Nat.two_pow_pos k
  rw [Nat.le_div_iff_mul_le this]; omega

theorem ceil_le {sb k m : Nat} (h : sb ≤ m * 2 ^ k) : (sb + (1 <<< k) - 1) >>> k ≤ m := by
  rw [Nat.shiftRight_eq_div_pow, Nat.one_shiftLeft]
  have := Nat.two_pow_pos k
  have h2 : (sb + 2 ^ k - 1) / 2 ^ k < m + 1 := by
    rw [Nat.div_lt_iff_lt_mul this, Nat.add_mul]; omega
  omega

theorem ceil_spec {sb k : Nat} : sb ≤ (sb + (1 <<< k) - 1) >>> k * 2 ^ k := by
  rw [Nat.shiftRight_eq_div_pow, Nat.one_shiftLeft]
  have hp := Nat.two_pow_pos k
  have h1 := Nat.div_add_mod (sb + 2 ^ k - 1) (2 ^ k)
  have h2 := Nat.mod_lt (sb + 2 ^ k - 1) hp
  rw [Nat.mul_comm] at h1
  generalize (sb + 2 ^ k - 1) / 2 ^ k * 2 ^ k = A at *
  omega

theorem tileLog2_nat (b t : Nat) (hb : 1 ≤ b) :
    ∃ k, tileLog2 (b : Int) (t : Int) = .ok k ∧ t ≤ b * 2 ^ k ∧ ∀ j, t ≤ b * 2 ^ j → k ≤ j := by
  obtain ⟨k, h1, h2, h3⟩ := C09_tileLog2_least b t (by omega)
  exact ⟨k, h1, by exact_mod_cast h2, fun j hj => h3 j (by exact_mod_cast hj)⟩

/-- incLoop reads at most `k` bits and adds at most `k`. -/
theorem incLoop_good (k v : Nat) : Good (incLoop k v) k (fun r => v ≤ r ∧ r ≤ v + k) := by
  induction k generalizing v with
  | zero => exact Good.pure ⟨Nat.le_refl _, Nat.le_refl _⟩ _
  | succ k ih =>
    unfold incLoop
    refine Good.bind' 1 k Good.flag (fun b _ => ?_) (by omega)
    refine Good.ite (fun _ => (ih (v + 1)).mono (Nat.le_refl _) fun r hr => by omega)
      (fun _ => Good.pure (by omega) _)

theorem startsLoop_done {sb shift w M total : Nat} (hw : 1 ≤ w) (hM : w ≤ M) (hpos : 0 < total)
    (hsb : ∀ x, x < sb ↔ x <<< shift < total) :
    ∃ i starts starts', startsLoop sb shift w (sb + 1) 0 0 (List.replicate (sb + 1) 0) = .ok (i, starts) ∧
      goSet starts (i : Int) total = .ok starts' ∧ starts'.length = sb + 1 ∧
      Divides (starts'.take (i + 1)) total (M <<< shift) ∧ (1 ≤ i ∧ i ≤ sb) ∧ (i - 1) * w < sb := by
  obtain ⟨i, starts, e, h1, h2, h3, h4, h5, h6, h7⟩ :=
    startsLoop_inv hw hM (sb + 1) 0 0 _ (TileInv.init sb shift M) (Nat.zero_le _) (by omega)
  have hsb0 : 0 < sb := (hsb 0).mpr (by simpa using hpos)
  have hi : 0 < i := by
    rcases Nat.eq_zero_or_pos i with h | h
    · subst h; simp at h5; omega
    · exact h
  refine ⟨i, starts, starts.set i total, h1, ?_, by simp [h2.len], h2.divides h4 h3 hpos hsb, ⟨hi, h4⟩, ?_⟩
  · rw [goSet_nat, if_pos (by rw [h2.len]; omega)]
  · have := h7 hi; simpa using this

/-- The limits computed before the tile sizes are read (64x64 superblocks). -/
theorem tile_limits (miCols miRows : Nat) (hc : 1 ≤ miCols) (hc' : miCols ≤ 16384)
    (hr : 1 ≤ miRows) (hr' : miRows ≤ 16384) :
    ∃ a b c d : Nat,
      tileLog2 ((4096 >>> 6 : Nat) : Int) ((miCols + 15) >>> 4 : Nat) = .ok a ∧
      tileLog2 1 (min ((miCols + 15) >>> 4) 64 : Nat) = .ok b ∧
      tileLog2 1 (min ((miRows + 15) >>> 4) 64 : Nat) = .ok c ∧
      tileLog2 (((4096 * 2304) >>> 12 : Nat) : Int) ((miRows + 15) >>> 4 * ((miCols + 15) >>> 4) : Nat)
        = .ok d ∧
      (miCols + 15) >>> 4 ≤ 64 * 2 ^ a ∧ a ≤ b ∧ b ≤ 6 ∧ c ≤ 6 ∧ a ≤ 4 ∧
      (∀ x, a ≤ x → max a d - x ≤ c) ∧
      ((miCols + 15) >>> 4 ≤ 64 → a = 0) ∧
      (∀ j, (miRows + 15) >>> 4 * ((miCols + 15) >>> 4) ≤ 2304 * 2 ^ j → d ≤ j) := by
  obtain ⟨a, ha, ha1, ha2⟩ := tileLog2_nat 64 ((miCols + 15) >>> 4) (by omega)
  obtain ⟨b, hb, hb1, hb2⟩ := tileLog2_nat 1 (min ((miCols + 15) >>> 4) 64) (by omega)
  obtain ⟨c, hcc, hc1, hc2⟩ := tileLog2_nat 1 (min ((miRows + 15) >>> 4) 64) (by omega)
  obtain ⟨d, hd, hd1, hd2⟩ := tileLog2_nat 2304 ((miRows + 15) >>> 4 * ((miCols + 15) >>> 4)) (by omega)
  have hsc : (miCols + 15) >>> 4 ≤ 1024 := by rw [Nat.shiftRight_eq_div_pow]; omega
  have hsr : (miRows + 15) >>> 4 ≤ 1024 := by rw [Nat.shiftRight_eq_div_pow]; omega
  generalize (miCols + 15) >>> 4 = C at *
  generalize (miRows + 15) >>> 4 = R at *
  have ha4 : a ≤ 4 := ha2 4 (by omega)
  have hb6 : b ≤ 6 := hb2 6 (by omega)
  have hc6 : c ≤ 6 := hc2 6 (by omega)
  refine ⟨a, b, c, d, ha, hb, hcc, hd, ha1, ?_, hb6, hc6, ha4, ?_, fun h => ?_, hd2⟩
  · rcases Nat.lt_or_ge 64 C with h | h
    · have : 64 ≤ 1 * 2 ^ b := by omega
      have : 6 ≤ b := by
        by_contra hlt
        have : 2 ^ b ≤ 2 ^ 5 := Nat.pow_le_pow_right (by omega) (by omega)
        omega
      omega
    · have := ha2 0 (by omega); omega
  · intro x hx
    have : d ≤ x + c := by
      apply hd2
      have h1 : C ≤ 64 * 2 ^ x :=
        Nat.le_trans ha1 (Nat.mul_le_mul_left _ (Nat.pow_le_pow_right (by omega) hx))
      have h2 : R ≤ 36 * 2 ^ c := by
        rcases Nat.lt_or_ge 64 R with h | h
        · omega
        · omega
      calc R * C ≤ (36 * 2 ^ c) * (64 * 2 ^ x) := Nat.mul_le_mul h2 h1
        _ = 2304 * 2 ^ (x + c) := by rw [Nat.pow_add]; ring
    omega
  · have := ha2 0 (by omega); omega

theorem decLoop_le {fuel bound v : Nat} (h : v ≤ bound) : decLoop fuel bound v = pure v := by
  unfold decLoop; rw [if_neg (by omega)]

/-- Tile counts and boundaries produced by the uniform branch. -/
theorem uniformTiles_good {sbCols sbRows a b c d miCols miRows : Nat}
    (hsc : sbCols = (miCols + 15) >>> 4) (hsr : sbRows = (miRows + 15) >>> 4)
    (hC : 1 ≤ miCols) (hR : 1 ≤ miRows) (hR' : miRows ≤ 16384)
    (ha : sbCols ≤ 64 * 2 ^ a) (hab : a ≤ b) (hb : b ≤ 6) (hc : c ≤ 6)
    (hd : ∀ x, a ≤ x → max a d - x ≤ c) :
    Good (uniformTiles 4 sbCols sbRows a b c (max a d) miCols miRows) (b - a)
      (fun r => (Divides (r.1.take (r.2.1 + 1)) miCols 1024 ∧ r.1.length = sbCols + 1) ∧
        (Divides (r.2.2.2.1.take (r.2.2.2.2.1 + 1)) miRows 16384 ∧ r.2.2.2.1.length = sbRows + 1) ∧
        (r.2.1 ≤ 2 ^ r.2.2.1 ∧ a ≤ r.2.2.1 ∧ r.2.2.1 ≤ b) ∧
        (r.2.2.2.2.1 ≤ 2 ^ r.2.2.2.2.2 ∧ r.2.2.2.2.2 ≤ 6 ∧
          r.2.2.2.2.2 = max a d - r.2.2.1) ∧ (r.2.1 ≤ sbCols ∧ r.2.2.2.2.1 ≤ sbRows)) := by
  have hsbc : ∀ x, x < sbCols ↔ x <<< 4 < miCols := fun x => hsc ▸ sb64 miCols x
  have hsbr : ∀ x, x < sbRows ↔ x <<< 4 < miRows := fun x => hsr ▸ sb64 miRows x
  have hc0 : 0 < sbCols := (hsbc 0).mpr (by simp; omega)
  have hr0 : 0 < sbRows := (hsbr 0).mpr (by simp; omega)
  have hrle : sbRows ≤ 1024 := by rw [hsr, Nat.shiftRight_eq_div_pow]; omega
  have count : ∀ {sb k i : Nat}, (i - 1) * ((sb + (1 <<< k) - 1) >>> k) < sb → i ≤ 2 ^ k := by
    intro sb k i h
    have h1 : sb ≤ (sb + (1 <<< k) - 1) >>> k * 2 ^ k := ceil_spec
    generalize (sb + (1 <<< k) - 1) >>> k = w at *
    by_contra hlt
    have h2 : 2 ^ k ≤ i - 1 := by omega
    have : w * 2 ^ k ≤ (i - 1) * w := by rw [Nat.mul_comm]; exact Nat.mul_le_mul_right _ h2
    omega
  unfold uniformTiles
  refine Good.bind' (b - a) 0 (incLoop_good (b - a) a) (fun k hk => ?_) (by omega)
  obtain ⟨hk1, hk2⟩ := hk
  have hw : (sbCols + (1 <<< k) - 1) >>> k ≤ 64 :=
    ceil_le (Nat.le_trans ha (Nat.mul_le_mul_left _ (Nat.pow_le_pow_right (by omega) hk1)))
  obtain ⟨i, st, st', e1, e2, e3, e4, e5, e6⟩ :=
    startsLoop_done (ceil_pos (k := k) hc0) hw (by omega : 0 < miCols) hsbc
  simp only [e1, BM.lift_ok, BM.pure_bind, e2]
  have hdec : (fun s : BitStream => decLoop (8 * s.data.length + 1) c (max a d - k) s)
      = (pure (max a d - k) : BM Nat) := by
    funext s; rw [decLoop_le (hd k hk1)]
  simp only [hdec, BM.pure_bind]
  have hdk := hd k hk1
  generalize hq : max a d - k = q at *
  have hw2 : (sbRows + (1 <<< q) - 1) >>> q ≤ 1024 :=
    ceil_le (Nat.le_trans hrle (by have := Nat.two_pow_pos q; omega))
  obtain ⟨j, rt, rt', f1, f2, f3, f4, f5, f6⟩ :=
    startsLoop_done (ceil_pos (k := q) hr0) hw2 (by omega : 0 < miRows) hsbr
  simp only [f1, BM.lift_ok, BM.pure_bind, f2]
  refine Good.pure ?_ _
  dsimp only
  exact ⟨⟨e4, e3⟩, ⟨f4, f3⟩, ⟨count e6, hk1, by omega⟩,
    ⟨count f6, by omega, hq.symm⟩, e5.2, f5.2⟩

/-- Tile counts and boundaries produced by the branch with explicit sizes. -/
theorem explicitTiles_good {sbCols sbRows mlt miCols miRows : Nat}
    (hsc : sbCols = (miCols + 15) >>> 4) (hsr : sbRows = (miRows + 15) >>> 4)
    (hC : 1 ≤ miCols) (hR : 1 ≤ miRows) (hC' : miCols ≤ 16384) (hR' : miRows ≤ 16384) :
    Good (explicitTiles 4 sbCols sbRows 64 mlt miCols miRows) 28700
      (fun r => (Divides (r.1.take (r.2.1 + 1)) miCols 1024 ∧ r.1.length = sbCols + 1) ∧
        (Divides (r.2.2.2.1.take (r.2.2.2.2.1 + 1)) miRows (16 * (sbRows * sbCols + 1)) ∧
          r.2.2.2.1.length = sbRows + 1) ∧
        (r.2.1 ≤ sbCols ∧ r.2.1 ≤ 2 ^ r.2.2.1 ∧ ∀ k, r.2.1 ≤ 2 ^ k → r.2.2.1 ≤ k) ∧
        (r.2.2.2.2.1 ≤ sbRows ∧ r.2.2.2.2.1 ≤ 2 ^ r.2.2.2.2.2 ∧ ∀ k, r.2.2.2.2.1 ≤ 2 ^ k → r.2.2.2.2.2 ≤ k)) := by
  have hsbc : ∀ x, x < sbCols ↔ x <<< 4 < miCols := fun x => hsc ▸ sb64 miCols x
  have hsbr : ∀ x, x < sbRows ↔ x <<< 4 < miRows := fun x => hsr ▸ sb64 miRows x
  have hc0 : 0 < sbCols := (hsbc 0).mpr (by simp; omega)
  have hr0 : 0 < sbRows := (hsbr 0).mpr (by simp; omega)
  have hsc' : sbCols ≤ 1024 := by rw [hsc, Nat.shiftRight_eq_div_pow]; omega
  have hsr' : sbRows ≤ 1024 := by rw [hsr, Nat.shiftRight_eq_div_pow]; omega
  have hbits : (sbCols + 1) * (Nat.log2 64 + 1) + (sbRows + 1) * (Nat.log2 (sbRows * sbCols + 1) + 1) ≤ 28700 := by
    have e1 : Nat.log2 64 = 6 := by decide
    have e2 : Nat.log2 (sbRows * sbCols + 1) < 21 := by
      rw [Nat.log2_lt (by omega)]
      have := Nat.mul_le_mul hsr' hsc'
      omega
    have e3 : (sbRows + 1) * (Nat.log2 (sbRows * sbCols + 1) + 1) ≤ 1025 * 21 :=
      Nat.mul_le_mul (by omega) (by omega)
    rw [e1]
    omega
  unfold explicitTiles
  have hI := sizesLoop_inv (sb := sbCols) (shift := 4) (M := 64) (by omega) (sbCols + 1) 0 0 0 _
    (TileInv.init sbCols 4 64) (by omega) (by omega)
  refine Good.bind' _ _ hI (fun r hr => ?_) hbits
  obtain ⟨i, st, widest⟩ := r
  obtain ⟨h1, h2, -, h3⟩ := hr
  dsimp only at h1 h2 h3 ⊢
  have hil : i < st.length := by rw [h1.len]; omega
  rw [goSet_nat, if_pos hil]
  dsimp only [BM.lift_ok]
  rw [BM.pure_bind]
  obtain ⟨cl, g1, g2, g3⟩ := tileLog2_nat 1 i (by omega)
  rw [show ((1 : Nat) : Int) = 1 from rfl] at g1
  rw [g1]
  dsimp only [BM.lift_ok]
  rw [BM.pure_bind]
  have hwid := h3 hc0
  rw [if_neg (by omega)]
  have hArea : (if mlt > 0 then (sbRows * sbCols) >>> (mlt + 1) else sbRows * sbCols) ≤ sbRows * sbCols := by
    split
    · rw [Nat.shiftRight_eq_div_pow]; exact Nat.div_le_self _ _
    · exact Nat.le_refl _
  generalize (if mlt > 0 then (sbRows * sbCols) >>> (mlt + 1) else sbRows * sbCols) = A at *
  have hH : max (A / widest) 1 ≤ sbRows * sbCols + 1 := by
    have := Nat.div_le_self A widest; omega
  have hlog : Nat.log2 (max (A / widest) 1) ≤ Nat.log2 (sbRows * sbCols + 1) := by
    rw [Nat.le_log2 (by omega)]
    exact Nat.le_trans (Nat.log2_self_le (by omega)) hH
  have hI2 := sizesLoop_inv (sb := sbRows) (shift := 4) (M := max (A / widest) 1) (by omega)
    (sbRows + 1) 0 0 0 _ (TileInv.init sbRows 4 _) (by omega) (by omega)
  refine Good.bind' ((sbRows + 1) * (Nat.log2 (max (A / widest) 1) + 1)) 0 hI2 (fun r hr => ?_)
    (Nat.mul_le_mul_left _ (by omega))
  obtain ⟨j, rt, wd⟩ := r
  obtain ⟨k1, k2, -, -⟩ := hr
  dsimp only at k1 k2 ⊢
  have hjl : j < rt.length := by rw [k1.len]; omega
  rw [goSet_nat, if_pos hjl]
  dsimp only [BM.lift_ok]
  rw [BM.pure_bind]
  obtain ⟨rl, m1, m2, m3⟩ := tileLog2_nat 1 j (by omega)
  rw [show ((1 : Nat) : Int) = 1 from rfl] at m1
  rw [m1]
  dsimp only [BM.lift_ok]
  rw [BM.pure_bind]
  have hD := k1.divides k2 (Nat.le_refl _) (by omega) hsbr
  refine Good.pure ?_ _
  dsimp only
  refine ⟨⟨h1.divides h2 (Nat.le_refl _) (by omega) hsbc, by simp [h1.len]⟩,
    ⟨⟨hD.first, hD.last, hD.increasing, fun q hq => ?_⟩, by simp [k1.len]⟩,
    ⟨h2, by omega, fun k hk => g3 k (by omega)⟩, k2, by omega, fun k hk => m3 k (by omega)⟩
  refine Nat.le_trans (hD.width q hq) (Nat.add_le_add_left ?_ _)
  rw [Nat.shiftLeft_eq]; omega

/-- A flag whose bit is known. -/
theorem flag_bind {β : Type} {b : Bool} {rest : List Bool} {s : BitStream} (h : unread s = b :: rest)
    (k : Bool → BM β) : (flag >>= k) s = k b (s.advance 1) := by
  have := Reads.flag b s rest (by simpa [Spec.bit] using h)
  rw [BM.bind_ok this]; simp [Spec.bit]

/-- The part of `newTileInfo` after the mode flag, for 64x64 superblocks. -/
theorem newTileInfo_mode (miCols miRows old : Nat) (hc : 1 ≤ miCols) (hc' : miCols ≤ 16384)
    (hr : 1 ≤ miRows) (hr' : miRows ≤ 16384) :
    ∃ a b c d : Nat,
      ((miCols + 15) >>> 4 ≤ 64 * 2 ^ a ∧ a ≤ b ∧ b ≤ 6 ∧ c ≤ 6 ∧ a ≤ 4 ∧
        (∀ x, a ≤ x → max a d - x ≤ c) ∧ ((miCols + 15) >>> 4 ≤ 64 → a = 0) ∧
        (∀ j, (miRows + 15) >>> 4 * ((miCols + 15) >>> 4) ≤ 2304 * 2 ^ j → d ≤ j)) ∧
      ∀ (s : BitStream) (u : Bool) (rest : List Bool), unread s = u :: rest →
      newTileInfo false miCols miRows old s =
        ((if u then uniformTiles 4 ((miCols + 15) >>> 4) ((miRows + 15) >>> 4) a b c (max a d) miCols miRows
          else explicitTiles 4 ((miCols + 15) >>> 4) ((miRows + 15) >>> 4) 64 (max a d) miCols miRows)
        >>= fun r => if r.2.2.1 > 0 ∨ r.2.2.2.2.2 > 0 then do
            let id ← F (r.2.2.2.2.2 + r.2.2.1)
            let b ← F 2
            pure ⟨r.1, r.2.2.2.1, r.2.1, r.2.2.2.2.1, r.2.2.1, r.2.2.2.2.2, b + 1, id⟩
          else pure ⟨r.1, r.2.2.2.1, r.2.1, r.2.2.2.2.1, r.2.2.1, r.2.2.2.2.2, old, 0⟩)
        (s.advance 1) := by
  obtain ⟨a, b, c, d, h1, h2, h3, h4, h5⟩ := tile_limits miCols miRows hc hc' hr hr'
  refine ⟨a, b, c, d, h5, fun s u rest hu => ?_⟩
  have e1 : tileLog2 (64 : Nat) ((miCols + 15) >>> 4 : Nat) = .ok a := h1
  have e4 : tileLog2 (2304 : Nat) ((miRows + 15) >>> 4 * ((miCols + 15) >>> 4) : Nat) = .ok d := h4
  unfold newTileInfo
  simp only [tileSbCols, tileSbRows, tileSbShift, Bool.false_eq_true, if_false,
    show 4096 >>> (4 + 2) = 64 from rfl, show (4096 * 2304) >>> (2 * (4 + 2)) = 2304 from rfl,
    e1, h2, h3, e4, BM.lift_ok, BM.pure_bind]
  rw [flag_bind hu]

/-- The tail of `newTileInfo`: tile id and size length. -/
theorem tail_good {P : Tiles → Prop} {n old : Nat} (r : List Nat × Nat × Nat × List Nat × Nat × Nat)
    (hc : r.2.2.1 + r.2.2.2.2.2 ≤ n)
    (h : ∀ id bs, P ⟨r.1, r.2.2.2.1, r.2.1, r.2.2.2.2.1, r.2.2.1, r.2.2.2.2.2, bs, id⟩) :
    Good (if r.2.2.1 > 0 ∨ r.2.2.2.2.2 > 0 then do
            let id ← F (r.2.2.2.2.2 + r.2.2.1)
            let b ← F 2
            pure (⟨r.1, r.2.2.2.1, r.2.1, r.2.2.2.2.1, r.2.2.1, r.2.2.2.2.2, b + 1, id⟩ : Tiles)
          else pure ⟨r.1, r.2.2.2.1, r.2.1, r.2.2.2.2.1, r.2.2.1, r.2.2.2.2.2, old, 0⟩) (n + 2) P := by
  refine Good.ite (fun _ => ?_) fun _ => Good.pure (h _ _) _
  refine Good.bind' (r.2.2.2.2.2 + r.2.2.1) 2 (Good.F _) (fun id _ => ?_) (by omega)
  exact Good.bind' 2 0 (Good.F 2) (fun b _ => Good.pure (h _ _) _) (by omega)

/-- C26 (frames with 64x64 superblocks): with uniform spacing, on every stream with enough
bits the parser returns, and whenever it returns the tile columns and rows divide the frame exactly. -/
theorem C26_uniform_tiling (miCols miRows old : Nat) (hc : 1 ≤ miCols ∧ miCols ≤ 16384)
    (hr : 1 ≤ miRows ∧ miRows ≤ 16384) (s : BitStream) (rest : List Bool)
    (hs : unread s = true :: rest) :
    (21 ≤ rest.length → ∃ t s', newTileInfo false miCols miRows old s = .ok (t, s')) ∧
    ∀ t s', newTileInfo false miCols miRows old s = .ok (t, s') →
      Divides t.colBounds miCols 1024 ∧ Divides t.rowBounds miRows 16384 ∧
      ∀ x y, x < miCols → y < miRows →
        (∃ k, InTile t.colBounds k x ∧ ∀ k', InTile t.colBounds k' x → k' = k) ∧
        (∃ k, InTile t.rowBounds k y ∧ ∀ k', InTile t.rowBounds k' y → k' = k) := by
  obtain ⟨a, b, c, d, ⟨h1, h2, h3, h4, -, h5, -⟩, hm⟩ := newTileInfo_mode miCols miRows old hc.1 hc.2 hr.1 hr.2
  have hlen : (unread (s.advance 1)).length = rest.length := by rw [unread_advance, hs]; rfl
  rw [hm s true rest hs]
  simp only [if_true]
  have hG := Good.bind' (n := 21) 6 14 (Q := fun t => Divides t.colBounds miCols 1024 ∧
      Divides t.rowBounds miRows 16384)
    ((uniformTiles_good (d := d) rfl rfl hc.1 hr.1 hr.2 h1 h2 h3 h4 h5).mono (by omega) fun _ h => h)
    (fun r hr => tail_good (n := 12) (old := old) r (by omega) fun id bs => ⟨hr.1.1, hr.2.1.1⟩) (by omega)
  constructor
  · intro hl
    obtain ⟨t, k, -, e, -⟩ := hG.1 (s.advance 1) (by omega)
    exact ⟨t, _, e⟩
  · intro t s' e
    obtain ⟨g1, g2⟩ := hG.2 _ _ _ e
    exact ⟨g1, g2, fun x y hx hy => ⟨divides_unique g1 x hx, divides_unique g2 y hy⟩⟩

/-- C27 (frames with 64x64 superblocks): with explicit tile sizes, on every stream with
enough bits the parser returns, and whenever it returns the tile columns and rows divide the frame
exactly, no column being wider than 64 superblocks. -/
theorem C27_explicit_tiling (miCols miRows old : Nat) (hc : 1 ≤ miCols ∧ miCols ≤ 16384)
    (hr : 1 ≤ miRows ∧ miRows ≤ 16384) :
    ∀ (s : BitStream) (rest : List Bool), unread s = false :: rest →
    (28722 ≤ rest.length → ∃ t s', newTileInfo false miCols miRows old s = .ok (t, s')) ∧
    ∀ t s', newTileInfo false miCols miRows old s = .ok (t, s') →
      Divides t.colBounds miCols 1024 ∧ (∃ w, Divides t.rowBounds miRows w) ∧
      ∀ x y, x < miCols → y < miRows →
        (∃ k, InTile t.colBounds k x ∧ ∀ k', InTile t.colBounds k' x → k' = k) ∧
        (∃ k, InTile t.rowBounds k y ∧ ∀ k', InTile t.rowBounds k' y → k' = k) := by
  obtain ⟨a, b, c, d, -, hm⟩ := newTileInfo_mode miCols miRows old hc.1 hc.2 hr.1 hr.2
  have hE := explicitTiles_good (mlt := max a d) (rfl : (miCols + 15) >>> 4 = _)
    (rfl : (miRows + 15) >>> 4 = _) hc.1 hr.1 hc.2 hr.2
  have hpow : ∀ (i l : Nat), i ≤ 1024 → (∀ k, i ≤ 2 ^ k → l ≤ k) → l ≤ 10 := fun i l hi h => h 10 (by omega)
  intro s rest hs
  have hlen : (unread (s.advance 1)).length = rest.length := by rw [unread_advance, hs]; rfl
  rw [hm s false rest hs]
  simp only [Bool.false_eq_true, if_false]
  have hsc : (miCols + 15) >>> 4 ≤ 1024 := by rw [Nat.shiftRight_eq_div_pow]; omega
  have hsr : (miRows + 15) >>> 4 ≤ 1024 := by rw [Nat.shiftRight_eq_div_pow]; omega
  have hG := Good.bind' (n := 28722) 28700 22 (Q := fun t => Divides t.colBounds miCols 1024 ∧
      ∃ w, Divides t.rowBounds miRows w) hE
    (fun r hr => tail_good (n := 20) (old := old) r (by
      have := hpow _ _ (Nat.le_trans hr.2.2.1.1 hsc) hr.2.2.1.2.2
      have := hpow _ _ (Nat.le_trans hr.2.2.2.1 hsr) hr.2.2.2.2.2
      omega) fun id bs => ⟨hr.1.1, _, hr.2.1.1⟩) (by omega)
  constructor
  · intro hl
    obtain ⟨t, k, -, e, -⟩ := hG.1 (s.advance 1) (by omega)
    exact ⟨t, _, e⟩
  · intro t s' e
    obtain ⟨g1, w, g2⟩ := hG.2 _ _ _ e
    exact ⟨g1, ⟨w, g2⟩, fun x y hx hy => ⟨divides_unique g1 x hx, divides_unique g2 y hy⟩⟩

/-- C62: with uniform spacing (64x64 superblocks) there are at most 64 tile columns and rows, none
wider than 4096 luma samples (1024 units); the tile-group syntax sizes `TileColsLog2`,
`TileRowsLog2` are large enough to number all tiles. -/
theorem C62_uniform_limits (miCols miRows old : Nat) (hc : 1 ≤ miCols ∧ miCols ≤ 16384)
    (hr : 1 ≤ miRows ∧ miRows ≤ 16384) (s s' : BitStream) (rest : List Bool) (t : Tiles)
    (hs : unread s = true :: rest) (h : newTileInfo false miCols miRows old s = .ok (t, s')) :
    t.tileCols ≤ 64 ∧ t.tileRows ≤ 64 ∧ t.tileCols ≤ 2 ^ t.tileColsLog2 ∧
    t.tileRows ≤ 2 ^ t.tileRowsLog2 ∧
    ∀ i, i < t.tileCols → t.miColStarts.getD (i + 1) 0 ≤ t.miColStarts.getD i 0 + 1024 := by
  obtain ⟨a, b, c, d, ⟨h1, h2, h3, h4, -, h5, -⟩, hm⟩ := newTileInfo_mode miCols miRows old hc.1 hc.2 hr.1 hr.2
  rw [hm s true rest hs] at h
  simp only [if_true] at h
  have hG := Good.bind' (n := 21) 6 14
    (Q := fun t => (t.tileCols ≤ 2 ^ t.tileColsLog2 ∧ t.tileColsLog2 ≤ 6) ∧
      (t.tileRows ≤ 2 ^ t.tileRowsLog2 ∧ t.tileRowsLog2 ≤ 6) ∧
      Divides (t.miColStarts.take (t.tileCols + 1)) miCols 1024 ∧ t.tileCols < t.miColStarts.length)
    ((uniformTiles_good (d := d) rfl rfl hc.1 hr.1 hr.2 h1 h2 h3 h4 h5).mono (by omega) fun _ h => h)
    (fun r hr => tail_good (n := 12) (old := old) r (by omega) fun id bs =>
      ⟨⟨hr.2.2.1.1, by have := hr.2.2.1.2; dsimp only; omega⟩, ⟨hr.2.2.2.1.1, hr.2.2.2.1.2.1⟩, hr.1.1, by
        have h1 := hr.1.2
        have h2 := hr.2.2.2.2.1
        dsimp only
        omega⟩) (by omega)
  obtain ⟨g1, g2, g3, g4⟩ := hG.2 _ _ _ h
  have p64 : ∀ k, k ≤ 6 → 2 ^ k ≤ 64 := fun k hk => by
    have : 2 ^ k ≤ 2 ^ 6 := Nat.pow_le_pow_right (by omega) hk
    omega
  have := p64 _ g1.2
  have := p64 _ g2.2
  refine ⟨by omega, by omega, g1.1, g2.1, fun i hi => ?_⟩
  have hlen : (t.miColStarts.take (t.tileCols + 1)).length = t.tileCols + 1 := by simp; omega
  have := g3.width i (by omega)
  simpa [List.getD, List.getElem?_take, show i + 1 < t.tileCols + 1 by omega,
    show i < t.tileCols + 1 by omega] using this

/-! ## Streaming and termination of the tile info parser -/

theorem Streaming.incLoop (k v : Nat) : Streaming (Gov1.incLoop k v) := by
  induction k generalizing v with
  | zero => exact Streaming.pure _
  | succ k ih => unfold Gov1.incLoop; exact Streaming.bind Streaming.flag fun _ => Streaming.ite (ih _) (Streaming.pure _)

theorem Streaming.decLoop (fuel bound v : Nat) : Streaming (Gov1.decLoop fuel bound v) := by
  induction fuel generalizing v with
  | zero => unfold Gov1.decLoop; exact Streaming.ite (Streaming.fail _) (Streaming.pure _)
  | succ k ih =>
    unfold Gov1.decLoop
    exact Streaming.ite (Streaming.bind Streaming.flag fun _ => Streaming.ite (ih _) (Streaming.pure _)) (Streaming.pure _)

theorem decLoop_succ {bound v : Nat} (fuel : Nat) (h : v > bound) : decLoop (fuel + 1) bound v =
    (flag >>= fun inc => if inc then decLoop fuel bound (v + 1) else pure v) := by
  conv => lhs; unfold decLoop
  rw [if_pos h]

theorem decLoop_terminates : ∀ (fuel bound v : Nat) (s : BitStream), (unread s).length < fuel →
    decLoop fuel bound v s ≠ .error .hang := by
  intro fuel
  induction fuel with
  | zero => intro bound v s h; omega
  | succ fuel ih =>
    intro bound v s h
    by_cases hv : v > bound
    · intro hh
      rw [decLoop_succ fuel hv, BM.bind_apply] at hh
      cases hf : flag s with
      | error e => rw [hf] at hh; cases hh; exact Terminates.flag s hf
      | ok p =>
        obtain ⟨b, s1⟩ := p
        rw [hf] at hh
        have hu := flag_uses hf
        cases b
        · cases hh
        · exact ih bound (v + 1) s1 (by omega) hh
    · rw [decLoop_le (by omega)]; intro hh; cases hh

theorem decLoop_stable (bound : Nat) : ∀ (f v f' : Nat) (s : BitStream), f ≤ f' →
    decLoop f bound v s ≠ .error .hang → decLoop f' bound v s = decLoop f bound v s := by
  intro f
  induction f with
  | zero =>
    intro v f' s _ h
    by_cases hv : v > bound
    · exfalso; apply h; unfold decLoop; rw [if_pos hv]; rfl
    · unfold decLoop; rw [if_neg hv, if_neg hv]
  | succ f ih =>
    intro v f' s hf h
    obtain ⟨g, rfl⟩ : ∃ g, f' = g + 1 := ⟨f' - 1, by omega⟩
    by_cases hv : v > bound
    · rw [decLoop_succ f hv, BM.bind_apply] at h ⊢
      rw [decLoop_succ g hv, BM.bind_apply]
      cases hfl : flag s with
      | error e => rfl
      | ok p =>
        obtain ⟨b, s1⟩ := p
        rw [hfl] at h
        cases b
        · rfl
        · exact ih (v + 1) g s1 (by omega) h
    · unfold decLoop; rw [if_neg hv, if_neg hv]

theorem Streaming.sizesLoop (sb shift M fuel a i w : Nat) (l : List Nat) :
    Streaming (Gov1.sizesLoop sb shift M fuel a i w l) := by
  induction fuel generalizing a i w l with
  | zero => unfold Gov1.sizesLoop; exact Streaming.ite (Streaming.fail _) (Streaming.pure _)
  | succ k ih =>
    unfold Gov1.sizesLoop
    refine Streaming.ite (Streaming.bind (Streaming.lift _) fun _ => Streaming.bind (Streaming.ns _) fun _ => ih _ _ _ _)
      (Streaming.pure _)

/-- C07: the tile info parser is a streaming reader. -/
theorem C07_tileInfo_streaming (use128 : Bool) (miCols miRows old : Nat) :
    Streaming (newTileInfo use128 miCols miRows old) := by
  unfold newTileInfo uniformTiles explicitTiles
  repeat first
    | exact Streaming.flag | exact Streaming.incLoop _ _ | exact Streaming.sizesLoop _ _ _ _ _ _ _ _
    | exact Streaming.fuel (m := fun f => decLoop f _ _) (fun f => Streaming.decLoop f _ _)
        (fun f f' s h1 h2 => decLoop_stable _ f _ f' s h1 h2)
        (fun s => decLoop_terminates _ _ _ s (by rw [unread_length]; omega))
    | streaming_step

/-! ## Sizes of the boundary slices -/

theorem goSet_length {α : Type} {l l' : List α} {i : Int} {x : α} (h : goSet l i x = .ok l') :
    l'.length = l.length := by
  unfold goSet at h
  split at h
  · cases h
  · split at h
    · cases h; simp
    · cases h

theorem startsLoop_length {sb shift w : Nat} : ∀ (fuel a i : Nat) (l l' : List Nat) (i' : Nat),
    startsLoop sb shift w fuel a i l = .ok (i', l') → l'.length = l.length := by
  intro fuel
  induction fuel with
  | zero =>
    intro a i l l' i' h
    unfold startsLoop at h
    split at h <;> cases h
    rfl
  | succ fuel ih =>
    intro a i l l' i' h
    unfold startsLoop at h
    split at h
    · cases hg : goSet l (i : Int) (a <<< shift) with
      | error e => simp only [hg] at h; cases h
      | ok l1 =>
        simp only [hg] at h
        rw [ih _ _ _ _ _ h, goSet_length hg]
    · cases h; rfl

theorem sizesLoop_length (sb shift M : Nat) : ∀ (fuel a i w : Nat) (l : List Nat),
    Ensures (sizesLoop sb shift M fuel a i w l) (fun r => r.2.1.length = l.length) := by
  intro fuel
  induction fuel with
  | zero =>
    intro a i w l
    unfold sizesLoop
    exact Ensures.ite (fun _ => Ensures.fail _) (fun _ => Ensures.pure rfl)
  | succ fuel ih =>
    intro a i w l
    unfold sizesLoop
    refine Ensures.ite (fun _ => ?_) (fun _ => Ensures.pure rfl)
    refine Ensures.bind (P := fun l1 => l1.length = l.length) (Ensures.lift fun l1 h => goSet_length h)
      fun l1 h1 => ?_
    refine Ensures.bindT fun v => ?_
    exact (ih _ _ _ _).mono fun r hr => hr.trans h1

theorem newTileInfo_lengths (use128 : Bool) (miCols miRows old : Nat) :
    Ensures (newTileInfo use128 miCols miRows old) (fun t =>
      t.miColStarts.length = tileSbCols use128 miCols miRows + 1 ∧
      t.miRowStarts.length = tileSbRows miRows + 1) := by
  unfold newTileInfo
  dsimp only
  refine Ensures.bindT fun _ => Ensures.bindT fun _ => Ensures.bindT fun _ => Ensures.bindT fun _ =>
    Ensures.bindT fun u => ?_
  refine Ensures.bind (P := fun r => r.1.length = tileSbCols use128 miCols miRows + 1 ∧
      r.2.2.2.1.length = tileSbRows miRows + 1) ?_ fun r hr => ?_
  · generalize tileSbCols use128 miCols miRows = C
    generalize tileSbRows miRows = R
    have hst : ∀ (sb shift w : Nat), Ensures (BM.lift (startsLoop sb shift w (sb + 1) 0 0
        (List.replicate (sb + 1) 0))) (fun r => r.2.length = sb + 1) := by
      intro sb shift w
      refine Ensures.lift fun r h => ?_
      obtain ⟨i, l⟩ := r
      have := startsLoop_length _ _ _ _ _ _ h
      simpa using this
    have hset : ∀ (l : List Nat) (n i x : Nat), l.length = n → Ensures (BM.lift (goSet l (i : Int) x))
        (fun l' => l'.length = n) := fun l n i x hl => Ensures.lift fun l' h => (goSet_length h).trans hl
    have hsz : ∀ (sb shift M : Nat), Ensures (sizesLoop sb shift M (sb + 1) 0 0 0
        (List.replicate (sb + 1) 0)) (fun r => r.2.1.length = sb + 1) := by
      intro sb shift M
      exact (sizesLoop_length sb shift M _ _ _ _ _).mono fun r h => by simpa using h
    refine Ensures.ite (fun _ => ?_) (fun _ => ?_)
    · unfold uniformTiles
      refine Ensures.bindT fun k => Ensures.bind (hst _ _ _) fun r hr => ?_
      obtain ⟨i, l⟩ := r
      refine Ensures.bind (hset _ _ _ _ hr) fun l1 h1 => Ensures.bindT fun q =>
        Ensures.bind (hst _ _ _) fun r2 hr2 => ?_
      obtain ⟨j, l2⟩ := r2
      refine Ensures.bind (hset _ _ _ _ hr2) fun l3 h3 => Ensures.pure ⟨h1, h3⟩
    · unfold explicitTiles
      refine Ensures.bind (hsz _ _ _) fun r hr => ?_
      obtain ⟨i, l, wd⟩ := r
      refine Ensures.bind (hset _ _ _ _ hr) fun l1 h1 => Ensures.bindT fun q => ?_
      refine Ensures.ite (fun _ => Ensures.fail _) fun _ => ?_
      refine Ensures.bind (hsz _ _ _) fun r2 hr2 => ?_
      obtain ⟨j, l2, wd2⟩ := r2
      refine Ensures.bind (hset _ _ _ _ hr2) fun l3 h3 => Ensures.bindT fun _ => Ensures.pure ⟨h1, h3⟩
  · obtain ⟨c, i, cl, rr, j, rl⟩ := r
    exact Ensures.ite (fun _ => Ensures.bindT fun _ => Ensures.bindT fun _ => Ensures.pure hr)
      fun _ => Ensures.pure hr

theorem blocks4 (n : Nat) : (n + 15) >>> 4 = blocks n 4 := by
  rw [Nat.shiftRight_eq_div_pow]; unfold blocks; rfl
theorem blocks5 (n : Nat) : (n + 31) >>> 5 = blocks n 5 := by
  rw [Nat.shiftRight_eq_div_pow]; unfold blocks; rfl

/-- C28 (partial: 64x64 superblocks): the boundary slices have one entry per superblock column (row)
plus one. -/
theorem C28_superblock_counts_partial (miCols miRows old : Nat) (s s' : BitStream) (t : Tiles)
    (h : newTileInfo false miCols miRows old s = .ok (t, s')) :
    t.miColStarts.length = blocks miCols 4 + 1 ∧ t.miRowStarts.length = blocks miRows 4 + 1 := by
  have := newTileInfo_lengths false miCols miRows old s t s' h
  simpa [tileSbCols, tileSbRows, blocks4] using this

/-- C28 is false of the code with 128x128 superblocks: the number of superblock columns provided for
is the number of superblock rows, and the number of rows is counted in 64x64 superblocks.  Hence the
column count is wrong for every frame whose dimensions differ in 128x128 superblocks, and the row
count for every frame more than 64 samples high. -/
theorem C28_superblock_counts_refuted (miCols miRows old : Nat) (s s' : BitStream) (t : Tiles)
    (h : newTileInfo true miCols miRows old s = .ok (t, s')) :
    t.miColStarts.length = blocks miRows 5 + 1 ∧ t.miRowStarts.length = blocks miRows 4 + 1 ∧
    (blocks miRows 5 ≠ blocks miCols 5 → t.miColStarts.length ≠ blocks miCols 5 + 1) ∧
    (16 < miRows → t.miRowStarts.length ≠ blocks miRows 5 + 1) := by
  have := newTileInfo_lengths true miCols miRows old s t s' h
  simp only [tileSbCols, tileSbRows, if_true, blocks4, blocks5] at this
  refine ⟨this.1, this.2, by omega, fun hr => ?_⟩
  rw [this.2]
  unfold blocks
  omega

/-- C63 (false of the code): on a frame with 64x64 superblocks of at most 64 x 36 superblocks and
more than one superblock row (so that the bitstream specification lets the encoder split the rows),
uniform spacing always gives a single tile row: no bit string can signal a split. -/
theorem C63_uniform_rows_signalled_refuted (miCols miRows old : Nat) (hc : 1 ≤ miCols ∧ miCols ≤ 1024)
    (hr : 17 ≤ miRows ∧ miRows ≤ 576) (s s' : BitStream) (rest : List Bool) (t : Tiles)
    (hs : unread s = true :: rest) (h : newTileInfo false miCols miRows old s = .ok (t, s')) :
    t.tileRows = 1 ∧ t.tileRowsLog2 = 0 ∧ t.rowBounds = [0, miRows] ∧ 2 ≤ blocks miRows 4 := by
  obtain ⟨a, b, c, d, ⟨h1, h2, h3, h4, -, h5, h6, h7⟩, hm⟩ :=
    newTileInfo_mode miCols miRows old hc.1 (by omega) (by omega) (by omega)
  rw [hm s true rest hs] at h
  simp only [if_true] at h
  have hC : (miCols + 15) >>> 4 ≤ 64 := by rw [Nat.shiftRight_eq_div_pow]; omega
  have hR : (miRows + 15) >>> 4 ≤ 36 := by rw [Nat.shiftRight_eq_div_pow]; omega
  have ha : a = 0 := h6 hC
  have hd : d ≤ 0 := h7 0 (by
    calc _ ≤ 36 * 64 := Nat.mul_le_mul hR hC
      _ = _ := rfl)
  have hG := Good.bind' (n := 21) 6 14
    (Q := fun t => (t.tileRows ≤ 1 ∧ t.tileRowsLog2 = 0) ∧ Divides t.rowBounds miRows 16384)
    ((uniformTiles_good (d := d) rfl rfl hc.1 (show 1 ≤ miRows by omega) (by omega) h1 h2 h3 h4 h5).mono (by omega) fun _ h => h)
    (fun r hr => tail_good (n := 12) (old := old) r (by omega) fun id bs => by
      have e := hr.2.2.2.1
      have : r.2.2.2.2.2 = 0 := by omega
      rw [this] at e
      exact ⟨⟨by simpa using e.1, this⟩, hr.2.1.1⟩) (by omega)
  obtain ⟨⟨g1, g2⟩, g3⟩ := hG.2 _ _ _ h
  have hlen := (C28_superblock_counts_partial miCols miRows old s s' t (by
    rw [hm s true rest hs]; simpa using h)).2
  have hb : 2 ≤ blocks miRows 4 := by unfold blocks; omega
  have hf := g3.first
  have hl := g3.last
  have hbl : t.rowBounds.length = t.tileRows + 1 := by unfold Tiles.rowBounds; simp; omega
  have : t.tileRows = 1 := by
    rcases Nat.lt_or_ge t.tileRows 1 with h0 | h0
    · have h0 : t.tileRows = 0 := by omega
      rw [h0] at hbl
      match hq : t.rowBounds, hbl with
      | [x], _ => rw [hq] at hf hl; simp at hf hl; omega
    · omega
  refine ⟨this, g2, ?_, hb⟩
  rw [this] at hbl
  match hq : t.rowBounds, hbl with
  | [x, y], _ => rw [hq] at hf hl; simp at hf hl; rw [hf, hl]

/-- C28 is false of the code with 128x128 superblocks: on every frame at most 128 samples wide and
between 129 and 256 samples high, the two bits 1, 1 produce a second tile column that is empty. -/
theorem C28_empty_tile_refuted (miCols miRows old : Nat) (hc : 1 ≤ miCols ∧ miCols ≤ 32)
    (hr : 33 ≤ miRows ∧ miRows ≤ 64) (s : BitStream) (rest : List Bool)
    (hs : unread s = true :: true :: rest) (hl : 3 ≤ rest.length) :
    ∃ t s', newTileInfo true miCols miRows old s = .ok (t, s') ∧ t.tileCols = 2 ∧
      t.colBounds = [0, 32, miCols] ∧ ¬ ∃ w, Divides t.colBounds miCols w := by
  have hC : (miRows + 31) >>> 5 = 2 := by rw [Nat.shiftRight_eq_div_pow]; omega
  have h1 : tileLog2 ((4096 >>> (5 + 2) : Nat) : Int) ((2 : Nat) : Int) = .ok 0 := by decide +kernel
  have h2 : tileLog2 1 ((min 2 64 : Nat) : Int) = .ok 1 := by decide +kernel
  obtain ⟨R, hR, hR3, hR4⟩ : ∃ R, (miRows + 15) >>> 4 = R ∧ 3 ≤ R ∧ R ≤ 4 :=
    ⟨_, rfl, by rw [Nat.shiftRight_eq_div_pow]; omega, by rw [Nat.shiftRight_eq_div_pow]; omega⟩
  have h3 : tileLog2 1 ((min R 64 : Nat) : Int) = .ok 2 := by
    rcases (by omega : R = 3 ∨ R = 4) with rfl | rfl <;> decide +kernel
  have h4 : tileLog2 (((4096 * 2304) >>> (2 * (5 + 2)) : Nat) : Int) ((R * 2 : Nat) : Int) = .ok 0 := by
    rcases (by omega : R = 3 ∨ R = 4) with rfl | rfl <;> decide +kernel
  have hu2 : unread (s.advance 1) = true :: rest := by rw [unread_advance, hs]; rfl
  have hinc : incLoop 1 0 (s.advance 1) = .ok (1, s.advance 2) := by
    rw [show incLoop 1 0 = (flag >>= fun inc => if inc then incLoop 0 1 else pure 0) from rfl,
      flag_bind hu2, advance_advance]
    rfl
  have hst : startsLoop 2 5 1 3 0 0 (List.replicate 3 0) = .ok (2, [0, 32, 0]) := by decide
  have hrt : startsLoop R 5 ((R + 1 <<< 0 - 1) >>> 0) (R + 1) 0 0 (List.replicate (R + 1) 0)
      = .ok (1, List.replicate (R + 1) 0) := by
    rcases (by omega : R = 3 ∨ R = 4) with rfl | rfl <;> decide
  have hun : uniformTiles 5 2 R 0 1 2 0 miCols miRows (s.advance 1)
      = .ok (([0, 32, miCols], 2, 1, (List.replicate (R + 1) 0).set 1 miRows, 1, 0), s.advance 2) := by
    unfold uniformTiles
    rw [BM.bind_ok hinc]
    simp only [show (2 + 1 <<< 1 - 1) >>> 1 = 1 from rfl, show (2 : Nat) + 1 = 3 from rfl, hst]
    simp only [BM.lift_ok, BM.pure_bind]
    rw [goSet_nat, if_pos (by simp)]
    simp only [BM.lift_ok, BM.pure_bind, decLoop_le (show 0 - 1 ≤ 2 by omega)]
    rw [show (0 : Nat) - 1 = 0 from rfl]
    rw [hrt]
    simp only [BM.lift_ok, BM.pure_bind]
    rw [goSet_nat, if_pos (by simp; omega)]
    simp only [BM.lift_ok, BM.pure_bind]
    rfl
  have hk : F 1 (s.advance 2) = .ok (bitsVal ((unread (s.advance 2)).take 1), (s.advance 2).advance 1) := by
    rw [F_eq, if_pos (by rw [unread_advance, hs]; simp; omega)]
  have hk2 : F 2 ((s.advance 2).advance 1) = .ok (bitsVal ((unread ((s.advance 2).advance 1)).take 2),
      ((s.advance 2).advance 1).advance 2) := by
    rw [F_eq, if_pos (by rw [advance_advance, unread_advance, hs]; simp; omega)]
  have hmain : ∃ bs id s', newTileInfo true miCols miRows old s = .ok
      (⟨[0, 32, miCols], (List.replicate (R + 1) 0).set 1 miRows, 2, 1, 1, 0, bs, id⟩, s') := by
    refine ⟨bitsVal ((unread ((s.advance 2).advance 1)).take 2) + 1,
      bitsVal ((unread (s.advance 2)).take 1), ((s.advance 2).advance 1).advance 2, ?_⟩
    unfold newTileInfo
    simp only [tileSbCols, tileSbRows, tileSbShift, if_true, hC, hR, h1, h2, h3, h4, BM.lift_ok,
      BM.pure_bind]
    rw [flag_bind hs]
    simp only [if_true]
    rw [BM.bind_ok (show uniformTiles 5 2 R 0 1 2 (max 0 0) miCols miRows (s.advance 1) = _ from hun)]
    simp only []
    rw [if_pos (by decide), BM.bind_ok hk, BM.bind_ok hk2]
    rfl
  obtain ⟨bs, id, s', hmain⟩ := hmain
  refine ⟨_, _, hmain, rfl, rfl, ?_⟩
  rintro ⟨w, hw⟩
  have := hw.increasing
  simp [Tiles.colBounds] at this
  omega

/-! ## The hypotheses are met -/

/-- A 1920x1088 frame (MiCols 480, MiRows 272), uniform, three tile columns splits: bits 1 1 1 0,
then the tile id in 2 bits and the size length in 2 bits. -/
example : (newTileInfo false 480 272 0 ⟨[0xE1, 0, 0, 0], 0, 0⟩).map
    (fun p => (p.1.colBounds, p.1.rowBounds, p.1.tileSizeBytes)) =
    .ok ([0, 128, 256, 384, 480], [0, 272], 2) := by decide +kernel

example : unread ⟨[0xE1, 0, 0, 0], 0, 0⟩ = true :: (unread ⟨[0xE1, 0, 0, 0], 1, 0⟩) ∧
    21 ≤ (unread ⟨[0xE1, 0, 0, 0], 1, 0⟩).length := by decide +kernel

/-- The same frame with explicit sizes. -/
example : (newTileInfo false 480 272 0 ⟨[0x25, 0xE9, 0xF7, 0xFF, 0xFF, 0xFF], 0, 0⟩).map
    (fun p => (p.1.colBounds, p.1.rowBounds)) = .ok ([0, 128, 256, 400, 432, 480], [0, 224, 272]) := by decide +kernel

/-- 128x128 superblocks, 128x256 samples: the second tile column is empty. -/
example : (newTileInfo true 32 64 0 ⟨[0xC0, 0], 0, 0⟩).map (fun p => p.1.colBounds) =
    .ok [0, 32, 32] := by decide +kernel

end Gov1
