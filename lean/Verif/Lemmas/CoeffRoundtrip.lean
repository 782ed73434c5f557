import Verif.Lemmas.CoeffSafe
import Verif.Spec.Coeffs
/-! # Decoding a coded block -/
namespace Gov1
open Spec

/-- Run on exactly the replies `msg`, the program uses all of them and returns `a`. -/
def Rd.Says {α : Type} (L : Layout) (p : Rd α) (msg : List Nat) (a : α) : Prop := p.run L msg = .ok (a, [])

namespace Rd
variable {L : Layout}

theorem Says.bind {α β : Type} {p : Rd α} {f : α → Rd β} {m m' : List Nat} {a : α} {b : β} (h : p.Says L m a)
    (h' : (f a).Says L m' b) : (p >>= f).Says L (m ++ m') b := by
  refine run_bind.mpr ⟨a, m', ?_, h'⟩
  have := run_append h m'
  simpa using this

theorem Says.ret {α : Type} (a : α) : (Rd.ret a).Says L [] a := rfl

theorem Says.lift {α β : Type} {r : Res α} {a : α} (h : r = .ok a) {f : α → Rd β} {m : List Nat} {b : β}
    (h' : (f a).Says L m b) : (Rd.lift r >>= f).Says L m b := by
  rw [h]; exact h'

theorem Says.read {t : String} {idx : List Int} {n : Nat} (h : L.count t idx = some n) {s : Nat} (hs : s < n) :
    (Rd.read t idx).Says L [s] s := run_sym.mpr ⟨n, s, [], h, rfl, hs, rfl⟩

theorem Says.lit1 {s : Nat} (hs : s < 2) : (Rd.lit 1).Says L [s] s := by
  refine run_bit.mpr ⟨s, [], rfl, hs, ?_⟩
  show Except.ok (2 * 0 + s, []) = _
  simp

end Rd

theorem bitsMsb_len (n x : Nat) : (bitsMsb n x).length = n := by
  induction n with
  | zero => rfl
  | succ n ih => simp [bitsMsb, ih]

theorem bit_lt (x n : Nat) : x / 2 ^ n % 2 < 2 := Nat.mod_lt _ (by decide)

/-- The top bit and the rest. -/
theorem mod_succ (x n : Nat) : x % 2 ^ (n + 1) = x / 2 ^ n % 2 * 2 ^ n + x % 2 ^ n := by
  rw [Nat.pow_succ, Nat.mod_mul, Nat.mul_comm (2 ^ n), Nat.add_comm]

theorem eobBits_says {L : Layout} (n e x : Nat) : (eobBits n e).Says L (bitsMsb n x) (e + x % 2 ^ n) := by
  induction n generalizing e with
  | zero =>
    show Except.ok (e, _) = Except.ok (e + x % 1, _)
    rw [Nat.mod_one]
    rfl
  | succ n ih =>
    unfold eobBits
    rw [bitsMsb]
    refine Rd.Says.bind (m := [x / 2 ^ n % 2]) (Rd.Says.lit1 (bit_lt x n)) ?_
    have := ih (if x / 2 ^ n % 2 ≠ 0 then e + (1 <<< n) else e)
    have hb := bit_lt x n
    have e2 : (if x / 2 ^ n % 2 ≠ 0 then e + (1 <<< n) else e) + x % 2 ^ n = e + x % 2 ^ (n + 1) := by
      rw [mod_succ, Nat.one_shiftLeft]
      have : x / 2 ^ n % 2 = 0 ∨ x / 2 ^ n % 2 = 1 := by omega
      rcases this with h | h
      · rw [h]; simp
      · rw [h, Nat.one_mul, if_pos (by decide)]; omega
    rw [e2] at this
    exact this

theorem log2_bounds {x : Nat} (hx : 1 ≤ x) : 2 ^ Nat.log2 x ≤ x ∧ x < 2 ^ (Nat.log2 x + 1) :=
  ⟨Nat.log2_self_le (by omega), Nat.lt_log2_self⟩

/-- The class and the offset give back the position. -/
theorem readEob_says (k : Fin 4) {sc ptype e : Nat} (hsc : sc < 5) (hpt : ptype < 2) (he : 1 ≤ e) (h1024 : e ≤ 1024) :
    ∃ pt m, eobCode e = pt :: m ∧ 2 ^ pt < 2 * e ∧ (readEob sc ptype (pt + 1)).Says (cdfLayout k) m e := by
  unfold eobCode
  by_cases h1 : e = 1
  · subst h1
    exact ⟨0, [], rfl, by decide, rfl⟩
  · rw [if_neg h1]
    obtain ⟨hl, hu⟩ := log2_bounds (x := e - 1) (by omega)
    refine ⟨Nat.log2 (e - 1) + 1, _, rfl, ?_, ?_⟩
    · rw [Nat.pow_succ]; omega
    generalize Nat.log2 (e - 1) = m at *
    unfold readEob
    cases m with
    | zero =>
      have : e = 2 := by simp at hl hu; omega
      subst this
      rfl
    | succ m =>
      have hm : m + 1 ≤ 9 := by
        rcases Nat.lt_or_ge 9 (m + 1) with h | h
        · have : 2 ^ 10 ≤ 2 ^ (m + 1) := Nat.pow_le_pow_right (by omega) (by omega)
          have : (2 : Nat) ^ 10 = 1024 := by decide
          omega
        · exact h
      have e1 : m + 1 + 1 + 1 - 3 = m := by omega
      have e2 : m + 1 + 1 + 1 - 2 = m + 1 := by omega
      dsimp only
      rw [if_neg (by omega), if_neg (by omega), e1, e2, bitsMsb]
      generalize hx : e - 1 - 2 ^ (m + 1) = x at *
      have hx2 : x < 2 ^ (m + 1) := by
        rw [Nat.pow_succ 2 (m + 1)] at hu; omega
      refine Rd.Says.bind (m := [x / 2 ^ m % 2]) (Rd.Says.read (count3 k (iEobExtra k) (by omega) (by omega) (by omega)) (bit_lt x m)) ?_
      have := eobBits_says (L := cdfLayout k) m (if x / 2 ^ m % 2 ≠ 0 then 1 <<< (m + 1) + 1 + 1 <<< m else 1 <<< (m + 1) + 1) x
      have e3 : (if x / 2 ^ m % 2 ≠ 0 then 1 <<< (m + 1) + 1 + 1 <<< m else 1 <<< (m + 1) + 1) + x % 2 ^ m = e := by
        have hs := mod_succ x m
        rw [Nat.mod_eq_of_lt hx2] at hs
        rw [Nat.one_shiftLeft, Nat.one_shiftLeft]
        have hb := bit_lt x m
        have : x / 2 ^ m % 2 = 0 ∨ x / 2 ^ m % 2 = 1 := by omega
        rcases this with h | h
        · rw [h] at hs ⊢; rw [if_neg (by simp)]; omega
        · rw [h] at hs ⊢; rw [if_pos (by simp)]; omega
      rw [e3] at this
      exact this

theorem readEobPt_says (k : Fin 4) {cx : BlkCtx} {plane t x4 y4 : Nat} {st : CoefSt} {ty : Int}
    (hr : Reading cx plane t x4 y4 st.txTypes ty) {ptype : Nat} (hpt : ptype < 2) {s : Nat} (hs : 2 ^ s ≤ cW t * cH t) :
    (readEobPt cx st plane t x4 y4 ptype).Says (cdfLayout k) [s] (s + 1) := by
  unfold readEobPt
  refine Rd.Says.lift (Sat.tab 0 (by rw [len19.2.2.2.2.1]; exact hr.size)) ?_
  refine Rd.Says.lift (Sat.tab 0 (by rw [len19.2.2.2.2.2.1]; exact hr.size)) ?_
  obtain ⟨h6, har⟩ := m_area t hr.size
  rw [har] at hs
  generalize min (txWidthLog2.getD t 0) 5 + min (txHeightLog2.getD t 0) 5 - 4 = m at *
  have hsm : s < m + 5 := by
    rcases Nat.lt_or_ge s (m + 5) with h | h
    · exact h
    · have := Nat.pow_lt_pow_right (a := 2) (by omega) (show m + 4 < s by omega)
      omega
  dsimp only
  split
  · have hctx : Sat (getEobPtCtx cx st plane t x4 y4) (fun c => c < 2) := by
      unfold getEobPtCtx
      rw [hr.cty, Res.ok_bind]
      refine Sat.pure ?_
      split <;> omega
    obtain ⟨ctx, hc1, hc2⟩ := hctx
    refine Rd.Says.lift hc1 ?_
    have hcount : (cdfLayout k).count (if m = 0 then "EobPt16" else if m = 1 then "EobPt32" else if m = 2 then "EobPt64"
      else if m = 3 then "EobPt128" else "EobPt256") [(ptype : Int), ctx] = some (m + 5) := by
      have : m = 0 ∨ m = 1 ∨ m = 2 ∨ m = 3 ∨ m = 4 := by omega
      rcases this with rfl | rfl | rfl | rfl | rfl
      · exact count2 k (iEobPt16 k) (by omega) (by omega)
      · exact count2 k (iEobPt32 k) (by omega) (by omega)
      · exact count2 k (iEobPt64 k) (by omega) (by omega)
      · exact count2 k (iEobPt128 k) (by omega) (by omega)
      · exact count2 k (iEobPt256 k) (by omega) (by omega)
    exact Rd.Says.bind (m := [s]) (m' := []) (Rd.Says.read hcount hsm) (Rd.Says.ret _)
  · have hcount : (cdfLayout k).count (if m = 5 then "EobPt512" else "EobPt1024") [(ptype : Int)] = some (m + 5) := by
      have : m = 5 ∨ m = 6 := by omega
      rcases this with rfl | rfl
      · exact count1 k (iEobPt512 k) (by omega)
      · exact count1 k (iEobPt1024 k) (by omega)
    exact Rd.Says.bind (m := [s]) (m' := []) (Rd.Says.read hcount hsm) (Rd.Says.ret _)

theorem brLoop_says (k : Fin 4) {cx : BlkCtx} {plane t x4 y4 : Nat} {st : CoefSt} {ty : Int}
    (hr : Reading cx plane t x4 y4 st.txTypes ty) (hq : InArea (cW t * cH t) 0 15 st.quant) (pos : Nat)
    {sc ptype : Nat} (hpt : ptype < 2) (n r : Nat) (hn : r ≤ 3 * n) (level : Int) :
    (brLoop cx st t pos plane x4 y4 sc ptype n level).Says (cdfLayout k) (brCode n r) (level + r) := by
  induction n generalizing level r with
  | zero =>
    have : r = 0 := by omega
    subst this
    show Except.ok (level, _) = Except.ok (level + ((0 : Nat) : Int), _)
    simp [brCode]
  | succ n ih =>
    unfold brLoop
    obtain ⟨ctx, hc1, hc2⟩ := coeffBrCtx_sat hr (pos := pos) (fun i hi => by
      obtain ⟨v, hv, h0, _⟩ := hq i hi; exact ⟨v, hv, h0⟩)
    refine Rd.Says.lift hc1 ?_
    have hcnt := count3 k (iCoeffBr k) (i := ((min sc 3 : Nat) : Int)) (j := (ptype : Int)) (l := ctx) (by omega) (by omega) hc2
    rw [brCode]
    split
    · rename_i hlt
      refine Rd.Says.bind (m := [r]) (m' := []) (Rd.Says.read hcnt (by omega)) ?_
      rw [if_pos hlt]
      exact Rd.Says.ret _
    · rename_i hlt
      refine Rd.Says.bind (m := [3]) (Rd.Says.read hcnt (by omega)) ?_
      rw [if_neg (by omega)]
      have := ih (r - 3) (by omega) (level + 3)
      have e : level + 3 + ((r - 3 : Nat) : Int) = level + r := by omega
      rw [e] at this
      exact this

theorem readBase_says (k : Fin 4) {cx : BlkCtx} {plane t x4 y4 : Nat} {st : CoefSt} {ty : Int}
    (hr : Reading cx plane t x4 y4 st.txTypes ty) (hq : cW t * cH t ≤ st.quant.length) {pos : Nat}
    (hpos : pos < cW t * cH t) {sc ptype : Nat} (hsc : sc < 5) (hpt : ptype < 2) (hk : BaseOk k sc ptype) (c : Nat)
    (last : Bool) (a : Nat) (ha : last = true → a ≠ 0) :
    (readBase cx st t plane x4 y4 sc ptype pos c last).Says (cdfLayout k) [min a 3 - (if last then 1 else 0)]
      ((min a 3 : Nat) : Int) := by
  unfold readBase
  obtain ⟨ctx, hc1, hctx⟩ := getCoeffBaseCtx_sat hr hq hpos c last
  refine Rd.Says.lift hc1 ?_
  cases last with
  | true =>
    simp only [if_true] at hctx ⊢
    have ha := ha rfl
    refine Rd.Says.bind (m := [min a 3 - 1]) (m' := [])
      (Rd.Says.read (count3 k (iCoeffBaseEob k) (by omega) (by omega) (by omega)) (by omega)) ?_
    have e : ((min a 3 - 1 : Nat) : Int) + 1 = ((min a 3 : Nat) : Int) := by omega
    rw [e]; exact Rd.Says.ret _
  | false =>
    simp only [Bool.false_eq_true, if_false] at hctx ⊢
    exact Rd.Says.bind (m := [min a 3]) (m' := []) (Rd.Says.read (baseCount k hsc hpt hk hctx) (by omega)) (Rd.Says.ret _)

theorem readBr_says (k : Fin 4) {cx : BlkCtx} {plane t x4 y4 : Nat} {st : CoefSt} {ty : Int}
    (hr : Reading cx plane t x4 y4 st.txTypes ty) (hq : InArea (cW t * cH t) 0 15 st.quant) (pos : Nat)
    {sc ptype : Nat} (hpt : ptype < 2) (a : Nat) :
    (readBr cx st t pos plane x4 y4 sc ptype ((min a 3 : Nat) : Int)).Says (cdfLayout k)
      (if a < 3 then [] else brCode 4 (min a 15 - 3)) ((min a 15 : Nat) : Int) := by
  unfold readBr
  by_cases h : a < 3
  · rw [if_pos h, if_neg (by omega)]
    have : min a 3 = min a 15 := by omega
    rw [this]; exact Rd.Says.ret _
  · rw [if_neg h, if_pos (by omega)]
    have := brLoop_says k hr hq pos hpt (sc := sc) 4 (min a 15 - 3) (by omega) ((min a 3 : Nat) : Int)
    have e : ((min a 3 : Nat) : Int) + ((min a 15 - 3 : Nat) : Int) = ((min a 15 : Nat) : Int) := by omega
    rw [e] at this
    exact this

/-- The scan lists positions of the coded area, each once. -/
structure Scans (n : Nat) (scan : List Nat) : Prop where
  ok : ScanOk n scan
  inj : ∀ i j p, i < j → j < n → scan[i]? = some p → scan[j]? ≠ some p

theorem levelLoop_says (k : Fin 4) {cx : BlkCtx} {plane t x4 y4 : Nat} {ty : Int} {scan : List Nat}
    (hscan : Scans (cW t * cH t) scan) {sc ptype : Nat} (hsc : sc < 5) (hpt : ptype < 2) (hk : BaseOk k sc ptype)
    (a : Nat → Nat) (eob : Nat) (hlast : a (eob - 1) ≠ 0) (n : Nat) (hn : n ≤ cW t * cH t) (st : CoefSt)
    (hr : Reading cx plane t x4 y4 st.txTypes ty) (hq : InArea (cW t * cH t) 0 15 st.quant) :
    ∃ q, (levelLoop cx scan t plane x4 y4 sc ptype eob n st).Says (cdfLayout k) (levelsCode a eob n) { st with quant := q } ∧
      q.length = st.quant.length ∧
      (∀ c p, c < n → scan[c]? = some p → q[p]? = some ((min (a c) 15 : Nat) : Int)) ∧
      (∀ p, (∀ c < n, scan[c]? ≠ some p) → q[p]? = st.quant[p]?) := by
  induction n generalizing st with
  | zero => exact ⟨st.quant, rfl, rfl, by intros; omega, by intros; rfl⟩
  | succ c ih =>
    unfold levelLoop
    obtain ⟨x, hx, hxn⟩ := hscan.ok c (by omega)
    have hl := hq.len
    obtain ⟨q, h1, h2, h3, h4⟩ := ih (by omega) { st with quant := st.quant.set x ((min (a c) 15 : Nat) : Int) } hr
      (hq.set x ⟨by omega, by omega⟩)
    dsimp only at h2 h4
    refine ⟨q, ?_, by rw [h2]; simp, ?_, ?_⟩
    · refine Rd.Says.lift (goGet_of hx) ?_
      rw [levelsCode, levelCode]
      have e : ∀ (u v : List Nat) (y : Nat), (y :: u) ++ v = [y] ++ (u ++ v) := by intros; rfl
      rw [e]
      refine Rd.Says.bind (readBase_says k hr hl hxn hsc hpt hk c _ (a c) ?_) ?_
      · intro h
        rw [decide_eq_true_eq] at h
        rw [← h, Nat.add_sub_cancel] at hlast
        exact hlast
      refine Rd.Says.bind (readBr_says k hr hq x hpt (a c)) ?_
      exact Rd.Says.lift (goSet_lt' _ (by omega)) h1
    · intro i p hi hp
      by_cases hic : i = c
      · subst hic
        rw [hx, Option.some.injEq] at hp
        subst hp
        rw [h4 x (fun c' hc' h => hscan.inj c' i x hc' (by omega) h hx)]
        exact List.getElem?_set_self (by omega)
      · exact h3 i p (by omega) hp
    · intro p hp
      rw [h4 p (fun c' hc' => hp c' (by omega))]
      exact List.getElem?_set_ne (by rintro rfl; exact hp c (by omega) hx)

/-! ## Golomb -/

theorem golombLen_says {L : Layout} (n fuel len : Nat) (hf : n < fuel) :
    (golombLen fuel len).Says L (List.replicate n 0 ++ [1]) (len + n + 1) := by
  induction n generalizing fuel len with
  | zero =>
    obtain ⟨f, rfl⟩ : ∃ f, fuel = f + 1 := ⟨fuel - 1, by omega⟩
    unfold golombLen
    refine Rd.Says.bind (m := [1]) (m' := []) (Rd.Says.lit1 (by decide)) ?_
    rw [if_pos (by decide)]
    exact Rd.Says.ret _
  | succ n ih =>
    obtain ⟨f, rfl⟩ : ∃ f, fuel = f + 1 := ⟨fuel - 1, by omega⟩
    unfold golombLen
    rw [List.replicate_succ]
    refine Rd.Says.bind (m := [0]) (Rd.Says.lit1 (by decide)) ?_
    rw [if_neg (by decide)]
    have := ih f (len + 1) (by omega)
    rw [show len + 1 + n + 1 = len + (n + 1) + 1 by omega] at this
    exact this

theorem golombData_says {L : Layout} (n y x : Nat) : (golombData n y).Says L (bitsMsb n x) (y * 2 ^ n + x % 2 ^ n) := by
  induction n generalizing y with
  | zero =>
    show Except.ok (y, _) = Except.ok (y * 1 + x % 1, _)
    rw [Nat.mod_one]
    simp [bitsMsb]
  | succ n ih =>
    unfold golombData
    rw [bitsMsb]
    refine Rd.Says.bind (m := [x / 2 ^ n % 2]) (Rd.Says.lit1 (bit_lt x n)) ?_
    have := ih (2 * y + x / 2 ^ n % 2)
    have e : (2 * y + x / 2 ^ n % 2) * 2 ^ n + x % 2 ^ n = y * 2 ^ (n + 1) + x % 2 ^ (n + 1) := by
      rw [mod_succ, Nat.add_mul, Nat.pow_succ, Nat.mul_comm 2 y, Nat.mul_assoc, Nat.mul_comm 2 (2 ^ n)]
      omega
    rw [e] at this
    exact this

/-- The Exp-Golomb code is read back. -/
theorem readGolomb_says {L : Layout} (fuel x : Nat) (hx : 1 ≤ x) (hf : Nat.log2 x < fuel) :
    (readGolomb fuel).Says L (golombCode x) x := by
  unfold readGolomb golombCode
  have e : ∀ (u v : List Nat), u ++ 1 :: v = (u ++ [1]) ++ v := by intros; simp
  rw [e]
  refine Rd.Says.bind (golombLen_says (Nat.log2 x) fuel 0 hf) ?_
  rw [show 0 + Nat.log2 x + 1 - 1 = Nat.log2 x by omega]
  have := golombData_says (L := L) (Nat.log2 x) 1 x
  obtain ⟨hl, hu⟩ := log2_bounds hx
  have e2 : 1 * 2 ^ Nat.log2 x + x % 2 ^ Nat.log2 x = x := by
    have h := mod_succ x (Nat.log2 x)
    rw [Nat.mod_eq_of_lt hu] at h
    have h1 : x / 2 ^ Nat.log2 x = 1 := by
      have hp := Nat.two_pow_pos (Nat.log2 x)
      rw [Nat.pow_succ] at hu
      exact Nat.div_eq_of_lt_le (by omega) (by omega)
    rw [h1] at h
    omega
  rw [e2] at this
  exact this

theorem readLevel_says {L : Layout} (fuel a : Nat) (hf : Nat.log2 a < fuel) (ha : a < 2 ^ 63) :
    (readLevel fuel ((min a 15 : Nat) : Int)).Says L (if a ≤ 14 then [] else golombCode (a - 14)) (a : Int) := by
  unfold readLevel
  by_cases h : a ≤ 14
  · rw [if_pos h, if_neg (by omega)]
    have : min a 15 = a := by omega
    rw [this]; exact Rd.Says.ret _
  · rw [if_neg h, if_pos (by omega)]
    have hlog : Nat.log2 (a - 14) < fuel := by
      refine Nat.lt_of_le_of_lt ?_ hf
      by_contra hc
      have h1 := (log2_bounds (x := a) (by omega)).2
      have h2 := (log2_bounds (x := a - 14) (by omega)).1
      have h3 : 2 ^ (Nat.log2 a + 1) ≤ 2 ^ Nat.log2 (a - 14) := Nat.pow_le_pow_right (by omega) (by omega)
      omega
    have := Rd.Says.bind (f := fun x : Nat => Rd.ret (wrap64 ((x : Int) + 12 + 2))) (m := golombCode (a - 14)) (m' := [])
      (readGolomb_says (L := L) fuel (a - 14) (by omega) hlog) (Rd.Says.ret (wrap64 (((a - 14 : Nat) : Int) + 12 + 2)))
    rw [List.append_nil] at this
    have e : wrap64 (((a - 14 : Nat) : Int) + 12 + 2) = (a : Int) := by unfold wrap64; omega
    rw [e] at this
    exact this

theorem signLoop_says (k : Fin 4) (fuel : Nat) {cx : BlkCtx} {A L TH TW plane t x4 y4 : Nat}
    (hp : Place cx A L TH TW plane t x4 y4) {scan : List Nat} (hscan : Scans (cW t * cH t) scan) {ptype : Nat} (hpt : ptype < 2)
    (a : Nat → Nat) (neg : Bool) (n c : Nat) (hn : c + n ≤ cW t * cH t) (st : CoefSt) (ha : Shape 3 A st.aboveDc)
    (hl : Shape 3 L st.leftDc) (hlen : cW t * cH t ≤ st.quant.length)
    (hq : ∀ i p, c ≤ i → i < c + n → scan[i]? = some p → st.quant[p]? = some ((min (a i) 15 : Nat) : Int))
    (hfuel : ∀ i, c ≤ i → i < c + n → Nat.log2 (a i) < fuel) (hbound : ∀ i, c ≤ i → i < c + n → a i < 65536)
    (h00 : scan[0]? = some 0) (cul dc : Int) :
    ∃ q cul' dc', (signLoop fuel cx scan plane (txWidth.getD t 0 >>> 2) (txHeight.getD t 0 >>> 2) x4 y4 ptype n c st cul dc).Says
        (cdfLayout k) (tailsCode a neg n c) ({ st with quant := q }, cul', dc') ∧ q.length = st.quant.length ∧
      (∀ i p, c ≤ i → i < c + n → scan[i]? = some p → q[p]? = some (coefOf a neg i)) ∧
      (∀ p, (∀ i, c ≤ i → i < c + n → scan[i]? ≠ some p) → q[p]? = st.quant[p]?) ∧
      cul' = cul + (((List.range' c n).map a).sum : Nat) ∧
      dc' = if c = 0 ∧ n ≠ 0 ∧ a 0 ≠ 0 then (if neg then 1 else 2) else dc := by
  induction n generalizing st c cul dc with
  | zero => exact ⟨st.quant, cul, dc, rfl, rfl, by intros; omega, by intros; rfl, by simp, by simp⟩
  | succ n ih =>
    unfold signLoop
    obtain ⟨x, hx, hxn⟩ := hscan.ok c (by omega)
    have hv := hq c x (by omega) (by omega) hx
    have h16 : and16 (a c : Int) = a c := by
      unfold and16
      have := hbound c (by omega) (by omega)
      omega
    have hw : ∃ s, (readSign cx st plane (txWidth.getD t 0 >>> 2) (txHeight.getD t 0 >>> 2) x4 y4 ptype c
          ((min (a c) 15 : Nat) : Int)).Says (cdfLayout k) (if c = 0 ∧ a c ≠ 0 then [if neg then 1 else 0] else []) s ∧
        (if s ≠ 0 then -(a c : Int) else a c) = coefOf a neg c ∧ (c = 0 ∧ a c ≠ 0 → s = if neg then 1 else 0) := by
      unfold readSign coefOf
      by_cases h0 : a c = 0
      · rw [if_neg (by omega), if_neg (by omega)]
        exact ⟨0, Rd.Says.ret _, by rw [h0]; simp, fun h => absurd h0 h.2⟩
      · rw [if_pos (by omega)]
        by_cases hc : c = 0
        · rw [if_pos hc, if_pos ⟨hc, h0⟩]
          obtain ⟨ctx, hc1, hc2⟩ := dcSignCtx_sat hp ha hl
          refine ⟨if neg then 1 else 0, Rd.Says.lift hc1 (Rd.Says.read (count2 k (iDcSign k) (by omega) (by omega)) ?_), ?_, fun _ => rfl⟩
          · split <;> omega
          · cases neg <;> simp [hc]
        · rw [if_neg hc, if_neg (fun h => hc h.1)]
          exact ⟨0, rfl, by simp [hc], fun h => absurd h.1 hc⟩
    obtain ⟨s, hs1, hs2, hs3⟩ := hw
    obtain ⟨q, cul', dc', h1, h2, h3, h4, h5, h6⟩ := ih (c + 1) (by omega) { st with quant := st.quant.set x (coefOf a neg c) } ha hl
      (by simpa using hlen)
      (by
        intro i p h1 h2 h3
        dsimp only
        rw [List.getElem?_set_ne (by rintro rfl; exact hscan.inj c i x (by omega) (by omega) hx h3)]
        exact hq i p (by omega) (by omega) h3)
      (fun i h1 h2 => hfuel i (by omega) (by omega)) (fun i h1 h2 => hbound i (by omega) (by omega))
      (cul + a c) (if x = 0 ∧ (a c : Int) > 0 then (if s ≠ 0 then 1 else 2) else dc)
    dsimp only at h2 h4
    refine ⟨q, cul', dc', ?_, by rw [h2]; simp, ?_, ?_, ?_, ?_⟩
    rotate_right
    · rw [h6, if_neg (by omega)]
      by_cases hc0 : c = 0
      · subst hc0
        have : x = 0 := by rw [h00] at hx; cases hx; rfl
        subst this
        by_cases ha0 : a 0 = 0
        · rw [if_neg (by omega), if_neg (by omega)]
        · have e1 : ((0 : Nat) = 0 ∧ n + 1 ≠ 0 ∧ a 0 ≠ 0) := ⟨rfl, by omega, ha0⟩
          have e2 : ((0 : Nat) = 0 ∧ (a 0 : Int) > 0) := ⟨rfl, by omega⟩
          rw [if_pos e1, if_pos e2, hs3 ⟨rfl, ha0⟩]
          cases neg <;> rfl
      · have e1 : ¬ (c = 0 ∧ n + 1 ≠ 0 ∧ a 0 ≠ 0) := fun h => hc0 h.1
        rw [if_neg e1, if_neg]
        intro h
        have := h.1
        subst this
        exact hscan.inj 0 c 0 (by omega) (by omega) h00 hx
    rotate_right
    · rw [h5, List.range'_succ, List.map_cons, List.sum_cons]
      push_cast
      omega
    · refine Rd.Says.lift (goGet_of hx) ?_
      refine Rd.Says.lift (goGet_of hv) ?_
      rw [tailsCode, tailCode, List.append_assoc]
      refine Rd.Says.bind hs1 ?_
      refine Rd.Says.bind (readLevel_says fuel (a c) (hfuel c (by omega) (by omega)) (by have := hbound c (by omega) (by omega); omega)) ?_
      dsimp only
      rw [h16, hs2]
      exact Rd.Says.lift (goSet_lt' _ (by omega)) h1
    · intro i p hi hi2 hpp
      by_cases hic : i = c
      · subst hic
        rw [hx, Option.some.injEq] at hpp
        subst hpp
        rw [h4 x (fun c' hc' hc2 h => hscan.inj i c' x (by omega) (by omega) hx h)]
        exact List.getElem?_set_self (by omega)
      · exact h3 i p (by omega) (by omega) hpp
    · intro p hpp
      rw [h4 p (fun c' hc' hc2 => hpp c' (by omega) (by omega))]
      exact List.getElem?_set_ne (by rintro rfl; exact hpp c (by omega) (by omega) hx)


/-! ## Transform types -/

/-- The types AV1 allows for transform size `t`. -/
def allowed (c : BlkCtx) (t : Nat) : List Nat :=
  allowedTypes c.isInter c.reducedTxSet (txDims.getD t (0, 0)).1 (txDims.getD t (0, 0)).2

/-- The table read for a set of transform types. -/
def setTable (inter : Bool) (s : Nat) : List Int :=
  if inter then (if s = 1 then txTypeInterInvSet1 else if s = 2 then txTypeInterInvSet2 else txTypeInterInvSet3)
  else (if s = 1 then txTypeIntraInvSet1 else txTypeIntraInvSet2)

theorem set_allowed : ∀ t < 19, ∀ i r : Bool, (match getTxSet t i r with
    | .ok s => (if s = 0 then allowedTypes i r (txDims.getD t (0, 0)).1 (txDims.getD t (0, 0)).2 == [0]
        else (setTable i s).all (fun v => (allowedTypes i r (txDims.getD t (0, 0)).1 (txDims.getD t (0, 0)).2).any (fun y => v == (y : Nat))) &&
          (allowedTypes i r (txDims.getD t (0, 0)).1 (txDims.getD t (0, 0)).2).all (fun y => (setTable i s).any (fun v => v == (y : Nat))))
    | .error _ => false) = true := by decide +kernel

/-- The quantizer index that decides whether a transform type is coded. -/
def typeQIdx (c : BlkCtx) : Res Int := if c.seg.enabled then
      getQIndex c.seg.enabled c.seg.featureEnabled c.seg.featureData c.q.baseQIdx c.deltaQPresent c.currentQIndex 1
        c.segmentId
    else .ok (c.q.baseQIdx : Int)

/-- What is read for a transform type: nothing, or one symbol that selects from a table of the allowed types. -/
theorem readTxType_form (k : Fin 4) {c : BlkCtx} (hc : c.Ok) {t : Nat} (ht : t < 19) :
    ∃ q, typeQIdx c = .ok q ∧
      (((q = 0 ∨ allowed c t = [0]) ∧ readTxType c t = Rd.ret 0) ∨
       (q ≠ 0 ∧ ∃ name idx tab, readTxType c t = (Rd.read name idx >>= fun s => Rd.lift (goGet tab ((s : Nat) : Int))) ∧
        (cdfLayout k).count name idx = some tab.length ∧ ∀ v, v ∈ tab ↔ ∃ y ∈ allowed c t, v = ((y : Nat) : Int))) := by
  obtain ⟨q, hq, h0, h255⟩ := qidx_sat hc
  refine ⟨q, hq, ?_⟩
  obtain ⟨s, hs1, hs2, hs3⟩ := getTxSet_eq t ht c.isInter c.reducedTxSet
  have hall := set_allowed t ht c.isInter c.reducedTxSet
  rw [hs1] at hall
  dsimp only at hall
  have hform : readTxType c t = if s > 0 ∧ q > 0 then
      (if c.isInter then interTxTypeSymbol s t else intraTxType c s t) else Rd.ret 0 := by
    unfold readTxType
    rw [hs1, hq]
    rfl
  rw [hform]
  by_cases hz : s > 0 ∧ q > 0
  · right
    rw [if_pos hz]
    refine ⟨by omega, ?_⟩
    rw [if_neg (by omega)] at hall
    have hmem : ∀ v, v ∈ setTable c.isInter s ↔ ∃ y ∈ allowed c t, v = ((y : Nat) : Int) := by
      simp only [Bool.and_eq_true, List.all_eq_true, List.any_eq_true, beq_iff_eq] at hall
      intro v
      constructor
      · intro hv
        obtain ⟨y, hy, e⟩ := hall.1 v hv
        exact ⟨y, hy, e⟩
      · rintro ⟨y, hy, rfl⟩
        obtain ⟨v, hv, e⟩ := hall.2 y hy
        rw [← e]; exact hv
    have t1 := inv1 t ht c.reducedTxSet
    have t2 := inv2 t ht c.reducedTxSet
    have t3 := inv3 t ht
    have t4 := inv4 t ht c.reducedTxSet
    have t5 := inv5 t ht c.reducedTxSet
    by_cases hi : c.isInter = true
    · rw [if_pos hi]
      rw [hi] at hs1 hs2 hmem
      simp only [if_true] at hs2
      unfold interTxTypeSymbol
      rw [Sat.tab 0 (by rw [len19.2.2.1]; exact ht)]
      simp only [Rd.lift, Rd.ret_bind]
      have : s = 1 ∨ s = 2 ∨ s = 3 := by omega
      rcases this with rfl | rfl | rfl
      · exact ⟨_, _, _, rfl, count1 k (iInterTxTypeSet1 k) ⟨by omega, by have := (t1 hs1).1; omega⟩, hmem⟩
      · exact ⟨_, _, _, rfl, count0 k (iInterTxTypeSet2 k), hmem⟩
      · exact ⟨_, _, _, rfl, count1 k (iInterTxTypeSet3 k) ⟨by omega, by have := (t3 (by omega)).1; omega⟩, hmem⟩
    · rw [if_neg hi]
      have hi : c.isInter = false := by simpa using hi
      rw [hi] at hs1 hs2 hmem
      simp only [Bool.false_eq_true, if_false] at hs2
      unfold intraTxType intraTxTypeSymbol
      obtain ⟨d, hd1, hd⟩ : Sat (if c.useFilterIntra then goGet filterIntraModeToIntraDir c.filterIntraMode else .ok c.yMode)
          (fun d => 0 ≤ d ∧ d < 13) := by
        split
        · exact Sat.getMem hc.fi.1 (by have := hc.fi.2; show _ < ((5 : Nat) : Int); omega)
            (P := fun d => 0 ≤ d ∧ d < 13) (by decide) (fun _ h => h)
        · exact Sat.ok hc.y
      rw [hd1, Sat.tab 0 (by rw [len19.2.2.1]; exact ht)]
      simp only [Rd.lift, Rd.ret_bind]
      have : s = 1 ∨ s = 2 := by omega
      rcases this with rfl | rfl
      · exact ⟨_, _, _, rfl, count2 k (iIntraTxTypeSet1 k) ⟨by omega, by have := (t4 hs1).1; omega⟩ hd, hmem⟩
      · exact ⟨_, _, _, rfl, count2 k (iIntraTxTypeSet2 k) ⟨by omega, by have := (t5 hs1).1; omega⟩ hd, hmem⟩
  · left
    rw [if_neg hz]
    refine ⟨?_, rfl⟩
    by_cases hs0 : s = 0
    · right
      rw [if_pos hs0] at hall
      simpa [allowed] using hall
    · left; omega

/-! ## The whole block -/

theorem lumaTxType_says (k : Fin 4) {cx : BlkCtx} {A L TH TW plane t x4 y4 : Nat} (hp : Place cx A L TH TW plane t x4 y4)
    {st : CoefSt} (hst : st.Inv A L TH TW) {tt : List Nat} {ty : Int} (h0 : plane = 0 → (readTxType cx t).Says (cdfLayout k) tt ty)
    (hty : plane = 0 → TyFit t ty) (h1 : plane ≠ 0 → tt = []) :
    ∃ ty' m, (lumaTxType cx st plane x4 y4 t).Says (cdfLayout k) tt { st with txType := ty', txTypes := m } ∧
      Shape TH TW m ∧ Cells TypeOk m ∧ CellFit m plane t x4 y4 ∧ (plane = 0 → at2 m y4 x4 = some ty) := by
  unfold lumaTxType
  by_cases hpl : plane = 0
  · rw [if_pos hpl]
    unfold transformType
    have hw : txWidth.getD t 0 >>> 2 = txWidth.getD t 0 / 4 := by rw [Nat.shiftRight_eq_div_pow]
    have hh : txHeight.getD t 0 >>> 2 = txHeight.getD t 0 / 4 := by rw [Nat.shiftRight_eq_div_pow]
    obtain ⟨hx, hy⟩ := hp.types hpl
    obtain ⟨m, hm, m1, m2, m3, -⟩ := fillTxTypes_sat hst.types hst.typesOk hx hy (hty hpl).ok
    have hpos := w4_pos t hp.sz
    have h3 := m3 y4 x4 (by omega) (by omega) (by omega) (by omega)
    refine ⟨ty, m, ?_, m1, m2, fun _ => ⟨ty, h3, hty hpl⟩, fun _ => h3⟩
    have e : tt = tt ++ [] := by simp
    rw [e]
    refine Rd.Says.bind (h0 hpl) ?_
    refine Rd.Says.lift (Sat.tab 0 (by rw [len19.1]; exact hp.sz)) ?_
    refine Rd.Says.lift (Sat.tab 0 (by rw [len19.2.1]; exact hp.sz)) ?_
    rw [hw, hh]
    exact Rd.Says.lift hm (Rd.Says.ret _)
  · rw [if_neg hpl, h1 hpl]
    exact ⟨st.txType, st.txTypes, Rd.Says.ret _, hst.types, hst.typesOk, fun h => absurd h hpl, fun h => absurd h hpl⟩

theorem log2_16 {a : Nat} (h : a < 65536) : Nat.log2 a < 16 := by
  by_cases h0 : a = 0
  · subst h0; decide
  · exact (Nat.log2_lt h0).mpr (by omega)

/-- Decoding the code of a block. -/
theorem codedCoefs_says (k : Fin 4) (fuel : Nat) (hfuel : 16 ≤ fuel) {cx : BlkCtx} (hc : cx.Ok) {A L TH TW plane t x4 y4 : Nat}
    (hp : Place cx A L TH TW plane t x4 y4) (hk : ClassOk k plane t) {st : CoefSt} (hst : st.Inv A L TH TW)
    (hq : InArea (cW t * cH t) 0 0 st.quant) {tt : List Nat} {ty : Int}
    (h0 : plane = 0 → (readTxType cx t).Says (cdfLayout k) tt ty)
    (hty : plane = 0 → TyFit t ty) (h1 : plane ≠ 0 → tt = []) (a : Nat → Nat) (neg : Bool) (eob : Nat) (he1 : 1 ≤ eob)
    (he : eob ≤ cW t * cH t) (hlast : a (eob - 1) ≠ 0) (ha : ∀ c < eob, a c < 65536) :
    ∃ st' dc scan, (codedCoefs fuel cx st plane t (txWidth.getD t 0 >>> 2) (txHeight.getD t 0 >>> 2) x4 y4
      ((txSizeSqr.getD t 0 + txSizeSqrUp.getD t 0 + 1) >>> 1) (if plane > 0 then 1 else 0)).Says (cdfLayout k)
      (tt ++ blockCode a neg eob) (st', minI 63 (((List.range eob).map a).sum : Nat), dc) ∧
      dc = (if 0 = 0 ∧ eob ≠ 0 ∧ a 0 ≠ 0 then (if neg then 1 else 2) else 0) ∧ st'.Inv A L TH TW ∧ st'.quant.length = st.quant.length ∧ getScan t st'.planeTxType = .ok scan ∧ IsScan (cW t) (cH t) scan ∧
      (plane = 0 → cx.lossless = false → st'.planeTxType = if txSizeSqrUp.getD t 0 > 3 then 0 else ty) ∧
      ∀ c p, c < cW t * cH t → scan[c]? = some p → st'.quant[p]? = some (if c < eob then coefOf a neg c else 0) := by
  unfold codedCoefs
  obtain ⟨hsc, hsc0⟩ := sc_lt t hp.sz
  have hpt : (if plane > 0 then 1 else 0) < 2 := by split <;> omega
  have hbase : BaseOk k ((txSizeSqr.getD t 0 + txSizeSqrUp.getD t 0 + 1) >>> 1) (if plane > 0 then 1 else 0) := by
    rcases hk with h | h | h
    · exact .inl h
    · exact .inr (.inr (by rw [if_neg (by omega)]))
    · exact .inr (.inl (fun h' => h (hsc0 h')))
  generalize (txSizeSqr.getD t 0 + txSizeSqrUp.getD t 0 + 1) >>> 1 = sc at *
  generalize (if plane > 0 then 1 else 0) = pt at *
  obtain ⟨ty', m, hl, hm1, hm2, hm3, hm4⟩ := lumaTxType_says k hp hst h0 hty h1
  obtain ⟨x, hx, hfit⟩ := computeTxType_sat hc hp hm1 hm2 hm3
  obtain ⟨scan, hs1, hs2⟩ := getScan_ok hp.sz hfit
  obtain ⟨ho, hinj⟩ := isScan_ok hs2
  have hscan : Scans (cW t * cH t) scan := ⟨ho, hinj⟩
  have hrd : Reading cx plane t x4 y4 m x := ⟨hx, hfit, hp.sz⟩
  have har := area_le t hp.sz
  obtain ⟨s, ms, hcode, hs2e, hsays⟩ := readEob_says k hsc hpt he1 (by omega)
  obtain ⟨q, hq1, hq2, hq3, hq4⟩ := levelLoop_says k (ty := x) hscan hsc hpt hbase a eob hlast eob he
    { st with txType := ty', txTypes := m, planeTxType := x } hrd (hq.mono (by omega) (by omega))
  have hlen := hst.quant
  dsimp only at hq2 hq4
  obtain ⟨q', cul, dc, hr1, hr2, hr3, hr4, hr5, hr6⟩ := signLoop_says k fuel hp hscan hpt a neg eob 0 (by omega)
    { st with txType := ty', txTypes := m, planeTxType := x, quant := q } hst.ad hst.ld (by dsimp only; omega)
    (fun i p _ hi => hq3 i p (by omega)) (fun i _ hi => by have := log2_16 (ha i (by omega)); omega) (fun i _ hi => ha i (by omega))
    (scan_first t hp.sz x hfit.ok scan hs1) 0 0
  dsimp only at hr2 hr4
  have hdc : DcOk dc := by
    rw [hr6]
    split
    · split <;> exact ⟨by decide, by decide⟩
    · exact dcZero
  refine ⟨{ st with txType := ty', txTypes := m, planeTxType := x, quant := q' }, dc, scan, ?_, hr6, ?_, hr2.trans hq2, hs1, hs2, ?_, ?_⟩
  · rw [hr5, Int.zero_add, List.range'_eq_map_range] at hr1
    refine Rd.Says.bind hl ?_
    refine Rd.Says.lift hx ?_
    refine Rd.Says.lift hs1 ?_
    rw [blockCode, hcode]
    have e : ∀ (u v w : List Nat) (y : Nat), (y :: u) ++ v ++ w = [y] ++ (u ++ (v ++ (w ++ []))) := by intros; simp
    rw [e]
    have hpow : 2 ^ s ≤ cW t * cH t := by
      obtain ⟨-, har⟩ := m_area t hp.sz
      rw [har] at he ⊢
      generalize min (txWidthLog2.getD t 0) 5 + min (txHeightLog2.getD t 0) 5 - 4 + 4 = b at *
      refine Nat.pow_le_pow_right (by omega) ?_
      rcases Nat.lt_or_ge b s with h | h
      · have := Nat.pow_le_pow_right (n := 2) (by omega) (show b + 1 ≤ s by omega)
        rw [Nat.pow_succ] at this
        omega
      · exact h
    refine Rd.Says.bind (readEobPt_says k (st := { st with txType := ty', txTypes := m, planeTxType := x }) hrd hpt hpow) ?_
    refine Rd.Says.bind hsays ?_
    refine Rd.Says.bind hq1 ?_
    refine Rd.Says.bind hr1 ?_
    have : (List.map (fun x => 0 + x) (List.range eob)) = List.range eob := by simp
    rw [this]
    exact Rd.Says.ret _
  · exact ⟨(hr2.trans hq2).trans hst.quant, hst.dequant, hm1, hm2, hst.al, hst.alOk, hst.ad, hst.adOk, hst.ll, hst.llOk, hst.ld, hst.ldOk⟩
  · intro hpl hll
    dsimp only
    have : computeTxType cx m plane t x4 y4 = .ok (if txSizeSqrUp.getD t 0 > 3 then 0 else ty) := by
      unfold computeTxType
      rw [Sat.tab 0 (by rw [len19.2.2.2.1]; exact hp.sz), Res.ok_bind, hll]
      by_cases hu : txSizeSqrUp.getD t 0 > 3
      · rw [if_pos hu, if_pos (by simpa using hu)]; rfl
      · obtain ⟨s, hs1, -, -⟩ := getTxSet_eq t hp.sz cx.isInter cx.reducedTxSet
        rw [if_neg hu, if_neg (by simpa using hu), hs1, Res.ok_bind, if_pos hpl]
        exact gget_at2 (hm4 hpl)
    rw [hx] at this
    cases this; rfl
  · intro c p hcn hcp
    dsimp only
    by_cases hce : c < eob
    · rw [if_pos hce]; exact hr3 c p (by omega) (by omega) hcp
    · rw [if_neg hce]
      have hno : ∀ i, i < eob → scan[i]? ≠ some p := fun i hi h => hscan.inj i c p (by omega) hcn h hcp
      rw [hr4 p (fun i _ hi => hno i (by omega)), hq4 p hno]
      obtain ⟨p2, hp2, hlt⟩ := ho c hcn
      rw [hcp] at hp2; cases hp2
      obtain ⟨v, hv, h1, h2⟩ := hq p hlt
      rw [hv]
      congr 1
      omega

theorem fillCtx_eq {A plane p n : Nat} {m : List (List Int)} (hs : Shape 3 A m)
    (hpl : plane < 3) (hp : p + n ≤ A) (v : Int) :
    Sat (fillCtx m plane p n v) (fun m' => (∀ i, i < n → at2 m' plane (p + i) = some v) ∧
      ∀ a b, ¬ (a = plane ∧ p ≤ b ∧ b < p + n) → at2 m' a b = at2 m a b) := by
  unfold fillCtx
  refine (Sat.forN (fun i (m' : List (List Int)) => Shape 3 A m' ∧ (∀ j, j < i → at2 m' plane (p + j) = some v) ∧
      ∀ a b, ¬ (a = plane ∧ p ≤ b ∧ b < p + i) → at2 m' a b = at2 m a b) ⟨hs, by intros; omega, by intros; rfl⟩ ?_
      (fun _ h => h)).mono (fun m' h => ⟨fun i hi => h.2.1 i (by omega), fun a b hab => h.2.2 a b (by omega)⟩)
  rintro i m' - hi ⟨h1, h2, h3⟩
  refine Sat.gset (P := fun _ => True) h1 (fun _ _ _ _ => trivial) (by omega) (by omega) trivial ?_
  intro m'' e1 _ e3 e4
  have hx : ((p : Int) + (i : Int)).toNat = p + i := by omega
  rw [Int.toNat_natCast, hx] at e3 e4
  refine ⟨e1, ?_, ?_⟩
  · intro j hj
    by_cases hji : j = i
    · rw [hji]; exact e3
    · rw [e4 _ _ (by intro h; simp only [Prod.mk.injEq] at h; omega)]
      exact h2 j (by omega)
  · intro a b hab
    rw [e4 _ _ (by intro h; simp only [Prod.mk.injEq] at h; omega)]
    exact h3 a b (by omega)

theorem coeffs_says (k : Fin 4) (fuel : Nat) (hfuel : 16 ≤ fuel) {cx : BlkCtx} (hc : cx.Ok) {A L TH TW plane t x4 y4 : Nat}
    (hp : Place cx A L TH TW plane t x4 y4) (hk : ClassOk k plane t) {st : CoefSt} (hst : st.Inv A L TH TW)
    {tt : List Nat} {ty : Int} (h0 : plane = 0 → (readTxType cx t).Says (cdfLayout k) tt ty)
    (hty : plane = 0 → TyFit t ty) (h1 : plane ≠ 0 → tt = []) (a : Nat → Nat) (neg : Bool) (eob : Nat) (he1 : 1 ≤ eob)
    (he : eob ≤ cW t * cH t) (hlast : a (eob - 1) ≠ 0) (ha : ∀ c < eob, a c < 65536) :
    ∃ st' scan, (coeffs fuel cx st plane ((4 * x4 : Nat) : Int) ((4 * y4 : Nat) : Int) t).Says (cdfLayout k)
      (0 :: (tt ++ blockCode a neg eob)) (st', 0) ∧
      getScan t st'.planeTxType = .ok scan ∧ IsScan (cW t) (cH t) scan ∧
      (plane = 0 → cx.lossless = false → st'.planeTxType = if txSizeSqrUp.getD t 0 > 3 then 0 else ty) ∧
      (∀ c p, c < cW t * cH t → scan[c]? = some p → st'.quant[p]? = some (if c < eob then coefOf a neg c else 0)) ∧
      (∀ i, i < txWidth.getD t 0 / 4 →
        at2 st'.aboveLevel plane (x4 + i) = some (min 63 ((List.range eob).map a).sum : Nat) ∧
        at2 st'.aboveDc plane (x4 + i) = some (if a 0 = 0 then 0 else if neg then 1 else 2)) ∧
      (∀ i, i < txHeight.getD t 0 / 4 →
        at2 st'.leftLevel plane (y4 + i) = some (min 63 ((List.range eob).map a).sum : Nat) ∧
        at2 st'.leftDc plane (y4 + i) = some (if a 0 = 0 then 0 else if neg then 1 else 2)) := by
  have hw : txWidth.getD t 0 >>> 2 = txWidth.getD t 0 / 4 := by rw [Nat.shiftRight_eq_div_pow]
  have hh : txHeight.getD t 0 >>> 2 = txHeight.getD t 0 / 4 := by rw [Nat.shiftRight_eq_div_pow]
  unfold coeffs
  rw [shr2, shr2]
  have hA := hp.above
  have hL := hp.left
  have hpl := hp.pl
  have har := area_le t hp.sz
  obtain ⟨st1, hcl, q, d, rfl, hq0, hqk, hd1, -⟩ := clearCoefs_sat hst (n := cW t * cH t) (by omega)
  have hst1 : CoefSt.Inv A L TH TW { st with quant := q, dequant := d } :=
    ⟨hqk.1.trans hst.quant, hd1, hst.types, hst.typesOk, hst.al, hst.alOk, hst.ad, hst.adOk, hst.ll, hst.llOk, hst.ld, hst.ldOk⟩
  obtain ⟨ctx, hctx, hctx1, -⟩ := allZeroCtx_sat hc hp hst1
  obtain ⟨hsc, -⟩ := sc_lt t hp.sz
  obtain ⟨st2, dc, scan, hsays, hdc, hinv, hlen, hscan, hisc, hpty, hco⟩ :=
    codedCoefs_says k fuel hfuel hc hp hk hst1 hq0 h0 hty h1 a neg eob he1 he hlast ha
  have hdc' : dc = if a 0 = 0 then 0 else if neg then 1 else 2 := by
    rw [hdc]
    by_cases h : a 0 = 0
    · simp [h]
    · rw [if_pos ⟨rfl, by omega, h⟩, if_neg h]
  have hcul : minI 63 (((List.range eob).map a).sum : Nat) = ((min 63 ((List.range eob).map a).sum : Nat) : Int) := by
    unfold minI; split <;> omega
  rw [hdc', hcul] at hsays
  obtain ⟨al, hal, hal1, -⟩ := fillCtx_eq hinv.al hpl hA (min 63 ((List.range eob).map a).sum : Nat)
  obtain ⟨ad, had, had1, -⟩ := fillCtx_eq hinv.ad hpl hA (if a 0 = 0 then 0 else if neg then 1 else 2)
  obtain ⟨ll, hll, hll1, -⟩ := fillCtx_eq hinv.ll hpl hL (min 63 ((List.range eob).map a).sum : Nat)
  obtain ⟨ld, hld, hld1, -⟩ := fillCtx_eq hinv.ld hpl hL (if a 0 = 0 then 0 else if neg then 1 else 2)
  refine ⟨{ st2 with aboveLevel := al, aboveDc := ad, leftLevel := ll, leftDc := ld }, scan, ?_, hscan, hisc, hpty, hco,
    fun i hi => ⟨hal1 i hi, had1 i hi⟩, fun i hi => ⟨hll1 i hi, hld1 i hi⟩⟩
  refine Rd.Says.lift (Sat.tab 0 (by rw [len19.1]; exact hp.sz)) ?_
  refine Rd.Says.lift (Sat.tab 0 (by rw [len19.2.1]; exact hp.sz)) ?_
  dsimp only
  refine Rd.Says.lift (Sat.tab 0 (by rw [len19.2.2.1]; exact hp.sz)) ?_
  refine Rd.Says.lift (Sat.tab 0 (by rw [len19.2.2.2.1]; exact hp.sz)) ?_
  refine Rd.Says.lift (segEob_eq t hp.sz) ?_
  refine Rd.Says.lift hcl ?_
  refine Rd.Says.lift hctx ?_
  refine Rd.Says.bind (m := [0]) (m' := tt ++ blockCode a neg eob) (Rd.Says.read (count2 k (iTxbSkip k) (by omega) (by omega)) (by omega)) ?_
  have e : tt ++ blockCode a neg eob = (tt ++ blockCode a neg eob) ++ [] := by simp
  rw [e]
  refine Rd.Says.bind (by unfold coefBody; rw [if_neg (by simp)]; exact hsays) ?_
  rw [hw, hh]
  dsimp only
  refine Rd.Says.lift hal ?_
  refine Rd.Says.lift had ?_
  refine Rd.Says.lift hll ?_
  refine Rd.Says.lift hld ?_
  exact Rd.Says.ret _

end Gov1
