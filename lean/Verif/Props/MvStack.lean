import Verif.Model.MvStack
import Verif.Props.Mv
import Verif.Lemmas.Grid
/-!
# C134-C139: the stack of motion vector candidates
-/
namespace Gov1
open Spec

/-! ## Partial correctness and termination -/

/-- The call does not run for ever and, if it returns, its result has property `Q`. -/
def Res.Part {α : Type} (r : Res α) (Q : α → Prop) : Prop := (∀ a, r = .ok a → Q a) ∧ r ≠ .error .hang

theorem Res.Part.bind {α β : Type} {r : Res α} {f : α → Res β} {Q : α → Prop} {R : β → Prop} (h : r.Part Q) (hf : ∀ a, Q a → (f a).Part R) : Res.Part (r >>= f) R := by
  cases r with
  | error e => exact ⟨fun a h' => (by cases h'), fun h' => h.2 (by cases h'; rfl)⟩
  | ok a => exact hf a (h.1 a rfl)

theorem Res.Part.mono {α : Type} {r : Res α} {Q R : α → Prop} (h : r.Part Q) (hq : ∀ a, Q a → R a) : r.Part R := ⟨fun a e => hq a (h.1 a e), h.2⟩

theorem Res.Part.pure {α : Type} {a : α} {Q : α → Prop} (h : Q a) : Res.Part (pure a) Q := ⟨fun b e => by cases e; exact h, fun e => by cases e⟩

theorem Res.Part.index {α : Type} {Q : α → Prop} : Res.Part (.error .index : Res α) Q := ⟨fun b e => (by cases e), fun e => (by cases e)⟩

theorem Res.Part.and {α : Type} {r : Res α} {Q R : α → Prop} (h : r.Part Q) (h' : ∀ a, r = .ok a → R a) : r.Part (fun a => Q a ∧ R a) :=
  ⟨fun a e => ⟨h.1 a e, h' a e⟩, h.2⟩

theorem part_goGet {α : Type} {l : List α} {i : Int} : (goGet l i).Part (fun a => goGet l i = .ok a) := by
  refine ⟨fun a e => e, ?_⟩
  unfold goGet
  split
  · intro e; cases e
  · split <;> (intro e; cases e)

theorem part_goSet {α : Type} {l : List α} {i : Int} {v : α} : (goSet l i v).Part (fun a => goSet l i v = .ok a) := by
  refine ⟨fun a e => e, ?_⟩
  unfold goSet
  split
  · intro e; cases e
  · split <;> (intro e; cases e)

theorem part_gget {α : Type} {l : List (List α)} {i j : Int} : (gget l i j).Part (fun a => gget l i j = .ok a) := by
  refine ⟨fun a e => e, ?_⟩
  unfold gget
  have := (part_goGet (l := l) (i := i)).bind (R := fun _ => True) (f := fun r => goGet r j) fun r _ => part_goGet.mono fun _ _ => trivial
  exact this.2

theorem part_forN {σ : Type} {f : Nat → σ → Res σ} (P : Nat → σ → Prop) (n : Nat) : ∀ {i0 : Nat} {s : σ},
    (∀ i t, i0 ≤ i → i < i0 + n → P i t → (f i t).Part (P (i + 1))) → P i0 s → (forN f n i0 s).Part (P (i0 + n)) := by
  induction n with
  | zero => intro i0 s _ h; exact Res.Part.pure h
  | succ n ih =>
    intro i0 s hstep h
    refine (hstep i0 s (by omega) (by omega) h).bind fun t ht => ?_
    have := ih (i0 := i0 + 1) (s := t) (fun i t h1 h2 => hstep i t (by omega) (by omega)) ht
    rw [show i0 + (n + 1) = i0 + 1 + n by omega]
    exact this

/-! ## The invariant -/

/-- What every step of the process keeps: arrays of fixed size, flags, the global vectors. -/
structure StOk (g : MvPair) (s : MvSt) : Prop where
  found : s.found ≤ 1
  zero : s.zeroCtx ≤ 1
  stack : s.stack.length = 2
  drl : s.drl.length = 1
  num : s.num ≤ 2
  globals : s.globals = g
  total : s.total ≤ 2

variable {g : MvPair}

theorem addWeight_ok {i : Nat} {w : Int} {s : MvSt} (h : StOk g s) : (addWeight i w s).Part (StOk g) :=
  part_goGet.bind fun _ _ => part_goSet.bind fun _ _ => Res.Part.pure ⟨h.found, h.zero, h.stack, h.drl, h.num, h.globals, h.total⟩

theorem pushOne_ok {mv : MVec} {w : Int} {s : MvSt} (h : StOk g s) : (pushOne mv w s).Part (StOk g) := by
  unfold pushOne
  split
  · refine part_goGet.bind fun o ho => part_goSet.bind fun st hst => part_goSet.bind fun ws _ => Res.Part.pure ?_
    obtain ⟨-, hl, rfl⟩ := goSet_inv' hst
    have hl := h.stack ▸ hl
    exact ⟨h.found, h.zero, by rw [List.length_set]; exact h.stack, h.drl, by simp at hl; show s.num + 1 ≤ 2; omega, h.globals, h.total⟩
  · exact Res.Part.pure h

theorem pushTwo_ok {mv : MvPair} {w : Int} {s : MvSt} (h : StOk g s) : (pushTwo mv w s).Part (StOk g) := by
  unfold pushTwo
  split
  · refine part_goSet.bind fun st hst => part_goSet.bind fun ws _ => Res.Part.pure ?_
    obtain ⟨-, hl, rfl⟩ := goSet_inv' hst
    have hl := h.stack ▸ hl
    exact ⟨h.found, h.zero, by rw [List.length_set]; exact h.stack, h.drl, by simp at hl; show s.num + 1 ≤ 2; omega, h.globals, h.total⟩
  · exact Res.Part.pure h

theorem stackFind_part (st : List MvPair) (p : MvPair → Bool) (n : Nat) : ∀ i, (stackFind st p n i).Part (fun _ => True) := by
  induction n with
  | zero => intro i; exact Res.Part.pure trivial
  | succ n ih =>
    intro i
    refine part_goGet.bind fun e _ => ?_
    split
    · exact Res.Part.pure trivial
    · exact ih (i + 1)

theorem addOrPush_ok {mv : MVec} {w : Int} {s : MvSt} (h : StOk g s) : (addOrPush mv w s).Part (StOk g) := by
  refine (stackFind_part _ _ _ _).bind fun i _ => ?_
  split
  · exact addWeight_ok h
  · exact pushOne_ok h

theorem useGlobal_part (e : MvEnv) (mode : Int) (large : Bool) : (useGlobal e mode large).Part (fun _ => True) := by
  unfold useGlobal
  split
  · exact part_goGet.bind fun _ _ => Res.Part.pure trivial
  · exact Res.Part.pure trivial

theorem candMv_part (e : MvEnv) (r c : Int) (list : Nat) (b : Bool) (s : MvSt) : (candMv e r c list b s).Part (fun _ => True) := by
  unfold candMv
  split
  · exact Res.Part.pure trivial
  · exact part_gget.bind fun _ _ => Res.Part.pure trivial

theorem searchStack_ok {e : MvEnv} {r c : Int} {list : Nat} {w : Int} {s : MvSt} (h : StOk g s) : (searchStack e r c list w s).Part (StOk g) :=
  part_gget.bind fun _ _ => part_gget.bind fun _ _ => part_goGet.bind fun _ _ => part_goGet.bind fun _ _ =>
    (useGlobal_part _ _ _).bind fun _ _ => (candMv_part _ _ _ _ _ _).bind fun _ _ =>
      addOrPush_ok ⟨Nat.le_refl 1, h.zero, h.stack, h.drl, h.num, h.globals, h.total⟩

theorem globalPair_part (e : MvEnv) (mode : Int) (p : MvPair) (s : MvSt) : (globalPair e mode p s).Part (fun _ => True) := by
  unfold globalPair
  split
  · exact (part_goGet.bind (R := fun _ => True) fun _ _ => Res.Part.pure trivial).bind fun _ _ =>
      (part_goGet.bind (R := fun _ => True) fun _ _ => Res.Part.pure trivial).bind fun _ _ => Res.Part.pure trivial
  · exact Res.Part.pure trivial

theorem raiseEqual_ok {p : MvPair} {w : Int} (n : Nat) : ∀ {i : Nat} {s : MvSt}, StOk g s → (raiseEqual p w n i s).Part (StOk g) := by
  induction n with
  | zero => intro i s h; exact Res.Part.pure h
  | succ n ih =>
    intro i s h
    refine part_goGet.bind fun x _ => ?_
    have : Res.Part (raiseIf x p w i s) (StOk g) := by
      unfold raiseIf
      split
      · exact addWeight_ok h
      · exact Res.Part.pure h
    exact this.bind fun s' h' => ih h'

theorem compoundSearch_ok {e : MvEnv} {r c : Int} {w : Int} {s : MvSt} (h : StOk g s) : (compoundSearch e r c w s).Part (StOk g) :=
  part_gget.bind fun _ _ => part_gget.bind fun _ _ => (globalPair_part _ _ _ _).bind fun _ _ =>
    Res.Part.bind (Q := StOk g) (raiseEqual_ok _ ⟨Nat.le_refl 1, h.zero, h.stack, h.drl, h.num, h.globals, h.total⟩) fun _ h' => pushTwo_ok h'

theorem searchIfSame_ok {e : MvEnv} {r c : Int} {w : Int} {list : Nat} {s : MvSt} (h : StOk g s) : (searchIfSame e r c w list s).Part (StOk g) := by
  refine part_gget.bind fun f _ => ?_
  split
  · exact searchStack_ok h
  · exact Res.Part.pure h

theorem addInter_ok {e : MvEnv} {r c : Int} {compound : Bool} {w : Int} {s : MvSt} (h : StOk g s) : (addInterCandidate e r c compound w s).Part (StOk g) := by
  unfold addInterCandidate
  split
  · exact (searchIfSame_ok h).bind fun _ h' => searchIfSame_ok h'
  · refine part_gget.bind fun f _ => ?_
    split
    · exact compoundSearch_ok h
    · exact Res.Part.pure h

theorem addRef_ok {e : MvEnv} {r c : Int} {compound : Bool} {w : Int} {s : MvSt} (h : StOk g s) : (addRefMvCandidate e r c compound w s).Part (StOk g) := by
  refine part_gget.bind fun i _ => ?_
  split
  · exact Res.Part.pure h
  · exact addInter_ok h

theorem n4_pos {t : List Nat} (ht : t = num4x4Wide ∨ t = num4x4High) {i : Int} {n : Nat} (h : goGet t i = .ok n) : 1 ≤ n := by
  have hm := List.mem_of_getElem? (goGet_inv h).2
  rcases ht with rfl | rfl
  · exact (by decide : ∀ n ∈ num4x4Wide, 1 ≤ n) n hm
  · exact (by decide : ∀ n ∈ num4x4High, 1 ≤ n) n hm

theorem scanLen_pos {n4 c : Nat} (h1 : 1 ≤ n4) (h2 : 1 ≤ c) (far : Bool) : 1 ≤ scanLen n4 c far := by
  unfold scanLen
  dsimp only
  split <;> split <;> omega

theorem scanRowLoop_ok {e : MvEnv} {compound : Bool} {bw4 : Nat} (hb : 1 ≤ bw4) {far : Bool} {r c0 end4 : Int} (fuel : Nat) : ∀ {i : Nat} {s : MvSt},
    end4 ≤ (i : Int) + fuel → StOk g s → (scanRowLoop e compound bw4 far r c0 end4 fuel i s).Part (StOk g) := by
  induction fuel with
  | zero =>
    intro i s hf h
    unfold scanRowLoop
    rw [if_neg (by omega)]
    exact Res.Part.pure h
  | succ fuel ih =>
    intro i s hf h
    unfold scanRowLoop
    split
    · split
      · refine part_gget.bind fun sz _ => part_goGet.bind fun n hn => (addRef_ok h).bind fun s' h' => ?_
        have := scanLen_pos hb (n4_pos (Or.inl rfl) hn) far
        exact ih (by omega) h'
      · exact Res.Part.pure h
    · exact Res.Part.pure h

theorem scanColLoop_ok {e : MvEnv} {compound : Bool} {bh4 : Nat} (hb : 1 ≤ bh4) {far : Bool} {r0 c end4 : Int} (fuel : Nat) : ∀ {i : Nat} {s : MvSt},
    end4 ≤ (i : Int) + fuel → StOk g s → (scanColLoop e compound bh4 far r0 c end4 fuel i s).Part (StOk g) := by
  induction fuel with
  | zero =>
    intro i s hf h
    unfold scanColLoop
    rw [if_neg (by omega)]
    exact Res.Part.pure h
  | succ fuel ih =>
    intro i s hf h
    unfold scanColLoop
    split
    · split
      · refine part_gget.bind fun sz _ => part_goGet.bind fun n hn => (addRef_ok h).bind fun s' h' => ?_
        have := scanLen_pos hb (n4_pos (Or.inr rfl) hn) far
        exact ih (by omega) h'
      · exact Res.Part.pure h
    · exact Res.Part.pure h

theorem scanRow_ok {e : MvEnv} {d : Int} {compound : Bool} {s : MvSt} (h : StOk g s) : (scanRow e d compound s).Part (StOk g) :=
  part_goGet.bind fun _ hn => scanRowLoop_ok (n4_pos (Or.inl rfl) hn) _ (by omega) h

theorem scanCol_ok {e : MvEnv} {d : Int} {compound : Bool} {s : MvSt} (h : StOk g s) : (scanCol e d compound s).Part (StOk g) :=
  part_goGet.bind fun _ hn => scanColLoop_ok (n4_pos (Or.inr rfl) hn) _ (by omega) h

theorem scanPoint_ok {e : MvEnv} {dr dc : Int} {compound : Bool} {s : MvSt} (h : StOk g s) : (scanPoint e dr dc compound s).Part (StOk g) := by
  unfold scanPoint
  split
  · refine part_gget.bind fun f _ => ?_
    split
    · exact addRef_ok h
    · exact Res.Part.pure h
  · exact Res.Part.pure h

theorem motionAt_part (e : MvEnv) (ref y x : Int) : (motionAt e ref y x).Part (fun _ => True) := part_goGet.bind fun _ _ => part_gget.mono fun _ _ => trivial

theorem temporalZero_ok {first far : Bool} {s : MvSt} (h : StOk g s) : StOk g (temporalZero first far s) := by
  unfold temporalZero
  split
  · exact ⟨h.found, by show (if far = true then 1 else 0) ≤ 1; split <;> omega, h.stack, h.drl, h.num, h.globals, h.total⟩
  · exact h

theorem temporalAdd_ok {push : MvSt → Res MvSt} (hp : ∀ s, StOk g s → (push s).Part (StOk g)) {s : MvSt} (h : StOk g s) : (temporalAdd push s).Part (StOk g) := by
  unfold temporalAdd
  split
  · exact addWeight_ok h
  · exact hp s h

theorem temporalSample_ok {e : MvEnv} {dr dc : Nat} {compound : Bool} {s : MvSt} (h : StOk g s) : (temporalSample e dr dc compound s).Part (StOk g) := by
  unfold temporalSample
  dsimp only
  split
  · have hs : StOk g (if (dr == 0 && dc == 0) = true then { s with zeroCtx := 1 } else s) := by
      split
      · exact ⟨h.found, Nat.le_refl 1, h.stack, h.drl, h.num, h.globals, h.total⟩
      · exact h
    split
    · refine (motionAt_part _ _ _ _).bind fun v _ => ?_
      split
      · exact Res.Part.pure hs
      · exact (stackFind_part _ _ _ _).bind fun _ _ => temporalAdd_ok (fun _ h' => pushOne_ok h') (temporalZero_ok hs)
    · refine (motionAt_part _ _ _ _).bind fun v _ => ?_
      split
      · exact Res.Part.pure hs
      · refine (motionAt_part _ _ _ _).bind fun w _ => ?_
        split
        · exact Res.Part.pure hs
        · exact (stackFind_part _ _ _ _).bind fun _ _ => temporalAdd_ok (fun _ h' => pushTwo_ok h') (temporalZero_ok hs)
  · exact Res.Part.pure h

theorem temporalScan_ok {e : MvEnv} {compound : Bool} {s : MvSt} (h : StOk g s) : (temporalScan e compound s).Part (StOk g) :=
  part_goGet.bind fun _ _ => part_goGet.bind fun _ _ =>
    part_forN (fun _ t => StOk g t) _ (fun _ _ _ _ ht => part_forN (fun _ t => StOk g t) _ (fun _ _ _ _ ht => temporalSample_ok ht) ht) h

theorem swapStack_ok {i j : Nat} {compound : Bool} {s : MvSt} (h : StOk g s) : (swapStack i j compound s).Part (StOk g) := by
  refine part_goGet.bind fun _ _ => part_goGet.bind fun _ _ => part_goSet.bind fun _ _ => part_goSet.bind fun _ _ => part_goGet.bind fun _ _ => part_goGet.bind fun _ _ =>
    part_goSet.bind fun st1 h1 => part_goSet.bind fun st2 h2 => Res.Part.pure ?_
  obtain ⟨-, -, rfl⟩ := goSet_inv' h1
  obtain ⟨-, -, rfl⟩ := goSet_inv' h2
  exact ⟨h.found, h.zero, by simp [h.stack], h.drl, h.num, h.globals, h.total⟩

theorem sortPass_ok {compound : Bool} (n : Nat) : ∀ {idx ne : Nat} {s : MvSt}, ne < idx → StOk g s →
    (sortPass compound n idx ne s).Part (fun x => StOk g x.1 ∧ x.2 < idx + n ∧ x.1.num = s.num) := by
  induction n with
  | zero => intro idx ne s hne h; exact Res.Part.pure ⟨h, hne, rfl⟩
  | succ n ih =>
    intro idx ne s hne h
    have hstep : (sortStep compound idx ne s).Part (fun x => StOk g x.1 ∧ x.2 < idx + 1 ∧ x.1.num = s.num) := by
      refine part_goGet.bind fun _ _ => part_goGet.bind fun _ _ => ?_
      split
      · refine ((swapStack_ok h).and (R := fun s' => s'.num = s.num) fun s' e => ?_).bind fun s' h' => Res.Part.pure ⟨h'.1, Nat.lt_succ_self _, h'.2⟩
        unfold swapStack at e
        obtain ⟨_, -, e⟩ := Res.inv e
        obtain ⟨_, -, e⟩ := Res.inv e
        obtain ⟨_, -, e⟩ := Res.inv e
        obtain ⟨_, -, e⟩ := Res.inv e
        obtain ⟨_, -, e⟩ := Res.inv e
        obtain ⟨_, -, e⟩ := Res.inv e
        obtain ⟨_, -, e⟩ := Res.inv e
        obtain ⟨_, -, e⟩ := Res.inv e
        cases e
        rfl
      · exact Res.Part.pure ⟨h, by show ne < idx + 1; omega, rfl⟩
    refine hstep.bind fun x hx => (ih hx.2.1 hx.1).mono fun y hy => ⟨hy.1, by omega, by rw [hy.2.2, hx.2.2]⟩

theorem sortStack_ok {compound : Bool} {start : Nat} (fuel : Nat) : ∀ {e : Nat} {s : MvSt}, e ≤ start + fuel → StOk g s →
    (sortStack compound start fuel e s).Part (fun s' => StOk g s' ∧ s'.num = s.num) := by
  induction fuel with
  | zero =>
    intro e s he h
    unfold sortStack
    rw [if_neg (by omega)]
    exact Res.Part.pure ⟨h, rfl⟩
  | succ fuel ih =>
    intro e s he h
    unfold sortStack
    split
    · refine (sortPass_ok _ (by omega) h).bind fun x hx => (ih (by omega) hx.1).mono fun y hy => ⟨hy.1, by rw [hy.2, hx.2.2]⟩
    · exact Res.Part.pure ⟨h, rfl⟩

theorem mirrored_part (b : List Bool) (x y : Int) (v : MVec) : (mirrored b x y v).Part (fun _ => True) :=
  part_goGet.bind fun _ _ => part_goGet.bind fun _ _ => Res.Part.pure trivial

theorem extraPush_ok {mv : MVec} {s : MvSt} (h : StOk g s) : (extraPush mv s).Part (StOk g) := by
  unfold extraPush
  split
  · refine part_goGet.bind fun o ho => part_goSet.bind fun st hst => part_goSet.bind fun ws _ => Res.Part.pure ?_
    obtain ⟨-, hl, rfl⟩ := goSet_inv' hst
    exact ⟨h.found, h.zero, by rw [List.length_set]; exact h.stack, h.drl, by show 1 ≤ 2; omega, h.globals, h.total⟩
  · exact Res.Part.pure h

theorem extraOne_ok {e : MvEnv} {r c : Int} {list : Nat} {s : MvSt} (h : StOk g s) : (extraOne e r c list s).Part (StOk g) := by
  refine part_gget.bind fun f _ => ?_
  split
  · exact part_gget.bind fun p _ => (mirrored_part _ _ _ _).bind fun v _ => (stackFind_part _ _ _ _).bind fun _ _ => extraPush_ok h
  · exact Res.Part.pure h

theorem addExtra_ok {e : MvEnv} {r c : Int} {compound : Bool} {s : MvSt} (h : StOk g s) : (addExtra e r c compound s).Part (StOk g) := by
  unfold addExtra
  dsimp only
  split
  · refine Res.Part.bind (Q := fun _ => True) (part_gget.bind fun f _ => ?_) fun _ _ => Res.Part.pure h
    split
    · exact Res.Part.index
    · exact Res.Part.pure trivial
  · exact (extraOne_ok h).bind fun _ h' => extraOne_ok h'

theorem extraStep_part (e : MvEnv) (pass : Nat) (rc : Int × Int) : (extraStep e pass rc).Part (fun n => 1 ≤ n) := by
  refine part_gget.bind fun sz _ => part_goGet.mono fun n hn => ?_
  split at hn
  · exact n4_pos (Or.inl rfl) hn
  · exact n4_pos (Or.inr rfl) hn

theorem extraLoop_ok {e : MvEnv} {compound : Bool} {pass : Nat} {n : Int} (fuel : Nat) : ∀ {i : Nat} {s : MvSt},
    n ≤ (i : Int) + fuel → StOk g s → (extraLoop e compound pass n fuel i s).Part (StOk g) := by
  induction fuel with
  | zero =>
    intro i s hf h
    unfold extraLoop
    rw [if_neg (by omega)]
    exact Res.Part.pure h
  | succ fuel ih =>
    intro i s hf h
    unfold extraLoop
    split
    · dsimp only
      split
      · exact Res.Part.pure h
      · exact (addExtra_ok h).bind fun s' h' => (extraStep_part _ _ _).bind fun k hk => ih (by omega) h'
    · exact Res.Part.pure h

/-- After a returning extra search the entries beyond the candidates are the global vector. -/
def Filled2 (s : MvSt) : Prop := ∀ i, s.num ≤ i → i < 2 → ∃ b, s.stack[i]? = some (s.globals.1, b)

theorem extraFill_ok (k : Nat) (i : Nat) (t : MvSt)
    (h : StOk g t ∧ t.num = k ∧ ∀ j, k ≤ j → j < i → ∃ b, t.stack[j]? = some (g.1, b)) :
    (extraFill i t).Part (fun t => StOk g t ∧ t.num = k ∧ ∀ j, k ≤ j → j < i + 1 → ∃ b, t.stack[j]? = some (g.1, b)) := by
  refine part_goGet.bind fun o ho => part_goSet.bind fun st hst => Res.Part.pure ?_
  obtain ⟨-, hl, rfl⟩ := goSet_inv' hst
  simp only [Int.toNat_natCast] at hl ⊢
  refine ⟨⟨h.1.found, h.1.zero, by rw [List.length_set]; exact h.1.stack, h.1.drl, h.1.num, h.1.globals, h.1.total⟩, h.2.1, fun j h1 h2 => ?_⟩
  show ∃ b, (t.stack.set i (t.globals.1, o.2))[j]? = _
  by_cases hj : j = i
  · subst hj
    exact ⟨o.2, by rw [List.getElem?_set_self hl, h.1.globals]⟩
  · obtain ⟨b, hb⟩ := h.2.2 j h1 (by omega)
    exact ⟨b, by rw [List.getElem?_set_ne (by omega)]; exact hb⟩

theorem extraSearch_ok {e : MvEnv} {compound : Bool} {s : MvSt} (h : StOk g s) : (extraSearch e compound s).Part (fun s' => StOk g s' ∧ compound = false ∧ Filled2 s') := by
  refine part_goGet.bind fun bw4 _ => part_goGet.bind fun bh4 _ => ?_
  refine (extraLoop_ok _ (by omega) h).bind fun s1 h1 => (extraLoop_ok _ (by omega) h1).bind fun s2 h2 => ?_
  cases compound
  · rw [if_neg (by decide)]
    have := part_forN (f := extraFill) (fun i t => StOk g t ∧ t.num = s2.num ∧ ∀ j, s2.num ≤ j → j < i → ∃ b, t.stack[j]? = some (g.1, b)) (2 - s2.num) (i0 := s2.num) (s := s2)
      (fun i t _ _ ht => extraFill_ok _ i t ht) ⟨h2, rfl, fun j a b => by omega⟩
    refine this.mono fun t ht => ⟨ht.1, rfl, fun i h1 h3 => ?_⟩
    rw [ht.1.globals]
    exact ht.2.2 i (by rw [← ht.2.1]; exact h1) (by omega)
  · exact Res.Part.index

/-! ## The two halves of the scan -/

theorem setupGlobalMv_part (h : MvHdr) (t : List Int) (p : List (List Int)) (r c z : Nat) (ref : Int) : (setupGlobalMv h t p r c z ref).Part (fun v => setupGlobalMv h t p r c z ref = .ok v) := by
  refine ⟨fun a e => e, ?_⟩
  suffices hs : (setupGlobalMv h t p r c z ref).Part (fun _ => True) from hs.2
  refine part_goGet.bind fun _ _ => part_goGet.bind fun _ _ => ?_
  split
  · exact Res.Part.pure trivial
  · refine part_goGet.bind fun _ _ => part_goGet.bind fun _ _ => ?_
    refine Res.Part.bind (Q := fun _ => True) ?_ fun _ _ => Res.Part.pure trivial
    unfold gmVector
    split
    · exact Res.Part.pure trivial
    · refine part_goGet.bind fun _ _ => part_goGet.bind fun _ _ => ?_
      split
      · exact Res.Part.pure trivial
      · exact part_goGet.bind fun _ _ => part_goGet.bind fun _ _ => part_goGet.bind fun _ _ => part_goGet.bind fun _ _ => Res.Part.pure trivial

/-- The arrays of the decoder's state have their sizes, the flag is a flag. -/
structure StInit (s : MvSt) : Prop where
  stack : s.stack.length = 2
  drl : s.drl.length = 1
  zero : s.zeroCtx ≤ 1
  total : s.total ≤ 2

theorem nearScan_ok {e : MvEnv} {compound : Bool} {s : MvSt} (h : StInit s) :
    (nearScan e compound s).Part (fun x => (∃ g1, setupGlobalMv e.hdr e.gmType e.gmParams e.miRow e.miCol e.miSize e.refFrame.1 = .ok x.1.globals.1 ∧
      StOk (x.1.globals.1, g1) x.1) ∧ x.1.close = x.2.1 + x.2.2 ∧ x.2.1 ≤ 1 ∧ x.2.2 ≤ 1) := by
  refine part_goGet.bind fun bw4 _ => part_goGet.bind fun bh4 _ => (setupGlobalMv_part _ _ _ _ _ _ _).bind fun g0 hg0 => ?_
  refine Res.Part.bind (Q := fun _ => True) ?_ fun g1 _ => ?_
  · unfold secondGlobal
    split
    · exact (setupGlobalMv_part _ _ _ _ _ _ _).mono fun _ _ => trivial
    · exact Res.Part.pure trivial
  have h0 : StOk (g0, g1) { s with num := 0, newCount := 0, globals := (g0, g1), found := 0 } := ⟨Nat.zero_le 1, h.zero, h.stack, h.drl, by show 0 ≤ 2; omega, rfl, h.total⟩
  refine (scanRow_ok h0).bind fun s1 h1 => ?_
  refine (scanCol_ok (s := { s1 with found := 0 }) (g := (g0, g1)) ⟨Nat.zero_le 1, h1.zero, h1.stack, h1.drl, h1.num, h1.globals, h1.total⟩).bind fun s2 h2 => ?_
  have hp : StOk (g0, g1) { s2 with found := 0 } := ⟨Nat.zero_le 1, h2.zero, h2.stack, h2.drl, h2.num, h2.globals, h2.total⟩
  refine Res.Part.bind (Q := StOk (g0, g1)) ?_ fun s3 h3 => Res.Part.pure ?_
  · unfold nearScan.nearPoint
    split
    · exact scanPoint_ok hp
    · exact Res.Part.pure hp
  · refine ⟨⟨g1, ?_, ?_⟩, rfl, ?_, h2.found⟩
    · show _ = Except.ok s3.globals.1
      rw [h3.globals]; exact hg0
    · have e1 : s3.globals.1 = g0 := by rw [h3.globals]
      show StOk (s3.globals.1, g1) _
      rw [e1]
      exact ⟨h3.found, h3.zero, h3.stack, h3.drl, h3.num, h3.globals, h3.total⟩
    · have := h1.found
      show (if s3.found = 1 then 1 else s1.found) ≤ 1
      split <;> omega

theorem farScan_ok {e : MvEnv} {compound : Bool} {a l : Nat} (ha : a ≤ 1) (hl : l ≤ 1) {s : MvSt} (h : StOk g s) :
    (farScan e compound a l s).Part (StOk g) := by
  have z : ∀ {s : MvSt}, StOk g s → StOk g { s with found := 0 } := fun h => ⟨Nat.zero_le 1, h.zero, h.stack, h.drl, h.num, h.globals, h.total⟩
  refine part_goGet.bind fun bw4 _ => part_goGet.bind fun bh4 _ => ?_
  refine (scanPoint_ok h).bind fun s1 h1 => (scanRow_ok (z h1)).bind fun s2 h2 => (scanCol_ok (z h2)).bind fun s3 h3 => ?_
  refine Res.Part.bind (Q := StOk g) ?_ fun s4 h4 => ?_
  · unfold rowIf
    split
    · exact scanRow_ok (z h3)
    · exact Res.Part.pure (z h3)
  refine Res.Part.bind (Q := StOk g) ?_ fun s5 h5 => ?_
  · unfold colIf
    split
    · exact scanCol_ok (z h4)
    · exact Res.Part.pure (z h4)
  refine Res.Part.pure ⟨h5.found, h5.zero, h5.stack, h5.drl, h5.num, h5.globals, ?_⟩
  show (if s5.found = 1 then 1 else if s4.found = 1 then 1 else if s2.found = 1 then 1 else if s1.found = 1 then 1 else a) + (if s3.found = 1 then 1 else l) ≤ 2
  have t : ∀ (c : Prop) [Decidable c] (x : Nat), x ≤ 1 → (if c then 1 else x) ≤ 1 := by intro c _ x hx; split <;> omega
  have := t (s5.found = 1) _ (t (s4.found = 1) _ (t (s2.found = 1) _ (t (s1.found = 1) a ha)))
  have := t (s3.found = 1) l hl
  omega

/-! ## The last step -/

/-- The vector lies within the frame extended by its border (AV1 7.10.2.14): the block, moved by it, reaches at most `128 + 8` times its
height (width), in 1/8 pixel, beyond the frame. -/
def InBounds (e : MvEnv) (bw4 bh4 : Nat) (v : MVec) : Prop :=
  -(128 + 32 * (bh4 : Int)) ≤ 32 * (e.miRow : Int) + v.1 ∧ 32 * ((e.miRow : Int) + bh4) + v.1 ≤ 32 * e.miRows + (128 + 32 * bh4) ∧
  -(128 + 32 * (bw4 : Int)) ≤ 32 * (e.miCol : Int) + v.2 ∧ 32 * ((e.miCol : Int) + bw4) + v.2 ≤ 32 * e.miCols + (128 + 32 * bw4)

theorem size_facts {z bw bh bw4 bh4 : Nat} (h1 : goGet blockWidth (z : Int) = .ok bw) (h2 : goGet blockHeight (z : Int) = .ok bh)
    (h3 : goGet num4x4Wide (z : Int) = .ok bw4) (h4 : goGet num4x4High (z : Int) = .ok bh4) : bw = 4 * bw4 ∧ bh = 4 * bh4 := by
  have hz : z < 22 := by
    have := goGet_inv_nat h1
    rcases Nat.lt_or_ge z 22 with h | h
    · exact h
    · rw [List.getElem?_eq_none (by simpa [blockWidth] using h)] at this; cases this
  have t : ∀ z : Fin 22, blockWidth[z.val]? = (num4x4Wide[z.val]?).map (4 * ·) ∧ blockHeight[z.val]? = (num4x4High[z.val]?).map (4 * ·) := by decide
  obtain ⟨t1, t2⟩ := t ⟨z, hz⟩
  dsimp only at t1 t2
  rw [goGet_inv_nat h1, goGet_inv_nat h3] at t1
  rw [goGet_inv_nat h2, goGet_inv_nat h4] at t2
  simp at t1 t2
  exact ⟨t1, t2⟩

theorem clampVec_bounds {e : MvEnv} {bw bh bw4 bh4 : Nat} (h1 : bw = 4 * bw4) (h2 : bh = 4 * bh4) (v : MVec) : InBounds e bw4 bh4 (clampVec e bw4 bh4 bw bh v) := by
  have a := C57_clamp e.miRows e.miRow bh4 (128 + (bh : Int) * 8) v.1 (by omega)
  have b := C57_clamp e.miCols e.miCol bw4 (128 + (bw : Int) * 8) v.2 (by omega)
  unfold InBounds clampVec
  dsimp only
  omega

theorem setDrl_ok {idx n : Nat} {s : MvSt} (h : StOk g s ∧ s.num = n) : (setDrl idx s).Part (fun s' => (StOk g s' ∧ s'.num = n) ∧ idx < 1 ∧ s'.total = s.total ∧ s'.close = s.close ∧ s'.stack = s.stack) := by
  refine Res.Part.bind (Q := fun _ => True) ?_ fun z _ => part_goSet.bind fun d hd => Res.Part.pure ?_
  · unfold drlCtx
    split
    · exact part_goGet.bind fun _ _ => part_goGet.bind fun _ _ => Res.Part.pure trivial
    · exact Res.Part.pure trivial
  · obtain ⟨-, hl, rfl⟩ := goSet_inv' hd
    rw [h.1.drl] at hl
    exact ⟨⟨⟨h.1.found, h.1.zero, h.1.stack, by rw [List.length_set]; exact h.1.drl, h.1.num, h.1.globals, h.1.total⟩, h.2⟩, by simpa using hl, rfl, rfl, rfl⟩

/-- What a returning call leaves. -/
structure StackOk (e : MvEnv) (g : MvPair) (s s' : MvSt) : Prop where
  one : s'.num ≤ 1
  num : s'.num = s.num
  newCtx : s'.newCtx ≤ 5
  refCtx : s'.refCtx ≤ 5
  zero : s'.zeroCtx ≤ 1
  total : s'.total ≤ 2
  len : s'.stack.length = 2
  drl : s'.drl.length = 1
  globals : s'.globals = g
  rest : ∀ i, s.num ≤ i → s'.stack[i]? = s.stack[i]?
  head : ∀ bw4 bh4, num4x4Wide[e.miSize]? = some bw4 → num4x4High[e.miSize]? = some bh4 → 0 < s.num →
    ∃ v w, s.stack[0]? = some (v, w) ∧ s'.stack[0]? = some (clampVec e bw4 bh4 (4 * bw4) (4 * bh4) v, w)

theorem contexts_ok {e : MvEnv} {numNew : Nat} {s : MvSt} (h : StOk g s) :
    (contextAndClamping e false numNew s).Part (StackOk e g s) := by
  unfold contextAndClamping
  have ht := h.total
  refine part_goGet.bind fun bw hbw => part_goGet.bind fun bh hbh => part_goGet.bind fun bw4 hbw4 => part_goGet.bind fun bh4 hbh4 => ?_
  obtain ⟨f1, f2⟩ := size_facts hbw hbh hbw4 hbh4
  have hdrl : (forN setDrl s.num 0 s).Part (fun t => (StOk g t ∧ t.num = s.num) ∧ s.num ≤ 1 ∧ t.total = s.total ∧ t.close = s.close ∧ t.stack = s.stack) := by
    have := part_forN (f := setDrl) (fun i t => (StOk g t ∧ t.num = s.num) ∧ i ≤ 1 ∧ t.total = s.total ∧ t.close = s.close ∧ t.stack = s.stack) s.num (i0 := 0) (s := s)
      (fun i t _ _ ht => (setDrl_ok ht.1).mono fun t' ht' => ⟨ht'.1, by omega, ht'.2.2.1.trans ht.2.2.1, ht'.2.2.2.1.trans ht.2.2.2.1, ht'.2.2.2.2.trans ht.2.2.2.2⟩) ⟨⟨h, rfl⟩, by omega, rfl, rfl, rfl⟩
    rw [Nat.zero_add] at this
    exact this
  refine hdrl.bind fun t ht' => ?_
  obtain ⟨⟨h1, hn⟩, hone, htot, hcl, hst⟩ := ht'
  -- the loop over the lists: one turn, over at most one entry
  have hclamp : (forN (fun list s => forN (clampEntry e bw4 bh4 bw bh list) s.num 0 s) 1 0 t).Part (fun u => StOk g u ∧ u.num = s.num ∧ u.total = s.total ∧ u.close = s.close ∧
      (∀ i, s.num ≤ i → u.stack[i]? = s.stack[i]?) ∧ (0 < s.num → ∃ v w, s.stack[0]? = some (v, w) ∧ u.stack[0]? = some (clampVec e bw4 bh4 (4 * bw4) (4 * bh4) v, w))) := by
    show Res.Part (forN (clampEntry e bw4 bh4 bw bh 0) t.num 0 t >>= fun s => .ok s) _
    refine Res.Part.bind (Q := fun u => StOk g u ∧ u.num = s.num ∧ u.total = s.total ∧ u.close = s.close ∧
      (∀ i, s.num ≤ i → u.stack[i]? = s.stack[i]?) ∧ (0 < s.num → ∃ v w, s.stack[0]? = some (v, w) ∧ u.stack[0]? = some (clampVec e bw4 bh4 (4 * bw4) (4 * bh4) v, w))) ?_ fun u hu => Res.Part.pure hu
    rw [hn]
    rcases Nat.eq_zero_or_pos s.num with h0 | hpos
    · rw [h0]
      exact Res.Part.pure ⟨h1, by omega, htot, hcl, fun i _ => by rw [hst], fun hh => absurd hh (Nat.lt_irrefl 0)⟩
    · have h1' : s.num = 1 := by omega
      rw [h1']
      show Res.Part (clampEntry e bw4 bh4 bw bh 0 0 t >>= fun s => .ok s) _
      refine Res.Part.bind (Q := fun u => StOk g u ∧ u.num = 1 ∧ u.total = s.total ∧ u.close = s.close ∧
        (∀ i, 1 ≤ i → u.stack[i]? = s.stack[i]?) ∧ (0 < 1 → ∃ v w, s.stack[0]? = some (v, w) ∧ u.stack[0]? = some (clampVec e bw4 bh4 (4 * bw4) (4 * bh4) v, w))) ?_ fun u hu => Res.Part.pure hu
      refine part_goGet.bind fun o ho => part_goSet.bind fun st hs => Res.Part.pure ?_
      obtain ⟨-, hl, rfl⟩ := goSet_inv' hs
      have ho' : t.stack[0]? = some o := goGet_inv_nat (i := 0) ho
      refine ⟨⟨h1.found, h1.zero, by rw [List.length_set]; exact h1.stack, h1.drl, h1.num, h1.globals, h1.total⟩, hn.trans h1', htot, hcl, fun i hi => ?_, fun _ => ⟨o.1, o.2, by rw [← hst]; exact ho', ?_⟩⟩
      · show (t.stack.set 0 _)[i]? = _
        rw [List.getElem?_set_ne (by omega), hst]
      · show (t.stack.set 0 _)[0]? = _
        rw [List.getElem?_set_self (by rw [h1.stack]; decide), if_pos rfl, f1, f2]
  refine hclamp.bind fun u hu => Res.Part.pure ?_
  obtain ⟨k1, k2, k3, k4, k5, k6⟩ := hu
  have hhead : ∀ a b, num4x4Wide[e.miSize]? = some a → num4x4High[e.miSize]? = some b → 0 < s.num →
      ∃ v w, s.stack[0]? = some (v, w) ∧ u.stack[0]? = some (clampVec e a b (4 * a) (4 * b) v, w) := by
    intro a b ha hb hp
    rw [goGet_inv_nat hbw4] at ha
    rw [goGet_inv_nat hbh4] at hb
    cases ha; cases hb
    exact k6 hp
  unfold mvContexts
  split
  · exact ⟨by show u.num ≤ 1; omega, k2, by show min u.total 1 ≤ 5; omega, by show u.total ≤ 5; omega, k1.zero, k1.total, k1.stack, k1.drl, k1.globals, k5, hhead⟩
  · split
    · exact ⟨by show u.num ≤ 1; omega, k2, by show 3 - min numNew 1 ≤ 5; omega, by show 2 + u.total ≤ 5; omega, k1.zero, k1.total, k1.stack, k1.drl, k1.globals, k5, hhead⟩
    · exact ⟨by show u.num ≤ 1; omega, k2, by show 5 - min numNew 1 ≤ 5; omega, by show 5 ≤ 5; omega, k1.zero, k1.total, k1.stack, k1.drl, k1.globals, k5, hhead⟩

theorem contexts_two {e : MvEnv} {compound : Bool} {numNew : Nat} {s : MvSt} (h : StOk g s) (h2 : s.num = 2) :
    (contextAndClamping e compound numNew s).Part (fun _ => False) := by
  unfold contextAndClamping
  refine part_goGet.bind fun bw _ => part_goGet.bind fun bh _ => part_goGet.bind fun bw4 _ => part_goGet.bind fun bh4 _ => ?_
  have hdrl : (forN setDrl s.num 0 s).Part (fun _ => s.num ≤ 1) := by
    have := part_forN (f := setDrl) (fun i t => (StOk g t ∧ t.num = s.num) ∧ i ≤ 1) s.num (i0 := 0) (s := s)
      (fun i t _ _ ht => (setDrl_ok ht.1).mono fun t' ht' => ⟨ht'.1, by omega⟩) ⟨⟨h, rfl⟩, by omega⟩
    exact this.mono fun t ht => by omega
  exact hdrl.bind fun t ht => absurd ht (by omega)

theorem raiseNearest_ok {n : Nat} {s : MvSt} (h : StOk g s) : (raiseNearest n s).Part (StOk g) :=
  part_forN (fun _ t => StOk g t) _ (fun _ _ _ _ ht => addWeight_ok ht) h

theorem temporalIf_ok {e : MvEnv} {compound : Bool} {s : MvSt} (h : StOk g s) : (temporalIfUsed e compound s).Part (StOk g) := by
  unfold temporalIfUsed
  split
  · exact temporalScan_ok h
  · exact Res.Part.pure h

/-- What a returning call leaves. -/
structure CallOk (e : MvEnv) (compound : Bool) (s' : MvSt) : Prop where
  single : compound = false
  one : s'.num ≤ 1
  init : StInit s'
  newCtx : s'.newCtx ≤ 5
  refCtx : s'.refCtx ≤ 5
  global : setupGlobalMv e.hdr e.gmType e.gmParams e.miRow e.miCol e.miSize e.refFrame.1 = .ok s'.globals.1
  fill : Filled2 s'
  head : ∀ bw4 bh4, num4x4Wide[e.miSize]? = some bw4 → num4x4High[e.miSize]? = some bh4 → 0 < s'.num → ∃ v w, s'.stack[0]? = some (v, w) ∧ InBounds e bw4 bh4 v

theorem findMvStack_part (e : MvEnv) (compound : Bool) {s : MvSt} (h : StInit s) : (findMvStack e compound s).Part (CallOk e compound) := by
  refine (nearScan_ok h).bind fun x hx => ?_
  obtain ⟨⟨g1, hg, h0⟩, -, ha, hl⟩ := hx
  refine (raiseNearest_ok h0).bind fun s1 h1 => ?_
  refine (temporalIf_ok (s := { s1 with zeroCtx := 0 }) ⟨h1.found, Nat.zero_le 1, h1.stack, h1.drl, h1.num, h1.globals, h1.total⟩).bind fun s2 h2 => ?_
  refine (farScan_ok ha hl h2).bind fun s3 h3 => (sortStack_ok _ (by omega) h3).bind fun s4 h4 => (sortStack_ok _ (by omega) h4.1).bind fun s5 h5 => ?_
  have h5 := h5.1
  rcases Nat.lt_or_ge s5.num 2 with hn | hn
  · unfold extraIfFew
    rw [if_pos hn]
    refine (extraSearch_ok h5).bind fun s6 h6 => ?_
    obtain ⟨h6, rfl, hf⟩ := h6
    refine (contexts_ok h6).mono fun s7 h7 => ?_
    have hg7 : s7.globals.1 = x.1.globals.1 := by rw [h7.globals]
    refine ⟨rfl, h7.one, ⟨h7.len, h7.drl, h7.zero, h7.total⟩, h7.newCtx, h7.refCtx, by rw [hg7]; exact hg, fun i hi hi2 => ?_, fun bw4 bh4 hw hh hp => ?_⟩
    · rw [h7.num] at hi
      obtain ⟨b, hb⟩ := hf i hi hi2
      exact ⟨b, by rw [h7.rest i hi, hb, h6.globals, h7.globals]⟩
    · rw [h7.num] at hp
      obtain ⟨v, w, -, hv⟩ := h7.head bw4 bh4 hw hh hp
      exact ⟨_, w, hv, clampVec_bounds rfl rfl v⟩
  · unfold extraIfFew
    rw [if_neg (by omega)]
    exact (contexts_two h5 (by have := h5.num; omega)).mono fun _ hf => hf.elim

/-! ## C134: termination -/

/-- **C134.**  The search for candidates ends, whatever the neighbourhood, the block, the tile and the frame are. -/
theorem C134_terminates (e : MvEnv) (compound : Bool) {s : MvSt} (h : StInit s) : findMvStack e compound s ≠ .error .hang := (findMvStack_part e compound h).2

/-- An environment with a neighbour to the left and one above, both inter: the block at (1, 1) of a frame of 2x2 cells. -/
def mvDemo : MvEnv :=
  { tile := ⟨0, 2, 0, 2⟩, miRow := 1, miCol := 1, miSize := 0, miRows := 2, miCols := 2, refFrame := (1, -1),
    miSizes := List.replicate 64 (List.replicate 64 0), refFrames := List.replicate 64 (List.replicate 64 (1, -1)),
    isInters := [[1, 1], [1, 1]], yModes := List.replicate 64 (List.replicate 64 17), mvs := List.replicate 64 (List.replicate 64 ((24, -16), (0, 0))),
    gmType := List.replicate 8 0, gmParams := List.replicate 8 [0, 0, 65536, 0, 0, 65536], signBias := [false, false, false] }

example : StInit {} := ⟨rfl, rfl, by decide, by decide⟩

/-! ## C135: one candidate, one reference -/

/-- **C135, refuted.**  AV1 keeps up to 8 candidates and predicts blocks from two references.  A call that returns was for a single
reference and left at most 1 candidate: a second one makes the decoder panic (`DrlCtxStack` has one entry), as does a block with two
references. -/
theorem C135_candidates_refuted (e : MvEnv) (compound : Bool) {s s' : MvSt} (h : StInit s) (hr : findMvStack e compound s = .ok s') :
    compound = false ∧ s'.num ≤ 1 :=
  ⟨((findMvStack_part e compound h).1 s' hr).single, ((findMvStack_part e compound h).1 s' hr).one⟩

example : (findMvStack mvDemo false {}).toOption.map (fun s => (s.num, s.stack, s.weights.take 2)) =
    some (1, [((24, -16), (0, 0)), ((0, 0), (0, 0))], [8, 0]) := by decide +kernel

/-! ## C136: contexts -/

/-- **C136.**  The contexts a returning call leaves are contexts of AV1's tables for `new_mv` (6), `ref_mv` (6) and `zero_mv` (2), and the
state is again one the next call may start from. -/
theorem C136_contexts (e : MvEnv) (compound : Bool) {s s' : MvSt} (h : StInit s) (hr : findMvStack e compound s = .ok s') :
    s'.newCtx < 6 ∧ s'.refCtx < 6 ∧ s'.zeroCtx < 2 ∧ StInit s' := by
  have := (findMvStack_part e compound h).1 s' hr
  exact ⟨by have := this.newCtx; omega, by have := this.refCtx; omega, by have := this.init.zero; omega, this.init⟩

example : (findMvStack mvDemo false {}).toOption.map (fun s => (s.newCtx, s.refCtx, s.zeroCtx)) = some (4, 5, 0) := by decide +kernel

/-! ## C137: vectors -/

/-- **C137.**  A vector found in the neighbourhood points, for every block, at most the block plus 16 pixels outside the frame. -/
theorem C137_bounds (e : MvEnv) (compound : Bool) {s s' : MvSt} (h : StInit s) (hr : findMvStack e compound s = .ok s') {bw4 bh4 : Nat}
    (hw : num4x4Wide[e.miSize]? = some bw4) (hh : num4x4High[e.miSize]? = some bh4) (hn : 0 < s'.num) :
    ∃ v w, s'.stack[0]? = some (v, w) ∧ InBounds e bw4 bh4 v := ((findMvStack_part e compound h).1 s' hr).head bw4 bh4 hw hh hn

/-- **C137 (padding).**  Behind the candidates, up to two, a returning call leaves the vector of the global motion of the block. -/
theorem C137_padding (e : MvEnv) (compound : Bool) {s s' : MvSt} (h : StInit s) (hr : findMvStack e compound s = .ok s') :
    ∃ gmv, setupGlobalMv e.hdr e.gmType e.gmParams e.miRow e.miCol e.miSize e.refFrame.1 = .ok gmv ∧
      ∀ i, s'.num ≤ i → i < 2 → ∃ b, s'.stack[i]? = some (gmv, b) :=
  ⟨s'.globals.1, ((findMvStack_part e compound h).1 s' hr).global, ((findMvStack_part e compound h).1 s' hr).fill⟩

-- a vector of 500 pixels downwards is cut
example : (findMvStack { mvDemo with mvs := List.replicate 64 (List.replicate 64 ((4000, 0), (0, 0))) } false {}).toOption.map (fun s => s.stack[0]?) =
    some (some ((160, 0), (0, 0))) := by decide +kernel

/-! ## C138: tiles -/

/-- The block is the first of its tile. -/
def AtCorner (e : MvEnv) : Prop := e.miRow = e.tile.rowStart ∧ e.miCol = e.tile.colStart

theorem corner_above {e : MvEnv} (h : AtCorner e) {d : Int} (hd : d < 0) (c : Int) : isInside e.tile (e.miRow + d) c = false := by
  have := h.1
  rw [Bool.eq_false_iff]
  intro hi
  unfold isInside at hi
  simp only [Bool.and_eq_true, decide_eq_true_eq] at hi
  omega

theorem corner_left {e : MvEnv} (h : AtCorner e) {d : Int} (hd : d < 0) (r : Int) : isInside e.tile r (e.miCol + d) = false := by
  have := h.2
  rw [Bool.eq_false_iff]
  intro hi
  unfold isInside at hi
  simp only [Bool.and_eq_true, decide_eq_true_eq] at hi
  omega

theorem corner_scanRow {e : MvEnv} (h : AtCorner e) {d : Int} (hd : d = -1 ∨ d = -3 ∨ d = -5) {compound : Bool} {s : MvSt} {n : Nat} (hn : num4x4Wide[e.miSize]? = some n) :
    scanRow e d compound s = .ok s := by
  unfold scanRow
  rw [goGet_of' hn]
  show scanRowLoop _ _ _ _ _ _ _ _ _ _ = _
  have hin : ∀ c : Int, isInside e.tile (e.miRow + (if decide (d.natAbs > 1) = true then d + ((e.miRow % 2 : Nat) : Int) else d)) c = false := by
    intro c
    refine corner_above h ?_ c
    have : e.miRow % 2 < 2 := Nat.mod_lt _ (by decide)
    rcases hd with rfl | rfl | rfl
    · rw [if_neg (by decide)]; decide
    · rw [if_pos (by decide)]; omega
    · rw [if_pos (by decide)]; omega
  generalize min (min (n : Int) ((e.miCols : Int) - e.miCol)) 16 = e4
  cases hf : e4.toNat with
  | zero => unfold scanRowLoop; rw [if_neg (by omega)]; rfl
  | succ k =>
    unfold scanRowLoop
    rw [hin]
    split <;> rfl

theorem corner_scanCol {e : MvEnv} (h : AtCorner e) {d : Int} (hd : d = -1 ∨ d = -3 ∨ d = -5) {compound : Bool} {s : MvSt} {n : Nat} (hn : num4x4High[e.miSize]? = some n) :
    scanCol e d compound s = .ok s := by
  unfold scanCol
  rw [goGet_of' hn]
  show scanColLoop _ _ _ _ _ _ _ _ _ _ = _
  have hin : ∀ r : Int, isInside e.tile r (e.miCol + (if decide (d.natAbs > 1) = true then d + ((e.miCol % 2 : Nat) : Int) else d)) = false := by
    intro r
    refine corner_left h ?_ r
    have : e.miCol % 2 < 2 := Nat.mod_lt _ (by decide)
    rcases hd with rfl | rfl | rfl
    · rw [if_neg (by decide)]; decide
    · rw [if_pos (by decide)]; omega
    · rw [if_pos (by decide)]; omega
  generalize min (min (n : Int) ((e.miRows : Int) - e.miRow)) 16 = e4
  cases hf : e4.toNat with
  | zero => unfold scanColLoop; rw [if_neg (by omega)]; rfl
  | succ k =>
    unfold scanColLoop
    rw [hin]
    split <;> rfl

theorem corner_point {e : MvEnv} (h : AtCorner e) {c : Int} {compound : Bool} {s : MvSt} : scanPoint e (-1) c compound s = .ok s := by
  unfold scanPoint
  rw [corner_above h (by decide)]
  rfl

/-- Up to the extra search nothing is found. -/
theorem corner_prefix {e : MvEnv} (h : AtCorner e) (ht : e.useRefFrameMvs = false) {s : MvSt} {bw4 bh4 : Nat}
    (hw : num4x4Wide[e.miSize]? = some bw4) (hh : num4x4High[e.miSize]? = some bh4) {gmv : MVec}
    (hg : setupGlobalMv e.hdr e.gmType e.gmParams e.miRow e.miCol e.miSize e.refFrame.1 = .ok gmv) :
    findMvStack e false s =
      extraSearch e false { s with num := 0, newCount := 0, globals := (gmv, s.globals.2), found := 0, close := 0, zeroCtx := 0, total := 0 } >>=
        contextAndClamping e false 0 := by
  have hnear : nearScan e false s = .ok ({ s with num := 0, newCount := 0, globals := (gmv, s.globals.2), found := 0, close := 0 }, 0, 0) := by
    unfold nearScan
    rw [goGet_of' hw, Res.ok_bind, goGet_of' hh, Res.ok_bind, hg, Res.ok_bind]
    show (do let g1 ← (.ok s.globals.2 : Res MVec); _) = _
    rw [Res.ok_bind, corner_scanRow h (Or.inl rfl) hw, Res.ok_bind]
    dsimp only
    rw [corner_scanCol h (Or.inl rfl) hh, Res.ok_bind]
    dsimp only
    unfold nearScan.nearPoint
    split
    · rw [corner_point h, Res.ok_bind]; rfl
    · rfl
  unfold findMvStack
  rw [hnear, Res.ok_bind]
  dsimp only
  show (do let s ← temporalIfUsed _ _ _; _) = _
  unfold temporalIfUsed
  rw [ht]
  show (do let s ← farScan _ _ _ _ _; _) = _
  have hfar : ∀ t : MvSt, t.found = 0 → farScan e false 0 0 t = .ok { t with total := 0 } := by
    intro t htf
    unfold farScan
    rw [goGet_of' hw, Res.ok_bind, goGet_of' hh, Res.ok_bind, corner_point h, Res.ok_bind]
    dsimp only
    rw [corner_scanRow h (Or.inr (Or.inl rfl)) hw, Res.ok_bind]
    dsimp only
    rw [corner_scanCol h (Or.inr (Or.inl rfl)) hh, Res.ok_bind]
    have hri : ∀ b t, rowIf b e false t = .ok t := by
      intro b t; unfold rowIf; split
      · exact corner_scanRow h (Or.inr (Or.inr rfl)) hw
      · rfl
    have hci : ∀ b t, colIf b e false t = .ok t := by
      intro b t; unfold colIf; split
      · exact corner_scanCol h (Or.inr (Or.inr rfl)) hh
      · rfl
    dsimp only
    rw [hri, Res.ok_bind]
    dsimp only
    rw [hci, Res.ok_bind]
    rw [← htf]
    simp only [htf]
    rfl
  rw [hfar _ rfl, Res.ok_bind]
  rfl

/-- The decoder's grids: 64x64 cells with sizes of blocks; the block lies in the frame, the frame in the grids. -/
structure Grids (e : MvEnv) : Prop where
  sizes : Shape 64 64 e.miSizes
  size : ∀ r c z, at2 e.miSizes r c = some z → z < 22
  refs : Shape 64 64 e.refFrames
  rows : e.miRows ≤ 64
  cols : e.miCols ≤ 64
  row : e.miRow < e.miRows
  col : e.miCol < e.miCols

theorem extraCell_nat {e : MvEnv} (hg : Grids e) {pass idx : Nat} (h1 : e.miCol + idx < e.miCols) (h2 : e.miRow + idx < e.miRows) :
    ∃ r c : Nat, r < 64 ∧ c < 64 ∧ mvWrap 64 (extraCell e pass idx).1 = (r : Int) ∧ mvWrap 64 (extraCell e pass idx).2 = (c : Int) := by
  have := hg.rows; have := hg.cols; have := hg.row; have := hg.col
  unfold extraCell
  split
  · by_cases h0 : e.miRow = 0
    · refine ⟨63, e.miCol + idx, by omega, by omega, ?_, ?_⟩
      · unfold mvWrap; dsimp only; rw [if_pos (by omega)]; omega
      · unfold mvWrap; dsimp only; rw [if_neg (by omega)]
    · refine ⟨e.miRow - 1, e.miCol + idx, by omega, by omega, ?_, ?_⟩
      · unfold mvWrap; dsimp only; rw [if_neg (by omega)]; omega
      · unfold mvWrap; dsimp only; rw [if_neg (by omega)]
  · by_cases h0 : e.miCol = 0
    · refine ⟨e.miRow + idx, 63, by omega, by omega, ?_, ?_⟩
      · unfold mvWrap; dsimp only; rw [if_neg (by omega)]
      · unfold mvWrap; dsimp only; rw [if_pos (by omega)]; omega
    · refine ⟨e.miRow + idx, e.miCol - 1, by omega, by omega, ?_, ?_⟩
      · unfold mvWrap; dsimp only; rw [if_neg (by omega)]
      · unfold mvWrap; dsimp only; rw [if_neg (by omega)]; omega

theorem extraOne_none {e : MvEnv} {r c : Nat} {f : Int × Int} (hf : at2 e.refFrames r c = some f) (h1 : f.1 ≤ 0) (h2 : f.2 ≤ 0) (list : Nat) (s : MvSt) :
    extraOne e r c list s = .ok s := by
  unfold extraOne
  rw [gget_at2 hf, Res.ok_bind]
  rw [if_neg]
  · rfl
  · unfold nth2; split <;> omega

theorem extraStep_ok {e : MvEnv} (hg : Grids e) {pass : Nat} {rc : Int × Int} {r c : Nat} (hr : r < 64) (hc : c < 64) (h1 : mvWrap 64 rc.1 = r) (h2 : mvWrap 64 rc.2 = c) :
    ∃ n, 1 ≤ n ∧ extraStep e pass rc = .ok n := by
  obtain ⟨z, hz⟩ := hg.sizes.at2 hr hc
  have hz22 := hg.size r c z hz
  have hlen : z < (if pass = 0 then num4x4Wide else num4x4High).length := by split <;> exact hz22
  refine ⟨(if pass = 0 then num4x4Wide else num4x4High)[z]'hlen, ?_, ?_⟩
  rotate_left
  · unfold extraStep
    rw [hg.sizes.1, h1, h2, gget_at2 hz, Res.ok_bind, goGet_lt' hlen]
  · have hm := List.getElem_mem hlen
    revert hm
    generalize (if pass = 0 then num4x4Wide else num4x4High)[z] = n
    split
    · exact (by decide : ∀ n ∈ num4x4Wide, 1 ≤ n) n
    · exact (by decide : ∀ n ∈ num4x4High, 1 ≤ n) n

theorem extraLoop_none {e : MvEnv} (hg : Grids e) (hnone : ∀ r c f, at2 e.refFrames r c = some f → f.1 ≤ 0 ∧ f.2 ≤ 0) {pass : Nat} {n : Int}
    (hn1 : n ≤ (e.miCols : Int) - e.miCol) (hn2 : n ≤ (e.miRows : Int) - e.miRow) (fuel : Nat) : ∀ {i : Nat} {s : MvSt}, n ≤ (i : Int) + fuel →
    extraLoop e false pass n fuel i s = .ok s := by
  induction fuel with
  | zero =>
    intro i s hf
    unfold extraLoop
    rw [if_neg (by omega)]
    rfl
  | succ fuel ih =>
    intro i s hf
    unfold extraLoop
    split
    · rename_i hlt
      dsimp only
      split
      · rfl
      · obtain ⟨r, c, hr, hc, e1, e2⟩ := extraCell_nat hg (pass := pass) (idx := i) (by omega) (by omega)
        obtain ⟨k, hk, hstep⟩ := extraStep_ok hg (pass := pass) hr hc e1 e2
        obtain ⟨f, hf'⟩ := hg.refs.at2 hr hc
        have hadd : addExtra e (extraCell e pass i).1 (extraCell e pass i).2 false s = .ok s := by
          unfold addExtra
          dsimp only
          rw [hg.refs.1, e1, e2, if_neg (by decide), extraOne_none hf' (hnone r c f hf').1 (hnone r c f hf').2, Res.ok_bind,
            extraOne_none hf' (hnone r c f hf').1 (hnone r c f hf').2]
        rw [hadd, Res.ok_bind, hstep, Res.ok_bind]
        exact ih (by omega)
    · rfl

/-- **C138, what holds.**  For the first block of a tile, without temporal candidates and with no inter block in the part of the grids
around it, there is no candidate: both entries are the vector of the global motion and the contexts are 0. -/
theorem C138_corner_partial (e : MvEnv) (hc : AtCorner e) (hg : Grids e) (ht : e.useRefFrameMvs = false)
    (hnone : ∀ r c f, at2 e.refFrames r c = some f → f.1 ≤ 0 ∧ f.2 ≤ 0) (hz : e.miSize < 22) {gmv : Int × Int}
    (hgm : setupGlobalMv e.hdr e.gmType e.gmParams e.miRow e.miCol e.miSize e.refFrame.1 = .ok gmv) {s : MvSt} (h : StInit s) :
    ∃ s' a b, findMvStack e false s = .ok s' ∧ s'.num = 0 ∧ s'.stack = [(gmv, a), (gmv, b)] ∧ s'.newCtx = 0 ∧ s'.refCtx = 0 ∧ s'.zeroCtx = 0 := by
  have hw : num4x4Wide[e.miSize]? = some (num4x4Wide[e.miSize]'hz) := List.getElem?_eq_getElem _
  have hh : num4x4High[e.miSize]? = some (num4x4High[e.miSize]'hz) := List.getElem?_eq_getElem _
  obtain ⟨x, y, hst⟩ : ∃ x y, s.stack = [x, y] := by
    have := h.stack
    match h' : s.stack, this with
    | [x, y], _ => exact ⟨x, y, rfl⟩
  rw [corner_prefix hc ht hw hh hgm]
  unfold extraSearch
  rw [goGet_of' hw, Res.ok_bind, goGet_of' hh, Res.ok_bind]
  dsimp only
  rw [extraLoop_none hg hnone (by omega) (by omega) _ (by omega), Res.ok_bind, extraLoop_none hg hnone (by omega) (by omega) _ (by omega), Res.ok_bind, if_neg (by decide)]
  dsimp only
  rw [hst]
  have hbw : goGet blockWidth (e.miSize : Int) = .ok (blockWidth[e.miSize]'hz) := goGet_lt' hz
  have hbh : goGet blockHeight (e.miSize : Int) = .ok (blockHeight[e.miSize]'hz) := goGet_lt' hz
  refine ⟨mvContexts 0 { s with num := 0, newCount := 0, globals := (gmv, s.globals.2), found := 0, close := 0, zeroCtx := 0, total := 0, stack := [(gmv, x.2), (gmv, y.2)] }, x.2, y.2, ?_, ?_, ?_, ?_, ?_, ?_⟩
  · show contextAndClamping e false 0 { s with num := 0, newCount := 0, globals := (gmv, s.globals.2), found := 0, close := 0, zeroCtx := 0, total := 0, stack := [(gmv, x.2), (gmv, y.2)] } = _
    unfold contextAndClamping
    rw [hbw, Res.ok_bind, hbh, Res.ok_bind, goGet_of' hw, Res.ok_bind, goGet_of' hh, Res.ok_bind]
    rfl
  all_goals rfl

theorem extraOne_one {e : MvEnv} {r c : Int} {list : Nat} {s : MvSt} (h : s.num = 1) : (extraOne e r c list s).Part (fun t => t.num = 1) := by
  refine part_gget.bind fun f _ => ?_
  split
  · refine part_gget.bind fun p _ => (mirrored_part _ _ _ _).bind fun v _ => (stackFind_part _ _ _ _).bind fun _ _ => ?_
    unfold extraPush
    rw [if_neg (by omega)]
    exact Res.Part.pure h
  · exact Res.Part.pure h

theorem extraLoop_one {e : MvEnv} {pass : Nat} {n : Int} (fuel : Nat) : ∀ {i : Nat} {s : MvSt},
    n ≤ (i : Int) + fuel → s.num = 1 → (extraLoop e false pass n fuel i s).Part (fun t => t.num = 1) := by
  induction fuel with
  | zero => intro i s hf h; unfold extraLoop; rw [if_neg (by omega)]; exact Res.Part.pure h
  | succ fuel ih =>
    intro i s hf h
    unfold extraLoop
    split
    · dsimp only
      split
      · exact Res.Part.pure h
      · refine Res.Part.bind (Q := fun t => t.num = 1) ?_ fun s' h' => (extraStep_part _ _ _).bind fun k hk => ih (by omega) h'
        exact (extraOne_one h).bind fun _ h' => extraOne_one h'
    · exact Res.Part.pure h

/-- **C138, refuted.**  AV1 takes candidates only from the block's own tile, so the first block of a tile has none.  Here, if the cell
above it (of another tile, or of the last row of the grid if there is none above) has an inter reference, every call that returns reports
a candidate: the search looks at exactly the cells outside the tile. -/
theorem C138_foreign_refuted (e : MvEnv) (hc : AtCorner e) (hrow : e.miRow < e.miRows) (hcol : e.miCol < e.miCols) (ht : e.useRefFrameMvs = false) (hz : e.miSize < 22)
    {r : Nat} (hr : (e.miRow = 0 ∧ r = e.refFrames.length - 1 ∧ 0 < e.refFrames.length) ∨ e.miRow = r + 1) {f : Int × Int}
    (hf : at2 e.refFrames r e.miCol = some f) (hinter : 0 < f.1) {s s' : MvSt} (h : StInit s) (hres : findMvStack e false s = .ok s') : s'.num = 1 := by
  have hw : num4x4Wide[e.miSize]? = some (num4x4Wide[e.miSize]'hz) := List.getElem?_eq_getElem _
  have hh : num4x4High[e.miSize]? = some (num4x4High[e.miSize]'hz) := List.getElem?_eq_getElem _
  have hw1 := (by decide : ∀ n ∈ num4x4Wide, 1 ≤ n) _ (List.getElem_mem (l := num4x4Wide) hz)
  have hh1 := (by decide : ∀ n ∈ num4x4High, 1 ≤ n) _ (List.getElem_mem (l := num4x4High) hz)
  obtain ⟨gmv, hgm⟩ : ∃ gmv, setupGlobalMv e.hdr e.gmType e.gmParams e.miRow e.miCol e.miSize e.refFrame.1 = .ok gmv :=
    ⟨_, ((findMvStack_part e false h).1 s' hres).global⟩
  rw [corner_prefix hc ht hw hh hgm] at hres
  -- the first turn
  have hcell : extraCell e 0 0 = ((e.miRow : Int) + (-1), (e.miCol : Int)) := by unfold extraCell; rw [if_pos rfl]; rfl
  have hwrap : mvWrap e.refFrames.length ((e.miRow : Int) + (-1)) = (r : Int) := by
    unfold mvWrap
    split <;> omega
  have hwrap2 : mvWrap e.refFrames.length (e.miCol : Int) = (e.miCol : Int) := by
    unfold mvWrap
    rw [if_neg (by omega)]
  have hfirst : ∀ t : MvSt, t.num = 0 → (addExtra e ((e.miRow : Int) + (-1)) (e.miCol : Int) false t).Part (fun u => u.num = 1) := by
    intro t h0
    unfold addExtra
    dsimp only
    rw [hwrap, hwrap2, if_neg (by decide)]
    refine Res.Part.bind (Q := fun u => u.num = 1) ?_ fun u hu => extraOne_one hu
    unfold extraOne
    rw [gget_at2 hf, Res.ok_bind, if_pos (show nth2 f 0 > 0 from hinter)]
    refine part_gget.bind fun p _ => (mirrored_part _ _ _ _).bind fun v _ => (stackFind_part _ _ _ _).bind fun _ _ => ?_
    unfold extraPush
    rw [if_pos h0]
    exact part_goGet.bind fun o ho => part_goSet.bind fun st hst => part_goSet.bind fun ws _ => Res.Part.pure rfl
  have key : ∀ t : MvSt, t.num = 0 → StOk (gmv, s.globals.2) t → (extraSearch e false t >>= contextAndClamping e false 0).Part (fun u => u.num = 1) := by
    intro t h0 hok
    refine Res.Part.bind (Q := fun u => u.num = 1 ∧ StOk (gmv, s.globals.2) u) ?_ fun u hu => (contexts_ok hu.2).mono fun v hv => hv.num.trans hu.1
    refine (Res.Part.and ?_ fun u hu => ((extraSearch_ok hok).1 u hu).1)
    unfold extraSearch
    rw [goGet_of' hw, Res.ok_bind, goGet_of' hh, Res.ok_bind]
    dsimp only
    refine Res.Part.bind (Q := fun u => u.num = 1) ?_ fun u hu => (extraLoop_one _ (by omega) hu).bind fun u hu => ?_
    · generalize hn : min (min (min 16 (num4x4Wide[e.miSize] : Int)) ((e.miCols : Int) - e.miCol)) (min (min 16 (num4x4High[e.miSize] : Int)) ((e.miRows : Int) - e.miRow)) = n
      obtain ⟨k, hk⟩ : ∃ k, n.toNat = k + 1 := ⟨n.toNat - 1, by omega⟩
      rw [hk]
      unfold extraLoop
      rw [if_pos (by constructor <;> omega)]
      dsimp only
      rw [hcell]
      dsimp only
      rw [corner_above hc (by decide), if_neg (by decide)]
      exact (hfirst t h0).bind fun u hu => (extraStep_part _ _ _).bind fun j hj => extraLoop_one _ (by omega) hu
    · rw [if_neg (by decide)]
      exact part_forN (f := extraFill) (fun _ (v : MvSt) => v.num = 1) _ (fun i v _ _ (hv : v.num = 1) => part_goGet.bind fun o _ => part_goSet.bind fun st _ => Res.Part.pure hv) hu
  exact (key { s with num := 0, newCount := 0, globals := (gmv, s.globals.2), found := 0, close := 0, zeroCtx := 0, total := 0 } rfl
    ⟨Nat.zero_le 1, Nat.zero_le 1, h.stack, h.drl, Nat.zero_le 2, rfl, Nat.zero_le 2⟩).1 s' hres

-- the first block of the second tile: a candidate of the first tile
example : AtCorner { mvDemo with tile := ⟨0, 2, 1, 2⟩, miRow := 0 } ∧ at2 mvDemo.refFrames 63 1 = some (1, -1) ∧
    (findMvStack { mvDemo with tile := ⟨0, 2, 1, 2⟩, miRow := 0 } false {}).toOption.map (fun s => (s.num, s.stack[0]?)) = some (1, some ((24, -16), (0, 0))) := by
  exact ⟨⟨rfl, rfl⟩, by decide +kernel, by decide +kernel⟩

example : (findMvStack { mvDemo with tile := ⟨0, 2, 1, 2⟩, miRow := 0, refFrames := List.replicate 64 (List.replicate 64 (0, -1)) } false {}).toOption.map (fun s => (s.num, s.stack[0]?)) =
    some (0, some ((0, 0), (0, 0))) := by decide +kernel


theorem extraLoop_inside {e : MvEnv} {compound : Bool} {pass : Nat} {n : Int} {s : MvSt} (h : isInside e.tile (extraCell e pass 0).1 (extraCell e pass 0).2 = true)
    {fuel : Nat} (hf : n ≤ fuel) : extraLoop e compound pass n fuel 0 s = .ok s := by
  cases fuel with
  | zero => unfold extraLoop; rw [if_neg (by omega)]; rfl
  | succ k =>
    unfold extraLoop
    split
    · dsimp only
      rw [h]; rfl
    · rfl

/-- **C138, refuted (own tile).**  With fewer than two candidates AV1 looks again at the row above and the column to the left, for blocks
with other references.  If these begin inside the tile, this search finds nothing, whatever is there. -/
theorem C138_own_refuted (e : MvEnv) (h1 : isInside e.tile ((e.miRow : Int) - 1) e.miCol = true) (h2 : isInside e.tile e.miRow ((e.miCol : Int) - 1) = true) {s s' : MvSt}
    (hr : extraSearch e false s = .ok s') : s'.num = s.num := by
  unfold extraSearch at hr
  obtain ⟨bw4, -, hr⟩ := Res.inv hr
  obtain ⟨bh4, -, hr⟩ := Res.inv hr
  dsimp only at hr
  rw [extraLoop_inside (pass := 0) h1 (by omega), Res.ok_bind, extraLoop_inside (pass := 1) h2 (by omega), Res.ok_bind, if_neg (by decide)] at hr
  exact (part_forN (f := extraFill) (fun _ (v : MvSt) => v.num = s.num) _ (fun i v _ _ (hv : v.num = s.num) => part_goGet.bind fun o _ => part_goSet.bind fun st _ => Res.Part.pure hv) rfl).1 s' hr

example : (extraSearch { mvDemo with refFrame := (2, -1) } false {}).toOption.map (fun s => s.num) = some 0 := by decide +kernel

/-! ## C139: panics -/

/-- **C139, refuted (neighbours).**  The grid that says which blocks are inter has 2x2 cells.  For a block with a cell above it in its tile,
unless that cell is one of these four, the search never returns. -/
theorem C139_above_refuted (e : MvEnv) (hi : Shape 2 2 e.isInters) (hin : isInside e.tile ((e.miRow : Int) - 1) e.miCol = true) (hcol : e.miCol < e.miCols)
    (hfar : 3 ≤ e.miRow ∨ 2 ≤ e.miCol) (compound : Bool) (s s' : MvSt) : findMvStack e compound s ≠ .ok s' := by
  intro hr
  unfold findMvStack at hr
  obtain ⟨x, hx, -⟩ := Res.inv hr
  unfold nearScan at hx
  obtain ⟨bw4, -, hx⟩ := Res.inv hx
  obtain ⟨bh4, -, hx⟩ := Res.inv hx
  obtain ⟨g0, -, hx⟩ := Res.inv hx
  obtain ⟨g1, -, hx⟩ := Res.inv hx
  obtain ⟨s1, h1, -⟩ := Res.inv hx
  unfold scanRow at h1
  obtain ⟨w4, hw4, h1⟩ := Res.inv h1
  have hpos := n4_pos (Or.inl rfl) hw4
  rw [show decide ((-1 : Int).natAbs > 1) = false from rfl] at h1
  simp only [Bool.false_eq_true, if_false] at h1
  generalize hn : min (min (w4 : Int) ((e.miCols : Int) - e.miCol)) 16 = n at h1
  obtain ⟨k, hk⟩ : ∃ k, n.toNat = k + 1 := ⟨n.toNat - 1, by omega⟩
  rw [hk] at h1
  unfold scanRowLoop at h1
  rw [if_pos (by omega)] at h1
  rw [show (e.miRow : Int) + (-1) = (e.miRow : Int) - 1 from rfl, show (e.miCol : Int) + 0 + ((0 : Nat) : Int) = (e.miCol : Int) by omega, hin, if_pos rfl] at h1
  obtain ⟨z, -, h1⟩ := Res.inv h1
  obtain ⟨m, -, h1⟩ := Res.inv h1
  obtain ⟨t, ht, -⟩ := Res.inv h1
  unfold addRefMvCandidate at ht
  obtain ⟨i, hi', -⟩ := Res.inv ht
  exact inters_small hi hfar hi'
where
  inters_small {m : List (List Int)} (hi : Shape 2 2 m) {r c : Nat} (hfar : 3 ≤ r ∨ 2 ≤ c) {i : Int} (h : gget m ((r : Int) - 1) c = .ok i) : False := by
    obtain ⟨a, b, h⟩ := gget_inv h
    unfold at2 at h
    cases hrow : m[((r : Int) - 1).toNat]? with
    | none => rw [hrow] at h; cases h
    | some l =>
      rw [hrow] at h
      have hlt := (List.getElem?_eq_some_iff.mp hrow).1
      have hl := hi.2 l (List.mem_of_getElem? hrow)
      have hlt2 := (List.getElem?_eq_some_iff.mp (show l[((c : Int)).toNat]? = some i from h)).1
      have := hi.1
      omega

/-- The block at (4, 4) of a frame of 16x16 cells. -/
def mvDemo16 : MvEnv := { mvDemo with tile := ⟨0, 16, 0, 16⟩, miRow := 4, miCol := 4, miRows := 16, miCols := 16 }

example : isInside mvDemo16.tile ((mvDemo16.miRow : Int) - 1) mvDemo16.miCol = true ∧ Shape 2 2 mvDemo16.isInters ∧ mvDemo16.miCol < mvDemo16.miCols ∧ 3 ≤ mvDemo16.miRow :=
  ⟨by decide, ⟨rfl, by decide⟩, by decide, by decide⟩
example : isInside mvDemo16.tile ((mvDemo16.miRow ||| 1 : Nat) : Int) ((mvDemo16.miCol ||| 1 : Nat) : Int) = true ∧ mvDemo16.motionField = [] := by decide

/-- **C139, refuted (temporal candidates).**  With `use_ref_frame_mvs` the decoder reads the motion field, which it never stores: for every
block that has a cell of its tile at its odd corner the search never returns. -/
theorem C139_temporal_refuted (e : MvEnv) (hu : e.useRefFrameMvs = true) (hm : e.motionField = [])
    (hin : isInside e.tile ((e.miRow ||| 1 : Nat) : Int) ((e.miCol ||| 1 : Nat) : Int) = true) (compound : Bool) (s s' : MvSt) : findMvStack e compound s ≠ .ok s' := by
  intro hr
  unfold findMvStack at hr
  obtain ⟨x, -, hr⟩ := Res.inv hr
  obtain ⟨s1, -, hr⟩ := Res.inv hr
  obtain ⟨s2, h2, -⟩ := Res.inv hr
  unfold temporalIfUsed at h2
  rw [hu, if_pos rfl] at h2
  unfold temporalScan at h2
  obtain ⟨bw4, hw, h2⟩ := Res.inv h2
  obtain ⟨bh4, hh, h2⟩ := Res.inv h2
  have pos : ∀ n, 1 ≤ n → ∃ k, (temporalSteps n).2 = k + 1 := by
    intro n hn
    unfold temporalSteps
    split
    · exact ⟨3, rfl⟩
    · exact ⟨(min n 16 + 1) / 2 - 1, by dsimp only; omega⟩
  obtain ⟨a, ha⟩ := pos bw4 (n4_pos (Or.inl rfl) hw)
  obtain ⟨b, hb⟩ := pos bh4 (n4_pos (Or.inr rfl) hh)
  rw [hb] at h2
  obtain ⟨t, h2, -⟩ := Res.inv (m := forN (fun x s => temporalSample e (0 * (temporalSteps bh4).1) (x * (temporalSteps bw4).1) compound s) (temporalSteps bw4).2 0 _) h2
  rw [ha] at h2
  obtain ⟨t, h2, -⟩ := Res.inv (m := temporalSample e (0 * (temporalSteps bh4).1) (0 * (temporalSteps bw4).1) compound _) h2
  rw [Nat.zero_mul, Nat.zero_mul] at h2
  unfold temporalSample at h2
  dsimp only at h2
  rw [Nat.add_zero, Nat.add_zero, hin, if_pos rfl] at h2
  have bad : ∀ a y z v, motionAt e a y z ≠ .ok v := by
    intro a y z v hv
    unfold motionAt at hv
    rw [hm] at hv
    obtain ⟨l, hl, -⟩ := Res.inv hv
    have := (goGet_inv hl).2
    cases this
  split at h2
  · unfold temporalOne at h2
    obtain ⟨v, hv, -⟩ := Res.inv h2
    exact bad _ _ _ _ hv
  · unfold temporalCompound at h2
    obtain ⟨v, hv, -⟩ := Res.inv h2
    exact bad _ _ _ _ hv

/-- **C139, refuted (sorting).**  Exchanging two candidates destroys the one that moves down: it becomes the weight of the other. -/
theorem C139_swap_refuted {i j : Nat} {compound : Bool} {s s' : MvSt} (h : swapStack i j compound s = .ok s') {w : Int} (hw : s.weights[i]? = some w) :
    ∃ b, s'.stack[j]? = some ((w, w), b) := by
  unfold swapStack at h
  obtain ⟨t, ht, h⟩ := Res.inv h
  obtain ⟨wj, -, h⟩ := Res.inv h
  obtain ⟨_, -, h⟩ := Res.inv h
  obtain ⟨_, -, h⟩ := Res.inv h
  obtain ⟨a, -, h⟩ := Res.inv h
  obtain ⟨b, -, h⟩ := Res.inv h
  obtain ⟨s1, h1, h⟩ := Res.inv h
  obtain ⟨s2, h2, h⟩ := Res.inv h
  cases h
  obtain ⟨-, l1, rfl⟩ := goSet_inv' h1
  obtain ⟨-, l2, rfl⟩ := goSet_inv' h2
  have e : t = w := by have := goGet_inv_nat ht; rw [hw] at this; cases this; rfl
  subst e
  refine ⟨(if compound then swapList t a.2 b.2 else (a.2, b.2)).2, ?_⟩
  show (List.set _ ((j : Int)).toNat _)[j]? = _
  simp only [Int.toNat_natCast] at l2 ⊢
  rw [List.getElem?_set_self l2]
  rfl

example : (swapStack 0 1 false { stack := [((8, 8), (0, 0)), ((16, -4), (0, 0))], weights := [2, 6, 0, 0, 0, 0, 0, 0] }).toOption.map (fun s => s.stack) =
    some [((16, -4), (0, 0)), ((2, 2), (0, 0))] := by decide +kernel

end Gov1
