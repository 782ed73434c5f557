import Verif.Spec.Bits
/-! # Helper lemmas about the bit stream model (no property is stated here) -/
namespace Gov1

@[simp] theorem BM.pure_apply {α : Type} (a : α) (s : BitStream) :
    (pure a : BM α) s = .ok (a, s) := rfl
theorem BM.bind_apply {α β : Type} (m : BM α) (k : α → BM β) (s : BitStream) :
    (m >>= k) s = match m s with | .ok (a, s') => k a s' | .error e => .error e := rfl
theorem BM.bind_ok {α β : Type} {m : BM α} {k : α → BM β} {s s' : BitStream} {a : α}
    (h : m s = .ok (a, s')) : (m >>= k) s = k a s' := by rw [BM.bind_apply, h]
theorem BM.bind_error {α β : Type} {m : BM α} {k : α → BM β} {s : BitStream} {e : Fault}
    (h : m s = .error e) : (m >>= k) s = .error e := by rw [BM.bind_apply, h]
@[simp] theorem BM.getPos_bind {β : Type} (k : Nat → BM β) (s : BitStream) :
    (BM.getPos >>= k) s = k s.pos s := rfl
@[simp] theorem BM.getLeb_bind {β : Type} (k : Nat → BM β) (s : BitStream) :
    (BM.getLeb >>= k) s = k s.leb s := rfl
@[simp] theorem BM.setPos_bind {β : Type} (p : Nat) (k : Unit → BM β) (s : BitStream) :
    (BM.setPos p >>= k) s = k () { s with pos := p } := rfl
@[simp] theorem setLeb_bind {β : Type} (p : Nat) (k : Unit → BM β) (s : BitStream) :
    (setLeb p >>= k) s = k () { s with leb := p } := rfl
@[simp] theorem BM.pure_bind {α β : Type} (a : α) (k : α → BM β) :
    ((pure a : BM α) >>= k) = k a := rfl
@[simp] theorem BM.lift_ok {α : Type} (a : α) : BM.lift (.ok a) = (pure a : BM α) := rfl
@[simp] theorem BM.lift_error {α : Type} (e : Fault) : BM.lift (.error e : Res α) = BM.fail e := rfl
@[simp] theorem BM.fail_bind {α β : Type} (e : Fault) (k : α → BM β) :
    ((BM.fail e : BM α) >>= k) = BM.fail e := rfl
@[simp] theorem BM.fail_apply {α : Type} (e : Fault) (s : BitStream) :
    (BM.fail e : BM α) s = .error e := rfl

theorem BM.bind_eq_ok {α β : Type} {m : BM α} {k : α → BM β} {s : BitStream} {r : β × BitStream} :
    (m >>= k) s = .ok r ↔ ∃ a s', m s = .ok (a, s') ∧ k a s' = .ok r := by
  rw [BM.bind_apply]
  cases h : m s with
  | error e => simp
  | ok p =>
    obtain ⟨a, s'⟩ := p
    constructor
    · intro h; exact ⟨a, s', rfl, h⟩
    · rintro ⟨_, _, h, h'⟩; cases h; exact h'

instance : LawfulMonad BM := LawfulMonad.mk'
  (id_map := by
    intro α x; funext s
    show (match x s with | .ok (a, s') => _ | .error e => _) = _
    cases x s <;> rfl)
  (pure_bind := by intros; rfl)
  (bind_assoc := by
    intro α β γ x f g; funext s
    show (match (match x s with | .ok (a, s') => f a s' | .error e => .error e) with
      | .ok (a, s') => g a s' | .error e => .error e) =
      (match x s with
        | .ok (a, s') => (match f a s' with | .ok (a, s') => g a s' | .error e => .error e)
        | .error e => .error e)
    cases x s <;> rfl)

/-! ## bits -/

@[simp] theorem byteBits_length (b : UInt8) : (byteBits b).length = 8 := rfl

theorem bytesBits_length (d : List UInt8) : (bytesBits d).length = 8 * d.length := by
  induction d with
  | nil => rfl
  | cons b d ih => simp [bytesBits, List.flatMap_cons] at *; omega

theorem bytesBits_cons (b : UInt8) (d : List UInt8) :
    bytesBits (b :: d) = byteBits b ++ bytesBits d := by simp [bytesBits]

theorem bytesBits_append (a b : List UInt8) :
    bytesBits (a ++ b) = bytesBits a ++ bytesBits b := by simp [bytesBits]

theorem byteBits_get (b : UInt8) (k : Nat) (hk : k < 8) :
    (byteBits b)[k]? = some (b.toNat.testBit (7 - k)) := by
  match k, hk with
  | 0, _ | 1, _ | 2, _ | 3, _ | 4, _ | 5, _ | 6, _ | 7, _ => rfl

theorem bytesBits_get (d : List UInt8) (p : Nat) :
    (bytesBits d)[p]? = (d[p / 8]?).map (fun b => b.toNat.testBit (7 - p % 8)) := by
  induction d generalizing p with
  | nil => simp [bytesBits]
  | cons b d ih =>
    rw [bytesBits_cons]
    by_cases hp : p < 8
    · rw [List.getElem?_append_left (by simpa using hp), byteBits_get b p hp]
      have h1 : p / 8 = 0 := by omega
      have h2 : p % 8 = p := by omega
      simp [h1, h2]
    · rw [List.getElem?_append_right (by simp; omega), byteBits_length, ih]
      have h1 : p / 8 = (p - 8) / 8 + 1 := by omega
      have h2 : p % 8 = (p - 8) % 8 := by omega
      rw [h1, h2]; simp

theorem unread_length (s : BitStream) : (unread s).length = 8 * s.data.length - s.pos := by
  simp [unread, bytesBits_length]

theorem shift_mod_two (v k : Nat) : (v >>> k) % 2 = (v.testBit k).toNat := by
  rw [Nat.testBit_eq_decide_div_mod_eq, Nat.shiftRight_eq_div_pow]
  rcases Nat.mod_two_eq_zero_or_one (v / 2 ^ k) with h | h <;> simp [h]

theorem readBit_eq (s : BitStream) :
    readBit s = match (unread s).head? with | some b => .ok b.toNat | none => .error .index := by
  have : (unread s).head? = (bytesBits s.data)[s.pos]? := by
    rw [unread, List.head?_drop]
  rw [this, bytesBits_get]
  unfold readBit
  cases s.data[s.pos / 8]? with
  | none => rfl
  | some b =>
    simp only [Option.map_some]
    have : 8 - s.pos % 8 - 1 = 7 - s.pos % 8 := by omega
    rw [this, shift_mod_two]

@[simp] theorem unread_advance (s : BitStream) (n : Nat) :
    unread (s.advance n) = (unread s).drop n := by
  simp [unread, BitStream.advance, List.drop_drop]

@[simp] theorem advance_pos (s : BitStream) (n : Nat) : (s.advance n).pos = s.pos + n := rfl
@[simp] theorem advance_data (s : BitStream) (n : Nat) : (s.advance n).data = s.data := rfl
@[simp] theorem advance_leb (s : BitStream) (n : Nat) : (s.advance n).leb = s.leb := rfl
@[simp] theorem advance_advance (s : BitStream) (m n : Nat) :
    (s.advance m).advance n = s.advance (m + n) := by simp [BitStream.advance, Nat.add_assoc]
@[simp] theorem advance_zero (s : BitStream) : s.advance 0 = s := rfl
@[simp] theorem unread_leb (s : BitStream) (n : Nat) : unread { s with leb := n } = unread s := rfl

theorem readBit1_cons {s : BitStream} {b : Bool} {rest : List Bool} (h : unread s = b :: rest) :
    readBit1 s = .ok (b.toNat, s.advance 1) := by
  simp [readBit1, readBit_eq, h, BitStream.advance]

theorem readBit1_nil {s : BitStream} (h : unread s = []) : readBit1 s = .error .index := by
  simp [readBit1, readBit_eq, h]

theorem bitsVal_append (a b : List Bool) : bitsVal (a ++ b) = bitsVal a * 2 ^ b.length + bitsVal b := by
  induction a with
  | nil => simp [bitsVal]
  | cons x a ih =>
    simp only [List.cons_append, bitsVal, ih, List.length_append, Nat.pow_add, Nat.add_mul]
    rw [Nat.mul_assoc, Nat.add_assoc]

theorem bitsVal_lt (a : List Bool) : bitsVal a < 2 ^ a.length := by
  induction a with
  | nil => simp [bitsVal]
  | cons x a ih =>
    simp only [bitsVal, List.length_cons, Nat.pow_succ]
    cases x <;> simp <;> omega

theorem fLoop_eq (n x : Nat) (s : BitStream) :
    fLoop n x s = if n ≤ (unread s).length
      then .ok (x * 2 ^ n + bitsVal ((unread s).take n), s.advance n) else .error .index := by
  induction n generalizing x s with
  | zero => simp [fLoop, bitsVal]
  | succ n ih =>
    unfold fLoop
    cases h : unread s with
    | nil => rw [BM.bind_error (readBit1_nil h)]; simp
    | cons b rest =>
      rw [BM.bind_ok (readBit1_cons h), ih]
      simp only [unread_advance, h, List.drop_succ_cons, List.drop_zero, List.length_cons,
        Nat.add_le_add_iff_right, List.take_succ_cons, bitsVal, advance_advance]
      split
      · rename_i hn
        have : (rest.take n).length = n := by simp [hn]
        rw [this, Nat.add_comm 1 n, Nat.pow_succ]
        congr 2
        rw [Nat.add_mul, Nat.mul_comm 2 x, Nat.mul_assoc, Nat.mul_comm 2, Nat.add_assoc]
      · rfl

/-- Complete description of `F`. -/
theorem F_eq (n : Nat) (s : BitStream) :
    F n s = if n ≤ (unread s).length
      then .ok (bitsVal ((unread s).take n), s.advance n) else .error .index := by
  rw [F, fLoop_eq]; simp

theorem F_append {s : BitStream} {a rest : List Bool} (h : unread s = a ++ rest) :
    F a.length s = .ok (bitsVal a, s.advance a.length) := by
  rw [F_eq, h]; simp

@[simp] theorem encF_length (n v : Nat) : (encF n v).length = n := by
  induction n with
  | zero => rfl
  | succ n ih => simp [encF, ih]

theorem bitsVal_encF (n v : Nat) : bitsVal (encF n v) = v % 2 ^ n := by
  induction n with
  | zero => simp [encF, bitsVal, Nat.mod_one]
  | succ n ih =>
    simp only [encF, bitsVal, encF_length, ih]
    rw [← shift_mod_two, Nat.shiftRight_eq_div_pow, Nat.pow_succ]
    rw [Nat.mod_mul, Nat.mul_comm, Nat.add_comm]

theorem F_enc {s : BitStream} {n v : Nat} {rest : List Bool} (h : unread s = encF n v ++ rest) :
    F n s = .ok (v % 2 ^ n, s.advance n) := by
  have := F_append h
  rw [encF_length, bitsVal_encF] at this
  exact this

theorem encF_bitsVal (a : List Bool) : encF a.length (bitsVal a) = a := by
  suffices h : ∀ (a : List Bool) (m : Nat), encF a.length (m * 2 ^ a.length + bitsVal a) = a by
    simpa using h a 0
  intro a
  induction a with
  | nil => intro m; rfl
  | cons x a ih =>
    intro m
    simp only [List.length_cons, encF, bitsVal]
    have e : m * 2 ^ (a.length + 1) + (x.toNat * 2 ^ a.length + bitsVal a)
        = (m * 2 + x.toNat) * 2 ^ a.length + bitsVal a := by
      rw [Nat.pow_succ, Nat.add_mul]
      have : m * (2 ^ a.length * 2) = m * 2 * 2 ^ a.length := by
        rw [Nat.mul_assoc, Nat.mul_comm (2 ^ a.length)]
      omega
    rw [e, ih]
    congr 1
    rw [Nat.testBit_eq_decide_div_mod_eq]
    have hlt := bitsVal_lt a
    have : ((m * 2 + x.toNat) * 2 ^ a.length + bitsVal a) / 2 ^ a.length = m * 2 + x.toNat := by
      rw [Nat.add_comm, Nat.add_mul_div_right _ _ (Nat.two_pow_pos _), Nat.div_eq_of_lt hlt]
      simp
    rw [this]
    cases x <;> simp

/-! ## the other descriptors -/

theorem unread_drop {s : BitStream} {a rest : List Bool} (h : unread s = a ++ rest) :
    unread (s.advance a.length) = rest := by simp [h]

theorem shiftsToZero_eq (x : Nat) (hx : 0 < x) : shiftsToZero x = Nat.log2 x + 1 := by
  induction x using Nat.strongRecOn with
  | _ x ih =>
    match x, hx with
    | y + 1, _ =>
      rw [shiftsToZero]
      by_cases h : (y + 1) / 2 = 0
      · rw [h]
        have : y = 0 := by omega
        subst this
        rw [shiftsToZero]
        decide
      · rw [ih _ (by omega) (by omega)]
        rw [Nat.log2_def (y + 1), if_pos (by omega)]

theorem floorLog2_eq (x : Nat) (hx : 0 < x) : floorLog2 x = Nat.log2 x := by
  rw [floorLog2, shiftsToZero_eq x hx]; simp

theorem leLoop_enc (n i v t : Nat) (s : BitStream) (rest : List Bool) (hv : v < 256 ^ n)
    (h : unread s = encLe n v ++ rest) :
    leLoop n i t s = .ok (t + v * 2 ^ (8 * i), s.advance (8 * n)) := by
  induction n generalizing i v t s with
  | zero =>
    have : v = 0 := by simpa using hv
    subst this; simp [leLoop]
  | succ n ih =>
    rw [encLe, List.append_assoc] at h
    rw [leLoop, BM.bind_ok (F_enc h)]
    have h' := unread_drop h
    rw [encF_length] at h'
    have hv' : v / 256 < 256 ^ n := by
      apply Nat.div_lt_of_lt_mul; rw [Nat.mul_comm]; rw [Nat.pow_succ] at hv; exact hv
    rw [ih _ _ _ _ hv' h']
    rw [advance_advance]
    have e2 : 8 + 8 * n = 8 * (n + 1) := by omega
    rw [e2]
    congr 2
    rw [Nat.shiftLeft_eq]
    have : v % 256 % 2 ^ 8 = v % 256 := by omega
    rw [this, Nat.mul_comm i 8]
    have e3 : 2 ^ (8 * (i + 1)) = 256 * 2 ^ (8 * i) := by
      rw [Nat.mul_add, Nat.pow_add, Nat.mul_comm]
    rw [e3, ← Nat.mul_assoc, Nat.add_assoc, ← Nat.add_mul]
    congr 2
    omega

theorem encLe_length (n v : Nat) : (encLe n v).length = 8 * n := by
  induction n generalizing v with
  | zero => rfl
  | succ n ih => simp [encLe, ih]; omega

theorem encLeb_length (n v : Nat) : (encLeb n v).length = 8 * (n + 1) := by
  induction n generalizing v with
  | zero => simp [encLeb]
  | succ n ih => simp [encLeb, ih]; omega

theorem F8_flag {s : BitStream} {b : Bool} {v : Nat} {rest : List Bool}
    (h : unread s = (b :: encF 7 v) ++ rest) :
    F 8 s = .ok (b.toNat * 128 + v % 128, s.advance 8) := by
  have := F_append h
  simpa [bitsVal, bitsVal_encF] using this

theorem and_7f (x : Nat) : x &&& 0x7f = x % 128 := Nat.and_two_pow_sub_one_eq_mod x 7

theorem flag_and_80 (b : Bool) (v : Nat) : ((b.toNat * 128 + v % 128) &&& 0x80 != 0) = b := by
  have h : ∀ w, w < 128 → ∀ b : Bool, ((b.toNat * 128 + w) &&& 0x80 != 0) = b := by decide +kernel
  exact h _ (Nat.mod_lt _ (by decide)) b

theorem flag_and_7f (b : Bool) (v : Nat) : (b.toNat * 128 + v % 128) &&& 0x7f = v % 128 := by
  rw [and_7f]; cases b <;> simp <;> omega

theorem or_shift_eq_add (a b k : Nat) (h : a < 2 ^ k) : a ||| (b <<< k) = a + b * 2 ^ k := by
  rw [Nat.or_comm, ← Nat.shiftLeft_add_eq_or_of_lt h, Nat.shiftLeft_eq, Nat.add_comm]

theorem lebLoop_enc (n k i value v : Nat) (s : BitStream) (rest : List Bool)
    (hv : v < 128 ^ (n + 1)) (hk : n < k) (hval : value < 2 ^ (i * 7))
    (h : unread s = encLeb n v ++ rest) :
    lebLoop k i value s
      = .ok (value + v * 2 ^ (i * 7), { s.advance (8 * (n + 1)) with leb := s.leb + (n + 1) }) := by
  induction n generalizing i value v s k with
  | zero =>
    obtain ⟨k, rfl⟩ : ∃ k', k = k' + 1 := ⟨k - 1, by omega⟩
    rw [encLeb] at h
    rw [lebLoop, BM.bind_ok (F8_flag h)]
    simp only [BM.getLeb_bind, setLeb_bind, flag_and_80, flag_and_7f]
    rw [Nat.mod_mod, or_shift_eq_add _ _ _ hval]
    have : v % 128 = v := by omega
    simp [this]
  | succ n ih =>
    obtain ⟨k, rfl⟩ : ∃ k', k = k' + 1 := ⟨k - 1, by omega⟩
    rw [encLeb, List.append_assoc] at h
    rw [lebLoop, BM.bind_ok (F8_flag h)]
    simp only [BM.getLeb_bind, setLeb_bind, flag_and_80, flag_and_7f]
    rw [Nat.mod_mod, or_shift_eq_add _ _ _ hval]
    have h' := unread_drop h
    simp only [List.length_cons, encF_length] at h'
    have hv' : v / 128 < 128 ^ (n + 1) := by
      apply Nat.div_lt_of_lt_mul; rw [Nat.mul_comm]; rw [Nat.pow_succ] at hv; exact hv
    have e3 : 2 ^ ((i + 1) * 7) = 128 * 2 ^ (i * 7) := by
      rw [Nat.add_mul, Nat.pow_add, Nat.mul_comm]
    have hval' : value + v % 128 * 2 ^ (i * 7) < 2 ^ ((i + 1) * 7) := by
      rw [e3]
      have h1 : v % 128 * 2 ^ (i * 7) ≤ 127 * 2 ^ (i * 7) := Nat.mul_le_mul_right _ (by omega)
      omega
    rw [if_pos trivial]
    refine (ih k (i + 1) _ (v / 128) { s.advance 8 with leb := s.leb + 1 } hv' (by omega) hval' h').trans ?_
    rw [e3, ← Nat.mul_assoc, Nat.add_assoc value, ← Nat.add_mul]
    have e4 : v % 128 + v / 128 * 128 = v := by omega
    rw [e4]
    congr 2
    simp only [BitStream.advance]
    congr 1 <;> omega

theorem uvlcZeros_run (k fuel z : Nat) (s : BitStream) (rest : List Bool)
    (h : unread s = List.replicate k false ++ true :: rest) (hf : k < fuel) :
    uvlcZeros fuel z s = .ok (z + k, s.advance (k + 1)) := by
  induction k generalizing fuel z s with
  | zero =>
    obtain ⟨f, rfl⟩ : ∃ f, fuel = f + 1 := ⟨fuel - 1, by omega⟩
    have h1 : unread s = [true] ++ rest := by simpa using h
    have hF := F_append h1
    simp only [List.length_singleton] at hF
    rw [uvlcZeros, BM.bind_ok hF]
    simp [bitsVal]
  | succ k ih =>
    obtain ⟨f, rfl⟩ : ∃ f, fuel = f + 1 := ⟨fuel - 1, by omega⟩
    have h1 : unread s = [false] ++ (List.replicate k false ++ true :: rest) := by
      simpa [List.replicate_succ] using h
    have hF := F_append h1
    simp only [List.length_singleton] at hF
    rw [uvlcZeros, BM.bind_ok hF]
    have h2 := unread_drop h1
    simp only [List.length_singleton] at h2
    have := ih f (z + 1) _ h2 (by omega)
    simp only [bitsVal, Bool.toNat_false, List.length_nil, Nat.zero_mul, Nat.zero_add]
    rw [if_neg (by decide), this, advance_advance]
    have e1 : z + 1 + k = z + (k + 1) := by omega
    have e2 : 1 + (k + 1) = k + 1 + 1 := by omega
    rw [e1, e2]

theorem uvlcZeros_all (k fuel z : Nat) (s : BitStream)
    (h : unread s = List.replicate k false) (hf : k < fuel) :
    uvlcZeros fuel z s = .error .index := by
  induction k generalizing fuel z s with
  | zero =>
    obtain ⟨f, rfl⟩ : ∃ f, fuel = f + 1 := ⟨fuel - 1, by omega⟩
    rw [uvlcZeros, BM.bind_error]
    rw [F_eq, h]; simp
  | succ k ih =>
    obtain ⟨f, rfl⟩ : ∃ f, fuel = f + 1 := ⟨fuel - 1, by omega⟩
    have h1 : unread s = [false] ++ List.replicate k false := by
      simpa [List.replicate_succ] using h
    have hF := F_append h1
    simp only [List.length_singleton] at hF
    rw [uvlcZeros, BM.bind_ok hF]
    have h2 := unread_drop h1
    simp only [List.length_singleton] at h2
    simp only [bitsVal, Bool.toNat_false, List.length_nil, Nat.zero_mul, Nat.zero_add]
    rw [if_neg (by decide), ih f _ _ h2 (by omega)]

end Gov1
