/-!
# Go run-time conventions shared by every model file

A Go function of /repo that may panic is modelled as a function into `Except Fault`, one that also
reads the bit stream as a value of `BM`.  A panic is a *value* (`Except.error`), never a default.
-/
namespace Gov1

/-- The ways a Go call in /repo can fail to return. -/
inductive Fault where
  /-- run-time panic: slice/array index or slice bound out of range -/
  | index
  /-- run-time panic: negative shift count -/
  | shift
  /-- run-time panic: integer division by zero -/
  | div
  /-- an explicit `panic("...")` in /repo -/
  | explicit (msg : String)
  /-- the Go loop does not terminate -/
  | hang
  deriving DecidableEq, Repr

/-- Result of a Go call that may panic. -/
abbrev Res (α : Type) := Except Fault α

instance {α : Type} [DecidableEq α] : DecidableEq (Res α)
  | .ok a, .ok b => if h : a = b then isTrue (by rw [h]) else isFalse (by intro h'; cases h'; exact h rfl)
  | .error a, .error b =>
    if h : a = b then isTrue (by rw [h]) else isFalse (by intro h'; cases h'; exact h rfl)
  | .ok _, .error _ => isFalse (by intro h; cases h)
  | .error _, .ok _ => isFalse (by intro h; cases h)

/-- Go slice read `xs[i]` with a possibly negative `int` index. -/
def goGet {α : Type} (xs : List α) (i : Int) : Res α :=
  if i < 0 then .error .index
  else match xs[i.toNat]? with
    | some a => .ok a
    | none => .error .index

/-- Go slice write `xs[i] = v` with a possibly negative `int` index. -/
def goSet {α : Type} (xs : List α) (i : Int) (v : α) : Res (List α) :=
  if i < 0 then .error .index
  else if i.toNat < xs.length then .ok (xs.set i.toNat v)
  else .error .index

end Gov1
