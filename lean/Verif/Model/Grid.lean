import Verif.Go
/-!
# Go loops and two-dimensional arrays

Shared by the models of the block-level code, whose functions are nests of `for` loops over arrays.
-/
namespace Gov1

/-- The Go loop `for i := i0; i < i0+n; i++ { s = f(i, s) }` whose body may panic. -/
def forN {σ : Type} (f : Nat → σ → Res σ) : Nat → Nat → σ → Res σ
  | 0, _, s => .ok s
  | n + 1, i, s => do
    let s ← f i s
    forN f n (i + 1) s

/-- Go read `m[i][j]`. -/
def gget {α : Type} (m : List (List α)) (i j : Int) : Res α := do
  let r ← goGet m i
  goGet r j

/-- Go write `m[i][j] = v`. -/
def gset {α : Type} (m : List (List α)) (i j : Int) (v : α) : Res (List (List α)) := do
  let r ← goGet m i
  let r ← goSet r j v
  goSet m i r

end Gov1
