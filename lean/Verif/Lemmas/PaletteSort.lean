import Verif.Model.PaletteMap
import Verif.Spec.PaletteMap
/-!
# The order of the colours, for every combination of neighbours
-/
namespace Gov1
open Spec

def palOpts (n : Nat) : List (Option Nat) := none :: (List.range n).map some

def palCheck (n : Nat) (l al a : Option Nat) : Bool :=
  match sortScores n ((List.range 8).map (palScore 1 l al a), (List.range 8).map Int.ofNat) with
  | .ok (s, o) => decide (o = (palOrder 1 n l al a).map Int.ofNat ++ ((List.range 8).drop n).map Int.ofNat) && decide (contextHash s = .ok (palHash 1 n l al a))
  | .error _ => false

set_option maxRecDepth 100000 in
theorem palCheck_all : ∀ n ∈ [2, 3, 4, 5, 6, 7, 8], ∀ l ∈ palOpts n, ∀ al ∈ palOpts n, ∀ a ∈ palOpts n, palCheck n l al a = true := by decide +kernel

end Gov1
