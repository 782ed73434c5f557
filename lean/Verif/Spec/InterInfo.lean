import Verif.Spec.Coeffs
/-!
# Mode info of inter frames

Written from AV1 5.11.7, 5.11.18-5.11.27 and 8.3.2, independently of the decoder.  References: 0 intra, 1 LAST, 2 LAST2, 3 LAST3,
4 GOLDEN, 5 BWDREF, 6 ALTREF2, 7 ALTREF, -1 none.
-/
namespace Gov1.Spec

/-- The context of `is_inter` from the neighbours above and left (`none`: not available; otherwise its two references). -/
def interCtx : Option (Int × Int) → Option (Int × Int) → Nat
  | none, none => 0
  | some u, none => if u.1 ≤ 0 then 2 else 0
  | none, some l => if l.1 ≤ 0 then 2 else 0
  | some u, some l => if u.1 ≤ 0 ∧ l.1 ≤ 0 then 3 else if u.1 ≤ 0 ∨ l.1 ≤ 0 then 1 else 0

/-- The references of the neighbours. -/
def nbList (u l : Option (Int × Int)) : List Int := (u.toList ++ l.toList).flatMap fun r => [r.1, r.2]

/-- How many of the references are among `s`. -/
def refCount (nb s : List Int) : Nat := (nb.filter (fun r => s.contains r)).length

/-- 0, 1, 2 as the first number is less than, equal to or greater than the second. -/
def cmpCtx (a b : Nat) : Nat := if a < b then 0 else if a = b then 1 else 2

/-- The question that `single_ref_p<i>` answers: which references stand for "no" and for "yes". -/
def singleRefSets : Nat → List Int × List Int
  | 1 => ([1, 2, 3, 4], [5, 6, 7])
  | 2 => ([5, 6], [7])
  | 3 => ([1, 2], [3, 4])
  | 4 => ([1], [2])
  | 5 => ([3], [4])
  | 6 => ([5], [6])
  | _ => ([], [])

/-- The context of `single_ref_p<i>`: the neighbours' votes. -/
def singleRefCtx (i : Nat) (nb : List Int) : Nat := cmpCtx (refCount nb (singleRefSets i).1) (refCount nb (singleRefSets i).2)

/-- The questions asked for a single reference, with the answers. -/
def singleRefPath : Nat → List (Nat × Nat)
  | 1 => [(1, 0), (3, 0), (4, 0)]
  | 2 => [(1, 0), (3, 0), (4, 1)]
  | 3 => [(1, 0), (3, 1), (5, 0)]
  | 4 => [(1, 0), (3, 1), (5, 1)]
  | 5 => [(1, 1), (2, 0), (6, 0)]
  | 6 => [(1, 1), (2, 0), (6, 1)]
  | 7 => [(1, 1), (2, 1)]
  | _ => []

/-- The replies that code a single reference. -/
def singleRefCode (f : Nat) : List Nat := (singleRefPath f).map (·.2)

/-- The tables consulted for a single reference. -/
def singleRefTables (f : Nat) (nb : List Int) : List (String × List Int) :=
  (singleRefPath f).map fun p => ("SingleRef", [(singleRefCtx p.1 nb : Int), (p.1 : Int) - 1])

/-- The context of `y_mode`: 0 to 3 by the smaller side of the block, 4, 8, 16, 32 and more pixels. -/
def yModeCtx (w h : Nat) : Nat := min 3 (Nat.log2 (min w h) - 2)

/-- `r` is the least of the ids in the part of the block that lies in the frame. -/
def IsLeastId (ids : Nat → Nat → Option Int) (row col h w rows cols : Nat) (r : Int) : Prop :=
  (∃ y x, row ≤ y ∧ y < row + h ∧ y < rows ∧ col ≤ x ∧ x < col + w ∧ x < cols ∧ ids y x = some r) ∧
  ∀ y x v, row ≤ y → y < row + h → y < rows → col ≤ x → x < col + w → x < cols → ids y x = some v → r ≤ v

end Gov1.Spec
