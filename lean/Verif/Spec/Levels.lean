import Verif.Spec.Stdout

/-!
# Specification: the levels of `verbose`
-/

namespace Booz.Spec
variable {α : Type} [Arith α]

/-- The smallest `verbose` at which a message is printed; messages about errors are always printed. -/
def levelOf : StdLine α → Option Int
  | .netcdfError _ => none
  | .vmecArrays => some 2
  | .solving _ => some 2
  | _ => some 1

/-- Whether a message is printed. -/
def shown (verbose : Int) (l : StdLine α) : Bool :=
  match levelOf l with
  | none => true
  | some k => decide (k ≤ verbose)

/-- The messages about the surfaces of a run, from the `n`-th on. -/
def surfaceTalk : Nat → List (Report α) → List (StdLine α)
  | _, [] => []
  | n, r :: l => .solving n :: .report r :: surfaceTalk (n + 1) l

/-- All messages of a call that returns: `r` are the reports of a run, `e` the messages about a missing `chi_b`. -/
def talk (c : Call) (r : List (Report α)) (e : List String) : List (StdLine α) :=
  match c with
  | .readWout path _ => [.about path, .vmecSizes, .vmecArrays]
  | .readBoozmn path => [.about path] ++ e.map .netcdfError ++ [.boozSizes, .boozSurfs, .boozS]
  | .run => [.surfs, .resolution, .header] ++ surfaceTalk 0 r
  | .write _ _ path => [.writing path]
  | _ => []

end Booz.Spec
