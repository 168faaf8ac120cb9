import Verif.Spec.Wout

/-!
# Specification: `wout` files whose contents contradict each other
-/

namespace Booz.Spec
variable {α : Type} [Arith α]

/-- Number of values stored in a variable. -/
def valueCount : NcData α → Nat
  | .ints v => v.size
  | .dbls v => v.size
  | .text s => s.length

/-- Number of values stored in the variable of the given name (0 if there is none). -/
def entries (f : NcFile α) (name : String) : Nat := ((f.var? name).map fun v => valueCount v.data).getD 0

/-- Number of values that a variable ought to have, according to the scalars of the file. -/
def woutRoom (z : WoutSizes) (name : String) : Nat :=
  if name ∈ ["iotas", "chi", "phipf", "pres", "phi"] then z.ns.toNat
  else if name ∈ ["xm", "xn"] then z.mnmax.toNat
  else if name ∈ ["xm_nyq", "xn_nyq"] then z.mnmax_nyq.toNat
  else if name ∈ ["rmnc", "zmns", "lmns", "rmns", "zmnc", "lmnc"] then z.mnmax.toNat * z.ns.toNat
  else if name ∈ ["bmnc", "bsubumnc", "bsubvmnc", "bmns", "bsubumns", "bsubvmns"] then
    z.mnmax_nyq.toNat * z.ns.toNat
  else 1

/-- The file holds the integer scalars `z`. -/
structure WoutScalars (f : NcFile α) (z : WoutSizes) : Prop where
  lasym : ScalarIs f "lasym__logical__" z.lasym
  ns : ScalarIs f "ns" z.ns
  nfp : ScalarIs f "nfp" z.nfp
  mpol : ScalarIs f "mpol" z.mpol
  ntor : ScalarIs f "ntor" z.ntor
  mnmax : ScalarIs f "mnmax" z.mnmax
  mnmax_nyq : ScalarIs f "mnmax_nyq" z.mnmax_nyq

/-- All required variables are present and hold numbers, the integer variables numbers in the range of integers. -/
def WoutNumeric (f : NcFile α) (flux asym : Bool) : Prop :=
  ∀ n ∈ woutRequired flux asym, ∃ v, f.var? n = some v ∧ ncDbls v ≠ none ∧
    (n ∈ ["lasym__logical__", "ns", "nfp", "mpol", "ntor", "mnmax", "mnmax_nyq", "xm", "xn", "xm_nyq", "xn_nyq"] →
      ncInts v ≠ none)

/-- The contents do not contradict each other in a way that matters: the numbers of surfaces and modes are positive,
the number of field periods is not zero, and no variable has more values than it ought to have. -/
structure WoutFits (f : NcFile α) (z : WoutSizes) (flux : Bool) : Prop where
  ns : 1 ≤ z.ns
  mnmax : 1 ≤ z.mnmax
  mnmax_nyq : 1 ≤ z.mnmax_nyq
  nfp : z.nfp ≠ 0
  room : ∀ n ∈ woutRequired flux (decide (z.lasym ≠ 0)), entries f n ≤ woutRoom z n

/-- The radial profiles and matrices that are read. -/
def woutArrays (flux asym : Bool) : List String :=
  ["iotas", "rmnc", "zmns", "lmns", "bmnc", "bsubumnc", "bsubvmnc"] ++ (if flux then woutFlux else []) ++
    (if asym then woutAsym else [])

end Booz.Spec
