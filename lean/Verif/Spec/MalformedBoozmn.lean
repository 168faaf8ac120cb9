import Verif.Spec.Malformed
import Verif.Spec.Boozmn

/-!
# Specification: boozmn files whose contents contradict each other, or are incomplete
-/

namespace Booz.Spec
variable {α : Type} [Arith α]

/-- The numbers that determine the sizes of the arrays in a boozmn file. -/
structure BoozmnSizes where
  lasym : Int
  mnboz : Int
  radius : Nat
  surfs : Nat

/-- The file holds these numbers: two scalars and two dimensions. -/
structure BoozmnScalars (f : NcFile α) (z : BoozmnSizes) : Prop where
  lasym : ScalarIs f "lasym__logical__" z.lasym
  mnboz : ScalarIs f "mnboz_b" z.mnboz
  radius : f.dim? "radius" = some z.radius
  surfs : f.dim? "comput_surfs" = some z.surfs

/-- Scalar variables. -/
def bzScalars : List String := ["lasym__logical__", "nfp_b", "mboz_b", "nboz_b", "mnboz_b", "ns_b"]
/-- Variables over the modes. -/
def bzModes : List String := ["ixm_b", "ixn_b"]
/-- Variables over all surfaces. -/
def bzProfiles : List String := ["iota_b", "bvco_b", "buco_b", "phi_b", "phip_b", "pres_b"]
/-- Variables over the modes and the computed surfaces. -/
def bzSpectra (asym : Bool) : List String :=
  ["bmnc_b", "rmnc_b", "zmns_b", "pmns_b", "gmn_b"] ++
    if asym then ["bmns_b", "rmns_b", "zmnc_b", "pmnc_b", "gmns_b"] else []
/-- All required variables. -/
def bzRequired (asym : Bool) : List String := bzScalars ++ bzModes ++ bzProfiles ++ ["jlist"] ++ bzSpectra asym

/-- Number of values that a variable ought to have, according to the sizes in the file. -/
def bzRoom (z : BoozmnSizes) (name : String) : Nat :=
  if name ∈ bzScalars then 1
  else if name ∈ bzModes then z.mnboz.toNat
  else if name ∈ bzProfiles then z.radius
  else if name = "jlist" then z.surfs
  else z.mnboz.toNat * z.surfs

/-- All required variables are present and hold numbers, the integer variables numbers in the range of integers. -/
def BoozmnNumeric (f : NcFile α) (asym : Bool) : Prop :=
  ∀ n ∈ bzRequired asym, ∃ v, f.var? n = some v ∧ ncDbls v ≠ none ∧
    (n ∈ bzScalars ++ bzModes ++ ["jlist"] → ncInts v ≠ none)

/-- The contents do not contradict each other in a way that matters: there are modes and surfaces, and no variable
has more values than it ought to have (the variable `chi_b` may be missing). -/
structure BoozmnFits (f : NcFile α) (z : BoozmnSizes) : Prop where
  mnboz : 1 ≤ z.mnboz
  radius : 1 ≤ z.radius
  surfs : 1 ≤ z.surfs
  room : ∀ n ∈ bzRequired (decide (z.lasym ≠ 0)), entries f n ≤ bzRoom z n
  chi : ∀ v, f.var? "chi_b" = some v → ncDbls v ≠ none → entries f "chi_b" ≤ z.radius

/-- `f` is `g` with some of its variables and dimensions removed (but not `chi_b`). -/
structure PartOf (f g : NcFile α) : Prop where
  vars : ∀ n, f.var? n = g.var? n ∨ (f.var? n = none ∧ n ≠ "chi_b")
  dims : ∀ n, f.dim? n = g.dim? n ∨ f.dim? n = none

end Booz.Spec
