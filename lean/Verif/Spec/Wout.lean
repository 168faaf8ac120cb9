import Verif.Model.ReadWout

/-!
# Specification of reading a VMEC `wout` file

Which variables the file must have, what shapes they have, and which members and arguments they
become.
-/

namespace Booz.Spec
variable {α : Type} [Arith α]

/-- The values of a variable as integers: integers as they are, other numbers truncated.  `none` for
text and if a number is too large to be truncated. -/
def ncInts (v : NcVar α) : Option (Vec Int) :=
  match v.data with
  | .ints a => some a
  | .dbls a =>
    if ∀ c ∈ a, ∀ x ∈ c, (Arith.toInt x).isSome then some (a.map fun c => c.bind Arith.toInt) else none
  | .text _ => none

/-- The values of a variable as floating-point numbers, to which integers are converted.  `none` for
text. -/
def ncDbls (v : NcVar α) : Option (Vec α) :=
  match v.data with
  | .dbls a => some a
  | .ints a => some (a.map fun c => c.map ofInt)
  | .text _ => none

/-- The variable's values as integers (empty if there is no such numeric variable). -/
def intsOf (f : NcFile α) (name : String) : Vec Int := ((f.var? name).bind ncInts).getD #[]

/-- The variable's values as floating-point numbers (empty if there is no such numeric variable). -/
def dblsOf (f : NcFile α) (name : String) : Vec α := ((f.var? name).bind ncDbls).getD #[]

/-- The scalars of a `wout` file. -/
structure WoutSizes where
  lasym : Int
  ns : Int
  nfp : Int
  mpol : Int
  ntor : Int
  mnmax : Int
  mnmax_nyq : Int

/-- Required variables that do not depend on options. -/
def woutBase : List String :=
  ["lasym__logical__", "ns", "nfp", "mpol", "ntor", "mnmax", "mnmax_nyq", "aspect", "iotas", "xm",
   "xn", "xm_nyq", "xn_nyq", "rmnc", "zmns", "lmns", "bmnc", "bsubumnc", "bsubvmnc"]
/-- Required when flux profiles are requested. -/
def woutFlux : List String := ["chi", "phipf", "pres", "phi"]
/-- Required when the file says it is not stellarator-symmetric. -/
def woutAsym : List String := ["rmns", "zmnc", "lmnc", "bmns", "bsubumns", "bsubvmns"]
/-- All required variables. -/
def woutRequired (flux asym : Bool) : List String :=
  woutBase ++ (if flux then woutFlux else []) ++ (if asym then woutAsym else [])

/-- If the variable is present, it is a scalar with integer value `x`. -/
def ScalarIs (f : NcFile α) (name : String) (x : Int) : Prop :=
  ∀ v, f.var? name = some v → ncInts v = some #[some x]
/-- If the variable is present, it holds `n` integers. -/
def HasInts (f : NcFile α) (name : String) (n : Int) : Prop :=
  ∀ v, f.var? name = some v → ∃ a, ncInts v = some a ∧ a.Full n.toNat ∧
    ∀ i < n.toNat, FitsInt (a.val 0 i)
/-- If the variable is present, it holds `n` floating-point numbers. -/
def HasDbls (f : NcFile α) (name : String) (n : Int) : Prop :=
  ∀ v, f.var? name = some v → ∃ a, ncDbls v = some a ∧ a.Full n.toNat

/-- The variables that are present have the documented shapes. -/
structure WoutShapes (f : NcFile α) (z : WoutSizes) : Prop where
  lasym : ScalarIs f "lasym__logical__" z.lasym
  ns : ScalarIs f "ns" z.ns
  nfp : ScalarIs f "nfp" z.nfp
  mpol : ScalarIs f "mpol" z.mpol
  ntor : ScalarIs f "ntor" z.ntor
  mnmax : ScalarIs f "mnmax" z.mnmax
  mnmax_nyq : ScalarIs f "mnmax_nyq" z.mnmax_nyq
  aspect : HasDbls f "aspect" 1
  chi : HasDbls f "chi" z.ns
  phipf : HasDbls f "phipf" z.ns
  pres : HasDbls f "pres" z.ns
  phi : HasDbls f "phi" z.ns
  iotas : HasDbls f "iotas" z.ns
  xm : HasInts f "xm" z.mnmax
  xn : HasInts f "xn" z.mnmax
  xm_nyq : HasInts f "xm_nyq" z.mnmax_nyq
  xn_nyq : HasInts f "xn_nyq" z.mnmax_nyq
  mats : ∀ n ∈ ["rmnc", "zmns", "lmns", "rmns", "zmnc", "lmnc"], HasDbls f n (z.mnmax * z.ns)
  mats_nyq : ∀ n ∈ ["bmnc", "bsubumnc", "bsubvmnc", "bmns", "bsubumns", "bsubvmns"],
    HasDbls f n (z.mnmax_nyq * z.ns)
  ns_pos : 1 ≤ z.ns
  nfp_pos : 1 ≤ z.nfp
  mnmax_pos : 1 ≤ z.mnmax ∧ FitsInt z.mnmax
  mnmax_nyq_pos : 1 ≤ z.mnmax_nyq ∧ FitsInt z.mnmax_nyq

/-- The members assigned from the file. -/
def woutInp (f : NcFile α) (z : WoutSizes) (I : Inputs α) : Inputs α :=
  { I with
    asym := some (decide (z.lasym ≠ 0))
    nfp := some z.nfp
    mpol := some z.mpol
    ntor := some z.ntor
    mnmax := some z.mnmax
    mnmax_nyq := some z.mnmax_nyq
    aspect := some ((dblsOf f "aspect").val (ofInt 0) 0)
    xm := intsOf f "xm"
    xn := intsOf f "xn"
    xm_nyq := intsOf f "xm_nyq"
    xn_nyq := intsOf f "xn_nyq"
    mpol_nyq := some ((intsOf f "xm_nyq").val 0 (z.mnmax_nyq.toNat - 1))
    ntor_nyq := some (((intsOf f "xn_nyq").val 0 (z.mnmax_nyq.toNat - 1)).tdiv z.nfp) }

/-- The file's matrix `name[ns][rows]` as a (rows, ns) array. -/
def woutMat (f : NcFile α) (rows ns : Int) (name : String) : Mat α :=
  ⟨rows.toNat, ns.toNat, dblsOf f name⟩

/-- The arguments handed to `init_from_vmec`. -/
def woutArgs (f : NcFile α) (z : WoutSizes) (flux : Bool) : VmecArgs α :=
  let sym (rows : Int) (name : String) := woutMat f rows z.ns name
  let asy (rows : Int) (name : String) := if z.lasym ≠ 0 then woutMat f rows z.ns name else .empty
  let prof (name : String) : Vec α := if flux then dblsOf f name else #[]
  { iotas := dblsOf f "iotas"
    rmnc := sym z.mnmax "rmnc"
    rmns := asy z.mnmax "rmns"
    zmnc := asy z.mnmax "zmnc"
    zmns := sym z.mnmax "zmns"
    lmnc := asy z.mnmax "lmnc"
    lmns := sym z.mnmax "lmns"
    bmnc := sym z.mnmax_nyq "bmnc"
    bmns := asy z.mnmax_nyq "bmns"
    bsubumnc := sym z.mnmax_nyq "bsubumnc"
    bsubumns := asy z.mnmax_nyq "bsubumns"
    bsubvmnc := sym z.mnmax_nyq "bsubvmnc"
    bsubvmns := asy z.mnmax_nyq "bsubvmns"
    phip := prof "phipf"
    chi := prof "chi"
    pres := prof "pres"
    phi := prof "phi" }

end Booz.Spec
