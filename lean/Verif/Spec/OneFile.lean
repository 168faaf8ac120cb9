import Verif.Spec.Session

/-!
# Specification: a boozmn file belongs to one equilibrium
-/

namespace Booz.Spec
variable {α : Type} [Arith α]

/-- A boozmn file of `K` modes on `nb` out of `ns` surfaces (with asymmetric parts if `asym`) whose spectra, mode numbers and current profiles
are those of the object `a`, while everything else it says is what the object `b` says. -/
structure Mixture (g : NcFile α) (a b : St α) (K nb ns : Nat) (asym : Bool) : Prop where
  bmnc_b : HoldsMat g K nb "bmnc_b" id a.out.spec.bmnc_b
  rmnc_b : HoldsMat g K nb "rmnc_b" id a.out.spec.rmnc_b
  zmns_b : HoldsMat g K nb "zmns_b" id a.out.spec.zmns_b
  pmns_b : HoldsMat g K nb "pmns_b" (- ·) a.out.spec.numns_b
  gmn_b : HoldsMat g K nb "gmn_b" id a.out.spec.gmnc_b
  asym_vars : asym = true →
    HoldsMat g K nb "bmns_b" id a.out.spec.bmns_b ∧ HoldsMat g K nb "rmns_b" id a.out.spec.rmns_b ∧
    HoldsMat g K nb "zmnc_b" id a.out.spec.zmnc_b ∧ HoldsMat g K nb "pmnc_b" (- ·) a.out.spec.numnc_b ∧
    HoldsMat g K nb "gmns_b" id a.out.spec.gmns_b
  ixm_b : HoldsInts g "mn_modes" "ixm_b" a.out.xm_b
  ixn_b : HoldsInts g "mn_modes" "ixn_b" a.out.xn_b
  buco_b : HoldsShifted g ns "buco_b" (ofInt 0) a.out.boozer_I_all
  bvco_b : HoldsShifted g ns "bvco_b" (ofInt 0) a.out.boozer_G_all
  nfp_b : HoldsInt g "nfp_b" b.inp.nfp
  mboz_b : HoldsInt g "mboz_b" (some b.inp.mboz)
  nboz_b : HoldsInt g "nboz_b" (some b.inp.nboz)
  aspect_b : HoldsDbl g "aspect_b" b.inp.aspect
  iota_b : HoldsShifted g ns "iota_b" (ofInt 0) b.inp.iota
  jlist : HoldsSurfs g nb b.inp.compute_surfs
  flux : b.flux.phip.size ≠ 0 → HoldsVec g "radius" "chi_b" b.flux.chi ∧
    HoldsVec g "radius" "pres_b" b.flux.pres ∧ HoldsVec g "radius" "phi_b" b.flux.phi

/-- Calls that neither compute nor load anything: setting `verbose`, and writing. -/
inductive Passive : Call → Prop
  | verbose (v : Int) : Passive (.setVerbose v)
  | write (env : Env) (version path : String) : Passive (.write env version path)

/-- From one state to another by passive calls, each of which returns or throws. -/
inductive Passively : Sess α → Sess α → Prop
  | refl (w : Sess α) : Passively w w
  | ok {w w' w'' : Sess α} {c : Call} (h : Passively w w') (hc : Passive c) (hp : perform c w' = .ok () w'') :
      Passively w w''
  | exc {w w' w'' : Sess α} {c : Call} {m : String} (h : Passively w w') (hc : Passive c)
      (hp : perform c w' = .exc m w'') : Passively w w''

end Booz.Spec
