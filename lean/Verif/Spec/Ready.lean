import Verif.Model.State

/-!
# Preconditions of `run`

The sizes of a run and the well-formedness conditions under which the property theorems about
`run` are stated.  Nothing here refers to the model of the code, only to the object's members.
-/

namespace Booz

/-- The sizes that determine a run. -/
structure Dims where
  asym : Bool
  /-- `mboz` -/
  M : Nat
  /-- `nboz` -/
  N : Nat
  nfp : Nat
  mpol : Nat
  ntor : Nat
  mnmax : Nat
  mq : Nat
  nq : Nat
  mnq : Nat
  ns : Nat
  /-- number of surfaces in `compute_surfs` -/
  nsb : Nat

namespace Dims
variable (d : Dims)
/-- `ntheta`, `init.cpp:35` -/
def nt : Nat := 2 * (2 * d.M + 1)
/-- `nzeta`, `init.cpp:36-37` -/
def nz : Nat := if d.N = 0 then 1 else 2 * (2 * d.N + 1)
/-- `nu2_b`, `init.cpp:38` -/
def nu2 : Nat := 2 * d.M + 2
/-- `nu3_b`, `init.cpp:88-92` -/
def nu3 : Nat := if d.asym then d.nt else d.nu2
/-- `n_theta_zeta`, `init.cpp:93` -/
def np : Nat := d.nu3 * d.nz
/-- `mnboz`, `init.cpp:40` (for `mboz ≥ 1`) -/
def nmodes : Nat := (2 * d.N + 1) * (d.M - 1) + d.N + 1
end Dims

variable {α : Type}

/-- Well-formed inputs: sizes agree with the size members, arrays that will be read are
initialised, mode numbers stay within the trigonometric tables and surfaces are in range. -/
structure RunShape (I : Inputs α) (d : Dims) : Prop where
  asym : I.asym = some d.asym
  nfp : I.nfp = some (d.nfp : Int)
  nfp_pos : 1 ≤ d.nfp
  mpol : I.mpol = some (d.mpol : Int)
  mpol_ge : 2 ≤ d.mpol
  ntor : I.ntor = some (d.ntor : Int)
  mnmax : I.mnmax = some (d.mnmax : Int)
  mpol_nyq : I.mpol_nyq = some (d.mq : Int)
  mpol_nyq_ge : 1 ≤ d.mq
  ntor_nyq : I.ntor_nyq = some (d.nq : Int)
  mnmax_nyq : I.mnmax_nyq = some (d.mnq : Int)
  mnmax_nyq_ge : 1 ≤ d.mnq
  ns_in : I.ns_in = some (d.ns : Int)
  mboz : I.mboz = (d.M : Int)
  mboz_ge : 1 ≤ d.M
  nboz : I.nboz = (d.N : Int)
  xm : I.xm.Full d.mnmax
  xm_range : ∀ k, k < d.mnmax → 0 ≤ I.xm.val 0 k ∧ I.xm.val 0 k < d.mpol
  xn : I.xn.Full d.mnmax
  xn_range : ∀ k, k < d.mnmax → (I.xn.val 0 k).natAbs / d.nfp ≤ d.ntor
  xn_int : ∀ k, k < d.mnmax → (I.xn.val 0 k).natAbs < 2147483648
  xm_nyq : I.xm_nyq.Full d.mnq
  xm_nyq_range : ∀ k, k < d.mnq → 0 ≤ I.xm_nyq.val 0 k ∧ I.xm_nyq.val 0 k ≤ d.mq
  xn_nyq : I.xn_nyq.Full d.mnq
  xn_nyq_range : ∀ k, k < d.mnq → (I.xn_nyq.val 0 k).natAbs / d.nfp ≤ d.nq
  xn_nyq_int : ∀ k, k < d.mnq → (I.xn_nyq.val 0 k).natAbs < 2147483648
  s_in : I.s_in.Full d.ns
  iota : I.iota.Full d.ns
  rmnc : I.rmnc.Full d.mnmax d.ns
  zmns : I.zmns.Full d.mnmax d.ns
  lmns : I.lmns.Full d.mnmax d.ns
  bmnc : I.bmnc.Full d.mnq d.ns
  bsubumnc : I.bsubumnc.Full d.mnq d.ns
  bsubvmnc : I.bsubvmnc.Full d.mnq d.ns
  rmns : d.asym = true → I.rmns.Full d.mnmax d.ns
  zmnc : d.asym = true → I.zmnc.Full d.mnmax d.ns
  lmnc : d.asym = true → I.lmnc.Full d.mnmax d.ns
  bmns : d.asym = true → I.bmns.Full d.mnq d.ns
  bsubumns : d.asym = true → I.bsubumns.Full d.mnq d.ns
  bsubvmns : d.asym = true → I.bsubvmns.Full d.mnq d.ns
  surfs : I.compute_surfs.Full d.nsb
  surfs_range : ∀ k, k < d.nsb → 0 ≤ I.compute_surfs.val 0 k ∧ I.compute_surfs.val 0 k < d.ns
  fit_ntor : d.ntor < 2147483647
  fit_mq : d.mq < 2147483647
  fit_nq : d.nq < 2147483647
  fit_mpol : d.mpol < 2147483648

/-- Inputs for which `run` is safe: well-formed, and the grid sizes fit in an `int`. -/
structure RunReady (I : Inputs α) (d : Dims) : Prop extends RunShape I d where
  fit_theta : d.nt < 2147483648
  fit_zeta : 2 * (2 * d.N + 1) < 2147483648
  fit_pts : d.np < 2147483648
  fit_nfp : d.nfp * d.nz < 2147483648

/-- First Nyquist mode is (0,0), the condition asserted at `init.cpp:152-153`. -/
def OriginFirst (I : Inputs α) : Prop := I.xm_nyq.val 0 0 = 0 ∧ I.xn_nyq.val 0 0 = 0

end Booz
