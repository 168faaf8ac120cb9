import Verif.Spec.Ready

/-!
# When `run` may be called

The contract of `run()` split into what an object holds (`Prepared`) and the conditions on the
numbers it holds (`InRange`), which `run()` does not check.
-/

namespace Booz.Spec
variable {α : Type}

/-- The scalar members and array lengths of a prepared object. -/
structure Contents where
  asym : Bool
  nfp : Nat
  mpol : Int
  ntor : Int
  mpol_nyq : Int
  ntor_nyq : Int
  mnmax : Nat
  mnmax_nyq : Nat
  ns : Nat
  nsb : Nat

/-- Every member read by `run` has been assigned, the arrays have the lengths the scalar members
say, and at least one surface is selected.  Nothing is said about mode numbers or surface
indices. -/
structure Prepared (I : Inputs α) (c : Contents) : Prop where
  asym : I.asym = some c.asym
  nfp : I.nfp = some (c.nfp : Int)
  nfp_pos : 1 ≤ c.nfp
  mpol : I.mpol = some c.mpol
  mpol_int : c.mpol < 2147483648
  ntor : I.ntor = some c.ntor
  mpol_nyq : I.mpol_nyq = some c.mpol_nyq
  ntor_nyq : I.ntor_nyq = some c.ntor_nyq
  mnmax : I.mnmax = some (c.mnmax : Int)
  mnmax_nyq : I.mnmax_nyq = some (c.mnmax_nyq : Int)
  mnmax_nyq_pos : 1 ≤ c.mnmax_nyq
  ns_in : I.ns_in = some (c.ns : Int)
  xm : I.xm.Full c.mnmax
  xn : I.xn.Full c.mnmax
  xm_nyq : I.xm_nyq.Full c.mnmax_nyq
  xn_nyq : I.xn_nyq.Full c.mnmax_nyq
  xn_nyq_int : ∀ k, k < c.mnmax_nyq → (I.xn_nyq.val 0 k).natAbs < 2147483648
  s_in : I.s_in.Full c.ns
  iota : I.iota.Full c.ns
  rmnc : I.rmnc.Full c.mnmax c.ns
  zmns : I.zmns.Full c.mnmax c.ns
  lmns : I.lmns.Full c.mnmax c.ns
  bmnc : I.bmnc.Full c.mnmax_nyq c.ns
  bsubumnc : I.bsubumnc.Full c.mnmax_nyq c.ns
  bsubvmnc : I.bsubvmnc.Full c.mnmax_nyq c.ns
  rmns : c.asym = true → I.rmns.Full c.mnmax c.ns
  zmnc : c.asym = true → I.zmnc.Full c.mnmax c.ns
  lmnc : c.asym = true → I.lmnc.Full c.mnmax c.ns
  bmns : c.asym = true → I.bmns.Full c.mnmax_nyq c.ns
  bsubumns : c.asym = true → I.bsubumns.Full c.mnmax_nyq c.ns
  bsubvmns : c.asym = true → I.bsubvmns.Full c.mnmax_nyq c.ns
  surfs : I.compute_surfs.Full c.nsb
  surfs_pos : 1 ≤ c.nsb

/-- The conditions on the numbers: mode numbers within the declared maxima (the poloidal maximum of
the first family being `mpol - 1`), surfaces among those of the input, and one more than the largest
toroidal and Nyquist mode numbers representable. -/
structure InRange (I : Inputs α) (c : Contents) : Prop where
  mboz : 1 ≤ I.mboz
  mpol : 2 ≤ c.mpol
  mpol_nyq : 1 ≤ c.mpol_nyq
  xm : ∀ k, k < c.mnmax → 0 ≤ I.xm.val 0 k ∧ I.xm.val 0 k < c.mpol
  xn : ∀ k, k < c.mnmax → (I.xn.val 0 k).natAbs < 2147483648 ∧
    ((I.xn.val 0 k).natAbs : Int) / c.nfp ≤ c.ntor
  xm_nyq : ∀ k, k < c.mnmax_nyq → 0 ≤ I.xm_nyq.val 0 k ∧ I.xm_nyq.val 0 k ≤ c.mpol_nyq
  xn_nyq : ∀ k, k < c.mnmax_nyq → ((I.xn_nyq.val 0 k).natAbs : Int) / c.nfp ≤ c.ntor_nyq
  surfs : ∀ k, k < c.nsb → 0 ≤ I.compute_surfs.val 0 k ∧ I.compute_surfs.val 0 k < c.ns
  ntor_nonneg : 0 ≤ c.ntor
  ntor_nyq_nonneg : 0 ≤ c.ntor_nyq
  fit_ntor : FitsInt (c.ntor + 1)
  fit_mpol_nyq : FitsInt (c.mpol_nyq + 1)
  fit_ntor_nyq : FitsInt (c.ntor_nyq + 1)

/-- The sizes of a run of such an object. -/
def Contents.dims (c : Contents) (mboz nboz : Int) : Dims where
  asym := c.asym
  M := mboz.toNat
  N := nboz.toNat
  nfp := c.nfp
  mpol := c.mpol.toNat
  ntor := c.ntor.toNat
  mnmax := c.mnmax
  mq := c.mpol_nyq.toNat
  nq := c.ntor_nyq.toNat
  mnq := c.mnmax_nyq
  ns := c.ns
  nsb := c.nsb

end Booz.Spec
