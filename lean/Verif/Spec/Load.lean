import Verif.Model.InitFromVmec

/-!
# Specification of loading VMEC data

What a consistent set of arguments is, and what the loaded radial profiles have to be.  Nothing
here refers to the order or form of the checks in the code.
-/

namespace Booz.Spec
variable {α : Type}

/-- The scalar members that describe the equilibrium (set by the user or by `read_wout` before
`init_from_vmec` is called). -/
structure Sizes where
  asym : Bool
  nfp : Int
  mpol : Int
  ntor : Int
  mnmax : Int
  ntor_nyq : Int
  mnmax_nyq : Int

/-- The object holds these scalars. -/
structure Sized (I : Inputs α) (z : Sizes) : Prop where
  asym : I.asym = some z.asym
  nfp : I.nfp = some z.nfp
  mpol : I.mpol = some z.mpol
  ntor : I.ntor = some z.ntor
  mnmax : I.mnmax = some z.mnmax
  ntor_nyq : I.ntor_nyq = some z.ntor_nyq
  mnmax_nyq : I.mnmax_nyq = some z.mnmax_nyq

/-- The mode lists and the current selection of surfaces contain no uninitialised entries. -/
structure ListsInit (I : Inputs α) : Prop where
  xm : I.xm.Full I.xm.size
  xn : I.xn.Full I.xn.size
  xm_nyq : I.xm_nyq.Full I.xm_nyq.size
  xn_nyq : I.xn_nyq.Full I.xn_nyq.size
  surfs : I.compute_surfs.Full I.compute_surfs.size

/-- No argument contains an uninitialised entry. -/
structure ArgsInit (A : VmecArgs α) : Prop where
  iotas : A.iotas.Full A.iotas.size
  rmnc : A.rmnc.Full A.rmnc.rows A.rmnc.cols
  rmns : A.rmns.Full A.rmns.rows A.rmns.cols
  zmnc : A.zmnc.Full A.zmnc.rows A.zmnc.cols
  zmns : A.zmns.Full A.zmns.rows A.zmns.cols
  lmnc : A.lmnc.Full A.lmnc.rows A.lmnc.cols
  lmns : A.lmns.Full A.lmns.rows A.lmns.cols
  bmnc : A.bmnc.Full A.bmnc.rows A.bmnc.cols
  bmns : A.bmns.Full A.bmns.rows A.bmns.cols
  bsubumnc : A.bsubumnc.Full A.bsubumnc.rows A.bsubumnc.cols
  bsubumns : A.bsubumns.Full A.bsubumns.rows A.bsubumns.cols
  bsubvmnc : A.bsubvmnc.Full A.bsubvmnc.rows A.bsubvmnc.cols
  bsubvmns : A.bsubvmns.Full A.bsubvmns.rows A.bsubvmns.cols
  phip : A.phip.Full A.phip.size
  chi : A.chi.Full A.chi.size
  pres : A.pres.Full A.pres.size
  phi : A.phi.Full A.phi.size

/-- The matrix has `r` rows and `c` columns. -/
def Shape (a : Mat α) (r c : Int) : Prop := (a.rows : Int) = r ∧ (a.cols : Int) = c

/-- A mode list has `k` entries, starting with (0,0) and ending with toroidal number `last`. -/
structure ModeList (xm xn : Vec Int) (k last : Int) : Prop where
  xm_len : (xm.size : Int) = k
  xn_len : (xn.size : Int) = k
  first_m : xm.val 0 0 = 0
  first_n : xn.val 0 0 = 0
  last_n : xn.val 0 (k - 1).toNat = last

/-- Arguments consistent with each other and with the object. -/
structure Consistent (ns : Int) (A : VmecArgs α) (I : Inputs α) (z : Sizes) : Prop where
  ns_ge : 2 ≤ ns
  nfp_ge : 1 ≤ z.nfp
  iotas : (A.iotas.size : Int) = ns
  flux : A.phip.size ≠ 0 → (A.phip.size : Int) = ns ∧ (A.chi.size : Int) = ns ∧
    (A.pres.size : Int) = ns ∧ (A.phi.size : Int) = ns
  modes : ModeList I.xm I.xn z.mnmax (z.nfp * z.ntor)
  modes_nyq : ModeList I.xm_nyq I.xn_nyq z.mnmax_nyq (z.nfp * z.ntor_nyq)
  rmnc : Shape A.rmnc z.mnmax ns
  zmns : Shape A.zmns z.mnmax ns
  lmns : Shape A.lmns z.mnmax ns
  bmnc : Shape A.bmnc z.mnmax_nyq ns
  bsubumnc : Shape A.bsubumnc z.mnmax_nyq ns
  bsubvmnc : Shape A.bsubvmnc z.mnmax_nyq ns
  asym : z.asym = true → Shape A.rmns z.mnmax ns ∧ Shape A.zmnc z.mnmax ns ∧
    Shape A.lmnc z.mnmax ns ∧ Shape A.bmns z.mnmax_nyq ns ∧ Shape A.bsubumns z.mnmax_nyq ns ∧
    Shape A.bsubvmns z.mnmax_nyq ns
  surfs : ∀ j, j < I.compute_surfs.size →
    0 ≤ I.compute_surfs.val 0 j ∧ I.compute_surfs.val 0 j < ns - 1

/-- The entries printed at verbosity above 1 exist. -/
def PrintOk (A : VmecArgs α) (I : Inputs α) : Prop :=
  I.verbose ≤ 1 ∨ (4 ≤ A.rmnc.rows ∧ 4 ≤ A.rmnc.cols)

/-- What, besides consistency, loading needs in order to return. -/
structure Loadable (ns : Int) (A : VmecArgs α) (I : Inputs α) (z : Sizes) : Prop where
  axis : ∀ j, j < I.xm.size → I.xm.val 0 j = 1 → 3 ≤ ns
  print : PrintOk A I
  fit_m : FitsInt (6 * z.mpol)
  fit_n : FitsInt (2 * z.ntor)
  fit_n1 : FitsInt (2 * z.ntor - 1)

/-- There is at least one mode of each kind, and the products compared by the validation are
representable. -/
structure Computable (z : Sizes) : Prop where
  modes : z.mnmax ≠ 0
  modes_nyq : z.mnmax_nyq ≠ 0
  fit : FitsInt (z.nfp * z.ntor)
  fit_nyq : FitsInt (z.nfp * z.ntor_nyq)

/-- No uninitialised data is involved. -/
structure Given (A : VmecArgs α) (I : Inputs α) (z : Sizes) : Prop where
  sized : Sized I z
  lists : ListsInit I
  args : ArgsInit A

end Booz.Spec
