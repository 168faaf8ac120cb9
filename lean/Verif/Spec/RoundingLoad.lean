import Verif.Spec.Rounding
import Verif.Spec.Load

/-!
# Specification: rounded VMEC data
-/

namespace Booz.Spec

/-- The arguments `A` of `init_from_vmec` are the arguments `B` up to errors of at most `e`. -/
structure ArgsNear {α : Type} (fin : α → Prop) (val : α → ℝ) (ns : ℤ) (z : Sizes) (e : ℝ) (A : VmecArgs α)
    (B : VmecArgs ℝ) : Prop where
  iotas : VecNear fin val ns.toNat e A.iotas B.iotas
  rmnc : MatNear fin val z.mnmax.toNat ns.toNat e A.rmnc B.rmnc
  zmns : MatNear fin val z.mnmax.toNat ns.toNat e A.zmns B.zmns
  lmns : MatNear fin val z.mnmax.toNat ns.toNat e A.lmns B.lmns
  bmnc : MatNear fin val z.mnmax_nyq.toNat ns.toNat e A.bmnc B.bmnc
  bsubumnc : MatNear fin val z.mnmax_nyq.toNat ns.toNat e A.bsubumnc B.bsubumnc
  bsubvmnc : MatNear fin val z.mnmax_nyq.toNat ns.toNat e A.bsubvmnc B.bsubvmnc
  rmns : z.asym = true → MatNear fin val z.mnmax.toNat ns.toNat e A.rmns B.rmns
  zmnc : z.asym = true → MatNear fin val z.mnmax.toNat ns.toNat e A.zmnc B.zmnc
  lmnc : z.asym = true → MatNear fin val z.mnmax.toNat ns.toNat e A.lmnc B.lmnc
  bmns : z.asym = true → MatNear fin val z.mnmax_nyq.toNat ns.toNat e A.bmns B.bmns
  bsubumns : z.asym = true → MatNear fin val z.mnmax_nyq.toNat ns.toNat e A.bsubumns B.bsubumns
  bsubvmns : z.asym = true → MatNear fin val z.mnmax_nyq.toNat ns.toNat e A.bsubvmns B.bsubvmns

/-- Two objects hold the same mode lists and the same `mpol_nyq`. -/
structure SameModes {α β : Type} (I : Inputs α) (J : Inputs β) : Prop where
  xm : I.xm = J.xm
  xn : I.xn = J.xn
  xm_nyq : I.xm_nyq = J.xm_nyq
  xn_nyq : I.xn_nyq = J.xn_nyq
  mpol_nyq : I.mpol_nyq = J.mpol_nyq

end Booz.Spec
