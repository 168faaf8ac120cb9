import Verif.Model.State

/-!
# Specification: two input sets describe the same flux surface
-/

namespace Booz.Spec
variable {α : Type}

/-- Column `j₁` of `a` equals column `j₂` of `b` in the first `K` rows. -/
def SameCol (K : Nat) (a b : Mat α) (j₁ j₂ : Nat) : Prop := ∀ k < K, a.rdN k j₁ = b.rdN k j₂

/-- Surface `j₁` of `I₁` and surface `j₂` of `I₂` have the same data: mode lists, rotational
transform and harmonics (the asymmetric harmonics are compared only if `asym`). -/
structure SameSurface (asym : Bool) (I₁ I₂ : Inputs α) (j₁ j₂ : Nat) : Prop where
  xm : I₁.xm = I₂.xm
  xn : I₁.xn = I₂.xn
  xm_nyq : I₁.xm_nyq = I₂.xm_nyq
  xn_nyq : I₁.xn_nyq = I₂.xn_nyq
  iota : I₁.iota.rdN j₁ = I₂.iota.rdN j₂
  rmnc : SameCol I₁.xm.size I₁.rmnc I₂.rmnc j₁ j₂
  zmns : SameCol I₁.xm.size I₁.zmns I₂.zmns j₁ j₂
  lmns : SameCol I₁.xm.size I₁.lmns I₂.lmns j₁ j₂
  bmnc : SameCol I₁.xm_nyq.size I₁.bmnc I₂.bmnc j₁ j₂
  bsubumnc : SameCol I₁.xm_nyq.size I₁.bsubumnc I₂.bsubumnc j₁ j₂
  bsubvmnc : SameCol I₁.xm_nyq.size I₁.bsubvmnc I₂.bsubvmnc j₁ j₂
  rmns : asym = true → SameCol I₁.xm.size I₁.rmns I₂.rmns j₁ j₂
  zmnc : asym = true → SameCol I₁.xm.size I₁.zmnc I₂.zmnc j₁ j₂
  lmnc : asym = true → SameCol I₁.xm.size I₁.lmnc I₂.lmnc j₁ j₂
  bmns : asym = true → SameCol I₁.xm_nyq.size I₁.bmns I₂.bmns j₁ j₂
  bsubumns : asym = true → SameCol I₁.xm_nyq.size I₁.bsubumns I₂.bsubumns j₁ j₂
  bsubvmns : asym = true → SameCol I₁.xm_nyq.size I₁.bsubvmns I₂.bsubvmns j₁ j₂

end Booz.Spec
