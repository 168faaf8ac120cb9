import Verif.Spec.Theory
import Mathlib.Logic.Equiv.Defs

/-!
# Specification: inputs that list the harmonics of the same functions (C83)
-/

namespace Booz.Spec

/-- Surface `j` of `I` and surface `j'` of `I'` have the same rotational transform, and their harmonics are
harmonics of the same functions of the two angles: R, Z, λ, |B| and the covariant components of the field. -/
structure SameFunctions (asym : Bool) (I I' : Inputs ℝ) (j j' : ℕ) : Prop where
  iota : I.iota.val 0 j = I'.iota.val 0 j'
  R : (surface I asym j).R = (surface I' asym j').R
  Z : (surface I asym j).Z = (surface I' asym j').Z
  lam : (surface I asym j).lam = (surface I' asym j').lam
  B : (surface I asym j).B = (surface I' asym j').B
  bTheta : bTheta I asym j = bTheta I' asym j'
  bZeta : bZeta I asym j = bZeta I' asym j'

/-- Among the Nyquist modes exactly the one in place `k₀` is (0,0). -/
def OriginAt {α : Type} (I : Inputs α) (k₀ : ℕ) : Prop :=
  k₀ < I.xm_nyq.size ∧ ∀ k < I.xm_nyq.size, (I.xm_nyq.val 0 k = 0 ∧ I.xn_nyq.val 0 k = 0) ↔ k = k₀

/-- The outputs agree, apart from the flux functions on all input surfaces (`Boozer_I_all`, `Boozer_G_all`); the
arrays of asymmetric harmonics are compared only if `asym`. -/
structure SameSpectra {α : Type} (asym : Bool) (o o' : Outputs α) : Prop where
  ns_b : o.ns_b = o'.ns_b
  s_b : o.s_b = o'.s_b
  mnboz : o.mnboz = o'.mnboz
  xm_b : o.xm_b = o'.xm_b
  xn_b : o.xn_b = o'.xn_b
  boozer_I : o.boozer_I = o'.boozer_I
  boozer_G : o.boozer_G = o'.boozer_G
  bmnc : o.spec.bmnc_b = o'.spec.bmnc_b
  rmnc : o.spec.rmnc_b = o'.spec.rmnc_b
  zmns : o.spec.zmns_b = o'.spec.zmns_b
  numns : o.spec.numns_b = o'.spec.numns_b
  gmnc : o.spec.gmnc_b = o'.spec.gmnc_b
  bmns : asym = true → o.spec.bmns_b = o'.spec.bmns_b
  rmns : asym = true → o.spec.rmns_b = o'.spec.rmns_b
  zmnc : asym = true → o.spec.zmnc_b = o'.spec.zmnc_b
  numnc : asym = true → o.spec.numnc_b = o'.spec.numnc_b
  gmns : asym = true → o.spec.gmns_b = o'.spec.gmns_b

/-- The same list with entry `π k` in place `k`. -/
def PermVec {β : Type} (π : Equiv.Perm ℕ) (v v' : Vec β) : Prop :=
  v'.size = v.size ∧ ∀ k < v.size, v'.rdN k = v.rdN (π k)

/-- The same matrix with row `π k` in place `k`. -/
def PermRows {β : Type} (π : Equiv.Perm ℕ) (a a' : Mat β) : Prop :=
  a'.rows = a.rows ∧ a'.cols = a.cols ∧ a'.data.size = a.data.size ∧
    ∀ k < a.rows, ∀ j < a.cols, a'.rdN k j = a.rdN (π k) j

/-- `I'` is `I` with the modes listed in another order: `π` for the main list, `ρ` for the Nyquist list. -/
structure Reordered {α : Type} (π ρ : Equiv.Perm ℕ) (I I' : Inputs α) : Prop where
  range : ∀ k, π k < I.xm.size ↔ k < I.xm.size
  range_nyq : ∀ k, ρ k < I.xm_nyq.size ↔ k < I.xm_nyq.size
  xm : PermVec π I.xm I'.xm
  xn : PermVec π I.xn I'.xn
  xm_nyq : PermVec ρ I.xm_nyq I'.xm_nyq
  xn_nyq : PermVec ρ I.xn_nyq I'.xn_nyq
  rmnc : PermRows π I.rmnc I'.rmnc
  rmns : PermRows π I.rmns I'.rmns
  zmnc : PermRows π I.zmnc I'.zmnc
  zmns : PermRows π I.zmns I'.zmns
  lmnc : PermRows π I.lmnc I'.lmnc
  lmns : PermRows π I.lmns I'.lmns
  bmnc : PermRows ρ I.bmnc I'.bmnc
  bmns : PermRows ρ I.bmns I'.bmns
  bsubumnc : PermRows ρ I.bsubumnc I'.bsubumnc
  bsubumns : PermRows ρ I.bsubumns I'.bsubumns
  bsubvmnc : PermRows ρ I.bsubvmnc I'.bsubvmnc
  bsubvmns : PermRows ρ I.bsubvmns I'.bsubvmns
  rest : I' = { I with
    xm := I'.xm, xn := I'.xn, xm_nyq := I'.xm_nyq, xn_nyq := I'.xn_nyq, rmnc := I'.rmnc, rmns := I'.rmns
    zmnc := I'.zmnc, zmns := I'.zmns, lmnc := I'.lmnc, lmns := I'.lmns, bmnc := I'.bmnc, bmns := I'.bmns
    bsubumnc := I'.bsubumnc, bsubumns := I'.bsubumns, bsubvmnc := I'.bsubvmnc, bsubvmns := I'.bsubvmns }

end Booz.Spec
