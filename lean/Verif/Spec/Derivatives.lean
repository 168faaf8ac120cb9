import Mathlib.Analysis.Calculus.IteratedDeriv.Defs
import Verif.Spec.FileSeries

/-!
# Specification: derivatives with respect to the Boozer angles

Codes that read boozmn files (drift orbits, neoclassical transport, turbulence) differentiate the Fourier series term by
term: ∂|B|/∂θ_B, ∂|B|/∂ζ_B, the tangent vectors of the surface from R, Z, ν, and second derivatives for curvatures.
-/

namespace Booz.Spec

/-- The partial derivative of order `a` in the first and `b` in the second argument. -/
noncomputable def partialDeriv (a b : ℕ) (f : ℝ → ℝ → ℝ) (t z : ℝ) : ℝ :=
  iteratedDeriv a (fun t' => iteratedDeriv b (fun z' => f t' z') z) t

/-- The Fourier series differentiated term by term: each derivative advances the phase by a quarter turn, and brings a factor
`m` or `-n`. -/
noncomputable def seriesDeriv (a b K : ℕ) (m n : ℕ → ℤ) (c s : ℕ → ℝ) (t z : ℝ) : ℝ :=
  ∑ k ∈ Finset.range K, (m k : ℝ) ^ a * (-(n k : ℝ)) ^ b *
    (c k * Real.cos (m k * t - n k * z + (a + b) * (Real.pi / 2)) +
      s k * Real.sin (m k * t - n k * z + (a + b) * (Real.pi / 2)))

/-- Some numbers for the places `k < K` (which satisfy `cosN k` and `sinN k`) are the coefficients of a Fourier series in
the modes `m`, `n`, and the series differentiated term by term is within `e` of the derivative of the quantity `q` as a
function `f` of the Boozer angles, for all angles. -/
def RebuildsDeriv (a b K : ℕ) (m n : ℕ → ℤ) (cosN sinN : ℕ → ℝ → Prop) (S : Surface) (q : ℝ → ℝ → ℝ) (e : ℝ) : Prop :=
  ∃ (f : ℝ → ℝ → ℝ) (c s : ℕ → ℝ), ContDiff ℝ (⊤ : ℕ∞) (Function.uncurry f) ∧ S.Expresses f q ∧
    (∀ k < K, cosN k (c k) ∧ sinN k (s k)) ∧
    ∀ t z, |partialDeriv a b f t z - seriesDeriv a b K m n c s t z| ≤ e

/-- The numbers in place `j` of the outputs rebuild the derivatives of order `a` in θ_B and `b` in ζ_B of |B|, R, Z, ν and the
Jacobian on the surface. -/
def MachineDerivs {α : Type} (fin : α → Prop) (val : α → ℝ) (a b : ℕ) (o : Outputs α) (S : Surface) (asym : Bool) (K j : ℕ)
    (e : ℝ) : Prop :=
  let num (x : Mat α) (k : ℕ) (y : ℝ) : Prop := Stores fin val x k j y
  let ifAsym (x : Mat α) (k : ℕ) (y : ℝ) : Prop := IfAsym asym (Stores fin val x k j) y
  ∃ m n : ℕ → ℤ, (∀ k < K, o.xm_b.rdN k = .ok (m k) ∧ o.xn_b.rdN k = .ok (n k)) ∧
    RebuildsDeriv a b K m n (num o.spec.bmnc_b) (ifAsym o.spec.bmns_b) S S.B e ∧
    RebuildsDeriv a b K m n (num o.spec.rmnc_b) (ifAsym o.spec.rmns_b) S S.R e ∧
    RebuildsDeriv a b K m n (ifAsym o.spec.zmnc_b) (num o.spec.zmns_b) S S.Z e ∧
    RebuildsDeriv a b K m n (ifAsym o.spec.numnc_b) (num o.spec.numns_b) S S.nu e ∧
    RebuildsDeriv a b K m n (num o.spec.gmnc_b) (ifAsym o.spec.gmns_b) S S.jacobian e

/-- The numbers in place `j` of a `boozmn` file rebuild the derivatives of order `a` in θ_B and `b` in ζ_B of |B|, R, Z, -ν (the
difference between the toroidal angle of the points and ζ_B) and the Jacobian on the surface. -/
def FileDerivs {α : Type} (fin : α → Prop) (val : α → ℝ) (a b : ℕ) (f : NcFile α) (S : Surface) (asym : Bool) (K j : ℕ)
    (e : ℝ) : Prop :=
  let num (name : String) (k : ℕ) (y : ℝ) : Prop := FileNumber fin val f name K j k y
  let ifAsym (name : String) (k : ℕ) (y : ℝ) : Prop := IfAsym asym (FileNumber fin val f name K j k) y
  ∃ m n : ℕ → ℤ, (∀ k < K, FileInt f "ixm_b" k (m k) ∧ FileInt f "ixn_b" k (n k)) ∧
    RebuildsDeriv a b K m n (num "bmnc_b") (ifAsym "bmns_b") S S.B e ∧
    RebuildsDeriv a b K m n (num "rmnc_b") (ifAsym "rmns_b") S S.R e ∧
    RebuildsDeriv a b K m n (ifAsym "zmnc_b") (num "zmns_b") S S.Z e ∧
    RebuildsDeriv a b K m n (ifAsym "pmnc_b") (num "pmns_b") S (fun θ ζ => -S.nu θ ζ) e ∧
    RebuildsDeriv a b K m n (num "gmn_b") (ifAsym "gmns_b") S S.jacobian e

end Booz.Spec
