import Verif.Spec.Integral
import Verif.Spec.BoozerAngles

/-!
# The same magnetic field described with another poloidal angle

VMEC leaves the choice of the poloidal angle free (`docs/source/theory.rst`: θ is "the poloidal angle used in VMEC");
λ, the covariant components and the Fourier series of all quantities depend on it.
-/

namespace Booz.Spec
open Function

/-- Surface `j₁` of the first input and surface `j₂` of the second describe the same field on the same surface: the point
with angles (θ, ζ) of the first has the angles (θ + χ(θ, ζ), ζ) of the second. The straight-field-line angle θ + λ labels
the same field lines, up to the choice of its origin; R, Z and |B| are the same functions of position; the covariant
components transform by the chain rule. -/
structure SameField (χ : ℝ → ℝ → ℝ) (I₁ : Inputs ℝ) (asym₁ : Bool) (j₁ : ℕ) (I₂ : Inputs ℝ) (asym₂ : Bool) (j₂ : ℕ) : Prop where
  smooth : ContDiff ℝ (⊤ : ℕ∞) (uncurry χ)
  periodic : TorusFn χ
  iota : (surface I₁ asym₁ j₁).iota = (surface I₂ asym₂ j₂).iota
  line : ∃ a, ∀ θ ζ, θ + (surface I₁ asym₁ j₁).lam θ ζ = θ + χ θ ζ + (surface I₂ asym₂ j₂).lam (θ + χ θ ζ) ζ + a
  R : ∀ θ ζ, (surface I₁ asym₁ j₁).R θ ζ = (surface I₂ asym₂ j₂).R (θ + χ θ ζ) ζ
  Z : ∀ θ ζ, (surface I₁ asym₁ j₁).Z θ ζ = (surface I₂ asym₂ j₂).Z (θ + χ θ ζ) ζ
  B : ∀ θ ζ, (surface I₁ asym₁ j₁).B θ ζ = (surface I₂ asym₂ j₂).B (θ + χ θ ζ) ζ
  Btheta : ∀ θ ζ, bTheta I₁ asym₁ j₁ θ ζ = bTheta I₂ asym₂ j₂ (θ + χ θ ζ) ζ * (1 + deriv (fun t => χ t ζ) θ)
  Bzeta : ∀ θ ζ, bZeta I₁ asym₁ j₁ θ ζ =
    bZeta I₂ asym₂ j₂ (θ + χ θ ζ) ζ + bTheta I₂ asym₂ j₂ (θ + χ θ ζ) ζ * deriv (fun z => χ θ z) ζ

/-- The same position has Boozer angles in both descriptions which differ by the constants (θ₀, ζ₀). -/
def AnglesAgree (χ : ℝ → ℝ → ℝ) (θ₀ ζ₀ : ℝ) (S₁ S₂ : Surface) : Prop :=
  ∀ θ ζ, S₁.thetaB θ ζ = S₂.thetaB (θ + χ θ ζ) ζ + θ₀ ∧ S₁.zetaB θ ζ = S₂.zetaB (θ + χ θ ζ) ζ + ζ₀

/-- The cosine and sine amplitude (x', y') in one pair of matrices is the amplitude (x, y) in another pair, rotated by `φ`,
plus `δ` in the cosine amplitude, up to `e`. A matrix which a stellarator-symmetric run does not compute stands for zero. -/
def RotatedPair (φ δ : ℝ) (cosA sinA : Option (Mat ℝ)) (k b : ℕ) (cosA' sinA' : Option (Mat ℝ)) (k' b' : ℕ) (e : ℝ) : Prop :=
  ∃ x y x' y', Coefficient cosA k b x ∧ Coefficient sinA k b y ∧ Coefficient cosA' k' b' x' ∧ Coefficient sinA' k' b' y' ∧
    |x' - (Real.cos φ * x - Real.sin φ * y + δ)| ≤ e ∧ |y' - (Real.cos φ * y + Real.sin φ * x)| ≤ e

/-- A matrix which is computed only without stellarator symmetry. -/
def ifAsym (asym : Bool) (A : Mat ℝ) : Option (Mat ℝ) := if asym then some A else none

/-- Place (k', b') of the second outputs is place (k, b) of the first with all pairs of amplitudes rotated; `δ` is added to
the cosine amplitude of ν. -/
structure RotatedSpectra (φ δ : ℝ) (o : Outputs ℝ) (asym : Bool) (k b : ℕ) (o' : Outputs ℝ) (asym' : Bool) (k' b' : ℕ)
    (e : ℝ) : Prop where
  B : RotatedPair φ 0 (some o.spec.bmnc_b) (ifAsym asym o.spec.bmns_b) k b
    (some o'.spec.bmnc_b) (ifAsym asym' o'.spec.bmns_b) k' b' e
  R : RotatedPair φ 0 (some o.spec.rmnc_b) (ifAsym asym o.spec.rmns_b) k b
    (some o'.spec.rmnc_b) (ifAsym asym' o'.spec.rmns_b) k' b' e
  Z : RotatedPair φ 0 (ifAsym asym o.spec.zmnc_b) (some o.spec.zmns_b) k b
    (ifAsym asym' o'.spec.zmnc_b) (some o'.spec.zmns_b) k' b' e
  nu : RotatedPair φ δ (ifAsym asym o.spec.numnc_b) (some o.spec.numns_b) k b
    (ifAsym asym' o'.spec.numnc_b) (some o'.spec.numns_b) k' b' e
  jacobian : RotatedPair φ 0 (some o.spec.gmnc_b) (ifAsym asym o.spec.gmns_b) k b
    (some o'.spec.gmnc_b) (ifAsym asym' o'.spec.gmns_b) k' b' e

end Booz.Spec
