import Mathlib.Analysis.Calculus.ContDiff.Defs
import Mathlib.MeasureTheory.Integral.Bochner.Set
import Mathlib.MeasureTheory.Constructions.BorelSpace.Basic
import Mathlib.MeasureTheory.Measure.Haar.OfBasis
import Verif.Spec.Field
import Verif.Spec.MeanSquare

/-!
# Specification: volumes and flux surface averages

`gmnc_b` is documented as the Jacobian of (ψ, θ_B, ζ_B).  Users take its (0, 0) harmonic, times `4 π²`, for the derivative
of the enclosed volume with respect to ψ, and `(G + ι I) / gmnc_b(0, 0)` for the flux surface average of B².
-/

namespace Booz.Spec
open MeasureTheory Filter Topology

/-- The part of space between the flux surfaces ψ₀ and ψ₀ + h. -/
def shell (x : ℝ → ℝ → ℝ → V3) (ψ₀ h : ℝ) : Set V3 :=
  {r | ∃ ψ θ ζ, (ψ₀ < ψ ∧ ψ ≤ ψ₀ + h) ∧ (0 < θ ∧ θ ≤ 2 * Real.pi) ∧ (0 < ζ ∧ ζ ≤ 2 * Real.pi) ∧ x ψ θ ζ = r}

/-- Near ψ₀ the positions are continuously differentiable functions of the coordinates, and no point outside ψ₀ has two
sets of coordinates within the same period. -/
structure Nested (x : ℝ → ℝ → ℝ → V3) (ψ₀ δ : ℝ) : Prop where
  pos : 0 < δ
  smooth : ContDiffOn ℝ 1 (fun p : V3 => x (p 0) (p 1) (p 2)) {p | |p 0 - ψ₀| < δ}
  once : ∀ ψ θ ζ ψ' θ' ζ' : ℝ, (ψ₀ < ψ ∧ ψ < ψ₀ + δ) → (0 < θ ∧ θ ≤ 2 * Real.pi) → (0 < ζ ∧ ζ ≤ 2 * Real.pi) →
    (ψ₀ < ψ' ∧ ψ' < ψ₀ + δ) → (0 < θ' ∧ θ' ≤ 2 * Real.pi) → (0 < ζ' ∧ ζ' ≤ 2 * Real.pi) →
    x ψ θ ζ = x ψ' θ' ζ' → ψ = ψ' ∧ θ = θ' ∧ ζ = ζ'

/-- The volume inside the flux surface grows with ψ at the rate `v`, at ψ₀. -/
def VolumeRate (x : ℝ → ℝ → ℝ → V3) (ψ₀ v : ℝ) : Prop :=
  Tendsto (fun h => (volume (shell x ψ₀ h)).toReal / h) (𝓝[>] 0) (𝓝 v)

/-- `a` is the flux surface average of the function `Q` of position: the limit of its averages over the volume between
neighbouring surfaces. -/
def FluxAverage (x : ℝ → ℝ → ℝ → V3) (ψ₀ : ℝ) (Q : V3 → ℝ) (a : ℝ) : Prop :=
  Tendsto (fun h => (∫ r in shell x ψ₀ h, Q r) / (volume (shell x ψ₀ h)).toReal) (𝓝[>] 0) (𝓝 a)

end Booz.Spec
