import Mathlib.Analysis.Calculus.ContDiff.Defs
import Mathlib.MeasureTheory.Integral.IntervalIntegral.Basic
import Verif.Spec.Field
import Verif.Spec.Resolution

/-!
# Specification: currents and field lines

`Boozer_I`, `Boozer_G` are documented as covariant components.  Users take them for the currents through a flux
surface and around it (up to the factor `2π / μ₀`), and evaluate integrals along field lines from `bmnc_b`, `iota`,
`Boozer_I`, `Boozer_G` alone.
-/

namespace Booz.Spec
open Matrix

/-- The position on the surface ψ₀ is a differentiable function of the two angles. -/
def SurfaceSmooth (x : ℝ → ℝ → ℝ → V3) (ψ₀ : ℝ) : Prop := Differentiable ℝ fun y : ℝ × ℝ => x ψ₀ y.1 y.2

/-- A closed curve on the surface, `0 ≤ t ≤ 1`, which goes `k` times round the poloidal way and `l` times round the
toroidal one. -/
structure IsLoop (θ ζ : ℝ → ℝ) (k l : ℤ) : Prop where
  theta : ContDiff ℝ 1 θ
  zeta : ContDiff ℝ 1 ζ
  theta_end : θ 1 = θ 0 + k * (2 * Real.pi)
  zeta_end : ζ 1 = ζ 0 + l * (2 * Real.pi)

/-- Circulation of the vector field `B` along the curve. -/
noncomputable def circulation (x : ℝ → ℝ → ℝ → V3) (ψ₀ : ℝ) (B : ℝ → ℝ → V3) (θ ζ : ℝ → ℝ) : ℝ :=
  ∫ t in (0 : ℝ)..1, B (θ t) (ζ t) ⬝ᵥ deriv (fun u => x ψ₀ (θ u) (ζ u)) t

/-- The curve is a field line on the surface between `t₀` and `t₁`, followed in the direction of the field: its velocity
is the positive multiple `σ B` of the field.  So its element of length is `dl = σ |B| dt`. -/
structure IsFieldLine (x : ℝ → ℝ → ℝ → V3) (ψ₀ : ℝ) (B : ℝ → ℝ → V3) (θ ζ σ : ℝ → ℝ) (t₀ t₁ : ℝ) : Prop where
  theta : ContDiff ℝ 1 θ
  zeta : ContDiff ℝ 1 ζ
  velocity : ∀ t ∈ Set.uIcc t₀ t₁, 0 < σ t ∧ HasDerivAt (fun u => x ψ₀ (θ u) (ζ u)) (σ t • B (θ t) (ζ t)) t

/-- The integral of `F(|B|) dl / |B|` along the curve. -/
noncomputable def alongLine (B : ℝ → ℝ → V3) (F : ℝ → ℝ) (θ ζ σ : ℝ → ℝ) (t₀ t₁ : ℝ) : ℝ :=
  ∫ t in t₀..t₁, F √(B (θ t) (ζ t) ⬝ᵥ B (θ t) (ζ t)) * σ t

/-- The same integral computed from the strength `f` of the field as a function of the Boozer angles: the line is
`θ_B = α + ι ζ_B`, and `dl / |B| = (G + ι I) / B² dζ_B`. -/
noncomputable def lineIntegral (iota I G : ℝ) (f : ℝ → ℝ → ℝ) (F : ℝ → ℝ) (α z₀ z₁ : ℝ) : ℝ :=
  ∫ z in z₀..z₁, F |f (α + iota * z) z| * ((G + iota * I) / f (α + iota * z) z ^ 2)

/-- The sum of the harmonics of |B| in the modes of the output, each computed by quadrature on the grid for `mboz = M`,
`nboz = N`. -/
noncomputable def Surface.strengthSeries (S : Surface) (nfp M N : ℕ) : ℝ → ℝ → ℝ :=
  outputSeries nfp M N (S.quadCos (ntheta M) (nzeta N) nfp S.B) (S.quadSin (ntheta M) (nzeta N) nfp S.B)

end Booz.Spec
