import Mathlib.LinearAlgebra.CrossProduct
import Verif.Spec.Theory

/-!
# Specification: magnetic fields in space

The equations of `/repo/docs/source/theory.rst` in three-dimensional space: positions are vectors, `∇` is
the gradient in space.  Coordinates are (ψ, θ, ζ), `2π ψ` being the toroidal flux.
-/

namespace Booz.Spec
open Matrix

/-- Vectors in space. -/
abbrev V3 := Fin 3 → ℝ

/-- The three partial derivatives of the position with respect to the coordinates. -/
structure Frame where
  psi : V3
  theta : V3
  zeta : V3

/-- `e` consists of the partial derivatives of the position `x(ψ, θ, ζ)`, and (ψ, θ, ζ) are coordinates
near the point. -/
structure IsFrame (x : ℝ → ℝ → ℝ → V3) (ψ θ ζ : ℝ) (e : Frame) : Prop where
  psi : HasDerivAt (fun p => x p θ ζ) e.psi ψ
  theta : HasDerivAt (fun t => x ψ t ζ) e.theta θ
  zeta : HasDerivAt (fun z => x ψ θ z) e.zeta ζ
  indep : e.psi ⬝ᵥ e.theta ⨯₃ e.zeta ≠ 0

/-- `g` is the gradient in space of the function `f`, given in terms of the coordinates: its component along
each coordinate line is the partial derivative. -/
structure IsGradient (e : Frame) (f : ℝ → ℝ → ℝ → ℝ) (ψ θ ζ : ℝ) (g : V3) : Prop where
  psi : HasDerivAt (fun p => f p θ ζ) (g ⬝ᵥ e.psi) ψ
  theta : HasDerivAt (fun t => f ψ t ζ) (g ⬝ᵥ e.theta) θ
  zeta : HasDerivAt (fun z => f ψ θ z) (g ⬝ᵥ e.zeta) ζ

/-- `B` is, on the surface ψ = ψ₀, a magnetic field described by the surface data `S` and the covariant
components `bθ`, `bζ`, for the positions `x(ψ, θ, ζ)`: equation `straight_field_line`
(`B = ∇ψ × ∇(θ + λ) + ι ∇ζ × ∇ψ`), equations `covar_components`, and |B|.  `lam` is λ also on other surfaces. -/
structure IsField (S : Surface) (bθ bζ : ℝ → ℝ → ℝ) (x : ℝ → ℝ → ℝ → V3) (lam : ℝ → ℝ → ℝ → ℝ) (ψ₀ : ℝ)
    (B : ℝ → ℝ → V3) : Prop where
  lam_eq : lam ψ₀ = S.lam
  point : ∀ θ ζ, ∃ e, IsFrame x ψ₀ θ ζ e ∧
    (∃ gψ gs gζ, IsGradient e (fun p _ _ => p) ψ₀ θ ζ gψ ∧
      IsGradient e (fun p t z => t + lam p t z) ψ₀ θ ζ gs ∧ IsGradient e (fun _ _ z => z) ψ₀ θ ζ gζ ∧
      B θ ζ = gψ ⨯₃ gs + S.iota • gζ ⨯₃ gψ) ∧
    B θ ζ ⬝ᵥ e.theta = bθ θ ζ ∧ B θ ζ ⬝ᵥ e.zeta = bζ θ ζ ∧ B θ ζ ⬝ᵥ B θ ζ = S.B θ ζ ^ 2

/-- The functions `tB`, `zB` of the coordinates are, near the point (ψ₀, θ, ζ), Boozer angles of the field
`B`: equations `straight_field_line_B` and `Boozer`; `J` is the Jacobian of (ψ, tB, zB). -/
def IsBoozer (x : ℝ → ℝ → ℝ → V3) (ψ₀ θ ζ : ℝ) (tB zB : ℝ → ℝ → ℝ → ℝ) (iota I G : ℝ) (B : V3) (J : ℝ) : Prop :=
  ∃ e, IsFrame x ψ₀ θ ζ e ∧ ∃ gψ gt gz, IsGradient e (fun p _ _ => p) ψ₀ θ ζ gψ ∧
    IsGradient e tB ψ₀ θ ζ gt ∧ IsGradient e zB ψ₀ θ ζ gz ∧
    B = gψ ⨯₃ gt + iota • gz ⨯₃ gψ ∧ (∃ β : ℝ, B = β • gψ + I • gt + G • gz) ∧
    J * (gψ ⬝ᵥ gt ⨯₃ gz) = 1

/-- `f` is a poloidal angle of the surface: it grows by 2π along the poloidal way round and is unchanged along the
toroidal one. -/
structure IsPoloidal (f : ℝ → ℝ → ℝ) : Prop where
  theta : ∀ θ ζ, f (θ + 2 * Real.pi) ζ = f θ ζ + 2 * Real.pi
  zeta : ∀ θ ζ, f θ (ζ + 2 * Real.pi) = f θ ζ

/-- `f` is a toroidal angle of the surface. -/
structure IsToroidal (f : ℝ → ℝ → ℝ) : Prop where
  theta : ∀ θ ζ, f (θ + 2 * Real.pi) ζ = f θ ζ
  zeta : ∀ θ ζ, f θ (ζ + 2 * Real.pi) = f θ ζ + 2 * Real.pi

end Booz.Spec
