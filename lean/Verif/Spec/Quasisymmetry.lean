import Verif.Spec.BoozerAngles

/-!
# Quasisymmetry

`docs/source/theory.rst` introduces Boozer coordinates; `plots.py` (`symplot`) groups the harmonics of |B| by the
helicity of the symmetry they respect.
-/

namespace Booz.Spec

/-- On the surface, |B| depends on the Boozer angles through `M θ_B − N ζ_B` only. -/
def Surface.Quasisymmetric (S : Surface) (M N : ℤ) : Prop :=
  ∀ θ ζ θ' ζ', M * S.thetaB θ ζ - N * S.zetaB θ ζ = M * S.thetaB θ' ζ' - N * S.zetaB θ' ζ' → S.B θ ζ = S.B θ' ζ'

/-- Entry (k, b) of a matrix exists and its absolute value is at least `y`. -/
def AtLeast (a : Mat ℝ) (k b : ℕ) (y : ℝ) : Prop := ∃ x, a.rdN k b = .ok x ∧ y ≤ |x|

end Booz.Spec
