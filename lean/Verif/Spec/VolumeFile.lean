import Verif.Spec.Volume
import Verif.Spec.FileSeries

/-!
# Volume and average of B² from the numbers of a `boozmn` file
-/

namespace Booz.Spec

/-- What the file holds about the surface number `j` of the equilibrium, in place `b`: the first mode is (0,0), and the numbers
are ι, I, G and the (0,0) harmonic `g` of the Jacobian. -/
structure FileJacobian {α : Type} (fin : α → Prop) (val : α → ℝ) (f : NcFile α) (K b j : ℕ) (iota I G g : ℝ) : Prop where
  m : FileInt f "ixm_b" 0 0
  n : FileInt f "ixn_b" 0 0
  iota : FileProfile fin val f "iota_b" (j + 1) iota
  I : FileProfile fin val f "buco_b" (j + 1) I
  G : FileProfile fin val f "bvco_b" (j + 1) G
  g : FileNumber fin val f "gmn_b" K b 0 g

/-- Volume and average of B² come out of the numbers: the first within `e₁ + e₂`, and the second as well if `e₁` is at most 1. -/
def VolumeWithin (iota I G g v a e₁ e₂ : ℝ) : Prop :=
  |4 * Real.pi ^ 2 * |g| - v| ≤ e₁ + e₂ ∧ (e₁ ≤ 1 → |(G + iota * I) / g - a| ≤ e₁ + e₂)

end Booz.Spec
