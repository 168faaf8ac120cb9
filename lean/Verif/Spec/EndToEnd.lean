import Verif.Spec.BoozerAngles
import Verif.Spec.Rounding

/-!
# Specification: the Boozer spectrum, computed in rounded arithmetic
-/

namespace Booz.Spec

/-- Entry (k, b) of the matrix exists, is finite, and its value is within `e` of the cosine coefficient (m, n) of every
continuous function on the torus which expresses `q` in Boozer angles. -/
def FinNearCos {α : Type} (fin : α → Prop) (val : α → ℝ) (a : Mat α) (S : Surface) (q : ℝ → ℝ → ℝ) (k b : ℕ)
    (m n : ℤ) (e : ℝ) : Prop :=
  ∀ f, Continuous (Function.uncurry f) → TorusFn f → S.Expresses f q →
    ∃ x, a.rdN k b = .ok x ∧ fin x ∧ |val x - fourierCos f m n| ≤ e

/-- The same for the sine coefficient. -/
def FinNearSin {α : Type} (fin : α → Prop) (val : α → ℝ) (a : Mat α) (S : Surface) (q : ℝ → ℝ → ℝ) (k b : ℕ)
    (m n : ℤ) (e : ℝ) : Prop :=
  ∀ f, Continuous (Function.uncurry f) → TorusFn f → S.Expresses f q →
    ∃ x, a.rdN k b = .ok x ∧ fin x ∧ |val x - fourierSin f m n| ≤ e

/-- Place (k, b) of the outputs holds finite numbers, which are the Fourier coefficients in Boozer angles for the mode
(m, n), each with an error of at most `e`. -/
structure IsFinBoozerSpectrum {α : Type} (fin : α → Prop) (val : α → ℝ) (o : Outputs α) (S : Surface) (asym : Bool)
    (k b : ℕ) (m n : ℤ) (e : ℝ) : Prop where
  bmnc : FinNearCos fin val o.spec.bmnc_b S S.B k b m n e
  rmnc : FinNearCos fin val o.spec.rmnc_b S S.R k b m n e
  zmns : FinNearSin fin val o.spec.zmns_b S S.Z k b m n e
  numns : FinNearSin fin val o.spec.numns_b S S.nu k b m n e
  gmnc : FinNearCos fin val o.spec.gmnc_b S S.jacobian k b m n e
  bmns : asym = true → FinNearSin fin val o.spec.bmns_b S S.B k b m n e
  rmns : asym = true → FinNearSin fin val o.spec.rmns_b S S.R k b m n e
  zmnc : asym = true → FinNearCos fin val o.spec.zmnc_b S S.Z k b m n e
  numnc : asym = true → FinNearCos fin val o.spec.numnc_b S S.nu k b m n e
  gmns : asym = true → FinNearSin fin val o.spec.gmns_b S S.jacobian k b m n e

end Booz.Spec
