import Verif.Spec.Translation

/-!
# Adding a constant to λ

The stream function λ is determined up to a constant on each surface: θ + λ + c is as good a straight-field-line angle as
θ + λ. Without stellarator symmetry the input can hold such a constant, in the cosine amplitude of the mode (0, 0).
-/

namespace Booz.Spec

/-- The constant `c j` added to λ on surface `j`, through mode `k₀`. -/
noncomputable def addToRow (k₀ : ℕ) (c : ℕ → ℝ) (L : Mat ℝ) : Mat ℝ :=
  Mat.tab L.rows L.cols fun k j => entry L k j + if k = k₀ then c j else 0

/-- The object with the constants added. -/
noncomputable def shiftLam (k₀ : ℕ) (c : ℕ → ℝ) (s : St ℝ) : St ℝ :=
  { s with inp := { s.inp with lmnc := addToRow k₀ c s.inp.lmnc } }

end Booz.Spec
