import Verif.Spec.Theory
import Mathlib.MeasureTheory.Integral.IntervalIntegral.Basic

/-!
# The integrals of the theory section

`docs/source/theory.rst`, equation `change_variables`: harmonics in Boozer angles as double integrals
over the original angles, with the normalisation that makes them Fourier coefficients (the text has
`1/(4π²)` for all modes; for (m,n) ≠ (0,0) the factor must be `1/(2π²)`).
-/

namespace Booz.Spec

namespace Surface
variable (S : Surface)

/-- Cosine harmonic (m, n) of the quantity `q`. -/
noncomputable def integralCos (q : ℝ → ℝ → ℝ) (m n : ℤ) : ℝ :=
  (if m = 0 ∧ n = 0 then 1 else 2) / (4 * Real.pi ^ 2) *
    ∫ θ in (0 : ℝ)..2 * Real.pi, ∫ ζ in (0 : ℝ)..2 * Real.pi,
      q θ ζ * S.det θ ζ * Real.cos (m * S.thetaB θ ζ - n * S.zetaB θ ζ)

/-- Sine harmonic (m, n) of the quantity `q`. -/
noncomputable def integralSin (q : ℝ → ℝ → ℝ) (m n : ℤ) : ℝ :=
  (if m = 0 ∧ n = 0 then 1 else 2) / (4 * Real.pi ^ 2) *
    ∫ θ in (0 : ℝ)..2 * Real.pi, ∫ ζ in (0 : ℝ)..2 * Real.pi,
      q θ ζ * S.det θ ζ * Real.sin (m * S.thetaB θ ζ - n * S.zetaB θ ζ)

end Surface

/-- Entry (k, b) of a matrix exists and is within `e` of `y`. -/
def Near (a : Mat ℝ) (k b : ℕ) (y e : ℝ) : Prop := ∃ x, a.rdN k b = .ok x ∧ |x - y| ≤ e

/-- Surface `b` of the outputs holds, in place `k`, harmonics of the surface `S` for the mode (m, n), each
with an error of at most `e`. -/
structure Approximates (o : Outputs ℝ) (S : Surface) (asym : Bool) (k b : ℕ) (m n : ℤ) (e : ℝ) : Prop where
  bmnc : Near o.spec.bmnc_b k b (S.integralCos S.B m n) e
  rmnc : Near o.spec.rmnc_b k b (S.integralCos S.R m n) e
  zmns : Near o.spec.zmns_b k b (S.integralSin S.Z m n) e
  numns : Near o.spec.numns_b k b (S.integralSin S.nu m n) e
  gmnc : Near o.spec.gmnc_b k b (S.integralCos S.jacobian m n) e
  bmns : asym = true → Near o.spec.bmns_b k b (S.integralSin S.B m n) e
  rmns : asym = true → Near o.spec.rmns_b k b (S.integralSin S.R m n) e
  zmnc : asym = true → Near o.spec.zmnc_b k b (S.integralCos S.Z m n) e
  numnc : asym = true → Near o.spec.numnc_b k b (S.integralCos S.nu m n) e
  gmns : asym = true → Near o.spec.gmns_b k b (S.integralSin S.jacobian m n) e

/-- Error of a quadrature of order `p` on the grid for the resolution (M, N). -/
noncomputable def gridError (M N p : ℕ) : ℝ := (1 / (ntheta M : ℝ)) ^ p + (1 / (nzeta N : ℝ)) ^ p

end Booz.Spec
