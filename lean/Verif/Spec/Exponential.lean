import Verif.Spec.Integral

/-!
# Exponential accuracy of harmonics (C82)
-/

namespace Booz.Spec

/-- Error of a quadrature that converges exponentially, with rate `σ` per grid point, on the grid for the
resolution (M, N). -/
noncomputable def expError (σ : ℝ) (M N : ℕ) : ℝ := Real.exp (-σ * ntheta M) + Real.exp (-σ * nzeta N)

/-- Surface `b` of the outputs holds, in place `k`, harmonics of the surface `S` for the mode (m, n): those of |B|,
R, Z and ν with an error of at most `e`, those of the Jacobian with an error of at most `eJ`. -/
structure ApproximatesTo (o : Outputs ℝ) (S : Surface) (asym : Bool) (k b : ℕ) (m n : ℤ) (e eJ : ℝ) : Prop where
  bmnc : Near o.spec.bmnc_b k b (S.integralCos S.B m n) e
  rmnc : Near o.spec.rmnc_b k b (S.integralCos S.R m n) e
  zmns : Near o.spec.zmns_b k b (S.integralSin S.Z m n) e
  numns : Near o.spec.numns_b k b (S.integralSin S.nu m n) e
  gmnc : Near o.spec.gmnc_b k b (S.integralCos S.jacobian m n) eJ
  bmns : asym = true → Near o.spec.bmns_b k b (S.integralSin S.B m n) e
  rmns : asym = true → Near o.spec.rmns_b k b (S.integralSin S.R m n) e
  zmnc : asym = true → Near o.spec.zmnc_b k b (S.integralCos S.Z m n) e
  numnc : asym = true → Near o.spec.numnc_b k b (S.integralCos S.nu m n) e
  gmns : asym = true → Near o.spec.gmns_b k b (S.integralSin S.jacobian m n) eJ

end Booz.Spec
