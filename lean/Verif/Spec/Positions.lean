import Mathlib.Topology.MetricSpace.HausdorffDistance
import Verif.Spec.Plots
import Verif.Spec.Resolution

/-!
# Specification: positions in space from the outputs

`rmnc_b`, `zmns_b`, `numns_b` (and their asymmetric partners) are used to map Boozer angles to points of space: the
cylindrical coordinates are `R`, `ζ_B - ν`, `Z` (`/repo/src/booz_xform/plots.py:395-440` does so).
-/

namespace Booz.Spec

/-- The sum of the harmonics of `q` in the modes of the output, each computed by quadrature on the grid for `mboz = M`,
`nboz = N`. -/
noncomputable def Surface.quadSeries (S : Surface) (nfp M N : ℕ) (q : ℝ → ℝ → ℝ) : ℝ → ℝ → ℝ :=
  outputSeries nfp M N (S.quadCos (ntheta M) (nzeta N) nfp q) (S.quadSin (ntheta M) (nzeta N) nfp q)

/-- The point with Boozer angles (t, z) computed from such sums. -/
noncomputable def Surface.quadPoint (S : Surface) (nfp M N : ℕ) (t z : ℝ) : ℝ × ℝ × ℝ :=
  cartesian (S.quadSeries nfp M N S.R t z) (z - S.quadSeries nfp M N S.nu t z) (S.quadSeries nfp M N S.Z t z)

/-- The points of the surface. -/
def fluxSurface (pt : ℝ → ℝ → ℝ × ℝ × ℝ) : Set (ℝ × ℝ × ℝ) := Set.range (Function.uncurry pt)

end Booz.Spec
