import Verif.Spec.Quasisymmetry

/-!
# Mean squares over the Boozer angles

Users of the code (and `symplot`, `modeplot` of `plots.py`) measure the size of the harmonics of |B| that break a symmetry.
-/

namespace Booz.Spec
open Finset

/-- Average of a quantity over the Boozer angles: `det` is the Jacobian determinant of the Boozer angles. -/
noncomputable def Surface.average (S : Surface) (q : ℝ → ℝ → ℝ) : ℝ :=
  1 / (4 * Real.pi ^ 2) * ∫ θ in (0 : ℝ)..2 * Real.pi, ∫ ζ in (0 : ℝ)..2 * Real.pi, q θ ζ * S.det θ ζ

/-- A continuous function on the torus which depends on `M t − N z` only. -/
def Helical (M N : ℤ) (g : ℝ → ℝ → ℝ) : Prop :=
  Continuous (Function.uncurry g) ∧ TorusFn g ∧ ∀ t z t' z' : ℝ, M * t - N * z = M * t' - N * z' → g t z = g t' z'

/-- Mean square distance between a quantity and a function of the Boozer angles. -/
noncomputable def Surface.distance2 (S : Surface) (q g : ℝ → ℝ → ℝ) : ℝ :=
  S.average fun θ ζ => (q θ ζ - g (S.thetaB θ ζ) (S.zetaB θ ζ)) ^ 2

/-- `Q` is the least mean square distance of |B| from functions of `M θ_B − N ζ_B`. -/
def Surface.Asymmetry (S : Surface) (M N : ℤ) (Q : ℝ) : Prop :=
  (∃ g, Helical M N g ∧ S.distance2 S.B g = Q) ∧ ∀ g, Helical M N g → Q ≤ S.distance2 S.B g

open Classical in
/-- `x` is the sum of the squares of the harmonics in column `b` of the two matrices, halved except for (0, 0), over
those of the first `nm` modes of `xm`, `xn` which have `|m| ≤ K`, `|n| ≤ L` and satisfy `sel`. -/
def SquareSum (xm xn : Vec ℤ) (nm b K L : ℕ) (sel : ℤ → ℤ → Prop) (cosA sinA : Option (Mat ℝ)) (x : ℝ) : Prop :=
  ∃ (m n : ℕ → ℤ) (c s : ℕ → ℝ),
    (∀ k < nm, xm.rdN k = .ok (m k) ∧ xn.rdN k = .ok (n k) ∧ Coefficient cosA k b (c k) ∧ Coefficient sinA k b (s k)) ∧
    x = ∑ k ∈ (range nm).filter (fun k => (|m k| ≤ K ∧ |n k| ≤ L) ∧ sel (m k) (n k)),
      (if m k = 0 ∧ n k = 0 then 1 else 1 / 2) * (c k ^ 2 + s k ^ 2)

/-- The sums of squares over the modes with `|m| ≤ K`, `|n| ≤ L` in place `b` of the outputs are within `e` of the mean
squares of the quantities. -/
def MeanSquares (o : Outputs ℝ) (S : Surface) (asym : Bool) (nm b K L : ℕ) (e : ℝ) : Prop :=
  let near (cosA sinA : Option (Mat ℝ)) (q : ℝ → ℝ → ℝ) : Prop :=
    ∃ x, SquareSum o.xm_b o.xn_b nm b K L (fun _ _ => True) cosA sinA x ∧ |S.average (fun θ ζ => q θ ζ ^ 2) - x| ≤ e
  let ifAsym (a : Mat ℝ) : Option (Mat ℝ) := if asym then some a else none
  near (some o.spec.bmnc_b) (ifAsym o.spec.bmns_b) S.B ∧
  near (some o.spec.rmnc_b) (ifAsym o.spec.rmns_b) S.R ∧
  near (ifAsym o.spec.zmnc_b) (some o.spec.zmns_b) S.Z ∧
  near (ifAsym o.spec.numnc_b) (some o.spec.numns_b) S.nu ∧
  near (some o.spec.gmnc_b) (ifAsym o.spec.gmns_b) S.jacobian

end Booz.Spec
