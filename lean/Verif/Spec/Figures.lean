import Verif.Spec.Plots
import Verif.Spec.Resolution

/-!
# Specification: figures that show the equilibrium

`draw` stands for `surfplot` or `wireplot` applied to an object or to the name of a file.
-/

namespace Booz.Spec
open Plots

/-- For all values of its parameters `draw` (js, fill, ntheta, nphi, ncontours) adds to the figure, for surface `b` of `nb`,
contours of a field on the grid θ = 2π i / nt, φ = 2π j / (nfp np) of Boozer angles, whose values are within `e` of |B| at the
points of `S` which have these Boozer angles. -/
def ShowsField (draw : Int → Bool → Int → Int → Int → Fig ℝ Unit) (S : Surface) (nfp nb b : ℕ) (e : ℝ) : Prop :=
  ∀ (js : Int) (fill : Bool) (nt np : ℕ) (nc : Int) (fig : List (Drawn ℝ)), IsColumn nb js b → 1 ≤ nt → 1 ≤ np →
    ∃ X Y Z : Plane ℝ,
      draw js fill (nt + 1) (np + 1) nc fig = .ok () (fig ++ [.contours fill nc X Y Z]) ∧
      (X.rows = nt + 1 ∧ X.cols = np + 1) ∧ (Y.rows = nt + 1 ∧ Y.cols = np + 1) ∧ (Z.rows = nt + 1 ∧ Z.cols = np + 1) ∧
      ∀ i ≤ nt, ∀ j ≤ np, Y.get i j = 2 * Real.pi * i / nt ∧ X.get i j = 2 * Real.pi * j / (nfp * np) ∧
        (∃ θ ζ, S.thetaB θ ζ = Y.get i j ∧ S.zetaB θ ζ = X.get i j) ∧
        ∀ θ ζ, S.thetaB θ ζ = Y.get i j → S.zetaB θ ζ = X.get i j → |Z.get i j - S.B θ ζ| ≤ e

/-- For all values of its parameters `draw` returns, for surface `b` of `nb`, after the solid surface if it is requested, the
curves of constant Boozer angles of a surface `y` whose points are within `e` of the points of `S` with the same Boozer
angles, and then the curves of constant original angles of `S` itself, if they are requested; `x` is the position of the
point of `S` with given original angles.  The original curves may be requested only if `orig`. -/
def ShowsWires (draw : WireArgs → Fig ℝ (List (Drawn ℝ))) (S : Surface) (x : ℝ → ℝ → ℝ × ℝ × ℝ) (nb b : ℕ) (orig : Prop)
    (e : ℝ) : Prop :=
  ∃ y : ℝ → ℝ → ℝ × ℝ × ℝ,
    (∀ t z, ∃ θ ζ, S.thetaB θ ζ = t ∧ S.zetaB θ ζ = z) ∧
    (∀ θ ζ, dist (y (S.thetaB θ ζ) (S.zetaB θ ζ)) (x θ ζ) ≤ e) ∧
    ∀ (a : WireArgs) (nt np q : ℕ), (∀ js, a.js = some js → IsColumn nb js b) →
      (a.js = none → b + 1 = nb) → a.ntheta = nt → a.nphi = np → a.refine = q → 2 ≤ q →
      (a.orig = true → orig) →
      ∃ first : List (Drawn ℝ),
        (∀ fig, draw a fig =
          .ok (first ++ (poloidalCurves true nt np q y ++ toroidalCurves true nt np q y) ++
            if a.orig then poloidalCurves false nt np q x ++ toroidalCurves false nt np q x else []) fig) ∧
        (a.surf = false → first = []) ∧ (a.surf = true → ∃ X Y Z, first = [.surface X Y Z])

end Booz.Spec
