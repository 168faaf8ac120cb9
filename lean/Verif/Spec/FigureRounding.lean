import Verif.Spec.Plots
import Verif.Spec.Resolution

/-!
# Specification: figures drawn by a machine

As `ShowsField`, for numbers `α` of which `fin` are finite and stand for the real numbers `val`.
-/

namespace Booz.Spec
open Plots

/-- `draw` (js, fill, ntheta, nphi, ncontours) adds to the figure, for surface `b` of `nb`, contours of a field on a grid of
(nt + 1) × (np + 1) points; all numbers are finite, the angles are within `δ` of θ = 2π i / nt, φ = 2π j / (nfp np), and the
values are within `e` of |B| at the points of `S` with exactly these Boozer angles. -/
def ShowsFieldNear {α : Type} (fin : α → Prop) (val : α → ℝ) (draw : Int → Bool → Int → Int → Int → Fig α Unit) (S : Surface)
    (nfp nb b nt np : ℕ) (δ e : ℝ) : Prop :=
  ∀ (js : Int) (fill : Bool) (nc : Int) (fig : List (Drawn α)), IsColumn nb js b →
    ∃ X Y Z : Plane α,
      draw js fill (nt + 1) (np + 1) nc fig = .ok () (fig ++ [.contours fill nc X Y Z]) ∧
      (X.rows = nt + 1 ∧ X.cols = np + 1) ∧ (Y.rows = nt + 1 ∧ Y.cols = np + 1) ∧ (Z.rows = nt + 1 ∧ Z.cols = np + 1) ∧
      ∀ i ≤ nt, ∀ j ≤ np, fin (X.get i j) ∧ fin (Y.get i j) ∧ fin (Z.get i j) ∧
        |val (Y.get i j) - 2 * Real.pi * i / nt| ≤ δ ∧ |val (X.get i j) - 2 * Real.pi * j / (nfp * np)| ≤ δ ∧
        (∃ θ ζ, S.thetaB θ ζ = 2 * Real.pi * i / nt ∧ S.zetaB θ ζ = 2 * Real.pi * j / (nfp * np)) ∧
        ∀ θ ζ, S.thetaB θ ζ = 2 * Real.pi * i / nt → S.zetaB θ ζ = 2 * Real.pi * j / (nfp * np) →
          |val (Z.get i j) - S.B θ ζ| ≤ e

end Booz.Spec
