import Verif.Spec.Plots
import Verif.Spec.Resolution

/-!
# Specification: curves drawn by a machine

As `ShowsWires`, for numbers `α` of which `fin` are finite and stand for the real numbers `val`.
-/

namespace Booz.Spec
open Plots

/-- A line through the points `P 0`, …, `P (n - 1)`. -/
def machineLine {α : Type} (boozer showlegend : Bool) (n : ℕ) (P : ℕ → α × α × α) : Drawn α :=
  .line boozer showlegend ((List.range n).map fun k => (P k).1) ((List.range n).map fun k => (P k).2.1)
    ((List.range n).map fun k => (P k).2.2)

/-- `nt + 1` lines of constant poloidal and `np + 1` lines of constant toroidal angle, with `q` points per segment. -/
def machineLines {α : Type} (boozer : Bool) (nt np q : ℕ) (P T : ℕ → ℕ → α × α × α) : List (Drawn α) :=
  (List.range (nt + 1)).map (fun i => machineLine boozer (decide (i = 0)) (np * q + 1) (P i)) ++
    (List.range (np + 1)).map fun j => machineLine boozer false (nt * q + 1) (T j)

/-- The coordinates of `P` are finite, and it is within `e` of the points of `S` with Boozer angles (t, z), which exist; `x` is
the position of the point of `S` with given original angles. -/
def PointNear {α : Type} (fin : α → Prop) (val : α → ℝ) (S : Surface) (x : ℝ → ℝ → ℝ × ℝ × ℝ) (P : α × α × α) (t z e : ℝ) : Prop :=
  fin P.1 ∧ fin P.2.1 ∧ fin P.2.2 ∧ (∃ θ ζ, S.thetaB θ ζ = t ∧ S.zetaB θ ζ = z) ∧
    ∀ θ ζ, S.thetaB θ ζ = t → S.zetaB θ ζ = z → dist (val P.1, val P.2.1, val P.2.2) (x θ ζ) ≤ e

/-- The coordinates of `P` are finite, and it is within `e` of `y`. -/
def PositionNear {α : Type} (fin : α → Prop) (val : α → ℝ) (P : α × α × α) (y : ℝ × ℝ × ℝ) (e : ℝ) : Prop :=
  fin P.1 ∧ fin P.2.1 ∧ fin P.2.2 ∧ dist (val P.1, val P.2.1, val P.2.2) y ≤ e

/-- For surface `b` of `nb` `draw` returns, after the solid surface if it is requested, `nt + 1` lines of constant poloidal and
`np + 1` lines of constant toroidal Boozer angle, with `q` points per segment, whose points are within `e` of the true ones, and
then as many lines of the original angles, if they are requested, whose points are within `δ` of the true ones.  The original
lines may be requested only if `orig`. -/
def ShowsWiresNear {α : Type} (fin : α → Prop) (val : α → ℝ) (draw : WireArgs → Fig α (List (Drawn α))) (S : Surface)
    (x : ℝ → ℝ → ℝ × ℝ × ℝ) (nb b nt np q : ℕ) (orig : Prop) (δ e : ℝ) : Prop :=
  ∀ a : WireArgs, (∀ js, a.js = some js → IsColumn nb js b) → (a.js = none → b + 1 = nb) →
    a.ntheta = nt → a.nphi = np → a.refine = q → (a.orig = true → orig) →
    ∃ (first : List (Drawn α)) (P T P' T' : ℕ → ℕ → α × α × α),
      (∀ fig, draw a fig = .ok (first ++ machineLines true nt np q P T ++
        if a.orig then machineLines false nt np q P' T' else []) fig) ∧
      (a.surf = false → first = []) ∧ (a.surf = true → ∃ X Y Z, first = [.surface X Y Z]) ∧
      (∀ i ≤ nt, ∀ k ≤ np * q, PointNear fin val S x (P i k) (2 * Real.pi * i / nt) (2 * Real.pi * k / (np * q)) e ∧
        PositionNear fin val (P' i k) (x (2 * Real.pi * i / nt) (2 * Real.pi * k / (np * q))) δ) ∧
      ∀ j ≤ np, ∀ k ≤ nt * q, PointNear fin val S x (T j k) (2 * Real.pi * k / (nt * q)) (2 * Real.pi * j / np) e ∧
        PositionNear fin val (T' j k) (x (2 * Real.pi * k / (nt * q)) (2 * Real.pi * j / np)) δ

end Booz.Spec
