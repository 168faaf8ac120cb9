import Verif.Spec.Plots
import Verif.Spec.ReportRounding
import Verif.Spec.EndToEnd

/-!
# Specification: what the radial plots show of the equilibrium

`symplot` and `modeplot` draw curves with one point per surface; the numbers `α` of a machine are finite where `fin` holds and
stand for the real numbers `val`.
-/

namespace Booz.Spec
open Plots

/-- What is to be drawn for a harmonic `x` of the mode (m, n): zero if (m, n) is proportional to the removed helicity, and the
magnitude on a logarithmic axis. -/
noncomputable def shownValue (remove : Option (Int × Int)) (log : Bool) (m n : ℤ) (x : ℝ) : ℝ :=
  match remove with
  | none => if log then |x| else x
  | some h => if h.2 * m = h.1 * n then 0 else if log then |x| else x

/-- The curve (x, y) has one point for each of `nb` surfaces: the horizontal coordinate is a number within `δ` of `s b`, or its
square root if `sqrts`; the vertical one is finite and within `e` of `c b`. -/
def CurveNear {α : Type} [Arith α] (fin : α → Prop) (val : α → ℝ) (nb : ℕ) (sqrts : Bool) (x y : List α) (s c : ℕ → ℝ)
    (δ e : ℝ) : Prop :=
  x.length = nb ∧ y.length = nb ∧ ∀ b < nb,
    (∃ t, fin t ∧ |val t - s b| ≤ δ ∧ x[b]? = some (if sqrts then Arith.sqrt t else t)) ∧
    ∃ v, y[b]? = some v ∧ fin v ∧ |val v - c b| ≤ e

/-- `f b` is |B| of surface `S b` as a continuous function of the Boozer angles, for the first `nb` surfaces. -/
def FieldsOf (S : ℕ → Surface) (nb : ℕ) (f : ℕ → ℝ → ℝ → ℝ) : Prop :=
  ∀ b < nb, Continuous (Function.uncurry (f b)) ∧ TorusFn (f b) ∧ (S b).Expresses (f b) (S b).B

/-- `draw` (argsort, parameters) is what `modeplot` ought to do for an object with `total` modes: it draws, raising
`IndexError` at the end if there are fewer modes than asked for, and all curves labelled (m, n) are near (`s`, `c`). -/
def ModeplotNear {α : Type} [Arith α] (fin : α → Prop) (val : α → ℝ) (draw : (List α → List ℕ) → ModeArgs α → Fig α Unit)
    (total nb : ℕ) (m n : ℤ) (s c : ℕ → ℝ) (δ e : ℝ) : Prop :=
  ∀ (le : α → α → Prop) (argsort : List α → List ℕ), (∀ keys, IsArgsort le keys (argsort keys)) →
    ∀ a : ModeArgs α, 0 ≤ a.nmodes → ∃ fig,
      draw argsort a [] =
        (if a.nmodes ≤ (if a.B0 then total else total - 1 : ℤ) then .ok () fig else .exc "IndexError" fig) ∧
      ∀ col x y, Drawn.curve col (some (.mode m n)) x y ∈ fig →
        CurveNear fin val nb a.sqrts x y s (fun b => shownValue a.remove a.log m n (c b)) δ e

/-- `draw` (parameters) is what `symplot` ought to do for an object with the mode (m, n): if this is within the limits, a curve
in the colour of its class is near (`s`, `c`). -/
def SymplotNear {α : Type} [Arith α] (fin : α → Prop) (val : α → ℝ) (draw : SymArgs α → Fig α Unit)
    (nfp nb : ℕ) (m n : ℤ) (s c : ℕ → ℝ) (δ e : ℝ) : Prop :=
  ∀ a : SymArgs α, ∃ fig, draw a [] = .ok () fig ∧
    ∀ cl, InClass a.detail nfp m n cl → Within a.max_m a.max_n nfp m n → (cl = .background → a.B0 = true) →
      ∃ x y, Drawn.curve cl.color none x y ∈ fig ∧
        CurveNear fin val nb a.sqrts x y s (fun b => shownValue a.remove a.log m n (c b)) δ e

end Booz.Spec
