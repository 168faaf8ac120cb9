import Verif.Model.CheckAccuracy
import Verif.Spec.Rounding

/-!
# Specification: the accuracy report in rounded arithmetic
-/

namespace Booz.Spec

/-- Taking absolute values and comparing numbers involves no rounding, as IEEE 754 prescribes. -/
structure Compares (α : Type) [Arith α] (fin : α → Prop) (val : α → ℝ) : Prop where
  abs : ∀ a, fin a → fin (Arith.abs a) ∧ val (Arith.abs a) = |val a|
  max : ∀ a b, fin a → fin b → fin (Arith.max a b) ∧ val (Arith.max a b) = max (val a) (val b)

/-- The rows of the report `r` are the rows of `q` up to errors of at most `e`: the same surface, and at each
of the four check points the two values of |B| and the relative difference are finite and within `e`. -/
structure ReportNear {α : Type} (fin : α → Prop) (val : α → ℝ) (e : ℝ) (r : Report α) (q : Report ℝ) : Prop where
  js_b : r.js_b = q.js_b
  js : r.js = q.js
  vmec : VecNear fin val 4 e r.vmec q.vmec
  boozer : VecNear fin val 4 e r.boozer q.boozer
  err : VecNear fin val 4 e r.err q.err

end Booz.Spec
