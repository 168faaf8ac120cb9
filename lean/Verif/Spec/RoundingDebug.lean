import Verif.Spec.Rounding

/-!
# Specification: arithmetic with a small relative error

What the assertions of the debug build need: products and quotients of moderate size have a relative error of at
most `u ≤ 2^-52`, `int`s are converted exactly, and the comparison with `1.0e-13` accepts numbers below `9.0e-14`.
-/

namespace Booz.Spec

/-- `α` computes with relative precision `u` on numbers of moderate size. -/
structure Relative (α : Type) [Arith α] (fin : α → Prop) (val : α → ℝ) (u : ℝ) : Prop where
  u_nonneg : 0 ≤ u
  u_le : u ≤ 1 / 2 ^ 52
  ofInt : ∀ n : ℤ, |n| < 2 ^ 31 → fin (ofInt n) ∧ val (ofInt n) = n
  pi : fin Arith.pi ∧ |val Arith.pi - Real.pi| ≤ 1 / 10
  mul : ∀ a b, fin a → fin b → val a * val b = 0 ∨ 1 / 2 ^ 64 ≤ |val a * val b| ∧ |val a * val b| ≤ 2 ^ 64 →
    fin (a * b) ∧ |val (a * b) - val a * val b| ≤ u * |val a * val b|
  div : ∀ a b, fin a → fin b → val b ≠ 0 → 1 / 2 ^ 64 ≤ |val a / val b| ∧ |val a / val b| ≤ 2 ^ 64 →
    fin (a / b) ∧ |val (a / b) - val a / val b| ≤ u * |val a / val b|
  sub : ∀ a b, fin a → fin b → |val a - val b| ≤ 2 ^ 64 →
    fin (a - b) ∧ |val (a - b) - (val a - val b)| ≤ u * |val a - val b|
  absTiny : ∀ a, fin a → |val a| ≤ 9 / 10 ^ 14 → Arith.absTiny a = true

end Booz.Spec
