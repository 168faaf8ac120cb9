import Mathlib.Analysis.SpecialFunctions.Trigonometric.Basic
import Verif.Arith

/-!
# Exact real arithmetic as an instance of `Arith`
-/

namespace Booz

/-- Exact real arithmetic.  `toInt` truncates towards zero; out-of-range values are rejected. -/
noncomputable instance instArithReal : Arith ℝ where
  ofInt n := (n : ℝ)
  half := 1 / 2
  threeHalves := 3 / 2
  pi := Real.pi
  sqrt := Real.sqrt
  sin := Real.sin
  cos := Real.cos
  abs x := |x|
  max x y := Max.max x y
  absTiny x := decide (|x| < 1 / 10 ^ 13)
  toInt x :=
    let n := if 0 ≤ x then ⌊x⌋ else ⌈x⌉
    if -2147483648 ≤ n ∧ n < 2147483648 then some n else none

@[simp] theorem real_ofInt (n : Int) : (ofInt n : ℝ) = (n : ℝ) := rfl
@[simp] theorem real_half : (Arith.half : ℝ) = 1 / 2 := rfl
@[simp] theorem real_threeHalves : (Arith.threeHalves : ℝ) = 3 / 2 := rfl
@[simp] theorem real_pi : (Arith.pi : ℝ) = Real.pi := rfl
@[simp] theorem real_sin (x : ℝ) : Arith.sin x = Real.sin x := rfl
@[simp] theorem real_cos (x : ℝ) : Arith.cos x = Real.cos x := rfl
@[simp] theorem real_sqrt (x : ℝ) : Arith.sqrt x = Real.sqrt x := rfl
@[simp] theorem real_abs (x : ℝ) : Arith.abs x = |x| := rfl
@[simp] theorem real_max (x y : ℝ) : Arith.max x y = Max.max x y := rfl
theorem real_twopi : (twopi : ℝ) = 2 * Real.pi := by
  show ((2 : Int) : ℝ) * Real.pi = _
  norm_num

end Booz
