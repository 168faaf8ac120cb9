/-!
# Floating-point operations used by the code

The model is polymorphic in the number type.  `Arith α` lists the operations on `boozfloat`
(= `double`, `/repo/src/_booz_xform/vector_matrix.hpp:8`) that the code uses.  No laws are assumed:
theorems stated for every `Arith α` hold in particular for IEEE doubles with any rounding.
-/

namespace Booz

/-- Operations on `boozfloat` used by the code. -/
class Arith (α : Type) extends Add α, Sub α, Mul α, Div α, Neg α where
  /-- conversion of an `int` to `double` (also the literals `0`, `1.0`, `2.0`) -/
  ofInt : Int → α
  /-- the literal `0.5` -/
  half : α
  /-- the literal `1.5` -/
  threeHalves : α
  /-- the constant `pi = 3.141592653589793` (`booz_xform.hpp:10`) -/
  pi : α
  sqrt : α → α
  sin : α → α
  cos : α → α
  /-- `std::abs` on doubles -/
  abs : α → α
  /-- `std::max(a,b)` on doubles -/
  max : α → α → α
  /-- `std::abs(x) < 1.0e-13` (used in the assertions of `check_accuracy.cpp`) -/
  absTiny : α → Bool
  /-- conversion of a `double` to `int` by truncation as done by libnetcdf (`nc_get_var_int` on a
  double variable); `none` when out of range (`NC_ERANGE`) -/
  toInt : α → Option Int

export Arith (ofInt)

variable {α : Type} [Arith α]

/-- the constant `twopi` (`booz_xform.hpp:11`) -/
def twopi : α := ofInt 2 * (Arith.pi : α)

end Booz
