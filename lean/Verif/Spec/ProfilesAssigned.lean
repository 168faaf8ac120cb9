import Verif.Spec.Attributes

/-!
# Specification: programs that assign flux profiles
-/

namespace Booz.Spec
variable {α : Type}

/-- The assignment is to one of the four flux profiles. -/
def IsProfile (x : Setting α) : Prop :=
  nameOf x = .phi ∨ nameOf x = .chi ∨ nameOf x = .phip ∨ nameOf x = .pres

/-- `x` is the last of the assignments `l` to its attribute. -/
def LastAssigned (l : List (Setting α)) (x : Setting α) : Prop :=
  ∃ l₁ l₂, l = l₁ ++ x :: l₂ ∧ ∀ y ∈ l₂, nameOf y ≠ nameOf x

end Booz.Spec
