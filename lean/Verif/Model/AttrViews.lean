import Verif.Model.Attributes
import Verif.Model.Views

/-!
# Assigning an attribute while arrays taken from attributes are kept
(`/repo/src/_booz_xform/bindings.cpp:108-290`)
-/

namespace Booz
variable {α : Type} [Arith α]

/-- `b.name = value` with its effect on storage.  The setter that `def_readwrite` makes copies the
converted value into the member with the assignment operator of Eigen. `bindings.cpp:108-290`. -/
def VSess.assign (x : Setting α) : Prog (VSess α) Unit := fun w =>
  match x.assign w.sess.obj with
  | .ok _ s => .ok () (w.moved { w.sess with obj := s })
  | .exc m s => .exc m (w.moved { w.sess with obj := s })
  | .abort y => .abort y
  | .ub y => .ub y

end Booz
