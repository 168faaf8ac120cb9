import Verif.Model.Views

/-!
# Programs that keep arrays
-/

namespace Booz.Spec
variable {α : Type} [Arith α]

/-- A program goes from one state to another by calls that return or throw, all of them satisfying
`P`, and all states on the way (including both ends) satisfying `Q`. -/
inductive CallsTo (P : Call → Prop) (Q : VSess α → Prop) : VSess α → VSess α → Prop
  | refl {w : VSess α} (h : Q w) : CallsTo P Q w w
  | ok {u w w' : VSess α} {c : Call} (hg : CallsTo P Q u w) (hc : P c) (h : VSess.step c w = .ok () w')
      (hq : Q w') : CallsTo P Q u w'
  | exc {u w w' : VSess α} {c : Call} {m : String} (hg : CallsTo P Q u w) (hc : P c)
      (h : VSess.step c w = .exc m w') (hq : Q w') : CallsTo P Q u w'

/-- The calls that write output arrays. -/
def WritesOutputs : Call → Prop
  | .run => True
  | .readBoozmn _ => True
  | _ => False

end Booz.Spec
