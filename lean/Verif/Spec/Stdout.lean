import Verif.Model.Stdout
import Verif.Spec.Handles

/-!
# Specification: standard output
-/

namespace Booz.Spec
variable {α : Type} [Arith α]

/-- How a call ended, apart from what it printed. -/
def unprinted {β : Type} : Out (Tty α) β → Out (Sess α) β
  | .ok x t => .ok x t.sess
  | .exc m t => .exc m t.sess
  | .abort x => .abort x
  | .ub x => .ub x

/-- The file has a numeric variable of this name. -/
def HasNumbers (f : NcFile α) (name : String) : Prop := ∃ v, f.var? name = some v ∧ ∀ s, v.data ≠ .text s

/-- The calls that read a file. -/
def ReadsFile : Call → Prop
  | .readWout _ _ => True
  | .readBoozmn _ => True
  | _ => False

/-- The call does not ask for messages. -/
def NotLoud : Call → Prop
  | .setVerbose v => v ≤ 0
  | _ => True

/-- The message is about an error. -/
def IsError : StdLine α → Prop
  | .netcdfError _ => True
  | _ => False

/-- The call reads a `boozmn` file that does not have numbers under `chi_b`, which the reader accepts. -/
def NoChi (disk : Disk α) : Call → Prop
  | .readBoozmn path => ∃ f, disk path = .nc f ∧ ¬ HasNumbers f "chi_b"
  | _ => False

/-- The reports among the messages. -/
def reportsIn (l : List (StdLine α)) : List (Report α) :=
  l.filterMap fun x => match x with | .report r => some r | _ => none

/-- How many calls of a session read `boozmn` files. -/
def boozmnReads (l : List (Call × Option String)) : Nat :=
  l.countP fun x => match x.1 with | .readBoozmn _ => true | _ => false

end Booz.Spec
