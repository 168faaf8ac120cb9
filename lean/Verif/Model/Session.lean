import Verif.Model.ReadBoozmn
import Verif.Model.Run

/-!
# Calls on one object (`/repo/src/_booz_xform/bindings.cpp:14-110, 263-280`)

What a program can do with one `Booz_xform` object through the Python class, apart from assigning
the input arrays directly.  Progress messages are omitted.
-/

namespace Booz
variable {α : Type} [Arith α]

/-- An object and the files it works with. What the methods of `bindings.cpp:18-104` act on. -/
structure Sess (α : Type) where
  obj : St α
  disk : Disk α

/-- A call of a method or an assignment to an attribute, `bindings.cpp:20-104` and the
`def_readwrite` of `verbose` (108), `mboz` (263), `nboz` (267) and `compute_surfs` (273).  A write carries what makes library
calls fail during it, and the version string the library was compiled with. -/
inductive Call
  | readWout (path : String) (flux : Bool)
  | setMboz (m : Int)
  | setNboz (n : Int)
  | setVerbose (v : Int)
  | setSurfs (l : List Int)
  | run
  | write (env : Env) (version path : String)
  | readBoozmn (path : String)

/-- Call a member function of the object.  After an exception the object keeps what was assigned
before. `bindings.cpp:20,99`. -/
def Sess.on (p : Prog (St α) Unit) : Prog (Sess α) Unit := fun w =>
  match p w.obj with
  | .ok _ s => .ok () { w with obj := s }
  | .exc m s => .exc m { w with obj := s }
  | .abort x => .abort x
  | .ub x => .ub x

/-- Assign to an input attribute. `def_readwrite`, `bindings.cpp:108-290`. -/
def Sess.assign (g : Inputs α → Inputs α) : Prog (Sess α) Unit := fun w =>
  .ok () { w with obj := { w.obj with inp := g w.obj.inp } }

/-- `run()` (release build).  If it threw, the object would count as unchanged; it never throws. `bindings.cpp:87`. -/
def Sess.run : Prog (Sess α) Unit := fun w =>
  match Booz.run false w.obj with
  | .ok r => .ok () { w with obj := r.1 }
  | .error (.throw m) => .exc m w
  | .error (.assertFail x) => .abort x
  | .error (.ub x) => .ub x

/-- `write_boozmn(path)`: changes files and possibly the object. `bindings.cpp:91`. -/
def Sess.write (env : Env) (version path : String) : Prog (Sess α) Unit := fun w =>
  match writeBoozmn env version path w.disk w.obj with
  | .ok _ v => .ok () ⟨v.core.mem.obj, v.core.disk⟩
  | .exc m v => .exc m ⟨v.core.mem.obj, v.core.disk⟩
  | .abort x => .abort x
  | .ub x => .ub x

/-- Carry out a call. `bindings.cpp:18-290`. -/
def perform : Call → Prog (Sess α) Unit
  | .readWout path flux => fun w => Sess.on (readWout w.disk path flux) w
  | .setMboz m => Sess.assign fun I => { I with mboz := m }
  | .setNboz n => Sess.assign fun I => { I with nboz := n }
  | .setVerbose v => Sess.assign fun I => { I with verbose := v }
  | .setSurfs l => Sess.assign fun I => { I with compute_surfs := (l.map some).toArray }
  | .run => Sess.run
  | .write env version path => Sess.write env version path
  | .readBoozmn path => fun w => Sess.on (readBoozmn w.disk path) w

end Booz
