import Verif.Model.Session

/-!
# Files held open by the process

`NetCDFReader` and `NetCDFWriter` have no destructor (`netcdf_reader.hpp:10-29`,
`netcdf_writer.hpp:28-52`): a file is closed only by the statement that calls `nc_close`.  Here the calls
of `Model/Session.lean` are carried out in a process that counts its open files and may have at most
`limit` of them, as the operating system prescribes.  Files opened by other parts of the process are
part of the count at the start.
-/

namespace Booz
variable {α : Type} [Arith α]

/-- A process working with one object: the object, the file system and the number of files open.
What `ncid`, `netcdf_reader.hpp:12` and `netcdf_writer.hpp:30`, refers to. -/
structure Proc (α : Type) where
  sess : Sess α
  opened : Nat

/-- The message of `nc_strerror` when the process has too many files open: `netcdf_reader.cpp:12`,
`netcdf_writer.cpp:21`. -/
def tooMany : String := "Too many open files"

/-- The constructor of `NetCDFReader`, `netcdf_reader.cpp:9-16`.  (`nc_inq` does not fail.) -/
def Proc.openRead (limit : Nat) (path : String) : Prog (Proc α) (NcFile α) := fun p =>
  if limit ≤ p.opened then .exc tooMany p
  else match Booz.openRead p.sess.disk path with
    | .ok f => .ok f { p with opened := p.opened + 1 }
    | .error (.throw m) => .exc m p
    | .error (.assertFail x) => .abort x
    | .error (.ub x) => .ub x

/-- `NetCDFReader::close`, `netcdf_reader.cpp:83-86`. -/
def Proc.close : Prog (Proc α) Unit := fun p => .ok () { p with opened := p.opened - 1 }

/-- Statements that only act on the object. `read_wout.cpp:16-101,105-113`, `read_boozmn.cpp:17-114`. -/
def Proc.on {β : Type} (q : Prog (St α) β) : Prog (Proc α) β := fun p =>
  match q p.sess.obj with
  | .ok x s => .ok x { p with sess := { p.sess with obj := s } }
  | .exc m s => .exc m { p with sess := { p.sess with obj := s } }
  | .abort x => .abort x
  | .ub x => .ub x

/-- `read_wout`, `read_wout.cpp:11-115`. -/
def Proc.readWout (limit : Nat) (path : String) (flux : Bool) : Prog (Proc α) Unit := do
  let f ← Proc.openRead limit path                                          -- :14
  let q ← Proc.on (readWoutBody f flux)                                     -- :16-101
  Proc.close                                                                -- :103
  Proc.on (initFromVmec q.1 q.2)                                            -- :105-113

/-- `read_boozmn`, `read_boozmn.cpp:11-119`. -/
def Proc.readBoozmn (limit : Nat) (path : String) : Prog (Proc α) Unit := do
  let f ← Proc.openRead limit path                                          -- :15
  Proc.on (readBoozmnBody f)                                                -- :17-114
  Proc.close                                                                -- :117

/-- The object and the files after (part of) `write_boozmn`. `write_boozmn.cpp:8-149`. -/
def WSt.sess (w : WSt α) : Sess α := ⟨w.core.mem.obj, w.core.disk⟩

/-- `write_boozmn`, `write_boozmn.cpp:8-149`.  `nc_create` opens the file (`:11`,
`netcdf_writer.cpp:16-22`), the last library call of `write_and_close` closes it (`:147`,
`netcdf_writer.cpp:166`); a call that fails, the last one too, leaves it open. -/
def Proc.write (limit : Nat) (env : Env) (version path : String) : Prog (Proc α) Unit := fun p =>
  if limit ≤ p.opened then .exc tooMany p
  else match ncCreate env path ⟨⟨⟨p.sess.obj, {}⟩, p.sess.disk, ⟨"", [], [], []⟩⟩, 0, []⟩ with
    | .ok _ w =>
      match (defineVars env version >>= fun _ => writeAndClose env) w with
      | .ok _ v => .ok () ⟨v.sess, p.opened⟩
      | .exc m v => .exc m ⟨v.sess, p.opened + 1⟩
      | .abort x => .abort x
      | .ub x => .ub x
    | .exc m w => .exc m ⟨w.sess, p.opened⟩
    | .abort x => .abort x
    | .ub x => .ub x

/-- Calls that open no file. `bindings.cpp:87,108,263-273`. -/
def Proc.plain (c : Call) : Prog (Proc α) Unit := fun p =>
  match perform c p.sess with
  | .ok _ w => .ok () { p with sess := w }
  | .exc m w => .exc m { p with sess := w }
  | .abort x => .abort x
  | .ub x => .ub x

/-- Carry out a call in a process that may have `limit` files open. `bindings.cpp:18-290`. -/
def Proc.perform (limit : Nat) : Call → Prog (Proc α) Unit
  | .readWout path flux => Proc.readWout limit path flux
  | .readBoozmn path => Proc.readBoozmn limit path
  | .write env version path => Proc.write limit env version path
  | .setMboz m => Proc.plain (.setMboz m)
  | .setNboz n => Proc.plain (.setNboz n)
  | .setVerbose v => Proc.plain (.setVerbose v)
  | .setSurfs l => Proc.plain (.setSurfs l)
  | .run => Proc.plain .run

end Booz
