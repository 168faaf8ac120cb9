import Verif.Model.State
import Verif.Prog

/-!
# NetCDF files and `NetCDFReader` (`/repo/src/_booz_xform/netcdf_reader.cpp:9-86`)

The contents of a classic NetCDF file, the library calls the program makes on it, and the reader
class.  Only the external types `NC_INT`, `NC_DOUBLE` and `NC_CHAR` are modelled.  Dimension ids are
represented by dimension names (which are unique in a file).  Closing a file that was opened for
reading is assumed to succeed.
-/

namespace Booz

/-- Values of a variable, in file order (last dimension fastest).  A cell is `none` if its value is
unspecified (it was written from uninitialised memory).
As seen by the calls of `netcdf_reader.cpp:34-81` and `netcdf_writer.cpp:52-140`. -/
inductive NcData (α : Type) where
  | ints (v : Vec Int)
  | dbls (v : Vec α)
  | text (v : String)

/-- A variable of a NetCDF file with the two attributes the program writes
(`netcdf_writer.cpp:38-50`); an absent attribute is the empty string. -/
structure NcVar (α : Type) where
  name : String
  dims : List String
  data : NcData α
  description : String := ""
  units : String := ""

/-- A NetCDF file: dimensions with their current lengths, and variables.
As seen by the calls of `netcdf_reader.cpp` and `netcdf_writer.cpp`. -/
structure NcFile (α : Type) where
  dims : List (String × Nat)
  vars : List (NcVar α)

/-- What can be at a path of the file system.  `broken` is a NetCDF file that was created but not
closed: what it contains depends on when buffers were flushed, and it is modelled as not
readable. Made by `netcdf_writer.cpp:21,142-167`; found by `nc_open`, `netcdf_reader.cpp:11`. -/
inductive Content (α : Type) where
  | absent
  | other (bytes : List Char)
  | broken
  | nc (f : NcFile α)

/-- The file system: contents of every path.
What `nc_open`, `netcdf_reader.cpp:11`, `nc_create`, `netcdf_writer.cpp:21`, and `file.open`, `driver.cpp:45`, refer to. -/
abbrev Disk (α : Type) := String → Content α

section reader
variable {α : Type}

/-- `nc_inq_varid`. `netcdf_reader.cpp:36,44,55,66,77`. -/
def NcFile.var? (f : NcFile α) (name : String) : Option (NcVar α) := f.vars.find? (·.name == name)

/-- `nc_inq_dimid`. `netcdf_reader.cpp:27`, `netcdf_writer.cpp:86`. -/
def NcFile.dim? (f : NcFile α) (name : String) : Option Nat :=
  (f.dims.find? (·.1 == name)).map (·.2)

/-- Opening for reading, `netcdf_reader.cpp:9-16`. -/
def openRead (disk : Disk α) (path : String) : Res (NcFile α) :=
  match disk path with
  | .nc f => .ok f
  | .absent => thrown "No such file or directory"
  | _ => thrown "NetCDF: Unknown file format"

/-- `nc_inq_varid` with its error check, e.g. `netcdf_reader.cpp:36-37`. -/
def NcFile.find (f : NcFile α) (name : String) : Res (NcVar α) :=
  match f.var? name with
  | some v => .ok v
  | none => thrown "NetCDF: Variable not found"

/-- `getdim`, `netcdf_reader.cpp:24-32`. -/
def NcFile.getdim (f : NcFile α) (name : String) : Res Nat :=
  match f.dim? name with
  | some n => .ok n
  | none => thrown "NetCDF: Invalid dimension ID or name"

/-- The bytes transferred by a library call that stores `src.size` values starting at the first cell
of an array: storing past its end is undefined. `netcdf_reader.cpp:57,68,79`. -/
def blit {β : Type} (src buf : Vec β) : Res (Vec β) :=
  if src.size ≤ buf.size then .ok (src ++ buf.extract src.size) else ub "store past the end of an array"

/-- Taking the address of the first cell, `&var[0]`, `netcdf_reader.cpp:57, 68`. -/
def first {β : Type} (v : Vec β) : Res Unit :=
  if 0 < v.size then .ok () else ub "address of a cell of an empty array"

/-- Taking the address of the first cell, `&var(0,0)`, `netcdf_reader.cpp:79`. -/
def Mat.first {β : Type} (a : Mat β) : Res Unit :=
  if 0 < a.rows ∧ 0 < a.cols then .ok () else ub "address of a cell of an empty array"

variable [Arith α]

/-- Values delivered by `nc_get_var_int`.  Doubles are truncated; a value out of range is an error
(`NC_ERANGE`; the library has then already stored the other values, which is not modelled), and
character variables cannot be converted (`NC_ECHAR`). `netcdf_reader.cpp:38,68`. -/
def NcVar.asInts (v : NcVar α) : Res (Vec Int) :=
  match v.data with
  | .ints a => .ok a
  | .dbls a =>
    if a.all fun c => match c with | some x => (Arith.toInt x).isSome | none => true then
      .ok (a.map fun c => c.bind Arith.toInt)
    else thrown "NetCDF: Numeric conversion not representable"
  | .text _ => thrown "NetCDF: Attempt to convert between text & numbers"

/-- Values delivered by `nc_get_var_double`. `netcdf_reader.cpp:46,57,79`. -/
def NcVar.asDbls (v : NcVar α) : Res (Vec α) :=
  match v.data with
  | .ints a => .ok (a.map fun c => c.map ofInt)
  | .dbls a => .ok a
  | .text _ => thrown "NetCDF: Attempt to convert between text & numbers"

/-- `get(varname, int&)`, `netcdf_reader.cpp:34-40`. -/
def NcFile.getInt (f : NcFile α) (name : String) (old : Option Int) : Res (Option Int) := do
  let v ← f.find name
  let a ← v.asInts
  let b ← blit a #[old]
  pure b[0]?.join

/-- `get(varname, boozfloat&)`, `netcdf_reader.cpp:42-48`. -/
def NcFile.getDbl (f : NcFile α) (name : String) (old : Option α) : Res (Option α) := do
  let v ← f.find name
  let a ← v.asDbls
  let b ← blit a #[old]
  pure b[0]?.join

/-- `get(varname, Vector&)`, `netcdf_reader.cpp:53-59`. -/
def NcFile.getVec (f : NcFile α) (name : String) (old : Vec α) : Res (Vec α) := do
  let v ← f.find name
  first old
  let a ← v.asDbls
  blit a old

/-- `get(varname, IntVector&)`, `netcdf_reader.cpp:64-70`. -/
def NcFile.getIVec (f : NcFile α) (name : String) (old : Vec Int) : Res (Vec Int) := do
  let v ← f.find name
  first old
  let a ← v.asInts
  blit a old

/-- `get(varname, Matrix&)`, `netcdf_reader.cpp:75-81`: the file order of a variable with dimensions
(surface, mode) is the column-major order of a (mode, surface) array. -/
def NcFile.getMat (f : NcFile α) (name : String) (old : Mat α) : Res (Mat α) := do
  let v ← f.find name
  old.first
  let a ← v.asDbls
  let d ← blit a old.data
  pure { old with data := d }

end reader

end Booz
