import Verif.Model.NetCDF

/-!
# `NetCDFWriter` (`/repo/src/_booz_xform/netcdf_writer.cpp:16-167`)

The writer object, the memory its deferred pointers refer to, and the file system.  Every call of
the NetCDF library can fail for reasons outside the program (disk full, permissions, ...): an
environment `env : Nat → Option String` says with which message the k-th call fails.
Simplifications: the size limit of a single variable in the classic format is not modelled, and a
failing call changes nothing.
-/

namespace Booz

/-- The local variables of `write_boozmn` that the deferred pointers refer to
(`write_boozmn.cpp:29, 32, 35, 48, 55, 62, 83, 86, 118-119`). -/
structure Locals (α : Type) where
  long_version : String := ""
  asym_int : Option Int := none
  ns : Option Int := none
  rmax_b : Option α := none
  rmin_b : Option α := none
  betaxis_b : Option α := none
  jlist : Vec Int := #[]
  iota_b : Vec α := #[]
  buco_b : Vec α := #[]
  bvco_b : Vec α := #[]
  pres_b : Vec α := #[]
  beta_b : Vec α := #[]
  phip_dummy : Vec α := #[]
  chi_dummy : Vec α := #[]
  phi_dummy : Vec α := #[]
  pmns_b : Mat α := .empty
  pmnc_b : Mat α := .empty

/-- The memory visible to `write_boozmn`: the object and the local variables.
`write_boozmn.cpp`; what the pointers of `netcdf_writer.hpp:30` point into. -/
structure Mem (α : Type) where
  obj : St α
  loc : Locals α

/-- A variable that has been defined in the file, with the pointer to its data kept by the writer
(`netcdf_writer.cpp:57-59`).  The pointer is represented by the function that fetches the cells
found from its address to the end of the array, when it is dereferenced. -/
structure VarDef (α : Type) where
  name : String
  dims : List String
  ptr : Mem α → NcData α
  description : String := ""
  units : String := ""

/-- `NetCDFWriter` (`netcdf_writer.hpp:26-33`) together with what the library knows about the open
file: its path, dimensions, and the variables whose data have been written. -/
structure Writer (α : Type) where
  path : String
  dims : List (String × Nat)
  defs : List (VarDef α)
  written : List (NcVar α)

/-- Everything the writer can change. `netcdf_writer.hpp:27-33`. -/
structure Core (α : Type) where
  mem : Mem α
  disk : Disk α
  nc : Writer α

/-- State of a computation that writes files.  `log` collects the file system as it was after each
library call, latest first: these are the points at which a crash is observable.
The log is not in the code; it is for the crash statement of C42 about `netcdf_writer.cpp:142-167`. -/
structure WSt (α : Type) where
  core : Core α
  calls : Nat
  log : List (Disk α)

/-- Which library calls fail, and how. The error codes `retval` of `netcdf_writer.cpp`. -/
abbrev Env := Nat → Option String

section
variable {α : Type}

/-- One call of the NetCDF library with its error check, e.g. `netcdf_writer.cpp:30-31`. -/
def ncCall (env : Env) (eff : Core α → Res (Core α)) : Prog (WSt α) Unit := fun w =>
  match env w.calls with
  | some m => .exc m { w with calls := w.calls + 1 }
  | none =>
    match eff w.core with
    | .ok c => .ok () ⟨c, w.calls + 1, c.disk :: w.log⟩
    | .error (.throw m) => .exc m { w with calls := w.calls + 1 }
    | .error (.ub x) => .ub x
    | .error (.assertFail x) => .abort x

/-- A statement of the member function that is not a library call. For `write_boozmn.cpp`. -/
def setMem (g : Mem α → Res (Mem α)) : Prog (WSt α) Unit :=
  Prog.modify fun w => do
    let m ← g w.core.mem
    pure { w with core := { w.core with mem := m } }

/-- Update one file. For `netcdf_writer.cpp:21,142-167`. -/
def Disk.put (d : Disk α) (path : String) (c : Content α) : Disk α :=
  fun p => if p = path then c else d p

/-- Constructor: `nc_create` with `NC_CLOBBER`, `netcdf_writer.cpp:16-22`.  An existing file is
truncated at once. -/
def ncCreate (env : Env) (path : String) : Prog (WSt α) Unit :=
  ncCall env fun c => .ok { c with disk := c.disk.put path .broken, nc := ⟨path, [], [], []⟩ }

/-- `nc_def_dim` in a classic-format file.  The length, an `int`, is converted to `size_t`; lengths
above `X_INT_MAX - 3` are rejected, so negative ones are too; length 0 means unlimited and only one
dimension may be.  (`dim`, `netcdf_writer.cpp:28-33`) -/
def defDim (name : String) (val : Int) (c : Core α) : Res (Core α) :=
  if val < 0 ∨ 2147483644 < val then thrown "NetCDF: Invalid dimension size"
  else if c.nc.dims.any (·.1 == name) then thrown "NetCDF: String match to name in use"
  else if val = 0 ∧ c.nc.dims.any (·.2 == 0) then
    thrown "NetCDF: NC_UNLIMITED size already in use"
  else .ok { c with nc := { c.nc with dims := c.nc.dims ++ [(name, val.toNat)] } }

/-- `nc_def_var` followed by the three `push_back`s, e.g. `netcdf_writer.cpp:55-59`. -/
def defVar (d : VarDef α) (c : Core α) : Res (Core α) :=
  if c.nc.defs.any (·.name == d.name) then thrown "NetCDF: String match to name in use"
  else .ok { c with nc := { c.nc with defs := c.nc.defs ++ [d] } }

/-- Forming the pointer: `&val[0]` (`netcdf_writer.cpp:110, 121`) or `&a(0,0)` (by the caller,
`write_boozmn.cpp:109`) is undefined for an empty array. -/
def addressOk : NcData α → Res Unit
  | .ints v => first v
  | .dbls v => first v
  | .text _ => .ok ()

/-- `nc_put_att_text` if the text is not empty, `netcdf_writer.cpp:38-50`. -/
def putAtt (env : Env) (text : String) : Prog (WSt α) Unit :=
  if text.utf8ByteSize > 0 then ncCall env .ok else pure ()

/-- `put`, `netcdf_writer.cpp:52-140`.  In the variants for vectors the pointer is formed after the
variable is defined (`:110, 121`), in the one for arrays of higher rank it is an argument. -/
def ncPut (env : Env) (d : VarDef α) : Prog (WSt α) Unit := do
  let w ← Prog.get
  Prog.lift (if d.dims.length > 1 then addressOk (d.ptr w.core.mem) else .ok ())
  ncCall env (defVar d)
  Prog.lift (addressOk (d.ptr w.core.mem))
  putAtt env d.description
  putAtt env d.units

/-- A sequence of `put` statements. As in `write_boozmn.cpp:109-143`. -/
def ncPuts (env : Env) : List (VarDef α) → Prog (WSt α) Unit
  | [] => pure ()
  | d :: ds => do
    ncPut env d
    ncPuts env ds

/-- The dimension name made for a string of the given length, `netcdf_writer.cpp:79-82`. -/
def dimStr (len : Nat) : String :=
  let r := toString len
  "dim_" ++ String.ofList (List.replicate (5 - r.length) '0') ++ r

/-- The dimension of a string variable: created unless it exists, `netcdf_writer.cpp:84-91`. -/
def strDim (env : Env) (len : Nat) : Prog (WSt α) Unit := do
  let w ← Prog.get
  if w.core.nc.dims.any (·.1 == dimStr len) then pure ()
  else ncCall env (defDim (dimStr len) len)

/-- Number of values of a variable with these dimensions. For the library calls of `netcdf_writer.cpp:152,156,160`. -/
def dimCount (dims : List (String × Nat)) (ds : List String) : Nat :=
  (ds.map fun d => ((dims.find? (·.1 == d)).map (·.2)).getD 0).foldl (· * ·) 1

/-- The values the library fetches through the pointer: as many as the dimensions say.
For the library calls of `netcdf_writer.cpp:152,156,160`. -/
def fetch (n : Nat) : NcData α → Res (NcData α)
  | .ints v => if n ≤ v.size then .ok (.ints (v.extract 0 n)) else ub "read past the end of an array"
  | .dbls v => if n ≤ v.size then .ok (.dbls (v.extract 0 n)) else ub "read past the end of an array"
  | .text s => if n = s.utf8ByteSize then .ok (.text s) else ub "read past the end of a string"

/-- `nc_put_var_int`, `nc_put_var_double`, `nc_put_var_text`, `netcdf_writer.cpp:150-162`. -/
def putVar (d : VarDef α) (c : Core α) : Res (Core α) := do
  let x ← fetch (dimCount c.nc.dims d.dims) (d.ptr c.mem)
  pure { c with nc := { c.nc with written := c.nc.written ++
    [{ name := d.name, dims := d.dims, data := x, description := d.description, units := d.units }] } }

/-- The loop `netcdf_writer.cpp:149-163`. -/
def putVars (env : Env) : List (VarDef α) → Prog (WSt α) Unit
  | [] => pure ()
  | d :: ds => do
    ncCall env (putVar d)
    putVars env ds

/-- `nc_close`: now the file is complete, `netcdf_writer.cpp:166`. -/
def ncClose (c : Core α) : Res (Core α) :=
  .ok { c with disk := c.disk.put c.nc.path (.nc ⟨c.nc.dims, c.nc.written⟩) }

/-- `write_and_close`, `netcdf_writer.cpp:142-167`. -/
def writeAndClose (env : Env) : Prog (WSt α) Unit := do
  ncCall env .ok                                                            -- :146
  let w ← Prog.get
  putVars env w.core.nc.defs                                                -- :149-163
  ncCall env ncClose                                                        -- :166

end

end Booz
