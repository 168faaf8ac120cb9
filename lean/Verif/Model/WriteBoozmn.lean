import Verif.Model.NetCDFWriter

/-!
# `Booz_xform::write_boozmn` (`/repo/src/_booz_xform/write_boozmn.cpp:8-149`)

The progress message (line 10) is omitted.  Consecutive `nc.put` statements are written as a list.
-/

namespace Booz
variable {α : Type} [Arith α]

/-- A scalar `int`, `netcdf_writer.cpp:52-61`. -/
def intVar (name : String) (p : Mem α → Option Int) (descr units : String) : VarDef α :=
  ⟨name, [], fun m => .ints #[p m], descr, units⟩
/-- A scalar floating-point number, `netcdf_writer.cpp:63-72`. -/
def dblVar (name : String) (p : Mem α → Option α) (descr units : String) : VarDef α :=
  ⟨name, [], fun m => .dbls #[p m], descr, units⟩
/-- A vector of `int`s, `netcdf_writer.cpp:103-112`. -/
def ivecVar (dim name : String) (p : Mem α → Vec Int) (descr units : String) : VarDef α :=
  ⟨name, [dim], fun m => .ints (p m), descr, units⟩
/-- A vector, `netcdf_writer.cpp:114-123`. -/
def vecVar (dim name : String) (p : Mem α → Vec α) (descr units : String) : VarDef α :=
  ⟨name, [dim], fun m => .dbls (p m), descr, units⟩
/-- A matrix: the two dimensions `bmnc_dim` (`write_boozmn.cpp:105-107`) are reversed
(`netcdf_writer.cpp:125-140`), and the data are the matrix in memory order. -/
def matVar (name : String) (p : Mem α → Mat α) (descr units : String) : VarDef α :=
  ⟨name, ["mn_modes", "pack_rad"].reverse, fun m => .dbls (p m).data, descr, units⟩

/-- `placeholder_str`, `write_boozmn.cpp:49`. -/
def placeholderStr : String := "Not implemented in this version of booz_xform. Just zero."
/-- `radius_dim_comment`, `write_boozmn.cpp:71`. -/
def radiusComment : String := " The radial grid corresponds to all surfaces on which input data were available, and a 0 is prepended"

/-- The scalars, `write_boozmn.cpp:33-41`. -/
def scalarDefs : List (VarDef α) := [
  intVar "lasym__logical__" (·.loc.asym_int)
    "0 if the configuration is stellarator-symmetric, 1 if not" "",
  intVar "ns_b" (·.loc.ns)
    "The number of radial grid points in the equilibrium before the transformation to Boozer coordinates" "dimensionless",
  intVar "nfp_b" (·.obj.inp.nfp) "The number of identical field periods" "dimensionless",
  intVar "mboz_b" (fun m => some m.obj.inp.mboz)
    "Maximum poloidal mode number m for which the Fourier amplitudes rmnc, bmnc etc are stored" "dimensionless",
  intVar "nboz_b" (fun m => some m.obj.inp.nboz)
    "Maximum toroidal mode number n for which the Fourier amplitudes rmnc, bmnc etc are stored" "dimensionless",
  intVar "mnboz_b" (·.obj.out.mnboz)
    "The total number of (m,n) pairs for which Fourier amplitudes rmnc, bmnc etc are stored." "dimensionless",
  dblVar "aspect_b" (·.obj.inp.aspect) "Aspect ratio, if provided" "dimensionless"]

/-- Not implemented scalars, `write_boozmn.cpp:50-52`. -/
def zeroDefs : List (VarDef α) := [
  dblVar "rmax_b" (·.loc.rmax_b) placeholderStr "dimensionless",
  dblVar "rmin_b" (·.loc.rmin_b) placeholderStr "dimensionless",
  dblVar "betaxis_b" (·.loc.betaxis_b) placeholderStr "dimensionless"]

/-- Integer vectors, `write_boozmn.cpp:57-59`. -/
def listDefs : List (VarDef α) := [
  ivecVar "comput_surfs" "jlist" (·.loc.jlist)
    "1-based radial indices of the original vmec solution for which the transformation to Boozer coordinates was computed. 2 corresponds to the first half-grid point." "dimensionless",
  ivecVar "mn_modes" "ixm_b" (·.obj.out.xm_b)
    "Poloidal mode numbers m for which the Fourier amplitudes rmnc, bmnc etc are stored" "dimensionless",
  ivecVar "mn_modes" "ixn_b" (·.obj.out.xn_b)
    "Toroidal mode numbers n for which the Fourier amplitudes rmnc, bmnc etc are stored" "dimensionless"]

/-- Profiles, `write_boozmn.cpp:72-78`. -/
def profileDefs : List (VarDef α) := [
  vecVar "radius" "iota_b" (·.loc.iota_b) ("Rotational transform." ++ radiusComment) "dimensionless",
  vecVar "radius" "buco_b" (·.loc.buco_b)
    ("Coefficient multiplying grad theta_Boozer in the covariant representation of the magnetic field vector, often denoted I(psi)." ++ radiusComment) "Tesla * meter",
  vecVar "radius" "bvco_b" (·.loc.bvco_b)
    ("Coefficient multiplying grad zeta_Boozer in the covariant representation of the magnetic field vector, often denoted G(psi)." ++ radiusComment) "Tesla * meter"]

/-- `beta_b`, which is given the array `pres_b`, `write_boozmn.cpp:85`. -/
def betaDefs : List (VarDef α) := [
  vecVar "radius" "beta_b" (·.loc.pres_b) placeholderStr "dimensionless"]

/-- Flux profiles when there are none, `write_boozmn.cpp:92-95`. -/
def dummyDefs : List (VarDef α) := [
  vecVar "radius" "phip_b" (·.loc.phip_dummy) placeholderStr "Tesla * meter^2",
  vecVar "radius" "chi_b" (·.loc.chi_dummy) placeholderStr "Tesla * meter^2",
  vecVar "radius" "pres_b" (·.loc.pres_b) placeholderStr "dimensionless",
  vecVar "radius" "phi_b" (·.loc.phi_dummy) placeholderStr "Tesla * meter^2"]

/-- Flux profiles when there are, `write_boozmn.cpp:98-101`. -/
def fluxDefs : List (VarDef α) := [
  vecVar "radius" "phip_b" (·.obj.flux.phip)
    "Derivative of toroidal flux (divided by (-2*pi)) with respect to s. This grid generally does not correspond to the radial grid used for other quantities in this file!" "Tesla * meter^2",
  vecVar "radius" "chi_b" (·.obj.flux.chi)
    "Poloidal flux (not divided by (2*pi)). This grid generally does not correspond to the radial grid used for other quantities in this file!" "Tesla * meter^2",
  vecVar "radius" "pres_b" (·.obj.flux.pres)
    "Pressure on full vmec grid. This grid generally does not correspond to the radial grid used for other quantities in this file!" "Pascal",
  vecVar "radius" "phi_b" (·.obj.flux.phi)
    "Uniformly spaced grid going from 0 to the boundary toroidal flux (not divided by (2*pi)). This grid generally does not correspond to the radial grid used for other quantities in this file!" "Tesla * meter^2"]

/-- Matrices before `pmns_b`, `write_boozmn.cpp:109-116`. -/
def matDefs1 : List (VarDef α) := [
  matVar "bmnc_b" (·.obj.out.spec.bmnc_b)
    "cos(m * theta_Boozer - n * zeta_Boozer) Fourier amplitudes of the magnetic field strength" "Tesla",
  matVar "rmnc_b" (·.obj.out.spec.rmnc_b)
    "cos(m * theta_Boozer - n * zeta_Boozer) Fourier amplitudes of the major radius R" "meter",
  matVar "zmns_b" (·.obj.out.spec.zmns_b)
    "sin(m * theta_Boozer - n * zeta_Boozer) Fourier amplitudes of the Cartesian coordinate Z" "meter"]

/-- `pmns_b` and `gmn_b`, `write_boozmn.cpp:120-124`. -/
def matDefs2 : List (VarDef α) := [
  matVar "pmns_b" (·.loc.pmns_b)
    "sin(m * theta_Boozer - n * zeta_Boozer) Fourier amplitudes of the angle difference zeta_VMEC - zeta_Boozer" "dimensionless",
  matVar "gmn_b" (·.obj.out.spec.gmnc_b)
    "cos(m * theta_Boozer - n * zeta_Boozer) Fourier amplitudes of the Boozer coordinate Jacobian (G + iota * I) / B^2" "meter/Tesla"]

/-- Asymmetric matrices before `pmnc_b`, `write_boozmn.cpp:129-136`. -/
def asymDefs1 : List (VarDef α) := [
  matVar "bmns_b" (·.obj.out.spec.bmns_b)
    "sin(m * theta_Boozer - n * zeta_Boozer) Fourier amplitudes of the magnetic field strength" "Tesla",
  matVar "rmns_b" (·.obj.out.spec.rmns_b)
    "sin(m * theta_Boozer - n * zeta_Boozer) Fourier amplitudes of the major radius R" "meter",
  matVar "zmnc_b" (·.obj.out.spec.zmnc_b)
    "cos(m * theta_Boozer - n * zeta_Boozer) Fourier amplitudes of the Cartesian coordinate Z" "meter"]

/-- `pmnc_b` and `gmns_b`, `write_boozmn.cpp:139-143`. -/
def asymDefs2 : List (VarDef α) := [
  matVar "pmnc_b" (·.loc.pmnc_b)
    "cos(m * theta_Boozer - n * zeta_Boozer) Fourier amplitudes of the angle difference zeta_VMEC - zeta_Boozer" "dimensionless",
  matVar "gmns_b" (·.obj.out.spec.gmns_b)
    "sin(m * theta_Boozer - n * zeta_Boozer) Fourier amplitudes of the Boozer coordinate Jacobian (G + iota * I) / B^2" "meter/Tesla"]

/-- A statement that assigns local variables. As in `write_boozmn.cpp:15,29,32,35,48,55-56,118,138`. -/
def setLoc (g : Mem α → Res (Locals α)) : Prog (WSt α) Unit :=
  setMem fun m => do
    let l ← g m
    pure { m with loc := l }

/-- `jlist`, `write_boozmn.cpp:55-56`. -/
def jlistOf (ns_b : Option Int) (surfs : Vec Int) : Res (Vec Int) := do
  let nb ← need ns_b "ns_b"
  let v ← Vec.resize #[] nb
  loop nb.toNat (fun j (v : Vec Int) => do
    let x ← surfs.rdN j
    let y ← i32 (x + 2)
    v.wrN j y) v

/-- The three vectors with a 0 inserted at the start, `write_boozmn.cpp:62-65`: `x, y, z` stand for
`iota_b, buco_b, bvco_b`. -/
structure Vec3 (α : Type) where
  x : Vec α
  y : Vec α
  z : Vec α

/-- `write_boozmn.cpp:62-70`. -/
def prepend3 (ns_in : Option Int) (iota bI bG : Vec α) : Res (Vec3 α) := do
  let n ← need ns_in "ns_in"
  let n1 ← i32 (n + 1)
  let v ← Vec.resize #[] n1
  let v ← v.wrN 0 (ofInt 0)
  loop n.toNat (fun j (s : Vec3 α) => do
    let a ← iota.rdN j
    let x ← s.x.wrN (j + 1) a
    let a ← bI.rdN j
    let y ← s.y.wrN (j + 1) a
    let a ← bG.rdN j
    let z ← s.z.wrN (j + 1) a
    pure ⟨x, y, z⟩) ⟨v, v, v⟩

/-- Elementwise minus, `write_boozmn.cpp:118, 138` and `read_boozmn.cpp:83, 96`. -/
def Mat.neg (a : Mat α) : Mat α := { a with data := a.data.map fun c => c.map (- ·) }

/-- Flux profiles, `write_boozmn.cpp:90-102`. -/
def writeFlux (env : Env) (haveFlux : Bool) : Prog (WSt α) Unit :=
  if haveFlux then do
    setMem fun m => do                                                      -- :97
      let v ← m.obj.flux.phip.wrN 0 (ofInt 0)
      pure { m with obj := { m.obj with flux := { m.obj.flux with phip := v } } }
    ncPuts env fluxDefs                                                     -- :98-101
  else do
    setLoc fun m => do                                                      -- :91
      let z ← Vec.setZero (ofInt 0 : α) m.loc.pres_b.size
      pure { m.loc with pres_b := z }
    ncPuts env dummyDefs                                                    -- :92-95

/-- Asymmetric matrices, `write_boozmn.cpp:126-144`. -/
def writeAsym (env : Env) (asym : Bool) : Prog (WSt α) Unit :=
  if asym then do
    ncPuts env asymDefs1                                                    -- :129-136
    setLoc fun m => .ok { m.loc with pmnc_b := m.obj.out.spec.numnc_b.neg } -- :138
    ncPuts env asymDefs2                                                    -- :139-143
  else pure ()

/-- `write_boozmn` from the creation of the file up to the definition of the last variable,
`write_boozmn.cpp:13-144`. -/
def defineVars (env : Env) (version : String) : Prog (WSt α) Unit := do
  let w ← Prog.get
  let s := w.core.mem.obj
  let nsIn ← Prog.lift (need s.inp.ns_in "ns_in")
  let ns1 ← Prog.lift (i32 (nsIn + 1))                                      -- :15
  ncCall env (defDim "radius" ns1)                                          -- :16
  let mnboz ← Prog.lift (need s.out.mnboz "mnboz")
  ncCall env (defDim "mn_mode" mnboz)                                       -- :20
  ncCall env (defDim "mn_modes" mnboz)                                      -- :21
  ncCall env (defDim "comput_surfs" s.inp.compute_surfs.size)               -- :25
  ncCall env (defDim "pack_rad" s.inp.compute_surfs.size)                   -- :26
  setLoc fun m => .ok { m.loc with long_version := "C++/Python booz_xform " ++ version } -- :29
  let len := ("C++/Python booz_xform " ++ version).utf8ByteSize
  strDim env len                                                            -- :30
  ncPut env ⟨"version", [dimStr len], fun m => .text m.loc.long_version, "", ""⟩
  let asym ← Prog.lift (need s.inp.asym "asym")
  setLoc fun m => .ok { m.loc with                                          -- :32, 35
    asym_int := some (if asym then 1 else 0), ns := some ns1 }
  ncPuts env scalarDefs                                                     -- :33-41
  setLoc fun m => .ok { m.loc with                                          -- :48
    rmax_b := some (ofInt 0), rmin_b := some (ofInt 0), betaxis_b := some (ofInt 0) }
  ncPuts env zeroDefs                                                       -- :50-52
  setLoc fun m => do                                                        -- :55-56
    let v ← jlistOf m.obj.out.ns_b m.obj.inp.compute_surfs
    pure { m.loc with jlist := v }
  ncPuts env listDefs                                                       -- :57-59
  setLoc fun m => do                                                        -- :62-70
    let v ← prepend3 m.obj.inp.ns_in m.obj.inp.iota m.obj.out.boozer_I_all m.obj.out.boozer_G_all
    pure { m.loc with iota_b := v.x, buco_b := v.y, bvco_b := v.z }
  ncPuts env profileDefs                                                    -- :72-78
  setLoc fun m => do                                                        -- :83-84
    let v ← Vec.resize #[] ns1
    let z ← Vec.setZero (ofInt 0 : α) ns1
    pure { m.loc with pres_b := v, beta_b := z }
  ncPuts env betaDefs                                                       -- :85
  setLoc fun m => do                                                        -- :86-89
    let z ← Vec.setZero (ofInt 0 : α) ns1
    pure { m.loc with phip_dummy := z, chi_dummy := z, phi_dummy := z }
  writeFlux env (decide (s.flux.phip.size ≠ 0))                             -- :90-102
  ncPuts env matDefs1                                                       -- :109-116
  setLoc fun m => .ok { m.loc with pmns_b := m.obj.out.spec.numns_b.neg }   -- :118
  ncPuts env matDefs2                                                       -- :120-124
  writeAsym env asym                                                        -- :126-144

/-- `write_boozmn` up to the definition of the last variable, `write_boozmn.cpp:11-144`. -/
def defineBoozmn (env : Env) (version filename : String) : Prog (WSt α) Unit := do
  ncCreate env filename                                                     -- :11
  defineVars env version                                                    -- :13-144

/-- `write_boozmn`, `write_boozmn.cpp:8-149`, on a memory and a file system. -/
def writeBoozmnW (env : Env) (version filename : String) : Prog (WSt α) Unit := do
  defineBoozmn env version filename
  writeAndClose env                                                         -- :147

/-- Calling `write_boozmn` on an object, with a given file system. `write_boozmn.cpp:8-149`. -/
def writeBoozmn (env : Env) (version filename : String) (disk : Disk α) (s : St α) : Out (WSt α) Unit :=
  writeBoozmnW env version filename ⟨⟨⟨s, {}⟩, disk, ⟨"", [], [], []⟩⟩, 0, []⟩

end Booz
