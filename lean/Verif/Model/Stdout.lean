import Verif.Model.Session

/-!
# What the methods write to standard output

The calls of `Model/Session.lean` once more, this time with the messages they send to `std::cout`.
Simplification: of the numbers in the messages only those of `check_accuracy` are kept.  Where a message
stands between two statements that can throw an exception is respected; otherwise its place within a
method is of no consequence, because undefined behaviour and a failed `assert` end the program.
-/

namespace Booz
variable {α : Type} [Arith α]

/-- A message on standard output. -/
inductive StdLine (α : Type) where
  /-- `read_wout.cpp:13`, `read_boozmn.cpp:14`. -/
  | about (path : String)
  /-- `netcdf_reader.cpp:19-20`; the name of the variable is omitted. -/
  | netcdfError (msg : String)
  /-- `init_from_vmec.cpp:178-179`. -/
  | vmecSizes
  /-- `init_from_vmec.cpp:182-193`. -/
  | vmecArrays
  /-- `read_boozmn.cpp:64-65`. -/
  | boozSizes
  /-- `read_boozmn.cpp:72`. -/
  | boozSurfs
  /-- `read_boozmn.cpp:115`. -/
  | boozS
  /-- `run.cpp:8-10`. -/
  | surfs
  /-- `init.cpp:45-47`. -/
  | resolution
  /-- `run.cpp:16-18`. -/
  | header
  /-- `surface_solve.cpp:20`. -/
  | solving (js_b : Nat)
  /-- `check_accuracy.cpp:128-147`. -/
  | report (r : Report α)
  /-- `write_boozmn.cpp:10`. -/
  | writing (path : String)

/-- An object, the file system and what has been printed. For `bindings.cpp:18-290`. -/
structure Tty (α : Type) where
  sess : Sess α
  lines : List (StdLine α)

/-- The object of the session. For `bindings.cpp:18-290`. -/
def Tty.obj (t : Tty α) : St α := t.sess.obj
/-- The same after printing. `std::cout <<` in `src/_booz_xform`. -/
def Tty.print (t : Tty α) (l : List (StdLine α)) : Tty α := { t with lines := t.lines ++ l }
/-- The same with another object. For `bindings.cpp:18-290`. -/
def Tty.put (t : Tty α) (s : St α) : Tty α := { t with sess := { t.sess with obj := s } }

/-- `if (verbose > level) std::cout << ...`. As in `read_wout.cpp:13`. -/
def Tty.say (level : Int) (l : StdLine α) : Prog (Tty α) Unit := fun t =>
  .ok () (if t.obj.inp.verbose > level then t.print [l] else t)

/-- Statements that print nothing. For `src/_booz_xform`. -/
def Tty.quiet {β : Type} (p : Prog (St α) β) : Prog (Tty α) β := fun t =>
  match p t.obj with
  | .ok x s => .ok x (t.put s)
  | .exc m s => .exc m (t.put s)
  | .abort x => .abort x
  | .ub x => .ub x

/-- Statements whose only exceptions are those of `NetCDFReader::ERR`, which prints before it throws,
whatever `verbose` is: `netcdf_reader.cpp:18-22`. -/
def Tty.reading {β : Type} (p : Prog (St α) β) : Prog (Tty α) β := fun t =>
  match p t.obj with
  | .ok x s => .ok x (t.put s)
  | .exc m s => .exc m ((t.put s).print [.netcdfError m])
  | .abort x => .abort x
  | .ub x => .ub x

/-- `init_from_vmec`, `init_from_vmec.cpp:9-301`: the messages (`:177-195`) come after the tests that
can throw. -/
def Tty.vmec (ns : Int) (A : VmecArgs α) : Prog (Tty α) Unit := do
  Tty.quiet (initFromVmec ns A)
  Tty.say 0 .vmecSizes
  Tty.say 1 .vmecArrays

/-- `read_wout`, `read_wout.cpp:11-115`. -/
def Tty.readWout (path : String) (flux : Bool) : Prog (Tty α) Unit := do
  Tty.say 0 (.about path)                                                   -- :13
  let t ← Prog.get
  let f ← Tty.reading (Prog.lift (openRead t.sess.disk path))               -- :14
  let q ← Tty.reading (readWoutBody f flux)                                 -- :16-101
  Tty.vmec q.1 q.2                                                          -- :105-113

/-- The values `read_boozmn` holds in local variables while the profiles are read, `read_boozmn.cpp:32-47`. -/
structure ProfileLocals (α : Type) where
  radius : Nat
  iota : Vec α
  g : Vec α
  i : Vec α

/-- Profiles up to `phip_b`, `read_boozmn.cpp:32-49`. -/
def readProfiles1 (f : NcFile α) : Prog (St α) (ProfileLocals α) := do
  let radius ← Prog.lift (f.getdim "radius")                                -- :32
  setSt fun s => do                                                         -- :37-44
    let n : Int := (radius : Int) - 1
    let iota ← s.inp.iota.resize n
    let g ← s.out.boozer_G_all.resize n
    let i ← s.out.boozer_I_all.resize n
    let phi ← s.flux.phi.resize radius
    let phip ← s.flux.phip.resize radius
    let chi ← s.flux.chi.resize radius
    let pres ← s.flux.pres.resize radius
    pure { s with
      inp := { s.inp with ns_in := some n, iota := iota }
      out := { s.out with boozer_G_all := g, boozer_I_all := i }
      flux := ⟨phi, phip, chi, pres⟩ }
  let new ← Prog.lift (Vec.resize (#[] : Vec α) radius)                     -- :33-36
  let iotaIn ← Prog.lift (f.getVec "iota_b" new)                            -- :45
  let gIn ← Prog.lift (f.getVec "bvco_b" new)                               -- :46
  let iIn ← Prog.lift (f.getVec "buco_b" new)                               -- :47
  setSt fun s => do                                                         -- :48
    let v ← f.getVec "phi_b" s.flux.phi
    pure { s with flux := { s.flux with phi := v } }
  setSt fun s => do                                                         -- :49
    let v ← f.getVec "phip_b" s.flux.phip
    pure { s with flux := { s.flux with phip := v } }
  pure ⟨radius, iotaIn, gIn, iIn⟩

/-- `try { nc.get("chi_b", chi); } catch (std::runtime_error error) {}`, `read_boozmn.cpp:50-53`: the
exception is caught, but `ERR` has printed. -/
def Tty.chi (f : NcFile α) : Prog (Tty α) Unit := fun t =>
  match f.getVec "chi_b" t.obj.flux.chi with
  | .ok v => .ok () (t.put { t.obj with flux := { t.obj.flux with chi := v } })
  | .error (.throw m) => .ok () (t.print [.netcdfError m])
  | .error (.assertFail x) => .abort x
  | .error (.ub x) => .ub x

/-- Profiles from `pres_b` on, `read_boozmn.cpp:54-61`. -/
def readProfiles2 (f : NcFile α) (l : ProfileLocals α) : Prog (St α) Unit := do
  setSt fun s => do                                                         -- :54
    let v ← f.getVec "pres_b" s.flux.pres
    pure { s with flux := { s.flux with pres := v } }
  setSt fun s => do                                                         -- :55-59
    let v ← dropFirst3 ((l.radius : Int) - 1) ⟨l.iota, l.g, l.i⟩
      ⟨s.inp.iota, s.out.boozer_G_all, s.out.boozer_I_all⟩
    pure { s with
      inp := { s.inp with iota := v.x }
      out := { s.out with boozer_G_all := v.y, boozer_I_all := v.z } }
  setSt fun s => do                                                         -- :61
    let x ← s.flux.phi.rd ((l.radius : Int) - 1)
    pure { s with inp := { s.inp with toroidal_flux := some x } }

/-- `compute_surfs` is sized and read, `read_boozmn.cpp:67-71`. -/
def readSurfs2 (f : NcFile α) (nb : Nat) : Prog (St α) Unit := do
  setSt fun s => do                                                         -- :63, 67
    let v ← s.inp.compute_surfs.resize nb
    pure { s with out := { s.out with ns_b := some nb }, inp := { s.inp with compute_surfs := v } }
  setSt fun s => do                                                         -- :68
    let v ← f.getIVec "jlist" s.inp.compute_surfs
    pure { s with inp := { s.inp with compute_surfs := v } }
  setSt fun s => do                                                         -- :71
    let v ← minus2 nb s.inp.compute_surfs
    pure { s with inp := { s.inp with compute_surfs := v } }

/-- `lasym`, sizes and modes, `read_boozmn.cpp:17-30`. -/
def readHead (f : NcFile α) : Prog (St α) Int := do
  let a ← Prog.lift (f.getInt "lasym__logical__" none)                      -- :17-18
  let a ← Prog.lift (need a "asym_int")
  setSt fun s => .ok { s with inp := { s.inp with asym := some (decide (a ≠ 0)) } } -- :19
  readSizes f                                                               -- :21-25
  readModes f                                                               -- :27-30
  pure a

/-- Spectra and radial grid, `read_boozmn.cpp:74-114`. -/
def readTail (f : NcFile α) (a : Int) : Prog (St α) Unit := do
  readSym f                                                                 -- :74-84
  readAsym f (decide (a ≠ 0))                                               -- :86-107
  readS f                                                                   -- :110-114

/-- `read_boozmn`, `read_boozmn.cpp:11-119`. -/
def Tty.readBoozmn (path : String) : Prog (Tty α) Unit := do
  Tty.say 0 (.about path)                                                   -- :14
  let t ← Prog.get
  let f ← Tty.reading (Prog.lift (openRead t.sess.disk path))               -- :15
  let a ← Tty.reading (readHead f)                                          -- :17-30
  let l ← Tty.reading (readProfiles1 f)                                     -- :32-49
  Tty.chi f                                                                 -- :50-53
  Tty.reading (readProfiles2 f l)                                           -- :54-61
  let nb ← Tty.reading (Prog.lift (f.getdim "comput_surfs"))                -- :63
  Tty.say 0 .boozSizes                                                      -- :64-65
  Tty.reading (readSurfs2 f nb)                                             -- :67-71
  Tty.say 0 .boozSurfs                                                      -- :72
  Tty.reading (readTail f a)                                                -- :74-114
  Tty.say 0 .boozS                                                          -- :115

/-- What the loop over the surfaces prints: `surface_solve.cpp:20`, `check_accuracy.cpp:128-147`, with its
iterations in order (`Model/Parallel.lean` has the interleavings). -/
def surfaceLines (verbose : Int) (r : List (Report α)) : List (StdLine α) :=
  r.zipIdx.flatMap fun p => (if verbose > 1 then [.solving p.2] else []) ++ [.report p.1]

/-- `run()` (release build), `run.cpp:6-26`; it never throws, so the messages are only of interest when
it returns: `run.cpp:7-11`, `init.cpp:44-48`, `run.cpp:15-19`. -/
def Tty.run : Prog (Tty α) Unit := fun t =>
  match Booz.run false t.obj with
  | .ok r => .ok () ((t.put r.1).print
      (if t.obj.inp.verbose > 0 then [.surfs, .resolution, .header] ++ surfaceLines t.obj.inp.verbose r.2 else []))
  | .error (.throw m) => .exc m t
  | .error (.assertFail x) => .abort x
  | .error (.ub x) => .ub x

/-- A call in which nothing is printed, on the object and the files. For `bindings.cpp:91,108-290`. -/
def Tty.plain (p : Prog (Sess α) Unit) : Prog (Tty α) Unit := fun t =>
  match p t.sess with
  | .ok _ w => .ok () ⟨w, t.lines⟩
  | .exc m w => .exc m ⟨w, t.lines⟩
  | .abort x => .abort x
  | .ub x => .ub x

/-- `write_boozmn`, `write_boozmn.cpp:8-149`: `NetCDFWriter` prints nothing, `netcdf_writer.cpp:24-26`. -/
def Tty.write (env : Env) (version path : String) : Prog (Tty α) Unit := do
  Tty.say 0 (.writing path)                                                 -- :10
  Tty.plain (Sess.write env version path)                                   -- :11-149

/-- Carry out a call. `bindings.cpp:18-290`. -/
def Tty.perform : Call → Prog (Tty α) Unit
  | .readWout path flux => Tty.readWout path flux
  | .setMboz m => Tty.plain (Booz.perform (.setMboz m))
  | .setNboz n => Tty.plain (Booz.perform (.setNboz n))
  | .setVerbose v => Tty.plain (Booz.perform (.setVerbose v))
  | .setSurfs l => Tty.plain (Booz.perform (.setSurfs l))
  | .run => Tty.run
  | .write env version path => Tty.write env version path
  | .readBoozmn path => Tty.readBoozmn path

end Booz
