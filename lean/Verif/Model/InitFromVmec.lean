import Verif.Model.State
import Verif.Prog

/-!
# `Booz_xform::init_from_vmec` (`/repo/src/_booz_xform/init_from_vmec.cpp:11-301`)

Simplification: the array arguments, references in the C++, are assumed not to be members of the
same object (no aliasing).  The text printed for `verbose > 0` is not modelled, but the array entries
read in order to print it are.
-/

namespace Booz
variable {α : Type} [Arith α]

/-- The array arguments, `init_from_vmec.cpp:12-28`.  The four flux profiles default to empty
vectors (`booz_xform.hpp:450-453`). -/
structure VmecArgs (α : Type) where
  iotas : Vec α
  rmnc : Mat α
  rmns : Mat α
  zmnc : Mat α
  zmns : Mat α
  lmnc : Mat α
  lmns : Mat α
  bmnc : Mat α
  bmns : Mat α
  bsubumnc : Mat α
  bsubumns : Mat α
  bsubvmnc : Mat α
  bsubvmns : Mat α
  phip : Vec α := #[]
  chi : Vec α := #[]
  pres : Vec α := #[]
  phi : Vec α := #[]

/-- `if (!c) throw std::runtime_error(msg)`. The form of the tests `init_from_vmec.cpp:34-92`. -/
def check (c : Prop) [Decidable c] (msg : String) : Res Unit := if c then .ok () else thrown msg

/-- Lengths of the flux profiles, `init_from_vmec.cpp:37-43`. -/
def validateFlux (ns : Int) (A : VmecArgs α) : Res Unit :=
  if A.phip.size = 0 then .ok () else do
    check ((A.phip.size : Int) = ns) "phip0.size() is not ns"
    check ((A.chi.size : Int) = ns) "chi0.size() is not ns"
    check ((A.pres.size : Int) = ns) "pres0.size() is not ns"
    check ((A.phi.size : Int) = ns) "phi0.size() is not ns"

/-- Mode numbers, `init_from_vmec.cpp:44-58`. -/
def validateModes (I : Inputs α) (nfp mnmax mnq : Int) : Res Unit := do
  check ((I.xm.size : Int) = mnmax) "Size of xm is not mnmax"
  check ((I.xn.size : Int) = mnmax) "Size of xn is not mnmax"
  check ((I.xm_nyq.size : Int) = mnq) "Size of xm_nyq is not mnmax_nyq"
  check ((I.xn_nyq.size : Int) = mnq) "Size of xn_nyq is not mnmax_nyq"
  let x ← I.xm.rdN 0
  check (x = 0) "xm does not seem correct"
  let x ← I.xn.rdN 0
  check (x = 0) "xn does not seem correct"
  let x ← I.xm_nyq.rdN 0
  check (x = 0) "xm_nyq does not seem correct"
  let x ← I.xn_nyq.rdN 0
  check (x = 0) "xn_nyq does not seem correct"
  let x ← I.xn.rd (mnmax - 1)
  let ntor ← need I.ntor "ntor"
  let y ← i32 (nfp * ntor)
  check (x = y) "xn does not seem correct"
  let x ← I.xn_nyq.rd (mnq - 1)
  let ntor ← need I.ntor_nyq "ntor_nyq"
  let y ← i32 (nfp * ntor)
  check (x = y) "xn_nyq does not seem correct"

/-- Shapes of the symmetric matrices, `init_from_vmec.cpp:60-72`. -/
def validateSym (ns mnmax mnq : Int) (A : VmecArgs α) : Res Unit := do
  check ((A.rmnc.cols : Int) = ns) "rmnc0 has wrong number of cols"
  check ((A.zmns.cols : Int) = ns) "zmns0 has wrong number of cols"
  check ((A.lmns.cols : Int) = ns) "lmns0 has wrong number of cols"
  check ((A.bmnc.cols : Int) = ns) "bmnc0 has wrong number of cols"
  check ((A.bsubumnc.cols : Int) = ns) "bsubumnc0 has wrong number of cols"
  check ((A.bsubvmnc.cols : Int) = ns) "bsubvmnc0 has wrong number of cols"
  check ((A.rmnc.rows : Int) = mnmax) "rmnc0 has the wrong number of rows"
  check ((A.zmns.rows : Int) = mnmax) "zmns0 has the wrong number of rows"
  check ((A.lmns.rows : Int) = mnmax) "lmns0 has the wrong number of rows"
  check ((A.bmnc.rows : Int) = mnq) "bmnc0 has the wrong number of rows"
  check ((A.bsubumnc.rows : Int) = mnq) "bsubumnc0 has the wrong number of rows"
  check ((A.bsubvmnc.rows : Int) = mnq) "bsubvmnc0 has the wrong number of rows"

/-- Shapes of the asymmetric matrices, `init_from_vmec.cpp:74-88`. -/
def validateAsym (ns mnmax mnq : Int) (A : VmecArgs α) : Res Unit := do
  check ((A.rmns.cols : Int) = ns) "rmns0 has wrong number of cols"
  check ((A.zmnc.cols : Int) = ns) "zmnc0 has wrong number of cols"
  check ((A.lmnc.cols : Int) = ns) "lmnc0 has wrong number of cols"
  check ((A.bmns.cols : Int) = ns) "bmns0 has wrong number of cols"
  check ((A.bsubumns.cols : Int) = ns) "bsubumns0 has wrong number of cols"
  check ((A.bsubvmns.cols : Int) = ns) "bsubvmns0 has wrong number of cols"
  check ((A.rmns.rows : Int) = mnmax) "rmns0 has the wrong number of rows"
  check ((A.zmnc.rows : Int) = mnmax) "zmnc0 has the wrong number of rows"
  check ((A.lmnc.rows : Int) = mnmax) "lmnc0 has the wrong number of rows"
  check ((A.bmns.rows : Int) = mnq) "bmns0 has the wrong number of rows"
  check ((A.bsubumns.rows : Int) = mnq) "bsubumns0 has the wrong number of rows"
  check ((A.bsubvmns.rows : Int) = mnq) "bsubvmns0 has the wrong number of rows"

/-- The current selection of surfaces, `init_from_vmec.cpp:90-93`. -/
def validateSurfs (ns : Int) (surfs : Vec Int) : Res Unit :=
  loop surfs.size (fun j (_ : Unit) => do
    let x ← surfs.rdN j
    check (0 ≤ x) "compute_surfs cannot be negative"
    check (x < ns - 1) "compute_surfs has an entry that is too large for the given ns") ()

/-- What is done, or assigned, only `if (asym)`, `init_from_vmec.cpp:74, 152`. -/
def whenAsym {β : Type} (asym : Bool) (new : Res β) (old : β) : Res β := if asym then new else .ok old

/-- Validation, `init_from_vmec.cpp:34-93`. -/
def validate (ns : Int) (A : VmecArgs α) (I : Inputs α) : Res Unit := do
  check (2 ≤ ns) "ns must be at least 2"                                    -- :34
  let nfp ← need I.nfp "nfp"
  check (1 ≤ nfp) "nfp must be at least 1"                                  -- :35
  check ((A.iotas.size : Int) = ns) "iotas.size() is not ns"                -- :36
  validateFlux ns A                                                         -- :37-43
  let mnmax ← need I.mnmax "mnmax"
  let mnq ← need I.mnmax_nyq "mnmax_nyq"
  validateModes I nfp mnmax mnq                                             -- :44-58
  validateSym ns mnmax mnq A                                                -- :60-72
  let asym ← need I.asym "asym"
  whenAsym asym (validateAsym ns mnmax mnq A) ()                            -- :74-88
  validateSurfs ns I.compute_surfs                                          -- :90-93

/-- `iota`, `init_from_vmec.cpp:97-100`: resize and copy from the second entry on. -/
def loadIota (nsIn : Int) (iotas old : Vec α) : Res (Vec α) := do
  let v ← old.resize nsIn
  loop nsIn.toNat (fun j (v : Vec α) => do
    let x ← iotas.rdN (j + 1)
    v.wrN j x) v

/-- Loop body of `init_from_vmec.cpp:106-111`. -/
def loadFluxStep (A : VmecArgs α) (j : Nat) (f : Flux α) : Res (Flux α) := do
  let x ← A.phip.rdN j
  let phip ← f.phip.wrN j (-x / twopi)
  let x ← A.chi.rdN j
  let chi ← f.chi.wrN j x
  let x ← A.pres.rdN j
  let pres ← f.pres.wrN j x
  let x ← A.phi.rdN j
  let phi ← f.phi.wrN j x
  pure { phi := phi, phip := phip, chi := chi, pres := pres }

/-- Flux profiles and `toroidal_flux`, `init_from_vmec.cpp:101-119`. -/
def loadFlux (ns nsIn : Int) (A : VmecArgs α) (old : Flux α) : Res (Flux α × α) :=
  if A.phip.size = 0 then do
    let phip ← old.phip.resize 0
    let chi ← old.chi.resize 0
    let pres ← old.pres.resize 0
    let phi ← old.phi.resize 0
    pure ({ phi := phi, phip := phip, chi := chi, pres := pres }, ofInt 0)
  else do
    let phip ← old.phip.resize (nsIn + 1)
    let chi ← old.chi.resize (nsIn + 1)
    let pres ← old.pres.resize (nsIn + 1)
    let phi ← old.phi.resize (nsIn + 1)
    let f ← loop (nsIn + 1).toNat (loadFluxStep A) { phi := phi, phip := phip, chi := chi, pres := pres }
    let t ← f.phi.rd (ns - 1)
    pure (f, t)

/-- `compute_surfs`, `init_from_vmec.cpp:122-123`. -/
def loadSurfs (nsIn : Int) (old : Vec Int) : Res (Vec Int) := do
  let v ← old.resize nsIn
  loop nsIn.toNat (fun j (v : Vec Int) => v.wrN j (j : Int)) v

/-- One matrix copied without its first column, `init_from_vmec.cpp:128, 133-137` (`lmns`) and
`:156, 158-162` (`lmnc`). -/
def loadShift (rows nsIn : Int) (src old : Mat α) : Res (Mat α) := do
  let a ← old.resize rows nsIn
  loop nsIn.toNat (fun j a => loop rows.toNat (fun k (a : Mat α) => do
    let x ← src.rdN k (j + 1)
    a.wrN k j x) a) a

/-- Three matrices. The matrices of `init_from_vmec.cpp:139-150,164-174`. -/
structure Mat3 (α : Type) where
  b : Mat α
  u : Mat α
  v : Mat α

/-- Loop body of `init_from_vmec.cpp:146-148` and `:170-172`. -/
def loadShiftStep (src : Mat3 α) (j k : Nat) (a : Mat3 α) : Res (Mat3 α) := do
  let x ← src.b.rdN k (j + 1)
  let b ← a.b.wrN k j x
  let x ← src.u.rdN k (j + 1)
  let u ← a.u.wrN k j x
  let x ← src.v.rdN k (j + 1)
  let v ← a.v.wrN k j x
  pure ⟨b, u, v⟩

/-- The three Nyquist matrices, `init_from_vmec.cpp:140-150` and `:165-174`. -/
def loadShift3 (rows nsIn : Int) (src old : Mat3 α) : Res (Mat3 α) := do
  let b ← old.b.resize rows nsIn
  let u ← old.u.resize rows nsIn
  let v ← old.v.resize rows nsIn
  loop nsIn.toNat (fun j a => loop rows.toNat (loadShiftStep src j) a) ⟨b, u, v⟩

/-- The entries read by the printing at `init_from_vmec.cpp:177-195`. -/
def vmecPrint (A : VmecArgs α) (I : Inputs α) : Res Unit :=
  if I.verbose > 0 then do
    let _ ← need I.mpol "mpol"
    let _ ← need I.ntor "ntor"
    if I.verbose > 1 then do
      loop A.iotas.size (fun j (_ : Unit) => do let _ ← A.iotas.rdN j; pure ()) ()
      loop I.xm.size (fun j (_ : Unit) => do let _ ← I.xm.rdN j; pure ()) ()
      loop I.xn.size (fun j (_ : Unit) => do let _ ← I.xn.rdN j; pure ()) ()
      loop 4 (fun j (_ : Unit) => do let _ ← A.rmnc.rdN 0 j; pure ()) ()    -- :188
      loop 4 (fun j (_ : Unit) => do let _ ← A.rmnc.rdN j 0; pure ()) ()    -- :192
    else pure ()
  else pure ()

/-- `sqrt_s_full`, `init_from_vmec.cpp:213, 216, 222`. -/
def sqrtFull (ns : Int) (hs : α) : Res (Vec α) := do
  let v ← Vec.build ns.toNat fun j => pure (Arith.sqrt (hs * ofInt j))
  v.wrN 0 (ofInt 1)

/-- `s_in` and `sqrt_s_half`, `init_from_vmec.cpp:214-215, 217-220`. -/
def sHalf (nsIn : Int) (hs : α) (old : Vec α) : Res (Vec α × Vec α) := do
  let s ← old.resize nsIn
  let h ← Vec.resize #[] nsIn
  loop nsIn.toNat (fun j (p : Vec α × Vec α) => do
    let s ← p.1.wrN j (hs * (ofInt j + Arith.half))
    let x ← s.rdN j
    let h ← p.2.wrN j (Arith.sqrt x)
    pure (s, h)) (s, h)

/-- The four interpolated matrices. `init_from_vmec.cpp:226-284`. -/
structure RZ4 (α : Type) where
  rmnc : Mat α
  zmns : Mat α
  rmns : Mat α
  zmnc : Mat α

/-- `rmnc(j,k) = val(rmnc0); zmns(j,k) = val(zmns0); if (asym) {...}`, the common form of
`init_from_vmec.cpp:231-236`, `:247-258` and `:270-281`. -/
def put4 (asym : Bool) (A : VmecArgs α) (val : Mat α → Res α) (j k : Nat) (s : RZ4 α) : Res (RZ4 α) := do
  let x ← val A.rmnc
  let rmnc ← s.rmnc.wrN j k x
  let x ← val A.zmns
  let zmns ← s.zmns.wrN j k x
  if asym then do
    let x ← val A.rmns
    let rmns ← s.rmns.wrN j k x
    let x ← val A.zmnc
    let zmnc ← s.zmnc.wrN j k x
    pure ⟨rmnc, zmns, rmns, zmnc⟩
  else pure ⟨rmnc, zmns, s.rmns, s.zmnc⟩

/-- Even `m`, `init_from_vmec.cpp:231`. -/
def evenVal (j k : Nat) (a : Mat α) : Res α := do
  let x ← a.rdN j k
  let y ← a.rdN j (k + 1)
  pure (Arith.half * (x + y))

/-- Odd `m`, `init_from_vmec.cpp:247-248`. -/
def oddVal (sf sh : Vec α) (j k : Nat) (a : Mat α) : Res α := do
  let x ← a.rdN j k
  let fx ← sf.rdN k
  let y ← a.rdN j (k + 1)
  let fy ← sf.rdN (k + 1)
  let h ← sh.rdN k
  pure (Arith.half * (x / fx + y / fy) * h)

/-- `m = 1` on the innermost surface, `init_from_vmec.cpp:270-271`. -/
def axisVal (sf sh : Vec α) (j : Nat) (a : Mat α) : Res α := do
  let x ← a.rdN j 1
  let f1 ← sf.rdN 1
  let y ← a.rdN j 2
  let f2 ← sf.rdN 2
  let h ← sh.rdN 0
  pure ((Arith.threeHalves * x / f1 - Arith.half * y / f2) * h)

/-- Interpolation of one mode, `init_from_vmec.cpp:227-283`. -/
def interpMode (asym : Bool) (nsIn : Int) (A : VmecArgs α) (xm : Vec Int) (sf sh : Vec α) (j : Nat)
    (s : RZ4 α) : Res (RZ4 α) := do
  let m ← xm.rdN j
  if m.tmod 2 = 0 then
    loop nsIn.toNat (fun k s => put4 asym A (evenVal j k) j k s) s
  else do
    let s ← loop nsIn.toNat (fun k s => put4 asym A (oddVal sf sh j k) j k s) s
    if m = 1 then put4 asym A (axisVal sf sh j) j 0 s else pure s

/-- Everything after validation, `init_from_vmec.cpp:97-299`: the new inputs and flux profiles. -/
def load (ns nsIn : Int) (A : VmecArgs α) (I : Inputs α) (F : Flux α) : Res (Inputs α × Flux α) := do
  let mnmax ← need I.mnmax "mnmax"
  let mnq ← need I.mnmax_nyq "mnmax_nyq"
  let asym ← need I.asym "asym"
  let iota ← loadIota nsIn A.iotas I.iota                                   -- :97-100
  let (flux, tf) ← loadFlux ns nsIn A F                                     -- :101-119
  let surfs ← loadSurfs nsIn I.compute_surfs                                -- :122-123
  let rmnc ← I.rmnc.resize mnmax nsIn                                       -- :126-127
  let zmns ← I.zmns.resize mnmax nsIn
  let lmns ← loadShift mnmax nsIn A.lmns I.lmns                             -- :128, 133-137
  let nyq ← loadShift3 mnq nsIn ⟨A.bmnc, A.bsubumnc, A.bsubvmnc⟩            -- :140-150
    ⟨I.bmnc, I.bsubumnc, I.bsubvmnc⟩
  let rmns ← whenAsym asym (I.rmns.resize mnmax nsIn) I.rmns                -- :152-175
  let zmnc ← whenAsym asym (I.zmnc.resize mnmax nsIn) I.zmnc
  let lmnc ← whenAsym asym (loadShift mnmax nsIn A.lmnc I.lmnc) I.lmnc
  let nyqA ← whenAsym asym (loadShift3 mnq nsIn ⟨A.bmns, A.bsubumns, A.bsubvmns⟩
    ⟨I.bmns, I.bsubumns, I.bsubvmns⟩) ⟨I.bmns, I.bsubumns, I.bsubvmns⟩
  vmecPrint A I                                                             -- :177-195
  let hs : α := ofInt 1 / (ofInt ns - ofInt 1)                              -- :211
  let sf ← sqrtFull ns hs                                                   -- :213, 216, 222
  let (s_in, sh) ← sHalf nsIn hs I.s_in                                     -- :214-220
  let rz ← loop mnmax.toNat (interpMode asym nsIn A I.xm sf sh) ⟨rmnc, zmns, rmns, zmnc⟩ -- :226-284
  let mpol ← need I.mpol "mpol"
  let mboz ← i32 (6 * mpol)                                                 -- :298
  let ntor ← need I.ntor "ntor"
  let n2 ← i32 (2 * ntor)
  let n2 ← i32 (n2 - 1)                                                     -- :299
  pure ({ I with
    ns_in := some nsIn, s_in := s_in, iota := iota
    rmnc := rz.rmnc, rmns := rz.rmns, zmnc := rz.zmnc, zmns := rz.zmns
    lmnc := lmnc, lmns := lmns, bmnc := nyq.b, bmns := nyqA.b
    bsubumnc := nyq.u, bsubumns := nyqA.u, bsubvmnc := nyq.v, bsubvmns := nyqA.v
    mboz := mboz, nboz := max n2 0, compute_surfs := surfs, toroidal_flux := some tf }, flux)

/-- `init_from_vmec`, `init_from_vmec.cpp:11-301`.  `ns_in` is assigned before the validation
(`:30`). -/
def initFromVmec (ns : Int) (A : VmecArgs α) : Prog (St α) Unit := do
  let s ← Prog.get
  let nsIn ← Prog.lift (i32 (ns - 1))
  Prog.set { s with inp := { s.inp with ns_in := some nsIn } }              -- :30
  let s ← Prog.get
  Prog.lift (validate ns A s.inp)                                           -- :34-93
  let (inp, flux) ← Prog.lift (load ns nsIn A s.inp s.flux)                 -- :97-299
  Prog.set { s with inp := inp, flux := flux }

end Booz
