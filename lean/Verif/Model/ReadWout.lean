import Verif.Model.NetCDF
import Verif.Model.InitFromVmec

/-!
# `Booz_xform::read_wout` (`/repo/src/_booz_xform/read_wout.cpp:11-115`)

The progress message (line 13) is omitted.
-/

namespace Booz
variable {α : Type} [Arith α]

/-- A statement of a member function that assigns input members. For `read_wout.cpp`. -/
def setInp (g : Inputs α → Res (Inputs α)) : Prog (St α) Unit :=
  Prog.modify fun s => do
    let I ← g s.inp
    pure { s with inp := I }

/-- The four flux profiles read from the file, `read_wout.cpp:30-43`. -/
structure FluxArgs (α : Type) where
  phip : Vec α
  chi : Vec α
  pres : Vec α
  phi : Vec α

/-- `read_wout.cpp:30-43`. -/
def readFlux (f : NcFile α) (flux : Bool) (ns : Option Int) : Res (FluxArgs α) :=
  if flux then do
    let ns ← need ns "ns"
    let new ← Vec.resize #[] ns
    let chi ← f.getVec "chi" new
    let phip ← f.getVec "phipf" new
    let pres ← f.getVec "pres" new
    let phi ← f.getVec "phi" new
    pure ⟨phip, chi, pres, phi⟩
  else .ok ⟨#[], #[], #[], #[]⟩

/-- Six matrices: the order is `r, z, l` (non-Nyquist) and `b, bsubu, bsubv` (Nyquist).
The locals of `read_wout.cpp`. -/
structure Mat6 (α : Type) where
  r : Mat α
  z : Mat α
  l : Mat α
  b : Mat α
  u : Mat α
  v : Mat α

/-- Allocate and read three non-Nyquist and three Nyquist matrices, `read_wout.cpp:64-66, 70-72,
75-77, 81-83` (symmetric) and `:87-100` (asymmetric). -/
def readMats (f : NcFile α) (ns mnmax mnq : Option Int) (nr nz nl nb nu nv : String) :
    Res (Mat6 α) := do
  let ns ← need ns "ns"
  let mnmax ← need mnmax "mnmax"
  let new ← Mat.resize .empty mnmax ns
  let r ← f.getMat nr new
  let z ← f.getMat nz new
  let l ← f.getMat nl new
  let mnq ← need mnq "mnmax_nyq"
  let newq ← Mat.resize .empty mnq ns
  let b ← f.getMat nb newq
  let u ← f.getMat nu newq
  let v ← f.getMat nv newq
  pure ⟨r, z, l, b, u, v⟩

/-- `read_wout` while the file is open, `read_wout.cpp:16-101`.  Returns the number of surfaces and
the locals that are passed on. -/
def readWoutBody (f : NcFile α) (flux : Bool) : Prog (St α) (Int × VmecArgs α) := do
  let asym_int ← Prog.lift (f.getInt "lasym__logical__" none)               -- :16-17
  setInp fun I => do                                                        -- :18
    let a ← need asym_int "asym_int"
    pure { I with asym := some (decide (a ≠ 0)) }
  let ns ← Prog.lift (f.getInt "ns" none)                                   -- :20-21
  setInp fun I => do let x ← f.getInt "nfp" I.nfp; pure { I with nfp := x }         -- :23
  setInp fun I => do let x ← f.getInt "mpol" I.mpol; pure { I with mpol := x }      -- :24
  setInp fun I => do let x ← f.getInt "ntor" I.ntor; pure { I with ntor := x }      -- :25
  setInp fun I => do let x ← f.getInt "mnmax" I.mnmax; pure { I with mnmax := x }   -- :26
  setInp fun I => do                                                        -- :27
    let x ← f.getInt "mnmax_nyq" I.mnmax_nyq
    pure { I with mnmax_nyq := x }
  setInp fun I => do let x ← f.getDbl "aspect" I.aspect; pure { I with aspect := x } -- :28
  let fl ← Prog.lift (readFlux f flux ns)                                   -- :30-43
  let iotas ← Prog.lift (do                                                 -- :45-48
    let n ← need ns "ns"
    let v ← Vec.resize #[] n
    f.getVec "iotas" v)
  setInp fun I => do                                                        -- :50
    let n ← need I.mnmax "mnmax"
    let v ← I.xm.resize n
    pure { I with xm := v }
  setInp fun I => do                                                        -- :51
    let n ← need I.mnmax "mnmax"
    let v ← I.xn.resize n
    pure { I with xn := v }
  setInp fun I => do let v ← f.getIVec "xm" I.xm; pure { I with xm := v }   -- :52
  setInp fun I => do let v ← f.getIVec "xn" I.xn; pure { I with xn := v }   -- :53
  setInp fun I => do                                                        -- :55
    let n ← need I.mnmax_nyq "mnmax_nyq"
    let v ← I.xm_nyq.resize n
    pure { I with xm_nyq := v }
  setInp fun I => do                                                        -- :56
    let n ← need I.mnmax_nyq "mnmax_nyq"
    let v ← I.xn_nyq.resize n
    pure { I with xn_nyq := v }
  setInp fun I => do let v ← f.getIVec "xm_nyq" I.xm_nyq; pure { I with xm_nyq := v } -- :57
  setInp fun I => do let v ← f.getIVec "xn_nyq" I.xn_nyq; pure { I with xn_nyq := v } -- :58
  setInp fun I => do                                                        -- :60
    let n ← need I.mnmax_nyq "mnmax_nyq"
    let k ← i32 (n - 1)
    let x ← I.xm_nyq.rd k
    pure { I with mpol_nyq := some x }
  setInp fun I => do                                                        -- :61
    let n ← need I.mnmax_nyq "mnmax_nyq"
    let k ← i32 (n - 1)
    let x ← I.xn_nyq.rd k
    let p ← need I.nfp "nfp"
    let q ← idiv x p
    pure { I with ntor_nyq := some q }
  let s ← Prog.get
  let a ← Prog.lift (readMats f ns s.inp.mnmax s.inp.mnmax_nyq              -- :63-83
    "rmnc" "zmns" "lmns" "bmnc" "bsubumnc" "bsubvmnc")
  let asym ← Prog.lift (need s.inp.asym "asym")
  let b ← Prog.lift (whenAsym asym (readMats f ns s.inp.mnmax s.inp.mnmax_nyq  -- :85-101
    "rmns" "zmnc" "lmnc" "bmns" "bsubumns" "bsubvmns") ⟨.empty, .empty, .empty, .empty, .empty, .empty⟩)
  let ns ← Prog.lift (need ns "ns")
  pure (ns,                                                                 -- :105-113
    { iotas := iotas, rmnc := a.r, rmns := b.r, zmnc := b.z, zmns := a.z, lmnc := b.l, lmns := a.l
      bmnc := a.b, bmns := b.b, bsubumnc := a.u, bsubumns := b.u, bsubvmnc := a.v, bsubvmns := b.v
      phip := fl.phip, chi := fl.chi, pres := fl.pres, phi := fl.phi })

/-- `read_wout`, `read_wout.cpp:11-115`.  The file is closed (line 103) before the data are passed
on. -/
def readWout (disk : Disk α) (filename : String) (flux : Bool) : Prog (St α) Unit := do
  let f ← Prog.lift (openRead disk filename)                                -- :14
  let q ← readWoutBody f flux                                               -- :16-101
  initFromVmec q.1 q.2                                                      -- :105-113

end Booz
