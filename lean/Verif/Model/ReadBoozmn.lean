import Verif.Model.ReadWout
import Verif.Model.WriteBoozmn

/-!
# `Booz_xform::read_boozmn` (`/repo/src/_booz_xform/read_boozmn.cpp:11-119`)

Progress messages (lines 14, 64-65, 72, 115) are omitted.  Simplification: reading a scalar whose
value in the file is unspecified into `mboz` or `nboz` counts as undefined behaviour (these members
have no indeterminate state in the model).
-/

namespace Booz
variable {α : Type} [Arith α]

/-- A statement of a member function that assigns members. For `read_boozmn.cpp`. -/
def setSt (g : St α → Res (St α)) : Prog (St α) Unit := Prog.modify g

/-- `read_boozmn.cpp:21-25`. -/
def readSizes (f : NcFile α) : Prog (St α) Unit := do
  setSt fun s => do
    let x ← f.getInt "nfp_b" s.inp.nfp
    pure { s with inp := { s.inp with nfp := x } }
  setSt fun s => do
    let x ← f.getInt "mboz_b" (some s.inp.mboz)
    let x ← need x "mboz_b"
    pure { s with inp := { s.inp with mboz := x } }
  setSt fun s => do
    let x ← f.getInt "nboz_b" (some s.inp.nboz)
    let x ← need x "nboz_b"
    pure { s with inp := { s.inp with nboz := x } }
  setSt fun s => do
    let x ← f.getInt "mnboz_b" s.out.mnboz
    pure { s with out := { s.out with mnboz := x } }

/-- `read_boozmn.cpp:27-30`. -/
def readModes (f : NcFile α) : Prog (St α) Unit := do
  setSt fun s => do
    let k ← need s.out.mnboz "mnboz"
    let v ← s.out.xm_b.resize k
    let w ← s.out.xn_b.resize k
    pure { s with out := { s.out with xm_b := v, xn_b := w } }
  setSt fun s => do
    let v ← f.getIVec "ixm_b" s.out.xm_b
    pure { s with out := { s.out with xm_b := v } }
  setSt fun s => do
    let v ← f.getIVec "ixn_b" s.out.xn_b
    pure { s with out := { s.out with xn_b := v } }

/-- `try { nc.get(...) } catch (std::runtime_error error) {}`, `read_boozmn.cpp:50-53`. -/
def tryGetVec (f : NcFile α) (name : String) (old : Vec α) : Res (Vec α) :=
  match f.getVec name old with
  | .error (.throw _) => .ok old
  | r => r

/-- Copy loops `read_boozmn.cpp:55-59`. -/
def dropFirst3 (n : Int) (src old : Vec3 α) : Res (Vec3 α) :=
  loop n.toNat (fun j (s : Vec3 α) => do
    let a ← src.x.rdN (j + 1)
    let x ← s.x.wrN j a
    let a ← src.y.rdN (j + 1)
    let y ← s.y.wrN j a
    let a ← src.z.rdN (j + 1)
    let z ← s.z.wrN j a
    pure ⟨x, y, z⟩) old

/-- Profiles, `read_boozmn.cpp:32-61`. -/
def readProfiles (f : NcFile α) : Prog (St α) Unit := do
  let radius ← Prog.lift (f.getdim "radius")                                -- :32
  setSt fun s => do                                                         -- :37-44
    let n : Int := (radius : Int) - 1
    let iota ← s.inp.iota.resize n
    let g ← s.out.boozer_G_all.resize n
    let i ← s.out.boozer_I_all.resize n
    let phi ← s.flux.phi.resize radius
    let phip ← s.flux.phip.resize radius
    let chi ← s.flux.chi.resize radius
    let pres ← s.flux.pres.resize radius
    pure { s with
      inp := { s.inp with ns_in := some n, iota := iota }
      out := { s.out with boozer_G_all := g, boozer_I_all := i }
      flux := ⟨phi, phip, chi, pres⟩ }
  let new ← Prog.lift (Vec.resize (#[] : Vec α) radius)                     -- :33-36
  let iotaIn ← Prog.lift (f.getVec "iota_b" new)                            -- :45
  let gIn ← Prog.lift (f.getVec "bvco_b" new)                               -- :46
  let iIn ← Prog.lift (f.getVec "buco_b" new)                               -- :47
  setSt fun s => do                                                         -- :48
    let v ← f.getVec "phi_b" s.flux.phi
    pure { s with flux := { s.flux with phi := v } }
  setSt fun s => do                                                         -- :49
    let v ← f.getVec "phip_b" s.flux.phip
    pure { s with flux := { s.flux with phip := v } }
  setSt fun s => do                                                         -- :50-53
    let v ← tryGetVec f "chi_b" s.flux.chi
    pure { s with flux := { s.flux with chi := v } }
  setSt fun s => do                                                         -- :54
    let v ← f.getVec "pres_b" s.flux.pres
    pure { s with flux := { s.flux with pres := v } }
  setSt fun s => do                                                         -- :55-59
    let v ← dropFirst3 ((radius : Int) - 1) ⟨iotaIn, gIn, iIn⟩
      ⟨s.inp.iota, s.out.boozer_G_all, s.out.boozer_I_all⟩
    pure { s with
      inp := { s.inp with iota := v.x }
      out := { s.out with boozer_G_all := v.y, boozer_I_all := v.z } }
  setSt fun s => do                                                         -- :61
    let x ← s.flux.phi.rd ((radius : Int) - 1)
    pure { s with inp := { s.inp with toroidal_flux := some x } }

/-- Loop `read_boozmn.cpp:71`. -/
def minus2 (n : Nat) (v : Vec Int) : Res (Vec Int) :=
  loop n (fun j (v : Vec Int) => do
    let x ← v.rdN j
    let y ← i32 (x - 2)
    v.wrN j y) v

/-- Surfaces, `read_boozmn.cpp:63-72`. -/
def readSurfs (f : NcFile α) : Prog (St α) Unit := do
  let nb ← Prog.lift (f.getdim "comput_surfs")                              -- :63
  setSt fun s => do                                                         -- :63, 67
    let v ← s.inp.compute_surfs.resize nb
    pure { s with out := { s.out with ns_b := some nb }, inp := { s.inp with compute_surfs := v } }
  setSt fun s => do                                                         -- :68
    let v ← f.getIVec "jlist" s.inp.compute_surfs
    pure { s with inp := { s.inp with compute_surfs := v } }
  setSt fun s => do                                                         -- :71
    let v ← minus2 nb s.inp.compute_surfs
    pure { s with inp := { s.inp with compute_surfs := v } }

/-- Symmetric spectra, `read_boozmn.cpp:74-84`. -/
def readSym (f : NcFile α) : Prog (St α) Unit := do
  setSt fun s => do                                                         -- :74-78
    let k ← need s.out.mnboz "mnboz"
    let n ← need s.out.ns_b "ns_b"
    let b ← s.out.spec.bmnc_b.resize k n
    let r ← s.out.spec.rmnc_b.resize k n
    let z ← s.out.spec.zmns_b.resize k n
    let p ← s.out.spec.numns_b.resize k n
    let g ← s.out.spec.gmnc_b.resize k n
    pure { s with out := { s.out with spec := { s.out.spec with
      bmnc_b := b, rmnc_b := r, zmns_b := z, numns_b := p, gmnc_b := g } } }
  setSt fun s => do                                                         -- :79
    let a ← f.getMat "bmnc_b" s.out.spec.bmnc_b
    pure { s with out := { s.out with spec := { s.out.spec with bmnc_b := a } } }
  setSt fun s => do                                                         -- :80
    let a ← f.getMat "rmnc_b" s.out.spec.rmnc_b
    pure { s with out := { s.out with spec := { s.out.spec with rmnc_b := a } } }
  setSt fun s => do                                                         -- :81
    let a ← f.getMat "zmns_b" s.out.spec.zmns_b
    pure { s with out := { s.out with spec := { s.out.spec with zmns_b := a } } }
  setSt fun s => do                                                         -- :82
    let a ← f.getMat "pmns_b" s.out.spec.numns_b
    pure { s with out := { s.out with spec := { s.out.spec with numns_b := a } } }
  setSt fun s =>                                                            -- :83
    .ok { s with out := { s.out with spec := { s.out.spec with numns_b := s.out.spec.numns_b.neg } } }
  setSt fun s => do                                                         -- :84
    let a ← f.getMat "gmn_b" s.out.spec.gmnc_b
    pure { s with out := { s.out with spec := { s.out.spec with gmnc_b := a } } }

/-- Asymmetric spectra, `read_boozmn.cpp:86-107`. -/
def readAsym (f : NcFile α) (asym : Bool) : Prog (St α) Unit :=
  if asym then do
    setSt fun s => do                                                       -- :87-91
      let k ← need s.out.mnboz "mnboz"
      let n ← need s.out.ns_b "ns_b"
      let b ← s.out.spec.bmns_b.resize k n
      let r ← s.out.spec.rmns_b.resize k n
      let z ← s.out.spec.zmnc_b.resize k n
      let p ← s.out.spec.numnc_b.resize k n
      let g ← s.out.spec.gmns_b.resize k n
      pure { s with out := { s.out with spec := { s.out.spec with
        bmns_b := b, rmns_b := r, zmnc_b := z, numnc_b := p, gmns_b := g } } }
    setSt fun s => do                                                       -- :92
      let a ← f.getMat "bmns_b" s.out.spec.bmns_b
      pure { s with out := { s.out with spec := { s.out.spec with bmns_b := a } } }
    setSt fun s => do                                                       -- :93
      let a ← f.getMat "rmns_b" s.out.spec.rmns_b
      pure { s with out := { s.out with spec := { s.out.spec with rmns_b := a } } }
    setSt fun s => do                                                       -- :94
      let a ← f.getMat "zmnc_b" s.out.spec.zmnc_b
      pure { s with out := { s.out with spec := { s.out.spec with zmnc_b := a } } }
    setSt fun s => do                                                       -- :95
      let a ← f.getMat "pmnc_b" s.out.spec.numnc_b
      pure { s with out := { s.out with spec := { s.out.spec with numnc_b := a } } }
    setSt fun s =>                                                          -- :96
      .ok { s with out := { s.out with spec := { s.out.spec with numnc_b := s.out.spec.numnc_b.neg } } }
    setSt fun s => do                                                       -- :97
      let a ← f.getMat "gmns_b" s.out.spec.gmns_b
      pure { s with out := { s.out with spec := { s.out.spec with gmns_b := a } } }
  else
    setSt fun s => .ok { s with out := { s.out with spec := { s.out.spec with   -- :102-106
      bmns_b := .empty, rmns_b := .empty, zmnc_b := .empty, numnc_b := .empty, gmns_b := .empty } } }

/-- Loop `read_boozmn.cpp:114`. -/
def sbLoop (n : Nat) (hs : α) (surfs : Vec Int) (old : Vec α) : Res (Vec α) :=
  loop n (fun j (v : Vec α) => do
    let x ← surfs.rdN j
    v.wrN j (hs * (ofInt x + Arith.half))) old

/-- The radial grid of the outputs, `read_boozmn.cpp:110-114`. -/
def readS (f : NcFile α) : Prog (St α) Unit := do
  let ns ← Prog.lift (f.getInt "ns_b" none)                                 -- :110-111
  let ns ← Prog.lift (need ns "ns_vmec")
  let hs : α := ofInt 1 / (ofInt ns - ofInt 1)                              -- :112
  setSt fun s => do                                                         -- :113
    let n ← need s.out.ns_b "ns_b"
    let v ← s.out.s_b.resize n
    pure { s with out := { s.out with s_b := v } }
  setSt fun s => do                                                         -- :114
    let n ← need s.out.ns_b "ns_b"
    let v ← sbLoop n.toNat hs s.inp.compute_surfs s.out.s_b
    pure { s with out := { s.out with s_b := v } }

/-- `read_boozmn` while the file is open, `read_boozmn.cpp:17-114`. -/
def readBoozmnBody (f : NcFile α) : Prog (St α) Unit := do
  let a ← Prog.lift (f.getInt "lasym__logical__" none)                      -- :17-18
  let a ← Prog.lift (need a "asym_int")
  setSt fun s => .ok { s with inp := { s.inp with asym := some (decide (a ≠ 0)) } } -- :19
  readSizes f                                                               -- :21-25
  readModes f                                                               -- :27-30
  readProfiles f                                                            -- :32-61
  readSurfs f                                                               -- :63-72
  readSym f                                                                 -- :74-84
  readAsym f (decide (a ≠ 0))                                               -- :86-107
  readS f                                                                   -- :110-114

/-- `read_boozmn`, `read_boozmn.cpp:11-119`. -/
def readBoozmn (disk : Disk α) (filename : String) : Prog (St α) Unit := do
  let f ← Prog.lift (openRead disk filename)                                -- :15
  readBoozmnBody f                                                          -- :17-114

end Booz
