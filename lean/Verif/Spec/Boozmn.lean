import Verif.Model.ReadBoozmn
import Verif.Spec.Wout

/-!
# Specification of boozmn files

Which objects can be written, and how the contents of a file are addressed.
-/

namespace Booz.Spec
variable {α : Type}

/-- A matrix with storage for `r` rows and `c` columns. -/
def HasShape (a : Mat α) (r c : Nat) : Prop := a.rows = r ∧ a.cols = c ∧ a.data.size = r * c

/-- An object holding results: `K` output modes, results on `nb` surfaces out of `ns`, while
`compute_surfs` has `nc` entries (after a run `nc = nb`; the user may assign it later). -/
structure HasResults (s : St α) (K nb nc ns : Nat) (asym : Bool) : Prop where
  mnboz : s.out.mnboz = some (K : Int)
  ns_b : s.out.ns_b = some (nb : Int)
  ns_in : s.inp.ns_in = some (ns : Int)
  asym_eq : s.inp.asym = some asym
  K_pos : 1 ≤ K
  nb_pos : 1 ≤ nb
  K_fit : K ≤ 2147483644
  nc_fit : nc ≤ 2147483644
  ns_fit : ns + 1 ≤ 2147483644
  surfs_size : s.inp.compute_surfs.size = nc
  surfs : nb ≤ nc → ∀ j < nb, ∃ x, s.inp.compute_surfs[j]? = some (some x) ∧ FitsInt (x + 2)
  surfs_int : ∀ (j : Nat) (x : Int), s.inp.compute_surfs[j]? = some (some x) → FitsInt x
  xm_b : s.out.xm_b.size = K
  xn_b : s.out.xn_b.size = K
  iota : s.inp.iota.Full ns
  boozer_I : s.out.boozer_I_all.Full ns
  boozer_G : s.out.boozer_G_all.Full ns
  bmnc_b : HasShape s.out.spec.bmnc_b K nb
  rmnc_b : HasShape s.out.spec.rmnc_b K nb
  zmns_b : HasShape s.out.spec.zmns_b K nb
  numns_b : HasShape s.out.spec.numns_b K nb
  gmnc_b : HasShape s.out.spec.gmnc_b K nb
  asym_b : asym = true → HasShape s.out.spec.bmns_b K nb ∧ HasShape s.out.spec.rmns_b K nb ∧
    HasShape s.out.spec.zmnc_b K nb ∧ HasShape s.out.spec.numnc_b K nb ∧
    HasShape s.out.spec.gmns_b K nb
  flux : s.flux.phip.size = 0 ∨ (s.flux.phip.size = ns + 1 ∧ s.flux.chi.size = ns + 1 ∧
    s.flux.pres.size = ns + 1 ∧ s.flux.phi.size = ns + 1)

/-- The object but for its flux profiles. -/
def withoutFlux (s : St α) : St α := { s with flux := ⟨#[], #[], #[], #[]⟩ }

/-- The object with its flux profiles cut to `n` elements. -/
def cutFlux (n : Nat) (s : St α) : St α :=
  { s with flux := {
    phip := s.flux.phip.extract 0 n, chi := s.flux.chi.extract 0 n, pres := s.flux.pres.extract 0 n
    phi := s.flux.phi.extract 0 n } }

/-- Flux profiles are absent, or on all full-grid surfaces. -/
def FluxOk (f : Flux α) (ns : Nat) : Prop :=
  f.phip.size = 0 ∨ (f.phip.size = ns + 1 ∧ f.chi.size = ns + 1 ∧ f.pres.size = ns + 1 ∧
    f.phi.size = ns + 1)

/-- The version string can be stored in a file. -/
def VersionOk (version : String) : Prop := ("C++/Python booz_xform " ++ version).utf8ByteSize ≤ 2147483644

/-- The environment never makes a library call fail. -/
def NoFailure (env : Env) : Prop := ∀ k, env k = none

section
variable [Arith α]

/-- The variable holds these integers. -/
def GetsI (f : NcFile α) (n : String) (v : Vec Int) : Prop := ∃ x, f.var? n = some x ∧ ncInts x = some v
/-- The variable holds these numbers. -/
def GetsD (f : NcFile α) (n : String) (v : Vec α) : Prop := ∃ x, f.var? n = some x ∧ ncDbls x = some v

/-- What a boozmn file holds, as far as `read_boozmn` is concerned. -/
structure BzVals (α : Type) where
  lasym : Int
  nfp : Option Int
  mboz : Int
  nboz : Int
  ixm : Vec Int
  ixn : Vec Int
  jlist : Vec Int
  iota : Vec α
  buco : Vec α
  bvco : Vec α
  phi : Vec α
  phip : Vec α
  pres : Vec α
  bmnc : Vec α
  rmnc : Vec α
  zmns : Vec α
  pmns : Vec α
  gmn : Vec α
  bmns : Vec α
  rmns : Vec α
  zmnc : Vec α
  pmnc : Vec α
  gmns : Vec α

/-- A well-formed boozmn file with `K` modes, `nb` computed surfaces out of `ns`, and contents `V`
(`chi_b` is not mentioned). -/
structure IsBoozmn (f : NcFile α) (K nb ns : Nat) (V : BzVals α) : Prop where
  K_pos : 1 ≤ K
  nb_pos : 1 ≤ nb
  radius : f.dim? "radius" = some (ns + 1)
  comput_surfs : f.dim? "comput_surfs" = some nb
  lasym : GetsI f "lasym__logical__" #[some V.lasym]
  nfp : GetsI f "nfp_b" #[V.nfp]
  mboz : GetsI f "mboz_b" #[some V.mboz]
  nboz : GetsI f "nboz_b" #[some V.nboz]
  mnboz : GetsI f "mnboz_b" #[some (K : Int)]
  ns_b : GetsI f "ns_b" #[some ((ns : Int) + 1)]
  ixm : GetsI f "ixm_b" V.ixm
  ixn : GetsI f "ixn_b" V.ixn
  ixm_size : V.ixm.size = K
  ixn_size : V.ixn.size = K
  jlist : GetsI f "jlist" V.jlist
  jlist_full : V.jlist.Full nb
  jlist_fits : ∀ j < nb, FitsInt (V.jlist.val 0 j - 2)
  iota : GetsD f "iota_b" V.iota
  buco : GetsD f "buco_b" V.buco
  bvco : GetsD f "bvco_b" V.bvco
  iota_full : V.iota.Full (ns + 1)
  buco_full : V.buco.Full (ns + 1)
  bvco_full : V.bvco.Full (ns + 1)
  phi : GetsD f "phi_b" V.phi
  phip : GetsD f "phip_b" V.phip
  pres : GetsD f "pres_b" V.pres
  phi_size : V.phi.size = ns + 1
  phip_size : V.phip.size = ns + 1
  pres_size : V.pres.size = ns + 1
  bmnc : GetsD f "bmnc_b" V.bmnc
  bmnc_size : V.bmnc.size = K * nb
  rmnc : GetsD f "rmnc_b" V.rmnc
  rmnc_size : V.rmnc.size = K * nb
  zmns : GetsD f "zmns_b" V.zmns
  zmns_size : V.zmns.size = K * nb
  pmns : GetsD f "pmns_b" V.pmns
  pmns_size : V.pmns.size = K * nb
  gmn : GetsD f "gmn_b" V.gmn
  gmn_size : V.gmn.size = K * nb
  asymVars : V.lasym ≠ 0 → GetsD f "bmns_b" V.bmns ∧ V.bmns.size = K * nb ∧
    GetsD f "rmns_b" V.rmns ∧ V.rmns.size = K * nb ∧
    GetsD f "zmnc_b" V.zmnc ∧ V.zmnc.size = K * nb ∧
    GetsD f "pmnc_b" V.pmnc ∧ V.pmnc.size = K * nb ∧
    GetsD f "gmns_b" V.gmns ∧ V.gmns.size = K * nb

end

/-! ## Layout of a file -/

/-- Entry `(i,k)` of a matrix: mode `i`, surface `k`. -/
def cell (a : Mat α) (i k : Nat) : Option α := a.data[k * a.rows + i]?.join

/-- The variable has dimensions (surface, mode); its element `[k][i]`, at offset `k*K+i`, is `g` of
entry `(i,k)` of the matrix. -/
def HoldsMat (f : NcFile α) (K nb : Nat) (n : String) (g : α → α) (a : Mat α) : Prop :=
  ∃ v d, f.var? n = some v ∧ v.dims = ["pack_rad", "mn_modes"] ∧ v.data = .dbls d ∧
    d.size = nb * K ∧ ∀ k < nb, ∀ i < K, d[k * K + i]? = some ((cell a i k).map g)

/-- The variable is a vector over all surfaces: `z`, then the `ns` given entries. -/
def HoldsShifted (f : NcFile α) (ns : Nat) (n : String) (z : α) (a : Vec α) : Prop :=
  ∃ v d, f.var? n = some v ∧ v.dims = ["radius"] ∧ v.data = .dbls d ∧ d.size = ns + 1 ∧
    d[0]? = some (some z) ∧ ∀ j < ns, d[j + 1]? = a[j]?

/-- The variable is a scalar `int`. -/
def HoldsInt (f : NcFile α) (n : String) (c : Option Int) : Prop :=
  ∃ v, f.var? n = some v ∧ v.dims = [] ∧ v.data = .ints #[c]

/-- The variable is a scalar number. -/
def HoldsDbl (f : NcFile α) (n : String) (c : Option α) : Prop :=
  ∃ v, f.var? n = some v ∧ v.dims = [] ∧ v.data = .dbls #[c]

/-- The variable is a vector over the given dimension. -/
def HoldsVec (f : NcFile α) (dim n : String) (d : Vec α) : Prop :=
  ∃ v, f.var? n = some v ∧ v.dims = [dim] ∧ v.data = .dbls d

/-- The variable is an integer vector over the given dimension. -/
def HoldsInts (f : NcFile α) (dim n : String) (d : Vec Int) : Prop :=
  ∃ v, f.var? n = some v ∧ v.dims = [dim] ∧ v.data = .ints d

/-- `jlist`: the computed surfaces plus 2. -/
def HoldsSurfs (f : NcFile α) (nb : Nat) (surfs : Vec Int) : Prop :=
  ∃ v d, f.var? "jlist" = some v ∧ v.dims = ["comput_surfs"] ∧ v.data = .ints d ∧ d.size = nb ∧
    ∀ k < nb, ∃ x, surfs[k]? = some (some x) ∧ d[k]? = some (some (x + 2))

/-- The name of the dimension of a string variable of `len` bytes: `dim_` and the decimal digits of
`len`, padded with zeros to five places and no more. -/
def IsStrDim (len : Nat) (name : String) : Prop :=
  ∃ z, name.toList = "dim_".toList ++ List.replicate z '0' ++ Nat.toDigits 10 len ∧
    9 ≤ name.toList.length ∧ (z = 0 ∨ name.toList.length = 9)

/-- The variable is a text over a dimension of its own, as long as the text. -/
def HoldsText (f : NcFile α) (n t : String) : Prop :=
  ∃ v name, f.var? n = some v ∧ v.dims = [name] ∧ IsStrDim t.utf8ByteSize name ∧
    f.dim? name = some t.utf8ByteSize ∧ v.data = .text t

/-- What a boozmn file says, for an object with `K` modes and results on `nb` of `ns` surfaces. -/
structure Layout [Arith α] (f : NcFile α) (version : String) (s : St α) (K nb ns : Nat) (asym : Bool) :
    Prop where
  radius : f.dim? "radius" = some (ns + 1)
  mn_mode : f.dim? "mn_mode" = some K
  mn_modes : f.dim? "mn_modes" = some K
  comput_surfs : f.dim? "comput_surfs" = some nb
  pack_rad : f.dim? "pack_rad" = some nb
  version : HoldsText f "version" ("C++/Python booz_xform " ++ version)
  lasym : HoldsInt f "lasym__logical__" (some (if asym then 1 else 0))
  ns_b : HoldsInt f "ns_b" (some ((ns : Int) + 1))
  nfp_b : HoldsInt f "nfp_b" s.inp.nfp
  mboz_b : HoldsInt f "mboz_b" (some s.inp.mboz)
  nboz_b : HoldsInt f "nboz_b" (some s.inp.nboz)
  mnboz_b : HoldsInt f "mnboz_b" (some (K : Int))
  aspect_b : HoldsDbl f "aspect_b" s.inp.aspect
  jlist : HoldsSurfs f nb s.inp.compute_surfs
  ixm_b : HoldsInts f "mn_modes" "ixm_b" s.out.xm_b
  ixn_b : HoldsInts f "mn_modes" "ixn_b" s.out.xn_b
  iota_b : HoldsShifted f ns "iota_b" (ofInt 0) s.inp.iota
  buco_b : HoldsShifted f ns "buco_b" (ofInt 0) s.out.boozer_I_all
  bvco_b : HoldsShifted f ns "bvco_b" (ofInt 0) s.out.boozer_G_all
  bmnc_b : HoldsMat f K nb "bmnc_b" id s.out.spec.bmnc_b
  rmnc_b : HoldsMat f K nb "rmnc_b" id s.out.spec.rmnc_b
  zmns_b : HoldsMat f K nb "zmns_b" id s.out.spec.zmns_b
  pmns_b : HoldsMat f K nb "pmns_b" (- ·) s.out.spec.numns_b
  gmn_b : HoldsMat f K nb "gmn_b" id s.out.spec.gmnc_b
  asym_vars : asym = true →
    HoldsMat f K nb "bmns_b" id s.out.spec.bmns_b ∧ HoldsMat f K nb "rmns_b" id s.out.spec.rmns_b ∧
    HoldsMat f K nb "zmnc_b" id s.out.spec.zmnc_b ∧
    HoldsMat f K nb "pmnc_b" (- ·) s.out.spec.numnc_b ∧
    HoldsMat f K nb "gmns_b" id s.out.spec.gmns_b
  sym_vars : asym = false → f.var? "bmns_b" = none ∧ f.var? "rmns_b" = none ∧
    f.var? "zmnc_b" = none ∧ f.var? "pmnc_b" = none ∧ f.var? "gmns_b" = none
  flux : s.flux.phip.size ≠ 0 → HoldsVec f "radius" "chi_b" s.flux.chi ∧
    HoldsVec f "radius" "pres_b" s.flux.pres ∧ HoldsVec f "radius" "phi_b" s.flux.phi ∧
    HoldsVec f "radius" "phip_b" (s.flux.phip.set! 0 (some (ofInt 0)))
  no_flux : s.flux.phip.size = 0 → ∀ n ∈ ["chi_b", "pres_b", "phi_b", "phip_b"],
    HoldsVec f "radius" n (Array.replicate (ns + 1) (some (ofInt 0)))

/-! ## Round trip -/

/-- The members of `t` that `read_boozmn` sets equal those of the object `s` whose file it read. -/
structure ReadBack [Arith α] (s t : St α) (nb ns : Nat) (asym : Bool) : Prop where
  asym_eq : t.inp.asym = some asym
  nfp : t.inp.nfp = s.inp.nfp
  mboz : t.inp.mboz = s.inp.mboz
  nboz : t.inp.nboz = s.inp.nboz
  mnboz : t.out.mnboz = s.out.mnboz
  ns_b : t.out.ns_b = s.out.ns_b
  ns_in : t.inp.ns_in = s.inp.ns_in
  xm_b : t.out.xm_b = s.out.xm_b
  xn_b : t.out.xn_b = s.out.xn_b
  compute_surfs : t.inp.compute_surfs = s.inp.compute_surfs
  iota : t.inp.iota = s.inp.iota
  boozer_G_all : t.out.boozer_G_all = s.out.boozer_G_all
  boozer_I_all : t.out.boozer_I_all = s.out.boozer_I_all
  bmnc_b : t.out.spec.bmnc_b = s.out.spec.bmnc_b
  rmnc_b : t.out.spec.rmnc_b = s.out.spec.rmnc_b
  zmns_b : t.out.spec.zmns_b = s.out.spec.zmns_b
  numns_b : t.out.spec.numns_b = s.out.spec.numns_b
  gmnc_b : t.out.spec.gmnc_b = s.out.spec.gmnc_b
  asym_spec : asym = true → t.out.spec = s.out.spec
  sym_spec : asym = false → t.out.spec.bmns_b = .empty ∧ t.out.spec.rmns_b = .empty ∧
    t.out.spec.zmnc_b = .empty ∧ t.out.spec.numnc_b = .empty ∧ t.out.spec.gmns_b = .empty
  flux : s.flux.phip.size ≠ 0 →
    t.flux = { s.flux with phip := s.flux.phip.set! 0 (some (ofInt 0)) } ∧
    ∃ x, s.flux.phi[ns]? = some (some x) ∧ t.inp.toroidal_flux = some x
  no_flux : s.flux.phip.size = 0 →
    t.flux = ⟨Array.replicate (ns + 1) (some (ofInt 0)), Array.replicate (ns + 1) (some (ofInt 0)),
      Array.replicate (ns + 1) (some (ofInt 0)), Array.replicate (ns + 1) (some (ofInt 0))⟩ ∧
    t.inp.toroidal_flux = some (ofInt 0)
  s_b_size : t.out.s_b.size = nb
  s_b : ∀ j < nb, ∃ x, s.inp.compute_surfs[j]? = some (some x) ∧
    t.out.s_b[j]? = some (some (ofInt 1 / (ofInt ((ns : Int) + 1) - ofInt 1) * (ofInt x + Arith.half)))

/-- `read_boozmn` changed no other member: not the grid, not the input spectra, not `aspect`. -/
structure ReadFrame [Arith α] (t t' : St α) : Prop where
  grid : t'.grid = t.grid
  inp : t'.inp = { t.inp with
    asym := t'.inp.asym, nfp := t'.inp.nfp, mboz := t'.inp.mboz, nboz := t'.inp.nboz,
    ns_in := t'.inp.ns_in, iota := t'.inp.iota, compute_surfs := t'.inp.compute_surfs,
    toroidal_flux := t'.inp.toroidal_flux }
  boozer_I : t'.out.boozer_I = t.out.boozer_I
  boozer_G : t'.out.boozer_G = t.out.boozer_G

/-- VMEC's half grid with `ns` points: `s_k = (k + 1/2) / ns`, as `(1 / ((ns + 1) - 1)) * (k + 1/2)`. -/
def HalfGrid [Arith α] (v : Vec α) (ns : Nat) : Prop :=
  v.size = ns ∧ ∀ j < ns, v[j]? =
    some (some (ofInt 1 / (ofInt ((ns : Int) + 1) - ofInt 1) * (ofInt (j : Int) + Arith.half)))

/-- The object is unchanged, except that `phip[0]` may have been set to 0. -/
def OnlyPhip [Arith α] (s s' : St α) : Prop :=
  s' = s ∨ (s.flux.phip.size ≠ 0 ∧
    s' = { s with flux := { s.flux with phip := s.flux.phip.set! 0 (some (ofInt 0)) } })

/-- All values in the file are determinate. -/
structure BzVals.AllKnown (V : BzVals α) (K nb ns : Nat) : Prop where
  nfp : ∃ x, V.nfp = some x
  ixm : V.ixm.Full K
  ixn : V.ixn.Full K
  phi : V.phi.Full (ns + 1)
  phip : V.phip.Full (ns + 1)
  pres : V.pres.Full (ns + 1)
  bmnc : V.bmnc.Full (K * nb)
  rmnc : V.rmnc.Full (K * nb)
  zmns : V.zmns.Full (K * nb)
  pmns : V.pmns.Full (K * nb)
  gmn : V.gmn.Full (K * nb)
  asymVars : V.lasym ≠ 0 → V.bmns.Full (K * nb) ∧ V.rmns.Full (K * nb) ∧ V.zmnc.Full (K * nb) ∧
    V.pmnc.Full (K * nb) ∧ V.gmns.Full (K * nb)

/-- The members set by `read_boozmn` have their sizes and determinate values. -/
structure Determinate (t : St α) (K nb ns : Nat) (lasym : Bool) : Prop where
  asym : ∃ x, t.inp.asym = some x
  nfp : ∃ x, t.inp.nfp = some x
  mnboz : t.out.mnboz = some (K : Int)
  ns_b : t.out.ns_b = some (nb : Int)
  ns_in : t.inp.ns_in = some (ns : Int)
  xm_b : t.out.xm_b.Full K
  xn_b : t.out.xn_b.Full K
  compute_surfs : t.inp.compute_surfs.Full nb
  iota : t.inp.iota.Full ns
  boozer_I_all : t.out.boozer_I_all.Full ns
  boozer_G_all : t.out.boozer_G_all.Full ns
  s_b : t.out.s_b.Full nb
  phi : t.flux.phi.Full (ns + 1)
  phip : t.flux.phip.Full (ns + 1)
  chi : t.flux.chi.Full (ns + 1)
  pres : t.flux.pres.Full (ns + 1)
  toroidal_flux : ∃ x, t.inp.toroidal_flux = some x
  bmnc_b : t.out.spec.bmnc_b.Full K nb
  rmnc_b : t.out.spec.rmnc_b.Full K nb
  zmns_b : t.out.spec.zmns_b.Full K nb
  numns_b : t.out.spec.numns_b.Full K nb
  gmnc_b : t.out.spec.gmnc_b.Full K nb
  asym_b : lasym = true → t.out.spec.bmns_b.Full K nb ∧ t.out.spec.rmns_b.Full K nb ∧
    t.out.spec.zmnc_b.Full K nb ∧ t.out.spec.numnc_b.Full K nb ∧ t.out.spec.gmns_b.Full K nb
  sym_b : lasym = false → t.out.spec.bmns_b = .empty ∧ t.out.spec.rmns_b = .empty ∧
    t.out.spec.zmnc_b = .empty ∧ t.out.spec.numnc_b = .empty ∧ t.out.spec.gmns_b = .empty

end Booz.Spec
