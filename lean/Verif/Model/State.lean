import Verif.Basic
import Verif.Arith

/-!
# Object state of `Booz_xform` (`/repo/src/_booz_xform/booz_xform.hpp:35-417`)

The C++ class is one flat record.  Here its members are grouped (inputs, flux profiles, private
grid data, outputs) so that statements such as "the inputs are unchanged" are short; the grouping
is the only simplification.  Scalar members the constructor does not set are `Option`s.
-/

namespace Booz

/-- Input members, `booz_xform.hpp:67-267`. -/
structure Inputs (α : Type) where
  verbose : Int                 -- hpp:70
  asym : Option Bool            -- hpp:75
  nfp : Option Int              -- hpp:80
  mpol : Option Int             -- hpp:85
  ntor : Option Int             -- hpp:90
  mnmax : Option Int            -- hpp:95
  mpol_nyq : Option Int         -- hpp:100
  ntor_nyq : Option Int         -- hpp:106
  mnmax_nyq : Option Int        -- hpp:111
  xm : Vec Int                  -- hpp:116
  xn : Vec Int                  -- hpp:122
  xm_nyq : Vec Int              -- hpp:128
  xn_nyq : Vec Int              -- hpp:134
  ns_in : Option Int            -- hpp:141
  s_in : Vec α                  -- hpp:147
  iota : Vec α                  -- hpp:152
  rmnc : Mat α                  -- hpp:157
  rmns : Mat α                  -- hpp:164
  zmnc : Mat α                  -- hpp:171
  zmns : Mat α                  -- hpp:177
  lmnc : Mat α                  -- hpp:186
  lmns : Mat α                  -- hpp:193
  bmnc : Mat α                  -- hpp:198
  bmns : Mat α                  -- hpp:205
  bsubumnc : Mat α              -- hpp:211
  bsubumns : Mat α              -- hpp:218
  bsubvmnc : Mat α              -- hpp:224
  bsubvmns : Mat α              -- hpp:231
  mboz : Int                    -- hpp:236
  nboz : Int                    -- hpp:243
  compute_surfs : Vec Int       -- hpp:252
  aspect : Option α             -- hpp:259
  toroidal_flux : Option α      -- hpp:267

/-- Radial profiles on the full VMEC grid, `booz_xform.hpp:395-410`. -/
structure Flux (α : Type) where
  phi : Vec α
  phip : Vec α
  chi : Vec α
  pres : Vec α

/-- The four trigonometric tables filled by `init_trig` (`init_trig.cpp:16-18`). -/
structure Trig (α : Type) where
  cosm : Mat α
  sinm : Mat α
  cosn : Mat α
  sinn : Mat α

/-- Private members, `booz_xform.hpp:37-53` (`completed` is never read and is omitted). -/
structure Grid (α : Type) where
  nu2_b : Option Int
  nu3_b : Option Int
  ntheta : Option Int
  nzeta : Option Int
  d_theta : Option α
  d_zeta : Option α
  n_theta_zeta : Option Int
  theta_grid : Vec α
  zeta_grid : Vec α
  trig : Trig α        -- cosm, sinm, cosn, sinn
  trigNyq : Trig α     -- cosm_nyq, sinm_nyq, cosn_nyq, sinn_nyq

/-- The ten output spectra, `booz_xform.hpp:302-365`. -/
structure Spectra (α : Type) where
  bmnc_b : Mat α
  rmnc_b : Mat α
  zmns_b : Mat α
  numns_b : Mat α
  gmnc_b : Mat α
  bmns_b : Mat α
  rmns_b : Mat α
  zmnc_b : Mat α
  numnc_b : Mat α
  gmns_b : Mat α

/-- Output members, `booz_xform.hpp:274-393`. -/
structure Outputs (α : Type) where
  ns_b : Option Int
  s_b : Vec α
  mnboz : Option Int
  xm_b : Vec Int
  xn_b : Vec Int
  spec : Spectra α
  boozer_G : Vec α
  boozer_G_all : Vec α
  boozer_I : Vec α
  boozer_I_all : Vec α

/-- A `Booz_xform` object. `booz_xform.hpp:35-502`. -/
structure St (α : Type) where
  inp : Inputs α
  flux : Flux α
  grid : Grid α
  out : Outputs α

variable {α : Type}

/-- Four default-constructed matrices. `booz_xform.hpp:46-53`. -/
def Trig.empty : Trig α := ⟨.empty, .empty, .empty, .empty⟩

/-- Ten default-constructed matrices. The members `bmnc_b`, ... of `booz_xform.hpp`. -/
def Spectra.empty : Spectra α :=
  ⟨.empty, .empty, .empty, .empty, .empty, .empty, .empty, .empty, .empty, .empty⟩

/-- The constructor: `Booz_xform::Booz_xform` and `defaults` (`booz_xform.cpp:6-17`).  Eigen members
are default-constructed (size 0); other scalars stay indeterminate. -/
def construct [Arith α] : St α where
  inp :=
    { verbose := 1, asym := none, nfp := none, mpol := none, ntor := none, mnmax := none,
      mpol_nyq := none, ntor_nyq := none, mnmax_nyq := none, xm := #[], xn := #[], xm_nyq := #[],
      xn_nyq := #[], ns_in := none, s_in := #[], iota := #[], rmnc := .empty, rmns := .empty,
      zmnc := .empty, zmns := .empty, lmnc := .empty, lmns := .empty, bmnc := .empty,
      bmns := .empty, bsubumnc := .empty, bsubumns := .empty, bsubvmnc := .empty,
      bsubvmns := .empty, mboz := 16, nboz := 16, compute_surfs := #[], aspect := some (ofInt 0),
      toroidal_flux := none }
  flux := { phi := #[], phip := #[], chi := #[], pres := #[] }
  grid :=
    { nu2_b := none, nu3_b := none, ntheta := none, nzeta := none, d_theta := none,
      d_zeta := none, n_theta_zeta := none, theta_grid := #[], zeta_grid := #[],
      trig := .empty, trigNyq := .empty }
  out :=
    { ns_b := none, s_b := #[], mnboz := none, xm_b := #[], xn_b := #[], spec := .empty,
      boozer_G := #[], boozer_G_all := #[], boozer_I := #[], boozer_I_all := #[] }

end Booz
