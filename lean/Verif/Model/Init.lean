import Verif.Model.InitTrig

/-!
# `Booz_xform::init` (`/repo/src/_booz_xform/init.cpp:31-174`)

Progress messages (`init.cpp:44-48`) have no effect on the state and are omitted.
-/

namespace Booz
variable {α : Type} [Arith α]

/-- Body of the innermost mode-list loop, `init.cpp:58-60`: state is `(xm_b, xn_b, j)`. -/
def modeStep (nfp : Option Int) (m : Nat) (n : Int) (st : Vec Int × Vec Int × Nat) :
    Res (Vec Int × Vec Int × Nat) := do
  let xm_b ← st.1.wrN st.2.2 (m : Int)
  let nfp ← need nfp "nfp"
  let nn ← i32 (n * nfp)
  let xn_b ← st.2.1.wrN st.2.2 nn
  pure (xm_b, xn_b, st.2.2 + 1)

/-- The mode-list loops, `init.cpp:53-62`; the inner loop variable is `n = nmin + k`. -/
def modeList (mboz nboz : Int) (nfp : Option Int) (xm_b xn_b : Vec Int) :
    Res (Vec Int × Vec Int × Nat) :=
  loop mboz.toNat (fun m st =>
    let nmin : Int := if m = 0 then 0 else -nboz
    loop (nboz - nmin + 1).toNat (fun k st => modeStep nfp m (nmin + k) st) st) (xm_b, xn_b, 0)

/-- Body of the grid loops, `init.cpp:116-118`: state is `(theta_grid, zeta_grid, index)`. -/
def gridStep (d_theta d_zeta : α) (jt jz : Nat) (st : Vec α × Vec α × Nat) :
    Res (Vec α × Vec α × Nat) := do
  let theta_grid ← st.1.wrN st.2.2 (ofInt jt * d_theta)
  let zeta_grid ← st.2.1.wrN st.2.2 (ofInt jz * d_zeta)
  pure (theta_grid, zeta_grid, st.2.2 + 1)

/-- The grid loops, `init.cpp:113-120`. -/
def gridLoops (nu3_b nzeta : Int) (d_theta d_zeta : α) (theta_grid zeta_grid : Vec α) :
    Res (Vec α × Vec α × Nat) :=
  loop nu3_b.toNat (fun jt st => loop nzeta.toNat (fun jz st => gridStep d_theta d_zeta jt jz st) st)
    (theta_grid, zeta_grid, 0)

/-- `d_theta`, `init.cpp:99-106`. -/
def dThetaOf (asym : Bool) (nu3_b : Int) : Res α :=
  if asym then pure (twopi / ofInt nu3_b)
  else do
    let q ← i32 (2 * (nu3_b - 1))
    pure (twopi / ofInt q)

/-- Grid sizes, mode list and the (theta, zeta) grid, `init.cpp:35-120`.  `nthreads` (line 43) is
only printed. -/
def initGrid (dbg : Bool) (s : St α) : Res (St α) := do
  let mboz := s.inp.mboz
  let nboz := s.inp.nboz
  let a ← i32 (2 * mboz); let a ← i32 (a + 1); let ntheta ← i32 (2 * a)       -- :35
  let b ← i32 (2 * nboz); let b ← i32 (b + 1); let nzeta ← i32 (2 * b)        -- :36
  let nzeta : Int := if nboz = 0 then 1 else nzeta                            -- :37
  let nu2_b ← i32 (ntheta.tdiv 2 + 1)                                         -- :38
  let c ← i32 (mboz - 1)
  let d ← i32 (b * c); let d ← i32 (d + nboz); let mnboz ← i32 (d + 1)        -- :40
  let xm_b ← Vec.setZero (0 : Int) mnboz                                      -- :41
  let xn_b ← Vec.setZero (0 : Int) mnboz                                      -- :42
  let (xm_b, xn_b, j) ← modeList mboz nboz s.inp.nfp xm_b xn_b                -- :53-62
  cassert dbg (j = mnboz) "j == mnboz"                                        -- :63
  let asym ← need s.inp.asym "asym"
  let nu3_b := if asym then ntheta else nu2_b                                 -- :88-92
  let n_theta_zeta ← i32 (nu3_b * nzeta)                                      -- :93
  let d_theta ← dThetaOf asym nu3_b                                           -- :99-106
  let nfp ← need s.inp.nfp "nfp"
  let q ← i32 (nfp * nzeta)
  let d_zeta := (twopi : α) / ofInt q                                         -- :108
  let theta_grid ← Vec.setZero (ofInt 0 : α) n_theta_zeta                     -- :111
  let zeta_grid ← Vec.setZero (ofInt 0 : α) n_theta_zeta                      -- :112
  let (theta_grid, zeta_grid, _) ← gridLoops nu3_b nzeta d_theta d_zeta theta_grid zeta_grid
  pure { s with
    grid := { s.grid with
      nu2_b := some nu2_b, nu3_b := some nu3_b, ntheta := some ntheta, nzeta := some nzeta,
      d_theta := some d_theta, d_zeta := some d_zeta, n_theta_zeta := some n_theta_zeta,
      theta_grid := theta_grid, zeta_grid := zeta_grid }
    out := { s.out with mnboz := some mnboz, xm_b := xm_b, xn_b := xn_b } }

/-- Allocate the four tables of one `init_trig` call, `init.cpp:122-129`. -/
def zeroTrig (npts mcols ncols : Int) : Res (Trig α) := do
  let cosm ← Mat.setZero (ofInt 0 : α) npts mcols
  let sinm ← Mat.setZero (ofInt 0 : α) npts mcols
  let cosn ← Mat.setZero (ofInt 0 : α) npts ncols
  let sinn ← Mat.setZero (ofInt 0 : α) npts ncols
  pure ⟨cosm, sinm, cosn, sinn⟩

/-- Trigonometric tables on the input grid, `init.cpp:122-137`. -/
def initTables (s : St α) : Res (St α) := do
  let npts ← need s.grid.n_theta_zeta "n_theta_zeta"
  let mpol ← need s.inp.mpol "mpol"
  let ntor ← need s.inp.ntor "ntor"
  let mpol_nyq ← need s.inp.mpol_nyq "mpol_nyq"
  let ntor_nyq ← need s.inp.ntor_nyq "ntor_nyq"
  let nfp ← need s.inp.nfp "nfp"
  let nc ← i32 (ntor + 1)
  let mcq ← i32 (mpol_nyq + 1)
  let ncq ← i32 (ntor_nyq + 1)
  let t ← zeroTrig npts mpol nc                                              -- :122-125
  let tq ← zeroTrig npts mcq ncq                                             -- :126-129
  let mm ← i32 (mpol - 1)
  let t ← initTrig s.grid.theta_grid s.grid.zeta_grid t mm ntor nfp          -- :131-133
  let tq ← initTrig s.grid.theta_grid s.grid.zeta_grid tq mpol_nyq ntor_nyq nfp  -- :135-137
  pure { s with grid := { s.grid with trig := t, trigNyq := tq } }

/-- Zeroed spectra, `init.cpp:160-172`: the asymmetric arrays are touched only if `asym`. -/
def initSpectra (asym : Bool) (mnboz ns_b : Int) (o : Spectra α) : Res (Spectra α) := do
  let bmnc_b ← Mat.setZero (ofInt 0 : α) mnboz ns_b
  let rmnc_b ← Mat.setZero (ofInt 0 : α) mnboz ns_b
  let zmns_b ← Mat.setZero (ofInt 0 : α) mnboz ns_b
  let numns_b ← Mat.setZero (ofInt 0 : α) mnboz ns_b
  let gmnc_b ← Mat.setZero (ofInt 0 : α) mnboz ns_b
  let o := { o with bmnc_b := bmnc_b, rmnc_b := rmnc_b, zmns_b := zmns_b, numns_b := numns_b,
                    gmnc_b := gmnc_b }
  if asym then do
    let bmns_b ← Mat.setZero (ofInt 0 : α) mnboz ns_b
    let rmns_b ← Mat.setZero (ofInt 0 : α) mnboz ns_b
    let zmnc_b ← Mat.setZero (ofInt 0 : α) mnboz ns_b
    let numnc_b ← Mat.setZero (ofInt 0 : α) mnboz ns_b
    let gmns_b ← Mat.setZero (ofInt 0 : α) mnboz ns_b
    pure { o with bmns_b := bmns_b, rmns_b := rmns_b, zmnc_b := zmnc_b, numnc_b := numnc_b,
                  gmns_b := gmns_b }
  else pure o

/-- The assertions on the first Nyquist mode, `init.cpp:152-153` (not evaluated with `NDEBUG`). -/
def assertOrigin (dbg : Bool) (inp : Inputs α) : Res Unit :=
  if dbg then do
    let m0 ← inp.xm_nyq.rdN 0
    cassert dbg (m0 = 0) "xm_nyq[0] == 0"
    let n0 ← inp.xn_nyq.rdN 0
    cassert dbg (n0 = 0) "xn_nyq[0] == 0"
  else pure ()

/-- Output allocation and the per-surface copies, `init.cpp:145-172`. -/
def initOutputs (dbg : Bool) (s : St α) : Res (St α) := do
  let cs := s.inp.compute_surfs
  let ns_b : Int := cs.size                                                  -- :145
  let s_b ← Vec.resize s.out.s_b ns_b                                        -- :146
  let s_b ← loop cs.size (fun j s_b => do                                    -- :147
    let js ← cs.rdN j
    let v ← s.inp.s_in.rd js
    Vec.wrN s_b j v) s_b
  let boozer_I ← Vec.setZero (ofInt 0 : α) ns_b                              -- :148
  let boozer_G ← Vec.setZero (ofInt 0 : α) ns_b                              -- :149
  let ns_in ← need s.inp.ns_in "ns_in"
  let boozer_I_all ← Vec.setZero (ofInt 0 : α) ns_in                         -- :150
  let boozer_G_all ← Vec.setZero (ofInt 0 : α) ns_in                         -- :151
  assertOrigin dbg s.inp                                                     -- :152-153
  let (boozer_I_all, boozer_G_all) ← loop ns_in.toNat (fun j (st : Vec α × Vec α) => do  -- :154-157
    let u ← s.inp.bsubumnc.rdN 0 j
    let i ← st.1.wrN j u
    let v ← s.inp.bsubvmnc.rdN 0 j
    let g ← st.2.wrN j v
    pure (i, g)) (boozer_I_all, boozer_G_all)
  let mnboz ← need s.out.mnboz "mnboz"
  let asym ← need s.inp.asym "asym"
  let spec ← initSpectra asym mnboz ns_b s.out.spec                          -- :160-172
  pure { s with out := { s.out with
    ns_b := some ns_b, s_b := s_b, boozer_I := boozer_I, boozer_G := boozer_G,
    boozer_I_all := boozer_I_all, boozer_G_all := boozer_G_all, spec := spec } }

/-- `Booz_xform::init`, `init.cpp:31-174`. -/
def init (dbg : Bool) (s : St α) : Res (St α) := do
  let s ← initGrid dbg s
  let s ← initTables s
  initOutputs dbg s

end Booz
