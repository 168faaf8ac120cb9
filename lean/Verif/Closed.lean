import Verif.Lemmas.InitTrig
import Verif.Model.Run
import Verif.Spec.Ready

/-!
# Closed forms of `init`, `surface_solve` and `check_accuracy`

Loop-free descriptions of what the code computes, with the operations in the order of the source,
for every `Arith` number type.  They are proved equal to the code-level model in `Verif.Lemmas.*`
and are used only as stepping stones: property theorems are stated about the code-level model.
-/

namespace Booz

/-- Poloidal number of output mode `j`, `init.cpp:54-62`. -/
def modeM (N j : Nat) : Nat := (j + N) / (2 * N + 1)
/-- Toroidal number (divided by nfp) of output mode `j`, `init.cpp:54-62`. -/
def modeN (N j : Nat) : Int := (((j + N) % (2 * N + 1) : Nat) : Int) - N

variable {α : Type} [Arith α]

/-- Grid spacing in theta, `init.cpp:99-106`. -/
def dTheta (d : Dims) : α := twopi / ofInt d.nt
/-- Grid spacing in zeta, `init.cpp:108`. -/
def dZeta (d : Dims) : α := twopi / ofInt (d.nfp * d.nz : Int)
/-- Grid value of theta at point `j`, `init.cpp:113-120`. -/
def gridT (d : Dims) (j : Nat) : α := ofInt (j / d.nz : Nat) * dTheta d
/-- Grid value of zeta at point `j`, `init.cpp:113-120`. -/
def gridZ (d : Dims) (j : Nat) : α := ofInt (j % d.nz : Nat) * dZeta d

/-- The code's value of `cos(m x)`, `init_trig.cpp:22-50`. -/
def cosT (x : α) (m : Nat) : α := (trigCol (Arith.cos x) (Arith.sin x) (ofInt 0) m).1
/-- The code's value of `sin(m x)`, `init_trig.cpp:22-50`. -/
def sinT (x : α) (m : Nat) : α := (trigCol (Arith.cos x) (Arith.sin x) (ofInt 0) m).2

/-- The four tables on points `(θ j, ζ j)`, `init_trig.cpp:16-51`. -/
def trigTab (np cm cn nfp : Nat) (θ ζ : Nat → α) : Trig α :=
  ⟨Mat.tab np cm fun j m => cosT (θ j) m, Mat.tab np cm fun j m => sinT (θ j) m,
   Mat.tab np cn fun j n => cosT (ofInt (nfp : Int) * ζ j) n,
   Mat.tab np cn fun j n => sinT (ofInt (nfp : Int) * ζ j) n⟩

/-- Zero matrix, `init.cpp:160-172`. -/
def zeroMat (r c : Nat) : Mat α := Mat.tab r c fun _ _ => ofInt 0

/-- Spectra right after `init`, `init.cpp:160-172`. -/
def spec0 (d : Dims) (o : Spectra α) : Spectra α :=
  let z : Mat α := zeroMat d.nmodes d.nsb
  if d.asym then ⟨z, z, z, z, z, z, z, z, z, z⟩
  else { o with bmnc_b := z, rmnc_b := z, zmns_b := z, numns_b := z, gmnc_b := z }

/-- Object state after `init`, `init.cpp:31-174`. -/
def initSt (d : Dims) (s : St α) : St α where
  inp := s.inp
  flux := s.flux
  grid :=
    { nu2_b := some d.nu2, nu3_b := some d.nu3, ntheta := some d.nt, nzeta := some d.nz,
      d_theta := some (dTheta d), d_zeta := some (dZeta d), n_theta_zeta := some d.np,
      theta_grid := Vec.tab d.np (gridT d), zeta_grid := Vec.tab d.np (gridZ d),
      trig := trigTab d.np d.mpol (d.ntor + 1) d.nfp (gridT d) (gridZ d),
      trigNyq := trigTab d.np (d.mq + 1) (d.nq + 1) d.nfp (gridT d) (gridZ d) }
  out :=
    { ns_b := some d.nsb
      s_b := Vec.tab d.nsb fun j => s.inp.s_in.val (ofInt 0) (s.inp.compute_surfs.val 0 j).toNat
      mnboz := some d.nmodes
      xm_b := Vec.tab d.nmodes fun j => (modeM d.N j : Int)
      xn_b := Vec.tab d.nmodes fun j => modeN d.N j * d.nfp
      spec := spec0 d s.out.spec
      boozer_G := Vec.tab d.nsb fun _ => ofInt 0
      boozer_G_all := Vec.tab d.ns fun j => s.inp.bsubvmnc.val (ofInt 0) 0 j
      boozer_I := Vec.tab d.nsb fun _ => ofInt 0
      boozer_I_all := Vec.tab d.ns fun j => s.inp.bsubumnc.val (ofInt 0) 0 j }

/-! ## One surface -/

/-- `cos(m θ - n ζ)` as the code evaluates it from the recurrence columns, `surface_solve.cpp:141`. -/
def bC (nfp : Nat) (m n : Int) (θ ζ : α) : α :=
  cosT θ m.toNat * cosT (ofInt (nfp : Int) * ζ) (n.natAbs / nfp) +
    sinT θ m.toNat * sinT (ofInt (nfp : Int) * ζ) (n.natAbs / nfp) * ofInt (signOf n)

/-- `sin(m θ - n ζ)` as the code evaluates it from the recurrence columns, `surface_solve.cpp:142`. -/
def bS (nfp : Nat) (m n : Int) (θ ζ : α) : α :=
  sinT θ m.toNat * cosT (ofInt (nfp : Int) * ζ) (n.natAbs / nfp) -
    cosT θ m.toNat * sinT (ofInt (nfp : Int) * ζ) (n.natAbs / nfp) * ofInt (signOf n)

/-- Running sum that adds `x k`, and also `y k` in the asymmetric case. As in `surface_solve.cpp:143-153`. -/
def acc2 (asym : Bool) (x y : Nat → α) : Nat → α
  | 0 => ofInt 0
  | k + 1 => if asym then acc2 asym x y k + x k + y k else acc2 asym x y k + x k

/-- Running sum from a start value. As in `surface_solve.cpp:302-322`. -/
def foldAdd (z : α) (f : Nat → α) : Nat → α
  | 0 => z
  | k + 1 => foldAdd z f k + f k

/-- Last value of `f` at a (0,0) Nyquist mode among the first `k`, `old` if there is none,
`surface_solve.cpp:91-107`. -/
def lastZero (I : Inputs α) (f : Nat → α) (old : α) : Nat → α
  | 0 => old
  | k + 1 => if I.xm_nyq.val 0 k = 0 ∧ I.xn_nyq.val 0 k = 0 then f k else lastZero I f old k

section surface
variable (I : Inputs α) (d : Dims) (js : Nat)

/-- matrix entry in a specification -/
abbrev ev (a : Mat α) (i j : Nat) : α := a.val (ofInt 0) i j

/-- `wmns`, `surface_solve.cpp:95-106` -/
def wS (k : Nat) : α :=
  if I.xm_nyq.val 0 k ≠ 0 then ev I.bsubumnc k js / ofInt (I.xm_nyq.val 0 k)
  else if I.xn_nyq.val 0 k ≠ 0 then (-ev I.bsubvmnc k js) / ofInt (I.xn_nyq.val 0 k)
  else ofInt 0

/-- `wmnc`, `surface_solve.cpp:95-106` -/
def wC (k : Nat) : α :=
  if I.xm_nyq.val 0 k ≠ 0 then (-ev I.bsubumns k js) / ofInt (I.xm_nyq.val 0 k)
  else if I.xn_nyq.val 0 k ≠ 0 then ev I.bsubvmns k js / ofInt (I.xn_nyq.val 0 k)
  else ofInt 0

/-- `Boozer_I` of the surface, `surface_solve.cpp:103` -/
def curI : α := lastZero I (fun k => ev I.bsubumnc k js) (ofInt 0) d.mnq
/-- `Boozer_G` of the surface, `surface_solve.cpp:104` -/
def curG : α := lastZero I (fun k => ev I.bsubvmnc k js) (ofInt 0) d.mnq

/-- partial sums of `r` over the first `K` modes, `surface_solve.cpp:143,149` -/
def rP (K : Nat) (θ ζ : α) : α :=
  acc2 d.asym (fun k => bC d.nfp (I.xm.val 0 k) (I.xn.val 0 k) θ ζ * ev I.rmnc k js)
    (fun k => bS d.nfp (I.xm.val 0 k) (I.xn.val 0 k) θ ζ * ev I.rmns k js) K
/-- partial sums of `z`, `surface_solve.cpp:144,150` -/
def zP (K : Nat) (θ ζ : α) : α :=
  acc2 d.asym (fun k => bS d.nfp (I.xm.val 0 k) (I.xn.val 0 k) θ ζ * ev I.zmns k js)
    (fun k => bC d.nfp (I.xm.val 0 k) (I.xn.val 0 k) θ ζ * ev I.zmnc k js) K
/-- partial sums of `lambda`, `surface_solve.cpp:145,151` -/
def lP (K : Nat) (θ ζ : α) : α :=
  acc2 d.asym (fun k => bS d.nfp (I.xm.val 0 k) (I.xn.val 0 k) θ ζ * ev I.lmns k js)
    (fun k => bC d.nfp (I.xm.val 0 k) (I.xn.val 0 k) θ ζ * ev I.lmnc k js) K
/-- partial sums of `d_lambda_d_theta`, `surface_solve.cpp:146,152` -/
def ltP (K : Nat) (θ ζ : α) : α :=
  acc2 d.asym
    (fun k => bC d.nfp (I.xm.val 0 k) (I.xn.val 0 k) θ ζ * ev I.lmns k js * ofInt (I.xm.val 0 k))
    (fun k => (-bS d.nfp (I.xm.val 0 k) (I.xn.val 0 k) θ ζ) * ev I.lmnc k js * ofInt (I.xm.val 0 k)) K
/-- partial sums of `d_lambda_d_zeta`, `surface_solve.cpp:147,153` -/
def lzP (K : Nat) (θ ζ : α) : α :=
  acc2 d.asym
    (fun k => (-bC d.nfp (I.xm.val 0 k) (I.xn.val 0 k) θ ζ) * ev I.lmns k js * ofInt (I.xn.val 0 k))
    (fun k => bS d.nfp (I.xm.val 0 k) (I.xn.val 0 k) θ ζ * ev I.lmnc k js * ofInt (I.xn.val 0 k)) K
/-- partial sums of `w`, `surface_solve.cpp:186,191` -/
def wP (K : Nat) (θ ζ : α) : α :=
  acc2 d.asym (fun k => bS d.nfp (I.xm_nyq.val 0 k) (I.xn_nyq.val 0 k) θ ζ * wS I js k)
    (fun k => bC d.nfp (I.xm_nyq.val 0 k) (I.xn_nyq.val 0 k) θ ζ * wC I js k) K
/-- partial sums of `d_w_d_theta`, `surface_solve.cpp:187,192` -/
def wtP (K : Nat) (θ ζ : α) : α :=
  acc2 d.asym
    (fun k => bC d.nfp (I.xm_nyq.val 0 k) (I.xn_nyq.val 0 k) θ ζ * wS I js k *
      ofInt (I.xm_nyq.val 0 k))
    (fun k => (-bS d.nfp (I.xm_nyq.val 0 k) (I.xn_nyq.val 0 k) θ ζ) * wC I js k *
      ofInt (I.xm_nyq.val 0 k)) K
/-- partial sums of `d_w_d_zeta`, `surface_solve.cpp:188,193` -/
def wzP (K : Nat) (θ ζ : α) : α :=
  acc2 d.asym
    (fun k => (-bC d.nfp (I.xm_nyq.val 0 k) (I.xn_nyq.val 0 k) θ ζ) * wS I js k *
      ofInt (I.xn_nyq.val 0 k))
    (fun k => bS d.nfp (I.xm_nyq.val 0 k) (I.xn_nyq.val 0 k) θ ζ * wC I js k *
      ofInt (I.xn_nyq.val 0 k)) K
/-- partial sums of `bmod`, `surface_solve.cpp:189,194` -/
def bP (K : Nat) (θ ζ : α) : α :=
  acc2 d.asym (fun k => bC d.nfp (I.xm_nyq.val 0 k) (I.xn_nyq.val 0 k) θ ζ * ev I.bmnc k js)
    (fun k => bS d.nfp (I.xm_nyq.val 0 k) (I.xn_nyq.val 0 k) θ ζ * ev I.bmns k js) K

/-- `iota[js]`, `surface_solve.cpp:200`. -/
def iotaV : α := I.iota.val (ofInt 0) js
/-- `Boozer_G[js_b] + this_iota * Boozer_I[js_b]`, `surface_solve.cpp:201,262`. -/
def gi : α := curG I d js + iotaV I js * curI I d js
/-- `one_over_GI`, `surface_solve.cpp:201` -/
def oneOverGI : α := ofInt 1 / gi I d js
/-- `nu`, `surface_solve.cpp:204` -/
def nuV (θ ζ : α) : α :=
  oneOverGI I d js * (wP I d js d.mnq θ ζ - curI I d js * lP I d js d.mnmax θ ζ)
/-- `theta_Boozer_grid`, `surface_solve.cpp:207` -/
def thB (θ ζ : α) : α := θ + lP I d js d.mnmax θ ζ + iotaV I js * nuV I d js θ ζ
/-- `zeta_Boozer_grid`, `surface_solve.cpp:208` -/
def zeB (θ ζ : α) : α := ζ + nuV I d js θ ζ
/-- `d_nu_d_zeta`, `surface_solve.cpp:211` -/
def nuZ (θ ζ : α) : α :=
  oneOverGI I d js * (wzP I d js d.mnq θ ζ - curI I d js * lzP I d js d.mnmax θ ζ)
/-- `d_nu_d_theta`, `surface_solve.cpp:212` -/
def nuT (θ ζ : α) : α :=
  oneOverGI I d js * (wtP I d js d.mnq θ ζ - curI I d js * ltP I d js d.mnmax θ ζ)
/-- `d_Boozer_d_vmec`, `surface_solve.cpp:215-216` -/
def dBdV (θ ζ : α) : α :=
  (ofInt 1 + ltP I d js d.mnmax θ ζ) * (ofInt 1 + nuZ I d js θ ζ) +
    (iotaV I js - lzP I d js d.mnmax θ ζ) * nuT I d js θ ζ
/-- `boozer_jacobian`, `surface_solve.cpp:262` -/
def jacB (θ ζ : α) : α := gi I d js / (bP I d js d.mnq θ ζ * bP I d js d.mnq θ ζ)

/-- Half weight on the rows theta = 0 and theta = pi in the symmetric case,
`surface_solve.cpp:245-259`. -/
def wt (j : Nat) (x : α) : α :=
  if d.asym = false ∧ (j < d.nz ∨ (d.nu2 - 1) * d.nz ≤ j) then Arith.half * x else x

/-- The tables of the Boozer angles after the halving step, `surface_solve.cpp:242-259`. -/
def boozTab : Trig α :=
  ⟨Mat.tab d.np (d.M + 1) fun j m => wt d j (cosT (thB I d js (gridT d j) (gridZ d j)) m),
   Mat.tab d.np (d.M + 1) fun j m => wt d j (sinT (thB I d js (gridT d j) (gridZ d j)) m),
   Mat.tab d.np (d.N + 1) fun j n =>
     cosT (ofInt (d.nfp : Int) * zeB I d js (gridT d j) (gridZ d j)) n,
   Mat.tab d.np (d.N + 1) fun j n =>
     sinT (ofInt (d.nfp : Int) * zeB I d js (gridT d j) (gridZ d j)) n⟩

/-- `fourier_factor0`, `surface_solve.cpp:281-286` -/
def fac0 : α :=
  if d.asym then ofInt 2 / ofInt (d.nt * d.nz : Int) else ofInt 2 / ofInt (((d.nu2 : Int) - 1) * d.nz)
/-- `fourier_factor` of mode `k`, `surface_solve.cpp:299-300` -/
def facK (k : Nat) : α := if k = 0 then fac0 d * Arith.half else fac0 d

/-- `tcos` of output mode `k` at grid point `j`, `surface_solve.cpp:303-305` -/
def tC (k j : Nat) : α :=
  let θ := gridT (α := α) d j
  let ζ := gridZ (α := α) d j
  let a := (modeN d.N k * d.nfp).natAbs / d.nfp
  let z := ofInt (d.nfp : Int) * zeB I d js θ ζ
  (wt d j (cosT (thB I d js θ ζ) (modeM d.N k)) * cosT z a +
    wt d j (sinT (thB I d js θ ζ) (modeM d.N k)) * sinT z a * ofInt (signOf (modeN d.N k * d.nfp))) *
    dBdV I d js θ ζ * facK d k
/-- `tsin` of output mode `k` at grid point `j`, `surface_solve.cpp:307-309` -/
def tS (k j : Nat) : α :=
  let θ := gridT (α := α) d j
  let ζ := gridZ (α := α) d j
  let a := (modeN d.N k * d.nfp).natAbs / d.nfp
  let z := ofInt (d.nfp : Int) * zeB I d js θ ζ
  (wt d j (sinT (thB I d js θ ζ) (modeM d.N k)) * cosT z a -
    wt d j (cosT (thB I d js θ ζ) (modeM d.N k)) * sinT z a * ofInt (signOf (modeN d.N k * d.nfp))) *
    dBdV I d js θ ζ * facK d k

end surface

/-- The ten spectra as functions of (mode, surface), `surface_solve.cpp:311-321`. -/
structure SpecF (α : Type) where
  bc : Nat → Nat → α
  rc : Nat → Nat → α
  zs : Nat → Nat → α
  ns : Nat → Nat → α
  gc : Nat → Nat → α
  bs : Nat → Nat → α
  rs : Nat → Nat → α
  zc : Nat → Nat → α
  nc : Nat → Nat → α
  gs : Nat → Nat → α

/-- Spectra arrays with the given entries; in the symmetric case the asymmetric arrays are those
of `o`, `init.cpp:160-172`. -/
def specTab (d : Dims) (F : SpecF α) (o : Spectra α) : Spectra α :=
  if d.asym then
    ⟨Mat.tab d.nmodes d.nsb F.bc, Mat.tab d.nmodes d.nsb F.rc, Mat.tab d.nmodes d.nsb F.zs,
     Mat.tab d.nmodes d.nsb F.ns, Mat.tab d.nmodes d.nsb F.gc, Mat.tab d.nmodes d.nsb F.bs,
     Mat.tab d.nmodes d.nsb F.rs, Mat.tab d.nmodes d.nsb F.zc, Mat.tab d.nmodes d.nsb F.nc,
     Mat.tab d.nmodes d.nsb F.gs⟩
  else
    { o with
      bmnc_b := Mat.tab d.nmodes d.nsb F.bc, rmnc_b := Mat.tab d.nmodes d.nsb F.rc
      zmns_b := Mat.tab d.nmodes d.nsb F.zs, numns_b := Mat.tab d.nmodes d.nsb F.ns
      gmnc_b := Mat.tab d.nmodes d.nsb F.gc }

/-- Output coefficients of surface `js`, as sums over the grid in source order,
`surface_solve.cpp:311-321`; `z` is the value present before. -/
def coefF (d : Dims) (T : Nat → Nat → α) (v : α → α → α) (z : α) (k : Nat) :
    α :=
  foldAdd z (fun j => T k j * v (gridT d j) (gridZ d j)) d.np

/-- Spectra after surface number `b` (with input surface `js`) has been processed, `surface_solve.cpp:289-323`. -/
def addCol (I : Inputs α) (d : Dims) (js b : Nat) (F : SpecF α) : SpecF α :=
  let u (f : Nat → Nat → α) (T : Nat → Nat → α) (v : α → α → α) : Nat → Nat → α :=
    fun k b' => if b' = b then coefF d T v (f k b') k else f k b'
  { bc := u F.bc (tC I d js) (bP I d js d.mnq)
    rc := u F.rc (tC I d js) (rP I d js d.mnmax)
    zs := u F.zs (tS I d js) (zP I d js d.mnmax)
    ns := u F.ns (tS I d js) (nuV I d js)
    gc := u F.gc (tC I d js) (jacB I d js)
    bs := u F.bs (tS I d js) (bP I d js d.mnq)
    rs := u F.rs (tS I d js) (rP I d js d.mnmax)
    zc := u F.zc (tC I d js) (zP I d js d.mnmax)
    nc := u F.nc (tC I d js) (nuV I d js)
    gs := u F.gs (tS I d js) (jacB I d js) }

end Booz
