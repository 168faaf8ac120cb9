import Verif.Model.Init

/-!
# `Booz_xform::surface_solve` (`/repo/src/_booz_xform/surface_solve.cpp:16-409`)

The function is split into the phases its comments name: `transp` (transpmn.f), `vcoordsRZ`,
`vcoordsW`, `harfun`, the trigonometric tables of the Boozer angles, and the accumulation of the
output spectra.  Debug printing (`verbose > 1`, `if (false && ...)`) is omitted.
-/

namespace Booz
variable {α : Type} [Arith α]

/-- `v[j] += x`. `surface_solve.cpp:143-153,186-194`. -/
def Vec.addN (v : Vec α) (j : Nat) (x : α) : Res (Vec α) := do
  let y ← v.rdN j
  v.wrN j (y + x)

/-- `a(i,j) += x`. `surface_solve.cpp:311-321`. -/
def Mat.addN (a : Mat α) (i j : Nat) (x : α) : Res (Mat α) := do
  let y ← a.rdN i j
  a.wrN i j (y + x)

/-- `sign`, `surface_solve.cpp:134-138` (also 177-181, 293-297, `check_accuracy.cpp:99-103`). -/
def signOf (n : Int) : Int := if n < 0 then -1 else 1

/-- The `tcos` expression `cosm(j,m)*cosn(j,abs_n) + sinm(j,m)*sinn(j,abs_n)*sign`,
`surface_solve.cpp:141, 184, 303-304` and `check_accuracy.cpp:106`. -/
def trigCos (t : Trig α) (j : Nat) (m absn sign : Int) : Res α := do
  let cm ← t.cosm.rd j m
  let cn ← t.cosn.rd j absn
  let sm ← t.sinm.rd j m
  let sn ← t.sinn.rd j absn
  pure (cm * cn + sm * sn * ofInt sign)

/-- The `tsin` expression `sinm(j,m)*cosn(j,abs_n) - cosm(j,m)*sinn(j,abs_n)*sign`,
`surface_solve.cpp:142, 185, 307-308` and `check_accuracy.cpp:109`. -/
def trigSin (t : Trig α) (j : Nat) (m absn sign : Int) : Res α := do
  let sm ← t.sinm.rd j m
  let cn ← t.cosn.rd j absn
  let cm ← t.cosm.rd j m
  let sn ← t.sinn.rd j absn
  pure (sm * cn - cm * sn * ofInt sign)

/-- Variables changed by the transpmn.f part. `surface_solve.cpp:91-107`. -/
structure Transp (α : Type) where
  wmns : Vec α
  wmnc : Vec α
  boozer_I : Vec α
  boozer_G : Vec α

/-- Body of the transpmn.f loop, `surface_solve.cpp:91-107`. -/
def transpStep (inp : Inputs α) (asym : Bool) (js : Int) (js_b : Nat) (jmn : Nat) (t : Transp α) :
    Res (Transp α) := do
  let m ← inp.xm_nyq.rdN jmn
  let n ← inp.xn_nyq.rdN jmn
  if m ≠ 0 then do
    let b ← inp.bsubumnc.rd jmn js
    let wmns ← t.wmns.wrN jmn (b / ofInt m)
    let wmnc ← if asym then do
        let b ← inp.bsubumns.rd jmn js
        t.wmnc.wrN jmn ((-b) / ofInt m)
      else pure t.wmnc
    pure { t with wmns := wmns, wmnc := wmnc }
  else if n ≠ 0 then do
    let b ← inp.bsubvmnc.rd jmn js
    let wmns ← t.wmns.wrN jmn ((-b) / ofInt n)
    let wmnc ← if asym then do
        let b ← inp.bsubvmns.rd jmn js
        t.wmnc.wrN jmn (b / ofInt n)
      else pure t.wmnc
    pure { t with wmns := wmns, wmnc := wmnc }
  else do
    let b ← inp.bsubumnc.rd jmn js
    let boozer_I ← t.boozer_I.wrN js_b b
    let b ← inp.bsubvmnc.rd jmn js
    let boozer_G ← t.boozer_G.wrN js_b b
    pure { t with boozer_I := boozer_I, boozer_G := boozer_G }

/-- The transpmn.f part with its work arrays, `surface_solve.cpp:61-64, 91-107`. -/
def transp (inp : Inputs α) (js : Int) (js_b : Nat) (boozer_I boozer_G : Vec α) :
    Res (Transp α) := do
  let mnmax_nyq ← need inp.mnmax_nyq "mnmax_nyq"
  let asym ← need inp.asym "asym"
  let wmns ← Vec.setZero (ofInt 0 : α) mnmax_nyq
  let wmnc ← if asym then Vec.setZero (ofInt 0 : α) mnmax_nyq else pure #[]
  loop mnmax_nyq.toNat (transpStep inp asym js js_b)
    { wmns := wmns, wmnc := wmnc, boozer_I := boozer_I, boozer_G := boozer_G }

/-- Real-space work arrays of the vcoords_rz part. `surface_solve.cpp:123-155`. -/
structure RZ (α : Type) where
  r : Vec α
  z : Vec α
  lambda : Vec α
  d_lambda_d_theta : Vec α
  d_lambda_d_zeta : Vec α

/-- Body of the inner vcoords_rz loop, `surface_solve.cpp:141-153`. -/
def rzStep (inp : Inputs α) (trig : Trig α) (asym : Bool) (js : Int) (jmn : Nat)
    (m n absn : Int) (j : Nat) (w : RZ α) : Res (RZ α) := do
  let sign := signOf n
  let tcos ← trigCos trig j m absn sign
  let tsin ← trigSin trig j m absn sign
  let c ← inp.rmnc.rd jmn js
  let r ← w.r.addN j (tcos * c)
  let c ← inp.zmns.rd jmn js
  let z ← w.z.addN j (tsin * c)
  let c ← inp.lmns.rd jmn js
  let la ← w.lambda.addN j (tsin * c)
  let lt ← w.d_lambda_d_theta.addN j (tcos * c * ofInt m)
  let lz ← w.d_lambda_d_zeta.addN j ((-tcos) * c * ofInt n)
  let w : RZ α := ⟨r, z, la, lt, lz⟩
  if !asym then pure w else do
    let c ← inp.rmns.rd jmn js
    let r ← w.r.addN j (tsin * c)
    let c ← inp.zmnc.rd jmn js
    let z ← w.z.addN j (tcos * c)
    let c ← inp.lmnc.rd jmn js
    let la ← w.lambda.addN j (tcos * c)
    let lt ← w.d_lambda_d_theta.addN j ((-tsin) * c * ofInt m)
    let lz ← w.d_lambda_d_zeta.addN j (tsin * c * ofInt n)
    pure ⟨r, z, la, lt, lz⟩

/-- The vcoords_rz part, `surface_solve.cpp:65-69, 123-155`. -/
def vcoordsRZ (inp : Inputs α) (g : Grid α) (js : Int) : Res (RZ α) := do
  let npts ← need g.n_theta_zeta "n_theta_zeta"
  let asym ← need inp.asym "asym"
  let mnmax ← need inp.mnmax "mnmax"
  let zero ← Vec.setZero (ofInt 0 : α) npts
  loop mnmax.toNat (fun jmn w => do
    let m ← inp.xm.rdN jmn
    let n ← inp.xn.rdN jmn
    let nfp ← need inp.nfp "nfp"
    let a ← i32 n.natAbs
    let absn ← idiv a nfp
    loop npts.toNat (rzStep inp g.trig asym js jmn m n absn) w) ⟨zero, zero, zero, zero, zero⟩

/-- Real-space work arrays of the vcoords_w part. `surface_solve.cpp:169-196`. -/
structure WB (α : Type) where
  w : Vec α
  d_w_d_theta : Vec α
  d_w_d_zeta : Vec α
  bmod : Vec α

/-- Body of the inner vcoords_w loop, `surface_solve.cpp:184-194`. -/
def wStep (inp : Inputs α) (trig : Trig α) (asym : Bool) (js : Int) (wmns wmnc : Vec α) (jmn : Nat)
    (m n absn : Int) (j : Nat) (w : WB α) : Res (WB α) := do
  let sign := signOf n
  let tcos ← trigCos trig j m absn sign
  let tsin ← trigSin trig j m absn sign
  let c ← wmns.rdN jmn
  let ww ← w.w.addN j (tsin * c)
  let wt ← w.d_w_d_theta.addN j (tcos * c * ofInt m)
  let wz ← w.d_w_d_zeta.addN j ((-tcos) * c * ofInt n)
  let c ← inp.bmnc.rd jmn js
  let b ← w.bmod.addN j (tcos * c)
  let w : WB α := ⟨ww, wt, wz, b⟩
  if !asym then pure w else do
    let c ← wmnc.rdN jmn
    let ww ← w.w.addN j (tcos * c)
    let wt ← w.d_w_d_theta.addN j ((-tsin) * c * ofInt m)
    let wz ← w.d_w_d_zeta.addN j (tsin * c * ofInt n)
    let c ← inp.bmns.rd jmn js
    let b ← w.bmod.addN j (tsin * c)
    pure ⟨ww, wt, wz, b⟩

/-- `abs_n = std::abs(n / nfp)`, `surface_solve.cpp:176, 292`, `check_accuracy.cpp:98`. -/
def absNOf (n : Int) (nfp : Option Int) : Res Int := do
  let nfp ← need nfp "nfp"
  let q ← idiv n nfp
  i32 q.natAbs

/-- The vcoords_w part, `surface_solve.cpp:70-73, 169-196`. -/
def vcoordsW (inp : Inputs α) (g : Grid α) (js : Int) (wmns wmnc : Vec α) : Res (WB α) := do
  let npts ← need g.n_theta_zeta "n_theta_zeta"
  let asym ← need inp.asym "asym"
  let mnmax_nyq ← need inp.mnmax_nyq "mnmax_nyq"
  let zero ← Vec.setZero (ofInt 0 : α) npts
  loop mnmax_nyq.toNat (fun jmn w => do
    let m ← inp.xm_nyq.rdN jmn
    let n ← inp.xn_nyq.rdN jmn
    let absn ← absNOf n inp.nfp
    loop npts.toNat (wStep inp g.trigNyq asym js wmns wmnc jmn m n absn) w) ⟨zero, zero, zero, zero⟩

/-- Results of the harfun.f part and of line 262. `surface_solve.cpp:200-216,262`. -/
structure Har (α : Type) where
  nu : Vec α
  theta_Boozer : Vec α
  zeta_Boozer : Vec α
  d_Boozer_d_vmec : Vec α
  jacobian : Vec α

/-- The harfun.f part and the Boozer Jacobian, `surface_solve.cpp:200-216, 262`.  `bI`, `bG` are
`Boozer_I[js_b]`, `Boozer_G[js_b]`.  Eigen evaluates each array expression entry by entry; the
model does the same (`Vec.build`).  Operand sizes are all `n_theta_zeta`, for `theta_grid` and
`zeta_grid` because `init` allocates them so. -/
def harfun (inp : Inputs α) (g : Grid α) (js : Int) (bI bG : α) (p : RZ α) (q : WB α) :
    Res (Har α) := do
  let npts ← need g.n_theta_zeta "n_theta_zeta"
  let n := npts.toNat
  let this_iota ← inp.iota.rd js                                           -- :200
  let one_over_GI := ofInt 1 / (bG + this_iota * bI)                       -- :201
  let nu ← Vec.build n fun j => do                                         -- :204
    let w ← q.w.rdN j
    let l ← p.lambda.rdN j
    pure (one_over_GI * (w - bI * l))
  let tB ← Vec.build n fun j => do                                         -- :207
    let t ← g.theta_grid.rdN j
    let l ← p.lambda.rdN j
    let v ← nu.rdN j
    pure (t + l + this_iota * v)
  let zB ← Vec.build n fun j => do                                         -- :208
    let t ← g.zeta_grid.rdN j
    let v ← nu.rdN j
    pure (t + v)
  let d_nu_d_zeta ← Vec.build n fun j => do                                -- :211
    let w ← q.d_w_d_zeta.rdN j
    let l ← p.d_lambda_d_zeta.rdN j
    pure (one_over_GI * (w - bI * l))
  let d_nu_d_theta ← Vec.build n fun j => do                               -- :212
    let w ← q.d_w_d_theta.rdN j
    let l ← p.d_lambda_d_theta.rdN j
    pure (one_over_GI * (w - bI * l))
  let dBdv ← Vec.build n fun j => do                                       -- :215-216
    let lt ← p.d_lambda_d_theta.rdN j
    let nz ← d_nu_d_zeta.rdN j
    let lz ← p.d_lambda_d_zeta.rdN j
    let nt ← d_nu_d_theta.rdN j
    pure ((ofInt 1 + lt) * (ofInt 1 + nz) + (this_iota - lz) * nt)
  let jac ← Vec.build n fun j => do                                        -- :262
    let b ← q.bmod.rdN j
    pure ((bG + this_iota * bI) / (b * b))
  pure ⟨nu, tB, zB, dBdv, jac⟩

/-- `a(j,jmn) = 0.5 * a(j,jmn)`. `surface_solve.cpp:251-256`. -/
def Mat.halveN (a : Mat α) (j jmn : Nat) : Res (Mat α) := do
  let x ← a.rdN j jmn
  a.wrN j jmn (Arith.half * x)

/-- Lines 251-252 and 255-256 of `surface_solve.cpp`. -/
def halveStep (jmn j : Nat) (cs : Mat α × Mat α) : Res (Mat α × Mat α) := do
  let c ← cs.1.halveN j jmn
  let s ← cs.2.halveN j jmn
  pure (c, s)

/-- Half weights at theta = 0 and theta = pi, `surface_solve.cpp:245-259`.  The second loop runs
over `j = i-1, ..., imax-1` with `i-1 = nzeta*(nu2_b-1)` and `imax = i-1+nzeta`. -/
def halveEnds (nzeta nu2_b mboz : Int) (cs : Mat α × Mat α) : Res (Mat α × Mat α) := do
  let k ← i32 (nzeta * (nu2_b - 1))
  let i ← i32 (k + 1)
  let imax ← i32 (i - 1 + nzeta)
  loop (mboz + 1).toNat (fun jmn cs => do
    let cs ← loop nzeta.toNat (halveStep jmn) cs
    loop (imax - (i - 1)).toNat (fun k cs => halveStep jmn ((i - 1).toNat + k) cs) cs) cs

/-- Trigonometric tables of the Boozer angles, `surface_solve.cpp:56-59, 242-259`. -/
def boozerTrig (inp : Inputs α) (g : Grid α) (h : Har α) : Res (Trig α) := do
  let npts ← need g.n_theta_zeta "n_theta_zeta"
  let asym ← need inp.asym "asym"
  let nfp ← need inp.nfp "nfp"
  let mc ← i32 (inp.mboz + 1)
  let nc ← i32 (inp.nboz + 1)
  let t ← zeroTrig npts mc nc
  let t ← initTrig h.theta_Boozer h.zeta_Boozer t inp.mboz inp.nboz nfp
  if !asym then do
    let nzeta ← need g.nzeta "nzeta"
    let nu2_b ← need g.nu2_b "nu2_b"
    let (c, s) ← halveEnds nzeta nu2_b inp.mboz (t.cosm, t.sinm)
    pure { t with cosm := c, sinm := s }
  else pure t

/-- `fourier_factor0`, `surface_solve.cpp:281-286`. -/
def fourierFactor0 (inp : Inputs α) (g : Grid α) : Res α := do
  let asym ← need inp.asym "asym"
  let nzeta ← need g.nzeta "nzeta"
  if asym then do
    let ntheta ← need g.ntheta "ntheta"
    let q ← i32 (ntheta * nzeta)
    pure (ofInt 2 / ofInt q)
  else do
    let nu2_b ← need g.nu2_b "nu2_b"
    let q ← i32 ((nu2_b - 1) * nzeta)
    pure (ofInt 2 / ofInt q)

/-- Everything the accumulation loops of `surface_solve.cpp:289-323` read. -/
structure Local (α : Type) where
  rz : RZ α
  wb : WB α
  har : Har α
  trig : Trig α
  fac : α

/-- All thread-local work between the transpmn.f part and the accumulation loops,
`surface_solve.cpp:121-286`. -/
def localWork (inp : Inputs α) (g : Grid α) (js : Int) (bI bG : α) (wmns wmnc : Vec α) :
    Res (Local α) := do
  let rz ← vcoordsRZ inp g js
  let wb ← vcoordsW inp g js wmns wmnc
  let har ← harfun inp g js bI bG rz wb
  let trig ← boozerTrig inp g har
  let fac ← fourierFactor0 inp g
  pure ⟨rz, wb, har, trig, fac⟩

/-- Body of the innermost accumulation loop, `surface_solve.cpp:303-321`. -/
def accumStep (asym : Bool) (L : Local α) (js_b jmn : Nat) (m absn sign : Int) (ff : α) (j : Nat)
    (o : Spectra α) : Res (Spectra α) := do
  let tc ← trigCos L.trig j m absn sign
  let jac ← L.har.d_Boozer_d_vmec.rdN j
  let tcos := tc * jac * ff
  let ts ← trigSin L.trig j m absn sign
  let tsin := ts * jac * ff
  let b ← L.wb.bmod.rdN j
  let r ← L.rz.r.rdN j
  let z ← L.rz.z.rdN j
  let v ← L.har.nu.rdN j
  let gj ← L.har.jacobian.rdN j
  let bmnc_b ← o.bmnc_b.addN jmn js_b (tcos * b)
  let rmnc_b ← o.rmnc_b.addN jmn js_b (tcos * r)
  let zmns_b ← o.zmns_b.addN jmn js_b (tsin * z)
  let numns_b ← o.numns_b.addN jmn js_b (tsin * v)
  let gmnc_b ← o.gmnc_b.addN jmn js_b (tcos * gj)
  let o := { o with bmnc_b := bmnc_b, rmnc_b := rmnc_b, zmns_b := zmns_b, numns_b := numns_b,
                    gmnc_b := gmnc_b }
  if !asym then pure o else do
    let bmns_b ← o.bmns_b.addN jmn js_b (tsin * b)
    let rmns_b ← o.rmns_b.addN jmn js_b (tsin * r)
    let zmnc_b ← o.zmnc_b.addN jmn js_b (tcos * z)
    let numnc_b ← o.numnc_b.addN jmn js_b (tcos * v)
    let gmns_b ← o.gmns_b.addN jmn js_b (tsin * gj)
    pure { o with bmns_b := bmns_b, rmns_b := rmns_b, zmnc_b := zmnc_b, numnc_b := numnc_b,
                  gmns_b := gmns_b }

/-- The accumulation loops, `surface_solve.cpp:289-323`. -/
def accum (inp : Inputs α) (g : Grid α) (L : Local α) (mnboz : Option Int) (xm_b xn_b : Vec Int)
    (js_b : Nat) (o : Spectra α) : Res (Spectra α) := do
  let npts ← need g.n_theta_zeta "n_theta_zeta"
  let asym ← need inp.asym "asym"
  let mnboz ← need mnboz "mnboz"
  loop mnboz.toNat (fun jmn o => do
    let m ← xm_b.rdN jmn
    let n ← xn_b.rdN jmn
    let absn ← absNOf n inp.nfp
    let ff := if jmn = 0 then L.fac * Arith.half else L.fac                 -- :299-300
    loop npts.toNat (accumStep asym L js_b jmn m absn (signOf n) ff) o) o

end Booz
