import Verif.Model.SurfaceSolve

/-!
# `Booz_xform::check_accuracy` (`/repo/src/_booz_xform/check_accuracy.cpp:17-148`)
-/

namespace Booz
variable {α : Type} [Arith α]

/-- What one call prints (`check_accuracy.cpp:128-146`), before number formatting; the OpenMP
thread number in the first column is not part of the record. -/
structure Report (α : Type) where
  js_b : Nat
  js : Int
  vmec : Vec α
  boozer : Vec α
  err : Vec α

/-- One of the four `assert` pairs on the grid angles, compiled only without `NDEBUG`.
`check_accuracy.cpp:39-40,47-48,57-62,72-77` -/
def assertNear (dbg : Bool) (v : Vec α) (index : Int) (target : α) (what : String) : Res Unit :=
  if dbg then do
    let x ← v.rd index
    cassert dbg (Arith.absTiny (x - target)) what
  else pure ()

/-- Body of the reconstruction loop, `check_accuracy.cpp:105-111`. -/
def checkStep (asym : Bool) (t : Trig α) (o : Spectra α) (js_b jmn : Nat) (m absn sign : Int)
    (j : Nat) (v : Vec α) : Res (Vec α) := do
  let tcos ← trigCos t j m absn sign
  let b ← o.bmnc_b.rdN jmn js_b
  let v ← v.addN j (tcos * b)
  if !asym then pure v else do
    let tsin ← trigSin t j m absn sign
    let b ← o.bmns_b.rdN jmn js_b
    v.addN j (tsin * b)

/-- `check_accuracy`, `check_accuracy.cpp:17-148`.  The four-entry work vectors are written in full
before being read, so they appear here as the vectors of those values. -/
def checkAccuracy (dbg : Bool) (s : St α) (js : Int) (js_b : Nat) (bmod tB zB : Vec α)
    (trig : Trig α) : Res (Report α) := do
  let ntheta ← need s.grid.ntheta "ntheta"
  let nzeta ← need s.grid.nzeta "nzeta"
  let nfp ← need s.inp.nfp "nfp"
  let i0 : Int := 0                                                         -- :35
  let b0 ← bmod.rd i0; let t0 ← tB.rd i0; let z0 ← zB.rd i0
  assertNear dbg s.grid.theta_grid i0 (ofInt 0) "theta_grid[index] ~ 0"
  assertNear dbg s.grid.zeta_grid i0 (ofInt 0) "zeta_grid[index] ~ 0"
  let i1 ← i32 (ntheta.tdiv 2 * nzeta)                                      -- :43
  let b1 ← bmod.rd i1; let t1 ← tB.rd i1; let z1 ← zB.rd i1
  assertNear dbg s.grid.theta_grid i1 Arith.pi "theta_grid[index] ~ pi"
  assertNear dbg s.grid.zeta_grid i1 (ofInt 0) "zeta_grid[index] ~ 0"
  let i2 := nzeta.tdiv 2                                                    -- :51
  let b2 ← bmod.rd i2; let t2 ← tB.rd i2; let z2 ← zB.rd i2
  assertNear dbg s.grid.theta_grid i2 (ofInt 0) "theta_grid[index] ~ 0"
  assertNear dbg s.grid.zeta_grid i2 (if nzeta > 1 then Arith.pi / ofInt nfp else ofInt 0)
    "zeta_grid[index] ~ pi / nfp"
  let i3 ← i32 (i1 + i2)                                                    -- :65
  let b3 ← bmod.rd i3; let t3 ← tB.rd i3; let z3 ← zB.rd i3
  assertNear dbg s.grid.theta_grid i3 Arith.pi "theta_grid[index] ~ pi"
  assertNear dbg s.grid.zeta_grid i3 (if nzeta > 1 then Arith.pi / ofInt nfp else ofInt 0)
    "zeta_grid[index] ~ pi / nfp"
  let vmec : Vec α := #[some b0, some b1, some b2, some b3]
  let tt : Vec α := #[some t0, some t1, some t2, some t3]
  let zt : Vec α := #[some z0, some z1, some z2, some z3]
  let trig ← initTrig tt zt trig s.inp.mboz s.inp.nboz nfp                  -- :88-90
  let asym ← need s.inp.asym "asym"
  let mnboz ← need s.out.mnboz "mnboz"
  let zero : α := ofInt 0
  let booz ← loop mnboz.toNat (fun jmn v => do                              -- :94-112
    let m ← s.out.xm_b.rdN jmn
    let n ← s.out.xn_b.rdN jmn
    let absn ← absNOf n s.inp.nfp
    loop 4 (checkStep asym trig s.out.spec js_b jmn m absn (signOf n)) v)
    (#[some zero, some zero, some zero, some zero] : Vec α)
  let err ← Vec.build 4 fun j => do                                         -- :121-124
    let b ← booz.rdN j
    let v ← vmec.rdN j
    pure (Arith.abs (b - v) / Arith.max b v)
  pure ⟨js_b, js, vmec, booz, err⟩

end Booz
