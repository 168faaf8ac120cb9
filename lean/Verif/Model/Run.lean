import Verif.Model.CheckAccuracy

/-!
# `Booz_xform::surface_solve` assembled, and `Booz_xform::run` (`/repo/src/_booz_xform/run.cpp:6-26`)
-/

namespace Booz
variable {α : Type} [Arith α]

/-- `surface_solve(js_b)`, `surface_solve.cpp:16-329`; returns the new object state and the report
printed by `check_accuracy` (when `verbose > 0`). -/
def surfaceSolve (dbg : Bool) (js_b : Nat) (s : St α) : Res (St α × Option (Report α)) := do
  let js ← s.inp.compute_surfs.rdN js_b                                     -- :17
  let t ← transp s.inp js js_b s.out.boozer_I s.out.boozer_G                -- :91-107
  let s := { s with out := { s.out with boozer_I := t.boozer_I, boozer_G := t.boozer_G } }
  let bI ← s.out.boozer_I.rdN js_b
  let bG ← s.out.boozer_G.rdN js_b
  let L ← localWork s.inp s.grid js bI bG t.wmns t.wmnc                     -- :121-286
  let spec ← accum s.inp s.grid L s.out.mnboz s.out.xm_b s.out.xn_b js_b s.out.spec  -- :289-323
  let s := { s with out := { s.out with spec := spec } }
  if s.inp.verbose > 0 then do                                              -- :327-329
    let rep ← checkAccuracy dbg s js js_b L.wb.bmod L.har.theta_Boozer L.har.zeta_Boozer L.trig
    pure (s, some rep)
  else pure (s, none)

/-- The local variables of `surface_solve(js_b)` just before its accumulation loops,
`surface_solve.cpp:17-286`, for theorems about them; `surfaceSolve` starts with exactly these steps
(`surfaceSolve_eq_work` in `Verif.Lemmas.Work`). -/
def surfaceWork (js_b : Nat) (s : St α) : Res (Transp α × Local α) := do
  let js ← s.inp.compute_surfs.rdN js_b                                     -- :17
  let t ← transp s.inp js js_b s.out.boozer_I s.out.boozer_G                -- :91-107
  let bI ← t.boozer_I.rdN js_b
  let bG ← t.boozer_G.rdN js_b
  let L ← localWork s.inp s.grid js bI bG t.wmns t.wmnc                     -- :121-286
  pure (t, L)

/-- Printing of `compute_surfs`, `run.cpp:7-11`: every entry is read. -/
def printSurfs (inp : Inputs α) : Res Unit :=
  if inp.verbose > 0 then
    loop inp.compute_surfs.size (fun j (_ : Unit) => do
      let _ ← inp.compute_surfs.rdN j
      pure ()) ()
  else pure ()

/-- `run()`, `run.cpp:6-26`, with the iterations of the parallel loop executed in order.  The
parallel semantics is in `Verif.Model.Parallel`.  Returns the final object and the printed
reports. -/
def run (dbg : Bool) (s : St α) : Res (St α × List (Report α)) := do
  printSurfs s.inp                                                          -- :7-11
  let s ← init dbg s                                                        -- :13
  loop s.inp.compute_surfs.size (fun j (st : St α × List (Report α)) => do  -- :23-25
    let (s, rep) ← surfaceSolve dbg j st.1
    pure (s, st.2 ++ rep.toList)) (s, [])

/-- The local variables of iteration `b` of the loop of `run()`, `run.cpp:13-25`: `init`, `b` complete
surfaces, then the work of the next one. -/
def workOf (dbg : Bool) (b : Nat) (s : St α) : Res (Local α) := do
  let s ← init dbg s
  let s ← loop b (fun j s => do
    let (s, _) ← surfaceSolve dbg j s
    pure s) s
  let (_, L) ← surfaceWork b s
  pure L

end Booz
