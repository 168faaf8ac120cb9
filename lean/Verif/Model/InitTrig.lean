import Verif.Model.State

/-!
# `init_trig` (`/repo/src/_booz_xform/init_trig.cpp:16-51`)
-/

namespace Booz
variable {α : Type} [Arith α]

/-- Body of the first loop, `init_trig.cpp:23-28`. -/
def initTrigFirst (theta : Vec α) (j : Nat) (t : Trig α) : Res (Trig α) := do
  let cosm ← t.cosm.wrN j 0 (ofInt 1)
  let cosn ← t.cosn.wrN j 0 (ofInt 1)
  let th ← theta.rdN j
  let cosm ← cosm.wrN j 1 (Arith.cos th)
  let th ← theta.rdN j
  let sinm ← t.sinm.wrN j 1 (Arith.sin th)
  pure { t with cosm := cosm, sinm := sinm, cosn := cosn }

/-- Body of the second loop, `init_trig.cpp:30-33`. -/
def initTrigFirstN (zeta : Vec α) (nfpx : Int) (j : Nat) (t : Trig α) : Res (Trig α) := do
  let ze ← zeta.rdN j
  let cosn ← t.cosn.wrN j 1 (Arith.cos (ofInt nfpx * ze))
  let ze ← zeta.rdN j
  let sinn ← t.sinn.wrN j 1 (Arith.sin (ofInt nfpx * ze))
  pure { t with cosn := cosn, sinn := sinn }

/-- One step of the angle-addition recurrence on a cosine/sine table pair,
`init_trig.cpp:39-40` (for `m`) and `init_trig.cpp:47-48` (for `n`). -/
def trigStep (m j : Nat) (cs : Mat α × Mat α) : Res (Mat α × Mat α) := do
  let c ← cs.1.rdN j (m - 1)
  let c1 ← cs.1.rdN j 1
  let s ← cs.2.rdN j (m - 1)
  let s1 ← cs.2.rdN j 1
  let cosx ← cs.1.wrN j m (c * c1 - s * s1)
  let s ← cs.2.rdN j (m - 1)
  let c1 ← cosx.rdN j 1
  let c ← cosx.rdN j (m - 1)
  let s1 ← cs.2.rdN j 1
  let sinx ← cs.2.wrN j m (s * c1 + c * s1)
  pure (cosx, sinx)

/-- The loops `for (m = 2; m <= mmax; m++) for (j = 0; ...)`, `init_trig.cpp:37-42` and `45-50`;
the loop variable is `m = k + 2`. -/
def trigRest (npts : Nat) (mmax : Int) (cs : Mat α × Mat α) : Res (Mat α × Mat α) :=
  loop (mmax - 1).toNat (fun k cs => loop npts (trigStep (k + 2)) cs) cs

/-- `init_trig`, `init_trig.cpp:16-51`. -/
def initTrig (theta zeta : Vec α) (t : Trig α) (mmax nmax nfpx : Int) : Res (Trig α) := do
  let npts := theta.size                                     -- :20
  let t ← loop npts (initTrigFirst theta) t                  -- :23-28
  let t ← if nmax ≥ 1 then loop npts (initTrigFirstN zeta nfpx) t else pure t  -- :29-34
  let (cosm, sinm) ← trigRest npts mmax (t.cosm, t.sinm)     -- :37-42
  let (cosn, sinn) ← trigRest npts nmax (t.cosn, t.sinn)     -- :45-50
  pure { cosm := cosm, sinm := sinm, cosn := cosn, sinn := sinn }

end Booz
