import Verif.Model.Run

/-!
# The parallel loop of `run()` (`/repo/src/_booz_xform/run.cpp:22-25`)

`#pragma omp parallel for` executes the iterations `surface_solve(j)` on several threads.  Each
iteration is represented as a program of type `Act`, whose steps are the loads and stores of the
members of the object that some iteration writes (`Boozer_I`, `Boozer_G` and the ten spectra), the
lines it prints, and entering and leaving `#pragma omp critical`.  Everything else an iteration
touches is local to it or is not written by any iteration; it is evaluated between steps.

Steps of different threads are interleaved arbitrarily (`Step`).  Two threads about to access the same
cell, at least one of them writing, is a data race (`Racy`), which is undefined behaviour.  Programs
without data races have interleaving semantics also in the C++ memory model.
-/

namespace Booz

/-- The members of `Booz_xform` that `surface_solve` writes (`surface_solve.cpp:103-104, 310-321`). -/
inductive Which where
  | boozer_I | boozer_G
  | bmnc_b | rmnc_b | zmns_b | numns_b | gmnc_b
  | bmns_b | rmns_b | zmnc_b | numnc_b | gmns_b
  deriving DecidableEq

/-- A memory location: entry `(i, b)` of a matrix, or entry `b` of a vector (then `i = 0`).
The arrays written by `surface_solve.cpp:103-104,311-321`. -/
structure Cell where
  arr : Which
  i : Nat
  b : Nat
  deriving DecidableEq

/-- The memory shared by the threads.  Vectors are represented as matrices with one row.
`booz_xform.hpp`; the members written by `surface_solve.cpp:103-104,311-321`. -/
def Shared (α : Type) := Which → Mat α

variable {α : Type}

/-- `x = a(i,b)`. As in `surface_solve.cpp:201,311-321`. -/
def Shared.load (sh : Shared α) (c : Cell) : Res α := (sh c.arr).rdN c.i c.b

/-- One array replaced. For `Shared.store`. -/
def Shared.set (sh : Shared α) (w : Which) (a : Mat α) : Shared α := fun v => if v = w then a else sh v

/-- `a(i,b) = x`. As in `surface_solve.cpp:103-104,311-321`. -/
def Shared.store (sh : Shared α) (c : Cell) (x : α) : Res (Shared α) := do
  let a ← (sh c.arr).wrN c.i c.b x
  pure (sh.set c.arr a)

/-- A vector as a matrix with one row. For `Boozer_I`, `Boozer_G`, `surface_solve.cpp:103-104`. -/
def Vec.row (v : Vec α) : Mat α := ⟨1, v.size, v⟩

/-- Replace the spectra. `surface_solve.cpp:311-321`. -/
def Shared.setSpec (sh : Shared α) (o : Spectra α) : Shared α
  | .boozer_I => sh .boozer_I
  | .boozer_G => sh .boozer_G
  | .bmnc_b => o.bmnc_b
  | .rmnc_b => o.rmnc_b
  | .zmns_b => o.zmns_b
  | .numns_b => o.numns_b
  | .gmnc_b => o.gmnc_b
  | .bmns_b => o.bmns_b
  | .rmns_b => o.rmns_b
  | .zmnc_b => o.zmnc_b
  | .numnc_b => o.numnc_b
  | .gmns_b => o.gmns_b

/-- The spectra. `surface_solve.cpp:311-321`. -/
def Shared.spec (sh : Shared α) : Spectra α :=
  ⟨sh .bmnc_b, sh .rmnc_b, sh .zmns_b, sh .numns_b, sh .gmnc_b, sh .bmns_b, sh .rmns_b, sh .zmnc_b,
    sh .numnc_b, sh .gmns_b⟩

/-- The shared members of an object. `booz_xform.hpp:35-502`; shared by the loop `run.cpp:22-25`. -/
def St.shared (s : St α) : Shared α
  | .boozer_I => s.out.boozer_I.row
  | .boozer_G => s.out.boozer_G.row
  | .bmnc_b => s.out.spec.bmnc_b
  | .rmnc_b => s.out.spec.rmnc_b
  | .zmns_b => s.out.spec.zmns_b
  | .numns_b => s.out.spec.numns_b
  | .gmnc_b => s.out.spec.gmnc_b
  | .bmns_b => s.out.spec.bmns_b
  | .rmns_b => s.out.spec.rmns_b
  | .zmnc_b => s.out.spec.zmnc_b
  | .numnc_b => s.out.spec.numnc_b
  | .gmns_b => s.out.spec.gmns_b

/-- The object whose shared members are these. `booz_xform.hpp:35-502`; shared by the loop `run.cpp:22-25`. -/
def St.withShared (s : St α) (sh : Shared α) : St α :=
  { s with out := { s.out with
      boozer_I := (sh .boozer_I).data
      boozer_G := (sh .boozer_G).data
      spec := sh.spec } }

/-- What the threads print: the line of `surface_solve.cpp:20`, and the two lines of
`check_accuracy.cpp:128-137` and `138-146`.  Simplified: each of them is one piece of output; the number
of the thread is left out. -/
inductive Line (α : Type) where
  | solving (js_b : Nat) (js : Int)
  | first (r : Report α)
  | second (r : Report α)

/-- The iteration a line is about. The argument of `surface_solve`, `run.cpp:24`. -/
def Line.js_b : Line α → Nat
  | .solving b _ => b
  | .first r => r.js_b
  | .second r => r.js_b

/-- What one thread does: return a value, fault, or make one step and continue. One iteration of `run.cpp:22-25`. -/
inductive Act (α β : Type) where
  | ret (x : β)
  | fault (e : Fault)
  | load (c : Cell) (k : α → Act α β)
  | store (c : Cell) (x : α) (k : Act α β)
  | print (l : Line α) (k : Act α β)
  /-- Enter `#pragma omp critical`. -/
  | lock (k : Act α β)
  /-- Leave it. -/
  | unlock (k : Act α β)

namespace Act
variable {β γ : Type}

/-- Sequential composition. `;` in `surface_solve.cpp`. -/
def bind : Act α β → (β → Act α γ) → Act α γ
  | .ret x, f => f x
  | .fault e, _ => .fault e
  | .load c k, f => .load c fun x => (k x).bind f
  | .store c x k, f => .store c x (k.bind f)
  | .print l k, f => .print l (k.bind f)
  | .lock k, f => .lock (k.bind f)
  | .unlock k, f => .unlock (k.bind f)

instance : Monad (Act α) where
  pure := .ret
  bind := Act.bind

/-- Work that does not involve shared memory. The locals of `surface_solve.cpp:22-54`. -/
def lift : Res β → Act α β
  | .ok x => .ret x
  | .error e => .fault e

/-- `x = a(i,b)`. As in `surface_solve.cpp:201`. -/
def get (c : Cell) : Act α α := .load c .ret
/-- `a(i,b) = x`. As in `surface_solve.cpp:103-104`. -/
def put (c : Cell) (x : α) : Act α Unit := .store c x (.ret ())
/-- `a(i,b) += x`. As in `surface_solve.cpp:311-321`. -/
def add [Arith α] (c : Cell) (x : α) : Act α Unit := do
  let y ← get c
  put c (y + x)

/-- `for (k = 0; k < n; k++)`. As in `surface_solve.cpp:91,289,302`. -/
def loop : Nat → (Nat → β → Act α β) → β → Act α β
  | 0, _, x => .ret x
  | n + 1, body, x => loop n body x >>= body n

end Act

variable [Arith α]

/-- Body of the transpmn.f loop, `surface_solve.cpp:91-107`; `t` is `(wmns, wmnc)`. -/
def transpStepA (inp : Inputs α) (asym : Bool) (js : Int) (js_b : Nat) (jmn : Nat) (t : Vec α × Vec α) :
    Act α (Vec α × Vec α) := do
  let m ← Act.lift (inp.xm_nyq.rdN jmn)
  let n ← Act.lift (inp.xn_nyq.rdN jmn)
  if m ≠ 0 then Act.lift do
    let b ← inp.bsubumnc.rd jmn js
    let wmns ← t.1.wrN jmn (b / ofInt m)
    let wmnc ← if asym then do
        let b ← inp.bsubumns.rd jmn js
        t.2.wrN jmn ((-b) / ofInt m)
      else pure t.2
    pure (wmns, wmnc)
  else if n ≠ 0 then Act.lift do
    let b ← inp.bsubvmnc.rd jmn js
    let wmns ← t.1.wrN jmn ((-b) / ofInt n)
    let wmnc ← if asym then do
        let b ← inp.bsubvmns.rd jmn js
        t.2.wrN jmn (b / ofInt n)
      else pure t.2
    pure (wmns, wmnc)
  else do
    let b ← Act.lift (inp.bsubumnc.rd jmn js)
    Act.put ⟨.boozer_I, 0, js_b⟩ b                                          -- :103
    let b ← Act.lift (inp.bsubvmnc.rd jmn js)
    Act.put ⟨.boozer_G, 0, js_b⟩ b                                          -- :104
    pure t

/-- The transpmn.f part with its work arrays, `surface_solve.cpp:61-64, 91-107`. -/
def transpA (inp : Inputs α) (js : Int) (js_b : Nat) : Act α (Vec α × Vec α) := do
  let mnmax_nyq ← Act.lift (need inp.mnmax_nyq "mnmax_nyq")
  let asym ← Act.lift (need inp.asym "asym")
  let wmns ← Act.lift (Vec.setZero (ofInt 0 : α) mnmax_nyq)
  let wmnc ← Act.lift (if asym then Vec.setZero (ofInt 0 : α) mnmax_nyq else pure #[])
  Act.loop mnmax_nyq.toNat (transpStepA inp asym js js_b) (wmns, wmnc)

/-- The values of `Boozer_I[js_b]` and `Boozer_G[js_b]` loaded by the harfun.f part: in line 201, for
`nu`, `d_nu_d_zeta`, `d_nu_d_theta` and the Jacobian of line 262. `surface_solve.cpp:201-212,262`. -/
structure Loaded (α : Type) where
  i201 : α
  g201 : α
  i204 : α
  i211 : α
  i212 : α
  i262 : α
  g262 : α

/-- The harfun.f part and the Boozer Jacobian, `surface_solve.cpp:200-216, 262`: as `harfun`, with the
value of each load of `Boozer_I[js_b]` and `Boozer_G[js_b]` given separately. -/
def harfunA (inp : Inputs α) (g : Grid α) (js : Int) (v : Loaded α) (p : RZ α) (q : WB α) :
    Res (Har α) := do
  let npts ← need g.n_theta_zeta "n_theta_zeta"
  let n := npts.toNat
  let this_iota ← inp.iota.rd js                                           -- :200
  let one_over_GI := ofInt 1 / (v.g201 + this_iota * v.i201)               -- :201
  let nu ← Vec.build n fun j => do                                         -- :204
    let w ← q.w.rdN j
    let l ← p.lambda.rdN j
    pure (one_over_GI * (w - v.i204 * l))
  let tB ← Vec.build n fun j => do                                         -- :207
    let t ← g.theta_grid.rdN j
    let l ← p.lambda.rdN j
    let v ← nu.rdN j
    pure (t + l + this_iota * v)
  let zB ← Vec.build n fun j => do                                         -- :208
    let t ← g.zeta_grid.rdN j
    let v ← nu.rdN j
    pure (t + v)
  let d_nu_d_zeta ← Vec.build n fun j => do                                -- :211
    let w ← q.d_w_d_zeta.rdN j
    let l ← p.d_lambda_d_zeta.rdN j
    pure (one_over_GI * (w - v.i211 * l))
  let d_nu_d_theta ← Vec.build n fun j => do                               -- :212
    let w ← q.d_w_d_theta.rdN j
    let l ← p.d_lambda_d_theta.rdN j
    pure (one_over_GI * (w - v.i212 * l))
  let dBdv ← Vec.build n fun j => do                                       -- :215-216
    let lt ← p.d_lambda_d_theta.rdN j
    let nz ← d_nu_d_zeta.rdN j
    let lz ← p.d_lambda_d_zeta.rdN j
    let nt ← d_nu_d_theta.rdN j
    pure ((ofInt 1 + lt) * (ofInt 1 + nz) + (this_iota - lz) * nt)
  let jac ← Vec.build n fun j => do                                        -- :262
    let b ← q.bmod.rdN j
    pure ((v.g262 + this_iota * v.i262) / (b * b))
  pure ⟨nu, tB, zB, dBdv, jac⟩

/-- As `localWork`, `surface_solve.cpp:121-286`, with separate loads. -/
def localWorkA (inp : Inputs α) (g : Grid α) (js : Int) (v : Loaded α) (wmns wmnc : Vec α) :
    Res (Local α) := do
  let rz ← vcoordsRZ inp g js
  let wb ← vcoordsW inp g js wmns wmnc
  let har ← harfunA inp g js v rz wb
  let trig ← boozerTrig inp g har
  let fac ← fourierFactor0 inp g
  pure ⟨rz, wb, har, trig, fac⟩

/-- The loads of `surface_solve.cpp:201-262`.  (The order in which the operands of one expression are
loaded is unspecified in C++; the values cannot depend on it.) -/
def loadIG (js_b : Nat) : Act α (Loaded α) := do
  let i201 ← Act.get ⟨.boozer_I, 0, js_b⟩
  let g201 ← Act.get ⟨.boozer_G, 0, js_b⟩
  let i204 ← Act.get ⟨.boozer_I, 0, js_b⟩
  let i211 ← Act.get ⟨.boozer_I, 0, js_b⟩
  let i212 ← Act.get ⟨.boozer_I, 0, js_b⟩
  let i262 ← Act.get ⟨.boozer_I, 0, js_b⟩
  let g262 ← Act.get ⟨.boozer_G, 0, js_b⟩
  pure ⟨i201, g201, i204, i211, i212, i262, g262⟩

/-- Body of the innermost accumulation loop, `surface_solve.cpp:303-321`. -/
def accumStepA (asym : Bool) (L : Local α) (js_b jmn : Nat) (m absn sign : Int) (ff : α) (j : Nat)
    (_ : Unit) : Act α Unit := do
  let tc ← Act.lift (trigCos L.trig j m absn sign)
  let jac ← Act.lift (L.har.d_Boozer_d_vmec.rdN j)
  let tcos := tc * jac * ff
  let ts ← Act.lift (trigSin L.trig j m absn sign)
  let tsin := ts * jac * ff
  let b ← Act.lift (L.wb.bmod.rdN j)
  let r ← Act.lift (L.rz.r.rdN j)
  let z ← Act.lift (L.rz.z.rdN j)
  let v ← Act.lift (L.har.nu.rdN j)
  let gj ← Act.lift (L.har.jacobian.rdN j)
  Act.add ⟨.bmnc_b, jmn, js_b⟩ (tcos * b)
  Act.add ⟨.rmnc_b, jmn, js_b⟩ (tcos * r)
  Act.add ⟨.zmns_b, jmn, js_b⟩ (tsin * z)
  Act.add ⟨.numns_b, jmn, js_b⟩ (tsin * v)
  Act.add ⟨.gmnc_b, jmn, js_b⟩ (tcos * gj)
  if !asym then pure () else do
    Act.add ⟨.bmns_b, jmn, js_b⟩ (tsin * b)
    Act.add ⟨.rmns_b, jmn, js_b⟩ (tsin * r)
    Act.add ⟨.zmnc_b, jmn, js_b⟩ (tcos * z)
    Act.add ⟨.numnc_b, jmn, js_b⟩ (tcos * v)
    Act.add ⟨.gmns_b, jmn, js_b⟩ (tsin * gj)

/-- The accumulation loops, `surface_solve.cpp:289-323`. -/
def accumA (inp : Inputs α) (g : Grid α) (L : Local α) (mnboz : Option Int) (xm_b xn_b : Vec Int)
    (js_b : Nat) : Act α Unit := do
  let npts ← Act.lift (need g.n_theta_zeta "n_theta_zeta")
  let asym ← Act.lift (need inp.asym "asym")
  let mnboz ← Act.lift (need mnboz "mnboz")
  Act.loop mnboz.toNat (fun jmn o => do
    let m ← Act.lift (xm_b.rdN jmn)
    let n ← Act.lift (xn_b.rdN jmn)
    let absn ← Act.lift (absNOf n inp.nfp)
    let ff := if jmn = 0 then L.fac * Arith.half else L.fac                 -- :299-300
    Act.loop npts.toNat (accumStepA asym L js_b jmn m absn (signOf n) ff) o) ()

/-- What `check_accuracy` prepares before it sums the series, `check_accuracy.cpp:33-90`: the four input
field strengths and the tables. -/
def checkPrep (dbg : Bool) (s : St α) (bmod tB zB : Vec α) (trig : Trig α) : Res (Vec α × Trig α) := do
  let ntheta ← need s.grid.ntheta "ntheta"
  let nzeta ← need s.grid.nzeta "nzeta"
  let nfp ← need s.inp.nfp "nfp"
  let i0 : Int := 0                                                         -- :35
  let b0 ← bmod.rd i0; let t0 ← tB.rd i0; let z0 ← zB.rd i0
  assertNear dbg s.grid.theta_grid i0 (ofInt 0) "theta_grid[index] ~ 0"
  assertNear dbg s.grid.zeta_grid i0 (ofInt 0) "zeta_grid[index] ~ 0"
  let i1 ← i32 (ntheta.tdiv 2 * nzeta)                                      -- :43
  let b1 ← bmod.rd i1; let t1 ← tB.rd i1; let z1 ← zB.rd i1
  assertNear dbg s.grid.theta_grid i1 Arith.pi "theta_grid[index] ~ pi"
  assertNear dbg s.grid.zeta_grid i1 (ofInt 0) "zeta_grid[index] ~ 0"
  let i2 := nzeta.tdiv 2                                                    -- :51
  let b2 ← bmod.rd i2; let t2 ← tB.rd i2; let z2 ← zB.rd i2
  assertNear dbg s.grid.theta_grid i2 (ofInt 0) "theta_grid[index] ~ 0"
  assertNear dbg s.grid.zeta_grid i2 (if nzeta > 1 then Arith.pi / ofInt nfp else ofInt 0)
    "zeta_grid[index] ~ pi / nfp"
  let i3 ← i32 (i1 + i2)                                                    -- :65
  let b3 ← bmod.rd i3; let t3 ← tB.rd i3; let z3 ← zB.rd i3
  assertNear dbg s.grid.theta_grid i3 Arith.pi "theta_grid[index] ~ pi"
  assertNear dbg s.grid.zeta_grid i3 (if nzeta > 1 then Arith.pi / ofInt nfp else ofInt 0)
    "zeta_grid[index] ~ pi / nfp"
  let vmec : Vec α := #[some b0, some b1, some b2, some b3]
  let tt : Vec α := #[some t0, some t1, some t2, some t3]
  let zt : Vec α := #[some z0, some z1, some z2, some z3]
  let trig ← initTrig tt zt trig s.inp.mboz s.inp.nboz nfp                  -- :88-90
  pure (vmec, trig)

/-- Body of the reconstruction loop, `check_accuracy.cpp:105-111`. -/
def checkStepA (asym : Bool) (t : Trig α) (js_b jmn : Nat) (m absn sign : Int) (j : Nat) (v : Vec α) :
    Act α (Vec α) := do
  let tcos ← Act.lift (trigCos t j m absn sign)
  let b ← Act.get ⟨.bmnc_b, jmn, js_b⟩
  let v ← Act.lift (v.addN j (tcos * b))
  if !asym then pure v else do
    let tsin ← Act.lift (trigSin t j m absn sign)
    let b ← Act.get ⟨.bmns_b, jmn, js_b⟩
    Act.lift (v.addN j (tsin * b))

/-- `check_accuracy` up to the critical section, `check_accuracy.cpp:17-124`. -/
def checkA (dbg : Bool) (s : St α) (js : Int) (js_b : Nat) (bmod tB zB : Vec α) (trig : Trig α) :
    Act α (Report α) := do
  let p ← Act.lift (checkPrep dbg s bmod tB zB trig)
  let asym ← Act.lift (need s.inp.asym "asym")
  let mnboz ← Act.lift (need s.out.mnboz "mnboz")
  let zero : α := ofInt 0
  let booz ← Act.loop mnboz.toNat (fun jmn v => do                          -- :94-112
    let m ← Act.lift (s.out.xm_b.rdN jmn)
    let n ← Act.lift (s.out.xn_b.rdN jmn)
    let absn ← Act.lift (absNOf n s.inp.nfp)
    Act.loop 4 (checkStepA asym p.2 js_b jmn m absn (signOf n)) v)
    (#[some zero, some zero, some zero, some zero] : Vec α)
  let err ← Act.lift (Vec.build 4 fun j => do                               -- :121-124
    let b ← booz.rdN j
    let v ← p.1.rdN j
    pure (Arith.abs (b - v) / Arith.max b v))
  pure ⟨js_b, js, p.1, booz, err⟩

omit [Arith α] in
/-- The critical section, `check_accuracy.cpp:126-147`. -/
def critical (r : Report α) : Act α Unit :=
  .lock (.print (.first r) (.print (.second r) (.unlock (.ret ()))))

omit [Arith α] in
/-- `if (verbose > 1) std::cout << "Solving for js_b=" ...`, `surface_solve.cpp:20`. -/
def announceSurface (inp : Inputs α) (js_b : Nat) (js : Int) : Act α Unit :=
  if inp.verbose > 1 then .print (.solving js_b js) (.ret ()) else .ret ()

/-- One iteration: `surface_solve(js_b)`, `surface_solve.cpp:16-329`.  `s` provides the members that are
not written by the loop. -/
def surfaceAct (dbg : Bool) (s : St α) (js_b : Nat) : Act α Unit := do
  let js ← Act.lift (s.inp.compute_surfs.rdN js_b)                          -- :17
  announceSurface s.inp js_b js                                                    -- :20
  let t ← transpA s.inp js js_b                                             -- :91-107
  let v ← loadIG js_b
  let L ← Act.lift (localWorkA s.inp s.grid js v t.1 t.2)                   -- :121-286
  accumA s.inp s.grid L s.out.mnboz s.out.xm_b s.out.xn_b js_b              -- :289-323
  if s.inp.verbose > 0 then do                                              -- :327-329
    let rep ← checkA dbg s js js_b L.wb.bmod L.har.theta_Boozer L.har.zeta_Boozer L.trig
    critical rep
  else pure ()

omit [Arith α]

/-! ### Threads -/

/-- Shared memory and the console. `run.cpp:22-25`. -/
structure Common (α : Type) where
  sh : Shared α
  out : List (Line α)

/-- A moment of the parallel loop: the shared memory, the iterations not yet begun, for each thread the
iteration it is executing with what remains of it, and the thread in the critical section. `run.cpp:22-25`. -/
structure Conf (α : Type) where
  mem : Common α
  todo : List Nat
  thr : List (Option (Nat × Act α Unit))
  holder : Option Nat

/-- One step of one thread.  An idle thread may begin any iteration that has not been begun (so every
OpenMP schedule is covered). `run.cpp:22-25`, with the semantics of `omp parallel for` without a schedule clause. -/
inductive Step (prog : Nat → Act α Unit) : Conf α → Conf α → Prop
  | start {c : Conf α} {t b : Nat} (h : c.thr[t]? = some none) (hb : b ∈ c.todo) :
      Step prog c { c with todo := c.todo.erase b, thr := c.thr.set t (some (b, prog b)) }
  | load {c : Conf α} {t b : Nat} {x : Cell} {k : α → Act α Unit} {v : α}
      (h : c.thr[t]? = some (some (b, .load x k))) (hv : c.mem.sh.load x = .ok v) :
      Step prog c { c with thr := c.thr.set t (some (b, k v)) }
  | store {c : Conf α} {t b : Nat} {x : Cell} {v : α} {k : Act α Unit} {sh : Shared α}
      (h : c.thr[t]? = some (some (b, .store x v k))) (hv : c.mem.sh.store x v = .ok sh) :
      Step prog c { c with mem := ⟨sh, c.mem.out⟩, thr := c.thr.set t (some (b, k)) }
  | print {c : Conf α} {t b : Nat} {l : Line α} {k : Act α Unit}
      (h : c.thr[t]? = some (some (b, .print l k))) :
      Step prog c { c with mem := ⟨c.mem.sh, c.mem.out ++ [l]⟩, thr := c.thr.set t (some (b, k)) }
  | lock {c : Conf α} {t b : Nat} {k : Act α Unit} (h : c.thr[t]? = some (some (b, .lock k)))
      (hf : c.holder = none) :
      Step prog c { c with thr := c.thr.set t (some (b, k)), holder := some t }
  | unlock {c : Conf α} {t b : Nat} {k : Act α Unit} (h : c.thr[t]? = some (some (b, .unlock k)))
      (hf : c.holder = some t) :
      Step prog c { c with thr := c.thr.set t (some (b, k)), holder := none }
  | finish {c : Conf α} {t b : Nat} (h : c.thr[t]? = some (some (b, .ret ()))) :
      Step prog c { c with thr := c.thr.set t none }

/-- `n` steps. `run.cpp:22-25`. -/
inductive Steps (prog : Nat → Act α Unit) : Nat → Conf α → Conf α → Prop
  | refl (c : Conf α) : Steps prog 0 c c
  | tail {n : Nat} {c c' c'' : Conf α} (h : Steps prog n c c') (h' : Step prog c' c'') :
      Steps prog (n + 1) c c''

/-- The loop is over. The end of `run.cpp:25`. -/
def Conf.Done (c : Conf α) : Prop := c.todo = [] ∧ ∀ x ∈ c.thr, x = none

/-- Some thread is about to do something undefined: a fault, a load or store outside an array or of an
indeterminate value, or leaving a critical section it is not in. During `run.cpp:22-25`. -/
def Conf.Faulty (c : Conf α) : Prop :=
  ∃ (t b : Nat) (a : Act α Unit), c.thr[t]? = some (some (b, a)) ∧
    ((∃ e, a = .fault e) ∨
     (∃ x k e, a = .load x k ∧ c.mem.sh.load x = .error e) ∨
     (∃ x v k e, a = .store x v k ∧ c.mem.sh.store x v = .error e) ∨
     (∃ k, a = .unlock k ∧ c.holder ≠ some t))

/-- The cell a program is about to access, and whether it is going to write to it. During `run.cpp:22-25`. -/
def Act.access {β : Type} : Act α β → Option (Cell × Bool)
  | .load x _ => some (x, false)
  | .store x _ _ => some (x, true)
  | _ => none

/-- Two threads are about to access the same cell, and one of them is going to write to it. During `run.cpp:22-25`. -/
def Conf.Racy (c : Conf α) : Prop :=
  ∃ (t u b b' : Nat) (a a' : Act α Unit) (x : Cell) (w w' : Bool), t ≠ u ∧ c.thr[t]? = some (some (b, a)) ∧ c.thr[u]? = some (some (b', a')) ∧
    a.access = some (x, w) ∧ a'.access = some (x, w') ∧ (w = true ∨ w' = true)

/-- The beginning of the parallel loop with `T` threads, `run.cpp:22-25`, after `init`. -/
def Conf.begin (s : St α) (T : Nat) : Conf α where
  mem := ⟨s.shared, []⟩
  todo := List.range s.inp.compute_surfs.size
  thr := List.replicate T none
  holder := none

end Booz
