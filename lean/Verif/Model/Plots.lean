import Verif.Model.ReadBoozmn

/-!
# Model of `/repo/src/booz_xform/plots.py`

What is modelled: which data the four plotting functions hand to matplotlib / plotly, in which order,
with which colour and legend label, the lower end of logarithmic axes, and which exceptions are raised
before.  Not modelled: rendering, the other axis limits (always 0 and 1) and titles, extra keyword arguments (`kwargs`, `legend_args`), the number of contour lines
being acceptable to matplotlib.  NumPy `int32` products (`m * nfp`, `h_n * xm_b`) are taken in the
integers.  NumPy works on whole arrays; its elementwise operations are written entry by entry.

Members of the object reach Python through pybind11 as NumPy arrays of the same shape
(`/repo/src/_booz_xform/bindings.cpp:110-360`).  Python exceptions are `Fault.throw` with the exception
type as message.  Using an indeterminate member (never assigned) is `Fault.ub`.
-/

namespace Booz.Plots

/-- Line colours, `plots.py:134-139`, `:173` (`':k'`), `:351` (no colour given: matplotlib's cycle). -/
inductive Color where
  | background | qa | mirror | helical | plus | minus | reference | cycle
  deriving DecidableEq

/-- Legend labels, `plots.py:180, 185, 190, 197, 202, 207, 214` and `:352` (`m`, `n` of a mode). -/
inductive Label where
  | background | qa | mirror | plus | minus | otherHelical | helical | mode (m n : Int)
  deriving DecidableEq

/-- A two-dimensional NumPy array: entries outside `rows x cols` are meaningless.
As made by `np.meshgrid`, `plots.py:67,397`. -/
structure Plane (α : Type) where
  rows : Nat
  cols : Nat
  get : Nat → Nat → α

/-- One object added to a figure: `plt.plot` (`plots.py:173-247, 347-353`), `plt.contour(f)`
(`:80, 82`), `go.Surface` (`:446`), `go.Scatter3d` (`:466-516`; `boozer` distinguishes the two
line colours red `:458` and black `:497`), and the call that makes the vertical axis logarithmic and
sets its lower end (`:254-256`, `:363-365`). -/
inductive Drawn (α : Type) where
  | curve (color : Color) (label : Option Label) (x y : List α)
  | contours (fill : Bool) (ncontours : Int) (x y z : Plane α)
  | surface (x y z : Plane α)
  | line (boozer showlegend : Bool) (x y z : List α)
  | logAxis (bottom : α)

/-- A plotting function: the state is the list of things drawn so far on the current matplotlib
figure (they remain when an exception is raised). `plots.py:32-538`. -/
abbrev Fig (α β : Type) := Prog (List (Drawn α)) β

/-- Add one object to the figure. The `plt.` and `go.` calls of `plots.py`. -/
def emit {α : Type} (d : Drawn α) : Fig α Unit := fun f => .ok () (f ++ [d])

/-- `for i in range(n): body(i)` of a plotting loop. `plots.py:70,220,349,409`. -/
def forRange {α : Type} : Nat → (Nat → Fig α Unit) → Fig α Unit
  | 0, _ => pure ()
  | n + 1, body => do
    forRange n body
    body n

/-- NumPy's treatment of an integer index into an axis of length `n`: negative indices count from the
end, others outside the range raise `IndexError`. For `plots.py:71-76,415-425`. -/
def pyIndex (n : Nat) (i : Int) : Res Nat :=
  if 0 ≤ i ∧ i < n then .ok i.toNat
  else if -(n : Int) ≤ i ∧ i < 0 then .ok (i + n).toNat
  else thrown "IndexError"

/-- `v[i]` for a one-dimensional NumPy array. As in `plots.py:71-72`. -/
def at1 {β : Type} (v : Vec β) (i : Int) : Res β := do
  let k ← pyIndex v.size i
  v.rdN k

/-- `a[i, j]` for a two-dimensional NumPy array. As in `plots.py:74`. -/
def at2 {β : Type} (a : Mat β) (i j : Int) : Res β := do
  let k ← pyIndex a.rows i
  let l ← pyIndex a.cols j
  a.rdN k l

/-- All entries of a one-dimensional array, in order. For `plots.py:148,161,331`. -/
def entries {β : Type} (v : Vec β) : Res (List β) :=
  loop v.size (fun i l => do let x ← v.rdN i; pure (l ++ [x])) []

/-- `a[i, :]` for `0 ≤ i`. As in `plots.py:179`. -/
def rowOf {β : Type} (a : Mat β) (i : Nat) : Res (List β) :=
  if i < a.rows then loop a.cols (fun j l => do let x ← a.rdN i j; pure (l ++ [x])) []
  else thrown "IndexError"

/-- `plt.plot(x, y, color=c, label=l)`: matplotlib refuses arrays of different lengths. `plots.py:179,247,351`. -/
def plot {α : Type} (c : Color) (l : Option Label) (x y : List α) : Fig α Unit :=
  if x.length = y.length then emit (.curve c l x y) else Prog.lift (thrown "ValueError")

variable {α : Type} [Arith α]

/-- `np.linspace(0, stop, num)`: entry `i` of the result, for `i < num`.  As in NumPy
(`numpy/_core/function_base.py`): `arange(num) * step + start`, last entry replaced by `stop`.
Simplified: NumPy's special case for a step that underflows to 0 is left out. -/
def linspaceAt (stop : α) (num : Int) (i : Nat) : α :=
  if 1 < num then
    if (i : Int) + 1 = num then stop
    else ofInt i * ((stop - ofInt 0) / ofInt (num - 1)) + ofInt 0
  else ofInt i * (stop - ofInt 0) + ofInt 0

/-- `np.linspace(0, stop, num)` raises `ValueError` for negative `num`. `plots.py:65-66,395-396`. -/
def linspace (stop : α) (num : Int) : Res (Nat → α) :=
  if num < 0 then thrown "ValueError" else .ok (linspaceAt stop num)

/-- `2 * np.pi / b.nfp`, `plots.py:66` (Python numbers: division by zero raises). -/
def period (b : St α) : Res α := do
  let nfp ← need b.inp.nfp "nfp"
  if nfp = 0 then thrown "ZeroDivisionError" else pure (twopi / ofInt nfp)

/-! ## `handle_b_input`, `plots.py:19-30` -/

/-- What the user may pass as `b`. `plots.py:19-30`. -/
inductive Arg (α : Type) where
  | object (b : St α)
  | file (name : String)
  | other

/-- `handle_b_input`, `plots.py:19-30`: a file name is read into a new object. -/
def handleB (disk : Disk α) : Arg α → Fig α (St α)
  | .file name => fun f =>
    match readBoozmn disk name construct with
    | .ok _ b => .ok b f
    | .exc m _ => .exc m f
    | .abort w => .abort w
    | .ub w => .ub w
  | .object b => pure b
  | .other => Prog.lift (thrown "ValueError")

/-! ## `surfplot`, `plots.py:32-87` -/

/-- One pass of the loop `plots.py:70-76`: the contribution of mode `jmn`. -/
def modBStep (b : St α) (js : Int) (theta phi : Nat → α) (jmn : Nat) (modB : Nat → Nat → α) :
    Res (Nat → Nat → α) := do
  let m ← at1 b.out.xm_b jmn                                             -- :71
  let n ← at1 b.out.xn_b jmn                                             -- :72
  let angle := fun i j => ofInt m * theta i - ofInt n * phi j            -- :73
  let c ← at2 b.out.spec.bmnc_b jmn js                                   -- :74
  let modB := fun i j => modB i j + c * Arith.cos (angle i j)
  let asym ← need b.inp.asym "asym"                                      -- :75
  if asym then do
    let s ← at2 b.out.spec.bmns_b jmn js                                 -- :76
    pure fun i j => modB i j + s * Arith.sin (angle i j)
  else pure modB

/-- `surfplot` after `handle_b_input`, `plots.py:65-87`.  matplotlib refuses to draw contours of an array
with fewer than two rows or columns. -/
def surfplotObj (b : St α) (js : Int) (fill : Bool) (ntheta nphi ncontours : Int) : Fig α Unit := do
  let theta1d ← Prog.lift (linspace twopi ntheta)                        -- :65
  let p ← Prog.lift (period b)
  let phi1d ← Prog.lift (linspace p nphi)                                -- :66
  let modB ← Prog.lift (loop b.out.xm_b.size (modBStep b js theta1d phi1d) fun _ _ => ofInt 0) -- :69-76
  let _ ← (if ntheta < 2 ∨ nphi < 2 then Prog.lift (thrown "TypeError") else pure ())  -- :80, :82
  emit (.contours fill ncontours ⟨ntheta.toNat, nphi.toNat, fun _ j => phi1d j⟩
    ⟨ntheta.toNat, nphi.toNat, fun i _ => theta1d i⟩ ⟨ntheta.toNat, nphi.toNat, modB⟩) -- :67, :79-82
  let _ ← Prog.lift (at1 b.out.s_b js)                                   -- :87
  pure ()

/-- `surfplot`, `plots.py:32-87`. -/
def surfplot (disk : Disk α) (b : Arg α) (js : Int) (fill : Bool) (ntheta nphi ncontours : Int) :
    Fig α Unit := do
  let b ← handleB disk b                                                 -- :63
  surfplotObj b js fill ntheta nphi ncontours

/-! ## Common parts of `symplot` and `modeplot` -/

/-- `data[i, :] = 0.0` for one row. `plots.py:148,312`. -/
def zeroRow (a : Mat α) (i : Nat) : Res (Mat α) := loop a.cols (fun j d => d.wrN i j (ofInt 0)) a

/-- `data`: the array itself or a copy with the modes of one helicity set to zero, `plots.py:141-150`
(`:305-314` in `modeplot`).  The boolean mask must have one entry per row; `xm_b`, `xn_b` of
different lengths cannot be compared (broadcasting of length-1 arrays is not modelled). -/
def filtered (b : St α) (remove : Option (Int × Int)) : Res (Mat α) :=
  match remove with
  | none => .ok b.out.spec.bmnc_b
  | some (hm, hn) =>
    if b.out.xm_b.size ≠ b.out.xn_b.size then thrown "ValueError"
    else if b.out.xm_b.size ≠ b.out.spec.bmnc_b.rows then thrown "IndexError"
    else loop b.out.xm_b.size (fun i d => do
      let m ← b.out.xm_b.rdN i
      let n ← b.out.xn_b.rdN i
      if hn * m = hm * n then zeroRow d i else pure d) b.out.spec.bmnc_b

/-- `np.max` of a two-dimensional array; of an empty array it raises. `plots.py:156,303`.  Simplified:
the order in which the entries are compared is ours, and `Arith.max` stands for NumPy's comparison (which
differs from `std::max` for NaN). -/
def npMax (a : Mat α) : Res α :=
  if a.rows = 0 ∨ a.cols = 0 then thrown "ValueError"
  else do
    let x ← a.rdN 0 0
    loop a.cols (fun j y => loop a.rows (fun i y => do let z ← a.rdN i j; pure (Arith.max y z)) y) x

/-- `ymin`, by default `np.max(data) * 1e-4`, `plots.py:155-156` (`:302-303`).  The literal `1e-4` is the
correctly rounded quotient of 1 and 10000. -/
def axisBottom (a : Mat α) (ymin : Option α) : Res α :=
  match ymin with
  | some y => .ok y
  | none => do
    let x ← npMax a
    pure (x * (ofInt 1 / ofInt 10000))

/-- `plt.yscale("log")`, `set_ylim(bottom=ymin)`, `plots.py:254-256` (`:363-365`). -/
def logScale (log : Bool) (bottom : α) : Fig α Unit := if log then emit (.logAxis bottom) else pure ()

/-- `rad`, `plots.py:160-163` (`:334-337`). -/
def radial (b : St α) (sqrts : Bool) : Res (List α) := do
  let s ← entries b.out.s_b
  pure (if sqrts then s.map Arith.sqrt else s)

/-- `my_abs`, `plots.py:165-169` (`:339-343`). -/
def myAbs (log : Bool) (y : List α) : List α := if log then y.map Arith.abs else y

/-- The reference line at 0, `plots.py:172-173` (`:346-347`). -/
def reference (log : Bool) : Fig α Unit :=
  if log then pure ()
  else plot .reference none [ofInt 0, ofInt 1] [ofInt 0, ofInt 0]

/-! ## `symplot`, `plots.py:90-257` -/

/-- Parameters of `symplot`, `plots.py:91-98`. -/
structure SymArgs (α : Type) where
  max_m : Int
  max_n : Int
  ymin : Option α
  sqrts : Bool
  log : Bool
  B0 : Bool
  remove : Option (Int × Int)
  detail : Bool

/-- `b.xm_b[imode]`, `b.xn_b[imode]` for a mode in the list. `plots.py:178-247`. -/
def modeAt (b : St α) (i : Nat) : Res (Int × Int) := do
  let n ← at1 b.out.xn_b i
  let m ← at1 b.out.xm_b i
  pure (m, n)

/-- `for imode in range(mnmax): if test: …; break`: the first mode that passes the test,
`plots.py:177-215`. -/
def firstMode (b : St α) (test : Int → Int → Res Bool) : Res (Option Nat) :=
  loop b.out.xm_b.size (fun i r =>
    match r with
    | some k => .ok (some k)
    | none => do
      let (m, n) ← modeAt b i
      let t ← test m n
      pure (if t then some i else none)) none

/-- Plot one row of `data`, e.g. `plots.py:179-180`. -/
def plotMode (data : Mat α) (rad : List α) (log : Bool) (c : Color) (l : Option Label) (i : Nat) :
    Fig α Unit := do
  let y ← Prog.lift (rowOf data i)
  plot c l rad (myAbs log y)

/-- One legend line: the first mode that passes the test, if any. `plots.py:177-215`. -/
def legendLine (b : St α) (data : Mat α) (rad : List α) (log : Bool) (c : Color) (l : Label)
    (test : Int → Int → Res Bool) : Fig α Unit := do
  match ← Prog.lift (firstMode b test) with
  | none => pure ()
  | some i => plotMode data rad log c (some l) i

/-- The legend, `plots.py:176-215`.  Simplified: `nfp` is read even where Python's `and` would stop
before (this only matters for objects whose `nfp` was never set). -/
def symLegend (b : St α) (a : SymArgs α) (data : Mat α) (rad : List α) : Fig α Unit := do
  let _ ← (if a.B0 then
    legendLine b data rad a.log .background .background fun m n => .ok (n = 0 ∧ m = 0)   -- :178
    else pure ())
  legendLine b data rad a.log .qa .qa fun m n => .ok (n = 0 ∧ m ≠ 0)                     -- :183
  legendLine b data rad a.log .mirror .mirror fun m n => .ok (n ≠ 0 ∧ m = 0)             -- :188
  if a.detail then do
    legendLine b data rad a.log .plus .plus fun m n => do                                -- :195
      let p ← need b.inp.nfp "nfp"
      pure (n = m * p ∧ m ≠ 0)
    legendLine b data rad a.log .minus .minus fun m n => do                              -- :200
      let p ← need b.inp.nfp "nfp"
      pure (n = -m * p ∧ m ≠ 0)
    legendLine b data rad a.log .helical .otherHelical fun m n => .ok (n ≠ 0 ∧ m ≠ 0)    -- :205
  else
    legendLine b data rad a.log .helical .helical fun m n => do                          -- :211-212
      let p ← need b.inp.nfp "nfp"
      pure (n ≠ 0 ∧ m ≠ 0 ∧ n ≠ m * p ∧ n ≠ -m * p)

/-- Colour of a mode, `plots.py:225-245`; `none` when the mode is skipped (`:228-229`). -/
def modeColor (a : SymArgs α) (nfp m n : Int) : Option Color :=
  if n = 0 then
    if m = 0 then (if a.B0 then some .background else none)
    else some .qa
  else if m = 0 then some .mirror
  else if a.detail then
    if n = m * nfp then some .plus
    else if n = -m * nfp then some .minus
    else some .helical
  else some .helical

/-- One pass of the loop over all modes, `plots.py:220-247`. -/
def symStep (b : St α) (a : SymArgs α) (data : Mat α) (rad : List α) (i : Nat) : Fig α Unit := do
  let m ← Prog.lift (at1 b.out.xm_b i)
  if (m.natAbs : Int) > a.max_m then pure ()                              -- :221
  else do
    let n ← Prog.lift (at1 b.out.xn_b i)
    let nfp ← Prog.lift (need b.inp.nfp "nfp")
    if (n.natAbs : Int) > a.max_n * nfp then pure ()                      -- :223
    else
      match modeColor a nfp m n with
      | none => pure ()
      | some c => plotMode data rad a.log c none i                        -- :247

/-- `symplot` after `handle_b_input`, `plots.py:141-257`. -/
def symplotObj (b : St α) (a : SymArgs α) : Fig α Unit := do
  let data ← Prog.lift (filtered b a.remove)                              -- :141-150
  let bottom ← Prog.lift (axisBottom data a.ymin)                         -- :155-156
  let rad ← Prog.lift (radial b a.sqrts)                                  -- :160-163
  reference a.log                                                         -- :172-173
  symLegend b a data rad                                                  -- :176-217
  forRange b.out.xm_b.size (symStep b a data rad)                         -- :220-247
  logScale a.log bottom                                                   -- :254-256

/-- `symplot`, `plots.py:90-257`. -/
def symplot (disk : Disk α) (b : Arg α) (a : SymArgs α) : Fig α Unit := do
  let b ← handleB disk b                                                  -- :132
  symplotObj b a

/-! ## `modeplot`, `plots.py:260-365` -/

/-- Parameters of `modeplot`, `plots.py:261-266`. -/
structure ModeArgs (α : Type) where
  nmodes : Int
  ymin : Option α
  sqrts : Bool
  log : Bool
  B0 : Bool
  remove : Option (Int × Int)

/-- `-np.abs(data[:, -1])` for `data` without its first `off` rows, `plots.py:324, 331`. -/
def sortKeys (data : Mat α) (off : Nat) : Res (List α) :=
  if data.cols = 0 then thrown "IndexError"
  else loop (data.rows - off) (fun i l => do
    let x ← data.rdN (i + off) (data.cols - 1)
    pure (l ++ [-(Arith.abs x)])) []

/-- Python's `l[:n]`. `plots.py:332`. -/
def pyTake {β : Type} (l : List β) (n : Int) : List β :=
  if 0 ≤ n then l.take n.toNat else l.take (l.length + n).toNat

/-- One pass of the loop `plots.py:349-353`; rows are counted from row `off` of `data`. -/
def modeplotStep (b : St α) (a : ModeArgs α) (data : Mat α) (rad : List α) (off : Nat)
    (indices : List Nat) (j : Nat) : Fig α Unit := do
  match indices[j]? with
  | none => Prog.lift (thrown "IndexError")                               -- :350
  | some index => do
    let y ← Prog.lift (rowOf data (index + off))
    let m ← Prog.lift (at1 b.out.xm_b (index + off : Nat))
    let n ← Prog.lift (at1 b.out.xn_b (index + off : Nat))
    plot .cycle (some (.mode m n)) rad (myAbs a.log y)                    -- :351-353

/-- `modeplot` after `handle_b_input`, `plots.py:302-365`.  `argsort` is NumPy's `argsort` with its
default algorithm, which is not stable: the theorems only assume that it returns the indices in an
order that sorts the keys. -/
def modeplotObj (argsort : List α → List Nat) (b : St α) (a : ModeArgs α) : Fig α Unit := do
  let bottom ← Prog.lift (axisBottom b.out.spec.bmnc_b a.ymin)            -- :302-303
  let data ← Prog.lift (filtered b a.remove)                              -- :305-314
  let m0 ← Prog.lift (at1 b.out.xm_b 0)
  if m0 ≠ 0 then Prog.lift (thrown "AssertionError")                      -- :317
  let n0 ← Prog.lift (at1 b.out.xn_b 0)
  if n0 ≠ 0 then Prog.lift (thrown "AssertionError")                      -- :318
  let off := if a.B0 then 0 else 1                                        -- :319-326
  let keys ← Prog.lift (sortKeys data off)
  let indices := pyTake (argsort keys) a.nmodes                           -- :331-332
  let rad ← Prog.lift (radial b a.sqrts)                                  -- :334-337
  reference a.log                                                         -- :346-347
  forRange a.nmodes.toNat (modeplotStep b a data rad off indices)         -- :349-353
  logScale a.log bottom                                                   -- :363-365

/-- `modeplot`, `plots.py:260-365`. -/
def modeplot (argsort : List α → List Nat) (disk : Disk α) (b : Arg α) (a : ModeArgs α) :
    Fig α Unit := do
  let b ← handleB disk b                                                  -- :297
  modeplotObj argsort b a

/-! ## `wireplot`, `plots.py:368-538` -/

/-- Parameters of `wireplot`, `plots.py:369-374`. -/
structure WireArgs where
  js : Option Int
  ntheta : Int
  nphi : Int
  refine : Int
  surf : Bool
  orig : Bool

/-- The five sums of the first loop, `plots.py:399-403`. -/
structure WireSums (α : Type) where
  R : Nat → Nat → α
  Z : Nat → Nat → α
  dR : Nat → Nat → α
  dZ : Nat → Nat → α
  nu : Nat → Nat → α

/-- `np.mod` of integers (sign of the divisor; 0, with a warning, for divisor 0). `plots.py:465,473,505,513`. -/
def npMod (a b : Int) : Int := if b = 0 then 0 else a.fmod b

/-- One pass of the loop `plots.py:409-423`. -/
def wireStep (b : St α) (js : Int) (theta varphi : Nat → α) (jmn : Nat) (w : WireSums α) :
    Res (WireSums α) := do
  let m ← at1 b.out.xm_b jmn                                              -- :410
  let n ← at1 b.out.xn_b jmn                                              -- :411
  let angle := fun i j => ofInt m * theta i - ofInt n * varphi j          -- :412
  let sn := fun i j => Arith.sin (angle i j)
  let cs := fun i j => Arith.cos (angle i j)
  let rc ← at2 b.out.spec.rmnc_b jmn js                                   -- :415
  let zs ← at2 b.out.spec.zmns_b jmn js                                   -- :416
  let ns ← at2 b.out.spec.numns_b jmn js                                  -- :419
  let w : WireSums α :=
    { R := fun i j => w.R i j + rc * cs i j
      Z := fun i j => w.Z i j + zs * sn i j
      dR := fun i j => w.dR i j + ofInt (-m) * rc * sn i j                -- :417
      dZ := fun i j => w.dZ i j + ofInt m * zs * cs i j                   -- :418
      nu := fun i j => w.nu i j + ns * sn i j }
  let asym ← need b.inp.asym "asym"                                       -- :420
  if asym then do
    let rs ← at2 b.out.spec.rmns_b jmn js
    let zc ← at2 b.out.spec.zmnc_b jmn js
    let nc ← at2 b.out.spec.numnc_b jmn js
    pure { w with                                                         -- :421-423
      R := fun i j => w.R i j + rs * sn i j
      Z := fun i j => w.Z i j + zc * cs i j
      nu := fun i j => w.nu i j + nc * cs i j }
  else pure w

/-- One pass of the loop over the original modes, `plots.py:485-493`. -/
def origStep (b : St α) (js : Int) (theta varphi : Nat → α) (jmn : Nat)
    (w : (Nat → Nat → α) × (Nat → Nat → α)) : Res ((Nat → Nat → α) × (Nat → Nat → α)) := do
  let m ← at1 b.inp.xm jmn                                                -- :486
  let n ← at1 b.inp.xn jmn
  let angle := fun i j => ofInt m * theta i - ofInt n * varphi j
  let sn := fun i j => Arith.sin (angle i j)
  let cs := fun i j => Arith.cos (angle i j)
  let rc ← at2 b.inp.rmnc jmn js                                          -- :489
  let zs ← at2 b.inp.zmns jmn js                                          -- :490
  let R := fun i j => w.1 i j + rc * cs i j
  let Z := fun i j => w.2 i j + zs * sn i j
  let asym ← need b.inp.asym "asym"                                       -- :491
  if asym then do
    let rs ← at2 b.inp.rmns jmn js
    let zc ← at2 b.inp.zmnc jmn js
    pure (fun i j => R i j + rs * sn i j, fun i j => Z i j + zc * cs i j) -- :492-493
  else pure (R, Z)

/-- The two families of curves, `plots.py:459-476` and `:499-516`: rows and columns of the arrays whose
(1-based) index is 1 modulo `refine`. -/
def wires (boozer : Bool) (refine : Int) (rows cols : Nat) (X Y Z : Nat → Nat → α) : List (Drawn α) :=
  (List.range rows).filterMap (fun (i : Nat) =>
    if npMod ((i : Int) + 1) refine = 1 then
      some (.line boozer (decide (i + 1 ≤ 1)) ((List.range cols).map (X i)) ((List.range cols).map (Y i))
        ((List.range cols).map (Z i)))
    else none) ++
  (List.range cols).filterMap (fun (j : Nat) =>
    if npMod ((j : Int) + 1) refine = 1 then
      some (.line boozer false ((List.range rows).map fun i => X i j) ((List.range rows).map fun i => Y i j)
        ((List.range rows).map fun i => Z i j))
    else none)

/-- The solid surface, `plots.py:437-451`. -/
def solid (rows cols : Nat) (w : WireSums α) (phi : Nat → Nat → α) : Drawn α :=
  let eps : α := ofInt 2 / ofInt 1000                                     -- :440 (0.002)
  let denom := fun i j => Arith.sqrt (w.dR i j * w.dR i j + w.dZ i j * w.dZ i j)
  let Rs := fun i j => w.R i j - eps * (w.dZ i j / denom i j)
  let Zs := fun i j => w.Z i j + eps * (w.dR i j / denom i j)
  .surface ⟨rows, cols, fun i j => Rs i j * Arith.cos (phi i j)⟩
    ⟨rows, cols, fun i j => Rs i j * Arith.sin (phi i j)⟩ ⟨rows, cols, Zs⟩

/-- The curves of the original angles, `plots.py:479-516`. -/
def origPart (b : St α) (a : WireArgs) (js : Int) (theta varphi : Nat → α) : Res (List (Drawn α)) := do
  let jo ← at1 b.inp.compute_surfs js                                     -- :480
  let mnmax ← need b.inp.mnmax "mnmax"                                    -- :485
  let (R, Z) ← loop mnmax.toNat (origStep b jo theta varphi) (fun _ _ => ofInt 0, fun _ _ => ofInt 0)
  pure (wires false a.refine (a.ntheta * a.refine + 1).toNat (a.nphi * a.refine + 1).toNat
    (fun i j => R i j * Arith.cos (varphi j)) (fun i j => R i j * Arith.sin (varphi j)) Z) -- :495-516

/-- The surface to draw, `plots.py:406-407`: by default `ns_b - 1`. -/
def wireJs (b : St α) (a : WireArgs) : Res Int :=
  match a.js with
  | some js => .ok js
  | none => do
    let n ← need b.out.ns_b "ns_b"
    pure (n - 1)

/-- `wireplot` after `handle_b_input`, `plots.py:392-538`: the list `data` of the returned figure. -/
def wireplotObj (b : St α) (a : WireArgs) : Res (List (Drawn α)) := do
  let theta ← linspace twopi (a.ntheta * a.refine + 1)                    -- :392, :395
  let varphi ← linspace twopi (a.nphi * a.refine + 1)                     -- :393, :396
  let rows := (a.ntheta * a.refine + 1).toNat
  let cols := (a.nphi * a.refine + 1).toNat
  let js ← wireJs b a                                                     -- :406-407
  let mnboz ← need b.out.mnboz "mnboz"                                    -- :409
  let z : Nat → Nat → α := fun _ _ => ofInt 0
  let w ← loop mnboz.toNat (wireStep b js theta varphi) ⟨z, z, z, z, z⟩
  let phi := fun i j => varphi j - w.nu i j                               -- :428
  let X := fun i j => w.R i j * Arith.cos (phi i j)                       -- :429
  let Y := fun i j => w.R i j * Arith.sin (phi i j)                       -- :430
  let first := if a.surf then [solid rows cols w phi] else []             -- :437-451
  let data := first ++ wires true a.refine rows cols X Y w.Z              -- :459-476
  if a.orig then do
    let more ← origPart b a js theta varphi                               -- :479-516
    pure (data ++ more)
  else pure data

/-- `wireplot`, `plots.py:368-538`; the figure is the return value, nothing is drawn on the current
matplotlib figure. -/
def wireplot (disk : Disk α) (b : Arg α) (a : WireArgs) : Fig α (List (Drawn α)) := do
  let b ← handleB disk b                                                  -- :390
  Prog.lift (wireplotObj b a)

end Booz.Plots
