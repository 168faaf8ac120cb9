import Mathlib.Analysis.SpecialFunctions.Trigonometric.Basic
import Verif.Arith
import Verif.Spec.Ready

/-!
# Specification: rounded arithmetic

The standard model of floating-point arithmetic, for numbers of moderate size: every operation returns
the exact result up to a relative error `u`, products also up to an absolute error `η` (underflow), and
the library's sine and cosine have an absolute error of at most `u`.
-/

namespace Booz.Spec

/-- `α` computes with relative precision `u` and underflow threshold `η`; `fin` are the finite numbers
(neither infinite nor NaN) and `val` their values. -/
structure Rounded (α : Type) [Arith α] (fin : α → Prop) (val : α → ℝ) (u η : ℝ) : Prop where
  u_nonneg : 0 ≤ u
  u_le : u ≤ 1 / 8
  eta_nonneg : 0 ≤ η
  eta_le : η ≤ 1
  one : fin (ofInt 1) ∧ val (ofInt 1) = 1
  zero : fin (ofInt 0) ∧ val (ofInt 0) = 0
  mul : ∀ a b, fin a → fin b → |val a| ≤ 2 → |val b| ≤ 2 →
    fin (a * b) ∧ |val (a * b) - val a * val b| ≤ u * |val a * val b| + η
  add : ∀ a b, fin a → fin b → |val a| ≤ 8 → |val b| ≤ 8 →
    fin (a + b) ∧ |val (a + b) - (val a + val b)| ≤ u * |val a + val b|
  sub : ∀ a b, fin a → fin b → |val a| ≤ 8 → |val b| ≤ 8 →
    fin (a - b) ∧ |val (a - b) - (val a - val b)| ≤ u * |val a - val b|
  cos : ∀ a, fin a → fin (Arith.cos a) ∧ |val (Arith.cos a) - Real.cos (val a)| ≤ u
  sin : ∀ a, fin a → fin (Arith.sin a) ∧ |val (Arith.sin a) - Real.sin (val a)| ≤ u

/-! ## Whole runs -/

/-- `α` is an arithmetic of precision `u`: on finite operands every operation whose exact result is at
most `1/u` in absolute value is finite, with an error of at most `u` times one plus the size of the exact
result.  IEEE doubles satisfy this with `u = 2^-52`; so do the real numbers, with every `u > 0`. -/
structure Precision (α : Type) [Arith α] (fin : α → Prop) (val : α → ℝ) (u : ℝ) : Prop where
  u_pos : 0 < u
  ofInt : ∀ n : ℤ, |(n : ℝ)| ≤ 1 / u → fin (ofInt n) ∧ |val (ofInt n) - n| ≤ u * (1 + |(n : ℝ)|)
  half : fin Arith.half ∧ |val Arith.half - 1 / 2| ≤ u
  threeHalves : fin Arith.threeHalves ∧ |val Arith.threeHalves - 3 / 2| ≤ u
  pi : fin Arith.pi ∧ |val Arith.pi - Real.pi| ≤ u
  neg : ∀ a, fin a → fin (-a) ∧ val (-a) = -val a
  add : ∀ a b, fin a → fin b → |val a + val b| ≤ 1 / u →
    fin (a + b) ∧ |val (a + b) - (val a + val b)| ≤ u * (1 + |val a + val b|)
  sub : ∀ a b, fin a → fin b → |val a - val b| ≤ 1 / u →
    fin (a - b) ∧ |val (a - b) - (val a - val b)| ≤ u * (1 + |val a - val b|)
  mul : ∀ a b, fin a → fin b → |val a * val b| ≤ 1 / u →
    fin (a * b) ∧ |val (a * b) - val a * val b| ≤ u * (1 + |val a * val b|)
  div : ∀ a b, fin a → fin b → val b ≠ 0 → |val a / val b| ≤ 1 / u →
    fin (a / b) ∧ |val (a / b) - val a / val b| ≤ u * (1 + |val a / val b|)
  sqrt : ∀ a, fin a → 0 ≤ val a → √(val a) ≤ 1 / u →
    fin (Arith.sqrt a) ∧ |val (Arith.sqrt a) - √(val a)| ≤ u * (1 + √(val a))
  cos : ∀ a, fin a → fin (Arith.cos a) ∧ |val (Arith.cos a) - Real.cos (val a)| ≤ u
  sin : ∀ a, fin a → fin (Arith.sin a) ∧ |val (Arith.sin a) - Real.sin (val a)| ≤ u

/-- The first `n` entries of `v` can be read, are finite, and are within `e` of those of `w`. -/
def VecNear {α : Type} (fin : α → Prop) (val : α → ℝ) (n : ℕ) (e : ℝ) (v : Vec α) (w : Vec ℝ) : Prop :=
  ∀ i < n, ∃ x y, v.rdN i = .ok x ∧ w.rdN i = .ok y ∧ fin x ∧ |val x - y| ≤ e

/-- The entries of `a` in the first `r` rows and `c` columns can be read, are finite, and are within `e`
of those of `b`. -/
def MatNear {α : Type} (fin : α → Prop) (val : α → ℝ) (r c : ℕ) (e : ℝ) (a : Mat α) (b : Mat ℝ) : Prop :=
  ∀ i < r, ∀ j < c, ∃ x y, a.rdN i j = .ok x ∧ b.rdN i j = .ok y ∧ fin x ∧ |val x - y| ≤ e

/-- The inputs `I` are the inputs `J` up to errors of at most `e`: the same modes and surfaces, and all
profiles and Fourier coefficients within `e`. -/
structure InputsNear {α : Type} (fin : α → Prop) (val : α → ℝ) (d : Dims) (e : ℝ) (I : Inputs α)
    (J : Inputs ℝ) : Prop where
  xm : I.xm = J.xm
  xn : I.xn = J.xn
  xm_nyq : I.xm_nyq = J.xm_nyq
  xn_nyq : I.xn_nyq = J.xn_nyq
  surfs : I.compute_surfs = J.compute_surfs
  s_in : VecNear fin val d.ns e I.s_in J.s_in
  iota : VecNear fin val d.ns e I.iota J.iota
  rmnc : MatNear fin val d.mnmax d.ns e I.rmnc J.rmnc
  zmns : MatNear fin val d.mnmax d.ns e I.zmns J.zmns
  lmns : MatNear fin val d.mnmax d.ns e I.lmns J.lmns
  bmnc : MatNear fin val d.mnq d.ns e I.bmnc J.bmnc
  bsubumnc : MatNear fin val d.mnq d.ns e I.bsubumnc J.bsubumnc
  bsubvmnc : MatNear fin val d.mnq d.ns e I.bsubvmnc J.bsubvmnc
  rmns : d.asym = true → MatNear fin val d.mnmax d.ns e I.rmns J.rmns
  zmnc : d.asym = true → MatNear fin val d.mnmax d.ns e I.zmnc J.zmnc
  lmnc : d.asym = true → MatNear fin val d.mnmax d.ns e I.lmnc J.lmnc
  bmns : d.asym = true → MatNear fin val d.mnq d.ns e I.bmns J.bmns
  bsubumns : d.asym = true → MatNear fin val d.mnq d.ns e I.bsubumns J.bsubumns
  bsubvmns : d.asym = true → MatNear fin val d.mnq d.ns e I.bsubvmns J.bsubvmns

/-- The outputs `o` are the outputs `p` up to errors of at most `e`: the same mode numbers, and all
surface labels, profiles and output harmonics finite and within `e`. -/
structure OutputsNear {α : Type} (fin : α → Prop) (val : α → ℝ) (d : Dims) (e : ℝ) (o : Outputs α)
    (p : Outputs ℝ) : Prop where
  ns_b : o.ns_b = p.ns_b
  mnboz : o.mnboz = p.mnboz
  xm_b : o.xm_b = p.xm_b
  xn_b : o.xn_b = p.xn_b
  s_b : VecNear fin val d.nsb e o.s_b p.s_b
  boozer_I : VecNear fin val d.nsb e o.boozer_I p.boozer_I
  boozer_G : VecNear fin val d.nsb e o.boozer_G p.boozer_G
  boozer_I_all : VecNear fin val d.ns e o.boozer_I_all p.boozer_I_all
  boozer_G_all : VecNear fin val d.ns e o.boozer_G_all p.boozer_G_all
  bmnc : MatNear fin val d.nmodes d.nsb e o.spec.bmnc_b p.spec.bmnc_b
  rmnc : MatNear fin val d.nmodes d.nsb e o.spec.rmnc_b p.spec.rmnc_b
  zmns : MatNear fin val d.nmodes d.nsb e o.spec.zmns_b p.spec.zmns_b
  numns : MatNear fin val d.nmodes d.nsb e o.spec.numns_b p.spec.numns_b
  gmnc : MatNear fin val d.nmodes d.nsb e o.spec.gmnc_b p.spec.gmnc_b
  bmns : d.asym = true → MatNear fin val d.nmodes d.nsb e o.spec.bmns_b p.spec.bmns_b
  rmns : d.asym = true → MatNear fin val d.nmodes d.nsb e o.spec.rmns_b p.spec.rmns_b
  zmnc : d.asym = true → MatNear fin val d.nmodes d.nsb e o.spec.zmnc_b p.spec.zmnc_b
  numnc : d.asym = true → MatNear fin val d.nmodes d.nsb e o.spec.numnc_b p.spec.numnc_b
  gmns : d.asym = true → MatNear fin val d.nmodes d.nsb e o.spec.gmns_b p.spec.gmns_b

end Booz.Spec
