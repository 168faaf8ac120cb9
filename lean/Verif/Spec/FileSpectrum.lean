import Verif.Spec.Boozmn
import Verif.Spec.Driver
import Verif.Spec.EndToEnd
import Verif.Props.Modes
import Verif.Spec.Wout

/-!
# Specification: from the `wout` file to the `boozmn` file
-/

namespace Booz.Spec

/-- The `wout` file `f` is the file `f₀` of real numbers up to errors of at most `e`: the same variables are present,
the mode numbers are equal, and the real data are within `e`. -/
structure WoutNear {α : Type} [Arith α] (fin : α → Prop) (val : α → ℝ) (z : WoutSizes) (e : ℝ) (f : NcFile α)
    (f₀ : NcFile ℝ) : Prop where
  present : ∀ n, f.var? n = none ↔ f₀.var? n = none
  modes : ∀ n ∈ ["xm", "xn", "xm_nyq", "xn_nyq"], intsOf f n = intsOf f₀ n
  iotas : VecNear fin val z.ns.toNat e (dblsOf f "iotas") (dblsOf f₀ "iotas")
  mats : ∀ n ∈ ["rmnc", "zmns", "lmns"], VecNear fin val (z.mnmax * z.ns).toNat e (dblsOf f n) (dblsOf f₀ n)
  mats_nyq : ∀ n ∈ ["bmnc", "bsubumnc", "bsubvmnc"],
    VecNear fin val (z.mnmax_nyq * z.ns).toNat e (dblsOf f n) (dblsOf f₀ n)
  asym : z.lasym ≠ 0 → ∀ n ∈ ["rmns", "zmnc", "lmnc"],
    VecNear fin val (z.mnmax * z.ns).toNat e (dblsOf f n) (dblsOf f₀ n)
  asym_nyq : z.lasym ≠ 0 → ∀ n ∈ ["bmns", "bsubumns", "bsubvmns"],
    VecNear fin val (z.mnmax_nyq * z.ns).toNat e (dblsOf f n) (dblsOf f₀ n)

/-- Element `i` of the integer variable is `x`. -/
def FileInt {α : Type} (f : NcFile α) (name : String) (i : ℕ) (x : ℤ) : Prop :=
  ∃ v d, f.var? name = some v ∧ v.data = .ints d ∧ d[i]? = some (some x)

/-- Element `[b][k]` of the variable, which has dimensions (surface, mode) with `K` modes, exists, is finite, and is
within `e` of `σ` times the cosine coefficient (m, n) of every continuous function on the torus which expresses `q` in
Boozer angles. -/
def FileCos {α : Type} (fin : α → Prop) (val : α → ℝ) (f : NcFile α) (name : String) (σ : ℝ) (S : Surface)
    (q : ℝ → ℝ → ℝ) (K k b : ℕ) (m n : ℤ) (e : ℝ) : Prop :=
  ∀ g, Continuous (Function.uncurry g) → TorusFn g → S.Expresses g q →
    ∃ v d x, f.var? name = some v ∧ v.dims = ["pack_rad", "mn_modes"] ∧ v.data = .dbls d ∧
      d[b * K + k]? = some (some x) ∧ fin x ∧ |val x - σ * fourierCos g m n| ≤ e

/-- The same for the sine coefficient. -/
def FileSin {α : Type} (fin : α → Prop) (val : α → ℝ) (f : NcFile α) (name : String) (σ : ℝ) (S : Surface)
    (q : ℝ → ℝ → ℝ) (K k b : ℕ) (m n : ℤ) (e : ℝ) : Prop :=
  ∀ g, Continuous (Function.uncurry g) → TorusFn g → S.Expresses g q →
    ∃ v d x, f.var? name = some v ∧ v.dims = ["pack_rad", "mn_modes"] ∧ v.data = .dbls d ∧
      d[b * K + k]? = some (some x) ∧ fin x ∧ |val x - σ * fourierSin g m n| ≤ e

/-- Place `[b][k]` of a `boozmn` file holds finite numbers, which are the Fourier coefficients in Boozer angles for the
mode (m, n), each with an error of at most `e`.  The file stores `p = -ν`. -/
structure FileSpectrum {α : Type} (fin : α → Prop) (val : α → ℝ) (f : NcFile α) (S : Surface) (asym : Bool)
    (K k b : ℕ) (m n : ℤ) (e : ℝ) : Prop where
  bmnc : FileCos fin val f "bmnc_b" 1 S S.B K k b m n e
  rmnc : FileCos fin val f "rmnc_b" 1 S S.R K k b m n e
  zmns : FileSin fin val f "zmns_b" 1 S S.Z K k b m n e
  pmns : FileSin fin val f "pmns_b" (-1) S S.nu K k b m n e
  gmn : FileCos fin val f "gmn_b" 1 S S.jacobian K k b m n e
  bmns : asym = true → FileSin fin val f "bmns_b" 1 S S.B K k b m n e
  rmns : asym = true → FileSin fin val f "rmns_b" 1 S S.R K k b m n e
  zmnc : asym = true → FileCos fin val f "zmnc_b" 1 S S.Z K k b m n e
  pmnc : asym = true → FileCos fin val f "pmnc_b" (-1) S S.nu K k b m n e
  gmns : asym = true → FileSin fin val f "gmns_b" 1 S S.jacobian K k b m n e

/-- The input file asks for the surface `j`: it is listed, or no surface is. -/
def Wanted (z : WoutSizes) (r : Request) (j : ℤ) : Prop :=
  j ∈ r.surfs ∨ (r.surfs = [] ∧ 0 ≤ j ∧ j < z.ns - 1)

/-- The poloidal resolution of the run. -/
def polRes (z : WoutSizes) (r : Request) : ℕ := (max (6 * z.mpol) r.mboz).toNat
/-- The toroidal resolution of the run. -/
def torRes (z : WoutSizes) (r : Request) : ℕ := (max (max (2 * z.ntor - 1) 0) r.nboz).toNat

/-- The `boozmn` file delivers what was asked for, as far as the mode (m, n) is concerned, with an error of at most `e`:
its surfaces (`jlist`) are those asked for, the mode is listed if the resolution includes it, and wherever `jlist`,
`ixm_b` and `ixn_b` say "surface j, mode (m, n)", the numbers are the Fourier coefficients in Boozer angles on this
surface of the equilibrium `I`. -/
structure Delivers {α : Type} (fin : α → Prop) (val : α → ℝ) (out : NcFile α) (z : WoutSizes) (r : Request)
    (I : Inputs ℝ) (m n : ℤ) (e : ℝ) : Prop where
  surfs : ∀ j, Wanted z r j ↔ ∃ b, FileInt out "jlist" b (j + 2)
  modes : IsMode (polRes z r) (torRes z r) z.nfp.toNat (m, n) ↔ ∃ k, FileInt out "ixm_b" k m ∧ FileInt out "ixn_b" k n
  near : ∀ b k j, FileInt out "jlist" b (j + 2) → FileInt out "ixm_b" k m → FileInt out "ixn_b" k n →
    FileSpectrum fin val out (surface I (decide (z.lasym ≠ 0)) j.toNat) (decide (z.lasym ≠ 0))
      (numModes (polRes z r) (torRes z r)) k b m n e

end Booz.Spec
