import Verif.Spec.Theory
import Verif.Model.Plots

/-!
# Specification of the plots

What a user expects to see on the figures, written from the documentation strings in
`/repo/src/booz_xform/plots.py`.  From the model only the description of figures (`Drawn`) is used.
-/

namespace Booz.Spec
open Plots

/-- An object that holds results for `K` modes on `nb` surfaces. -/
structure Computed {α : Type} (b : St α) (K nb nfp : Nat) (asym : Bool) : Prop where
  asym_eq : b.inp.asym = some asym
  nfp_eq : b.inp.nfp = some (nfp : Int)
  nfp_pos : 1 ≤ nfp
  mnboz : b.out.mnboz = some (K : Int)
  ns_b : b.out.ns_b = some (nb : Int)
  xm_b : b.out.xm_b.Full K
  xn_b : b.out.xn_b.Full K
  s_b : b.out.s_b.Full nb
  bmnc_b : b.out.spec.bmnc_b.Full K nb
  rmnc_b : b.out.spec.rmnc_b.Full K nb
  zmns_b : b.out.spec.zmns_b.Full K nb
  numns_b : b.out.spec.numns_b.Full K nb
  asym_b : asym = true → b.out.spec.bmns_b.Full K nb ∧ b.out.spec.rmns_b.Full K nb ∧
    b.out.spec.zmnc_b.Full K nb ∧ b.out.spec.numnc_b.Full K nb

/-- Poloidal mode number of output mode `k`. -/
abbrev outM {α : Type} (b : St α) (k : Nat) : Int := b.out.xm_b.val 0 k
/-- Toroidal mode number of output mode `k`. -/
abbrev outN {α : Type} (b : St α) (k : Nat) : Int := b.out.xn_b.val 0 k

/-- A Python index `js` denotes column `c` of `nb`: counted from the start, or from the end if
negative. -/
def IsColumn (nb : Nat) (js : Int) (c : Nat) : Prop := c < nb ∧ (js = c ∨ js = (c : Int) - nb)

/-! ## Radial plots -/

section
variable {α : Type} [Arith α]

/-- Amplitude of mode `k` on surface `j` as plotted: zero if the mode has the removed helicity
(m,n) = `(h.1, h.2)`, i.e. if its mode numbers are proportional to it. -/
def amplitude (b : St α) (remove : Option (Int × Int)) (k j : Nat) : α :=
  match remove with
  | none => b.out.spec.bmnc_b.val (ofInt 0) k j
  | some h => if h.2 * outM b k = h.1 * outN b k then ofInt 0 else b.out.spec.bmnc_b.val (ofInt 0) k j

/-- Horizontal axis: normalised flux or its square root. -/
def axis (b : St α) (nb : Nat) (sqrts : Bool) : List α :=
  (List.range nb).map fun j =>
    if sqrts then Arith.sqrt (b.out.s_b.val (ofInt 0) j) else b.out.s_b.val (ofInt 0) j

/-- Vertical values of mode `k`: amplitudes on the `nb` surfaces, absolute values on a logarithmic
axis. -/
def profile (b : St α) (nb : Nat) (remove : Option (Int × Int)) (log : Bool) (k : Nat) : List α :=
  (List.range nb).map fun j =>
    if log then Arith.abs (amplitude b remove k j) else amplitude b remove k j

/-- The reference line at zero on a linear axis. -/
def zeroLine (log : Bool) : List (Drawn α) :=
  if log then [] else [.curve .reference none [ofInt 0, ofInt 1] [ofInt 0, ofInt 0]]

end

/-- What follows the curves: on a logarithmic axis, its lower end. -/
def lowerEnd {α : Type} (log : Bool) (bottom : α) : List (Drawn α) := if log then [.logAxis bottom] else []

/-- A curve of the figure has the value `v` on some surface. -/
def Shows {α : Type} (fig : List (Drawn α)) (v : α) : Prop :=
  ∃ c l x y, Drawn.curve c l x y ∈ fig ∧ v ∈ y

/-! ### Classes of modes -/

/-- The classes named in the legend of `symplot`. -/
inductive ModeClass where
  | background | quasiaxisymmetric | mirror | helicalPlus | helicalMinus | otherHelical | helical
  deriving DecidableEq

/-- Membership of the mode (m,n) in a class.  The last three classes exist only with
`helical_detail`, the class `helical` only without. -/
def InClass (detail : Bool) (nfp m n : Int) : ModeClass → Prop
  | .background => m = 0 ∧ n = 0
  | .quasiaxisymmetric => m ≠ 0 ∧ n = 0
  | .mirror => m = 0 ∧ n ≠ 0
  | .helicalPlus => detail = true ∧ m ≠ 0 ∧ n ≠ 0 ∧ n = nfp * m
  | .helicalMinus => detail = true ∧ m ≠ 0 ∧ n ≠ 0 ∧ n = -(nfp * m)
  | .otherHelical => detail = true ∧ m ≠ 0 ∧ n ≠ 0 ∧ n ≠ nfp * m ∧ n ≠ -(nfp * m)
  | .helical => detail = false ∧ m ≠ 0 ∧ n ≠ 0

/-- Colour of a class. -/
def ModeClass.color : ModeClass → Color
  | .background => .background
  | .quasiaxisymmetric => .qa
  | .mirror => .mirror
  | .helicalPlus => .plus
  | .helicalMinus => .minus
  | .otherHelical => .helical
  | .helical => .helical

/-- Legend label of a class. -/
def ModeClass.label : ModeClass → Label
  | .background => .background
  | .quasiaxisymmetric => .qa
  | .mirror => .mirror
  | .helicalPlus => .plus
  | .helicalMinus => .minus
  | .otherHelical => .otherHelical
  | .helical => .helical

/-- Mode (m,n) is within the requested limits. -/
def Within (max_m max_n nfp m n : Int) : Prop := |m| ≤ max_m ∧ |n| ≤ max_n * nfp

instance (max_m max_n nfp m n : Int) : Decidable (Within max_m max_n nfp m n) := by
  unfold Within; infer_instance

/-- The legend entry of class `c` shows the first of the `K` modes with property `p`; there is no entry
if there is no such mode. -/
def LegendEntry {α : Type} [Arith α] (b : St α) (K nb : Nat) (a : SymArgs α) (c : ModeClass)
    (p : Int → Int → Prop) (L : List (Drawn α)) : Prop :=
  ((∀ k < K, ¬ p (outM b k) (outN b k)) ∧ L = []) ∨
  ∃ k < K, p (outM b k) (outN b k) ∧ (∀ j < k, ¬ p (outM b j) (outN b j)) ∧
    L = [.curve c.color (some c.label) (axis b nb a.sqrts) (profile b nb a.remove a.log k)]

/-- `idx` lists the indices of `keys` in an order that sorts the keys with respect to `le`. -/
def IsArgsort {α : Type} (le : α → α → Prop) (keys : List α) (idx : List Nat) : Prop :=
  idx.Perm (List.range keys.length) ∧
    idx.Pairwise fun i j => ∀ x y, keys[i]? = some x → keys[j]? = some y → le x y

/-! ## Points of the surface -/

/-- Output series of `|B|`, in column `c`. -/
noncomputable def seriesB (b : St ℝ) (K : ℕ) (asym : Bool) (c : ℕ) : ℝ → ℝ → ℝ :=
  series K (outM b) (outN b) (fun k => entry b.out.spec.bmnc_b k c)
    (fun k => onlyIf asym (entry b.out.spec.bmns_b k c))
/-- Output series of `R`. -/
noncomputable def seriesR (b : St ℝ) (K : ℕ) (asym : Bool) (c : ℕ) : ℝ → ℝ → ℝ :=
  series K (outM b) (outN b) (fun k => entry b.out.spec.rmnc_b k c)
    (fun k => onlyIf asym (entry b.out.spec.rmns_b k c))
/-- Output series of `Z`. -/
noncomputable def seriesZ (b : St ℝ) (K : ℕ) (asym : Bool) (c : ℕ) : ℝ → ℝ → ℝ :=
  series K (outM b) (outN b) (fun k => onlyIf asym (entry b.out.spec.zmnc_b k c))
    (fun k => entry b.out.spec.zmns_b k c)
/-- Output series of `ν`. -/
noncomputable def seriesNu (b : St ℝ) (K : ℕ) (asym : Bool) (c : ℕ) : ℝ → ℝ → ℝ :=
  series K (outM b) (outN b) (fun k => onlyIf asym (entry b.out.spec.numnc_b k c))
    (fun k => entry b.out.spec.numns_b k c)

/-- Point with cylindrical coordinates (R, φ, Z). -/
noncomputable def cartesian (R φ Z : ℝ) : ℝ × ℝ × ℝ := (R * Real.cos φ, R * Real.sin φ, Z)

/-- Point with Boozer angles (θ, ζ) on output surface `c`: its geometric toroidal angle is ζ - ν. -/
noncomputable def boozerPoint (b : St ℝ) (K : ℕ) (asym : Bool) (c : ℕ) (θ ζ : ℝ) : ℝ × ℝ × ℝ :=
  cartesian (seriesR b K asym c θ ζ) (ζ - seriesNu b K asym c θ ζ) (seriesZ b K asym c θ ζ)

/-- Point with original angles (θ, ζ) on input surface `js`. -/
noncomputable def inputPoint (I : Inputs ℝ) (asym : Bool) (js : ℕ) (θ ζ : ℝ) : ℝ × ℝ × ℝ :=
  cartesian ((surface I asym js).R θ ζ) ζ ((surface I asym js).Z θ ζ)

/-- A drawn line with the given points, in order. -/
def lineThrough (boozer showlegend : Bool) (pts : List (ℝ × ℝ × ℝ)) : Drawn ℝ :=
  .line boozer showlegend (pts.map fun p => p.1) (pts.map fun p => p.2.1) (pts.map fun p => p.2.2)

/-- Curves of constant poloidal angle: `nt + 1` curves at θ = 2π p / nt, each with `refine` points per
segment between the `np + 1` curves of the other family. -/
noncomputable def poloidalCurves (boozer : Bool) (nt np refine : ℕ) (pt : ℝ → ℝ → ℝ × ℝ × ℝ) : List (Drawn ℝ) :=
  (List.range (nt + 1)).map fun (p : ℕ) => lineThrough boozer (decide (p = 0))
    ((List.range (np * refine + 1)).map fun (q : ℕ) => pt (2 * Real.pi * p / nt) (2 * Real.pi * q / (np * refine)))

/-- Curves of constant toroidal angle. -/
noncomputable def toroidalCurves (boozer : Bool) (nt np refine : ℕ) (pt : ℝ → ℝ → ℝ × ℝ × ℝ) : List (Drawn ℝ) :=
  (List.range (np + 1)).map fun (q : ℕ) => lineThrough boozer false
    ((List.range (nt * refine + 1)).map fun (p : ℕ) => pt (2 * Real.pi * p / (nt * refine)) (2 * Real.pi * q / np))

end Booz.Spec
