import Mathlib.Analysis.Calculus.Deriv.Basic
import Mathlib.Analysis.SpecialFunctions.Pow.Real
import Verif.Spec.Theory
import Verif.Model.InitFromVmec

/-!
# Specification: radial profiles of an equilibrium, and its surfaces

Harmonics of R and Z as functions of the normalised toroidal flux `s` (documentation of
`init_from_vmec`, `init_from_vmec.cpp:197-209`); nothing of the model is used.
-/

open Finset

namespace Booz.Spec

/-- A profile on `0 ≤ s ≤ 1` whose derivative has slope at most `K` (`|f''| ≤ K` where there is a
second derivative). -/
def Bends (f : ℝ → ℝ) (K : ℝ) : Prop :=
  ∃ f' : ℝ → ℝ, (∀ s ∈ Set.Icc (0 : ℝ) 1, HasDerivWithinAt f (f' s) (Set.Icc 0 1) s) ∧
    ∀ s ∈ Set.Icc (0 : ℝ) 1, ∀ t ∈ Set.Icc (0 : ℝ) 1, |f' s - f' t| ≤ K * |s - t|

/-- Profile of a harmonic with poloidal mode number `m`, regular at the magnetic axis: a smooth
function of `s` for even `m`, `√s` times one for odd `m`, which vanishes on the axis unless `m = 1`. -/
def RegularProfile (m : ℤ) (x : ℝ → ℝ) (K : ℝ) : Prop :=
  (Even m ∧ Bends x K) ∨
  (¬ Even m ∧ ∃ g, Bends g K ∧ (m ≠ 1 → g 0 = 0) ∧ ∀ s ∈ Set.Icc (0 : ℝ) 1, x s = Real.sqrt s * g s)

/-- The shape of an equilibrium: the harmonics of R and Z, by number of the mode, as functions of `s`. -/
structure FluxShape where
  /-- cosine harmonics of R -/
  rc : ℕ → ℝ → ℝ
  /-- sine harmonics of R -/
  rs : ℕ → ℝ → ℝ
  /-- cosine harmonics of Z -/
  zc : ℕ → ℝ → ℝ
  /-- sine harmonics of Z -/
  zs : ℕ → ℝ → ℝ

/-- The shape is regular, with the modes and the symmetry of an object. -/
structure FluxShape.Regular (P : FluxShape) (xm : Vec ℤ) (asym : Bool) (K : ℝ) : Prop where
  rc : ∀ j < xm.size, RegularProfile (xm.val 0 j) (P.rc j) K
  zs : ∀ j < xm.size, RegularProfile (xm.val 0 j) (P.zs j) K
  rs : asym = true → ∀ j < xm.size, RegularProfile (xm.val 0 j) (P.rs j) K
  zc : asym = true → ∀ j < xm.size, RegularProfile (xm.val 0 j) (P.zc j) K

/-- Surface `s` of the equilibrium: R -/
noncomputable def FluxShape.R (P : FluxShape) (I : Inputs ℝ) (asym : Bool) (s : ℝ) : ℝ → ℝ → ℝ :=
  series I.xm.size (I.xm.val 0) (I.xn.val 0) (fun k => P.rc k s) (fun k => onlyIf asym (P.rs k s))
/-- Surface `s` of the equilibrium: Z -/
noncomputable def FluxShape.Z (P : FluxShape) (I : Inputs ℝ) (asym : Bool) (s : ℝ) : ℝ → ℝ → ℝ :=
  series I.xm.size (I.xm.val 0) (I.xn.val 0) (fun k => onlyIf asym (P.zc k s)) (fun k => P.zs k s)

/-- A matrix holds the profiles `x` of the harmonics on the full grid of `ns` surfaces. -/
def OnFullGrid (ns : ℤ) (K : ℕ) (x : ℕ → ℝ → ℝ) (a : Mat ℝ) : Prop :=
  ∀ j < K, ∀ i : ℕ, (i : ℤ) < ns → a.rdN j i = .ok (x j ((i : ℝ) / ((ns : ℝ) - 1)))

/-- The arguments of a load describe the shape. -/
structure FluxShape.Stored (P : FluxShape) (ns : ℤ) (K : ℕ) (asym : Bool) (A : VmecArgs ℝ) : Prop where
  rc : OnFullGrid ns K P.rc A.rmnc
  zs : OnFullGrid ns K P.zs A.zmns
  rs : asym = true → OnFullGrid ns K P.rs A.rmns
  zc : asym = true → OnFullGrid ns K P.zc A.zmnc

end Booz.Spec
