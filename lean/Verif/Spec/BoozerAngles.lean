import Verif.Spec.Integral
import Verif.Spec.Alias
import Mathlib.Data.Int.Interval
import Mathlib.Analysis.Calculus.ContDiff.Basic
import Mathlib.Analysis.InnerProductSpace.Basic

/-!
# Quantities as functions of the Boozer angles, their Fourier coefficients and truncated Fourier series

`docs/source/theory.rst`, equations `Fourier_Boozer` and `Fourier_Boozer2` (with the normalisation that makes
the coefficients those of the series).
-/

namespace Booz.Spec
open Finset

/-- The Boozer angles of a point given by its original angles. -/
noncomputable def Surface.boozer (S : Surface) (x : ℝ × ℝ) : ℝ × ℝ := (S.thetaB x.1 x.2, S.zetaB x.1 x.2)

/-- `f` is the quantity `q` expressed as a function of the Boozer angles. -/
def Surface.Expresses (S : Surface) (f q : ℝ → ℝ → ℝ) : Prop :=
  ∀ θ ζ, f (S.thetaB θ ζ) (S.zetaB θ ζ) = q θ ζ

/-- The Boozer angles are coordinates of the torus. -/
structure Coordinates (S : Surface) (nfp : ℕ) : Prop where
  det_pos : ∀ θ ζ, 0 < S.det θ ζ
  bijective : Function.Bijective S.boozer
  express : ∀ q : ℝ → ℝ → ℝ, ContDiff ℝ (⊤ : ℕ∞) (Function.uncurry q) → (∀ θ ζ, q (θ + 2 * Real.pi) ζ = q θ ζ) →
    (∀ θ ζ, q θ (ζ + 2 * Real.pi / nfp) = q θ ζ) →
    ∃! f : ℝ → ℝ → ℝ, S.Expresses f q ∧ ContDiff ℝ (⊤ : ℕ∞) (Function.uncurry f) ∧ (∀ t z, f (t + 2 * Real.pi) z = f t z) ∧
      ∀ t z, f t (z + 2 * Real.pi / nfp) = f t z

/-- 2π-periodic in both angles. -/
def TorusFn (f : ℝ → ℝ → ℝ) : Prop :=
  (∀ t z, f (t + 2 * Real.pi) z = f t z) ∧ ∀ t z, f t (z + 2 * Real.pi) = f t z

/-- Cosine coefficient (m, n) of a function on the torus. -/
noncomputable def fourierCos (f : ℝ → ℝ → ℝ) (m n : ℤ) : ℝ :=
  (if m = 0 ∧ n = 0 then 1 else 2) / (4 * Real.pi ^ 2) *
    ∫ t in (0 : ℝ)..2 * Real.pi, ∫ z in (0 : ℝ)..2 * Real.pi, f t z * Real.cos (m * t - n * z)

/-- Sine coefficient (m, n). -/
noncomputable def fourierSin (f : ℝ → ℝ → ℝ) (m n : ℤ) : ℝ :=
  (if m = 0 ∧ n = 0 then 1 else 2) / (4 * Real.pi ^ 2) *
    ∫ t in (0 : ℝ)..2 * Real.pi, ∫ z in (0 : ℝ)..2 * Real.pi, f t z * Real.sin (m * t - n * z)

/-- Entry (k, b) of the matrix is within `e` of the cosine coefficient (m, n) of every continuous function on
the torus which expresses `q` in Boozer angles. -/
def NearCos (a : Mat ℝ) (S : Surface) (q : ℝ → ℝ → ℝ) (k b : ℕ) (m n : ℤ) (e : ℝ) : Prop :=
  ∀ f, Continuous (Function.uncurry f) → TorusFn f → S.Expresses f q → Near a k b (fourierCos f m n) e

/-- The same for the sine coefficient. -/
def NearSin (a : Mat ℝ) (S : Surface) (q : ℝ → ℝ → ℝ) (k b : ℕ) (m n : ℤ) (e : ℝ) : Prop :=
  ∀ f, Continuous (Function.uncurry f) → TorusFn f → S.Expresses f q → Near a k b (fourierSin f m n) e

/-- Place (k, b) of the outputs holds the Fourier coefficients in Boozer angles for the mode (m, n), each with an
error of at most `e`. -/
structure IsBoozerSpectrum (o : Outputs ℝ) (S : Surface) (asym : Bool) (k b : ℕ) (m n : ℤ) (e : ℝ) : Prop where
  bmnc : NearCos o.spec.bmnc_b S S.B k b m n e
  rmnc : NearCos o.spec.rmnc_b S S.R k b m n e
  zmns : NearSin o.spec.zmns_b S S.Z k b m n e
  numns : NearSin o.spec.numns_b S S.nu k b m n e
  gmnc : NearCos o.spec.gmnc_b S S.jacobian k b m n e
  bmns : asym = true → NearSin o.spec.bmns_b S S.B k b m n e
  rmns : asym = true → NearSin o.spec.rmns_b S S.R k b m n e
  zmnc : asym = true → NearCos o.spec.zmnc_b S S.Z k b m n e
  numnc : asym = true → NearCos o.spec.numnc_b S S.nu k b m n e
  gmns : asym = true → NearSin o.spec.gmns_b S S.jacobian k b m n e

/-- The modes (m, n) of the half plane with `m ≤ K`, `|n| ≤ K`, as in the list of output modes. -/
noncomputable def modesUpTo (K : ℕ) : Finset (ℤ × ℤ) :=
  (Finset.Icc (0 : ℤ) K ×ˢ Finset.Icc (-(K : ℤ)) K).filter fun k => k.1 = 0 → 0 ≤ k.2

/-- Truncated double Fourier series with the toroidal numbers `n · nfp`. -/
noncomputable def truncated (nfp K : ℕ) (c s : ℤ → ℤ → ℝ) (t z : ℝ) : ℝ :=
  ∑ k ∈ modesUpTo K, (c k.1 (k.2 * nfp) * Real.cos (k.1 * t - (k.2 * nfp : ℤ) * z) +
    s k.1 (k.2 * nfp) * Real.sin (k.1 * t - (k.2 * nfp : ℤ) * z))

/-- Cosine amplitude (m, n) exactly as printed in equation `change_variables`, lines 228-243: the factor is
`1/(4π²)` for all modes. -/
noncomputable def Surface.printedCos (S : Surface) (q : ℝ → ℝ → ℝ) (m n : ℤ) : ℝ :=
  1 / (4 * Real.pi ^ 2) * ∫ θ in (0 : ℝ)..2 * Real.pi, ∫ ζ in (0 : ℝ)..2 * Real.pi,
    S.det θ ζ * q θ ζ * Real.cos (m * (θ + S.lam θ ζ + S.iota * S.nu θ ζ) - n * (ζ + S.nu θ ζ))

/-- Sine amplitude as printed. -/
noncomputable def Surface.printedSin (S : Surface) (q : ℝ → ℝ → ℝ) (m n : ℤ) : ℝ :=
  1 / (4 * Real.pi ^ 2) * ∫ θ in (0 : ℝ)..2 * Real.pi, ∫ ζ in (0 : ℝ)..2 * Real.pi,
    S.det θ ζ * q θ ζ * Real.sin (m * (θ + S.lam θ ζ + S.iota * S.nu θ ζ) - n * (ζ + S.nu θ ζ))

/-- Truncation of the series in equation `Fourier_Boozer`, the sum being over *all* m, n with `|m| ≤ K`,
`|n| ≤ K nfp`, `n` a multiple of `nfp`. -/
noncomputable def fullSeries (nfp K : ℕ) (c s : ℤ → ℤ → ℝ) (t z : ℝ) : ℝ :=
  ∑ m ∈ Finset.Icc (-(K : ℤ)) K, ∑ n ∈ Finset.Icc (-(K : ℤ)) K,
    (s m (n * nfp) * Real.sin (m * t - (n * nfp : ℤ) * z) + c m (n * nfp) * Real.cos (m * t - (n * nfp : ℤ) * z))

/-- The quantities whose spectra are output: |B|, R, Z, ν and the Jacobian. -/
noncomputable def Surface.quantities (S : Surface) : List (ℝ → ℝ → ℝ) := [S.B, S.R, S.Z, S.nu, S.jacobian]

/-- Column `b` of the two matrices, restricted to the modes with `|m| ≤ K`, `|n| ≤ L` among the `nm` modes in
`xm`, `xn`, sums at the angles (t, z) to `x`. -/
def PartialSum (xm xn : Vec ℤ) (nm b K L : ℕ) (cosA sinA : Option (Mat ℝ)) (t z x : ℝ) : Prop :=
  ∃ (m n : ℕ → ℤ) (c s : ℕ → ℝ),
    (∀ k < nm, xm.rdN k = .ok (m k) ∧ xn.rdN k = .ok (n k) ∧ Coefficient cosA k b (c k) ∧ Coefficient sinA k b (s k)) ∧
    x = ∑ k ∈ (range nm).filter (fun k => |m k| ≤ K ∧ |n k| ≤ L),
      (c k * Real.cos (m k * t - n k * z) + s k * Real.sin (m k * t - n k * z))

/-- Such partial sums of the two series in place `b` of the outputs, taken at the Boozer angles of a point,
are within `e` of the quantities at that point, for all points. -/
def Reconstructs (o : Outputs ℝ) (S : Surface) (asym : Bool) (nm b K L : ℕ) (e : ℝ) : Prop :=
  ∀ θ ζ,
    let near (cosA sinA : Option (Mat ℝ)) (y : ℝ) : Prop :=
      ∃ x, PartialSum o.xm_b o.xn_b nm b K L cosA sinA (S.thetaB θ ζ) (S.zetaB θ ζ) x ∧ |y - x| ≤ e
    let ifAsym (a : Mat ℝ) : Option (Mat ℝ) := if asym then some a else none
    near (some o.spec.bmnc_b) (ifAsym o.spec.bmns_b) (S.B θ ζ) ∧
    near (some o.spec.rmnc_b) (ifAsym o.spec.rmns_b) (S.R θ ζ) ∧
    near (ifAsym o.spec.zmnc_b) (some o.spec.zmns_b) (S.Z θ ζ) ∧
    near (ifAsym o.spec.numnc_b) (some o.spec.numns_b) (S.nu θ ζ) ∧
    near (some o.spec.gmnc_b) (ifAsym o.spec.gmns_b) (S.jacobian θ ζ)

end Booz.Spec
