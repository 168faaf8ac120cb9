import Mathlib.Analysis.SpecialFunctions.Trigonometric.Basic
import Mathlib.Analysis.SpecialFunctions.Trigonometric.Deriv
import Verif.Spec.Ready

/-!
# Specification: the Boozer transformation of one flux surface, in real-number mathematics

Written from the theory section of the documentation (`/repo/docs/source/theory.rst`) and the member
documentation in `booz_xform.hpp`; it does not use the model of the code.
-/

open Finset

namespace Booz.Spec

/-- Double Fourier series with angle `m θ - n ζ`. -/
noncomputable def series (K : ℕ) (m n : ℕ → ℤ) (c s : ℕ → ℝ) (θ ζ : ℝ) : ℝ :=
  ∑ k ∈ range K, (c k * Real.cos (m k * θ - n k * ζ) + s k * Real.sin (m k * θ - n k * ζ))

/-- What the transformation needs to know about a surface: rotational transform, the two flux
functions `I`, `G`, and functions of the original angles (θ, ζ). -/
structure Surface where
  iota : ℝ
  I : ℝ
  G : ℝ
  /-- λ: θ + λ is a straight-field-line angle -/
  lam : ℝ → ℝ → ℝ
  /-- periodic part of the potential of the covariant field -/
  w : ℝ → ℝ → ℝ
  R : ℝ → ℝ → ℝ
  Z : ℝ → ℝ → ℝ
  B : ℝ → ℝ → ℝ

namespace Surface
variable (S : Surface)

/-- ν = ζ_B - ζ -/
noncomputable def nu (θ ζ : ℝ) : ℝ := (S.w θ ζ - S.I * S.lam θ ζ) / (S.G + S.iota * S.I)
/-- poloidal Boozer angle -/
noncomputable def thetaB (θ ζ : ℝ) : ℝ := θ + S.lam θ ζ + S.iota * S.nu θ ζ
/-- toroidal Boozer angle -/
noncomputable def zetaB (θ ζ : ℝ) : ℝ := ζ + S.nu θ ζ
/-- determinant of ∂(θ_B, ζ_B)/∂(θ, ζ) -/
noncomputable def det (θ ζ : ℝ) : ℝ :=
  deriv (fun t => S.thetaB t ζ) θ * deriv (fun z => S.zetaB θ z) ζ -
    deriv (fun z => S.thetaB θ z) ζ * deriv (fun t => S.zetaB t ζ) θ
/-- Jacobian of the Boozer coordinates with respect to the toroidal flux -/
noncomputable def jacobian (θ ζ : ℝ) : ℝ := (S.G + S.iota * S.I) / S.B θ ζ ^ 2

/-- Uniform-grid quadrature of the cosine harmonic (m, n) in Boozer angles of a quantity `q` given
as a function of the original angles: average of `q cos(m θ_B - n ζ_B)` over the Boozer angles,
times 2 unless m = n = 0, computed with `nt x nz` points of one field period. -/
noncomputable def quadCos (nt nz nfp : ℕ) (q : ℝ → ℝ → ℝ) (m n : ℤ) : ℝ :=
  (if m = 0 ∧ n = 0 then 1 else 2) / ((nt : ℝ) * nz) *
    ∑ a ∈ range nt, ∑ b ∈ range nz,
      let θ := 2 * Real.pi * a / nt
      let ζ := 2 * Real.pi * b / (nfp * nz)
      q θ ζ * S.det θ ζ * Real.cos (m * S.thetaB θ ζ - n * S.zetaB θ ζ)

/-- The same for the sine harmonic. -/
noncomputable def quadSin (nt nz nfp : ℕ) (q : ℝ → ℝ → ℝ) (m n : ℤ) : ℝ :=
  (if m = 0 ∧ n = 0 then 1 else 2) / ((nt : ℝ) * nz) *
    ∑ a ∈ range nt, ∑ b ∈ range nz,
      let θ := 2 * Real.pi * a / nt
      let ζ := 2 * Real.pi * b / (nfp * nz)
      q θ ζ * S.det θ ζ * Real.sin (m * S.thetaB θ ζ - n * S.zetaB θ ζ)

end Surface

/-! ## The surface described by the input arrays of an object -/

/-- Number of poloidal grid points. -/
def ntheta (M : ℕ) : ℕ := 4 * M + 2
/-- Number of toroidal grid points per field period. -/
def nzeta (N : ℕ) : ℕ := if N = 0 then 1 else 4 * N + 2

/-- Entry of an input matrix. -/
abbrev entry (a : Mat ℝ) (k js : ℕ) : ℝ := a.val 0 k js

/-- Coefficients of the asymmetric part: used only if `asym`. -/
def onlyIf (asym : Bool) (x : ℝ) : ℝ := if asym then x else 0

/-- Sine coefficient of `w` for a mode, from the covariant components `B_θ`, `B_ζ`. -/
noncomputable def wSin (m n : ℤ) (bu bv : ℝ) : ℝ :=
  if m ≠ 0 then bu / m else if n ≠ 0 then -bv / n else 0
/-- Cosine coefficient of `w` for a mode. -/
noncomputable def wCos (m n : ℤ) (bu bv : ℝ) : ℝ :=
  if m ≠ 0 then -bu / m else if n ≠ 0 then bv / n else 0

/-- The surface with index `js` described by the input members. -/
noncomputable def surface (I : Inputs ℝ) (asym : Bool) (js : ℕ) : Surface where
  iota := I.iota.val 0 js
  I := entry I.bsubumnc 0 js
  G := entry I.bsubvmnc 0 js
  lam := series I.xm.size (I.xm.val 0) (I.xn.val 0)
    (fun k => onlyIf asym (entry I.lmnc k js)) (fun k => entry I.lmns k js)
  w := series I.xm_nyq.size (I.xm_nyq.val 0) (I.xn_nyq.val 0)
    (fun k => onlyIf asym (wCos (I.xm_nyq.val 0 k) (I.xn_nyq.val 0 k)
      (entry I.bsubumns k js) (entry I.bsubvmns k js)))
    (fun k => wSin (I.xm_nyq.val 0 k) (I.xn_nyq.val 0 k)
      (entry I.bsubumnc k js) (entry I.bsubvmnc k js))
  R := series I.xm.size (I.xm.val 0) (I.xn.val 0)
    (fun k => entry I.rmnc k js) (fun k => onlyIf asym (entry I.rmns k js))
  Z := series I.xm.size (I.xm.val 0) (I.xn.val 0)
    (fun k => onlyIf asym (entry I.zmnc k js)) (fun k => entry I.zmns k js)
  B := series I.xm_nyq.size (I.xm_nyq.val 0) (I.xn_nyq.val 0)
    (fun k => entry I.bmnc k js) (fun k => onlyIf asym (entry I.bmns k js))

/-- Covariant poloidal field component of the input. -/
noncomputable def bTheta (I : Inputs ℝ) (asym : Bool) (js : ℕ) : ℝ → ℝ → ℝ :=
  series I.xm_nyq.size (I.xm_nyq.val 0) (I.xn_nyq.val 0)
    (fun k => entry I.bsubumnc k js) (fun k => onlyIf asym (entry I.bsubumns k js))

/-- Covariant toroidal field component of the input. -/
noncomputable def bZeta (I : Inputs ℝ) (asym : Bool) (js : ℕ) : ℝ → ℝ → ℝ :=
  series I.xm_nyq.size (I.xm_nyq.val 0) (I.xn_nyq.val 0)
    (fun k => entry I.bsubvmnc k js) (fun k => onlyIf asym (entry I.bsubvmns k js))

/-- Toroidal mode numbers are multiples of `nfp` (they are stored with the factor `nfp`,
`booz_xform.hpp:118-134`). -/
def FieldPeriodic {α : Type} (I : Inputs α) (nfp : ℕ) : Prop :=
  (∀ k < I.xn.size, (nfp : ℤ) ∣ I.xn.val 0 k) ∧ (∀ k < I.xn_nyq.size, (nfp : ℤ) ∣ I.xn_nyq.val 0 k)

/-- Among the Nyquist modes exactly the first is (0,0). -/
def OriginOnce {α : Type} (I : Inputs α) : Prop :=
  ∀ k < I.xm_nyq.size, (I.xm_nyq.val 0 k = 0 ∧ I.xn_nyq.val 0 k = 0) ↔ k = 0

/-- Input surface selected by entry `b` of `compute_surfs`. -/
def selected {α : Type} (I : Inputs α) (b : ℕ) : ℕ := (I.compute_surfs.val 0 b).toNat

end Booz.Spec
