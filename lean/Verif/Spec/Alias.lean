import Verif.Spec.Theory

/-!
# Specification: surfaces whose angles are already Boozer angles, and aliasing
-/

open Finset

namespace Booz.Spec

/-- The angles of the input are Boozer angles: λ has no harmonics and the covariant components only
their (0,0) harmonic, on input surface `js`. -/
structure AlreadyBoozer (I : Inputs ℝ) (asym : Bool) (js : ℕ) : Prop where
  lmns : ∀ k < I.xm.size, entry I.lmns k js = 0
  lmnc : asym = true → ∀ k < I.xm.size, entry I.lmnc k js = 0
  bsubumnc : ∀ k < I.xm_nyq.size, ¬ (I.xm_nyq.val 0 k = 0 ∧ I.xn_nyq.val 0 k = 0) → entry I.bsubumnc k js = 0
  bsubvmnc : ∀ k < I.xm_nyq.size, ¬ (I.xm_nyq.val 0 k = 0 ∧ I.xn_nyq.val 0 k = 0) → entry I.bsubvmnc k js = 0
  bsubumns : asym = true → ∀ k < I.xm_nyq.size, ¬ (I.xm_nyq.val 0 k = 0 ∧ I.xn_nyq.val 0 k = 0) →
    entry I.bsubumns k js = 0
  bsubvmns : asym = true → ∀ k < I.xm_nyq.size, ¬ (I.xm_nyq.val 0 k = 0 ∧ I.xn_nyq.val 0 k = 0) →
    entry I.bsubvmns k js = 0

/-- The two modes cannot be told apart on a grid of `nt x nz` points of one of `nfp` periods: their
angles differ by multiples of 2π at every grid point. -/
def Alias (nt nz nfp : ℕ) (m n m' n' : ℤ) : Prop :=
  (nt : ℤ) ∣ m - m' ∧ ((nfp * nz : ℕ) : ℤ) ∣ n - n'

instance (nt nz nfp : ℕ) (m n m' n' : ℤ) : Decidable (Alias nt nz nfp m n m' n') := by
  unfold Alias; infer_instance

/-- Cosine coefficient that the grid attributes to mode (m,n), of a series with coefficients `c`: all
modes aliased to (m,n) or to -(m,n) contribute. -/
noncomputable def foldCos (nt nz nfp K : ℕ) (ms ns : ℕ → ℤ) (c : ℕ → ℝ) (m n : ℤ) : ℝ :=
  ∑ k ∈ range K, if m = 0 ∧ n = 0 then (if Alias nt nz nfp (ms k) (ns k) 0 0 then c k else 0)
    else (if Alias nt nz nfp (ms k) (ns k) m n then c k else 0) +
      (if Alias nt nz nfp (ms k) (ns k) (-m) (-n) then c k else 0)

/-- The same for sine coefficients, which enter with opposite sign at -(m,n). -/
noncomputable def foldSin (nt nz nfp K : ℕ) (ms ns : ℕ → ℤ) (s : ℕ → ℝ) (m n : ℤ) : ℝ :=
  ∑ k ∈ range K, if m = 0 ∧ n = 0 then 0
    else (if Alias nt nz nfp (ms k) (ns k) m n then s k else 0) -
      (if Alias nt nz nfp (ms k) (ns k) (-m) (-n) then s k else 0)

/-- The input modes fit in the output resolution. -/
def Fits (M N nfp K : ℕ) (ms ns : ℕ → ℤ) : Prop :=
  ∀ k < K, (ms k).natAbs < M ∧ (ns k).natAbs ≤ N * nfp

/-- A coefficient read from column `b` of a matrix, or zero if there is no matrix. -/
def Coefficient (A : Option (Mat ℝ)) (k b : ℕ) (x : ℝ) : Prop :=
  match A with
  | some A => A.rdN k b = .ok x
  | none => x = 0

/-- The first `K` modes of `xm`, `xn` with the coefficients in column `b` of the two matrices form a
Fourier series of the function `f`. -/
def HasSeries (xm xn : Vec ℤ) (K b : ℕ) (cosA sinA : Option (Mat ℝ)) (f : ℝ → ℝ → ℝ) : Prop :=
  ∃ (m n : ℕ → ℤ) (c s : ℕ → ℝ),
    (∀ k < K, xm.rdN k = .ok (m k) ∧ xn.rdN k = .ok (n k) ∧ Coefficient cosA k b (c k) ∧
      Coefficient sinA k b (s k)) ∧
    ∀ θ ζ, series K m n c s θ ζ = f θ ζ

end Booz.Spec
