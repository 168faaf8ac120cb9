import Verif.Spec.BoozerAngles

/-!
# Resolutions which resolve the change of angles, and the sum of all output harmonics
-/

namespace Booz.Spec
open Finset

/-- The modes (m, n) with `m < M`, `|n| ≤ N` of the half plane: those of the output, up to the factor `nfp`. -/
noncomputable def outputModes (M N : ℕ) : Finset (ℤ × ℤ) :=
  (Finset.Ico (0 : ℤ) M ×ˢ Finset.Icc (-(N : ℤ)) N).filter fun k => k.1 = 0 → 0 ≤ k.2

/-- Sum of the double Fourier series over the output modes, the toroidal numbers being `n · nfp`. -/
noncomputable def outputSeries (nfp M N : ℕ) (c s : ℤ → ℤ → ℝ) (t z : ℝ) : ℝ :=
  ∑ k ∈ outputModes M N, (c k.1 (k.2 * nfp) * Real.cos (k.1 * t - (k.2 * nfp : ℤ) * z) +
    s k.1 (k.2 * nfp) * Real.sin (k.1 * t - (k.2 * nfp : ℤ) * z))

/-- The grid for `mboz = M`, `nboz = N` resolves the change of angles: along either angle the phases
`m θ_B - n ζ_B` with `|m| ≤ M`, `|n| ≤ N nfp` change by at most the fraction `ρ` of 2π per grid step (`2π/ntheta`
and `2π/(nfp nzeta)`), everywhere. -/
def Surface.ResolvedBy (S : Surface) (nfp M N : ℕ) (ρ : ℝ) : Prop :=
  ∀ θ ζ,
    M * |deriv (fun t => S.thetaB t ζ) θ| + N * nfp * |deriv (fun t => S.zetaB t ζ) θ| ≤ ρ * ntheta M ∧
    M * |deriv (fun z => S.thetaB θ z) ζ| + N * nfp * |deriv (fun z => S.zetaB θ z) ζ| ≤ ρ * (nfp * nzeta N)

/-- All input modes have toroidal number 0. -/
def Axisymmetric {α : Type} (I : Inputs α) : Prop :=
  (∀ k < I.xn.size, I.xn.val 0 k = 0) ∧ (∀ k < I.xn_nyq.size, I.xn_nyq.val 0 k = 0)

/-- For axisymmetric surfaces: the phases `m θ_B` with `|m| ≤ M` change by at most the fraction `ρ` of 2π per step of the
poloidal grid for `mboz = M`. -/
def Surface.PoloidallyResolvedBy (S : Surface) (M : ℕ) (ρ : ℝ) : Prop :=
  ∀ θ ζ, M * |deriv (fun t => S.thetaB t ζ) θ| ≤ ρ * ntheta M

end Booz.Spec
