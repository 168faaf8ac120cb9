import Verif.Spec.Resolution
import Verif.Lemmas.UniformQuad
import Verif.Lemmas.FourierRate
import Verif.Lemmas.StableLoad
import Verif.Props.BoozerAngles
import Verif.Props.Report

/-!
# C74: increasing mboz and nboz makes the error of the sum of all output harmonics, and the errors of the report, vanish
-/

namespace Booz
open Spec Trapezoid Finset Function

variable {S : Surface} {nfp : ℕ}

/-! ### Quadrature, uniformly in the mode -/

theorem fderiv_shift {F : ℝ × ℝ → ℝ} {v w : ℝ × ℝ} {k : ℝ} (h : ∀ x, F (x + v) = F x + k) :
    Periodic (fun x => fderiv ℝ F x w) v := by
  intro x
  show fderiv ℝ F (x + v) w = fderiv ℝ F x w
  rw [← fderiv_comp_add_right, ← fderiv_add_const (f := F) k]
  congr 2
  funext y
  exact h y

theorem angles (h : SmoothSurface S) (hl : PerF nfp S.lam) (hw : PerF nfp S.w) :
    Angles (2 * Real.pi) (2 * Real.pi / nfp) (uncurry S.thetaB) (uncurry S.zetaB) := by
  have hn := nu_per hl hw
  have a1 : ∀ x, uncurry S.thetaB (x + (2 * Real.pi, 0)) = uncurry S.thetaB x + 2 * Real.pi := by
    rintro ⟨θ, ζ⟩
    show S.thetaB (θ + 2 * Real.pi) (ζ + 0) = S.thetaB θ ζ + 2 * Real.pi
    rw [add_zero]
    unfold Surface.thetaB
    rw [hl.1, hn.1]
    ring
  have a2 : ∀ x, uncurry S.thetaB (x + (0, 2 * Real.pi / nfp)) = uncurry S.thetaB x + 0 := by
    rintro ⟨θ, ζ⟩
    show S.thetaB (θ + 0) (ζ + 2 * Real.pi / nfp) = S.thetaB θ ζ + 0
    rw [add_zero, add_zero]
    unfold Surface.thetaB
    rw [hl.2, hn.2]
  have z1 : ∀ x, uncurry S.zetaB (x + (2 * Real.pi, 0)) = uncurry S.zetaB x + 0 := by
    rintro ⟨θ, ζ⟩
    show S.zetaB (θ + 2 * Real.pi) (ζ + 0) = S.zetaB θ ζ + 0
    rw [add_zero, add_zero]
    unfold Surface.zetaB
    rw [hn.1]
  have z2 : ∀ x, uncurry S.zetaB (x + (0, 2 * Real.pi / nfp)) = uncurry S.zetaB x + 2 * Real.pi / nfp := by
    rintro ⟨θ, ζ⟩
    show S.zetaB (θ + 0) (ζ + 2 * Real.pi / nfp) = S.zetaB θ ζ + 2 * Real.pi / nfp
    rw [add_zero]
    unfold Surface.zetaB
    rw [hn.2]
    ring
  exact ⟨h.thetaB, h.zetaB, ⟨fderiv_shift a1, fderiv_shift a2⟩, ⟨fderiv_shift a1, fderiv_shift a2⟩,
    ⟨fderiv_shift z1, fderiv_shift z2⟩, ⟨fderiv_shift z1, fderiv_shift z2⟩⟩

/-- Over the periods the phases increase by multiples of 2π. -/
theorem phase_per (hp : 1 ≤ nfp) (hl : PerF nfp S.lam) (hw : PerF nfp S.w) (m n : ℤ) (φ : ℝ) (x : ℝ × ℝ) :
    Complex.exp (phase (uncurry S.thetaB) (uncurry S.zetaB) m ((n * nfp : ℤ) : ℝ) φ (x + (2 * Real.pi, 0)) * Complex.I) =
      Complex.exp (phase (uncurry S.thetaB) (uncurry S.zetaB) m ((n * nfp : ℤ) : ℝ) φ x * Complex.I) ∧
    Complex.exp (phase (uncurry S.thetaB) (uncurry S.zetaB) m ((n * nfp : ℤ) : ℝ) φ (x + (0, 2 * Real.pi / nfp)) * Complex.I) =
      Complex.exp (phase (uncurry S.thetaB) (uncurry S.zetaB) m ((n * nfp : ℤ) : ℝ) φ x * Complex.I) := by
  have hp' : (1 : ℝ) ≤ nfp := by exact_mod_cast hp
  have hnu := nu_per hl hw
  obtain ⟨θ, ζ⟩ := x
  constructor
  · have e : phase (uncurry S.thetaB) (uncurry S.zetaB) m ((n * nfp : ℤ) : ℝ) φ ((θ, ζ) + (2 * Real.pi, 0)) =
        phase (uncurry S.thetaB) (uncurry S.zetaB) m ((n * nfp : ℤ) : ℝ) φ (θ, ζ) + m * (2 * Real.pi) := by
      show (m : ℝ) * S.thetaB (θ + 2 * Real.pi) (ζ + 0) - _ * S.zetaB (θ + 2 * Real.pi) (ζ + 0) + φ = _
      rw [add_zero, angle_shift_t hl hw]
      show _ = (m : ℝ) * S.thetaB θ ζ - _ * S.zetaB θ ζ + φ + _
      ring
    rw [e]
    have e2 : ((phase (uncurry S.thetaB) (uncurry S.zetaB) m ((n * nfp : ℤ) : ℝ) φ (θ, ζ) + m * (2 * Real.pi) : ℝ) : ℂ) *
        Complex.I = (phase (uncurry S.thetaB) (uncurry S.zetaB) m ((n * nfp : ℤ) : ℝ) φ (θ, ζ) : ℂ) * Complex.I +
          m * (2 * Real.pi * Complex.I) := by
      push_cast
      ring
    rw [e2, Complex.exp_add, Complex.exp_int_mul_two_pi_mul_I, mul_one]
  · have e : phase (uncurry S.thetaB) (uncurry S.zetaB) m ((n * nfp : ℤ) : ℝ) φ ((θ, ζ) + (0, 2 * Real.pi / nfp)) =
        phase (uncurry S.thetaB) (uncurry S.zetaB) m ((n * nfp : ℤ) : ℝ) φ (θ, ζ) + (-n : ℤ) * (2 * Real.pi) := by
      show (m : ℝ) * S.thetaB (θ + 0) (ζ + 2 * Real.pi / nfp) - ((n * nfp : ℤ) : ℝ) * S.zetaB (θ + 0) (ζ + 2 * Real.pi / nfp) + φ =
        (m : ℝ) * S.thetaB θ ζ - ((n * nfp : ℤ) : ℝ) * S.zetaB θ ζ + φ + _
      unfold Surface.thetaB Surface.zetaB
      rw [add_zero, hl.2, hnu.2]
      push_cast
      field_simp
      ring
    rw [e]
    have e2 : ((phase (uncurry S.thetaB) (uncurry S.zetaB) m ((n * nfp : ℤ) : ℝ) φ (θ, ζ) + (-n : ℤ) * (2 * Real.pi) : ℝ) : ℂ) *
        Complex.I = (phase (uncurry S.thetaB) (uncurry S.zetaB) m ((n * nfp : ℤ) : ℝ) φ (θ, ζ) : ℂ) * Complex.I +
          (-n : ℤ) * (2 * Real.pi * Complex.I) := by
      push_cast
      ring
    rw [e2, Complex.exp_add, Complex.exp_int_mul_two_pi_mul_I, mul_one]

/-- The modes of the output are resolved. -/
theorem resolved (hp : 1 ≤ nfp) (h : SmoothSurface S) (hl : PerF nfp S.lam) (hw : PerF nfp S.w) {c ρ : ℝ} {M N : ℕ}
    (hM : 1 ≤ M) (hN : 1 ≤ N) (hMN : (M : ℝ) ≤ c * N) (hNM : (N : ℝ) ≤ c * M) (hr : S.ResolvedBy nfp M N ρ) {m n : ℤ}
    (hm : |m| ≤ M) (hn : |n| ≤ N) :
    Resolved (2 * Real.pi) (2 * Real.pi / nfp) (uncurry S.thetaB) (uncurry S.zetaB) (nfp * (1 + c)) ρ (ntheta M) (nzeta N)
      m ((n * nfp : ℤ) : ℝ) := by
  have hpi := Real.pi_pos
  have hp' : (1 : ℝ) ≤ nfp := by exact_mod_cast hp
  have hM' : (1 : ℝ) ≤ M := by exact_mod_cast hM
  have hN' : (1 : ℝ) ≤ N := by exact_mod_cast hN
  have hc : 0 ≤ c := by
    by_contra hc
    push Not at hc
    nlinarith
  have ht : (M : ℝ) ≤ ntheta M := by
    have : M ≤ ntheta M := by unfold ntheta; omega
    exact_mod_cast this
  have hz : (N : ℝ) ≤ nzeta N := by
    have : N ≤ nzeta N := by unfold nzeta; split <;> omega
    exact_mod_cast this
  have hm' : |(m : ℝ)| ≤ M := by
    rw [← Int.cast_abs]
    exact_mod_cast hm
  have hn' : |((n * nfp : ℤ) : ℝ)| ≤ N * nfp := by
    push_cast
    rw [abs_mul, Nat.abs_cast, ← Int.cast_abs]
    refine mul_le_mul_of_nonneg_right ?_ (by positivity)
    exact_mod_cast hn
  refine ⟨ntheta_pos M, nzeta_pos N, ?_, ?_, ?_, ?_, ?_, ?_, ?_, ?_⟩
  · nlinarith [mul_nonneg hc (by linarith : (0 : ℝ) ≤ ntheta M), mul_nonneg (by linarith : (0 : ℝ) ≤ (nfp : ℝ) - 1)
      (mul_nonneg (by linarith : (0 : ℝ) ≤ 1 + c) (by linarith : (0 : ℝ) ≤ ntheta M))]
  · have : c * N ≤ c * nzeta N := mul_le_mul_of_nonneg_left hz hc
    nlinarith [mul_nonneg hc (by linarith : (0 : ℝ) ≤ nzeta N), mul_nonneg (by linarith : (0 : ℝ) ≤ (nfp : ℝ) - 1)
      (mul_nonneg (by linarith : (0 : ℝ) ≤ 1 + c) (by linarith : (0 : ℝ) ≤ nzeta N))]
  · have : c * M ≤ c * ntheta M := mul_le_mul_of_nonneg_left ht hc
    have h1 : (N : ℝ) ≤ (1 + c) * ntheta M := by linarith
    calc _ ≤ (N : ℝ) * nfp := hn'
      _ ≤ (1 + c) * ntheta M * nfp := mul_le_mul_of_nonneg_right h1 (by positivity)
      _ = _ := by ring
  · have h1 : (N : ℝ) ≤ (1 + c) * nzeta N := by
      nlinarith [mul_nonneg hc (by linarith : (0 : ℝ) ≤ nzeta N)]
    calc _ ≤ (N : ℝ) * nfp := hn'
      _ ≤ (1 + c) * nzeta N * nfp := mul_le_mul_of_nonneg_right h1 (by positivity)
      _ = _ := by ring
  · exact fun φ x => (phase_per hp hl hw m n φ x).1
  · exact fun φ x => (phase_per hp hl hw m n φ x).2
  · rintro ⟨θ, ζ⟩
    have := (hr θ ζ).1
    rw [show deriv (fun t => S.thetaB t ζ) θ = _ from (h.thetaB.hasDeriv1 θ ζ).deriv,
      show deriv (fun t => S.zetaB t ζ) θ = _ from (h.zetaB.hasDeriv1 θ ζ).deriv] at this
    have b : |(m : ℝ) * D1 (uncurry S.thetaB) (θ, ζ) - ((n * nfp : ℤ) : ℝ) * D1 (uncurry S.zetaB) (θ, ζ)| ≤ ρ * ntheta M := by
      refine (abs_sub _ _).trans (le_trans ?_ this)
      rw [abs_mul, abs_mul]
      exact add_le_add (mul_le_mul_of_nonneg_right hm' (abs_nonneg _)) (mul_le_mul_of_nonneg_right hn' (abs_nonneg _))
    calc _ ≤ ρ * ntheta M * (2 * Real.pi) := mul_le_mul_of_nonneg_right b (by positivity)
      _ = _ := by ring
  · rintro ⟨θ, ζ⟩
    have := (hr θ ζ).2
    rw [show deriv (fun z => S.thetaB θ z) ζ = _ from (h.thetaB.hasDeriv2 θ ζ).deriv,
      show deriv (fun z => S.zetaB θ z) ζ = _ from (h.zetaB.hasDeriv2 θ ζ).deriv] at this
    have b : |(m : ℝ) * D2 (uncurry S.thetaB) (θ, ζ) - ((n * nfp : ℤ) : ℝ) * D2 (uncurry S.zetaB) (θ, ζ)| ≤
        ρ * (nfp * nzeta N) := by
      refine (abs_sub _ _).trans (le_trans ?_ this)
      rw [abs_mul, abs_mul]
      exact add_le_add (mul_le_mul_of_nonneg_right hm' (abs_nonneg _)) (mul_le_mul_of_nonneg_right hn' (abs_nonneg _))
    calc _ ≤ ρ * (nfp * nzeta N) * (2 * Real.pi / nfp) := mul_le_mul_of_nonneg_right b (by positivity)
      _ = _ := by field_simp

/-- Error of the quadrature, with one constant for all grids and all modes resolved by them. -/
theorem quad_resolved (hp : 1 ≤ nfp) (h : SmoothSurface S) (hl : PerF nfp S.lam) (hw : PerF nfp S.w)
    {q : ℝ → ℝ → ℝ} (hq : PerF nfp q) (hqs : Smooth (uncurry q)) (c : ℝ) {ρ : ℝ} (hρ : ρ < 1) {p : ℕ} (hp2 : 2 ≤ p) :
    ∃ C, 0 ≤ C ∧ ∀ (n1 n2 : ℕ) (m n : ℤ),
      Resolved (2 * Real.pi) (2 * Real.pi / nfp) (uncurry S.thetaB) (uncurry S.zetaB) c ρ n1 n2 m ((n * nfp : ℤ) : ℝ) →
      |S.quadCos n1 n2 nfp q m (n * nfp) - S.integralCos q m (n * nfp)| ≤ C * ((1 / (n1 : ℝ)) ^ p + (1 / (n2 : ℝ)) ^ p) ∧
      |S.quadSin n1 n2 nfp q m (n * nfp) - S.integralSin q m (n * nfp)| ≤ C * ((1 / (n1 : ℝ)) ^ p + (1 / (n2 : ℝ)) ^ p) := by
  have hP : 0 < 2 * Real.pi := by positivity
  have hQ : 0 < 2 * Real.pi / nfp := by positivity
  have pd : PerF nfp S.det := det_per hl hw
  have pg : DPer (2 * Real.pi) (2 * Real.pi / nfp) (uncurry fun θ ζ => q θ ζ * S.det θ ζ) := hq.dper.mul pd.dper
  obtain ⟨C, hC0, hC⟩ := grid_uniform hP hQ (angles h hl hw) pg (hqs.mul h.det) c hρ hp2
  refine ⟨2 * C, by positivity, fun n1 n2 m n rs => ?_⟩
  have dv : (nfp : ℤ) ∣ n * nfp := dvd_mul_left _ _
  set f : ℝ := if m = 0 ∧ n * (nfp : ℤ) = 0 then 1 else 2 with hf
  have hf2 : |f| ≤ 2 := by rw [hf]; split <;> norm_num
  have fin : ∀ x : ℝ, |x| ≤ C * ((1 / (n1 : ℝ)) ^ p + (1 / (n2 : ℝ)) ^ p) → |f * x| ≤ 2 * C * ((1 / (n1 : ℝ)) ^ p + (1 / (n2 : ℝ)) ^ p) := by
    intro x hx
    rw [abs_mul, mul_assoc]
    exact mul_le_mul hf2 hx (abs_nonneg _) (by norm_num)
  have eC : (fun x => uncurry (fun θ ζ => q θ ζ * S.det θ ζ) x *
      Real.cos (phase (uncurry S.thetaB) (uncurry S.zetaB) m ((n * nfp : ℤ) : ℝ) 0 x)) = uncurry (intC S q m (n * nfp)) := by
    funext ⟨θ, ζ⟩
    unfold phase
    rw [add_zero]
    rfl
  have eS : (fun x => uncurry (fun θ ζ => q θ ζ * S.det θ ζ) x *
      Real.cos (phase (uncurry S.thetaB) (uncurry S.zetaB) m ((n * nfp : ℤ) : ℝ) (-(Real.pi / 2)) x)) =
        uncurry (intS S q m (n * nfp)) := by
    funext ⟨θ, ζ⟩
    unfold phase
    rw [← sub_eq_add_neg, Real.cos_sub_pi_div_two]
    rfl
  constructor
  · have := hC _ _ _ _ 0 rs
    rw [eC] at this
    have := fin _ this
    rw [gridMean_eq, mean2_eq hp (intC_per hp hl hw hq m _ dv) (h.intC hqs m _).continuous, mul_sub, ← mul_assoc,
      ← mul_assoc, mul_one_div, mul_one_div] at this
    exact this
  · have := hC _ _ _ _ (-(Real.pi / 2)) rs
    rw [eS] at this
    have := fin _ this
    rw [gridMean_eq, mean2_eq hp (intS_per hp hl hw hq m _ dv) (h.intS hqs m _).continuous, mul_sub, ← mul_assoc,
      ← mul_assoc, mul_one_div, mul_one_div] at this
    exact this

/-- Error of the quadrature, with one constant for all resolutions and all their modes. -/
theorem quad_uniform (hp : 1 ≤ nfp) (h : SmoothSurface S) (hl : PerF nfp S.lam) (hw : PerF nfp S.w)
    {q : ℝ → ℝ → ℝ} (hq : PerF nfp q) (hqs : Smooth (uncurry q)) (c : ℝ) {ρ : ℝ} (hρ : ρ < 1) {p : ℕ} (hp2 : 2 ≤ p) :
    ∃ C, 0 ≤ C ∧ ∀ M N : ℕ, 1 ≤ M → 1 ≤ N → (M : ℝ) ≤ c * N → (N : ℝ) ≤ c * M → S.ResolvedBy nfp M N ρ →
      ∀ m n : ℤ, |m| ≤ M → |n| ≤ N →
      |S.quadCos (ntheta M) (nzeta N) nfp q m (n * nfp) - S.integralCos q m (n * nfp)| ≤ C * gridError M N p ∧
      |S.quadSin (ntheta M) (nzeta N) nfp q m (n * nfp) - S.integralSin q m (n * nfp)| ≤ C * gridError M N p := by
  obtain ⟨C, hC0, hC⟩ := quad_resolved hp h hl hw hq hqs (nfp * (1 + c)) hρ hp2
  exact ⟨C, hC0, fun M N hM hN hMN hNM hr m n hm hn => hC _ _ m n (resolved hp h hl hw hM hN hMN hNM hr hm hn)⟩

/-! ### The Fourier series, with its rate of convergence -/

/-- All modes of a rectangle. -/
noncomputable def rect (M N : ℕ) : Finset (ℤ × ℤ) := Finset.Ioo (-(M : ℤ)) M ×ˢ Finset.Icc (-(N : ℤ)) N

theorem rect_half (M N : ℕ) : halfOf (rect M N) = outputModes M N := by
  ext k
  unfold halfOf rect outputModes
  simp only [Finset.mem_filter, Finset.mem_product, Finset.mem_Icc, Finset.mem_Ioo, Finset.mem_Ico]
  omega

/-- Sum of the series with the integrals of the theory section as coefficients. -/
theorem series_rate (hp : 1 ≤ nfp) (h : SmoothSurface S) (hl : PerF nfp S.lam) (hw : PerF nfp S.w)
    (hd : ∀ θ ζ, S.det θ ζ ≠ 0) {q : ℝ → ℝ → ℝ} (hq : PerF nfp q) (hqs : Smooth (uncurry q)) (p : ℕ) :
    ∃ C, 0 ≤ C ∧ ∀ M N : ℕ, 1 ≤ M → ∀ θ ζ,
      |q θ ζ - outputSeries nfp M N (S.integralCos q) (S.integralSin q) (S.thetaB θ ζ) (S.zetaB θ ζ)| ≤
        C * ((1 / (M : ℝ)) ^ p + (1 / ((N : ℝ) + 1)) ^ p) := by
  have hc := coordinates hp h hl hw hd
  obtain ⟨f, ⟨hf, sf, p1, p2⟩, -⟩ := hc.express q hqs hq.1 hq.2
  have pf : PerF nfp f := ⟨p1, p2⟩
  have hft : TorusFn f := by
    have := pf.torus hp
    exact ⟨p1, fun t z => by simpa using this.2 (t, z)⟩
  obtain ⟨F, sF, pF, e0, e1⟩ := field_terms hp sf pf
  obtain ⟨C, hC0, hC⟩ := fourier_rate sF pF p
  refine ⟨C, hC0, fun M N hM θ ζ => ?_⟩
  have i1 : S.integralCos q = fourierCos f := by
    funext m n
    exact (integral_fourier hp h hl hw sf.continuous hft hf m n).1
  have i2 : S.integralSin q = fourierSin f := by
    funext m n
    exact (integral_fourier hp h hl hw sf.continuous hft hf m n).2
  have hM' : (1 : ℝ) ≤ M := by exact_mod_cast hM
  have sub : box (min (M - 1) N) ⊆ rect M N := by
    intro k hk
    rw [mem_box, abs_le, abs_le] at hk
    unfold rect
    rw [Finset.mem_product, Finset.mem_Ioo, Finset.mem_Icc]
    push_cast at hk
    omega
  have sym : ∀ k ∈ rect M N, -k ∈ rect M N := by
    intro k hk
    unfold rect at hk ⊢
    rw [Finset.mem_product, Finset.mem_Ioo, Finset.mem_Icc] at hk ⊢
    simp only [Prod.fst_neg, Prod.snd_neg]
    omega
  have := hC (min (M - 1) N) (rect M N) sub sym (S.thetaB θ ζ, S.zetaB θ ζ * nfp)
  rw [e0, hf, rect_half] at this
  rw [i1, i2]
  have e2 : outputSeries nfp M N (fourierCos f) (fourierSin f) (S.thetaB θ ζ) (S.zetaB θ ζ) =
      ∑ k ∈ outputModes M N, (if k = 0 then 1 else 2) * term F k (S.thetaB θ ζ, S.zetaB θ ζ * nfp) :=
    sum_congr rfl fun k _ => (e1 k _ _).symm
  rw [e2]
  refine this.trans (mul_le_mul_of_nonneg_left ?_ hC0)
  rcases le_total (M - 1) N with hMN | hMN
  · rw [min_eq_left hMN, Nat.cast_sub hM, Nat.cast_one, sub_add_cancel]
    have : 0 ≤ (1 / ((N : ℝ) + 1)) ^ p := by positivity
    linarith
  · rw [min_eq_right hMN]
    have : 0 ≤ (1 / (M : ℝ)) ^ p := by positivity
    linarith

theorem outputModes_card (M N : ℕ) : (outputModes M N).card ≤ M * (2 * N + 1) := by
  unfold outputModes
  refine (Finset.card_filter_le _ _).trans ?_
  rw [Finset.card_product, Int.card_Ico, Int.card_Icc]
  refine Nat.mul_le_mul (by omega) (by omega)

theorem outputModes_le {M N : ℕ} {k : ℤ × ℤ} (hk : k ∈ outputModes M N) : |k.1| ≤ M ∧ |k.2| ≤ N := by
  unfold outputModes at hk
  rw [Finset.mem_filter, Finset.mem_product, Finset.mem_Ico, Finset.mem_Icc] at hk
  rw [abs_le, abs_le]
  omega

/-- Sum of the series with the quadratures as coefficients. -/
theorem output_rate (hp : 1 ≤ nfp) (h : SmoothSurface S) (hl : PerF nfp S.lam) (hw : PerF nfp S.w)
    (hd : ∀ θ ζ, S.det θ ζ ≠ 0) {q : ℝ → ℝ → ℝ} (hq : PerF nfp q) (hqs : Smooth (uncurry q)) {c : ℝ} (hc : 0 ≤ c) {ρ : ℝ}
    (hρ : ρ < 1) (p : ℕ) :
    ∃ C, 0 ≤ C ∧ ∀ M N : ℕ, 1 ≤ M → 1 ≤ N → (M : ℝ) ≤ c * N → (N : ℝ) ≤ c * M → S.ResolvedBy nfp M N ρ → ∀ θ ζ,
      |q θ ζ - outputSeries nfp M N (S.quadCos (ntheta M) (nzeta N) nfp q) (S.quadSin (ntheta M) (nzeta N) nfp q)
        (S.thetaB θ ζ) (S.zetaB θ ζ)| ≤ C * (1 / (M : ℝ)) ^ p := by
  obtain ⟨C1, hC1, h1⟩ := series_rate hp h hl hw hd hq hqs p
  obtain ⟨C2, hC2, h2⟩ := quad_uniform hp h hl hw hq hqs c hρ (p := p + 2) (by omega)
  refine ⟨C1 * (1 + c ^ p) + 2 * C2 * (1 + c ^ (p + 2)) * (2 * c + 1), by positivity, fun M N hM hN hMN hNM hr θ ζ => ?_⟩
  have hM' : (1 : ℝ) ≤ M := by exact_mod_cast hM
  have hN' : (1 : ℝ) ≤ N := by exact_mod_cast hN
  have inv : ∀ x : ℝ, (N : ℝ) ≤ x → 1 / x ≤ c * (1 / M) := by
    intro x hx
    rw [mul_one_div, div_le_div_iff₀ (by linarith) (by linarith), one_mul]
    exact hMN.trans (mul_le_mul_of_nonneg_left hx hc)
  have a1 := h1 M N hM θ ζ
  have a2 : |outputSeries nfp M N (S.integralCos q) (S.integralSin q) (S.thetaB θ ζ) (S.zetaB θ ζ) -
      outputSeries nfp M N (S.quadCos (ntheta M) (nzeta N) nfp q) (S.quadSin (ntheta M) (nzeta N) nfp q)
        (S.thetaB θ ζ) (S.zetaB θ ζ)| ≤ (outputModes M N).card * (2 * (C2 * gridError M N (p + 2))) := by
    unfold outputSeries
    rw [← sum_sub_distrib]
    refine (abs_sum_le_sum_abs _ _).trans ?_
    rw [← nsmul_eq_mul]
    refine Finset.sum_le_card_nsmul _ _ _ fun k hk => ?_
    obtain ⟨b1, b2⟩ := outputModes_le hk
    obtain ⟨g1, g2⟩ := h2 M N hM hN hMN hNM hr k.1 k.2 b1 b2
    set ph := (k.1 : ℝ) * S.thetaB θ ζ - (k.2 * nfp : ℤ) * S.zetaB θ ζ
    rw [abs_sub_comm] at g1 g2
    have e : ∀ x x' y y' : ℝ, x * Real.cos ph + y * Real.sin ph - (x' * Real.cos ph + y' * Real.sin ph) =
        (x - x') * Real.cos ph + (y - y') * Real.sin ph := fun x x' y y' => by ring
    rw [e, two_mul]
    refine (abs_add_le _ _).trans (add_le_add ?_ ?_)
    · rw [abs_mul]
      exact (mul_le_of_le_one_right (abs_nonneg _) (Real.abs_cos_le_one _)).trans g1
    · rw [abs_mul]
      exact (mul_le_of_le_one_right (abs_nonneg _) (Real.abs_sin_le_one _)).trans g2
  have ge : gridError M N (p + 2) ≤ (1 + c ^ (p + 2)) * (1 / (M : ℝ)) ^ (p + 2) := by
    unfold gridError
    have ht : (M : ℝ) ≤ ntheta M := by
      have : M ≤ ntheta M := by unfold ntheta; omega
      exact_mod_cast this
    have hz : (N : ℝ) ≤ nzeta N := by
      have : N ≤ nzeta N := by unfold nzeta; split <;> omega
      exact_mod_cast this
    have i1 : (1 / (ntheta M : ℝ)) ^ (p + 2) ≤ (1 / (M : ℝ)) ^ (p + 2) :=
      pow_le_pow_left₀ (by positivity) (one_div_le_one_div_of_le (by linarith) ht) _
    have i2 : (1 / (nzeta N : ℝ)) ^ (p + 2) ≤ (c * (1 / (M : ℝ))) ^ (p + 2) :=
      pow_le_pow_left₀ (by positivity) (inv _ hz) _
    rw [mul_pow] at i2
    linarith
  have cd : ((outputModes M N).card : ℝ) ≤ (2 * c + 1) * (M : ℝ) ^ 2 := by
    have : ((outputModes M N).card : ℝ) ≤ (M * (2 * N + 1) : ℕ) := by exact_mod_cast outputModes_card M N
    push_cast at this
    nlinarith
  have a3 : (outputModes M N).card * (2 * (C2 * gridError M N (p + 2))) ≤
      2 * C2 * (1 + c ^ (p + 2)) * (2 * c + 1) * (1 / (M : ℝ)) ^ p := by
    have hg : 0 ≤ gridError M N (p + 2) := by unfold gridError; positivity
    calc _ ≤ ((2 * c + 1) * (M : ℝ) ^ 2) * (2 * (C2 * ((1 + c ^ (p + 2)) * (1 / (M : ℝ)) ^ (p + 2)))) := by
          refine mul_le_mul cd ?_ (by positivity) (by positivity)
          exact mul_le_mul_of_nonneg_left (mul_le_mul_of_nonneg_left ge hC2) (by norm_num)
      _ = _ := by
          have e : (M : ℝ) ^ 2 * (1 / (M : ℝ)) ^ 2 = 1 := by
            rw [← mul_pow, mul_one_div_cancel (by linarith), one_pow]
          rw [pow_add]
          linear_combination 2 * C2 * (1 + c ^ (p + 2)) * (2 * c + 1) * (1 / (M : ℝ)) ^ p * e
  have a4 : C1 * ((1 / (M : ℝ)) ^ p + (1 / ((N : ℝ) + 1)) ^ p) ≤ C1 * (1 + c ^ p) * (1 / (M : ℝ)) ^ p := by
    have i2 : (1 / ((N : ℝ) + 1)) ^ p ≤ (c * (1 / (M : ℝ))) ^ p :=
      pow_le_pow_left₀ (by positivity) (inv _ (by linarith)) _
    rw [mul_pow] at i2
    rw [mul_assoc]
    exact mul_le_mul_of_nonneg_left (by linarith) hC1
  have := abs_sub_le (q θ ζ) (outputSeries nfp M N (S.integralCos q) (S.integralSin q) (S.thetaB θ ζ) (S.zetaB θ ζ))
    (outputSeries nfp M N (S.quadCos (ntheta M) (nzeta N) nfp q) (S.quadSin (ntheta M) (nzeta N) nfp q)
        (S.thetaB θ ζ) (S.zetaB θ ζ))
  rw [add_mul]
  linarith

/-! ### Runs -/

/-- All output modes are below the bounds `mboz`, `nboz * nfp`; sums over them are sums over `outputModes`. -/
theorem sum_all (d : Dims) (hM : 1 ≤ d.M) (hp : 1 ≤ d.nfp) (g : ℤ → ℤ → ℝ) :
    ∑ k ∈ (range d.nmodes).filter (fun k => |(modeM d.N k : ℤ)| ≤ d.M ∧ |modeN d.N k * d.nfp| ≤ (d.N * d.nfp : ℕ)),
      g (modeM d.N k) (modeN d.N k * d.nfp) = ∑ k ∈ outputModes d.M d.N, g k.1 (k.2 * d.nfp) := by
  have hp0 : (0 : ℤ) < d.nfp := by exact_mod_cast hp
  have all : ∀ k < d.nmodes, (0 : ℤ) ≤ modeM d.N k ∧ (modeM d.N k : ℤ) < d.M ∧ -(d.N : ℤ) ≤ modeN d.N k ∧
      modeN d.N k ≤ d.N ∧ ((modeM d.N k : ℤ) = 0 → 0 ≤ modeN d.N k) := by
    intro k hk
    obtain ⟨i1, i2, n', e, i3, i4, i5⟩ := (modePair_mem d hM hp _).1 ⟨k, hk, rfl⟩
    have e : modeN d.N k = n' := mul_right_cancel₀ hp0.ne' e
    subst e
    exact ⟨i1, i2, i3, i4, i5⟩
  rw [Finset.filter_true_of_mem]
  · refine sum_nbij (fun k => ((modeM d.N k : ℤ), modeN d.N k)) ?_ ?_ ?_ ?_
    · intro k hk
      obtain ⟨i1, i2, i3, i4, i5⟩ := all k (mem_range.1 hk)
      unfold outputModes
      rw [mem_filter, mem_product, mem_Ico, mem_Icc]
      exact ⟨⟨⟨i1, i2⟩, i3, i4⟩, i5⟩
    · intro i hi j hj e
      simp only [Prod.mk.injEq] at e
      by_contra hne
      rcases Nat.lt_or_gt_of_ne hne with hlt | hlt
      · have := modePair_lex d hp hlt
        unfold Spec.Lex at this
        simp only [e.1, e.2, lt_irrefl, and_false, or_false] at this
      · have := modePair_lex d hp hlt
        unfold Spec.Lex at this
        simp only [e.1, e.2, lt_irrefl, and_false, or_false] at this
    · rintro ⟨m, n⟩ hk
      have hk : (m, n) ∈ outputModes d.M d.N := hk
      unfold outputModes at hk
      rw [mem_filter, mem_product, mem_Ico, mem_Icc] at hk
      obtain ⟨⟨⟨a1, a2⟩, a3, a4⟩, a5⟩ := hk
      obtain ⟨k, hk, e⟩ := (modePair_mem d hM hp (m, n * d.nfp)).2 ⟨a1, a2, n, rfl, a3, a4, a5⟩
      obtain ⟨e1, e2⟩ := Prod.mk.inj e
      have e2 : modeN d.N k = n := mul_right_cancel₀ hp0.ne' e2
      exact ⟨k, mem_coe.2 (mem_range.2 hk), Prod.ext e1 e2⟩
    · exact fun _ _ => rfl
  · intro k hk
    obtain ⟨i1, i2, i3, i4, -⟩ := all k (mem_range.1 hk)
    rw [abs_of_nonneg i1, abs_mul, abs_of_pos hp0, Nat.cast_mul, mul_le_mul_iff_of_pos_right hp0, abs_le]
    exact ⟨i2.le, i3, i4⟩

/-- The sum of all output harmonics. -/
theorem fullSum_run {s : St ℝ} {d : Dims} (h : RunReady s.inp d) {b : ℕ} {cosA sinA : Option (Mat ℝ)} {c t : ℤ → ℤ → ℝ}
    (hc : ∀ k < d.nmodes, Coefficient cosA k b (c (modeM d.N k) (modeN d.N k * d.nfp)))
    (hs : ∀ k < d.nmodes, Coefficient sinA k b (t (modeM d.N k) (modeN d.N k * d.nfp))) (x y : ℝ) :
    PartialSum (runSt d s d.nsb).out.xm_b (runSt d s d.nsb).out.xn_b d.nmodes b d.M (d.N * d.nfp) cosA sinA x y
      (outputSeries d.nfp d.M d.N c t x y) := by
  refine ⟨fun k => modeM d.N k, fun k => modeN d.N k * d.nfp, fun k => c (modeM d.N k) (modeN d.N k * d.nfp),
    fun k => t (modeM d.N k) (modeN d.N k * d.nfp), fun k hk => ⟨Vec.rdN_tab hk, Vec.rdN_tab hk, hc k hk, hs k hk⟩, ?_⟩
  exact (sum_all d h.mboz_ge h.nfp_pos fun m n => c m n * Real.cos (m * x - n * y) +
    t m n * Real.sin (m * x - n * y)).symm

/-- One constant for all quantities of a surface. -/
theorem surface_rate {I : Inputs ℝ} {d : Dims} (h : RunReady I d) (hp : FieldPeriodic I d.nfp) {js : ℕ}
    (hreg : (surface I d.asym js).Regular) (hd : ∀ θ ζ, (surface I d.asym js).det θ ζ ≠ 0) {c : ℝ} (hc : 0 ≤ c) {ρ : ℝ}
    (hρ : ρ < 1) (p : ℕ) :
    let S := surface I d.asym js
    ∃ C, 0 ≤ C ∧ ∀ q ∈ S.quantities, ∀ M N : ℕ, 1 ≤ M → 1 ≤ N → (M : ℝ) ≤ c * N → (N : ℝ) ≤ c * M →
      S.ResolvedBy d.nfp M N ρ → ∀ θ ζ,
      |q θ ζ - outputSeries d.nfp M N (S.quadCos (ntheta M) (nzeta N) d.nfp q) (S.quadSin (ntheta M) (nzeta N) d.nfp q)
        (S.thetaB θ ζ) (S.zetaB θ ζ)| ≤ C * (1 / (M : ℝ)) ^ p := by
  intro S
  obtain ⟨pl, pw, pR, pZ, pB⟩ := surf_per h hp d.asym js
  have hs := smooth_surface I d.asym js
  have one : ∀ q, PerF d.nfp q → Smooth (uncurry q) → _ := fun q hq1 hq2 =>
    output_rate h.nfp_pos hs pl pw hd hq1 hq2 hc hρ p
  obtain ⟨C1, p1, h1⟩ := one S.B pB hs.B
  obtain ⟨C2, p2, h2⟩ := one S.R pR hs.R
  obtain ⟨C3, p3, h3⟩ := one S.Z pZ hs.Z
  obtain ⟨C4, p4, h4⟩ := one S.nu (nu_per pl pw) hs.nu
  obtain ⟨C5, p5, h5⟩ := one S.jacobian (jac_per pB) (hs.jacobian hreg.2)
  refine ⟨C1 + C2 + C3 + C4 + C5, by positivity, fun q hq M N hM hN hMN hNM hr θ ζ => ?_⟩
  have e0 : (0 : ℝ) ≤ (1 / (M : ℝ)) ^ p := by positivity
  have mono : ∀ Ci, Ci ≤ C1 + C2 + C3 + C4 + C5 →
      Ci * (1 / (M : ℝ)) ^ p ≤ (C1 + C2 + C3 + C4 + C5) * (1 / (M : ℝ)) ^ p := fun Ci hi => mul_le_mul_of_nonneg_right hi e0
  unfold Surface.quantities at hq
  simp only [List.mem_cons, List.mem_nil_iff, or_false] at hq
  rcases hq with rfl | rfl | rfl | rfl | rfl
  · exact (h1 M N hM hN hMN hNM hr θ ζ).trans (mono _ (by linarith))
  · exact (h2 M N hM hN hMN hNM hr θ ζ).trans (mono _ (by linarith))
  · exact (h3 M N hM hN hMN hNM hr θ ζ).trans (mono _ (by linarith))
  · exact (h4 M N hM hN hMN hNM hr θ ζ).trans (mono _ (by linarith))
  · exact (h5 M N hM hN hMN hNM hr θ ζ).trans (mono _ (by linarith))

/-- **C74.** Let the Jacobian determinant of the Boozer angles vanish on no processed surface, and let `ρ < 1`,
`c ≥ 0`, `p` be arbitrary.  There is one `C` such that for all `mboz = M`, `nboz = N` with `M ≤ c N`, `N ≤ c M` whose
grid resolves the change of angles, the sum of *all* output harmonics at the Boozer angles of a point is within
`C / M^p` of |B|, R, Z, ν and the Jacobian at the point, for all points. -/
theorem C74_all_harmonics {s : St ℝ} {d : Dims} (h : RunReady s.inp d) (hp : FieldPeriodic s.inp d.nfp)
    (ho : OriginOnce s.inp) (hreg : ∀ b < d.nsb, (surface s.inp d.asym (selected s.inp b)).Regular)
    (hdet : ∀ b < d.nsb, ∀ θ ζ, (surface s.inp d.asym (selected s.inp b)).det θ ζ ≠ 0)
    {c : ℝ} (hc : 0 ≤ c) {ρ : ℝ} (hρ : ρ < 1) (p : ℕ) :
    ∃ C, 0 ≤ C ∧
    (∀ b < d.nsb, let S := surface s.inp d.asym (selected s.inp b)
      ∀ q ∈ S.quantities, ∀ M N : ℕ, 1 ≤ M → 1 ≤ N → (M : ℝ) ≤ c * N → (N : ℝ) ≤ c * M → S.ResolvedBy d.nfp M N ρ →
      ∀ θ ζ, |q θ ζ - outputSeries d.nfp M N (S.quadCos (ntheta M) (nzeta N) d.nfp q)
        (S.quadSin (ntheta M) (nzeta N) d.nfp q) (S.thetaB θ ζ) (S.zetaB θ ζ)| ≤ C * (1 / (M : ℝ)) ^ p) ∧
    ∀ (M N : ℕ) (s1 : St ℝ) (dbg : Bool), 1 ≤ N → (M : ℝ) ≤ c * N → (N : ℝ) ≤ c * M →
      s1.inp = { s.inp with mboz := M, nboz := N } → RunReady s1.inp { d with M := M, N := N } →
      ∃ s' r, run dbg s1 = .ok (s', r) ∧ ∀ b < d.nsb, let S := surface s.inp d.asym (selected s.inp b)
        S.ResolvedBy d.nfp M N ρ →
        Reconstructs s'.out S d.asym (numModes M N) b M (N * d.nfp) (C * (1 / (M : ℝ)) ^ p) := by
  have hK : ∀ b, ∃ C, 0 ≤ C ∧ (b < d.nsb → let S := surface s.inp d.asym (selected s.inp b)
      ∀ q ∈ S.quantities, ∀ M N : ℕ, 1 ≤ M → 1 ≤ N → (M : ℝ) ≤ c * N → (N : ℝ) ≤ c * M → S.ResolvedBy d.nfp M N ρ →
      ∀ θ ζ, |q θ ζ - outputSeries d.nfp M N (S.quadCos (ntheta M) (nzeta N) d.nfp q)
        (S.quadSin (ntheta M) (nzeta N) d.nfp q) (S.thetaB θ ζ) (S.zetaB θ ζ)| ≤ C * (1 / (M : ℝ)) ^ p) := by
    intro b
    by_cases hb : b < d.nsb
    · obtain ⟨C, hC, h1⟩ := surface_rate h hp (hreg b hb) (hdet b hb) hc hρ p
      exact ⟨C, hC, fun _ => h1⟩
    · exact ⟨0, le_rfl, fun hb' => absurd hb' hb⟩
  choose C hC0 hC using hK
  let T : ℝ := ∑ b ∈ range d.nsb, C b
  have part1 : ∀ b < d.nsb, let S := surface s.inp d.asym (selected s.inp b)
      ∀ q ∈ S.quantities, ∀ M N : ℕ, 1 ≤ M → 1 ≤ N → (M : ℝ) ≤ c * N → (N : ℝ) ≤ c * M → S.ResolvedBy d.nfp M N ρ →
      ∀ θ ζ, |q θ ζ - outputSeries d.nfp M N (S.quadCos (ntheta M) (nzeta N) d.nfp q)
        (S.quadSin (ntheta M) (nzeta N) d.nfp q) (S.thetaB θ ζ) (S.zetaB θ ζ)| ≤ T * (1 / (M : ℝ)) ^ p := by
    intro b hb S q hq M N hM hN hMN hNM hr θ ζ
    refine (hC b hb q hq M N hM hN hMN hNM hr θ ζ).trans (mul_le_mul_of_nonneg_right ?_ (by positivity))
    exact single_le_sum (f := C) (fun b _ => hC0 b) (mem_range.2 hb)
  refine ⟨T, sum_nonneg fun b _ => hC0 b, part1, fun M N s1 dbg hN hMN hNM e h1 => ?_⟩
  have hp' : FieldPeriodic s1.inp ({ d with M := M, N := N } : Dims).nfp := by rw [e]; exact hp
  have ho' : OriginOnce s1.inp := by rw [e]; exact ho
  refine ⟨_, _, run_real h1 fun _ => originOnce_first h1 ho', fun b hb => ?_⟩
  intro S hr
  have eS : surface s1.inp ({ d with M := M, N := N } : Dims).asym (selected s1.inp b) = S := by rw [e]; rfl
  have := reconstructs_of h1 hp' ho' (b := b) hb (T := outputSeries d.nfp M N) (K := M) (L := N * d.nfp)
    (E := T * (1 / (M : ℝ)) ^ p) (fun _ _ _ _ h2 h3 x y => fullSum_run h1 h2 h3 x y)
  rw [eS] at this
  exact this fun q hq θ ζ => part1 b hb q hq M N h1.mboz_ge hN hMN hNM hr θ ζ

/-- The report sums all harmonics of |B|. -/
theorem outputB_sum {s : St ℝ} {d : Dims} (h : RunReady s.inp d) {b : ℕ} {t z x : ℝ}
    (hx : PartialSum (runSt d s d.nsb).out.xm_b (runSt d s d.nsb).out.xn_b (numModes d.M d.N) b d.M (d.N * d.nfp)
      (some (runSt d s d.nsb).out.spec.bmnc_b) (if d.asym then some (runSt d s d.nsb).out.spec.bmns_b else none) t z x) :
    outputB (runSt d s d.nsb).out d.asym b t z = x := by
  obtain ⟨m, n, c, f, hk, rfl⟩ := hx
  have hsz : (runSt d s d.nsb).out.xm_b.size = d.nmodes := Vec.size_tab _ _
  have hp0 : (0 : ℤ) < d.nfp := by exact_mod_cast h.nfp_pos
  have em : ∀ k < d.nmodes, m k = modeM d.N k := fun k hk' =>
    (Except.ok.inj ((Vec.rdN_tab hk' (f := fun k => (modeM d.N k : ℤ))).symm.trans (hk k hk').1)).symm
  have en : ∀ k < d.nmodes, n k = modeN d.N k * d.nfp := fun k hk' =>
    (Except.ok.inj ((Vec.rdN_tab hk' (f := fun k => modeN d.N k * d.nfp)).symm.trans (hk k hk').2.1)).symm
  unfold outputB series
  rw [hsz, Finset.filter_true_of_mem]
  · refine sum_congr rfl fun k hkr => ?_
    have hkr := mem_range.1 hkr
    obtain ⟨h1, h2, h3, h4⟩ := hk k hkr
    beta_reduce
    rw [Vec.val_of_rdN 0 h1, Vec.val_of_rdN 0 h2, show entry (runSt d s d.nsb).out.spec.bmnc_b k b = c k from
      Mat.val_of_rdN 0 h3]
    congr 2
    cases ha : d.asym
    · rw [ha] at h4
      exact h4.symm
    · rw [ha] at h4
      exact Mat.val_of_rdN 0 h4
  · intro k hkr
    have hkr := mem_range.1 hkr
    obtain ⟨i1, i2, n', e, i3, i4, -⟩ := (modePair_mem d h.mboz_ge h.nfp_pos _).1 ⟨k, hkr, rfl⟩
    have e : modeN d.N k = n' := mul_right_cancel₀ hp0.ne' e
    subst e
    rw [em k hkr, en k hkr, abs_of_nonneg i1, abs_mul, abs_of_pos hp0, Nat.cast_mul, mul_le_mul_iff_of_pos_right hp0, abs_le]
    exact ⟨le_of_lt i2, i3, i4⟩

/-- **C74 (report).** If the sum of all output harmonics reconstructs the surface within `E`, and |B| is at least
`β > 0` there, then no error in the report for this surface exceeds `E / β`. -/
theorem C74_report {s : St ℝ} {d : Dims} {dbg : Bool} (h : RunReady s.inp d) (hp : FieldPeriodic s.inp d.nfp)
    (ho : OriginOnce s.inp) (hreg : ∀ b < d.nsb, (surface s.inp d.asym (selected s.inp b)).Regular)
    (hv : s.inp.verbose > 0) :
    ∃ s' rs, run dbg s = .ok (s', rs) ∧ rs.length = d.nsb ∧ ∀ b < d.nsb, ∃ rep, rs[b]? = some rep ∧
      let S := surface s.inp d.asym (selected s.inp b)
      ∀ E β : ℝ, 0 < β → (∀ θ ζ, β ≤ S.B θ ζ) →
        Reconstructs s'.out S d.asym (numModes d.M d.N) b d.M (d.N * d.nfp) E →
        ∀ c < 4, ∃ e, rep.err.rdN c = .ok e ∧ e ≤ E / β := by
  obtain ⟨s', rs, hr, hl, hrep⟩ := C30_report (dbg := dbg) h hp ho hreg hv
  have hr' := hr
  rw [run_real h fun _ => originOnce_first h ho] at hr'
  obtain ⟨rfl, -⟩ := Prod.mk.inj (Except.ok.inj hr')
  refine ⟨_, rs, hr, hl, fun b hb => ?_⟩
  obtain ⟨rep, e1, -, -, e2⟩ := hrep b hb
  refine ⟨rep, e1, ?_⟩
  intro S E β hβ hB hrec c hc
  obtain ⟨v, x, -, -, e3, e4, e5⟩ := e2 c hc
  refine ⟨_, e3, ?_⟩
  obtain ⟨⟨x', g1, g2⟩, -⟩ := hrec (checkTheta c) (checkZeta d.N d.nfp c)
  rw [outputB_sum h g1] at e5
  subst e5
  rw [← e4, abs_sub_comm] at g2
  have hv0 : β ≤ v := by rw [e4]; exact hB _ _
  exact div_le_div₀ ((abs_nonneg _).trans g2) g2 hβ (hv0.trans (le_max_right _ _))

/-! ### Non-vacuity -/

/-- Derivatives of the Boozer angles of the example. -/
theorem Ex.gentle_derivs (asym : Bool) {js : ℕ} (hj : js < 2) (θ ζ : ℝ) :
    let S := surface (Ex.gentle asym).inp asym js
    |deriv (fun t => S.thetaB t ζ) θ| ≤ 5 / 4 ∧ |deriv (fun t => S.zetaB t ζ) θ| ≤ 1 / 16 ∧
    |deriv (fun z => S.thetaB θ z) ζ| ≤ 3 / 8 ∧ |deriv (fun z => S.zetaB θ z) ζ| ≤ 17 / 16 := by
  intro S'
  obtain ⟨e1, e2, e3⟩ := Ex.gentle_consts asym hj
  set S : Surface := surface (Ex.gentle asym).inp asym js with hS
  rw [show S' = S from rfl]
  set g := onlyIf asym (1 / 64) with hg
  have hgb : 0 ≤ g ∧ g ≤ 1 / 64 := by
    rw [hg]; unfold onlyIf
    split <;> norm_num
  have el : S.lam = fun θ ζ => g + (g * Real.cos (2 * ζ) - 1 / 32 * Real.sin (2 * ζ)) +
      (g * Real.cos (θ + 2 * ζ) + 1 / 16 * Real.sin (θ + 2 * ζ)) := by
    funext a b; exact Ex.gentle_lam asym hj a b
  have ew : S.w = fun _ ζ => 1 / 2 * Real.sin (2 * ζ) := by
    funext a b; exact Ex.gentle_w asym hj a b
  have d2 : HasDerivAt (fun z : ℝ => 2 * z) 2 ζ := by simpa using (hasDerivAt_id ζ).const_mul 2
  have d3 : HasDerivAt (fun z : ℝ => θ + 2 * z) 2 ζ := d2.const_add θ
  have d4 : HasDerivAt (fun t : ℝ => t + 2 * ζ) 1 θ := (hasDerivAt_id θ).add_const _
  have h1 : HasDerivAt (fun t => S.lam t ζ)
      (g * (-Real.sin (θ + 2 * ζ) * 1) + 1 / 16 * (Real.cos (θ + 2 * ζ) * 1)) θ := by
    rw [el]
    exact ((d4.cos.const_mul g).add (d4.sin.const_mul (1 / 16))).const_add _
  have h2 : HasDerivAt (fun z => S.lam θ z)
      ((g * (-Real.sin (2 * ζ) * 2) - 1 / 32 * (Real.cos (2 * ζ) * 2)) +
        (g * (-Real.sin (θ + 2 * ζ) * 2) + 1 / 16 * (Real.cos (θ + 2 * ζ) * 2))) ζ := by
    rw [el]
    exact (((d2.cos.const_mul g).sub (d2.sin.const_mul (1 / 32))).const_add g).add
      ((d3.cos.const_mul g).add (d3.sin.const_mul (1 / 16)))
  have h3 : HasDerivAt (fun t => S.w t ζ) 0 θ := by rw [ew]; exact hasDerivAt_const _ _
  have h4 : HasDerivAt (fun z => S.w θ z) (1 / 2 * (Real.cos (2 * ζ) * 2)) ζ := by rw [ew]; exact d2.sin.const_mul (1 / 2)
  have n1 : HasDerivAt (fun t => S.nu t ζ) _ θ := (h3.sub (h1.const_mul S.I)).div_const _
  have n2 : HasDerivAt (fun z => S.nu θ z) _ ζ := (h4.sub (h2.const_mul S.I)).div_const _
  have t1 : HasDerivAt (fun t => S.thetaB t ζ) _ θ := ((hasDerivAt_id θ).add h1).add (n1.const_mul S.iota)
  have t2 : HasDerivAt (fun z => S.thetaB θ z) _ ζ := (h2.const_add θ).add (n2.const_mul S.iota)
  have z1 : HasDerivAt (fun t => S.zetaB t ζ) _ θ := n1.const_add ζ
  have z2 : HasDerivAt (fun z => S.zetaB θ z) _ ζ := (hasDerivAt_id ζ).add n2
  rw [t1.deriv, t2.deriv, z1.deriv, z2.deriv, e1, e2, e3]
  have c1 := Real.abs_cos_le_one (2 * ζ)
  have c2 := Real.abs_cos_le_one (θ + 2 * ζ)
  have s1 := Real.abs_sin_le_one (2 * ζ)
  have s2 := Real.abs_sin_le_one (θ + 2 * ζ)
  set C1 := Real.cos (2 * ζ)
  set C2 := Real.cos (θ + 2 * ζ)
  set S1 := Real.sin (2 * ζ)
  set S2 := Real.sin (θ + 2 * ζ)
  have gs : ∀ x : ℝ, |x| ≤ 1 → |g * x| ≤ 1 / 64 := fun x hx => by
    rw [abs_mul, abs_of_nonneg hgb.1]
    calc g * |x| ≤ 1 / 64 * 1 := mul_le_mul hgb.2 hx (abs_nonneg _) (by norm_num)
      _ = _ := mul_one _
  have q1 := abs_le.1 (gs _ s1)
  have q2 := abs_le.1 (gs _ s2)
  rw [abs_le] at c1 c2 s1 s2
  generalize hlt : g * (-S2 * 1) + 1 / 16 * (C2 * 1) = lt
  generalize hlz : g * (-S1 * 2) - 1 / 32 * (C1 * 2) + (g * (-S2 * 2) + 1 / 16 * (C2 * 2)) = lz
  generalize hwz : 1 / 2 * (C1 * 2) = wz
  have blt : |lt| ≤ 1 / 8 := by rw [abs_le, ← hlt]; constructor <;> linarith
  have blz : |lz| ≤ 1 / 4 := by rw [abs_le, ← hlz]; constructor <;> linarith
  have bwz : |wz| ≤ 1 := by rw [abs_le, ← hwz]; constructor <;> linarith
  have hi : (1 : ℝ) ≤ (js : ℝ) + 1 ∧ (js : ℝ) + 1 ≤ 2 := by
    have : (js : ℝ) ≤ 1 := by exact_mod_cast Nat.lt_succ_iff.1 hj
    have : (0 : ℝ) ≤ js := by positivity
    constructor <;> linarith
  generalize hio : (js : ℝ) + 1 = i at *
  have hD : (20 : ℝ) ≤ 20 + i * 1 := by linarith [hi.1]
  generalize hDd : (20 : ℝ) + i * 1 = D at *
  have bnt : |(0 - 1 * lt) / D| ≤ 1 / 16 := by
    rw [abs_div, abs_of_pos (by linarith : (0 : ℝ) < D), div_le_iff₀ (by linarith)]
    rw [abs_le] at blt ⊢
    constructor <;> linarith [blt.1, blt.2]
  have bnz : |(wz - 1 * lz) / D| ≤ 1 / 16 := by
    rw [abs_div, abs_of_pos (by linarith : (0 : ℝ) < D), div_le_iff₀ (by linarith)]
    rw [abs_le] at blz bwz ⊢
    constructor <;> linarith [blz.1, blz.2, bwz.1, bwz.2]
  generalize (0 - 1 * lt) / D = nt at *
  generalize (wz - 1 * lz) / D = nz at *
  have p1 : |i * nt| ≤ 1 / 8 := by
    rw [abs_mul, abs_of_nonneg (by linarith : (0 : ℝ) ≤ i)]
    calc i * |nt| ≤ 2 * (1 / 16) := mul_le_mul hi.2 bnt (abs_nonneg _) (by norm_num)
      _ = _ := by norm_num
  have p2 : |i * nz| ≤ 1 / 8 := by
    rw [abs_mul, abs_of_nonneg (by linarith : (0 : ℝ) ≤ i)]
    calc i * |nz| ≤ 2 * (1 / 16) := mul_le_mul hi.2 bnz (abs_nonneg _) (by norm_num)
      _ = _ := by norm_num
  refine ⟨?_, bnt, ?_, ?_⟩
  · rw [abs_le] at *
    constructor <;> linarith [p1.1, p1.2, blt.1, blt.2]
  · rw [abs_le] at *
    constructor <;> linarith [p2.1, p2.2, blz.1, blz.2]
  · rw [abs_le] at *
    constructor <;> linarith [bnz.1, bnz.2]

/-- Every resolution with `M ≤ 2 N`, `N ≤ 2 M` resolves the example. -/
theorem Ex.gentle_resolved (asym : Bool) {js : ℕ} (hj : js < 2) {M N : ℕ} (h1 : M ≤ 2 * N) (h2 : N ≤ 2 * M) :
    (surface (Ex.gentle asym).inp asym js).ResolvedBy 2 M N (1 / 2) := by
  intro θ ζ
  obtain ⟨d1, d2, d3, d4⟩ := Ex.gentle_derivs asym hj θ ζ
  have h1' : (M : ℝ) ≤ 2 * N := by exact_mod_cast h1
  have h2' : (N : ℝ) ≤ 2 * M := by exact_mod_cast h2
  have hM : (0 : ℝ) ≤ M := by positivity
  have hN : (0 : ℝ) ≤ N := by positivity
  have hz : (4 * N : ℝ) ≤ nzeta N := by
    have : 4 * N ≤ nzeta N := by unfold nzeta; split <;> omega
    exact_mod_cast this
  have ht : (4 * M : ℝ) ≤ ntheta M := by
    have : 4 * M ≤ ntheta M := by unfold ntheta; omega
    exact_mod_cast this
  push_cast
  constructor
  · nlinarith [mul_le_mul_of_nonneg_left d1 hM, mul_le_mul_of_nonneg_left d2 hN]
  · nlinarith [mul_le_mul_of_nonneg_left d3 hM, mul_le_mul_of_nonneg_left d4 hN]

/-- C74 for the example: the seventh power of `mboz`, the same constant for all resolutions. -/
example (asym : Bool) : ∃ C, ∀ (M N : ℕ), 1 ≤ M → M ≤ 2 * N → N ≤ 2 * M → (4 * M + 2) * (4 * N + 2) < 2 ^ 30 →
    ∀ out g dbg,
    let s1 : St ℝ := { Ex.gentle asym with inp := { (Ex.gentle asym).inp with mboz := M, nboz := N }, out := out, grid := g }
    ∃ s' r, run dbg s1 = .ok (s', r) ∧ r.length = 2 ∧ ∀ b < 2,
      Reconstructs s'.out (surface (Ex.gentle asym).inp asym (selected (Ex.gentle asym).inp b)) asym (numModes M N) b M
        (N * 2) (C * (1 / (M : ℝ)) ^ 7) ∧
      ∃ rep, r[b]? = some rep ∧ ∀ c < 4, ∃ e, rep.err.rdN c = .ok e ∧ e ≤ C * (1 / (M : ℝ)) ^ 7 := by
  obtain ⟨C, -, -, hC⟩ := C74_all_harmonics (s := Ex.gentle asym) (d := Ex.dims asym) (Ex.gentle_ready asym)
    (Ex.fieldPeriodic (α := ℝ) asym) (Ex.originOnce (α := ℝ) asym)
    (fun b hb => Ex.gentle_regular asym (Ex.selected_lt asym b hb))
    (fun b hb θ ζ => (lt_trans (by norm_num) (Ex.gentle_det asym (Ex.selected_lt asym b hb) θ ζ)).ne')
    (c := 2) (by norm_num) (ρ := 1 / 2) (by norm_num) 7
  refine ⟨C, fun M N hM h1 h2 hf out g dbg => ?_⟩
  intro s1
  have rd : RunReady s1.inp { Ex.dims asym with M := M, N := N } := Ex.gentle_ready_res asym hM hf
  obtain ⟨s', r, e, hr⟩ := hC M N s1 dbg (by omega) (by exact_mod_cast h1) (by exact_mod_cast h2) rfl rd
  obtain ⟨s2, r2, e', hl, hrep⟩ := C74_report (dbg := dbg) rd (Ex.fieldPeriodic (α := ℝ) asym) (Ex.originOnce (α := ℝ) asym)
    (fun b hb => Ex.gentle_regular asym (Ex.selected_lt asym b hb)) (by show (1 : ℤ) > 0; decide)
  obtain ⟨rfl, rfl⟩ := Prod.mk.inj (Except.ok.inj (e.symm.trans e'))
  refine ⟨s', r, e, hl, fun b hb => ?_⟩
  have hrec := hr b hb (Ex.gentle_resolved asym (Ex.selected_lt asym b hb) h1 h2)
  refine ⟨hrec, ?_⟩
  obtain ⟨rep, e1, e2⟩ := hrep b hb
  refine ⟨rep, e1, ?_⟩
  have := e2 _ 1 one_pos (fun θ ζ => Ex.B_ge asym (Ex.selected_lt asym b hb) θ ζ) hrec
  simpa only [div_one] using this

end Booz
