import Mathlib.Analysis.SpecialFunctions.Integrals.Basic
import Verif.Props.Uniform

/-!
# C74 for axisymmetric equilibria transformed with nboz = 0
-/

namespace Booz
open Spec Trapezoid Finset Function

variable {S : Surface} {nfp : ℕ}

/-- The functions of a surface do not depend on ζ. -/
structure AxiSurface (S : Surface) : Prop where
  lam : ∀ θ ζ, S.lam θ ζ = S.lam θ 0
  w : ∀ θ ζ, S.w θ ζ = S.w θ 0
  R : ∀ θ ζ, S.R θ ζ = S.R θ 0
  Z : ∀ θ ζ, S.Z θ ζ = S.Z θ 0
  B : ∀ θ ζ, S.B θ ζ = S.B θ 0

theorem series_axi {K : ℕ} {m n : ℕ → ℤ} {c s : ℕ → ℝ} (h : ∀ k < K, n k = 0) (θ ζ : ℝ) :
    series K m n c s θ ζ = series K m n c s θ 0 := by
  unfold series
  refine sum_congr rfl fun k hk => ?_
  rw [h k (mem_range.1 hk)]
  simp

theorem axi_surface {I : Inputs ℝ} {d : Dims} (h : RunReady I d) (ha : Axisymmetric I) (asym : Bool) (js : ℕ) :
    AxiSurface (surface I asym js) := by
  have e1 : ∀ k < I.xm.size, I.xn.val 0 k = 0 := fun k hk => ha.1 k (by rw [h.xn.1]; rwa [h.xm.1] at hk)
  have e2 : ∀ k < I.xm_nyq.size, I.xn_nyq.val 0 k = 0 := fun k hk => ha.2 k (by rw [h.xn_nyq.1]; rwa [h.xm_nyq.1] at hk)
  exact ⟨series_axi e1, series_axi e2, series_axi e1, series_axi e1, series_axi e2⟩

theorem AxiSurface.nu (h : AxiSurface S) (θ ζ : ℝ) : S.nu θ ζ = S.nu θ 0 := by
  unfold Surface.nu
  rw [h.w θ ζ, h.lam θ ζ]

theorem AxiSurface.thetaB (h : AxiSurface S) (θ ζ : ℝ) : S.thetaB θ ζ = S.thetaB θ 0 := by
  unfold Surface.thetaB
  rw [h.nu θ ζ, h.lam θ ζ]

theorem AxiSurface.zetaB (h : AxiSurface S) (θ ζ : ℝ) : S.zetaB θ ζ = ζ + S.nu θ 0 := by
  unfold Surface.zetaB
  rw [h.nu θ ζ]

theorem AxiSurface.jacobian (h : AxiSurface S) (θ ζ : ℝ) : S.jacobian θ ζ = S.jacobian θ 0 := by
  unfold Surface.jacobian
  rw [h.B θ ζ]

theorem AxiSurface.det (h : AxiSurface S) (θ ζ : ℝ) : S.det θ ζ = S.det θ 0 := by
  unfold Surface.det
  have e1 : ∀ z, (fun t => S.thetaB t z) = fun t => S.thetaB t 0 := fun z => funext fun t => h.thetaB t z
  have e2 : (fun z => S.thetaB θ z) = fun _ => S.thetaB θ 0 := funext fun z => h.thetaB θ z
  have e3 : (fun z => S.zetaB θ z) = fun z => z + S.nu θ 0 := funext fun z => h.zetaB θ z
  have e4 : ∀ z, (fun t => S.zetaB t z) = fun t => z + S.nu t 0 := fun z => funext fun t => h.zetaB t z
  rw [e1 ζ, e2, e3, e4 ζ, e4 0]
  simp only [deriv_add_const, deriv_const_add]
  simp

/-- Harmonics with n ≠ 0 vanish. -/
theorem axi_integral (h : AxiSurface S) {q : ℝ → ℝ → ℝ} (hq : ∀ θ ζ, q θ ζ = q θ 0) (m : ℤ) {n : ℤ} (hn : n ≠ 0) :
    S.integralCos q m n = 0 ∧ S.integralSin q m n = 0 := by
  have hn' : (n : ℝ) ≠ 0 := by exact_mod_cast hn
  have ic : ∀ a : ℝ, ∫ ζ in (0 : ℝ)..2 * Real.pi, Real.cos (a - n * ζ) = 0 := by
    intro a
    rw [intervalIntegral.integral_comp_sub_mul (fun x => Real.cos x) hn', integral_cos, mul_zero, sub_zero,
      show a - n * (2 * Real.pi) = a - (n : ℤ) * (2 * Real.pi) from rfl, Real.sin_sub_int_mul_two_pi, sub_self, smul_zero]
  have is : ∀ a : ℝ, ∫ ζ in (0 : ℝ)..2 * Real.pi, Real.sin (a - n * ζ) = 0 := by
    intro a
    rw [intervalIntegral.integral_comp_sub_mul (fun x => Real.sin x) hn', integral_sin, mul_zero, sub_zero,
      show a - n * (2 * Real.pi) = a - (n : ℤ) * (2 * Real.pi) from rfl, Real.cos_sub_int_mul_two_pi, sub_self, smul_zero]
  have e : ∀ θ ζ, (m : ℝ) * S.thetaB θ ζ - n * S.zetaB θ ζ = (m * S.thetaB θ 0 - n * S.nu θ 0) - n * ζ := by
    intro θ ζ
    rw [h.thetaB θ ζ, h.zetaB θ ζ]
    ring
  unfold Surface.integralCos Surface.integralSin
  constructor
  · have : ∀ θ, ∫ ζ in (0 : ℝ)..2 * Real.pi, q θ ζ * S.det θ ζ * Real.cos (m * S.thetaB θ ζ - n * S.zetaB θ ζ) = 0 := by
      intro θ
      simp only [e, hq θ, h.det θ]
      rw [intervalIntegral.integral_const_mul, ic, mul_zero]
    simp only [this, intervalIntegral.integral_zero, mul_zero]
  · have : ∀ θ, ∫ ζ in (0 : ℝ)..2 * Real.pi, q θ ζ * S.det θ ζ * Real.sin (m * S.thetaB θ ζ - n * S.zetaB θ ζ) = 0 := by
      intro θ
      simp only [e, hq θ, h.det θ]
      rw [intervalIntegral.integral_const_mul, is, mul_zero]
    simp only [this, intervalIntegral.integral_zero, mul_zero]

/-- Harmonics with n = 0 do not depend on the number of toroidal grid points. -/
theorem axi_quad (h : AxiSurface S) {q : ℝ → ℝ → ℝ} (hq : ∀ θ ζ, q θ ζ = q θ 0) (m : ℤ) (nt : ℕ) {nz : ℕ} (hz : 1 ≤ nz) :
    S.quadCos nt nz nfp q m 0 = S.quadCos nt 1 nfp q m 0 ∧ S.quadSin nt nz nfp q m 0 = S.quadSin nt 1 nfp q m 0 := by
  have hz' : (nz : ℝ) ≠ 0 := by positivity
  unfold Surface.quadCos Surface.quadSin
  constructor <;>
  · simp only [Int.cast_zero, zero_mul, sub_zero, hq _ (_ / _), h.det _ (_ / _), h.thetaB _ (_ / _), sum_const, card_range,
      nsmul_eq_mul, ← mul_sum]
    field_simp

/-- The modes with n = 0 are resolved. -/
theorem axi_resolved (hp : 1 ≤ nfp) (h : SmoothSurface S) (ha : AxiSurface S) (hl : PerF nfp S.lam) (hw : PerF nfp S.w)
    {ρ : ℝ} {M : ℕ} (hr : S.PoloidallyResolvedBy M ρ) {m : ℤ} (hm : |m| ≤ M) :
    Resolved (2 * Real.pi) (2 * Real.pi / nfp) (uncurry S.thetaB) (uncurry S.zetaB) 1 ρ (ntheta M) (ntheta M)
      m ((0 * nfp : ℤ) : ℝ) := by
  have ht : (M : ℝ) ≤ ntheta M := by
    have : M ≤ ntheta M := by unfold ntheta; omega
    exact_mod_cast this
  have hm' : |(m : ℝ)| ≤ M := by
    rw [← Int.cast_abs]
    exact_mod_cast hm
  have hρ : 0 ≤ ρ * ntheta M := le_trans (by positivity) (hr 0 0)
  have z : ((0 * nfp : ℤ) : ℝ) = 0 := by simp
  refine ⟨ntheta_pos M, ntheta_pos M, by linarith, by linarith, ?_, ?_, fun φ x => (phase_per hp hl hw m 0 φ x).1,
    fun φ x => (phase_per hp hl hw m 0 φ x).2, ?_, ?_⟩
  · rw [z, abs_zero]; positivity
  · rw [z, abs_zero]; positivity
  · rintro ⟨θ, ζ⟩
    have := hr θ ζ
    rw [show deriv (fun t => S.thetaB t ζ) θ = _ from (h.thetaB.hasDeriv1 θ ζ).deriv] at this
    rw [z, zero_mul, sub_zero, abs_mul]
    calc _ ≤ ρ * ntheta M * (2 * Real.pi) :=
          mul_le_mul_of_nonneg_right ((mul_le_mul_of_nonneg_right hm' (abs_nonneg _)).trans this) (by positivity)
      _ = _ := by ring
  · rintro ⟨θ, ζ⟩
    have e : D2 (uncurry S.thetaB) (θ, ζ) = 0 := by
      have h1 := h.thetaB.hasDeriv2 θ ζ
      have h2 : HasDerivAt (fun z => uncurry S.thetaB (θ, z)) 0 ζ := by
        have : (fun z => uncurry S.thetaB (θ, z)) = fun _ => S.thetaB θ 0 := funext fun z => ha.thetaB θ z
        rw [this]
        exact hasDerivAt_const _ _
      exact h1.unique h2
    rw [z, zero_mul, sub_zero, e, mul_zero, abs_zero, zero_mul]
    have : 0 ≤ ρ * ntheta M * (2 * Real.pi) := mul_nonneg hρ (by positivity)
    linarith

/-- Sum of the series with the quadratures as coefficients. -/
theorem axi_rate (hp : 1 ≤ nfp) (h : SmoothSurface S) (ha : AxiSurface S) (hl : PerF nfp S.lam) (hw : PerF nfp S.w)
    (hd : ∀ θ ζ, S.det θ ζ ≠ 0) {q : ℝ → ℝ → ℝ} (hq : PerF nfp q) (hqs : Smooth (uncurry q)) (hqa : ∀ θ ζ, q θ ζ = q θ 0)
    {ρ : ℝ} (hρ : ρ < 1) (p : ℕ) :
    ∃ C, 0 ≤ C ∧ ∀ M : ℕ, 1 ≤ M → S.PoloidallyResolvedBy M ρ → ∀ θ ζ,
      |q θ ζ - outputSeries nfp M 0 (S.quadCos (ntheta M) (nzeta 0) nfp q) (S.quadSin (ntheta M) (nzeta 0) nfp q)
        (S.thetaB θ ζ) (S.zetaB θ ζ)| ≤ C * (1 / (M : ℝ)) ^ p := by
  obtain ⟨C1, hC1, h1⟩ := series_rate hp h hl hw hd hq hqs p
  obtain ⟨C2, hC2, h2⟩ := quad_resolved hp h hl hw hq hqs 1 hρ (p := p + 2) (by omega)
  refine ⟨2 * C1 + 4 * C2, by positivity, fun M hM hr θ ζ => ?_⟩
  have hM' : (1 : ℝ) ≤ M := by exact_mod_cast hM
  have a1 := h1 M M hM θ ζ
  have hp0 : (nfp : ℤ) ≠ 0 := by positivity
  have drop : outputSeries nfp M M (S.integralCos q) (S.integralSin q) (S.thetaB θ ζ) (S.zetaB θ ζ) =
      outputSeries nfp M 0 (S.integralCos q) (S.integralSin q) (S.thetaB θ ζ) (S.zetaB θ ζ) := by
    unfold outputSeries
    symm
    refine sum_subset ?_ ?_
    · intro k hk
      unfold outputModes at hk ⊢
      rw [Finset.mem_filter, Finset.mem_product, Finset.mem_Ico, Finset.mem_Icc] at hk ⊢
      push_cast at hk ⊢
      omega
    · intro k hk hk'
      have hn : k.2 ≠ 0 := by
        intro h0
        apply hk'
        unfold outputModes at hk ⊢
        rw [Finset.mem_filter, Finset.mem_product, Finset.mem_Ico, Finset.mem_Icc] at hk ⊢
        push_cast at hk ⊢
        omega
      obtain ⟨z1, z2⟩ := axi_integral ha hqa k.1 (n := k.2 * nfp) (mul_ne_zero hn hp0)
      rw [z1, z2, zero_mul, zero_mul, add_zero]
  rw [drop] at a1
  have a2 : |outputSeries nfp M 0 (S.integralCos q) (S.integralSin q) (S.thetaB θ ζ) (S.zetaB θ ζ) -
      outputSeries nfp M 0 (S.quadCos (ntheta M) (nzeta 0) nfp q) (S.quadSin (ntheta M) (nzeta 0) nfp q)
        (S.thetaB θ ζ) (S.zetaB θ ζ)| ≤
      (outputModes M 0).card * (2 * (C2 * (2 * (1 / (ntheta M : ℝ)) ^ (p + 2)))) := by
    unfold outputSeries
    rw [← sum_sub_distrib]
    refine (abs_sum_le_sum_abs _ _).trans ?_
    rw [← nsmul_eq_mul]
    refine Finset.sum_le_card_nsmul _ _ _ fun k hk => ?_
    obtain ⟨b1, b2⟩ := outputModes_le hk
    have k0 : k.2 = 0 := by
      rw [abs_le] at b2
      push_cast at b2
      omega
    obtain ⟨g1, g2⟩ := h2 (ntheta M) (ntheta M) k.1 0 (axi_resolved hp h ha hl hw hr b1)
    rw [k0]
    rw [zero_mul] at g1 g2 ⊢
    obtain ⟨q1, q2⟩ := axi_quad (nfp := nfp) ha hqa k.1 (ntheta M) (ntheta_pos M)
    rw [q1] at g1
    rw [q2] at g2
    rw [← two_mul] at g1 g2
    rw [show nzeta 0 = 1 from rfl]
    set ph := (k.1 : ℝ) * S.thetaB θ ζ - ((0 : ℤ) : ℝ) * S.zetaB θ ζ
    rw [abs_sub_comm] at g1 g2
    have e : ∀ x x' y y' : ℝ, x * Real.cos ph + y * Real.sin ph - (x' * Real.cos ph + y' * Real.sin ph) =
        (x - x') * Real.cos ph + (y - y') * Real.sin ph := fun x x' y y' => by ring
    rw [e, two_mul (C2 * _)]
    refine (abs_add_le _ _).trans (add_le_add ?_ ?_)
    · rw [abs_mul]
      exact (mul_le_of_le_one_right (abs_nonneg _) (Real.abs_cos_le_one _)).trans g1
    · rw [abs_mul]
      exact (mul_le_of_le_one_right (abs_nonneg _) (Real.abs_sin_le_one _)).trans g2
  have ht : (M : ℝ) ≤ ntheta M := by
    have : M ≤ ntheta M := by unfold ntheta; omega
    exact_mod_cast this
  have ge : (1 / (ntheta M : ℝ)) ^ (p + 2) ≤ (1 / (M : ℝ)) ^ (p + 2) :=
    pow_le_pow_left₀ (by positivity) (one_div_le_one_div_of_le (by linarith) ht) _
  have cd : ((outputModes M 0).card : ℝ) ≤ (M : ℝ) ^ 2 := by
    have : ((outputModes M 0).card : ℝ) ≤ (M * (2 * 0 + 1) : ℕ) := by exact_mod_cast outputModes_card M 0
    push_cast at this
    nlinarith
  have a3 : (outputModes M 0).card * (2 * (C2 * (2 * (1 / (ntheta M : ℝ)) ^ (p + 2)))) ≤ 4 * C2 * (1 / (M : ℝ)) ^ p := by
    calc _ ≤ (M : ℝ) ^ 2 * (2 * (C2 * (2 * (1 / (M : ℝ)) ^ (p + 2)))) := by
          refine mul_le_mul cd ?_ (by positivity) (by positivity)
          gcongr
      _ = _ := by
          have e : (M : ℝ) ^ 2 * (1 / (M : ℝ)) ^ 2 = 1 := by
            rw [← mul_pow, mul_one_div_cancel (by linarith), one_pow]
          rw [pow_add]
          linear_combination 4 * C2 * (1 / (M : ℝ)) ^ p * e
  have a4 : C1 * ((1 / (M : ℝ)) ^ p + (1 / ((M : ℝ) + 1)) ^ p) ≤ 2 * C1 * (1 / (M : ℝ)) ^ p := by
    have i2 : (1 / ((M : ℝ) + 1)) ^ p ≤ (1 / (M : ℝ)) ^ p :=
      pow_le_pow_left₀ (by positivity) (one_div_le_one_div_of_le (by linarith) (by linarith)) _
    nlinarith
  have := abs_sub_le (q θ ζ) (outputSeries nfp M 0 (S.integralCos q) (S.integralSin q) (S.thetaB θ ζ) (S.zetaB θ ζ))
    (outputSeries nfp M 0 (S.quadCos (ntheta M) (nzeta 0) nfp q) (S.quadSin (ntheta M) (nzeta 0) nfp q)
        (S.thetaB θ ζ) (S.zetaB θ ζ))
  rw [add_mul]
  linarith

/-- One constant for all quantities of a surface. -/
theorem axi_surface_rate {I : Inputs ℝ} {d : Dims} (h : RunReady I d) (hp : FieldPeriodic I d.nfp) (ha : Axisymmetric I)
    {js : ℕ} (hreg : (surface I d.asym js).Regular) (hd : ∀ θ ζ, (surface I d.asym js).det θ ζ ≠ 0) {ρ : ℝ}
    (hρ : ρ < 1) (p : ℕ) :
    let S := surface I d.asym js
    ∃ C, 0 ≤ C ∧ ∀ q ∈ S.quantities, ∀ M : ℕ, 1 ≤ M → S.PoloidallyResolvedBy M ρ → ∀ θ ζ,
      |q θ ζ - outputSeries d.nfp M 0 (S.quadCos (ntheta M) (nzeta 0) d.nfp q) (S.quadSin (ntheta M) (nzeta 0) d.nfp q)
        (S.thetaB θ ζ) (S.zetaB θ ζ)| ≤ C * (1 / (M : ℝ)) ^ p := by
  intro S
  obtain ⟨pl, pw, pR, pZ, pB⟩ := surf_per h hp d.asym js
  have hs := smooth_surface I d.asym js
  have hx := axi_surface h ha d.asym js
  have one : ∀ q, PerF d.nfp q → Smooth (uncurry q) → (∀ θ ζ, q θ ζ = q θ 0) → _ := fun q hq1 hq2 hq3 =>
    axi_rate h.nfp_pos hs hx pl pw hd hq1 hq2 hq3 hρ p
  obtain ⟨C1, p1, h1⟩ := one S.B pB hs.B hx.B
  obtain ⟨C2, p2, h2⟩ := one S.R pR hs.R hx.R
  obtain ⟨C3, p3, h3⟩ := one S.Z pZ hs.Z hx.Z
  obtain ⟨C4, p4, h4⟩ := one S.nu (nu_per pl pw) hs.nu hx.nu
  obtain ⟨C5, p5, h5⟩ := one S.jacobian (jac_per pB) (hs.jacobian hreg.2) hx.jacobian
  refine ⟨C1 + C2 + C3 + C4 + C5, by positivity, fun q hq M hM hr θ ζ => ?_⟩
  have e0 : (0 : ℝ) ≤ (1 / (M : ℝ)) ^ p := by positivity
  have mono : ∀ Ci, Ci ≤ C1 + C2 + C3 + C4 + C5 →
      Ci * (1 / (M : ℝ)) ^ p ≤ (C1 + C2 + C3 + C4 + C5) * (1 / (M : ℝ)) ^ p := fun Ci hi => mul_le_mul_of_nonneg_right hi e0
  unfold Surface.quantities at hq
  simp only [List.mem_cons, List.mem_nil_iff, or_false] at hq
  rcases hq with rfl | rfl | rfl | rfl | rfl
  · exact (h1 M hM hr θ ζ).trans (mono _ (by linarith))
  · exact (h2 M hM hr θ ζ).trans (mono _ (by linarith))
  · exact (h3 M hM hr θ ζ).trans (mono _ (by linarith))
  · exact (h4 M hM hr θ ζ).trans (mono _ (by linarith))
  · exact (h5 M hM hr θ ζ).trans (mono _ (by linarith))

/-- **C74 (axisymmetry).** For axisymmetric inputs transformed with `nboz = 0`: if the Jacobian determinant of the Boozer
angles vanishes on no processed surface and `ρ < 1`, there is for each `p` one `C` such that for all `mboz = M` whose
poloidal grid resolves the change of angles, the sum of all output harmonics at the Boozer angles of a point is within
`C / M^p` of |B|, R, Z, ν and the Jacobian at the point, for all points. -/
theorem C74_axisymmetric {s : St ℝ} {d : Dims} (h : RunReady s.inp d) (hp : FieldPeriodic s.inp d.nfp)
    (ho : OriginOnce s.inp) (ha : Axisymmetric s.inp)
    (hreg : ∀ b < d.nsb, (surface s.inp d.asym (selected s.inp b)).Regular)
    (hdet : ∀ b < d.nsb, ∀ θ ζ, (surface s.inp d.asym (selected s.inp b)).det θ ζ ≠ 0) {ρ : ℝ} (hρ : ρ < 1) (p : ℕ) :
    ∃ C, 0 ≤ C ∧
    (∀ b < d.nsb, let S := surface s.inp d.asym (selected s.inp b)
      ∀ q ∈ S.quantities, ∀ M : ℕ, 1 ≤ M → S.PoloidallyResolvedBy M ρ →
      ∀ θ ζ, |q θ ζ - outputSeries d.nfp M 0 (S.quadCos (ntheta M) (nzeta 0) d.nfp q)
        (S.quadSin (ntheta M) (nzeta 0) d.nfp q) (S.thetaB θ ζ) (S.zetaB θ ζ)| ≤ C * (1 / (M : ℝ)) ^ p) ∧
    ∀ (M : ℕ) (s1 : St ℝ) (dbg : Bool),
      s1.inp = { s.inp with mboz := M, nboz := 0 } → RunReady s1.inp { d with M := M, N := 0 } →
      ∃ s' r, run dbg s1 = .ok (s', r) ∧ ∀ b < d.nsb, let S := surface s.inp d.asym (selected s.inp b)
        S.PoloidallyResolvedBy M ρ →
        Reconstructs s'.out S d.asym (numModes M 0) b M 0 (C * (1 / (M : ℝ)) ^ p) := by
  have hK : ∀ b, ∃ C, 0 ≤ C ∧ (b < d.nsb → let S := surface s.inp d.asym (selected s.inp b)
      ∀ q ∈ S.quantities, ∀ M : ℕ, 1 ≤ M → S.PoloidallyResolvedBy M ρ →
      ∀ θ ζ, |q θ ζ - outputSeries d.nfp M 0 (S.quadCos (ntheta M) (nzeta 0) d.nfp q)
        (S.quadSin (ntheta M) (nzeta 0) d.nfp q) (S.thetaB θ ζ) (S.zetaB θ ζ)| ≤ C * (1 / (M : ℝ)) ^ p) := by
    intro b
    by_cases hb : b < d.nsb
    · obtain ⟨C, hC, h1⟩ := axi_surface_rate h hp ha (hreg b hb) (hdet b hb) hρ p
      exact ⟨C, hC, fun _ => h1⟩
    · exact ⟨0, le_rfl, fun hb' => absurd hb' hb⟩
  choose C hC0 hC using hK
  let T : ℝ := ∑ b ∈ range d.nsb, C b
  have part1 : ∀ b < d.nsb, let S := surface s.inp d.asym (selected s.inp b)
      ∀ q ∈ S.quantities, ∀ M : ℕ, 1 ≤ M → S.PoloidallyResolvedBy M ρ →
      ∀ θ ζ, |q θ ζ - outputSeries d.nfp M 0 (S.quadCos (ntheta M) (nzeta 0) d.nfp q)
        (S.quadSin (ntheta M) (nzeta 0) d.nfp q) (S.thetaB θ ζ) (S.zetaB θ ζ)| ≤ T * (1 / (M : ℝ)) ^ p := by
    intro b hb S q hq M hM hr θ ζ
    refine (hC b hb q hq M hM hr θ ζ).trans (mul_le_mul_of_nonneg_right ?_ (by positivity))
    exact single_le_sum (f := C) (fun b _ => hC0 b) (mem_range.2 hb)
  refine ⟨T, sum_nonneg fun b _ => hC0 b, part1, fun M s1 dbg e h1 => ?_⟩
  have hp' : FieldPeriodic s1.inp ({ d with M := M, N := 0 } : Dims).nfp := by rw [e]; exact hp
  have ho' : OriginOnce s1.inp := by rw [e]; exact ho
  refine ⟨_, _, run_real h1 fun _ => originOnce_first h1 ho', fun b hb => ?_⟩
  intro S hr
  have eS : surface s1.inp ({ d with M := M, N := 0 } : Dims).asym (selected s1.inp b) = S := by rw [e]; rfl
  have := reconstructs_of h1 hp' ho' (b := b) hb (T := outputSeries d.nfp M 0) (K := M) (L := 0)
    (E := T * (1 / (M : ℝ)) ^ p) (fun _ _ _ _ h2 h3 x y => by
      have := fullSum_run h1 h2 h3 x y
      simpa only [zero_mul] using this)
  rw [eS] at this
  exact this fun q hq θ ζ => part1 b hb q hq M h1.mboz_ge hr θ ζ

/-! ### Non-vacuity -/

/-- The example with all toroidal mode numbers zero: λ = sin θ / 16, plus cosines when asymmetric. -/
noncomputable def Ex.axi (asym : Bool) : St ℝ :=
  { Ex.gentle asym with inp := { (Ex.gentle asym).inp with
      xn := Ex.vec [0, 0, 0]
      xm_nyq := Ex.vec [0, 1, 1, 2]
      xn_nyq := Ex.vec [0, 0, 0, 0] } }

theorem Ex.axi_ready_res (asym : Bool) {M N : ℕ} (hM : 1 ≤ M) (hf : (4 * M + 2) * (4 * N + 2) < 2 ^ 30) :
    RunReady { (Ex.axi asym).inp with mboz := M, nboz := N } { Ex.dims asym with M := M, N := N } :=
  { Ex.gentle_ready_res asym hM hf with
    xn := Ex.full_vec _
    xn_range := (by decide : ∀ k, k < 3 → (Vec.val 0 (Ex.vec (β := ℤ) [0, 0, 0]) k).natAbs / 2 ≤ 1)
    xn_int := (by decide : ∀ k, k < 3 → (Vec.val 0 (Ex.vec (β := ℤ) [0, 0, 0]) k).natAbs < 2147483648)
    xm_nyq := Ex.full_vec _
    xm_nyq_range := (by decide : ∀ k, k < 4 → 0 ≤ Vec.val 0 (Ex.vec (β := ℤ) [0, 1, 1, 2]) k ∧
      Vec.val 0 (Ex.vec (β := ℤ) [0, 1, 1, 2]) k ≤ ((2 : Nat) : ℤ))
    xn_nyq := Ex.full_vec _
    xn_nyq_range := (by decide : ∀ k, k < 4 → (Vec.val 0 (Ex.vec (β := ℤ) [0, 0, 0, 0]) k).natAbs / 2 ≤ 1)
    xn_nyq_int := (by decide : ∀ k, k < 4 → (Vec.val 0 (Ex.vec (β := ℤ) [0, 0, 0, 0]) k).natAbs < 2147483648) }

theorem Ex.axi_ready (asym : Bool) {M : ℕ} (hM : 1 ≤ M) (hf : (4 * M + 2) * 2 < 2 ^ 30) :
    RunReady { (Ex.axi asym).inp with mboz := M, nboz := 0 } { Ex.dims asym with M := M, N := 0 } :=
  Ex.axi_ready_res asym (N := 0) hM hf

theorem Ex.axi_axisymmetric (asym : Bool) : Axisymmetric (Ex.axi asym).inp :=
  ⟨(by decide : ∀ k < 3, Vec.val 0 (Ex.vec (β := ℤ) [0, 0, 0]) k = 0),
   (by decide : ∀ k < 4, Vec.val 0 (Ex.vec (β := ℤ) [0, 0, 0, 0]) k = 0)⟩

theorem Ex.axi_periodic (asym : Bool) : FieldPeriodic (Ex.axi asym).inp 2 :=
  ⟨(by decide : ∀ k < 3, (2 : ℤ) ∣ Vec.val 0 (Ex.vec (β := ℤ) [0, 0, 0]) k),
   (by decide : ∀ k < 4, (2 : ℤ) ∣ Vec.val 0 (Ex.vec (β := ℤ) [0, 0, 0, 0]) k)⟩

theorem Ex.axi_origin (asym : Bool) : OriginOnce (Ex.axi asym).inp :=
  (by decide : ∀ k < 4, (Vec.val 0 (Ex.vec (β := ℤ) [0, 1, 1, 2]) k = 0 ∧
    Vec.val 0 (Ex.vec (β := ℤ) [0, 0, 0, 0]) k = 0) ↔ k = 0)

theorem Ex.axi_consts (asym : Bool) {js : ℕ} (hj : js < 2) :
    (surface (Ex.axi asym).inp asym js).G = 20 ∧ (surface (Ex.axi asym).inp asym js).I = 1 ∧
    (surface (Ex.axi asym).inp asym js).iota = (js : ℝ) + 1 := Ex.gentle_consts asym hj

theorem Ex.axi_lam (asym : Bool) {js : ℕ} (hj : js < 2) (θ ζ : ℝ) : (surface (Ex.axi asym).inp asym js).lam θ ζ =
    2 * onlyIf asym (1 / 64) + (onlyIf asym (1 / 64) * Real.cos θ + 1 / 16 * Real.sin θ) := by
  have v : ∀ k < 3, entry (Ex.axi asym).inp.lmns k js = (k : ℝ) / 32 := fun k hk => Mat.val_tab hk hj
  have v' : ∀ k < 3, entry (Ex.axi asym).inp.lmnc k js = 1 / 64 := fun k hk => Mat.val_tab hk hj
  show series 3 ((Ex.vec (β := ℤ) [0, 0, 1]).val 0) ((Ex.vec (β := ℤ) [0, 0, 0]).val 0)
    (fun k => onlyIf asym (entry (Ex.axi asym).inp.lmnc k js)) (fun k => entry (Ex.axi asym).inp.lmns k js) θ ζ = _
  unfold series
  rw [sum_range_succ, sum_range_succ, sum_range_succ, sum_range_zero]
  beta_reduce
  rw [v 0 (by omega), v 1 (by omega), v 2 (by omega), v' 0 (by omega), v' 1 (by omega), v' 2 (by omega)]
  rw [show (Ex.vec (β := ℤ) [0, 0, 1]).val 0 0 = 0 from rfl, show (Ex.vec (β := ℤ) [0, 0, 1]).val 0 1 = 0 from rfl,
    show (Ex.vec (β := ℤ) [0, 0, 1]).val 0 2 = 1 from rfl, show (Ex.vec (β := ℤ) [0, 0, 0]).val 0 0 = 0 from rfl,
    show (Ex.vec (β := ℤ) [0, 0, 0]).val 0 1 = 0 from rfl, show (Ex.vec (β := ℤ) [0, 0, 0]).val 0 2 = 0 from rfl]
  simp only [Int.cast_zero, Int.cast_one, zero_mul, one_mul, sub_zero, Real.cos_zero, Real.sin_zero]
  push_cast
  ring

theorem Ex.axi_w (asym : Bool) {js : ℕ} (hj : js < 2) (θ ζ : ℝ) : (surface (Ex.axi asym).inp asym js).w θ ζ = 0 := by
  have v : ∀ k < 4, entry (Ex.axi asym).inp.bsubumnc k js = if k = 0 then 1 else 0 := fun k hk => Mat.val_tab hk hj
  have u : ∀ k < 4, entry (Ex.axi asym).inp.bsubumns k js = 0 := fun k hk => Mat.val_tab hk hj
  have n0 : ∀ k < 4, (Ex.vec (β := ℤ) [0, 0, 0, 0]).val 0 k = 0 := by decide
  have m0 : (Ex.vec (β := ℤ) [0, 1, 1, 2]).val 0 0 = 0 := rfl
  refine series_zero (fun k hk => onlyIf_zero fun _ => ?_) (fun k hk => ?_) θ ζ
  · have hk : k < 4 := hk
    show wCos ((Ex.vec (β := ℤ) [0, 1, 1, 2]).val 0 k) ((Ex.vec (β := ℤ) [0, 0, 0, 0]).val 0 k)
      (entry (Ex.axi asym).inp.bsubumns k js) (entry (Ex.axi asym).inp.bsubvmns k js) = 0
    rw [u k hk, n0 k hk]
    unfold wCos
    simp
  · have hk : k < 4 := hk
    show wSin ((Ex.vec (β := ℤ) [0, 1, 1, 2]).val 0 k) ((Ex.vec (β := ℤ) [0, 0, 0, 0]).val 0 k)
      (entry (Ex.axi asym).inp.bsubumnc k js) (entry (Ex.axi asym).inp.bsubvmnc k js) = 0
    rw [v k hk, n0 k hk]
    unfold wSin
    by_cases h0 : k = 0
    · rw [h0, m0]
      simp
    · simp [h0]

/-- Derivative of the poloidal Boozer angle of the example. -/
theorem Ex.axi_deriv (asym : Bool) {js : ℕ} (hj : js < 2) (θ ζ : ℝ) :
    let S := surface (Ex.axi asym).inp asym js
    3 / 4 ≤ deriv (fun t => S.thetaB t ζ) θ ∧ deriv (fun t => S.thetaB t ζ) θ ≤ 5 / 4 := by
  intro S
  obtain ⟨e1, e2, e3⟩ := Ex.axi_consts asym hj
  set g := onlyIf asym (1 / 64) with hg
  have hgb : 0 ≤ g ∧ g ≤ 1 / 64 := by
    rw [hg]; unfold onlyIf
    split <;> norm_num
  have el : S.lam = fun θ _ => 2 * g + (g * Real.cos θ + 1 / 16 * Real.sin θ) := by
    funext a b; exact Ex.axi_lam asym hj a b
  have ew : S.w = fun _ _ => 0 := by
    funext a b; exact Ex.axi_w asym hj a b
  have h1 : HasDerivAt (fun t => S.lam t ζ) (g * -Real.sin θ + 1 / 16 * Real.cos θ) θ := by
    rw [el]
    exact (((Real.hasDerivAt_cos θ).const_mul g).add ((Real.hasDerivAt_sin θ).const_mul (1 / 16))).const_add _
  have h3 : HasDerivAt (fun t => S.w t ζ) 0 θ := by rw [ew]; exact hasDerivAt_const _ _
  have n1 : HasDerivAt (fun t => S.nu t ζ) _ θ := (h3.sub (h1.const_mul S.I)).div_const _
  have t1 : HasDerivAt (fun t => S.thetaB t ζ) _ θ := ((hasDerivAt_id θ).add h1).add (n1.const_mul S.iota)
  rw [t1.deriv, show S.I = 1 from e2, show S.G = 20 from e1, show S.iota = (js : ℝ) + 1 from e3]
  have c1 := abs_le.1 (Real.abs_cos_le_one θ)
  have s1 := abs_le.1 (Real.abs_sin_le_one θ)
  generalize hlt : g * -Real.sin θ + 1 / 16 * Real.cos θ = lt
  have blt : |lt| ≤ 1 / 8 := by
    rw [abs_le, ← hlt]
    constructor <;> nlinarith
  have hi : (1 : ℝ) ≤ (js : ℝ) + 1 ∧ (js : ℝ) + 1 ≤ 2 := by
    have : (js : ℝ) ≤ 1 := by exact_mod_cast Nat.lt_succ_iff.1 hj
    have : (0 : ℝ) ≤ js := by positivity
    constructor <;> linarith
  generalize (js : ℝ) + 1 = i at *
  have bnt : |i * ((0 - 1 * lt) / (20 + i * 1))| ≤ 1 / 8 := by
    rw [abs_mul, abs_div, abs_of_pos (by linarith : (0 : ℝ) < 20 + i * 1), abs_of_nonneg (by linarith : (0 : ℝ) ≤ i),
      zero_sub, abs_neg, one_mul, mul_div_assoc', div_le_iff₀ (by linarith)]
    nlinarith [abs_nonneg lt]
  rw [abs_le] at blt bnt
  constructor <;> linarith [blt.1, blt.2, bnt.1, bnt.2]

theorem Ex.axi_resolved (asym : Bool) {js : ℕ} (hj : js < 2) (M : ℕ) :
    (surface (Ex.axi asym).inp asym js).PoloidallyResolvedBy M (1 / 2) := by
  intro θ ζ
  obtain ⟨d1, d2⟩ := Ex.axi_deriv asym hj θ ζ
  have hM : (0 : ℝ) ≤ M := by positivity
  rw [abs_of_nonneg (by linarith)]
  have := mul_le_mul_of_nonneg_left d2 hM
  unfold ntheta
  push_cast
  linarith

theorem Ex.axi_det (asym : Bool) {js : ℕ} (hj : js < 2) (θ ζ : ℝ) : (surface (Ex.axi asym).inp asym js).det θ ζ ≠ 0 := by
  have hx := axi_surface (d := { Ex.dims asym with M := 1, N := 0 }) (Ex.axi_ready asym (M := 1) le_rfl (by norm_num))
    (Ex.axi_axisymmetric asym) asym js
  have e2 : (fun z => (surface (Ex.axi asym).inp asym js).thetaB θ z) = fun _ => (surface (Ex.axi asym).inp asym js).thetaB θ 0 :=
    funext fun z => hx.thetaB θ z
  have e3 : (fun z => (surface (Ex.axi asym).inp asym js).zetaB θ z) = fun z => z + (surface (Ex.axi asym).inp asym js).nu θ 0 :=
    funext fun z => hx.zetaB θ z
  unfold Surface.det
  rw [e2, e3, deriv_add_const, deriv_const, deriv_id'', zero_mul, sub_zero, mul_one]
  linarith [(Ex.axi_deriv asym hj θ ζ).1]

theorem Ex.axi_B_ge (asym : Bool) {js : ℕ} (hj : js < 2) (θ ζ : ℝ) : 1 ≤ (surface (Ex.axi asym).inp asym js).B θ ζ := by
  have e1 : ∀ k < 4, entry (Ex.axi asym).inp.bmnc k js = (((if k = 0 then 7 + (js : ℤ) else 1) : ℤ) : ℝ) := by
    intro k hk
    show (Mat.tab 4 2 fun k j => (Arith.ofInt (if k = 0 then 7 + (j : ℤ) else 1) : ℝ)).val 0 k js = _
    rw [Mat.val_tab hk hj, real_ofInt]
  have e2 : ∀ k < 4, onlyIf asym (entry (Ex.axi asym).inp.bmns k js) = if asym = true ∧ k ≠ 0 then 1 else 0 := by
    intro k hk
    cases asym
    · simp [onlyIf]
    · have : entry (Ex.axi true).inp.bmns k js = (((if k = 0 then 0 else 1) : ℤ) : ℝ) := by
        show (Mat.tab 4 2 fun k _ => (Arith.ofInt (if k = 0 then 0 else 1) : ℝ)).val 0 k js = _
        rw [Mat.val_tab hk hj, real_ofInt]
      simp only [onlyIf, if_true, this]
      by_cases h0 : k = 0 <;> simp [h0]
  show 1 ≤ series 4 ((Ex.vec (β := ℤ) [0, 1, 1, 2]).val 0) ((Ex.vec (β := ℤ) [0, 0, 0, 0]).val 0)
    (fun k => entry (Ex.axi asym).inp.bmnc k js) (fun k => onlyIf asym (entry (Ex.axi asym).inp.bmns k js)) θ ζ
  unfold series
  rw [sum_range_succ, sum_range_succ, sum_range_succ, sum_range_one]
  simp only [e1 0 (by omega), e1 1 (by omega), e1 2 (by omega), e1 3 (by omega), e2 0 (by omega),
    e2 1 (by omega), e2 2 (by omega), e2 3 (by omega)]
  rw [show (Ex.vec (β := ℤ) [0, 1, 1, 2]).val 0 0 = 0 from rfl, show (Ex.vec (β := ℤ) [0, 0, 0, 0]).val 0 0 = 0 from rfl]
  have key : ∀ x : ℝ, -2 ≤ ((1 : ℤ) : ℝ) * Real.cos x + (if asym = true ∧ True then 1 else 0) * Real.sin x := by
    intro x
    have := Real.neg_one_le_cos x
    have := Real.neg_one_le_sin x
    cases asym <;> simp <;> linarith
  have k1 := key (((Ex.vec (β := ℤ) [0, 1, 1, 2]).val 0 1) * θ - ((Ex.vec (β := ℤ) [0, 0, 0, 0]).val 0 1) * ζ)
  have k2 := key (((Ex.vec (β := ℤ) [0, 1, 1, 2]).val 0 2) * θ - ((Ex.vec (β := ℤ) [0, 0, 0, 0]).val 0 2) * ζ)
  have k3 := key (((Ex.vec (β := ℤ) [0, 1, 1, 2]).val 0 3) * θ - ((Ex.vec (β := ℤ) [0, 0, 0, 0]).val 0 3) * ζ)
  have hj' : (0 : ℝ) ≤ js := by positivity
  simp only [one_ne_zero, ne_eq, not_false_eq_true, OfNat.ofNat_ne_zero, if_false, not_true_eq_false,
    and_false, if_true, Int.cast_zero, zero_mul, sub_zero, Real.cos_zero, mul_one, add_zero,
    Int.cast_add, Int.cast_ofNat, Int.cast_natCast, and_true] at k1 k2 k3 ⊢
  linarith

theorem Ex.axi_regular (asym : Bool) {js : ℕ} (hj : js < 2) : (surface (Ex.axi asym).inp asym js).Regular := by
  obtain ⟨e1, e2, e3⟩ := Ex.axi_consts asym hj
  constructor
  · rw [e1, e2, e3]
    positivity
  · intro θ ζ
    have := Ex.axi_B_ge asym hj θ ζ
    linarith

/-- Every run of the example with `nboz = 0` reconstructs the quantities of the second surface to fourth order. -/
example (asym : Bool) : ∃ C, 0 ≤ C ∧ ∀ (M : ℕ) (s1 : St ℝ) (dbg : Bool), 1 ≤ M → (4 * M + 2) * 2 < 2 ^ 30 →
    s1.inp = { (Ex.axi asym).inp with mboz := M, nboz := 0 } → ∃ s' r, run dbg s1 = .ok (s', r) ∧
      Reconstructs s'.out (surface (Ex.axi asym).inp asym (selected (Ex.axi asym).inp 1)) asym (numModes M 0) 1 M 0
        (C * (1 / (M : ℝ)) ^ 4) := by
  have sel : ∀ b < 2, selected (Ex.axi asym).inp b < 2 := Ex.selected_lt asym
  obtain ⟨C, hC, -, h2⟩ := C74_axisymmetric
    (s := { Ex.axi asym with inp := { (Ex.axi asym).inp with mboz := (1 : ℕ), nboz := 0 } })
    (d := { Ex.dims asym with M := 1, N := 0 }) (Ex.axi_ready asym (M := 1) le_rfl (by norm_num)) (Ex.axi_periodic asym)
    (Ex.axi_origin asym) (Ex.axi_axisymmetric asym) (fun b hb => Ex.axi_regular asym (sel b hb))
    (fun b hb => Ex.axi_det asym (sel b hb)) (by norm_num : (1 / 2 : ℝ) < 1) 4
  refine ⟨C, hC, fun M s1 dbg hM hf e => ?_⟩
  have hr : RunReady s1.inp { Ex.dims asym with M := M, N := 0 } := by
    rw [e]; exact Ex.axi_ready asym hM hf
  obtain ⟨s', r, h3, h4⟩ := h2 M s1 dbg e hr
  exact ⟨s', r, h3, h4 1 (by show 1 < 2; omega) (Ex.axi_resolved asym (sel 1 (by omega)) M)⟩

end Booz
