import Verif.Lemmas.NonStationary
import Mathlib.Analysis.Complex.CauchyIntegral
import Mathlib.Analysis.Complex.Liouville
import Mathlib.Analysis.Analytic.IsolatedZeros
import Mathlib.Analysis.SpecialFunctions.Complex.LogDeriv
import Mathlib.Analysis.Calculus.MeanValue

/-!
# Functions analytic in a strip

Families of real functions with a bounded holomorphic extension to a strip `|Im z| < a` around the real axis: for
periodic ones the Fourier coefficients and the error of the trapezoidal rule decay exponentially.
-/

namespace Booz.Trapezoid
open Finset Function

variable {ι : Type*} {a b : ℝ} {f g : ι → ℝ → ℝ}

/-- The strip `|Im z| < a`. -/
def strip (a : ℝ) : Set ℂ := {z | |z.im| < a}

theorem strip_open (a : ℝ) : IsOpen (strip a) :=
  isOpen_lt (continuous_abs.comp Complex.continuous_im) continuous_const

theorem strip_convex (a : ℝ) : Convex ℝ (strip a) := by
  have : strip a = Complex.imLm ⁻¹' Set.Ioo (-a) a := by
    ext z
    show |z.im| < a ↔ -a < z.im ∧ z.im < a
    exact abs_lt
  rw [this]
  exact (convex_Ioo _ _).linear_preimage _

theorem strip_mono (h : b ≤ a) : strip b ⊆ strip a := fun _ hz => lt_of_lt_of_le hz h

theorem real_strip (ha : 0 < a) (x : ℝ) : (x : ℂ) ∈ strip a := by
  show |(x : ℂ).im| < a
  rw [Complex.ofReal_im, abs_zero]
  exact ha

/-- The functions of the family extend to holomorphic functions of the strip `|Im z| < a`, bounded uniformly. -/
def An (a : ℝ) (f : ι → ℝ → ℝ) : Prop :=
  ∃ (g : ι → ℂ → ℂ) (K : ℝ), ∀ i, DifferentiableOn ℂ (g i) (strip a) ∧ (∀ x : ℝ, g i x = f i x) ∧
    ∀ z ∈ strip a, ‖g i z‖ ≤ K

theorem An.mono (h : An a f) (hb : b ≤ a) : An b f := by
  obtain ⟨g, K, hg⟩ := h
  exact ⟨g, K, fun i => ⟨(hg i).1.mono (strip_mono hb), (hg i).2.1, fun z hz => (hg i).2.2 z (strip_mono hb hz)⟩⟩

theorem An.const (c : ι → ℝ) {K : ℝ} (hK : ∀ i, |c i| ≤ K) : An a (fun i _ => c i) :=
  ⟨fun i _ => c i, K, fun i => ⟨differentiableOn_const _, fun _ => rfl, fun _ _ => by
    rw [Complex.norm_real]; exact hK i⟩⟩

theorem An.add (hf : An a f) (hg : An a g) : An a (fun i x => f i x + g i x) := by
  obtain ⟨F, K, hF⟩ := hf
  obtain ⟨G, L, hG⟩ := hg
  refine ⟨fun i z => F i z + G i z, K + L, fun i => ⟨(hF i).1.add (hG i).1, fun x => ?_, fun z hz => ?_⟩⟩
  · show F i x + G i x = _
    rw [(hF i).2.1, (hG i).2.1, Complex.ofReal_add]
  · exact (norm_add_le _ _).trans (add_le_add ((hF i).2.2 z hz) ((hG i).2.2 z hz))

theorem An.mul (hf : An a f) (hg : An a g) : An a (fun i x => f i x * g i x) := by
  obtain ⟨F, K, hF⟩ := hf
  obtain ⟨G, L, hG⟩ := hg
  refine ⟨fun i z => F i z * G i z, K * L, fun i => ⟨(hF i).1.mul (hG i).1, fun x => ?_, fun z hz => ?_⟩⟩
  · show F i x * G i x = _
    rw [(hF i).2.1, (hG i).2.1, Complex.ofReal_mul]
  · rw [norm_mul]
    exact mul_le_mul ((hF i).2.2 z hz) ((hG i).2.2 z hz) (norm_nonneg _) ((norm_nonneg _).trans ((hF i).2.2 z hz))

theorem An.const_mul (c : ℝ) (hf : An a f) : An a (fun i x => c * f i x) :=
  (An.const (fun _ => c) (fun _ => le_refl |c|)).mul hf

theorem An.sub (hf : An a f) (hg : An a g) : An a (fun i x => f i x - g i x) := by
  have := hf.add (hg.const_mul (-1))
  simpa only [neg_one_mul, ← sub_eq_add_neg] using this

theorem An.sum {J : Type*} (s : Finset J) {F : J → ι → ℝ → ℝ} (h : ∀ j ∈ s, An a (F j)) :
    An a (fun i x => ∑ j ∈ s, F j i x) := by
  classical
  induction s using Finset.induction_on with
  | empty => simpa using An.const (a := a) (fun _ : ι => (0 : ℝ)) (K := 0) (by simp)
  | insert j s hj ih =>
    simp only [Finset.sum_insert hj]
    exact (h j (Finset.mem_insert_self _ _)).add (ih fun k hk => h k (Finset.mem_insert_of_mem hk))

theorem norm_exp_le' {w : ℂ} {K : ℝ} (h : ‖w‖ ≤ K) : ‖Complex.exp w‖ ≤ Real.exp K := by
  rw [Complex.norm_exp]
  exact Real.exp_le_exp.2 ((Complex.re_le_norm w).trans h)

theorem norm_cos_le' {w : ℂ} {K : ℝ} (h : ‖w‖ ≤ K) : ‖Complex.cos w‖ ≤ Real.exp K := by
  have h1 : ‖Complex.exp (w * Complex.I)‖ ≤ Real.exp K := norm_exp_le' (by simpa using h)
  have h2 : ‖Complex.exp (-w * Complex.I)‖ ≤ Real.exp K := norm_exp_le' (by simpa using h)
  rw [Complex.cos, norm_div, Complex.norm_ofNat]
  have := norm_add_le (Complex.exp (w * Complex.I)) (Complex.exp (-w * Complex.I))
  linarith

theorem norm_sin_le' {w : ℂ} {K : ℝ} (h : ‖w‖ ≤ K) : ‖Complex.sin w‖ ≤ Real.exp K := by
  have h1 : ‖Complex.exp (w * Complex.I)‖ ≤ Real.exp K := norm_exp_le' (by simpa using h)
  have h2 : ‖Complex.exp (-w * Complex.I)‖ ≤ Real.exp K := norm_exp_le' (by simpa using h)
  rw [Complex.sin, norm_div, norm_mul, Complex.norm_I, mul_one, Complex.norm_ofNat]
  have := norm_sub_le (Complex.exp (-w * Complex.I)) (Complex.exp (w * Complex.I))
  linarith

theorem An.cos (hf : An a f) : An a (fun i x => Real.cos (f i x)) := by
  obtain ⟨F, K, hF⟩ := hf
  refine ⟨fun i z => Complex.cos (F i z), Real.exp K, fun i => ⟨(hF i).1.ccos, fun x => ?_, fun z hz =>
    norm_cos_le' ((hF i).2.2 z hz)⟩⟩
  show Complex.cos (F i x) = _
  rw [(hF i).2.1, Complex.ofReal_cos]

theorem An.sin (hf : An a f) : An a (fun i x => Real.sin (f i x)) := by
  obtain ⟨F, K, hF⟩ := hf
  refine ⟨fun i z => Complex.sin (F i z), Real.exp K, fun i => ⟨(hF i).1.csin, fun x => ?_, fun z hz =>
    norm_sin_le' ((hF i).2.2 z hz)⟩⟩
  show Complex.sin (F i x) = _
  rw [(hF i).2.1, Complex.ofReal_sin]

theorem cos_lin_An (k : ℝ) : An a (fun (_ : ι) x => Real.cos (k * x)) := by
  refine ⟨fun _ z => Complex.cos (k * z), Real.exp (|k| * a), fun _ => ⟨?_, fun x => ?_, fun z hz => ?_⟩⟩
  · exact (Complex.differentiable_cos.comp (differentiable_id.const_mul _)).differentiableOn
  · show Complex.cos _ = _
    rw [Complex.ofReal_cos, Complex.ofReal_mul]
  · have e1 : ‖Complex.exp (k * z * Complex.I)‖ ≤ Real.exp (|k| * a) := by
      rw [Complex.norm_exp]
      refine Real.exp_le_exp.2 ?_
      have : (k * z * Complex.I).re = -(k * z.im) := by simp
      rw [this]
      refine (neg_le_abs _).trans ?_
      rw [abs_mul]
      exact mul_le_mul_of_nonneg_left (le_of_lt hz) (abs_nonneg _)
    have e2 : ‖Complex.exp (-(k * z) * Complex.I)‖ ≤ Real.exp (|k| * a) := by
      rw [Complex.norm_exp]
      refine Real.exp_le_exp.2 ?_
      have : (-(k * z) * Complex.I).re = k * z.im := by simp
      rw [this]
      refine (le_abs_self _).trans ?_
      rw [abs_mul]
      exact mul_le_mul_of_nonneg_left (le_of_lt hz) (abs_nonneg _)
    show ‖Complex.cos (k * z)‖ ≤ _
    rw [Complex.cos, norm_div, Complex.norm_ofNat]
    have := norm_add_le (Complex.exp (k * z * Complex.I)) (Complex.exp (-(k * z) * Complex.I))
    linarith

theorem sin_lin_An (k : ℝ) : An a (fun (_ : ι) x => Real.sin (k * x)) := by
  refine ⟨fun _ z => Complex.sin (k * z), Real.exp (|k| * a), fun _ => ⟨?_, fun x => ?_, fun z hz => ?_⟩⟩
  · exact (Complex.differentiable_sin.comp (differentiable_id.const_mul _)).differentiableOn
  · show Complex.sin _ = _
    rw [Complex.ofReal_sin, Complex.ofReal_mul]
  · have e1 : ‖Complex.exp (k * z * Complex.I)‖ ≤ Real.exp (|k| * a) := by
      rw [Complex.norm_exp]
      refine Real.exp_le_exp.2 ?_
      have : (k * z * Complex.I).re = -(k * z.im) := by simp
      rw [this]
      refine (neg_le_abs _).trans ?_
      rw [abs_mul]
      exact mul_le_mul_of_nonneg_left (le_of_lt hz) (abs_nonneg _)
    have e2 : ‖Complex.exp (-(k * z) * Complex.I)‖ ≤ Real.exp (|k| * a) := by
      rw [Complex.norm_exp]
      refine Real.exp_le_exp.2 ?_
      have : (-(k * z) * Complex.I).re = k * z.im := by simp
      rw [this]
      refine (le_abs_self _).trans ?_
      rw [abs_mul]
      exact mul_le_mul_of_nonneg_left (le_of_lt hz) (abs_nonneg _)
    show ‖Complex.sin (k * z)‖ ≤ _
    rw [Complex.sin, norm_div, norm_mul, Complex.norm_I, mul_one, Complex.norm_ofNat]
    have := norm_sub_le (Complex.exp (-(k * z) * Complex.I)) (Complex.exp (k * z * Complex.I))
    linarith

/-- Cosine of a linear function plus a bounded constant of the family. -/
theorem cos_shift_An (k : ℝ) (c : ι → ℝ) : An a (fun i x => Real.cos (k * x + c i)) := by
  simp only [Real.cos_add]
  exact ((cos_lin_An k).mul (An.const (fun i => Real.cos (c i)) fun i => Real.abs_cos_le_one _)).sub
    ((sin_lin_An k).mul (An.const (fun i => Real.sin (c i)) fun i => Real.abs_sin_le_one _))

theorem sin_shift_An (k : ℝ) (c : ι → ℝ) : An a (fun i x => Real.sin (k * x + c i)) := by
  simp only [Real.sin_add]
  exact ((sin_lin_An k).mul (An.const (fun i => Real.cos (c i)) fun i => Real.abs_cos_le_one _)).add
    ((cos_lin_An k).mul (An.const (fun i => Real.sin (c i)) fun i => Real.abs_sin_le_one _))

/-- The inverse of a function bounded away from zero on the real axis is analytic in a smaller strip. -/
theorem An.inv (ha : 0 < a) (hf : An a f) {δ : ℝ} (hδ : 0 < δ) (hl : ∀ i x, δ ≤ |f i x|) :
    ∃ b, 0 < b ∧ b ≤ a ∧ An b (fun i x => (f i x)⁻¹) := by
  obtain ⟨F, K, hF⟩ := hf
  set L : ℝ := |K| + 1 with hL
  have hL0 : 0 < L := by positivity
  have hKL : K ≤ L := (le_abs_self K).trans (by linarith)
  have hd : ∀ i, ∀ z ∈ strip (a / 2), ‖deriv (F i) z‖ ≤ L / (a / 4) := by
    intro i z hz
    have hin : ∀ w ∈ Metric.closedBall z (a / 4), w ∈ strip a := by
      intro w hw
      have h1 : |w.im - z.im| ≤ a / 4 := by
        have := Complex.abs_im_le_norm (w - z)
        rw [Complex.sub_im] at this
        rw [Metric.mem_closedBall, dist_eq_norm] at hw
        exact this.trans hw
      have h2 : |z.im| < a / 2 := hz
      show |w.im| < a
      have := abs_sub_abs_le_abs_sub w.im z.im
      linarith
    refine Complex.norm_deriv_le_of_forall_mem_sphere_norm_le (by positivity) ?_ fun w hw =>
      ((hF i).2.2 w (hin w (Metric.sphere_subset_closedBall hw))).trans hKL
    refine DifferentiableOn.diffContOnCl ?_
    rw [closure_ball _ (by positivity)]
    exact (hF i).1.mono hin
  set b : ℝ := min (a / 2) (δ * a / (8 * L)) with hb
  have hb0 : 0 < b := lt_min (by positivity) (by positivity)
  have hba : b ≤ a / 2 := min_le_left _ _
  have hba' : b ≤ a := hba.trans (by linarith)
  have low : ∀ i, ∀ z ∈ strip b, δ / 2 ≤ ‖F i z‖ := by
    intro i z hz
    have hz2 : z ∈ strip (a / 2) := strip_mono hba hz
    have hr2 : ((z.re : ℝ) : ℂ) ∈ strip (a / 2) := real_strip (by positivity) _
    have h1 := (strip_convex (a / 2)).norm_image_sub_le_of_norm_deriv_le (f := F i) (C := L / (a / 4))
      (fun w hw => ((hF i).1 w (strip_mono (by linarith) hw)).differentiableAt
        ((strip_open a).mem_nhds (strip_mono (by linarith) hw))) (hd i) hr2 hz2
    have h2 : ‖z - (z.re : ℂ)‖ = |z.im| := by
      have : z - (z.re : ℂ) = z.im * Complex.I := by
        apply Complex.ext <;> simp
      rw [this, norm_mul, Complex.norm_I, mul_one, Complex.norm_real, Real.norm_eq_abs]
    rw [h2] at h1
    have h3 : ‖F i (z.re : ℂ)‖ = |f i z.re| := by rw [(hF i).2.1, Complex.norm_real, Real.norm_eq_abs]
    have h4 := hl i z.re
    have h5 : L / (a / 4) * |z.im| ≤ δ / 2 := by
      have : |z.im| ≤ δ * a / (8 * L) := (le_of_lt hz).trans (min_le_right _ _)
      calc L / (a / 4) * |z.im| ≤ L / (a / 4) * (δ * a / (8 * L)) :=
            mul_le_mul_of_nonneg_left this (by positivity)
        _ = δ / 2 := by field_simp; norm_num
    have h6 := norm_sub_norm_le (F i (z.re : ℂ)) (F i z)
    rw [norm_sub_rev] at h6
    linarith
  refine ⟨b, hb0, hba', fun i z => (F i z)⁻¹, (δ / 2)⁻¹, fun i => ⟨?_, fun x => ?_, fun z hz => ?_⟩⟩
  · refine ((hF i).1.mono (strip_mono hba')).inv fun z hz e => ?_
    have := low i z hz
    rw [e, norm_zero] at this
    linarith
  · show (F i x)⁻¹ = _
    rw [(hF i).2.1, Complex.ofReal_inv]
  · rw [norm_inv]
    exact inv_anti₀ (by positivity) (low i z hz)

/-! ### Fourier coefficients -/

/-- The extension of a periodic function is periodic. -/
theorem ext_periodic {F : ℂ → ℂ} {f : ℝ → ℝ} (ha : 0 < a) (hF : DifferentiableOn ℂ F (strip a))
    (hr : ∀ x : ℝ, F x = f x) {T : ℝ} (hp : Periodic f T) {z : ℂ} (hz : z ∈ strip a) : F (z + T) = F z := by
  have shift : ∀ {z : ℂ}, z ∈ strip a → z + T ∈ strip a := by
    intro z hz
    show |(z + T).im| < a
    rw [Complex.add_im, Complex.ofReal_im, add_zero]
    exact hz
  have h1 : DifferentiableOn ℂ (fun z => F (z + T)) (strip a) :=
    hF.comp (differentiable_id.add_const _).differentiableOn fun z hz => shift hz
  refine ((h1.analyticOnNhd (strip_open a)).eqOn_of_preconnected_of_frequently_eq
    (hF.analyticOnNhd (strip_open a)) (strip_convex a).isPreconnected (real_strip ha 0) ?_) hz
  have ht : Filter.Tendsto (fun x : ℝ => (x : ℂ)) (nhdsWithin 0 {0}ᶜ) (nhdsWithin ((0 : ℝ) : ℂ) {((0 : ℝ) : ℂ)}ᶜ) := by
    refine tendsto_nhdsWithin_iff.2 ⟨?_, ?_⟩
    · exact (Complex.continuous_ofReal.tendsto 0).mono_left nhdsWithin_le_nhds
    · filter_upwards [self_mem_nhdsWithin] with x hx
      simpa using hx
  refine ht.frequently (Filter.Eventually.frequently (Filter.Eventually.of_forall fun x => ?_))
  show F (x + T) = F x
  rw [← Complex.ofReal_add, hr, hr, hp]

/-- The contour of an integral over a period can be shifted. -/
theorem contour {H : ℂ → ℂ} {T c : ℝ} (hc : |c| < a) (hH : DifferentiableOn ℂ H (strip a))
    (hp : ∀ z ∈ strip a, H (z + T) = H z) :
    ∫ x in (0 : ℝ)..T, H x = ∫ x in (0 : ℝ)..T, H (x + c * Complex.I) := by
  have key := Complex.integral_boundary_rect_eq_zero_of_differentiableOn H 0 (T + c * Complex.I) (hH.mono ?_)
  · have e1 : ((T : ℂ) + c * Complex.I).re = T := by simp
    have e2 : ((T : ℂ) + c * Complex.I).im = c := by simp
    rw [e1, e2, Complex.zero_re, Complex.zero_im] at key
    have e3 : ∫ y in (0 : ℝ)..c, H ((T : ℝ) + y * Complex.I) = ∫ y in (0 : ℝ)..c, H ((0 : ℝ) + y * Complex.I) := by
      refine intervalIntegral.integral_congr fun y hy => ?_
      have hy' : |y| ≤ |c| := by
        have := Set.abs_sub_left_of_mem_uIcc hy
        simpa using this
      show H (T + y * Complex.I) = H ((0 : ℝ) + y * Complex.I)
      rw [← hp ((0 : ℝ) + y * Complex.I)]
      · congr 1
        push_cast
        ring
      · show |_| < a
        simpa using lt_of_le_of_lt hy' hc
    rw [e3] at key
    simp only [Complex.ofReal_zero, zero_mul, add_zero] at key
    have : ∀ u v w : ℂ, u - v + w - w = 0 → u = v := fun u v w h => by linear_combination h
    exact this _ _ _ key
  · intro z hz
    have hz2 := hz.2
    simp only [Complex.zero_im, Complex.add_im, Complex.ofReal_im, Complex.mul_im, Complex.ofReal_re, Complex.I_im,
      mul_one, Complex.I_re, mul_zero, add_zero, zero_add] at hz2
    have := Set.abs_sub_left_of_mem_uIcc hz2
    rw [sub_zero, sub_zero] at this
    exact lt_of_le_of_lt this hc

/-- Exponential decay of the Fourier coefficients. -/
theorem coeff_le {F : ℂ → ℂ} {f : ℝ → ℝ} {K : ℝ} (hF : DifferentiableOn ℂ F (strip a))
    (hr : ∀ x : ℝ, F x = f x) (hK : ∀ z ∈ strip a, ‖F z‖ ≤ K) {T : ℝ} (hT : 0 < T) (hp : Periodic f T)
    (hb : 0 < b) (hba : b < a) (k : ℤ) : ‖coeff T f k‖ ≤ K * Real.exp (-(2 * Real.pi * b / T)) ^ k.natAbs := by
  have ha : 0 < a := hb.trans hba
  set c : ℝ := if 0 ≤ k then -b else b with hc
  have hcb : |c| = b := by
    rw [hc]; split
    · rw [abs_neg, abs_of_pos hb]
    · exact abs_of_pos hb
  have hkc : (k : ℝ) * c = -(k.natAbs * b) := by
    rw [hc]; split
    · rename_i h
      have : (k.natAbs : ℝ) = k := by
        have : ((k.natAbs : ℤ) : ℝ) = ((k : ℤ) : ℝ) := by rw [Int.natAbs_of_nonneg h]
        simpa using this
      rw [this]; ring
    · rename_i h
      have : (k.natAbs : ℝ) = -k := by
        have : ((k.natAbs : ℤ) : ℝ) = ((-k : ℤ) : ℝ) := by rw [Int.ofNat_natAbs_of_nonpos (by omega)]
        simpa using this
      rw [this]; ring
  set H : ℂ → ℂ := fun z => Complex.exp (-(2 * Real.pi * k / T) * z * Complex.I) * F z with hH
  have hTne : (T : ℂ) ≠ 0 := by exact_mod_cast hT.ne'
  have hHd : DifferentiableOn ℂ H (strip a) := by
    refine DifferentiableOn.mul ?_ hF
    have : Differentiable ℂ fun z : ℂ => Complex.exp (-(2 * Real.pi * k / T) * z * Complex.I) := by fun_prop
    exact this.differentiableOn
  have hHp : ∀ z ∈ strip a, H (z + T) = H z := by
    intro z hz
    show Complex.exp (-(2 * Real.pi * k / T) * (z + T) * Complex.I) * F (z + T) =
      Complex.exp (-(2 * Real.pi * k / T) * z * Complex.I) * F z
    rw [ext_periodic ha hF hr hp hz]
    congr 1
    have : -(2 * Real.pi * k / T) * (z + T) * Complex.I =
        -(2 * Real.pi * k / T) * z * Complex.I + ((-k : ℤ) : ℂ) * (2 * Real.pi * Complex.I) := by
      push_cast
      field_simp
      ring
    rw [this, Complex.exp_add, Complex.exp_int_mul_two_pi_mul_I, mul_one]
  have e0 : (∫ x in (0 : ℝ)..T, Complex.exp ((-(2 * Real.pi * k / T) * x : ℝ) * Complex.I) * f x) =
      ∫ x in (0 : ℝ)..T, H x := by
    refine intervalIntegral.integral_congr fun x _ => ?_
    show _ = Complex.exp (-(2 * Real.pi * k / T) * x * Complex.I) * F x
    rw [hr]
    congr 2
    push_cast
    ring
  have bound : ∀ x : ℝ, ‖H (x + c * Complex.I)‖ ≤ K * Real.exp (-(2 * Real.pi * b / T)) ^ k.natAbs := by
    intro x
    have hin : ((x : ℂ) + c * Complex.I) ∈ strip a := by
      show |_| < a
      simp only [Complex.add_im, Complex.ofReal_im, Complex.mul_im, Complex.ofReal_re, Complex.I_im,
        mul_one, Complex.I_re, mul_zero, add_zero, zero_add]
      rw [hcb]
      exact hba
    show ‖Complex.exp _ * F _‖ ≤ _
    rw [norm_mul, Complex.norm_exp, mul_comm]
    have e1 : (-(2 * Real.pi * k / T) * ((x : ℂ) + c * Complex.I) * Complex.I).re =
        k.natAbs * (-(2 * Real.pi * b / T)) := by
      have : -(2 * Real.pi * k / T) * ((x : ℂ) + c * Complex.I) * Complex.I =
          ((2 * Real.pi / T * (k * c) : ℝ) : ℂ) + ((-(2 * Real.pi * k / T) * x : ℝ) : ℂ) * Complex.I := by
        push_cast
        linear_combination (-(2 * Real.pi * k / T) * c : ℂ) * Complex.I_sq
      rw [this, hkc]
      simp only [Complex.add_re, Complex.ofReal_re, Complex.mul_re, Complex.ofReal_im, Complex.I_re, Complex.I_im]
      ring
    rw [e1, Real.exp_nat_mul]
    exact mul_le_mul_of_nonneg_right (hK _ hin) (by positivity)
  unfold coeff
  rw [e0, contour (c := c) (by rw [hcb]; exact hba) hHd hHp, norm_mul, Complex.norm_real, Real.norm_eq_abs,
    abs_of_pos (by positivity)]
  have h1 := intervalIntegral.norm_integral_le_of_norm_le_const (a := 0) (b := T)
    (f := fun x : ℝ => H (x + c * Complex.I)) fun x _ => bound x
  rw [sub_zero, abs_of_pos hT] at h1
  calc 1 / T * ‖∫ x in (0 : ℝ)..T, H (x + c * Complex.I)‖
      ≤ 1 / T * (K * Real.exp (-(2 * Real.pi * b / T)) ^ k.natAbs * T) :=
        mul_le_mul_of_nonneg_left h1 (by positivity)
    _ = _ := by field_simp

/-! ### The trapezoidal rule -/

theorem summable_natAbs {q : ℝ} (h0 : 0 ≤ q) (h1 : q < 1) : Summable fun k : ℤ => q ^ k.natAbs := by
  refine Summable.of_nat_of_neg ?_ ?_
  · simpa using summable_geometric_of_lt_one h0 h1
  · simpa using summable_geometric_of_lt_one h0 h1

theorem summable_natAbs_pred {q : ℝ} (h0 : 0 < q) (h1 : q < 1) : Summable fun k : ℤ => q ^ (k.natAbs - 1) := by
  refine Summable.of_nonneg_of_le (fun k => by positivity) (fun k => ?_)
    ((summable_natAbs h0.le h1).mul_left q⁻¹)
  rcases Nat.eq_zero_or_pos k.natAbs with e | e
  · rw [e, pow_zero, mul_one]
    exact (one_le_inv₀ h0).2 h1.le
  · obtain ⟨j, hj⟩ := Nat.exists_eq_add_of_lt e
    rw [zero_add] at hj
    rw [hj, Nat.add_sub_cancel, pow_succ, mul_comm, mul_assoc, mul_inv_cancel₀ h0.ne', mul_one]

/-- **The trapezoidal rule converges exponentially** for periodic functions analytic in a strip of half width `a`:
for every `b < a` the error with `n` points of a period `T` is at most a constant times `e^{-2π b n / T}`. -/
theorem trap_exp (hf : An a f) {T : ℝ} (hT : 0 < T) (hp : ∀ i, Periodic (f i) T) (hc : ∀ i, Continuous (f i))
    (hb : 0 < b) (hba : b < a) :
    ∃ C, 0 ≤ C ∧ ∀ (n : ℕ), 1 ≤ n → ∀ i, |avg T n (f i) 0 - mean T (f i)| ≤
      C * Real.exp (-(2 * Real.pi * b / T) * n) := by
  obtain ⟨F, K, hF⟩ := hf
  set q : ℝ := Real.exp (-(2 * Real.pi * b / T)) with hq
  have q0 : 0 < q := Real.exp_pos _
  have q1 : q < 1 := by
    rw [hq, Real.exp_lt_one_iff]
    have : 0 < 2 * Real.pi * b / T := by positivity
    linarith
  have hcf : ∀ i k, ‖coeff T (f i) k‖ ≤ |K| * q ^ k.natAbs := fun i k =>
    (coeff_le (hF i).1 (hF i).2.1 (fun z hz => ((hF i).2.2 z hz).trans (le_abs_self K)) hT (hp i) hb hba k)
  refine ⟨|K| * ∑' k : ℤ, q ^ (k.natAbs - 1), mul_nonneg (abs_nonneg _) (tsum_nonneg fun k => by positivity),
    fun n hn i => ?_⟩
  have hs : Summable fun k => ‖coeff T (f i) k‖ :=
    Summable.of_nonneg_of_le (fun _ => norm_nonneg _) (hcf i) ((summable_natAbs q0.le q1).mul_left _)
  refine (aliasing hT (hp i) (hc i) hs hn).trans ?_
  have e1 : Real.exp (-(2 * Real.pi * b / T) * n) = q ^ n := by rw [mul_comm, Real.exp_nat_mul]
  have term : ∀ k : ℤ, (if k = 0 then 0 else ‖coeff T (f i) (k * n)‖) ≤ |K| * q ^ n * q ^ (k.natAbs - 1) := by
    intro k
    split
    · positivity
    · rename_i hk
      refine (hcf i _).trans ?_
      rw [mul_assoc, ← pow_add]
      refine mul_le_mul_of_nonneg_left (pow_le_pow_of_le_one q0.le q1.le ?_) (abs_nonneg _)
      rw [Int.natAbs_mul, Int.natAbs_natCast]
      obtain ⟨j, hj⟩ := Nat.exists_eq_add_of_lt (Int.natAbs_pos.2 hk)
      rw [hj, zero_add, Nat.add_sub_cancel, add_one_mul]
      nlinarith
  have hsum := (summable_natAbs_pred q0 q1).mul_left (|K| * q ^ n)
  rw [e1, mul_right_comm, ← tsum_mul_left]
  refine Summable.tsum_le_tsum term (Summable.of_nonneg_of_le (fun k => ?_) term hsum) hsum
  split
  · exact le_refl _
  · exact norm_nonneg _

/-! ### Two angles -/

/-- Analytic in each angle, uniformly in the other. -/
def An2 (a : ℝ) (F : ℝ → ℝ → ℝ) : Prop := An a (fun ζ θ => F θ ζ) ∧ An a (fun θ ζ => F θ ζ)

variable {F G : ℝ → ℝ → ℝ}

theorem An2.mono (h : An2 a F) (hb : b ≤ a) : An2 b F := ⟨h.1.mono hb, h.2.mono hb⟩
theorem An2.const (c : ℝ) : An2 a (fun _ _ => c) :=
  ⟨An.const _ fun _ => le_refl |c|, An.const _ fun _ => le_refl |c|⟩
theorem An2.add (hf : An2 a F) (hg : An2 a G) : An2 a (fun θ ζ => F θ ζ + G θ ζ) := ⟨hf.1.add hg.1, hf.2.add hg.2⟩
theorem An2.sub (hf : An2 a F) (hg : An2 a G) : An2 a (fun θ ζ => F θ ζ - G θ ζ) := ⟨hf.1.sub hg.1, hf.2.sub hg.2⟩
theorem An2.mul (hf : An2 a F) (hg : An2 a G) : An2 a (fun θ ζ => F θ ζ * G θ ζ) := ⟨hf.1.mul hg.1, hf.2.mul hg.2⟩
theorem An2.const_mul (c : ℝ) (hf : An2 a F) : An2 a (fun θ ζ => c * F θ ζ) := ⟨hf.1.const_mul c, hf.2.const_mul c⟩
theorem An2.cos (hf : An2 a F) : An2 a (fun θ ζ => Real.cos (F θ ζ)) := ⟨hf.1.cos, hf.2.cos⟩
theorem An2.sin (hf : An2 a F) : An2 a (fun θ ζ => Real.sin (F θ ζ)) := ⟨hf.1.sin, hf.2.sin⟩
theorem An2.sum {J : Type*} (s : Finset J) {H : J → ℝ → ℝ → ℝ} (h : ∀ j ∈ s, An2 a (H j)) :
    An2 a (fun θ ζ => ∑ j ∈ s, H j θ ζ) := ⟨An.sum s fun j hj => (h j hj).1, An.sum s fun j hj => (h j hj).2⟩

theorem An2.inv (ha : 0 < a) (hf : An2 a F) {δ : ℝ} (hδ : 0 < δ) (hl : ∀ θ ζ, δ ≤ |F θ ζ|) :
    ∃ b, 0 < b ∧ b ≤ a ∧ An2 b (fun θ ζ => (F θ ζ)⁻¹) := by
  obtain ⟨b1, p1, _, h1⟩ := hf.1.inv ha hδ fun ζ θ => hl θ ζ
  obtain ⟨b2, p2, l2, h2⟩ := hf.2.inv ha hδ hl
  exact ⟨min b1 b2, lt_min p1 p2, (min_le_right _ _).trans l2, h1.mono (min_le_left _ _), h2.mono (min_le_right _ _)⟩

theorem cos_angle_An2 (m n : ℝ) : An2 a (fun θ ζ => Real.cos (m * θ - n * ζ)) := by
  constructor
  · exact cos_shift_An m fun ζ => -(n * ζ)
  · have e : (fun θ ζ : ℝ => Real.cos (m * θ - n * ζ)) = fun θ ζ => Real.cos (-n * ζ + m * θ) := by
      funext θ ζ; congr 1; ring
    rw [e]
    exact cos_shift_An (-n) fun θ => m * θ

theorem sin_angle_An2 (m n : ℝ) : An2 a (fun θ ζ => Real.sin (m * θ - n * ζ)) := by
  constructor
  · exact sin_shift_An m fun ζ => -(n * ζ)
  · have e : (fun θ ζ : ℝ => Real.sin (m * θ - n * ζ)) = fun θ ζ => Real.sin (-n * ζ + m * θ) := by
      funext θ ζ; congr 1; ring
    rw [e]
    exact sin_shift_An (-n) fun θ => m * θ

/-- **Tensor-product quadrature of a doubly periodic function analytic in each angle**: exponential convergence. -/
theorem grid_exp {P Q : ℝ} (hP : 0 < P) (hQ : 0 < Q) (h : DPer P Q (uncurry F)) (hc : Continuous (uncurry F))
    (hf : An2 a F) (hb : 0 < b) (hba : b < a) :
    ∃ C, 0 ≤ C ∧ ∀ n1 n2 : ℕ, 1 ≤ n1 → 1 ≤ n2 →
      |gridMean P Q n1 n2 (uncurry F) - mean2 P Q (uncurry F)| ≤
        C * (Real.exp (-(2 * Real.pi * b / P) * n1) + Real.exp (-(2 * Real.pi * b / Q) * n2)) := by
  obtain ⟨C1, p1, h1⟩ := trap_exp hf.1 hP (fun ζ => h.slice1 ζ) (fun ζ => hc.comp (f := fun θ : ℝ => (θ, ζ)) (by fun_prop)) hb hba
  obtain ⟨C2, p2, h2⟩ := trap_exp hf.2 hQ (fun θ => h.slice2 θ) (fun θ => hc.comp (f := fun ζ : ℝ => (θ, ζ)) (by fun_prop)) hb hba
  refine ⟨C1 + C2, by positivity, fun n1 n2 hn1 hn2 => ?_⟩
  refine (grid_combine (F := uncurry F) hP hn2 hc (h1 n1 hn1) (h2 n2 hn2)).trans ?_
  have a1 := mul_nonneg p2 (Real.exp_pos (-(2 * Real.pi * b / P) * n1)).le
  have a2 := mul_nonneg p1 (Real.exp_pos (-(2 * Real.pi * b / Q) * n2)).le
  nlinarith

end Booz.Trapezoid
