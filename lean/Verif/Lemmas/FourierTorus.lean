import Verif.Lemmas.TorusMap
import Mathlib.Algebra.Order.BigOperators.Group.LocallyFinite
import Mathlib.Analysis.Normed.Group.FunctionSeries
import Mathlib.Analysis.PSeries
import Mathlib.Order.Interval.Finset.Basic
import Mathlib.Data.Int.Interval

/-!
# Fourier series of smooth functions on the torus

A smooth doubly 2π-periodic function is the uniform sum of its Fourier series, summed over squares of modes
in the half plane `m > 0 ∨ (m = 0 ∧ n ≥ 0)`.
-/

namespace Booz.Trapezoid
open Finset Function Spec MeasureTheory

variable {F G E : ℝ × ℝ → ℝ}

/-! ### Integration by parts -/

theorem DPer.mul {P Q : ℝ} (hF : DPer P Q F) (hG : DPer P Q G) : DPer P Q fun x => F x * G x :=
  ⟨fun x => congrArg₂ (· * ·) (hF.1 x) (hG.1 x), fun x => congrArg₂ (· * ·) (hF.2 x) (hG.2 x)⟩
theorem DPer.sub {P Q : ℝ} (hF : DPer P Q F) (hG : DPer P Q G) : DPer P Q fun x => F x - G x :=
  ⟨fun x => congrArg₂ (· - ·) (hF.1 x) (hG.1 x), fun x => congrArg₂ (· - ·) (hF.2 x) (hG.2 x)⟩

theorem parts1 (sF : Smooth F) (pF : DPer τ τ F) (sE : Smooth E) (pE : DPer τ τ E) :
    mean2 τ τ (fun x => D1 F x * E x) = - mean2 τ τ (fun x => F x * D1 E x) := by
  have h := mean2_D1 tau_pos tau_pos (pF.mul pE) (sF.mul sE)
  have e : D1 (fun x => F x * E x) = fun x => D1 F x * E x + F x * D1 E x := funext (D1_mul sF sE)
  have k1 : Continuous fun x => D1 F x * E x := sF.d1.continuous.mul sE.continuous
  have k2 : Continuous fun x => F x * D1 E x := sF.continuous.mul sE.d1.continuous
  rw [e, mean2_add k1 k2] at h
  linarith

theorem parts2 (sF : Smooth F) (pF : DPer τ τ F) (sE : Smooth E) (pE : DPer τ τ E) :
    mean2 τ τ (fun x => D2 F x * E x) = - mean2 τ τ (fun x => F x * D2 E x) := by
  have h := mean2_D2 (pF.mul pE) (sF.mul sE)
  have e : D2 (fun x => F x * E x) = fun x => D2 F x * E x + F x * D2 E x := funext (D2_mul sF sE)
  have k1 : Continuous fun x => D2 F x * E x := sF.d2.continuous.mul sE.continuous
  have k2 : Continuous fun x => F x * D2 E x := sF.continuous.mul sE.d2.continuous
  rw [e, mean2_add k1 k2] at h
  linarith

/-- `1 - ∂²` in one angle. -/
noncomputable def T1 (F : ℝ × ℝ → ℝ) (x : ℝ × ℝ) : ℝ := F x - D1 (D1 F) x
noncomputable def T2 (F : ℝ × ℝ → ℝ) (x : ℝ × ℝ) : ℝ := F x - D2 (D2 F) x

theorem T1_smooth (h : Smooth F) : Smooth (T1 F) := ContDiff.sub h h.d1.d1
theorem T2_smooth (h : Smooth F) : Smooth (T2 F) := ContDiff.sub h h.d2.d2
theorem T1_per (h : DPer τ τ F) : DPer τ τ (T1 F) := h.sub h.d1.d1
theorem T2_per (h : DPer τ τ F) : DPer τ τ (T2 F) := h.sub h.d2.d2

theorem mean_T1 (sF : Smooth F) (pF : DPer τ τ F) (sE : Smooth E) (pE : DPer τ τ E) {m : ℝ}
    (hE : ∀ x, D1 (D1 E) x = -m ^ 2 * E x) :
    mean2 τ τ (fun x => T1 F x * E x) = (1 + m ^ 2) * mean2 τ τ fun x => F x * E x := by
  have e : (fun x => T1 F x * E x) = fun x => F x * E x - D1 (D1 F) x * E x := by
    funext x
    exact sub_mul _ _ _
  have k1 : Continuous fun x => F x * E x := sF.continuous.mul sE.continuous
  have k2 : Continuous fun x => D1 (D1 F) x * E x := sF.d1.d1.continuous.mul sE.continuous
  rw [e, mean2_sub k1 k2, parts1 sF.d1 pF.d1 sE pE, parts1 sF pF sE.d1 pE.d1]
  have : (fun x => F x * D1 (D1 E) x) = fun x => -m ^ 2 * (F x * E x) := by
    funext x
    rw [hE]
    ring
  rw [this, mean2_smul]
  ring

theorem mean_T2 (sF : Smooth F) (pF : DPer τ τ F) (sE : Smooth E) (pE : DPer τ τ E) {m : ℝ}
    (hE : ∀ x, D2 (D2 E) x = -m ^ 2 * E x) :
    mean2 τ τ (fun x => T2 F x * E x) = (1 + m ^ 2) * mean2 τ τ fun x => F x * E x := by
  have e : (fun x => T2 F x * E x) = fun x => F x * E x - D2 (D2 F) x * E x := by
    funext x
    exact sub_mul _ _ _
  have k1 : Continuous fun x => F x * E x := sF.continuous.mul sE.continuous
  have k2 : Continuous fun x => D2 (D2 F) x * E x := sF.d2.d2.continuous.mul sE.continuous
  rw [e, mean2_sub k1 k2, parts2 sF.d2 pF.d2 sE pE, parts2 sF pF sE.d2 pE.d2]
  have : (fun x => F x * D2 (D2 E) x) = fun x => -m ^ 2 * (F x * E x) := by
    funext x
    rw [hE]
    ring
  rw [this, mean2_smul]
  ring

/-! ### Modes -/

/-- Phase of a mode. -/
noncomputable def ph (k : ℤ × ℤ) (x : ℝ × ℝ) : ℝ := k.1 * x.1 - k.2 * x.2
noncomputable def cosM (k : ℤ × ℤ) (x : ℝ × ℝ) : ℝ := Real.cos (ph k x)
noncomputable def sinM (k : ℤ × ℤ) (x : ℝ × ℝ) : ℝ := Real.sin (ph k x)

theorem ph_smooth (k : ℤ × ℤ) : Smooth (ph k) := by unfold ph Smooth; fun_prop
theorem cosM_smooth (k : ℤ × ℤ) : Smooth (cosM k) := Real.contDiff_cos.comp (ph_smooth k)
theorem sinM_smooth (k : ℤ × ℤ) : Smooth (sinM k) := Real.contDiff_sin.comp (ph_smooth k)

theorem ph_shift1 (k : ℤ × ℤ) (x : ℝ × ℝ) : ph k (x + (τ, 0)) = ph k x + k.1 * τ := by
  show (k.1 : ℝ) * (x.1 + τ) - k.2 * (x.2 + 0) = _
  unfold ph
  ring
theorem ph_shift2 (k : ℤ × ℤ) (x : ℝ × ℝ) : ph k (x + (0, τ)) = ph k x + (-k.2 : ℤ) * τ := by
  show (k.1 : ℝ) * (x.1 + 0) - k.2 * (x.2 + τ) = _
  unfold ph
  push_cast
  ring

theorem cosM_per (k : ℤ × ℤ) : DPer τ τ (cosM k) := by
  constructor <;> intro x <;> unfold cosM
  · rw [ph_shift1]; exact Real.cos_periodic.int_mul k.1 _
  · rw [ph_shift2]; exact Real.cos_periodic.int_mul (-k.2) _
theorem sinM_per (k : ℤ × ℤ) : DPer τ τ (sinM k) := by
  constructor <;> intro x <;> unfold sinM
  · rw [ph_shift1]; exact Real.sin_periodic.int_mul k.1 _
  · rw [ph_shift2]; exact Real.sin_periodic.int_mul (-k.2) _

theorem ph_fderiv (k : ℤ × ℤ) (x v : ℝ × ℝ) : fderiv ℝ (ph k) x v = k.1 * v.1 - k.2 * v.2 := by
  have h1 : DifferentiableAt ℝ (fun x : ℝ × ℝ => x.1) x := differentiableAt_fst
  have h2 : DifferentiableAt ℝ (fun x : ℝ × ℝ => x.2) x := differentiableAt_snd
  show fderiv ℝ (fun x : ℝ × ℝ => (k.1 : ℝ) * x.1 - k.2 * x.2) x v = _
  rw [fderiv_fun_sub (h1.const_mul _) (h2.const_mul _), fderiv_const_mul h1, fderiv_const_mul h2]
  simp [fderiv_fst, fderiv_snd]

theorem cosM_fderiv (k : ℤ × ℤ) (x v : ℝ × ℝ) : fderiv ℝ (cosM k) x v = -(k.1 * v.1 - k.2 * v.2) * sinM k x := by
  have := (Real.hasDerivAt_cos (ph k x)).comp_hasFDerivAt x ((ph_smooth k).differentiable x).hasFDerivAt
  have e := this.fderiv
  show fderiv ℝ (Real.cos ∘ ph k) x v = _
  rw [e]
  simp only [ContinuousLinearMap.smul_apply, ph_fderiv, smul_eq_mul, sinM]
  ring
theorem sinM_fderiv (k : ℤ × ℤ) (x v : ℝ × ℝ) : fderiv ℝ (sinM k) x v = (k.1 * v.1 - k.2 * v.2) * cosM k x := by
  have := (Real.hasDerivAt_sin (ph k x)).comp_hasFDerivAt x ((ph_smooth k).differentiable x).hasFDerivAt
  have e := this.fderiv
  show fderiv ℝ (Real.sin ∘ ph k) x v = _
  rw [e]
  simp only [ContinuousLinearMap.smul_apply, ph_fderiv, smul_eq_mul, cosM]
  ring

theorem D_const_mul (c : ℝ) (hF : Smooth F) (x v : ℝ × ℝ) : fderiv ℝ (fun y => c * F y) x v = c * fderiv ℝ F x v := by
  rw [fderiv_const_mul (hF.differentiable x)]
  simp

theorem cosM_D11 (k : ℤ × ℤ) (x : ℝ × ℝ) : D1 (D1 (cosM k)) x = -(k.1 : ℝ) ^ 2 * cosM k x := by
  have e : D1 (cosM k) = fun x => -(k.1 : ℝ) * sinM k x := by
    funext x
    simp [D1, cosM_fderiv]
  rw [e]
  unfold D1
  rw [D_const_mul _ (sinM_smooth k), sinM_fderiv]
  ring
theorem sinM_D11 (k : ℤ × ℤ) (x : ℝ × ℝ) : D1 (D1 (sinM k)) x = -(k.1 : ℝ) ^ 2 * sinM k x := by
  have e : D1 (sinM k) = fun x => (k.1 : ℝ) * cosM k x := by
    funext x
    simp [D1, sinM_fderiv]
  rw [e]
  unfold D1
  rw [D_const_mul _ (cosM_smooth k), cosM_fderiv]
  ring
theorem cosM_D22 (k : ℤ × ℤ) (x : ℝ × ℝ) : D2 (D2 (cosM k)) x = -(k.2 : ℝ) ^ 2 * cosM k x := by
  have e : D2 (cosM k) = fun x => (k.2 : ℝ) * sinM k x := by
    funext x
    simp [D2, cosM_fderiv]
  rw [e]
  unfold D2
  rw [D_const_mul _ (sinM_smooth k), sinM_fderiv]
  ring
theorem sinM_D22 (k : ℤ × ℤ) (x : ℝ × ℝ) : D2 (D2 (sinM k)) x = -(k.2 : ℝ) ^ 2 * sinM k x := by
  have e : D2 (sinM k) = fun x => -(k.2 : ℝ) * cosM k x := by
    funext x
    simp [D2, sinM_fderiv]
  rw [e]
  unfold D2
  rw [D_const_mul _ (cosM_smooth k), cosM_fderiv]
  ring

theorem mean_cosM (k : ℤ × ℤ) : mean2 τ τ (cosM k) = if k = 0 then 1 else 0 := by
  have := TorusMap.id.mean_cos k.1 k.2
  rw [TorusMap.id_det] at this
  simp only [newAngles, add_zero, mul_one] at this
  have e : (k = 0) ↔ (k.1 = 0 ∧ k.2 = 0) := Prod.ext_iff
  simp only [e]
  exact this
theorem mean_sinM (k : ℤ × ℤ) : mean2 τ τ (sinM k) = 0 := by
  have := TorusMap.id.mean_sin k.1 k.2
  rw [TorusMap.id_det] at this
  simp only [newAngles, add_zero, mul_one] at this
  exact this

/-! ### Coefficients -/

noncomputable def cc (F : ℝ × ℝ → ℝ) (k : ℤ × ℤ) : ℝ := mean2 τ τ fun x => F x * cosM k x
noncomputable def sc (F : ℝ × ℝ → ℝ) (k : ℤ × ℤ) : ℝ := mean2 τ τ fun x => F x * sinM k x

theorem ph_neg (k : ℤ × ℤ) (x : ℝ × ℝ) : ph (-k) x = - ph k x := by
  unfold ph
  simp only [Prod.fst_neg, Prod.snd_neg]
  push_cast
  ring
theorem cosM_neg (k : ℤ × ℤ) : cosM (-k) = cosM k := by
  funext x
  simp only [cosM, ph_neg, Real.cos_neg]
theorem sinM_neg (k : ℤ × ℤ) : sinM (-k) = fun x => - sinM k x := by
  funext x
  simp only [sinM, ph_neg, Real.sin_neg]
theorem cc_neg (F : ℝ × ℝ → ℝ) (k : ℤ × ℤ) : cc F (-k) = cc F k := by unfold cc; rw [cosM_neg]
theorem sc_neg (F : ℝ × ℝ → ℝ) (k : ℤ × ℤ) : sc F (-k) = - sc F k := by
  unfold sc
  rw [sinM_neg]
  have : (fun x => F x * -sinM k x) = fun x => -1 * (F x * sinM k x) := by
    funext x
    ring
  rw [this, mean2_smul]
  ring

/-- Decay. -/
theorem decay (sF : Smooth F) (pF : DPer τ τ F) :
    ∃ A, 0 ≤ A ∧ ∀ k : ℤ × ℤ, |cc F k| ≤ A * ((1 + (k.1 : ℝ) ^ 2)⁻¹ * (1 + (k.2 : ℝ) ^ 2)⁻¹) ∧
      |sc F k| ≤ A * ((1 + (k.1 : ℝ) ^ 2)⁻¹ * (1 + (k.2 : ℝ) ^ 2)⁻¹) := by
  obtain ⟨A, hA⟩ := (T2_per (T1_per pF)).bounded tau_pos tau_pos (T2_smooth (T1_smooth sF)).continuous
  refine ⟨A, (abs_nonneg _).trans (hA 0), fun k => ?_⟩
  have fin : ∀ E : ℝ × ℝ → ℝ, Smooth E → DPer τ τ E → (∀ x, D1 (D1 E) x = -(k.1 : ℝ) ^ 2 * E x) →
      (∀ x, D2 (D2 E) x = -(k.2 : ℝ) ^ 2 * E x) → (∀ x, |E x| ≤ 1) →
      |mean2 τ τ fun x => F x * E x| ≤ A * ((1 + (k.1 : ℝ) ^ 2)⁻¹ * (1 + (k.2 : ℝ) ^ 2)⁻¹) := by
    intro E sE pE h1 h2 hE
    have e := mean_T2 (T1_smooth sF) (T1_per pF) sE pE h2
    rw [mean_T1 sF pF sE pE h1] at e
    have b : |mean2 τ τ fun x => T2 (T1 F) x * E x| ≤ A := by
      refine mean2_abs_le tau_pos tau_pos fun x => ?_
      rw [abs_mul]
      calc _ ≤ A * 1 := mul_le_mul (hA x) (hE x) (abs_nonneg _) ((abs_nonneg _).trans (hA 0))
        _ = A := mul_one A
    have p1 : (0 : ℝ) < 1 + (k.1 : ℝ) ^ 2 := by positivity
    have p2 : (0 : ℝ) < 1 + (k.2 : ℝ) ^ 2 := by positivity
    rw [e, abs_mul, abs_mul, abs_of_pos p1, abs_of_pos p2] at b
    rw [← mul_inv, ← div_eq_mul_inv, le_div_iff₀ (mul_pos p1 p2)]
    linarith
  exact ⟨fin _ (cosM_smooth k) (cosM_per k) (cosM_D11 k) (cosM_D22 k) fun x => Real.abs_cos_le_one _,
    fin _ (sinM_smooth k) (sinM_per k) (sinM_D11 k) (sinM_D22 k) fun x => Real.abs_sin_le_one _⟩

theorem summable_inv : Summable fun n : ℤ => (1 + (n : ℝ) ^ 2)⁻¹ := by
  have hn : Summable fun n : ℕ => (1 + (n : ℝ) ^ 2)⁻¹ := by
    refine Summable.of_nonneg_of_le (fun n => by positivity) (fun n => ?_)
      ((Real.summable_one_div_nat_pow (p := 2)).2 (by norm_num) |>.add (summable_of_ne_finset_zero (s := {0})
        (f := fun n : ℕ => if n = 0 then (1 : ℝ) else 0) (by
          intro b hb
          simp only [Finset.mem_singleton] at hb
          simp [hb])))
    rcases Nat.eq_zero_or_pos n with rfl | hn
    · simp
    · have : (n : ℝ) ≠ 0 := by positivity
      simp only [hn.ne', if_false, add_zero, one_div]
      refine inv_anti₀ (by positivity) (by linarith)
  refine Summable.of_nat_of_neg ?_ ?_
  · simpa using hn
  · simpa using hn

theorem summable_inv2 : Summable fun k : ℤ × ℤ => (1 + (k.1 : ℝ) ^ 2)⁻¹ * (1 + (k.2 : ℝ) ^ 2)⁻¹ :=
  summable_inv.mul_of_nonneg summable_inv (fun n => by positivity) fun n => by positivity

/-- Term of the Fourier series. -/
noncomputable def term (F : ℝ × ℝ → ℝ) (k : ℤ × ℤ) (x : ℝ × ℝ) : ℝ := cc F k * cosM k x + sc F k * sinM k x

theorem term_continuous (F : ℝ × ℝ → ℝ) (k : ℤ × ℤ) : Continuous (term F k) :=
  (continuous_const.mul (cosM_smooth k).continuous).add (continuous_const.mul (sinM_smooth k).continuous)

theorem term_per (F : ℝ × ℝ → ℝ) (k : ℤ × ℤ) : DPer τ τ (term F k) :=
  ⟨fun x => by unfold term; rw [(cosM_per k).1 x, (sinM_per k).1 x],
    fun x => by unfold term; rw [(cosM_per k).2 x, (sinM_per k).2 x]⟩

theorem term_neg (F : ℝ × ℝ → ℝ) (k : ℤ × ℤ) (x : ℝ × ℝ) : term F (-k) x = term F k x := by
  unfold term
  rw [cc_neg, sc_neg, cosM_neg, sinM_neg]
  ring

/-- A bound that can be summed. -/
theorem term_bound (sF : Smooth F) (pF : DPer τ τ F) : ∃ u : ℤ × ℤ → ℝ, Summable u ∧ ∀ k x, ‖term F k x‖ ≤ u k := by
  obtain ⟨A, hA0, hA⟩ := decay sF pF
  refine ⟨_, summable_inv2.mul_left (2 * A), fun k x => ?_⟩
  obtain ⟨h1, h2⟩ := hA k
  have c1 : |cc F k * cosM k x| ≤ A * ((1 + (k.1 : ℝ) ^ 2)⁻¹ * (1 + (k.2 : ℝ) ^ 2)⁻¹) := by
    rw [abs_mul]
    calc _ ≤ _ * 1 := mul_le_mul h1 (Real.abs_cos_le_one _) (abs_nonneg _) ((abs_nonneg _).trans h1)
      _ = _ := mul_one _
  have c2 : |sc F k * sinM k x| ≤ A * ((1 + (k.1 : ℝ) ^ 2)⁻¹ * (1 + (k.2 : ℝ) ^ 2)⁻¹) := by
    rw [abs_mul]
    calc _ ≤ _ * 1 := mul_le_mul h2 (Real.abs_sin_le_one _) (abs_nonneg _) ((abs_nonneg _).trans h2)
      _ = _ := mul_one _
  rw [Real.norm_eq_abs]
  refine (abs_add_le _ _).trans ?_
  rw [mul_assoc, two_mul]
  exact add_le_add c1 c2

/-! ### Orthogonality -/

theorem cosM_mul_cosM (k l : ℤ × ℤ) (x : ℝ × ℝ) : cosM k x * cosM l x = (cosM (k - l) x + cosM (k + l) x) / 2 := by
  have e1 : ph (k - l) x = ph k x - ph l x := by unfold ph; simp; ring
  have e2 : ph (k + l) x = ph k x + ph l x := by unfold ph; simp; ring
  unfold cosM
  rw [e1, e2, Real.cos_sub, Real.cos_add]
  ring
theorem sinM_mul_sinM (k l : ℤ × ℤ) (x : ℝ × ℝ) : sinM k x * sinM l x = (cosM (k - l) x - cosM (k + l) x) / 2 := by
  have e1 : ph (k - l) x = ph k x - ph l x := by unfold ph; simp; ring
  have e2 : ph (k + l) x = ph k x + ph l x := by unfold ph; simp; ring
  unfold cosM sinM
  rw [e1, e2, Real.cos_sub, Real.cos_add]
  ring
theorem sinM_mul_cosM (k l : ℤ × ℤ) (x : ℝ × ℝ) : sinM k x * cosM l x = (sinM (k - l) x + sinM (k + l) x) / 2 := by
  have e1 : ph (k - l) x = ph k x - ph l x := by unfold ph; simp; ring
  have e2 : ph (k + l) x = ph k x + ph l x := by unfold ph; simp; ring
  unfold cosM sinM
  rw [e1, e2, Real.sin_sub, Real.sin_add]
  ring

theorem mean_lin2 {P Q : ℝ} (c d : ℝ) {f g : ℝ × ℝ → ℝ} (hf : Continuous f) (hg : Continuous g) :
    mean2 P Q (fun x => c * f x + d * g x) = c * mean2 P Q f + d * mean2 P Q g := by
  rw [mean2_add (F := fun x => c * f x) (G := fun x => d * g x) (continuous_const.mul hf) (continuous_const.mul hg),
    mean2_smul, mean2_smul]

theorem mean_term_cos (F : ℝ × ℝ → ℝ) (k l : ℤ × ℤ) : mean2 τ τ (fun x => term F k x * cosM l x) =
    cc F k * ((if k = l then 1 else 0) + if k = -l then 1 else 0) / 2 := by
  have e : (fun x => term F k x * cosM l x) = fun x => 1 * ((cc F k / 2) * cosM (k - l) x + (cc F k / 2) * cosM (k + l) x) +
      1 * ((sc F k / 2) * sinM (k - l) x + (sc F k / 2) * sinM (k + l) x) := by
    funext x
    unfold term
    rw [add_mul, mul_assoc, mul_assoc, cosM_mul_cosM, sinM_mul_cosM]
    ring
  have c1 := (cosM_smooth (k - l)).continuous
  have c2 := (cosM_smooth (k + l)).continuous
  have c3 := (sinM_smooth (k - l)).continuous
  have c4 := (sinM_smooth (k + l)).continuous
  rw [e, mean_lin2 (f := fun x => (cc F k / 2) * cosM (k - l) x + (cc F k / 2) * cosM (k + l) x)
    (g := fun x => (sc F k / 2) * sinM (k - l) x + (sc F k / 2) * sinM (k + l) x) _ _ (by fun_prop) (by fun_prop),
    mean_lin2 _ _ c1 c2, mean_lin2 _ _ c3 c4, mean_cosM, mean_cosM, mean_sinM, mean_sinM]
  simp only [sub_eq_zero, add_eq_zero_iff_eq_neg]
  ring

theorem mean_term_sin (F : ℝ × ℝ → ℝ) (k l : ℤ × ℤ) : mean2 τ τ (fun x => term F k x * sinM l x) =
    sc F k * ((if k = l then 1 else 0) - if k = -l then 1 else 0) / 2 := by
  have e : (fun x => term F k x * sinM l x) = fun x => 1 * ((cc F k / 2) * sinM (l - k) x + (cc F k / 2) * sinM (l + k) x) +
      1 * ((sc F k / 2) * cosM (k - l) x + (-(sc F k / 2)) * cosM (k + l) x) := by
    funext x
    unfold term
    rw [add_mul, mul_assoc, mul_assoc, sinM_mul_sinM, mul_comm (cosM k x), sinM_mul_cosM]
    ring
  have c1 := (cosM_smooth (k - l)).continuous
  have c2 := (cosM_smooth (k + l)).continuous
  have c3 := (sinM_smooth (l - k)).continuous
  have c4 := (sinM_smooth (l + k)).continuous
  rw [e, mean_lin2 (f := fun x => (cc F k / 2) * sinM (l - k) x + (cc F k / 2) * sinM (l + k) x)
    (g := fun x => (sc F k / 2) * cosM (k - l) x + (-(sc F k / 2)) * cosM (k + l) x) _ _ (by fun_prop) (by fun_prop),
    mean_lin2 _ _ c1 c2, mean_lin2 _ _ c3 c4, mean_cosM, mean_cosM, mean_sinM, mean_sinM]
  simp only [sub_eq_zero, add_eq_zero_iff_eq_neg]
  ring

/-! ### A function without harmonics is zero -/

theorem mean_pos (pF : DPer τ τ F) (cF : Continuous F) (h0 : ∀ x, 0 ≤ F x) (hm : mean2 τ τ F = 0) (x : ℝ × ℝ) : F x = 0 := by
  by_contra hx
  have hpos : 0 < F x := lt_of_le_of_ne (h0 x) (Ne.symm hx)
  obtain ⟨θ, hθ, e1⟩ := (pF.slice1 x.2).exists_mem_Ioc tau_pos x.1 0
  obtain ⟨ζ, hζ, e2⟩ := (pF.slice2 θ).exists_mem_Ioc tau_pos x.2 0
  have e : F x = F (θ, ζ) := by rw [← e2, ← e1]
  rw [zero_add] at hθ hζ
  have hi : IntegrableOn F (Set.Ioc (0 : ℝ) τ ×ˢ Set.Ioc (0 : ℝ) τ) := by
    refine (cF.continuousOn.integrableOn_compact (isCompact_Icc (a := (0 : ℝ)) (b := τ) |>.prod
      (isCompact_Icc (a := (0 : ℝ)) (b := τ)))).mono_set ?_
    exact Set.prod_mono Set.Ioc_subset_Icc_self Set.Ioc_subset_Icc_self
  rw [mean2_box tau_pos tau_pos cF] at hm
  have hI : (∫ x in Set.Ioc (0 : ℝ) τ ×ˢ Set.Ioc (0 : ℝ) τ, F x) = 0 :=
    (div_eq_zero_iff.1 hm).resolve_right (mul_pos tau_pos tau_pos).ne'
  have hlt : 0 < ∫ x in Set.Ioc (0 : ℝ) τ ×ˢ Set.Ioc (0 : ℝ) τ, F x := by
    rw [setIntegral_pos_iff_support_of_nonneg_ae (Filter.Eventually.of_forall h0) hi]
    have ho : IsOpen (support F ∩ (Set.Ioo (0 : ℝ) τ ×ˢ Set.Ioo (0 : ℝ) τ)) :=
      (cF.isOpen_support).inter (isOpen_Ioo.prod isOpen_Ioo)
    refine lt_of_lt_of_le (ho.measure_pos _ ?_)
      (measure_mono (Set.inter_subset_inter_right _ (Set.prod_mono Set.Ioo_subset_Ioc_self Set.Ioo_subset_Ioc_self)))
    -- points of the open box near (θ, ζ)
    have hcl : (θ, ζ) ∈ closure (Set.Ioo (0 : ℝ) τ ×ˢ Set.Ioo (0 : ℝ) τ) := by
      rw [closure_prod_eq, closure_Ioo tau_pos.ne, ]
      exact ⟨⟨hθ.1.le, hθ.2⟩, ⟨hζ.1.le, hζ.2⟩⟩
    have hmem : (θ, ζ) ∈ support F := by
      show F (θ, ζ) ≠ 0
      rw [← e]
      exact hx
    exact mem_closure_iff.1 hcl _ cF.isOpen_support hmem
  linarith

theorem zero_of_coeffs (pF : DPer τ τ F) (cF : Continuous F) (h1 : ∀ k, cc F k = 0) (h2 : ∀ k, sc F k = 0) (x : ℝ × ℝ) :
    F x = 0 := by
  obtain ⟨B, hB⟩ := pF.bounded tau_pos tau_pos cF
  have hB0 : 0 ≤ B := (abs_nonneg _).trans (hB 0)
  have hsq : mean2 τ τ (fun x => F x * F x) = 0 := by
    have key : ∀ ε > 0, |mean2 τ τ (fun x => F x * F x)| ≤ B * ε := by
      intro ε hε
      obtain ⟨K, m, n, c, s, ht⟩ := trig_dense cF pF hε
      have ct : Continuous fun x : ℝ × ℝ => series K m n c s x.1 x.2 := by
        unfold series
        exact continuous_finsetSum _ fun k _ => by fun_prop
      have z : mean2 τ τ (fun x => F x * series K m n c s x.1 x.2) = 0 := by
        have e : (fun x : ℝ × ℝ => F x * series K m n c s x.1 x.2) = fun x =>
            ∑ k ∈ range K, (c k * (F x * cosM (m k, n k) x) + s k * (F x * sinM (m k, n k) x)) := by
          funext x
          unfold series
          rw [mul_sum]
          refine sum_congr rfl fun k _ => ?_
          unfold cosM sinM ph
          ring
        have k1 : ∀ k, Continuous fun x => F x * cosM k x := fun k => cF.mul (cosM_smooth k).continuous
        have k2 : ∀ k, Continuous fun x => F x * sinM k x := fun k => cF.mul (sinM_smooth k).continuous
        have k5 : ∀ k, Continuous fun x => c k * (F x * cosM (m k, n k) x) + s k * (F x * sinM (m k, n k) x) :=
          fun k => (continuous_const.mul (k1 (m k, n k))).add (continuous_const.mul (k2 (m k, n k)))
        rw [e, mean2_sum _ k5]
        refine sum_eq_zero fun k _ => ?_
        rw [mean_lin2 _ _ (k1 _) (k2 _)]
        have a1 := h1 (m k, n k)
        have a2 := h2 (m k, n k)
        unfold cc at a1
        unfold sc at a2
        rw [a1, a2]
        ring
      have k3 : Continuous fun x => F x * F x := cF.mul cF
      have k4 : Continuous fun x => F x * series K m n c s x.1 x.2 := cF.mul ct
      rw [← sub_zero (mean2 τ τ fun x => F x * F x), ← z, ← mean2_sub k3 k4]
      refine mean2_abs_le tau_pos tau_pos fun x => ?_
      rw [← mul_sub, abs_mul]
      exact mul_le_mul (hB x) (ht x) (abs_nonneg _) hB0
    by_contra hne
    have hpos := abs_pos.2 hne
    have := key (|mean2 τ τ (fun x => F x * F x)| / (2 * (B + 1))) (by positivity)
    have e : B * (|mean2 τ τ (fun x => F x * F x)| / (2 * (B + 1))) ≤ |mean2 τ τ (fun x => F x * F x)| / 2 := by
      rw [← mul_div_assoc, div_le_div_iff₀ (by positivity) (by norm_num)]
      nlinarith
    linarith
  have := mean_pos (pF.mul pF) (cF.mul cF) (fun x => mul_self_nonneg _) hsq x
  exact mul_self_eq_zero.1 this

/-! ### The series -/

theorem series_sum (sF : Smooth F) (pF : DPer τ τ F) (x : ℝ × ℝ) : ∑' k, term F k x = F x := by
  obtain ⟨u, hu, hb⟩ := term_bound sF pF
  set g : ℝ × ℝ → ℝ := fun x => ∑' k, term F k x with hg
  have cg : Continuous g := continuous_tsum (term_continuous F) hu hb
  have pg : DPer τ τ g :=
    ⟨fun x => tsum_congr fun k => (term_per F k).1 x, fun x => tsum_congr fun k => (term_per F k).2 x⟩
  have unif := tendstoUniformly_tsum hu hb
  -- means of the sum
  have hm : ∀ E : ℝ × ℝ → ℝ, Continuous E → (∀ x, |E x| ≤ 1) →
      HasSum (fun k => mean2 τ τ fun x => term F k x * E x) (mean2 τ τ fun x => g x * E x) := by
    intro E cE hE
    rw [HasSum, SummationFilter.unconditional_filter]
    rw [Metric.tendsto_nhds]
    intro ε hε
    have := Metric.tendstoUniformly_iff.1 unif (ε / 2) (by linarith)
    refine this.mono fun s hs => ?_
    have k1 : ∀ k, Continuous fun x => term F k x * E x := fun k => (term_continuous F k).mul cE
    have k2 : Continuous fun x => g x * E x := cg.mul cE
    have k3 : Continuous fun x => ∑ k ∈ s, term F k x * E x := continuous_finsetSum _ fun k _ => k1 k
    rw [dist_comm, Real.dist_eq, ← mean2_sum s k1, ← mean2_sub k2 k3]
    refine lt_of_le_of_lt (mean2_abs_le (B := ε / 2) tau_pos tau_pos fun x => ?_) (by linarith)
    rw [← sum_mul, ← sub_mul, abs_mul]
    have h1 := (hs x).le
    rw [Real.dist_eq] at h1
    calc _ ≤ ε / 2 * 1 := mul_le_mul h1 (hE x) (abs_nonneg _) (by linarith)
      _ = _ := mul_one _
  have two : ∀ (a b : ℤ × ℤ) (w : ℤ × ℤ → ℝ), HasSum (fun k => w k * (if k = a then 1 else 0)) (w a) := by
    intro a b w
    have := hasSum_ite_eq a (w a)
    have e : (fun k => w k * (if k = a then 1 else 0)) = fun k => if k = a then w a else 0 := by
      funext k
      split
      · next h => rw [h, mul_one]
      · rw [mul_zero]
    rw [e]
    exact this
  have hcc : ∀ l, cc g l = cc F l := by
    intro l
    have h1 := hm (cosM l) (cosM_smooth l).continuous fun x => Real.abs_cos_le_one _
    have h2 := ((two l l (cc F)).add (two (-l) l (cc F))).div_const 2
    simp only [mean_term_cos, mul_add] at h1
    have h3 := h1.unique h2
    rw [cc_neg] at h3
    show mean2 τ τ _ = _
    rw [h3]
    ring
  have hsc : ∀ l, sc g l = sc F l := by
    intro l
    have h1 := hm (sinM l) (sinM_smooth l).continuous fun x => Real.abs_sin_le_one _
    have h2 := ((two l l (sc F)).sub (two (-l) l (sc F))).div_const 2
    simp only [mean_term_sin, mul_sub] at h1
    have h3 := h1.unique h2
    rw [sc_neg] at h3
    show mean2 τ τ _ = _
    rw [h3]
    ring
  have cF := sF.continuous
  have z := zero_of_coeffs (F := fun x => g x - F x) (pg.sub pF) (cg.sub cF) (fun k => by
      have k1 : Continuous fun x => g x * cosM k x := cg.mul (cosM_smooth k).continuous
      have k2 : Continuous fun x => F x * cosM k x := cF.mul (cosM_smooth k).continuous
      unfold cc
      simp only [sub_mul]
      rw [mean2_sub k1 k2]
      exact sub_eq_zero.2 (hcc k)) (fun k => by
      have k1 : Continuous fun x => g x * sinM k x := cg.mul (sinM_smooth k).continuous
      have k2 : Continuous fun x => F x * sinM k x := cF.mul (sinM_smooth k).continuous
      unfold sc
      simp only [sub_mul]
      rw [mean2_sub k1 k2]
      exact sub_eq_zero.2 (hsc k)) x
  exact sub_eq_zero.1 z

/-- Modes of a square. -/
noncomputable def box (K : ℕ) : Finset (ℤ × ℤ) := Finset.Icc (-(K : ℤ)) K ×ˢ Finset.Icc (-(K : ℤ)) K

theorem mem_box {K : ℕ} {k : ℤ × ℤ} : k ∈ box K ↔ |k.1| ≤ K ∧ |k.2| ≤ K := by
  unfold box
  rw [Finset.mem_product, Finset.mem_Icc, Finset.mem_Icc, abs_le, abs_le]

/-- Modes of the half plane in a square. -/
noncomputable def half (K : ℕ) : Finset (ℤ × ℤ) := (box K).filter fun k => 0 < k.1 ∨ (k.1 = 0 ∧ 0 ≤ k.2)

/-- Modes of the half plane in a set of modes. -/
noncomputable def halfOf (A : Finset (ℤ × ℤ)) : Finset (ℤ × ℤ) := A.filter fun k => 0 < k.1 ∨ (k.1 = 0 ∧ 0 ≤ k.2)

theorem sym_sum {A : Finset (ℤ × ℤ)} (hA : ∀ k ∈ A, -k ∈ A) (f : ℤ × ℤ → ℝ) (hf : ∀ k, f (-k) = f k) :
    ∑ k ∈ A, f k = ∑ k ∈ halfOf A, (if k = 0 then 1 else 2) * f k := by
  classical
  have hsplit : ∑ k ∈ A, f k = ∑ k ∈ halfOf A, f k + ∑ k ∈ A.filter (fun k => ¬ (0 < k.1 ∨ (k.1 = 0 ∧ 0 ≤ k.2))), f k :=
    (Finset.sum_filter_add_sum_filter_not A _ f).symm
  have hneg : ∑ k ∈ A.filter (fun k => ¬ (0 < k.1 ∨ (k.1 = 0 ∧ 0 ≤ k.2))), f k = ∑ k ∈ (halfOf A).filter (fun k => k ≠ 0), f k := by
    refine Finset.sum_nbij' (fun k => -k) (fun k => -k) ?_ ?_ (fun k _ => neg_neg k) (fun k _ => neg_neg k) fun k _ => (hf k).symm
    · intro k hk
      rw [Finset.mem_filter] at hk
      unfold halfOf
      rw [Finset.mem_filter, Finset.mem_filter]
      simp only [Prod.fst_neg, Prod.snd_neg, ne_eq, neg_eq_zero]
      refine ⟨⟨hA k hk.1, by omega⟩, fun h0 => hk.2 (Or.inr ?_)⟩
      rw [h0]
      exact ⟨rfl, le_rfl⟩
    · intro k hk
      unfold halfOf at hk
      rw [Finset.mem_filter, Finset.mem_filter] at hk
      rw [Finset.mem_filter]
      simp only [Prod.fst_neg, Prod.snd_neg]
      refine ⟨hA k hk.1.1, fun h => hk.2 (Prod.ext ?_ ?_)⟩
      · show k.1 = 0
        have := hk.1.2
        omega
      · show k.2 = 0
        have := hk.1.2
        omega
  rw [hsplit, hneg, Finset.sum_filter, ← Finset.sum_add_distrib]
  refine Finset.sum_congr rfl fun k _ => ?_
  by_cases h0 : k = 0
  · simp [h0]
  · simp only [h0, ne_eq, not_false_eq_true, if_true, if_false]
    ring

theorem box_sum {K : ℕ} (f : ℤ × ℤ → ℝ) (hf : ∀ k, f (-k) = f k) :
    ∑ k ∈ box K, f k = ∑ k ∈ half K, (if k = 0 then 1 else 2) * f k :=
  sym_sum (fun k hk => by
    rw [mem_box] at hk ⊢
    simpa using hk) f hf

/-- **Fourier series of a smooth function on the torus.** -/
theorem fourier_uniform (sF : Smooth F) (pF : DPer τ τ F) {ε : ℝ} (hε : 0 < ε) : ∃ K0 : ℕ, ∀ K, K0 ≤ K → ∀ x,
    |F x - ∑ k ∈ half K, (if k = 0 then 1 else 2) * term F k x| ≤ ε := by
  obtain ⟨u, hu, hb⟩ := term_bound sF pF
  have unif := Metric.tendstoUniformly_iff.1 (tendstoUniformly_tsum hu hb) ε hε
  have hmono : Filter.Tendsto box Filter.atTop Filter.atTop := by
    refine Filter.tendsto_atTop_finset_of_monotone ?_ fun k => ⟨max k.1.natAbs k.2.natAbs, ?_⟩
    · intro K L hKL k hk
      rw [mem_box] at hk ⊢
      have : (K : ℤ) ≤ L := by exact_mod_cast hKL
      exact ⟨hk.1.trans this, hk.2.trans this⟩
    · rw [mem_box, Int.abs_eq_natAbs, Int.abs_eq_natAbs]
      exact ⟨by exact_mod_cast le_max_left _ _, by exact_mod_cast le_max_right _ _⟩
  obtain ⟨K0, hK0⟩ := Filter.eventually_atTop.1 (hmono.eventually unif)
  refine ⟨K0, fun K hK x => ?_⟩
  have := (hK0 K hK x).le
  rw [series_sum sF pF x, Real.dist_eq, box_sum _ fun k => term_neg F k x] at this
  exact this

end Booz.Trapezoid
