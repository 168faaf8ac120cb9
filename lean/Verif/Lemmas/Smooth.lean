import Verif.Lemmas.Trapezoid
import Mathlib.Analysis.Calculus.ContDiff.Operations
import Mathlib.MeasureTheory.Integral.DominatedConvergence

/-!
# Smooth doubly periodic functions and their tensor-product quadrature
-/

namespace Booz.Trapezoid
open Finset Function

/-- Partial derivatives of a function of two angles. -/
noncomputable def D1 (F : ℝ × ℝ → ℝ) (x : ℝ × ℝ) : ℝ := fderiv ℝ F x (1, 0)
noncomputable def D2 (F : ℝ × ℝ → ℝ) (x : ℝ × ℝ) : ℝ := fderiv ℝ F x (0, 1)

/-- Smooth functions. -/
abbrev Smooth (F : ℝ × ℝ → ℝ) : Prop := ContDiff ℝ (⊤ : ℕ∞) F

/-- Doubly periodic functions. -/
def DPer (P Q : ℝ) (F : ℝ × ℝ → ℝ) : Prop := Periodic F (P, 0) ∧ Periodic F (0, Q)

variable {F : ℝ × ℝ → ℝ} {P Q : ℝ}

theorem Smooth.d1 (h : Smooth F) : Smooth (D1 F) :=
  (ContDiff.fderiv_right h (m := (⊤ : ℕ∞)) (by simp)).clm_apply contDiff_const
theorem Smooth.d2 (h : Smooth F) : Smooth (D2 F) :=
  (ContDiff.fderiv_right h (m := (⊤ : ℕ∞)) (by simp)).clm_apply contDiff_const

theorem Smooth.differentiable (h : Smooth F) : Differentiable ℝ F := ContDiff.differentiable h (by simp)

theorem Smooth.hasDeriv1 (h : Smooth F) (θ ζ : ℝ) : HasDerivAt (fun t => F (t, ζ)) (D1 F (θ, ζ)) θ :=
  (h.differentiable (θ, ζ)).hasFDerivAt.comp_hasDerivAt θ ((hasDerivAt_id θ).prodMk (hasDerivAt_const θ ζ))
theorem Smooth.hasDeriv2 (h : Smooth F) (θ ζ : ℝ) : HasDerivAt (fun z => F (θ, z)) (D2 F (θ, ζ)) ζ :=
  (h.differentiable (θ, ζ)).hasFDerivAt.comp_hasDerivAt ζ ((hasDerivAt_const ζ θ).prodMk (hasDerivAt_id ζ))

theorem Periodic.fderiv_per {v w : ℝ × ℝ} (h : Periodic F v) : Periodic (fun x => fderiv ℝ F x w) v := by
  intro x
  show fderiv ℝ F (x + v) w = fderiv ℝ F x w
  rw [← fderiv_comp_add_right]
  congr 2
  funext y
  exact h y

theorem DPer.d1 (h : DPer P Q F) : DPer P Q (D1 F) := ⟨Periodic.fderiv_per h.1, Periodic.fderiv_per h.2⟩
theorem DPer.d2 (h : DPer P Q F) : DPer P Q (D2 F) := ⟨Periodic.fderiv_per h.1, Periodic.fderiv_per h.2⟩

theorem DPer.slice1 (h : DPer P Q F) (ζ : ℝ) : Periodic (fun t => F (t, ζ)) P := by
  intro t
  have := h.1 (t, ζ)
  simpa using this
theorem DPer.slice2 (h : DPer P Q F) (θ : ℝ) : Periodic (fun z => F (θ, z)) Q := by
  intro z
  have := h.2 (θ, z)
  simpa using this

/-- Continuous doubly periodic functions are bounded. -/
theorem DPer.bounded (h : DPer P Q F) (hP : 0 < P) (hQ : 0 < Q) (hc : Continuous F) :
    ∃ B, ∀ x, |F x| ≤ B := by
  obtain ⟨B, hB⟩ := (isCompact_Icc (a := (0 : ℝ)) (b := P)).prod (isCompact_Icc (a := (0 : ℝ)) (b := Q)) |>.exists_bound_of_continuousOn
    hc.continuousOn
  refine ⟨B, fun x => ?_⟩
  obtain ⟨θ, hθ, e1⟩ := (h.slice1 x.2).exists_mem_Ico₀ hP x.1
  obtain ⟨ζ, hζ, e2⟩ := (h.slice2 θ).exists_mem_Ico₀ hQ x.2
  have : F x = F (θ, ζ) := by rw [← e2, ← e1]
  rw [this]
  exact hB (θ, ζ) ⟨⟨hθ.1, hθ.2.le⟩, ⟨hζ.1, hζ.2.le⟩⟩

theorem iter_smooth {D : (ℝ × ℝ → ℝ) → ℝ × ℝ → ℝ} (hD : ∀ F, Smooth F → Smooth (D F)) (h : Smooth F) (k : ℕ) :
    Smooth (D^[k] F) := by
  induction k with
  | zero => exact h
  | succ k ih => rw [Function.iterate_succ_apply']; exact hD _ ih

theorem iter_per {D : (ℝ × ℝ → ℝ) → ℝ × ℝ → ℝ} (hD : ∀ F, DPer P Q F → DPer P Q (D F)) (h : DPer P Q F) (k : ℕ) :
    DPer P Q (D^[k] F) := by
  induction k with
  | zero => exact h
  | succ k ih => rw [Function.iterate_succ_apply']; exact hD _ ih

/-- Convergence in the first angle, uniformly in the second. -/
theorem trap1 (hP : 0 < P) (hQ : 0 < Q) (h : DPer P Q F) (hs : Smooth F) {p : ℕ} (hp : 1 ≤ p) :
    ∃ B, 0 ≤ B ∧ ∀ n : ℕ, 1 ≤ n → ∀ ζ, |avg P n (fun t => F (t, ζ)) 0 - mean P (fun t => F (t, ζ))| ≤ (P / n) ^ p * B := by
  obtain ⟨B, hB⟩ := (iter_per (fun _ => DPer.d1) h p).bounded hP hQ (iter_smooth (fun _ => Smooth.d1) hs p).continuous
  refine ⟨B, (abs_nonneg _).trans (hB (0, 0)), fun n hn ζ => ?_⟩
  refine trapezoid (F := fun k t => (D1^[k] F) (t, ζ)) hn hP
    (fun k => (iter_per (fun _ => DPer.d1) h k).slice1 ζ) (fun k x => ?_) hp (fun x => hB _) 0
  have := (iter_smooth (fun _ => Smooth.d1) hs k).hasDeriv1 x ζ
  rw [Function.iterate_succ_apply']
  exact this

theorem trap2 (hP : 0 < P) (hQ : 0 < Q) (h : DPer P Q F) (hs : Smooth F) {p : ℕ} (hp : 1 ≤ p) :
    ∃ B, 0 ≤ B ∧ ∀ n : ℕ, 1 ≤ n → ∀ θ, |avg Q n (fun z => F (θ, z)) 0 - mean Q (fun z => F (θ, z))| ≤ (Q / n) ^ p * B := by
  obtain ⟨B, hB⟩ := (iter_per (fun _ => DPer.d2) h p).bounded hP hQ (iter_smooth (fun _ => Smooth.d2) hs p).continuous
  refine ⟨B, (abs_nonneg _).trans (hB (0, 0)), fun n hn θ => ?_⟩
  refine trapezoid (F := fun k z => (D2^[k] F) (θ, z)) hn hQ
    (fun k => (iter_per (fun _ => DPer.d2) h k).slice2 θ) (fun k x => ?_) hp (fun x => hB _) 0
  have := (iter_smooth (fun _ => Smooth.d2) hs k).hasDeriv2 θ x
  rw [Function.iterate_succ_apply']
  exact this

/-- Mean over the tensor-product grid. -/
noncomputable def gridMean (P Q : ℝ) (n1 n2 : ℕ) (F : ℝ × ℝ → ℝ) : ℝ :=
  (∑ a ∈ range n1, ∑ b ∈ range n2, F (P * a / n1, Q * b / n2)) / (n1 * n2)

/-- Mean over both periods. -/
noncomputable def mean2 (P Q : ℝ) (F : ℝ × ℝ → ℝ) : ℝ := mean P fun θ => mean Q fun ζ => F (θ, ζ)

theorem mean_sub {f g : ℝ → ℝ} (hf : Continuous f) (hg : Continuous g) :
    mean P (fun x => f x - g x) = mean P f - mean P g := by
  unfold mean
  rw [intervalIntegral.integral_sub (hf.intervalIntegrable _ _) (hg.intervalIntegrable _ _), sub_div]

theorem mean_continuous (hc : Continuous F) : Continuous fun θ => mean Q fun ζ => F (θ, ζ) := by
  unfold mean
  refine Continuous.div_const ?_ _
  exact intervalIntegral.continuous_parametric_intervalIntegral_of_continuous' (f := fun θ ζ => F (θ, ζ)) hc 0 Q

/-- Error of the tensor-product quadrature from the errors in each angle. -/
theorem grid_combine (hP : 0 < P) {n1 n2 : ℕ} (hn2 : 1 ≤ n2) (hc : Continuous F) {e1 e2 : ℝ}
    (b1 : ∀ ζ, |avg P n1 (fun t => F (t, ζ)) 0 - mean P (fun t => F (t, ζ))| ≤ e1)
    (b2 : ∀ θ, |avg Q n2 (fun z => F (θ, z)) 0 - mean Q (fun z => F (θ, z))| ≤ e2) :
    |gridMean P Q n1 n2 F - mean2 P Q F| ≤ e1 + e2 := by
  have k1 : gridMean P Q n1 n2 F = avg Q n2 (fun ζ => avg P n1 (fun t => F (t, ζ)) 0) 0 := by
    unfold gridMean avg
    rw [sum_comm]
    simp only [zero_add]
    rw [← Finset.sum_div, div_div]
  have k2 : avg Q n2 (fun ζ => mean P fun t => F (t, ζ)) 0 = mean P fun θ => avg Q n2 (fun z => F (θ, z)) 0 := by
    unfold avg mean
    rw [intervalIntegral.integral_div, intervalIntegral.integral_finsetSum, Finset.sum_div]
    · rw [Finset.sum_div, Finset.sum_div]
      exact sum_congr rfl fun b _ => by ring
    · intro b _
      exact (hc.comp (by fun_prop)).intervalIntegrable _ _
  have d1 : |gridMean P Q n1 n2 F - avg Q n2 (fun ζ => mean P fun t => F (t, ζ)) 0| ≤ e1 := by
    rw [k1]
    have : avg Q n2 (fun ζ => avg P n1 (fun t => F (t, ζ)) 0) 0 - avg Q n2 (fun ζ => mean P fun t => F (t, ζ)) 0 =
        avg Q n2 (fun ζ => avg P n1 (fun t => F (t, ζ)) 0 - mean P fun t => F (t, ζ)) 0 := by
      unfold avg
      rw [← sub_div, ← Finset.sum_sub_distrib]
    rw [this]
    exact avg_bound hn2 b1 0
  have d2 : |avg Q n2 (fun ζ => mean P fun t => F (t, ζ)) 0 - mean2 P Q F| ≤ e2 := by
    rw [k2]
    unfold mean2
    rw [← mean_sub ?_ (mean_continuous hc)]
    · exact mean_abs_le hP b2
    · unfold avg
      fun_prop
  exact (abs_sub_le _ _ _).trans (add_le_add d1 d2)

/-- **Tensor-product quadrature of a smooth doubly periodic function**: the error is smaller than every
power of the two steps. -/
theorem grid_error (hP : 0 < P) (hQ : 0 < Q) (h : DPer P Q F) (hs : Smooth F) {p : ℕ} (hp : 1 ≤ p) :
    ∃ C, ∀ n1 n2 : ℕ, 1 ≤ n1 → 1 ≤ n2 →
      |gridMean P Q n1 n2 F - mean2 P Q F| ≤ C * ((1 / (n1 : ℝ)) ^ p + (1 / (n2 : ℝ)) ^ p) := by
  obtain ⟨B1, h1, b1⟩ := trap1 hP hQ h hs hp
  obtain ⟨B2, h2, b2⟩ := trap2 hP hQ h hs hp
  refine ⟨max (P ^ p * B1) (Q ^ p * B2), fun n1 n2 hn1 hn2 => ?_⟩
  have k1 : (P / n1) ^ p * B1 ≤ max (P ^ p * B1) (Q ^ p * B2) * (1 / (n1 : ℝ)) ^ p := by
    rw [div_eq_mul_one_div, mul_pow, mul_right_comm]
    exact mul_le_mul_of_nonneg_right (le_max_left _ _) (by positivity)
  have k2 : (Q / n2) ^ p * B2 ≤ max (P ^ p * B1) (Q ^ p * B2) * (1 / (n2 : ℝ)) ^ p := by
    rw [div_eq_mul_one_div, mul_pow, mul_right_comm]
    exact mul_le_mul_of_nonneg_right (le_max_right _ _) (by positivity)
  rw [mul_add]
  have := grid_combine hP hn2 hs.continuous (b1 n1 hn1) (b2 n2 hn2)
  linarith

end Booz.Trapezoid
