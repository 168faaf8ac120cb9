import Mathlib.MeasureTheory.Integral.IntervalIntegral.Periodic
import Mathlib.MeasureTheory.Integral.IntervalIntegral.FundThmCalculus
import Mathlib.Analysis.Calculus.MeanValue
import Mathlib.Analysis.Calculus.Deriv.Shift
import Mathlib.Tactic.FieldSimp
import Mathlib.Tactic.Linarith

/-!
# The trapezoidal rule for smooth periodic functions

For a function of period `P` with derivatives `F 1, F 2, …`, the mean over `n` equidistant points
differs from the mean over the period by at most `(P / n)^p sup |F p|`, for every `p ≥ 1`.
-/

namespace Booz.Trapezoid
open Finset Function

/-- Mean over the `n` points `x + P a / n`. -/
noncomputable def avg (P : ℝ) (n : ℕ) (f : ℝ → ℝ) (x : ℝ) : ℝ := (∑ a ∈ range n, f (x + P * a / n)) / n

/-- Mean over a period. -/
noncomputable def mean (P : ℝ) (f : ℝ → ℝ) : ℝ := (∫ x in (0 : ℝ)..P, f x) / P

variable {P : ℝ} {n : ℕ} {f f' : ℝ → ℝ}

theorem avg_hasDerivAt (h : ∀ x, HasDerivAt f (f' x) x) (x : ℝ) :
    HasDerivAt (avg P n f) (avg P n f' x) x := by
  unfold avg
  refine HasDerivAt.div_const ?_ _
  refine HasDerivAt.fun_sum fun a _ => ?_
  exact (h (x + P * a / n)).comp_add_const x _

theorem avg_periodic (hn : 1 ≤ n) (hf : Periodic f P) : Periodic (avg P n f) (P / n) := by
  have hn0 : (n : ℝ) ≠ 0 := by positivity
  intro x
  unfold avg
  congr 1
  have e : ∀ a : ℕ, x + P / n + P * a / n = x + P * ((a + 1 : ℕ) : ℝ) / n := by
    intro a
    push_cast
    field_simp
    ring
  simp only [e]
  have h1 := Finset.sum_range_succ' (fun a : ℕ => f (x + P * a / n)) n
  have h2 := Finset.sum_range_succ (fun a : ℕ => f (x + P * a / n)) n
  have h3 : f (x + P * (n : ℝ) / n) = f (x + P * ((0 : ℕ) : ℝ) / n) := by
    rw [mul_div_cancel_right₀ _ hn0, hf x]
    simp
  rw [h1] at h2
  linarith

theorem avg_mean (hn : 1 ≤ n) (hf : Periodic f P) (hc : Continuous f) :
    mean P (avg P n f) = mean P f := by
  have hn0 : (n : ℝ) ≠ 0 := by positivity
  unfold mean avg
  congr 1
  rw [intervalIntegral.integral_div, intervalIntegral.integral_finsetSum]
  · have : ∀ a ∈ range n, (∫ x in (0 : ℝ)..P, f (x + P * a / n)) = ∫ x in (0 : ℝ)..P, f x := by
      intro a _
      rw [intervalIntegral.integral_comp_add_right (fun x => f x)]
      have := hf.intervalIntegral_add_eq (0 + P * a / n) 0
      rw [zero_add] at this
      rw [zero_add, add_comm P, this, zero_add]
    rw [sum_congr rfl this, sum_const, card_range, nsmul_eq_mul]
    field_simp
  · intro a _
    exact (hc.comp (by fun_prop)).intervalIntegrable _ _

theorem avg_bound (hn : 1 ≤ n) {B : ℝ} (h : ∀ x, |f x| ≤ B) (x : ℝ) : |avg P n f x| ≤ B := by
  have hn0 : (0 : ℝ) < n := by positivity
  unfold avg
  rw [abs_div, abs_of_pos hn0, div_le_iff₀ hn0]
  calc |∑ a ∈ range n, f (x + P * a / n)| ≤ ∑ a ∈ range n, |f (x + P * a / n)| := abs_sum_le_sum_abs _ _
    _ ≤ ∑ a ∈ range n, B := sum_le_sum fun a _ => h _
    _ = B * n := by rw [sum_const, card_range, nsmul_eq_mul]; ring

theorem mean_sub_const (hP : 0 < P) {g : ℝ → ℝ} (hc : Continuous g) (c : ℝ) :
    mean P (fun y => g y - c) = mean P g - c := by
  unfold mean
  rw [intervalIntegral.integral_sub (hc.intervalIntegrable _ _) (by simp), intervalIntegral.integral_const]
  field_simp
  simp

theorem mean_abs_le (hP : 0 < P) {g : ℝ → ℝ} {B : ℝ} (h : ∀ y, |g y| ≤ B) : |mean P g| ≤ B := by
  unfold mean
  rw [abs_div, abs_of_pos hP, div_le_iff₀ hP]
  have := intervalIntegral.norm_integral_le_of_norm_le_const (a := 0) (b := P) (f := g) (C := B) fun x _ => h x
  simpa [abs_of_pos hP] using this

/-- One step: the oscillation of the averaged function over its short period. -/
theorem step (hn : 1 ≤ n) (hP : 0 < P) (hf : Periodic f P) (h : ∀ x, HasDerivAt f (f' x) x) {B : ℝ}
    (hB : ∀ x, |avg P n f' x| ≤ B) (x : ℝ) : |avg P n f x - mean P f| ≤ P / n * B := by
  have hc : Continuous f := continuous_iff_continuousAt.2 fun x => (h x).continuousAt
  have hn0 : (0 : ℝ) < n := by positivity
  have hPn : 0 < P / n := by positivity
  have hg : ∀ x, HasDerivAt (avg P n f) (avg P n f' x) x := avg_hasDerivAt h
  have hgc : Continuous (avg P n f) := continuous_iff_continuousAt.2 fun x => (hg x).continuousAt
  have hB0 : 0 ≤ B := (abs_nonneg _).trans (hB 0)
  have key : ∀ y, |avg P n f y - avg P n f x| ≤ P / n * B := by
    intro y
    obtain ⟨y', hy', he⟩ := (avg_periodic hn hf).exists_mem_Ico hPn y x
    rw [he]
    have := Convex.norm_image_sub_le_of_norm_hasDerivWithin_le (s := Set.univ) (C := B)
      (fun z _ => (hg z).hasDerivWithinAt) (fun z _ => hB z) convex_univ (Set.mem_univ x) (Set.mem_univ y')
    refine this.trans ?_
    rw [mul_comm, Real.norm_eq_abs, abs_of_nonneg (by linarith [hy'.1])]
    exact mul_le_mul_of_nonneg_right (by linarith [hy'.2]) hB0
  rw [← avg_mean hn hf hc, abs_sub_comm, ← mean_sub_const hP hgc]
  exact mean_abs_le hP key

theorem mean_deriv (hf : Periodic f P) (h : ∀ x, HasDerivAt f (f' x) x) (hc : Continuous f') : mean P f' = 0 := by
  unfold mean
  rw [intervalIntegral.integral_eq_sub_of_hasDerivAt (fun x _ => h x) (hc.intervalIntegrable _ _)]
  have := hf 0
  rw [zero_add] at this
  rw [this, sub_self, zero_div]

/-- The trapezoidal rule converges faster than every power of the step. -/
theorem trapezoid (hn : 1 ≤ n) (hP : 0 < P) {F : ℕ → ℝ → ℝ} (hper : ∀ k, Periodic (F k) P)
    (h : ∀ k x, HasDerivAt (F k) (F (k + 1) x) x) {p : ℕ} (hp : 1 ≤ p) {B : ℝ} (hB : ∀ x, |F p x| ≤ B) (x : ℝ) :
    |avg P n (F 0) x - mean P (F 0)| ≤ (P / n) ^ p * B := by
  have hcont : ∀ k, Continuous (F k) := fun k => continuous_iff_continuousAt.2 fun x => (h k x).continuousAt
  have main : ∀ q, q < p → ∀ x, |avg P n (F (p - q)) x| ≤ (P / n) ^ q * B := by
    intro q
    induction q with
    | zero => intro _ x; rw [pow_zero, one_mul]; exact avg_bound hn hB x
    | succ q ih =>
      intro hq x
      obtain ⟨k, hk⟩ : ∃ k, p - q = k + 2 := ⟨p - q - 2, by omega⟩
      have ih' := ih (by omega)
      rw [hk] at ih'
      rw [show p - (q + 1) = k + 1 by omega]
      have := step hn hP (hper (k + 1)) (h (k + 1)) ih' x
      rw [mean_deriv (hper k) (h k) (hcont _), sub_zero] at this
      rw [pow_succ', mul_assoc]
      exact this
  obtain ⟨q, rfl⟩ : ∃ q, p = q + 1 := ⟨p - 1, by omega⟩
  have hm := main q (by omega)
  rw [show q + 1 - q = 0 + 1 by omega] at hm
  have := step hn hP (hper 0) (h 0) hm x
  rw [pow_succ', mul_assoc]
  exact this

end Booz.Trapezoid
