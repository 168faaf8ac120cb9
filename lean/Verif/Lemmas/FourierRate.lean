import Verif.Lemmas.FourierTorus

/-!
# Rate of convergence of Fourier series of smooth functions on the torus
-/

namespace Booz.Trapezoid
open Finset Function Spec MeasureTheory

variable {F : ℝ × ℝ → ℝ}

/-- Weight of a mode. -/
noncomputable def wgt (k : ℤ × ℤ) : ℝ := (1 + (k.1 : ℝ) ^ 2)⁻¹ * (1 + (k.2 : ℝ) ^ 2)⁻¹

theorem wgt_nonneg (k : ℤ × ℤ) : 0 ≤ wgt k := by unfold wgt; positivity

theorem coeff_T (sF : Smooth F) (pF : DPer τ τ F) (k : ℤ × ℤ) :
    cc F k = wgt k * cc (T2 (T1 F)) k ∧ sc F k = wgt k * sc (T2 (T1 F)) k := by
  have p1 : (1 + (k.1 : ℝ) ^ 2) ≠ 0 := by positivity
  have p2 : (1 + (k.2 : ℝ) ^ 2) ≠ 0 := by positivity
  unfold cc sc wgt
  constructor
  · rw [mean_T2 (T1_smooth sF) (T1_per pF) (cosM_smooth k) (cosM_per k) (cosM_D22 k),
      mean_T1 sF pF (cosM_smooth k) (cosM_per k) (cosM_D11 k)]
    field_simp
  · rw [mean_T2 (T1_smooth sF) (T1_per pF) (sinM_smooth k) (sinM_per k) (sinM_D22 k),
      mean_T1 sF pF (sinM_smooth k) (sinM_per k) (sinM_D11 k)]
    field_simp

/-- Coefficients decrease faster than every power. -/
theorem decay_pow (p : ℕ) : ∀ {F : ℝ × ℝ → ℝ}, Smooth F → DPer τ τ F →
    ∃ A, 0 ≤ A ∧ ∀ k : ℤ × ℤ, |cc F k| ≤ A * wgt k ^ p ∧ |sc F k| ≤ A * wgt k ^ p := by
  induction p with
  | zero =>
    intro F sF pF
    obtain ⟨A, hA⟩ := pF.bounded tau_pos tau_pos sF.continuous
    have hA0 := (abs_nonneg _).trans (hA 0)
    have b : ∀ E : ℝ × ℝ → ℝ, (∀ x, |E x| ≤ 1) → |mean2 τ τ fun x => F x * E x| ≤ A := by
      intro E hE
      refine mean2_abs_le tau_pos tau_pos fun x => ?_
      rw [abs_mul]
      calc _ ≤ A * 1 := mul_le_mul (hA x) (hE x) (abs_nonneg _) hA0
        _ = A := mul_one A
    refine ⟨A, hA0, fun k => ?_⟩
    rw [pow_zero, mul_one]
    exact ⟨b _ fun x => Real.abs_cos_le_one _, b _ fun x => Real.abs_sin_le_one _⟩
  | succ p ih =>
    intro F sF pF
    obtain ⟨A, hA0, hA⟩ := ih (T2_smooth (T1_smooth sF)) (T2_per (T1_per pF))
    refine ⟨A, hA0, fun k => ?_⟩
    obtain ⟨e1, e2⟩ := coeff_T sF pF k
    obtain ⟨h1, h2⟩ := hA k
    have h0 := wgt_nonneg k
    rw [e1, e2, abs_mul, abs_mul, abs_of_nonneg h0, pow_succ]
    constructor
    · calc _ ≤ wgt k * (A * wgt k ^ p) := mul_le_mul_of_nonneg_left h1 h0
        _ = _ := by ring
    · calc _ ≤ wgt k * (A * wgt k ^ p) := mul_le_mul_of_nonneg_left h2 h0
        _ = _ := by ring

/-- Modes outside a square have a small weight. -/
theorem wgt_out {K : ℕ} {k : ℤ × ℤ} (hk : k ∉ box K) : wgt k ≤ 1 / ((K : ℝ) + 1) := by
  rw [mem_box, not_and_or, not_le, not_le] at hk
  have big : ∀ m : ℤ, (K : ℤ) < |m| → (K : ℝ) + 1 ≤ 1 + (m : ℝ) ^ 2 := by
    intro m hm
    have h1 : (K : ℝ) + 1 ≤ |(m : ℝ)| := by
      rw [← Int.cast_abs]
      exact_mod_cast hm
    have h2 : |(m : ℝ)| ^ 2 = (m : ℝ) ^ 2 := sq_abs _
    nlinarith [(Nat.cast_nonneg K : (0 : ℝ) ≤ K)]
  have one : ∀ m : ℤ, (1 + (m : ℝ) ^ 2)⁻¹ ≤ 1 := fun m => inv_le_one_of_one_le₀ (by nlinarith [sq_nonneg (m : ℝ)])
  have hK : (0 : ℝ) < (K : ℝ) + 1 := by positivity
  unfold wgt
  rw [one_div]
  rcases hk with hk | hk
  · calc _ ≤ ((K : ℝ) + 1)⁻¹ * 1 := mul_le_mul (inv_anti₀ hK (big _ hk)) (one _) (by positivity) (by positivity)
      _ = _ := mul_one _
  · calc _ ≤ 1 * ((K : ℝ) + 1)⁻¹ := mul_le_mul (one _) (inv_anti₀ hK (big _ hk)) (by positivity) (by positivity)
      _ = _ := one_mul _

/-- **Rate of convergence.** Summing the Fourier series over any symmetric set of modes which contains the square of
size `K` leaves an error smaller than every power of `1/(K+1)`. -/
theorem fourier_rate (sF : Smooth F) (pF : DPer τ τ F) (p : ℕ) : ∃ C, 0 ≤ C ∧ ∀ (K : ℕ) (A : Finset (ℤ × ℤ)),
    box K ⊆ A → (∀ k ∈ A, -k ∈ A) → ∀ x, |F x - ∑ k ∈ halfOf A, (if k = 0 then 1 else 2) * term F k x| ≤
      C * (1 / ((K : ℝ) + 1)) ^ p := by
  obtain ⟨B, hB0, hB⟩ := decay_pow (p + 1) sF pF
  have sw : Summable wgt := summable_inv2
  have hW : 0 ≤ ∑' k, wgt k := tsum_nonneg wgt_nonneg
  refine ⟨2 * B * ∑' k, wgt k, by positivity, fun K A hbox hA x => ?_⟩
  have tb : ∀ k, |term F k x| ≤ 2 * B * wgt k ^ (p + 1) := by
    intro k
    obtain ⟨h1, h2⟩ := hB k
    have c1 : |cc F k * cosM k x| ≤ B * wgt k ^ (p + 1) := by
      rw [abs_mul]
      exact (mul_le_of_le_one_right (abs_nonneg _) (Real.abs_cos_le_one _)).trans h1
    have c2 : |sc F k * sinM k x| ≤ B * wgt k ^ (p + 1) := by
      rw [abs_mul]
      exact (mul_le_of_le_one_right (abs_nonneg _) (Real.abs_sin_le_one _)).trans h2
    have := (abs_add_le _ _).trans (add_le_add c1 c2)
    unfold term
    linarith
  obtain ⟨u, hu, hub⟩ := term_bound sF pF
  have ts : Summable fun k => term F k x := Summable.of_norm_bounded hu fun k => hub k x
  have hs : HasSum (fun k => term F k x) (F x) := by
    rw [← series_sum sF pF x]
    exact ts.hasSum
  have hfin : HasSum (fun k => if k ∈ A then term F k x else 0) (∑ k ∈ A, term F k x) := by
    have := hasSum_sum_of_ne_finset_zero (L := .unconditional _) (f := fun k => if k ∈ A then term F k x else 0) (s := A) fun k hk => if_neg hk
    rwa [Finset.sum_congr rfl fun k hk => if_pos hk] at this
  have hd := hs.sub hfin
  have bd : ∀ k, ‖term F k x - if k ∈ A then term F k x else 0‖ ≤ 2 * B * (1 / ((K : ℝ) + 1)) ^ p * wgt k := by
    intro k
    have h0 := wgt_nonneg k
    split
    · rw [sub_self, norm_zero]
      positivity
    · rename_i hk
      rw [sub_zero, Real.norm_eq_abs]
      refine (tb k).trans ?_
      rw [pow_succ, mul_assoc (2 * B)]
      refine mul_le_mul_of_nonneg_left ?_ (by positivity)
      exact mul_le_mul_of_nonneg_right (pow_le_pow_left₀ h0 (wgt_out fun h => hk (hbox h)) p) h0
  have bs := tsum_of_norm_bounded (sw.mul_left (2 * B * (1 / ((K : ℝ) + 1)) ^ p)).hasSum bd
  rw [hd.tsum_eq, tsum_mul_left, Real.norm_eq_abs, sym_sum hA _ fun k => term_neg F k x] at bs
  refine bs.trans (le_of_eq ?_)
  ring

end Booz.Trapezoid
