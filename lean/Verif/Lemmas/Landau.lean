import Mathlib.Analysis.Calculus.Deriv.MeanValue
import Mathlib.Analysis.Calculus.IteratedDeriv.Defs
import Mathlib.Analysis.SpecialFunctions.Trigonometric.Deriv
import Verif.Lemmas.Smooth

/-!
# Derivatives of small functions are small, if the next derivatives are not too large
-/

namespace Booz.Trapezoid
open Finset Function

/-- Landau's inequality, for a step `h`. -/
theorem landau {g g1 g2 : ℝ → ℝ} (h1 : ∀ x, HasDerivAt g (g1 x) x) (h2 : ∀ x, HasDerivAt g1 (g2 x) x) {A B h : ℝ}
    (hA : ∀ x, |g x| ≤ A) (hB : ∀ x, |g2 x| ≤ B) (hh : 0 < h) (x : ℝ) : |g1 x| ≤ 2 * A / h + B * h := by
  obtain ⟨ξ, ⟨h3, h4⟩, h5⟩ := exists_hasDerivAt_eq_slope g g1 (by linarith : x < x + h)
    (fun y _ => (h1 y).continuousAt.continuousWithinAt) fun y _ => h1 y
  obtain ⟨η, -, h6⟩ := exists_hasDerivAt_eq_slope g1 g2 h3 (fun y _ => (h2 y).continuousAt.continuousWithinAt) fun y _ => h2 y
  rw [add_sub_cancel_left] at h5
  have e1 : |g1 ξ| ≤ 2 * A / h := by
    rw [h5, abs_div, abs_of_pos hh]
    refine div_le_div_of_nonneg_right ((abs_sub _ _).trans ?_) hh.le
    linarith [hA (x + h), hA x]
  have e2 : |g1 ξ - g1 x| ≤ B * h := by
    have hne : ξ - x ≠ 0 := by linarith
    rw [eq_div_iff hne] at h6
    rw [← h6, abs_mul, abs_of_pos (by linarith : 0 < ξ - x)]
    exact mul_le_mul (hB η) (by linarith) (by linarith) ((abs_nonneg _).trans (hB η))
  have := abs_sub_abs_le_abs_sub (g1 x) (g1 ξ)
  rw [abs_sub_comm] at this
  linarith

/-- A family of functions which is smaller than every power of `1/M`, with second derivatives bounded by a power of `M`,
has first derivatives smaller than every power. -/
theorem landau_family {ι : Type} {M : ι → ℝ} (hM : ∀ i, 1 ≤ M i) {g g1 g2 : ι → ℝ → ℝ → ℝ}
    (h1 : ∀ i y x, HasDerivAt (g i y) (g1 i y x) x) (h2 : ∀ i y x, HasDerivAt (g1 i y) (g2 i y x) x)
    (hg : ∀ p : ℕ, ∃ C, 0 ≤ C ∧ ∀ i y x, |g i y x| ≤ C * (1 / M i) ^ p)
    (hb : ∃ (B : ℝ) (P : ℕ), 0 ≤ B ∧ ∀ i y x, |g2 i y x| ≤ B * M i ^ P) (p : ℕ) :
    ∃ C, 0 ≤ C ∧ ∀ i y x, |g1 i y x| ≤ C * (1 / M i) ^ p := by
  obtain ⟨B, P, hB, hb⟩ := hb
  obtain ⟨C, hC, hg⟩ := hg (2 * p + P)
  refine ⟨2 * C + B, by positivity, fun i y x => ?_⟩
  have m0 : 0 < M i := lt_of_lt_of_le one_pos (hM i)
  have hm : 0 < (1 / M i) ^ (p + P) := by positivity
  have k := landau (h1 i y) (h2 i y) (hg i y) (hb i y) hm x
  refine k.trans (le_of_eq ?_)
  have e1 : M i * (1 / M i) = 1 := mul_one_div_cancel m0.ne'
  have e2 : M i ^ P * (1 / M i) ^ P = 1 := by rw [← mul_pow, e1, one_pow]
  have e3 : (1 / M i) ^ (2 * p + P) / (1 / M i) ^ (p + P) = (1 / M i) ^ p := by
    rw [div_eq_iff hm.ne', ← pow_add]
    congr 1
    omega
  rw [add_mul, mul_div_assoc, mul_div_assoc, e3, pow_add (1 / M i) p P]
  linear_combination B * (1 / M i) ^ p * e2

/-- Mixed partial derivatives. -/
noncomputable def Dab (a b : ℕ) (F : ℝ × ℝ → ℝ) : ℝ × ℝ → ℝ := D1^[a] (D2^[b] F)

theorem Dab_smooth {F : ℝ × ℝ → ℝ} (h : Smooth F) (a b : ℕ) : Smooth (Dab a b F) :=
  iter_smooth (fun _ => Smooth.d1) (iter_smooth (fun _ => Smooth.d2) h b) a

theorem Dab_succ1 (a b : ℕ) (F : ℝ × ℝ → ℝ) : Dab (a + 1) b F = D1 (Dab a b F) := Function.iterate_succ_apply' _ _ _

theorem Dab_succ2 (b : ℕ) (F : ℝ × ℝ → ℝ) : Dab 0 (b + 1) F = D2 (Dab 0 b F) := Function.iterate_succ_apply' _ _ _

/-- All derivatives of a family which is smaller than every power. -/
theorem family_derivs {ι : Type} {M : ι → ℝ} (hM : ∀ i, 1 ≤ M i) {G : ι → ℝ × ℝ → ℝ} (hs : ∀ i, Smooth (G i))
    (hg : ∀ p : ℕ, ∃ C, 0 ≤ C ∧ ∀ i x, |G i x| ≤ C * (1 / M i) ^ p)
    (hb : ∀ a b : ℕ, ∃ (B : ℝ) (P : ℕ), 0 ≤ B ∧ ∀ i x, |Dab a b (G i) x| ≤ B * M i ^ P) (a b p : ℕ) :
    ∃ C, 0 ≤ C ∧ ∀ i x, |Dab a b (G i) x| ≤ C * (1 / M i) ^ p := by
  have second : ∀ b p : ℕ, ∃ C, 0 ≤ C ∧ ∀ i x, |Dab 0 b (G i) x| ≤ C * (1 / M i) ^ p := by
    intro b
    induction b with
    | zero => exact hg
    | succ b ih =>
      intro p
      obtain ⟨B, P, hB, hb⟩ := hb 0 (b + 2)
      obtain ⟨C, hC, k⟩ := landau_family hM (g := fun i y x => Dab 0 b (G i) (y, x))
        (g1 := fun i y x => Dab 0 (b + 1) (G i) (y, x)) (g2 := fun i y x => Dab 0 (b + 2) (G i) (y, x))
        (fun i y x => by
          have := (Dab_smooth (hs i) 0 b).hasDeriv2 y x
          rwa [← Dab_succ2] at this)
        (fun i y x => by
          have := (Dab_smooth (hs i) 0 (b + 1)).hasDeriv2 y x
          rwa [← Dab_succ2] at this)
        (fun p => (ih p).imp fun C h => ⟨h.1, fun i y x => h.2 i (y, x)⟩) ⟨B, P, hB, fun i y x => hb i (y, x)⟩ p
      exact ⟨C, hC, fun i x => k i x.1 x.2⟩
  induction a generalizing p with
  | zero => exact second b p
  | succ a ih =>
    obtain ⟨B, P, hB, hb⟩ := hb (a + 2) b
    obtain ⟨C, hC, k⟩ := landau_family hM (g := fun i y x => Dab a b (G i) (x, y))
      (g1 := fun i y x => Dab (a + 1) b (G i) (x, y)) (g2 := fun i y x => Dab (a + 2) b (G i) (x, y))
      (fun i y x => by
        have := (Dab_smooth (hs i) a b).hasDeriv1 x y
        rwa [← Dab_succ1] at this)
      (fun i y x => by
        have := (Dab_smooth (hs i) (a + 1) b).hasDeriv1 x y
        rwa [← Dab_succ1] at this)
      (fun p => (ih p).imp fun C h => ⟨h.1, fun i y x => h.2 i (x, y)⟩) ⟨B, P, hB, fun i y x => hb i (x, y)⟩ p
    exact ⟨C, hC, fun i x => k i x.2 x.1⟩

theorem D1_sub {F H : ℝ × ℝ → ℝ} (hF : Smooth F) (hH : Smooth H) : D1 (fun x => F x - H x) = fun x => D1 F x - D1 H x := by
  funext x
  unfold D1
  rw [fderiv_fun_sub (hF.differentiable x) (hH.differentiable x)]
  rfl

theorem D2_sub {F H : ℝ × ℝ → ℝ} (hF : Smooth F) (hH : Smooth H) : D2 (fun x => F x - H x) = fun x => D2 F x - D2 H x := by
  funext x
  unfold D2
  rw [fderiv_fun_sub (hF.differentiable x) (hH.differentiable x)]
  rfl

theorem Dab_sub {F H : ℝ × ℝ → ℝ} (hF : Smooth F) (hH : Smooth H) (a b : ℕ) :
    Dab a b (fun x => F x - H x) = fun x => Dab a b F x - Dab a b H x := by
  have second : ∀ b, Dab 0 b (fun x => F x - H x) = fun x => Dab 0 b F x - Dab 0 b H x := by
    intro b
    induction b with
    | zero => rfl
    | succ b ih => rw [Dab_succ2, ih, D2_sub (Dab_smooth hF 0 b) (Dab_smooth hH 0 b), Dab_succ2, Dab_succ2]
  induction a with
  | zero => exact second b
  | succ a ih => rw [Dab_succ1, ih, D1_sub (Dab_smooth hF a b) (Dab_smooth hH a b), Dab_succ1, Dab_succ1]

/-- A trigonometric sum, differentiated term by term. -/
noncomputable def tsum2 {κ : Type} (A : Finset κ) (m n c s : κ → ℝ) (a b : ℕ) (x : ℝ × ℝ) : ℝ :=
  ∑ k ∈ A, m k ^ a * (-n k) ^ b * (c k * Real.cos (m k * x.1 - n k * x.2 + (a + b : ℕ) * (Real.pi / 2)) +
    s k * Real.sin (m k * x.1 - n k * x.2 + (a + b : ℕ) * (Real.pi / 2)))

section
variable {κ : Type} (A : Finset κ) (m n c s : κ → ℝ)

theorem tsum2_smooth (a b : ℕ) : Smooth (tsum2 A m n c s a b) := by
  unfold tsum2 Smooth
  fun_prop

theorem tsum2_deriv1 (a b : ℕ) : D1 (tsum2 A m n c s a b) = tsum2 A m n c s (a + 1) b := by
  funext x
  refine ((tsum2_smooth A m n c s a b).hasDeriv1 x.1 x.2).unique ?_
  unfold tsum2
  refine HasDerivAt.fun_sum fun k _ => ?_
  have hp : HasDerivAt (fun t => m k * t - n k * x.2 + (a + b : ℕ) * (Real.pi / 2)) (m k) x.1 := by
    simpa using (((hasDerivAt_id x.1).const_mul (m k)).sub_const (n k * x.2)).add_const (((a + b : ℕ) : ℝ) * (Real.pi / 2))
  have h := ((hp.cos.const_mul (c k)).add (hp.sin.const_mul (s k))).const_mul (m k ^ a * (-n k) ^ b)
  refine h.congr_deriv ?_
  rw [show m k * x.1 - n k * x.2 + (a + 1 + b : ℕ) * (Real.pi / 2) =
    (m k * x.1 - n k * x.2 + (a + b : ℕ) * (Real.pi / 2)) + Real.pi / 2 by push_cast; ring,
    Real.cos_add_pi_div_two, Real.sin_add_pi_div_two]
  ring

theorem tsum2_deriv2 (a b : ℕ) : D2 (tsum2 A m n c s a b) = tsum2 A m n c s a (b + 1) := by
  funext x
  refine ((tsum2_smooth A m n c s a b).hasDeriv2 x.1 x.2).unique ?_
  unfold tsum2
  refine HasDerivAt.fun_sum fun k _ => ?_
  have hp : HasDerivAt (fun z => m k * x.1 - n k * z + (a + b : ℕ) * (Real.pi / 2)) (-n k) x.2 := by
    simpa using (((hasDerivAt_id x.2).const_mul (n k)).const_sub (m k * x.1)).add_const (((a + b : ℕ) : ℝ) * (Real.pi / 2))
  have h := ((hp.cos.const_mul (c k)).add (hp.sin.const_mul (s k))).const_mul (m k ^ a * (-n k) ^ b)
  refine h.congr_deriv ?_
  rw [show m k * x.1 - n k * x.2 + (a + (b + 1) : ℕ) * (Real.pi / 2) =
    (m k * x.1 - n k * x.2 + (a + b : ℕ) * (Real.pi / 2)) + Real.pi / 2 by push_cast; ring,
    Real.cos_add_pi_div_two, Real.sin_add_pi_div_two]
  ring

theorem tsum2_Dab (a b : ℕ) : Dab a b (tsum2 A m n c s 0 0) = tsum2 A m n c s a b := by
  have second : ∀ b, Dab 0 b (tsum2 A m n c s 0 0) = tsum2 A m n c s 0 b := by
    intro b
    induction b with
    | zero => rfl
    | succ b ih => rw [Dab_succ2, ih, tsum2_deriv2]
  induction a with
  | zero => exact second b
  | succ a ih => rw [Dab_succ1, ih, tsum2_deriv1]

theorem tsum2_zero : tsum2 A m n c s 0 0 = fun x => ∑ k ∈ A, (c k * Real.cos (m k * x.1 - n k * x.2) +
    s k * Real.sin (m k * x.1 - n k * x.2)) := by
  funext x
  unfold tsum2
  simp

/-- Bound for the differentiated sum. -/
theorem tsum2_le {E : ℝ} {W : κ → ℝ} (a b : ℕ) (hc : ∀ k ∈ A, |c k| ≤ E) (hs : ∀ k ∈ A, |s k| ≤ E)
    (hW : ∀ k ∈ A, |m k| ^ a * |n k| ^ b ≤ W k) (x : ℝ × ℝ) : |tsum2 A m n c s a b x| ≤ (∑ k ∈ A, W k) * (2 * E) := by
  unfold tsum2
  rw [sum_mul]
  refine (abs_sum_le_sum_abs _ _).trans (sum_le_sum fun k hk => ?_)
  have E0 : 0 ≤ E := (abs_nonneg _).trans (hc k hk)
  rw [abs_mul, abs_mul, abs_pow, abs_pow, abs_neg]
  refine mul_le_mul (hW k hk) ((abs_add_le _ _).trans ?_) (abs_nonneg _) (le_trans (by positivity) (hW k hk))
  rw [two_mul]
  refine add_le_add ?_ ?_
  · rw [abs_mul]
    exact (mul_le_of_le_one_right (abs_nonneg _) (Real.abs_cos_le_one _)).trans (hc k hk)
  · rw [abs_mul]
    exact (mul_le_of_le_one_right (abs_nonneg _) (Real.abs_sin_le_one _)).trans (hs k hk)

end

/-- Iterated derivatives of one angle after the other. -/
theorem Dab_iterated {F : ℝ × ℝ → ℝ} (h : Smooth F) (a b : ℕ) (t z : ℝ) :
    iteratedDeriv a (fun t' => iteratedDeriv b (fun z' => F (t', z')) z) t = Dab a b F (t, z) := by
  have second : ∀ (b : ℕ) (t : ℝ), iteratedDeriv b (fun z' => F (t, z')) = fun z => Dab 0 b F (t, z) := by
    intro b t
    induction b with
    | zero => rw [iteratedDeriv_zero]; rfl
    | succ b ih =>
      rw [iteratedDeriv_succ, ih]
      funext z
      rw [((Dab_smooth h 0 b).hasDeriv2 t z).deriv, ← Dab_succ2]
  have first : ∀ a : ℕ, iteratedDeriv a (fun t' => Dab 0 b F (t', z)) = fun t => Dab a b F (t, z) := by
    intro a
    induction a with
    | zero => rw [iteratedDeriv_zero]
    | succ a ih =>
      rw [iteratedDeriv_succ, ih]
      funext t
      rw [((Dab_smooth h a b).hasDeriv1 t z).deriv, ← Dab_succ1]
  have e : (fun t' => iteratedDeriv b (fun z' => F (t', z')) z) = fun t' => Dab 0 b F (t', z) := by
    funext t'
    rw [second]
  rw [e, first]

end Booz.Trapezoid
