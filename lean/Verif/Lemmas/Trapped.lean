import Mathlib.Analysis.SpecialFunctions.Integrals.Basic
import Mathlib.MeasureTheory.Integral.DominatedConvergence
import Verif.Lemmas.ParsevalFinite
import Verif.Props.BoozerAngles
import Verif.Spec.Trapped

/-!
# The fraction of trapped particles depends continuously on |B|
-/

namespace Booz.Trapezoid
open Function Spec MeasureTheory Filter Topology

/-- Means of functions that converge at each point and are bounded. -/
theorem mean2_tendsto {Fk : ℕ → ℝ × ℝ → ℝ} {F : ℝ × ℝ → ℝ} (ck : ∀ k, Continuous (Fk k)) (cF : Continuous F) {B : ℝ}
    (hb : ∀ k x, |Fk k x| ≤ B) (ht : ∀ x, Tendsto (fun k => Fk k x) atTop (𝓝 (F x))) :
    Tendsto (fun k => mean2 τ τ (Fk k)) atTop (𝓝 (mean2 τ τ F)) := by
  simp only [mean2_box tau_pos tau_pos cF, fun k => mean2_box tau_pos tau_pos (ck k)]
  refine Tendsto.div_const ?_ _
  refine tendsto_integral_of_dominated_convergence (fun _ => B) (fun k => (ck k).aestronglyMeasurable) ?_
    (fun k => .of_forall (hb k)) (.of_forall ht)
  have : IntegrableOn (fun _ : ℝ × ℝ => B) (Set.Ioc (0 : ℝ) τ ×ˢ Set.Ioc (0 : ℝ) τ) :=
    ((continuous_const.continuousOn (s := Set.Icc (0 : ℝ) τ ×ˢ Set.Icc (0 : ℝ) τ)).integrableOn_compact
      ((isCompact_Icc (a := (0 : ℝ)) (b := τ)).prod isCompact_Icc)).mono_set
      (Set.prod_mono Set.Ioc_subset_Icc_self Set.Ioc_subset_Icc_self)
  exact this

/-- The weighted mean of a function of |B|. -/
noncomputable def wmean (G : ℝ × ℝ → ℝ) (Φ : ℝ → ℝ) : ℝ := mean2 τ τ fun x => Φ (G x) / G x ^ 2

theorem boozerAverage_eq (b : ℝ → ℝ → ℝ) (Φ : ℝ → ℝ) :
    boozerAverage b Φ = wmean (uncurry b) Φ / wmean (uncurry b) fun _ => 1 := by
  unfold wmean
  rw [mean2_tau, mean2_tau, mul_div_mul_left _ _ (by positivity)]
  rfl

section
variable {G : ℝ × ℝ → ℝ} {m : ℝ}

theorem wcont (cG : Continuous G) (h0 : ∀ x, 0 < G x) {Φ : ℝ → ℝ} (cΦ : Continuous Φ) :
    Continuous fun x => Φ (G x) / G x ^ 2 :=
  (cΦ.comp cG).div (cG.pow 2) fun x => (pow_pos (h0 x) 2).ne'

theorem wmean_pos (cG : Continuous G) (h0 : ∀ x, 0 < G x) (hm : ∀ x, G x ≤ m) : 0 < wmean G fun _ => 1 := by
  have m0 : 0 < m := (h0 0).trans_le (hm 0)
  have := mean2_mono (F := fun _ => 1 / m ^ 2 * 1) continuous_const (wcont cG h0 continuous_const) (fun x => by
    rw [mul_one]
    exact one_div_le_one_div_of_le (pow_pos (h0 x) 2) (pow_le_pow_left₀ (h0 x).le (hm x) 2))
  rw [mean2_smul, mean2_one tau_pos tau_pos, mul_one] at this
  exact lt_of_lt_of_le (by positivity) this

theorem sqrt_cont (l : ℝ) : Continuous fun x : ℝ => √(1 - l * x) := by fun_prop

/-- The average of √(1 - y B / Bmax). -/
noncomputable def passing (G : ℝ × ℝ → ℝ) (m y : ℝ) : ℝ :=
  wmean G (fun x => √(1 - y / m * x)) / wmean G fun _ => 1

theorem passing_antitone (cG : Continuous G) (h0 : ∀ x, 0 < G x) (hm : ∀ x, G x ≤ m) : Antitone (passing G m) := by
  have m0 : 0 < m := (h0 0).trans_le (hm 0)
  intro y y' hy
  refine div_le_div_of_nonneg_right ?_ (wmean_pos cG h0 hm).le
  refine mean2_mono (wcont cG h0 (sqrt_cont _)) (wcont cG h0 (sqrt_cont _)) fun x => ?_
  refine div_le_div_of_nonneg_right (Real.sqrt_le_sqrt ?_) (by positivity)
  have : y / m * G x ≤ y' / m * G x :=
    mul_le_mul_of_nonneg_right (div_le_div_of_nonneg_right hy m0.le) (h0 x).le
  linarith

theorem passing_ge (cG : Continuous G) (h0 : ∀ x, 0 < G x) (hm : ∀ x, G x ≤ m) {y : ℝ} (hy : 0 ≤ y) :
    √(1 - y) ≤ passing G m y := by
  have m0 : 0 < m := (h0 0).trans_le (hm 0)
  unfold passing
  rw [le_div_iff₀ (wmean_pos cG h0 hm)]
  have := mean2_mono (F := fun x => √(1 - y) * (1 / G x ^ 2))
    (continuous_const.mul (wcont cG h0 (Φ := fun _ => 1) continuous_const))
    (wcont cG h0 (sqrt_cont (y / m))) (fun x => by
      rw [mul_one_div]
      refine div_le_div_of_nonneg_right (Real.sqrt_le_sqrt ?_) (by positivity)
      have : y / m * G x ≤ y := by
        rw [div_mul_eq_mul_div, div_le_iff₀ m0]
        exact mul_le_mul_of_nonneg_left (hm x) hy
      linarith)
  rw [mean2_smul] at this
  exact this

/-- The integral over λ, with λ in units of 1/Bmax. -/
theorem trapped_eq (b : ℝ → ℝ → ℝ) (hm : 0 < m) : trappedFraction (boozerAverage b) m =
    1 - 3 / 4 * (wmean (uncurry b) (fun x => x ^ 2) / wmean (uncurry b) fun _ => 1) *
      (1 / m * ∫ y in (0 : ℝ)..1, y / m / passing (uncurry b) m y) := by
  unfold trappedFraction
  rw [boozerAverage_eq]
  congr 2
  have := intervalIntegral.integral_comp_div (a := 0) (b := 1)
    (fun l => l / boozerAverage b fun x => √(1 - l * x)) hm.ne'
  rw [zero_div, smul_eq_mul] at this
  have e : (∫ y in (0 : ℝ)..1, y / m / passing (uncurry b) m y) =
      ∫ y in (0 : ℝ)..1, y / m / boozerAverage b fun x => √(1 - y / m * x) := by
    simp only [boozerAverage_eq]
    rfl
  rw [e, this, ← mul_assoc, one_div_mul_cancel hm.ne', one_mul]

end

/-- The fraction of trapped particles depends continuously on |B|. -/
theorem trapped_tendsto {Gk : ℕ → ℝ → ℝ → ℝ} {F : ℝ → ℝ → ℝ} {mk : ℕ → ℝ} {m β : ℝ} (hβ : 0 < β)
    (ck : ∀ k, Continuous (uncurry (Gk k))) (cF : Continuous (uncurry F)) (hF : ∀ x, β ≤ uncurry F x)
    (hk : ∀ k x, β ≤ uncurry (Gk k) x) (hm : ∀ x, uncurry F x ≤ m) (hmk : ∀ k x, uncurry (Gk k) x ≤ mk k)
    (ht : ∀ x, Tendsto (fun k => uncurry (Gk k) x) atTop (𝓝 (uncurry F x))) (htm : Tendsto mk atTop (𝓝 m)) :
    Tendsto (fun k => trappedFraction (boozerAverage (Gk k)) (mk k)) atTop (𝓝 (trappedFraction (boozerAverage F) m)) := by
  have F0 : ∀ x, 0 < uncurry F x := fun x => hβ.trans_le (hF x)
  have G0 : ∀ k x, 0 < uncurry (Gk k) x := fun k x => hβ.trans_le (hk k x)
  have m0 : 0 < m := (F0 0).trans_le (hm 0)
  have mk0 : ∀ k, 0 < mk k := fun k => (G0 k 0).trans_le (hmk k 0)
  have mkβ : ∀ k, β ≤ mk k := fun k => (hk k 0).trans (hmk k 0)
  simp only [fun k => trapped_eq (Gk k) (mk0 k), trapped_eq F m0]
  -- means with continuous functions Φ_k
  have W : ∀ (Φk : ℕ → ℝ → ℝ) (Φ : ℝ → ℝ) (B : ℝ), (∀ k, Continuous (Φk k)) → Continuous Φ →
      (∀ k x, |Φk k (uncurry (Gk k) x) / uncurry (Gk k) x ^ 2| ≤ B) →
      (∀ x, Tendsto (fun k => Φk k (uncurry (Gk k) x)) atTop (𝓝 (Φ (uncurry F x)))) →
      Tendsto (fun k => wmean (uncurry (Gk k)) (Φk k)) atTop (𝓝 (wmean (uncurry F) Φ)) := by
    intro Φk Φ B h1 h2 h3 h4
    refine mean2_tendsto (fun k => wcont (ck k) (G0 k) (h1 k)) (wcont cF F0 h2) h3 fun x => ?_
    exact (h4 x).div ((ht x).pow 2) (pow_pos (F0 x) 2).ne'
  have le1 : ∀ (k : ℕ) (x : ℝ × ℝ) (a : ℝ), 0 ≤ a → a ≤ 1 → |a / uncurry (Gk k) x ^ 2| ≤ 1 / β ^ 2 := by
    intro k x a h1 h2
    rw [abs_of_nonneg (by positivity)]
    exact div_le_div₀ zero_le_one h2 (by positivity) (pow_le_pow_left₀ hβ.le (hk k x) 2)
  have w1 : Tendsto (fun k => wmean (uncurry (Gk k)) fun _ => 1) atTop (𝓝 (wmean (uncurry F) fun _ => 1)) :=
    W _ _ (1 / β ^ 2) (fun _ => continuous_const) continuous_const (fun k x => le1 k x 1 zero_le_one le_rfl)
      fun _ => tendsto_const_nhds
  have w2 : Tendsto (fun k => wmean (uncurry (Gk k)) fun x => x ^ 2) atTop (𝓝 (wmean (uncurry F) fun x => x ^ 2)) :=
    W _ _ 1 (fun _ => continuous_pow 2) (continuous_pow 2)
      (fun k x => by rw [div_self (pow_pos (G0 k x) 2).ne', abs_one]) fun x => (ht x).pow 2
  have p0 := (wmean_pos cF F0 hm).ne'
  have pass : ∀ y, 0 ≤ y → Tendsto (fun k => passing (uncurry (Gk k)) (mk k) y) atTop (𝓝 (passing (uncurry F) m y)) := by
    intro y hy
    refine Tendsto.div (W (fun k x => √(1 - y / mk k * x)) (fun x => √(1 - y / m * x)) (1 / β ^ 2)
      (fun k => sqrt_cont _) (sqrt_cont _) (fun k x => ?_) fun x => ?_) w1 p0
    · refine le1 k x _ (Real.sqrt_nonneg _) (Real.sqrt_le_one.2 ?_)
      have : 0 ≤ y / mk k * uncurry (Gk k) x := mul_nonneg (div_nonneg hy (mk0 k).le) (G0 k x).le
      linarith
    · exact (Real.continuous_sqrt.tendsto _).comp
        (tendsto_const_nhds.sub (((tendsto_const_nhds (x := y)).div htm m0.ne').mul (ht x)))
  have J : Tendsto (fun k => ∫ y in (0 : ℝ)..1, y / mk k / passing (uncurry (Gk k)) (mk k) y) atTop
      (𝓝 (∫ y in (0 : ℝ)..1, y / m / passing (uncurry F) m y)) := by
    refine intervalIntegral.tendsto_integral_filter_of_dominated_convergence
      (fun y => 1 / β * (1 - y) ^ (-(1 / 2) : ℝ)) (.of_forall fun k => ?_) (.of_forall fun k => ?_) ?_ ?_
    · exact ((measurable_id.div_const _).div (passing_antitone (ck k) (G0 k) (hmk k)).measurable).aestronglyMeasurable
    · filter_upwards [compl_mem_ae_iff.2 (measure_singleton (1 : ℝ))] with y hy1 hy
      rw [Set.uIoc_of_le zero_le_one] at hy
      have y1 : y < 1 := lt_of_le_of_ne hy.2 hy1
      have s0 : 0 < √(1 - y) := Real.sqrt_pos.2 (by linarith)
      have hp := passing_ge (ck k) (G0 k) (hmk k) hy.1.le
      have p1 : 0 < passing (uncurry (Gk k)) (mk k) y := s0.trans_le hp
      have a0 : 0 ≤ y / mk k := div_nonneg hy.1.le (mk0 k).le
      rw [Real.norm_of_nonneg (div_nonneg a0 p1.le), Real.rpow_neg (by linarith), ← Real.sqrt_eq_rpow, ← div_eq_mul_inv]
      exact div_le_div₀ (by positivity) (div_le_div₀ zero_le_one hy.2 hβ (mkβ k)) s0 hp
    · refine IntervalIntegrable.const_mul ?_ _
      have := (intervalIntegral.intervalIntegrable_rpow' (a := 0) (b := 1) (r := -(1 / 2)) (by norm_num)).comp_sub_left 1
      simpa using this.symm
    · filter_upwards [compl_mem_ae_iff.2 (measure_singleton (1 : ℝ))] with y hy1 hy
      rw [Set.uIoc_of_le zero_le_one] at hy
      have y1 : y < 1 := lt_of_le_of_ne hy.2 hy1
      have s0 : 0 < √(1 - y) := Real.sqrt_pos.2 (by linarith)
      have p1 : 0 < passing (uncurry F) m y := s0.trans_le (passing_ge cF F0 hm hy.1.le)
      exact ((tendsto_const_nhds (x := y)).div htm m0.ne').div (pass y hy.1.le) p1.ne'
  exact tendsto_const_nhds.sub ((tendsto_const_nhds.mul (w2.div w1 p0)).mul
    (((tendsto_const_nhds (x := (1 : ℝ))).div htm m0.ne').mul J))

end Booz.Trapezoid
