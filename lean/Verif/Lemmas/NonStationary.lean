import Verif.Lemmas.Smooth
import Mathlib.Analysis.Fourier.AddCircle
import Mathlib.MeasureTheory.Integral.IntervalIntegral.IntegrationByParts
import Mathlib.Analysis.SpecialFunctions.Trigonometric.Deriv
import Mathlib.Analysis.SpecialFunctions.ExpDeriv
import Mathlib.Analysis.PSeries

/-!
# Oscillating integrals and aliasing, uniformly in the frequency

Families of functions with uniform bounds for their derivatives; integrals of `e^{iψ} g` when `ψ'` is large and
does not vanish; error of the trapezoidal rule for `g cos ψ` when `|ψ'|` stays below the frequency of the grid.
-/

namespace Booz.Trapezoid
open Finset Function

variable {ι : Type*}

/-! ### Families with uniformly bounded derivatives -/

/-- The functions of the family and their derivatives up to order `p` are bounded uniformly. -/
def Bdd : ℕ → (ι → ℝ → ℝ) → Prop
  | 0, f => ∃ C, ∀ i x, |f i x| ≤ C
  | p + 1, f => (∃ C, ∀ i x, |f i x| ≤ C) ∧ ∃ f' : ι → ℝ → ℝ, (∀ i x, HasDerivAt (f i) (f' i x) x) ∧ Bdd p f'

theorem Bdd.bound {p : ℕ} {f : ι → ℝ → ℝ} (h : Bdd p f) : ∃ C, ∀ i x, |f i x| ≤ C := by
  cases p with
  | zero => exact h
  | succ p => exact h.1

theorem Bdd.pred {p : ℕ} : ∀ {f : ι → ℝ → ℝ}, Bdd (p + 1) f → Bdd p f := by
  induction p with
  | zero => exact fun h => h.1
  | succ p ih =>
    rintro f ⟨h1, f', h2, h3⟩
    exact ⟨h1, f', h2, ih h3⟩

theorem Bdd.add {p : ℕ} : ∀ {f g : ι → ℝ → ℝ}, Bdd p f → Bdd p g → Bdd p fun i x => f i x + g i x := by
  have b : ∀ {f g : ι → ℝ → ℝ}, (∃ C, ∀ i x, |f i x| ≤ C) → (∃ C, ∀ i x, |g i x| ≤ C) →
      ∃ C, ∀ i x, |f i x + g i x| ≤ C := by
    rintro f g ⟨C, hC⟩ ⟨D, hD⟩
    exact ⟨C + D, fun i x => (abs_add_le _ _).trans (add_le_add (hC i x) (hD i x))⟩
  induction p with
  | zero => exact b
  | succ p ih =>
    rintro f g ⟨f1, f', f2, f3⟩ ⟨g1, g', g2, g3⟩
    exact ⟨b f1 g1, _, fun i x => (f2 i x).add (g2 i x), ih f3 g3⟩

theorem Bdd.mul {p : ℕ} : ∀ {f g : ι → ℝ → ℝ}, Bdd p f → Bdd p g → Bdd p fun i x => f i x * g i x := by
  have b : ∀ {f g : ι → ℝ → ℝ}, (∃ C, ∀ i x, |f i x| ≤ C) → (∃ C, ∀ i x, |g i x| ≤ C) →
      ∃ C, ∀ i x, |f i x * g i x| ≤ C := by
    rintro f g ⟨C, hC⟩ ⟨D, hD⟩
    refine ⟨C * D, fun i x => ?_⟩
    rw [abs_mul]
    exact mul_le_mul (hC i x) (hD i x) (abs_nonneg _) ((abs_nonneg _).trans (hC i x))
  induction p with
  | zero => exact b
  | succ p ih =>
    intro f g hf hg
    obtain ⟨f1, f', f2, f3⟩ := hf
    obtain ⟨g1, g', g2, g3⟩ := hg
    refine ⟨b f1 g1, _, fun i x => (f2 i x).mul (g2 i x), ?_⟩
    exact (ih f3 (Bdd.pred ⟨g1, g', g2, g3⟩)).add (ih (Bdd.pred ⟨f1, f', f2, f3⟩) g3)

theorem Bdd.const {c : ι → ℝ} {C : ℝ} (h : ∀ i, |c i| ≤ C) (p : ℕ) : Bdd p fun i _ => c i := by
  have z : ∀ p, Bdd p fun (_ : ι) (_ : ℝ) => (0 : ℝ) := by
    intro p
    induction p with
    | zero => exact ⟨0, fun _ _ => by simp⟩
    | succ p ih => exact ⟨⟨0, fun _ _ => by simp⟩, _, fun _ _ => hasDerivAt_const _ _, ih⟩
  cases p with
  | zero => exact ⟨C, fun i _ => h i⟩
  | succ p => exact ⟨⟨C, fun i _ => h i⟩, _, fun _ _ => hasDerivAt_const _ _, z p⟩

/-- Reciprocals of functions bounded away from zero. -/
theorem Bdd.inv {δ : ℝ} (hδ : 0 < δ) {f : ι → ℝ → ℝ} (hf : ∀ i x, δ ≤ |f i x|) {p : ℕ} :
    Bdd p f → Bdd p fun i x => (f i x)⁻¹ := by
  have b : ∃ C, ∀ i x, |(f i x)⁻¹| ≤ C := by
    refine ⟨δ⁻¹, fun i x => ?_⟩
    rw [abs_inv]
    exact inv_anti₀ hδ (hf i x)
  induction p with
  | zero => exact fun _ => b
  | succ p ih =>
    intro h
    obtain ⟨-, f', f2, f3⟩ := id h
    have r := ih h.pred
    refine ⟨b, fun i x => -1 * f' i x * ((f i x)⁻¹ * (f i x)⁻¹), fun i x => ?_, ?_⟩
    · have h0 : f i x ≠ 0 := fun e => by
        have := hf i x
        rw [e, abs_zero] at this
        linarith
      have := (f2 i x).inv h0
      have e : -f' i x / f i x ^ 2 = -1 * f' i x * ((f i x)⁻¹ * (f i x)⁻¹) := by
        field_simp
      rw [e] at this
      exact this
    · exact ((Bdd.const (C := 1) (fun _ => by simp) p).mul f3).mul (r.mul r)

theorem Bdd.reindex {κ : Type*} (g : κ → ι) {p : ℕ} : ∀ {f : ι → ℝ → ℝ}, Bdd p f → Bdd p fun j x => f (g j) x := by
  induction p with
  | zero => rintro f ⟨C, hC⟩; exact ⟨C, fun j x => hC _ _⟩
  | succ p ih =>
    rintro f ⟨⟨C, hC⟩, f', f2, f3⟩
    exact ⟨⟨C, fun j x => hC _ _⟩, _, fun j x => f2 (g j) x, ih f3⟩

theorem Bdd.continuous {p : ℕ} {f : ι → ℝ → ℝ} (h : Bdd (p + 1) f) (i : ι) : Continuous (f i) := by
  obtain ⟨-, f', h, -⟩ := h
  exact continuous_iff_continuousAt.2 fun x => (h i x).continuousAt

theorem periodic_deriv {f f' : ℝ → ℝ} {T : ℝ} (h : ∀ x, HasDerivAt f (f' x) x) (hp : Periodic f T) : Periodic f' T := by
  intro x
  have h1 := (h (x + T)).comp_add_const x T
  have h2 : (fun y => f (y + T)) = f := funext hp
  rw [h2] at h1
  exact h1.unique (h x)

/-! ### Integration by parts -/

/-- Integrals over a period of `e^{iψ} g` with `ψ' = κ w`, `w` bounded away from zero, decrease faster than
every power of `κ`. -/
theorem oscillating {T : ℝ} (hT : 0 < T) {ψ w : ι → ℝ → ℝ} {κ : ι → ℝ} {δ : ℝ} (hδ : 0 < δ) (hκ : ∀ i, κ i ≠ 0)
    (hψ : ∀ i x, HasDerivAt (ψ i) (κ i * w i x) x)
    (hper : ∀ i x, Complex.exp (ψ i (x + T) * Complex.I) = Complex.exp (ψ i x * Complex.I))
    (hw : ∀ p, Bdd p w) (hwp : ∀ i, Periodic (w i) T) (hw0 : ∀ i x, δ ≤ |w i x|) (p : ℕ) :
    ∀ g : ι → ℝ → ℝ, Bdd (p + 1) g → (∀ i, Periodic (g i) T) →
    ∃ C, 0 ≤ C ∧ ∀ i, ‖∫ x in (0 : ℝ)..T, Complex.exp (ψ i x * Complex.I) * g i x‖ ≤ C / |κ i| ^ p := by
  induction p with
  | zero =>
    intro g hg _
    obtain ⟨C, hC⟩ := hg.bound
    refine ⟨|C| * T, by positivity, fun i => ?_⟩
    have := intervalIntegral.norm_integral_le_of_norm_le_const (a := (0 : ℝ)) (b := T) (C := |C|)
      (f := fun x => Complex.exp (ψ i x * Complex.I) * g i x) fun x _ => by
        rw [norm_mul, Complex.norm_exp_ofReal_mul_I, one_mul, Complex.norm_real, Real.norm_eq_abs]
        exact (hC i x).trans (le_abs_self C)
    rw [sub_zero, abs_of_pos hT] at this
    rw [pow_zero, div_one]
    exact this
  | succ p ih =>
    intro g hg hgp
    have hr := Bdd.inv hδ hw0 (hw (p + 2))
    obtain ⟨-, h', d, hb⟩ := hg.mul hr
    have hpp : ∀ i, Periodic (fun x => g i x * (w i x)⁻¹) T := fun i x =>
      congrArg₂ (fun a b => a * b⁻¹) (hgp i x) (hwp i x)
    obtain ⟨C, hC0, hC⟩ := ih h' hb fun i => periodic_deriv (d i) (hpp i)
    refine ⟨C, hC0, fun i => ?_⟩
    have hw' : ∀ x, w i x ≠ 0 := fun x e => by
      have := hw0 i x
      rw [e, abs_zero] at this
      linarith
    have dE : ∀ x, HasDerivAt (fun x : ℝ => Complex.exp (ψ i x * Complex.I))
        (Complex.exp (ψ i x * Complex.I) * ((κ i * w i x : ℝ) * Complex.I)) x := fun x =>
      ((hψ i x).ofReal_comp.mul_const Complex.I).cexp
    have dH : ∀ x, HasDerivAt (fun x : ℝ => ((g i x * (w i x)⁻¹ : ℝ) : ℂ)) (h' i x) x := fun x => (d i x).ofReal_comp
    have cw : Continuous (w i) := (hw 1).continuous i
    have cψ : Continuous (ψ i) := continuous_iff_continuousAt.2 fun x => (hψ i x).continuousAt
    have cE : Continuous fun x : ℝ => Complex.exp (ψ i x * Complex.I) :=
      Complex.continuous_exp.comp ((Complex.continuous_ofReal.comp cψ).mul continuous_const)
    have ch : Continuous (h' i) := hb.continuous i
    have parts := intervalIntegral.integral_mul_deriv_eq_deriv_mul (a := (0 : ℝ)) (b := T)
      (u := fun x : ℝ => ((g i x * (w i x)⁻¹ : ℝ) : ℂ)) (v := fun x : ℝ => Complex.exp (ψ i x * Complex.I))
      (fun x _ => dH x) (fun x _ => dE x) ((Complex.continuous_ofReal.comp ch).intervalIntegrable _ _)
      ((cE.mul ((Complex.continuous_ofReal.comp (continuous_const.mul cw)).mul continuous_const)).intervalIntegrable _ _)
    have e0 : Complex.exp (ψ i T * Complex.I) = Complex.exp (ψ i 0 * Complex.I) := by
      have := hper i 0
      rwa [zero_add] at this
    have e1 : g i T * (w i T)⁻¹ = g i 0 * (w i 0)⁻¹ := by
      have := hpp i 0
      simp only [zero_add] at this
      exact this
    rw [e0, e1, sub_self, zero_sub] at parts
    have e2 : (fun x : ℝ => ((g i x * (w i x)⁻¹ : ℝ) : ℂ) * (Complex.exp (ψ i x * Complex.I) * ((κ i * w i x : ℝ) * Complex.I))) =
        fun x : ℝ => (κ i * Complex.I) * (Complex.exp (ψ i x * Complex.I) * g i x) := by
      funext x
      have : (w i x : ℂ) ≠ 0 := by exact_mod_cast hw' x
      push_cast
      field_simp
    rw [e2, intervalIntegral.integral_const_mul] at parts
    have e3 : (fun x : ℝ => (h' i x : ℂ) * Complex.exp (ψ i x * Complex.I)) = fun x : ℝ => Complex.exp (ψ i x * Complex.I) * h' i x := by
      funext x
      ring
    rw [e3] at parts
    have nrm := congrArg norm parts
    rw [norm_neg, norm_mul, norm_mul, Complex.norm_real, Complex.norm_I, mul_one, Real.norm_eq_abs] at nrm
    have k0 : 0 < |κ i| := abs_pos.2 (hκ i)
    have fin := hC i
    rw [← nrm] at fin
    rw [le_div_iff₀ (pow_pos k0 _)] at fin ⊢
    rw [pow_succ]
    linarith

/-! ### Aliasing -/

/-- Fourier coefficient `k` of a function of period `T`. -/
noncomputable def coeff (T : ℝ) (f : ℝ → ℝ) (k : ℤ) : ℂ :=
  (1 / T : ℝ) * ∫ x in (0 : ℝ)..T, Complex.exp ((-(2 * Real.pi * k / T) * x : ℝ) * Complex.I) * f x

theorem exp_sum {n : ℕ} (hn : 1 ≤ n) (k : ℤ) :
    (∑ j ∈ range n, Complex.exp (2 * Real.pi * Complex.I * k * j / n)) / n = if (n : ℤ) ∣ k then 1 else 0 := by
  have hn0 : (n : ℂ) ≠ 0 := by exact_mod_cast (by omega : n ≠ 0)
  set z : ℂ := Complex.exp (2 * Real.pi * Complex.I * (k / n)) with hz
  have e : ∀ j : ℕ, Complex.exp (2 * Real.pi * Complex.I * k * j / n) = z ^ j := by
    intro j
    rw [hz, ← Complex.exp_nat_mul]
    congr 1
    ring
  simp only [e]
  have hzn : z ^ n = 1 := by
    rw [hz, ← Complex.exp_nat_mul, show (n : ℂ) * (2 * Real.pi * Complex.I * (k / n)) = k * (2 * Real.pi * Complex.I) by
      field_simp]
    exact Complex.exp_int_mul_two_pi_mul_I k
  split
  · rename_i h
    obtain ⟨c, rfl⟩ := h
    have z1 : z = 1 := by
      rw [hz, show 2 * Real.pi * Complex.I * (((n * c : ℤ) : ℂ) / n) = c * (2 * Real.pi * Complex.I) by
        push_cast
        field_simp]
      exact Complex.exp_int_mul_two_pi_mul_I c
    rw [z1]
    simp [hn0]
  · rename_i h
    have z1 : z ≠ 1 := by
      intro e1
      rw [hz, Complex.exp_eq_one_iff] at e1
      obtain ⟨c, hc⟩ := e1
      have h2 : (2 * Real.pi * Complex.I : ℂ) ≠ 0 := Complex.two_pi_I_ne_zero
      rw [mul_comm, mul_left_inj' h2, div_eq_iff hn0] at hc
      exact h ⟨c, by exact_mod_cast (hc.trans (mul_comm _ _))⟩
    rw [geom_sum_eq z1, hzn, sub_self, zero_div, zero_div]

/-- **Aliasing.** The error of the trapezoidal rule is the sum of the coefficients at the nonzero multiples of
the number of points. -/
theorem aliasing {T : ℝ} (hT : 0 < T) {f : ℝ → ℝ} (hf : Periodic f T) (hc : Continuous f)
    (hs : Summable fun k => ‖coeff T f k‖) {n : ℕ} (hn : 1 ≤ n) :
    |avg T n f 0 - mean T f| ≤ ∑' a : ℤ, if a = 0 then 0 else ‖coeff T f (a * n)‖ := by
  haveI : Fact (0 < T) := ⟨hT⟩
  have hn0 : (n : ℝ) ≠ 0 := by positivity
  have hnz : (n : ℤ) ≠ 0 := by omega
  have hfC : Periodic (fun x => (f x : ℂ)) T := fun x => by show (f (x + T) : ℂ) = f x; rw [hf x]
  let F : C(AddCircle T, ℂ) := ⟨hfC.lift, by
    refine continuous_coinduced_dom.2 ?_
    exact Complex.continuous_ofReal.comp hc⟩
  have hF : ∀ x : ℝ, F (x : AddCircle T) = f x := fun x => rfl
  have hco : ∀ k, fourierCoeff F k = coeff T f k := by
    intro k
    rw [fourierCoeff_eq_intervalIntegral _ _ 0, zero_add]
    unfold coeff
    rw [Complex.real_smul]
    congr 1
    refine intervalIntegral.integral_congr fun x _ => ?_
    simp only [hF, smul_eq_mul, fourier_coe_apply]
    congr 2
    push_cast
    ring
  have hsum : Summable (fourierCoeff F) := by
    refine Summable.of_norm ?_
    simp only [hco]
    exact hs
  have pt := fun j : ℕ => has_pointwise_sum_fourier_series_of_summable hsum ((0 + T * j / n : ℝ) : AddCircle T)
  have tot := (hasSum_sum fun j (_ : j ∈ range n) => pt j).div_const (n : ℂ)
  have ev : ∀ k : ℤ, (∑ j ∈ range n, fourierCoeff F k • fourier k ((0 + T * j / n : ℝ) : AddCircle T)) / n =
      if (n : ℤ) ∣ k then coeff T f k else 0 := by
    intro k
    simp only [hco, smul_eq_mul]
    rw [← mul_sum, mul_div_assoc]
    have : ∀ j : ℕ, fourier k ((0 + T * j / n : ℝ) : AddCircle T) = Complex.exp (2 * Real.pi * Complex.I * k * j / n) := by
      intro j
      rw [fourier_coe_apply]
      congr 1
      have : (T : ℂ) ≠ 0 := by exact_mod_cast hT.ne'
      push_cast
      field_simp
      ring
    simp only [this]
    rw [exp_sum hn]
    split <;> simp
  simp only [ev, hF] at tot
  have eavg : (∑ j ∈ range n, (f (0 + T * j / n) : ℂ)) / n = ((avg T n f 0 : ℝ) : ℂ) := by
    unfold avg
    push_cast
    rfl
  rw [eavg] at tot
  have e0 : coeff T f 0 = ((mean T f : ℝ) : ℂ) := by
    unfold coeff mean
    simp only [Int.cast_zero, mul_zero, zero_div, neg_zero, zero_mul, Complex.ofReal_zero, Complex.exp_zero, one_mul]
    rw [intervalIntegral.integral_ofReal]
    push_cast
    ring
  have rest : HasSum (fun k : ℤ => if k ≠ 0 ∧ (n : ℤ) ∣ k then coeff T f k else 0) ((avg T n f 0 - mean T f : ℝ) : ℂ) := by
    have h0 : HasSum (fun k : ℤ => if k = 0 then coeff T f 0 else 0) (coeff T f 0) := hasSum_ite_eq 0 _
    have := tot.sub h0
    rw [Complex.ofReal_sub, ← e0]
    have e : (fun k : ℤ => if k ≠ 0 ∧ (n : ℤ) ∣ k then coeff T f k else 0) =
        fun k : ℤ => (if (n : ℤ) ∣ k then coeff T f k else 0) - if k = 0 then coeff T f 0 else 0 := by
      funext k
      by_cases h1 : k = 0
      · subst h1
        simp
      · simp [h1]
    rw [e]
    exact this
  have nsum : Summable fun k : ℤ => ‖if k ≠ 0 ∧ (n : ℤ) ∣ k then coeff T f k else 0‖ := by
    refine Summable.of_nonneg_of_le (fun _ => norm_nonneg _) (fun k => ?_) hs
    split
    · exact le_rfl
    · rw [norm_zero]
      exact norm_nonneg _
  have b := norm_tsum_le_tsum_norm nsum
  rw [rest.tsum_eq, Complex.norm_real, Real.norm_eq_abs] at b
  refine b.trans (le_of_eq ?_)
  have inj : Injective fun a : ℤ => a * n := fun a c h => mul_right_cancel₀ hnz h
  rw [← inj.tsum_eq (f := fun k : ℤ => ‖if k ≠ 0 ∧ (n : ℤ) ∣ k then coeff T f k else 0‖)]
  · refine tsum_congr fun a => ?_
    by_cases h : a = 0
    · simp [h]
    · rw [if_neg h, if_pos ⟨mul_ne_zero h hnz, dvd_mul_left _ _⟩]
  · intro k hk
    rw [mem_support] at hk
    by_contra h
    refine hk ?_
    rw [if_neg, norm_zero]
    rintro ⟨-, c, rfl⟩
    exact h ⟨c, mul_comm _ _⟩

/-- Fourier coefficients of `g cos ψ`, by the phases `± ψ - 2π k x / T`. -/
theorem coeff_cos {T : ℝ} {ψ g : ℝ → ℝ} (hT : 0 < T) (hψ : Continuous ψ) (hg : Continuous g) (k : ℤ) :
    ‖coeff T (fun x => g x * Real.cos (ψ x)) k‖ ≤ 1 / (2 * T) *
      (‖∫ x in (0 : ℝ)..T, Complex.exp ((ψ x - 2 * Real.pi * k / T * x : ℝ) * Complex.I) * g x‖ +
        ‖∫ x in (0 : ℝ)..T, Complex.exp ((-ψ x - 2 * Real.pi * k / T * x : ℝ) * Complex.I) * g x‖) := by
  have c : ∀ φ : ℝ → ℝ, Continuous φ → Continuous fun x : ℝ => Complex.exp ((φ x : ℝ) * Complex.I) * (g x : ℂ) := fun φ hφ =>
    (Complex.continuous_exp.comp ((Complex.continuous_ofReal.comp hφ).mul continuous_const)).mul
      (Complex.continuous_ofReal.comp hg)
  have e : (fun x : ℝ => Complex.exp ((-(2 * Real.pi * k / T) * x : ℝ) * Complex.I) * ((g x * Real.cos (ψ x) : ℝ) : ℂ)) =
      fun x : ℝ => (1 / 2 : ℂ) * (Complex.exp ((ψ x - 2 * Real.pi * k / T * x : ℝ) * Complex.I) * g x +
        Complex.exp ((-ψ x - 2 * Real.pi * k / T * x : ℝ) * Complex.I) * g x) := by
    funext x
    have e1 : ((ψ x - 2 * Real.pi * k / T * x : ℝ) : ℂ) * Complex.I =
        (-(2 * Real.pi * k / T) * x : ℝ) * Complex.I + (ψ x : ℂ) * Complex.I := by push_cast; ring
    have e2 : ((-ψ x - 2 * Real.pi * k / T * x : ℝ) : ℂ) * Complex.I =
        (-(2 * Real.pi * k / T) * x : ℝ) * Complex.I + -(ψ x : ℂ) * Complex.I := by push_cast; ring
    rw [e1, e2, Complex.exp_add, Complex.exp_add, Complex.ofReal_mul (g x), Complex.ofReal_cos, Complex.cos]
    ring
  unfold coeff
  rw [e, intervalIntegral.integral_const_mul, intervalIntegral.integral_add ((c _ (by fun_prop)).intervalIntegrable _ _)
    ((c _ (by fun_prop)).intervalIntegrable _ _), norm_mul, norm_mul, Complex.norm_real, Real.norm_eq_abs,
    abs_of_pos (by positivity), ← mul_assoc]
  have h2 : ‖(1 / 2 : ℂ)‖ = 1 / 2 := by norm_num
  rw [h2, show 1 / T * (1 / 2) = 1 / (2 * T) by ring]
  exact mul_le_mul_of_nonneg_left (norm_add_le _ _) (by positivity)

/-- Cosine and sine of a function whose derivatives are bounded. -/
theorem Bdd.cos_sin {ψ d : ι → ℝ → ℝ} (h : ∀ i x, HasDerivAt (ψ i) (d i x) x) {p : ℕ} :
    Bdd p d → Bdd p (fun i x => Real.cos (ψ i x)) ∧ Bdd p fun i x => Real.sin (ψ i x) := by
  have b1 : ∃ C, ∀ i x, |Real.cos (ψ i x)| ≤ C := ⟨1, fun _ _ => Real.abs_cos_le_one _⟩
  have b2 : ∃ C, ∀ i x, |Real.sin (ψ i x)| ≤ C := ⟨1, fun _ _ => Real.abs_sin_le_one _⟩
  induction p with
  | zero => exact fun _ => ⟨b1, b2⟩
  | succ p ih =>
    intro hd
    obtain ⟨hc, hs⟩ := ih hd.pred
    refine ⟨⟨b1, fun i x => -1 * Real.sin (ψ i x) * d i x, fun i x => ?_, ?_⟩,
      b2, fun i x => Real.cos (ψ i x) * d i x, fun i x => (h i x).sin, hc.mul hd.pred⟩
    · have := (h i x).cos
      rw [show -Real.sin (ψ i x) * d i x = -1 * Real.sin (ψ i x) * d i x by ring] at this
      exact this
    · exact ((Bdd.const (C := 1) (fun _ => by simp) p).mul hs).mul hd.pred

/-- Sum over the nonzero integers. -/
noncomputable def zsum (p : ℕ) : ℝ := ∑' a : ℤ, 1 / |(a : ℝ)| ^ p

theorem zsum_summable {p : ℕ} (hp : 2 ≤ p) : Summable fun a : ℤ => 1 / |(a : ℝ)| ^ p := by
  have := ((Real.summable_one_div_int_pow (p := p)).2 (by omega)).abs
  refine this.congr fun a => ?_
  rw [abs_div, abs_one, abs_pow]

/-- The integrals which bound the aliases. -/
theorem alias_integral {T : ℝ} (hT : 0 < T) {ψ u g : ι → ℝ → ℝ} {n : ι → ℕ} {ρ : ℝ} (hρ : ρ < 1) (hn : ∀ i, 1 ≤ n i)
    (hψ : ∀ i x, HasDerivAt (ψ i) (2 * Real.pi * n i / T * u i x) x)
    (hper : ∀ i x, Complex.exp (ψ i (x + T) * Complex.I) = Complex.exp (ψ i x * Complex.I))
    (hu : ∀ p, Bdd p u) (hup : ∀ i, Periodic (u i) T) (hub : ∀ i x, |u i x| ≤ ρ)
    (hg : ∀ p, Bdd p g) (hgp : ∀ i, Periodic (g i) T) (p : ℕ) :
    ∃ C, 0 ≤ C ∧ ∀ i (a : ℤ), a ≠ 0 →
      ‖∫ x in (0 : ℝ)..T, Complex.exp ((ψ i x - 2 * Real.pi * (a * n i : ℤ) / T * x : ℝ) * Complex.I) * g i x‖ ≤
        C * (1 / |(a : ℝ)| ^ p) * (1 / (n i : ℝ)) ^ p := by
  let J := ι × {a : ℤ // a ≠ 0}
  have ha : ∀ j : J, ((j.2 : ℤ) : ℝ) ≠ 0 := fun j => Int.cast_ne_zero.2 j.2.2
  have ha1 : ∀ j : J, 1 ≤ |((j.2 : ℤ) : ℝ)| := fun j => by
    rw [← Int.cast_abs]
    exact_mod_cast Int.one_le_abs j.2.2
  have hn0 : ∀ i, (0 : ℝ) < n i := fun i => by exact_mod_cast hn i
  have hai : ∀ j : J, |(((j.2 : ℤ) : ℝ))⁻¹| ≤ 1 := fun j => by
    rw [abs_inv]
    exact inv_le_one_of_one_le₀ (ha1 j)
  obtain ⟨C, hC0, hC⟩ := oscillating (ι := J) hT
    (ψ := fun j x => ψ j.1 x - 2 * Real.pi * (j.2 * n j.1 : ℤ) / T * x)
    (w := fun j x => ((j.2 : ℤ) : ℝ)⁻¹ * u j.1 x + -1) (κ := fun j => 2 * Real.pi * (j.2 * n j.1 : ℤ) / T) (δ := 1 - ρ)
    (by linarith)
    (fun j => by
      have := hn0 j.1
      have := ha j
      push_cast
      have := Real.pi_ne_zero
      have := hT.ne'
      positivity)
    (fun j x => by
      have := (hψ j.1 x).sub ((hasDerivAt_id x).const_mul (2 * Real.pi * (j.2 * n j.1 : ℤ) / T))
      refine this.congr_deriv ?_
      have := ha j
      push_cast
      field_simp
      ring)
    (fun j x => by
      have e : (((ψ j.1 (x + T) - 2 * Real.pi * (j.2 * n j.1 : ℤ) / T * (x + T) : ℝ) : ℂ)) * Complex.I =
          ψ j.1 (x + T) * Complex.I - (2 * Real.pi * (j.2 * n j.1 : ℤ) / T * x : ℝ) * Complex.I -
            (j.2 * n j.1 : ℤ) * (2 * Real.pi * Complex.I) := by
        have : (T : ℂ) ≠ 0 := by exact_mod_cast hT.ne'
        push_cast
        field_simp
        ring
      rw [e, Complex.exp_sub, Complex.exp_int_mul_two_pi_mul_I, div_one, Complex.exp_sub, hper, ← Complex.exp_sub]
      congr 1
      push_cast
      ring)
    (fun p => ((Bdd.const hai p).mul ((hu p).reindex Prod.fst)).add (Bdd.const (C := 1) (fun _ => by simp) p))
    (fun j x => by simp only [hup j.1 x])
    (fun j x => by
      have h1 : |((j.2 : ℤ) : ℝ)⁻¹ * u j.1 x| ≤ ρ := by
        rw [abs_mul]
        calc _ ≤ 1 * |u j.1 x| := mul_le_mul_of_nonneg_right (hai j) (abs_nonneg _)
          _ ≤ ρ := by rw [one_mul]; exact hub _ _
      have h2 := neg_le_abs (((j.2 : ℤ) : ℝ)⁻¹ * u j.1 x + -1)
      have h3 := le_abs_self (((j.2 : ℤ) : ℝ)⁻¹ * u j.1 x)
      linarith)
    p (fun j x => g j.1 x) ((hg (p + 1)).reindex Prod.fst) (fun j => hgp j.1)
  refine ⟨C * (T / (2 * Real.pi)) ^ p, by positivity, fun i a h => (hC (i, ⟨a, h⟩)).trans (le_of_eq ?_)⟩
  have := hn0 i
  have hpi := Real.pi_pos
  rw [show |2 * Real.pi * ((a * n i : ℤ) : ℝ) / T| = 2 * Real.pi * (|(a : ℝ)| * n i) / T by
    push_cast
    rw [abs_div, abs_mul (2 * Real.pi), abs_mul (a : ℝ), abs_of_pos hT, abs_of_pos (by positivity : 0 < 2 * Real.pi),
      abs_of_pos (hn0 i)]]
  have : 0 < |(a : ℝ)| := abs_pos.2 (Int.cast_ne_zero.2 h)
  rw [div_pow, div_pow, div_pow, mul_pow, mul_pow |(a : ℝ)|, one_pow]
  field_simp

/-- **Trapezoidal rule for `g cos ψ`, uniformly in the frequency.** `u` is the derivative of the phase divided by
the frequency of the grid. -/
theorem trap_uniform {T : ℝ} (hT : 0 < T) {ψ u g : ι → ℝ → ℝ} {n : ι → ℕ} {ρ : ℝ} (hρ : ρ < 1) (hn : ∀ i, 1 ≤ n i)
    (hψ : ∀ i x, HasDerivAt (ψ i) (2 * Real.pi * n i / T * u i x) x)
    (hper : ∀ i x, Complex.exp (ψ i (x + T) * Complex.I) = Complex.exp (ψ i x * Complex.I))
    (hu : ∀ p, Bdd p u) (hup : ∀ i, Periodic (u i) T) (hub : ∀ i x, |u i x| ≤ ρ)
    (hg : ∀ p, Bdd p g) (hgp : ∀ i, Periodic (g i) T) {p : ℕ} (hp : 2 ≤ p) :
    ∃ C, 0 ≤ C ∧ ∀ i, |avg T (n i) (fun x => g i x * Real.cos (ψ i x)) 0 - mean T (fun x => g i x * Real.cos (ψ i x))| ≤
      C * (1 / (n i : ℝ)) ^ p := by
  obtain ⟨C1, hC1, h1⟩ := alias_integral hT hρ hn hψ hper hu hup hub hg hgp p
  have neg1 : ∀ p, Bdd p fun (_ : ι) (_ : ℝ) => (-1 : ℝ) := fun p => Bdd.const (C := 1) (fun _ => by simp) p
  obtain ⟨C2, hC2, h2⟩ := alias_integral (ψ := fun i x => -ψ i x) (u := fun i x => -1 * u i x) hT hρ hn
    (fun i x => (hψ i x).neg.congr_deriv (by ring))
    (fun i x => by
      push_cast
      rw [neg_mul, neg_mul, Complex.exp_neg, Complex.exp_neg, hper])
    (fun p => (neg1 p).mul (hu p)) (fun i x => by simp only [hup i x]) (fun i x => by simpa using hub i x) hg hgp p
  have cg : ∀ i, Continuous (g i) := fun i => (hg 1).continuous i
  have cψ : ∀ i, Continuous (ψ i) := fun i => continuous_iff_continuousAt.2 fun x => (hψ i x).continuousAt
  have cosP : ∀ i x, Real.cos (ψ i (x + T)) = Real.cos (ψ i x) := fun i x => by
    have := congrArg Complex.re (hper i x)
    rwa [Complex.exp_ofReal_mul_I_re, Complex.exp_ofReal_mul_I_re] at this
  have pf : ∀ i, Periodic (fun x => g i x * Real.cos (ψ i x)) T := fun i x => by
    show g i (x + T) * _ = _
    rw [hgp i x, cosP]
  have cf : ∀ i, Continuous fun x => g i x * Real.cos (ψ i x) := fun i => (cg i).mul (Real.continuous_cos.comp (cψ i))
  refine ⟨1 / (2 * T) * (C1 + C2) * zsum p, ?_, fun i => ?_⟩
  · have : 0 ≤ zsum p := tsum_nonneg fun a => by positivity
    positivity
  have sm : Summable fun k => ‖coeff T (fun x => g i x * Real.cos (ψ i x)) k‖ := by
    have one : ∀ p, Bdd p fun (_ : Unit) x => g i x * Real.cos (ψ i x) := by
      intro p
      have hd : Bdd p fun (_ : Unit) x => 2 * Real.pi * n i / T * u i x :=
        (Bdd.const (c := fun _ => 2 * Real.pi * n i / T) (C := |2 * Real.pi * n i / T|) (fun _ => le_rfl) p).mul
          ((hu p).reindex fun _ => i)
      exact ((hg p).reindex fun _ => i).mul (Bdd.cos_sin (fun _ x => hψ i x) hd).1
    obtain ⟨C, hC0, hC⟩ := alias_integral (ι := Unit) (ψ := fun _ _ => 0) (u := fun _ _ => 0) (n := fun _ => 1)
      (g := fun _ x => g i x * Real.cos (ψ i x)) hT (ρ := 0) (by norm_num) (fun _ => le_rfl)
      (fun _ x => (hasDerivAt_const x (0 : ℝ)).congr_deriv (by ring)) (fun _ _ => rfl)
      (fun p => Bdd.const (C := 0) (fun _ => by simp) p) (fun _ _ => rfl) (fun _ _ => by simp) one (fun _ => pf i) 2
    refine ((zsum_summable le_rfl).mul_left (1 / T * C) |>.add (summable_of_ne_finset_zero (s := {0})
      (f := fun k : ℤ => if k = 0 then ‖coeff T (fun x => g i x * Real.cos (ψ i x)) 0‖ else 0) (by
        intro b hb
        simp only [Finset.mem_singleton] at hb
        simp [hb]))).of_nonneg_of_le (fun _ => norm_nonneg _) fun k => ?_
    by_cases hk : k = 0
    · subst hk
      simp only [if_true]
      have : 0 ≤ 1 / T * C * (1 / |((0 : ℤ) : ℝ)| ^ 2) := by positivity
      linarith
    · simp only [hk, if_false, add_zero]
      have := hC () k hk
      simp only [Nat.cast_one, mul_one, div_one, one_pow] at this
      unfold coeff
      rw [norm_mul, Complex.norm_real, Real.norm_eq_abs, abs_of_pos (by positivity), mul_assoc (1 / T) C]
      refine mul_le_mul_of_nonneg_left (le_of_eq_of_le ?_ this) (by positivity)
      congr 1
      refine intervalIntegral.integral_congr fun x _ => ?_
      simp only
      congr 3
      push_cast
      ring
  refine (aliasing hT (pf i) (cf i) sm (hn i)).trans ?_
  have hs2 : Summable fun a : ℤ => 1 / (2 * T) * (C1 + C2) * (1 / (n i : ℝ)) ^ p * (1 / |(a : ℝ)| ^ p) := (zsum_summable hp).mul_left _
  have b : ∀ a : ℤ, (if a = 0 then 0 else ‖coeff T (fun x => g i x * Real.cos (ψ i x)) (a * n i)‖) ≤
      1 / (2 * T) * (C1 + C2) * (1 / (n i : ℝ)) ^ p * (1 / |(a : ℝ)| ^ p) := by
    intro a
    split
    · positivity
    · rename_i h
      refine (coeff_cos hT (cψ i) (cg i) _).trans ?_
      have e1 := h1 i a h
      have e2 := h2 i a h
      rw [show 1 / (2 * T) * (C1 + C2) * (1 / (n i : ℝ)) ^ p * (1 / |(a : ℝ)| ^ p) = 1 / (2 * T) *
        (C1 * (1 / |(a : ℝ)| ^ p) * (1 / (n i : ℝ)) ^ p + C2 * (1 / |(a : ℝ)| ^ p) * (1 / (n i : ℝ)) ^ p) by ring]
      exact mul_le_mul_of_nonneg_left (add_le_add e1 e2) (by positivity)
  refine (Summable.tsum_le_tsum b (hs2.of_nonneg_of_le (fun a => ?_) b) hs2).trans (le_of_eq ?_)
  · split
    · exact le_rfl
    · exact norm_nonneg _
  · rw [tsum_mul_left]
    unfold zsum
    ring

end Booz.Trapezoid
