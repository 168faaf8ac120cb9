import Verif.Lemmas.TrigDense
import Mathlib.Analysis.Calculus.FDeriv.Symmetric
import Mathlib.Analysis.SpecialFunctions.Trigonometric.Deriv
import Mathlib.MeasureTheory.Integral.Prod

/-!
# Maps of the torus homotopic to the identity: integrals in the new angles

For a smooth map (θ, ζ) ↦ (θ + a, ζ + z) with doubly periodic `a`, `z` and every continuous doubly
periodic `g`, the mean of `g` over the new angles is the mean of `g` at the new angles times the Jacobian
determinant over the old ones.  No injectivity is needed.
-/

namespace Booz.Trapezoid
open Finset Function Spec MeasureTheory

/-- The full circle. -/
noncomputable abbrev τ : ℝ := 2 * Real.pi

theorem tau_pos : 0 < τ := by positivity

variable {F G : ℝ × ℝ → ℝ} {P Q : ℝ}

/-! ### Means as integrals over a box -/

theorem mean2_box (hP : 0 < P) (hQ : 0 < Q) (hc : Continuous F) :
    mean2 P Q F = (∫ x in Set.Ioc (0 : ℝ) P ×ˢ Set.Ioc (0 : ℝ) Q, F x) / (P * Q) := by
  have hi : IntegrableOn F (Set.Ioc (0 : ℝ) P ×ˢ Set.Ioc (0 : ℝ) Q) (volume.prod volume) := by
    refine (hc.continuousOn.integrableOn_compact (isCompact_Icc (a := (0 : ℝ)) (b := P) |>.prod
      (isCompact_Icc (a := (0 : ℝ)) (b := Q)))).mono_set ?_
    exact Set.prod_mono Set.Ioc_subset_Icc_self Set.Ioc_subset_Icc_self
  rw [Measure.volume_eq_prod, setIntegral_prod _ hi]
  unfold mean2 mean
  simp only [intervalIntegral.integral_of_le hP.le, intervalIntegral.integral_of_le hQ.le]
  rw [integral_div, div_div, mul_comm Q P]

theorem mean2_swap (hP : 0 < P) (hQ : 0 < Q) (hc : Continuous F) :
    mean2 P Q F = mean Q fun ζ => mean P fun θ => F (θ, ζ) := by
  have h1 := mean2_box hP hQ hc
  have h2 := mean2_box (F := fun x => F (x.2, x.1)) hQ hP (hc.comp (by fun_prop))
  rw [h1]
  show _ = mean2 Q P fun x => F (x.2, x.1)
  rw [h2, mul_comm Q P]
  congr 1
  have hi : IntegrableOn F (Set.Ioc (0 : ℝ) P ×ˢ Set.Ioc (0 : ℝ) Q) (volume.prod volume) := by
    refine (hc.continuousOn.integrableOn_compact (isCompact_Icc (a := (0 : ℝ)) (b := P) |>.prod
      (isCompact_Icc (a := (0 : ℝ)) (b := Q)))).mono_set ?_
    exact Set.prod_mono Set.Ioc_subset_Icc_self Set.Ioc_subset_Icc_self
  have := setIntegral_prod_swap (μ := (volume : Measure ℝ)) (ν := (volume : Measure ℝ)) (Set.Ioc (0 : ℝ) P)
    (Set.Ioc (0 : ℝ) Q) F
  exact this.symm

theorem mean_add {f g : ℝ → ℝ} (hf : Continuous f) (hg : Continuous g) :
    mean P (fun x => f x + g x) = mean P f + mean P g := by
  unfold mean
  rw [intervalIntegral.integral_add (hf.intervalIntegrable _ _) (hg.intervalIntegrable _ _), add_div]

theorem mean_smul (c : ℝ) (f : ℝ → ℝ) : mean P (fun x => c * f x) = c * mean P f := by
  unfold mean
  rw [intervalIntegral.integral_const_mul, mul_div_assoc]

theorem mean_one (hP : 0 < P) : mean P (fun _ => 1) = 1 := by
  unfold mean
  rw [intervalIntegral.integral_const]
  simp [hP.ne']

theorem mean2_add (hF : Continuous F) (hG : Continuous G) :
    mean2 P Q (fun x => F x + G x) = mean2 P Q F + mean2 P Q G := by
  unfold mean2
  rw [← mean_add (mean_continuous hF) (mean_continuous hG)]
  congr 1
  funext θ
  exact mean_add (hF.comp (by fun_prop)) (hG.comp (by fun_prop))

theorem mean2_sub (hF : Continuous F) (hG : Continuous G) :
    mean2 P Q (fun x => F x - G x) = mean2 P Q F - mean2 P Q G := by
  unfold mean2
  rw [← mean_sub (mean_continuous hF) (mean_continuous hG)]
  congr 1
  funext θ
  exact mean_sub (hF.comp (by fun_prop)) (hG.comp (by fun_prop))

theorem mean2_smul (c : ℝ) (F : ℝ × ℝ → ℝ) : mean2 P Q (fun x => c * F x) = c * mean2 P Q F := by
  unfold mean2
  rw [← mean_smul]
  congr 1
  funext θ
  exact mean_smul _ _

theorem mean2_one (hP : 0 < P) (hQ : 0 < Q) : mean2 P Q (fun _ => 1) = 1 := by
  unfold mean2
  simp only [mean_one hQ, mean_one hP]

theorem mean2_zero : mean2 P Q (fun _ => 0) = 0 := by
  have := mean2_smul (P := P) (Q := Q) 0 fun _ => 0
  simpa using this

theorem mean2_sum {ι : Type} (t : Finset ι) {f : ι → ℝ × ℝ → ℝ} (hf : ∀ i, Continuous (f i)) :
    mean2 P Q (fun x => ∑ i ∈ t, f i x) = ∑ i ∈ t, mean2 P Q (f i) := by
  classical
  induction t using Finset.induction_on with
  | empty => simpa using mean2_zero
  | insert i t hi ih =>
    simp only [sum_insert hi]
    rw [mean2_add (hf i) (continuous_finsetSum _ fun i _ => hf i), ih]

theorem mean2_abs_le (hP : 0 < P) (hQ : 0 < Q) {B : ℝ} (h : ∀ x, |F x| ≤ B) : |mean2 P Q F| ≤ B :=
  mean_abs_le hP fun _ => mean_abs_le hQ fun _ => h _

/-- Derivatives of periodic functions have mean zero. -/
theorem mean2_D1 (hP : 0 < P) (hQ : 0 < Q) (h : DPer P Q F) (hs : Smooth F) : mean2 P Q (D1 F) = 0 := by
  rw [mean2_swap hP hQ hs.d1.continuous]
  have : ∀ ζ, (mean P fun θ => D1 F (θ, ζ)) = 0 := fun ζ =>
    mean_deriv (h.slice1 ζ) (fun θ => hs.hasDeriv1 θ ζ) (hs.d1.continuous.comp (by fun_prop))
  simp only [this]
  simpa using mean_smul (P := Q) 0 fun _ => 0

theorem mean2_D2 (h : DPer P Q F) (hs : Smooth F) : mean2 P Q (D2 F) = 0 := by
  have : ∀ θ, (mean Q fun ζ => D2 F (θ, ζ)) = 0 := fun θ =>
    mean_deriv (h.slice2 θ) (fun ζ => hs.hasDeriv2 θ ζ) (hs.d2.continuous.comp (by fun_prop))
  unfold mean2
  simp only [this]
  simpa using mean_smul (P := P) 0 fun _ => 0

/-! ### Product rule and mixed derivatives -/

theorem D1_mul (hF : Smooth F) (hG : Smooth G) (x : ℝ × ℝ) :
    D1 (fun y => F y * G y) x = D1 F x * G x + F x * D1 G x := by
  unfold D1
  rw [fderiv_fun_mul (hF.differentiable x) (hG.differentiable x)]
  simp
  ring

theorem D2_mul (hF : Smooth F) (hG : Smooth G) (x : ℝ × ℝ) :
    D2 (fun y => F y * G y) x = D2 F x * G x + F x * D2 G x := by
  unfold D2
  rw [fderiv_fun_mul (hF.differentiable x) (hG.differentiable x)]
  simp
  ring

theorem D12 (hF : Smooth F) (x : ℝ × ℝ) : D1 (D2 F) x = D2 (D1 F) x := by
  have hs : ContDiffAt ℝ (⊤ : ℕ∞) F x := hF.contDiffAt
  have sym := hs.isSymmSndFDerivAt (by simp; exact WithTop.coe_le_coe.2 (le_top : (2 : ℕ∞) ≤ ⊤))
  have hd : DifferentiableAt ℝ (fderiv ℝ F) x :=
    (ContDiff.differentiable (ContDiff.fderiv_right hF (m := (⊤ : ℕ∞)) (by simp)) (by simp)) x
  have e : ∀ v w, fderiv ℝ (fun y => fderiv ℝ F y v) x w = fderiv ℝ (fderiv ℝ F) x w v := by
    intro v w
    rw [fderiv_clm_apply hd (differentiableAt_const v)]
    simp
  show fderiv ℝ (fun y => fderiv ℝ F y (0, 1)) x (1, 0) = fderiv ℝ (fun y => fderiv ℝ F y (1, 0)) x (0, 1)
  rw [e, e]
  exact sym _ _

/-- The mean of a Jacobian determinant vanishes if one of the functions is periodic. -/
theorem mean2_jac (hP : 0 < P) (hQ : 0 < Q) (hF : DPer P Q F) (sF : Smooth F) (sG : Smooth G) (h1 : DPer P Q (D1 G))
    (h2 : DPer P Q (D2 G)) : mean2 P Q (fun x => D1 F x * D2 G x - D2 F x * D1 G x) = 0 := by
  have s1 : Smooth fun x => F x * D2 G x := sF.mul sG.d2
  have s2 : Smooth fun x => F x * D1 G x := sF.mul sG.d1
  have p1 : DPer P Q fun x => F x * D2 G x :=
    ⟨fun x => by simp only [hF.1 x, h2.1 x], fun x => by simp only [hF.2 x, h2.2 x]⟩
  have p2 : DPer P Q fun x => F x * D1 G x :=
    ⟨fun x => by simp only [hF.1 x, h1.1 x], fun x => by simp only [hF.2 x, h1.2 x]⟩
  have e : (fun x => D1 F x * D2 G x - D2 F x * D1 G x) =
      fun x => D1 (fun y => F y * D2 G y) x - D2 (fun y => F y * D1 G y) x := by
    funext x
    rw [D1_mul sF sG.d2, D2_mul sF sG.d1, D12 sG]
    ring
  rw [e, mean2_sub s1.d1.continuous s2.d2.continuous, mean2_D1 hP hQ p1 s1, mean2_D2 p2 s2, sub_zero]

/-! ### The map -/

/-- Displacements of the two angles. -/
structure TorusMap (a z : ℝ × ℝ → ℝ) : Prop where
  sa : Smooth a
  sz : Smooth z
  pa : DPer τ τ a
  pz : DPer τ τ z

/-- The new angles. -/
def newAngles (a z : ℝ × ℝ → ℝ) (x : ℝ × ℝ) : ℝ × ℝ := (x.1 + a x, x.2 + z x)

/-- The Jacobian determinant of the new angles. -/
noncomputable def newDet (a z : ℝ × ℝ → ℝ) (x : ℝ × ℝ) : ℝ := (1 + D1 a x) * (1 + D2 z x) - D2 a x * D1 z x

variable {a z : ℝ × ℝ → ℝ}

namespace TorusMap

theorem sA (h : TorusMap a z) : Smooth fun x => x.1 + a x := contDiff_fst.add h.sa
theorem sZ (h : TorusMap a z) : Smooth fun x => x.2 + z x := contDiff_snd.add h.sz

theorem d1A (h : TorusMap a z) (x : ℝ × ℝ) : D1 (fun x => x.1 + a x) x = 1 + D1 a x := by
  unfold D1
  rw [fderiv_fun_add differentiableAt_fst (h.sa.differentiable x)]
  simp [fderiv_fst]
theorem d2A (h : TorusMap a z) (x : ℝ × ℝ) : D2 (fun x => x.1 + a x) x = D2 a x := by
  unfold D2
  rw [fderiv_fun_add differentiableAt_fst (h.sa.differentiable x)]
  simp [fderiv_fst]
theorem d1Z (h : TorusMap a z) (x : ℝ × ℝ) : D1 (fun x => x.2 + z x) x = D1 z x := by
  unfold D1
  rw [fderiv_fun_add differentiableAt_snd (h.sz.differentiable x)]
  simp [fderiv_snd]
theorem d2Z (h : TorusMap a z) (x : ℝ × ℝ) : D2 (fun x => x.2 + z x) x = 1 + D2 z x := by
  unfold D2
  rw [fderiv_fun_add differentiableAt_snd (h.sz.differentiable x)]
  simp [fderiv_snd]

theorem det_smooth (h : TorusMap a z) : Smooth (newDet a z) :=
  ((contDiff_const.add h.sa.d1).mul (contDiff_const.add h.sz.d2)).sub (h.sa.d2.mul h.sz.d1)

theorem continuous (h : TorusMap a z) : Continuous (newAngles a z) :=
  (continuous_fst.add h.sa.continuous).prodMk (continuous_snd.add h.sz.continuous)

theorem shift (h : TorusMap a z) (i j : ℤ) (x : ℝ × ℝ) :
    newAngles a z (x.1 + i * τ, x.2 + j * τ) = ((newAngles a z x).1 + i * τ, (newAngles a z x).2 + j * τ) := by
  unfold newAngles
  rw [per_int h.pa, per_int h.pz]
  ext <;> simp only <;> ring

/-- Mean of the determinant. -/
theorem mean_det (h : TorusMap a z) : mean2 τ τ (newDet a z) = 1 := by
  have e : newDet a z = fun x => (1 + D2 z x) + (D1 a x * D2 (fun x => x.2 + z x) x - D2 a x * D1 (fun x => x.2 + z x) x) := by
    funext x
    rw [h.d2Z, h.d1Z]
    unfold newDet
    ring
  have p1 : DPer τ τ (D1 fun x => x.2 + z x) := by
    rw [show (D1 fun x => x.2 + z x) = D1 z from funext h.d1Z]
    exact h.pz.d1
  have p2 : DPer τ τ (D2 fun x => x.2 + z x) := by
    rw [show (D2 fun x => x.2 + z x) = fun x => 1 + D2 z x from funext h.d2Z]
    exact ⟨fun x => by simp only [h.pz.d2.1 x], fun x => by simp only [h.pz.d2.2 x]⟩
  have k1 : Continuous fun x => 1 + D2 z x := continuous_const.add h.sz.d2.continuous
  have k2 : Continuous fun x => D1 a x * D2 (fun x => x.2 + z x) x - D2 a x * D1 (fun x => x.2 + z x) x :=
    (h.sa.d1.continuous.mul h.sZ.d2.continuous).sub (h.sa.d2.continuous.mul h.sZ.d1.continuous)
  rw [e, mean2_add k1 k2,
    mean2_jac tau_pos tau_pos h.pa h.sa h.sZ p1 p2, mean2_add continuous_const h.sz.d2.continuous,
    mean2_one tau_pos tau_pos, mean2_D2 h.pz h.sz]
  ring

/-- The phase of a mode in the new angles. -/
theorem phase_smooth (h : TorusMap a z) (m n : ℤ) :
    Smooth fun x => (m : ℝ) * (newAngles a z x).1 - n * (newAngles a z x).2 :=
  (contDiff_const.mul h.sA).sub (contDiff_const.mul h.sZ)

theorem d1_phase (h : TorusMap a z) (m n : ℤ) (x : ℝ × ℝ) :
    D1 (fun x => (m : ℝ) * (newAngles a z x).1 - n * (newAngles a z x).2) x = m * (1 + D1 a x) - n * D1 z x := by
  rw [← h.d1A, ← h.d1Z]
  unfold D1
  have e1 : DifferentiableAt ℝ (fun x : ℝ × ℝ => x.1 + a x) x := h.sA.differentiable x
  have e2 : DifferentiableAt ℝ (fun x : ℝ × ℝ => x.2 + z x) x := h.sZ.differentiable x
  show fderiv ℝ (fun x => (m : ℝ) * (x.1 + a x) - n * (x.2 + z x)) x _ = _
  rw [fderiv_fun_sub (e1.const_mul _) (e2.const_mul _), fderiv_const_mul e1, fderiv_const_mul e2]
  simp
theorem d2_phase (h : TorusMap a z) (m n : ℤ) (x : ℝ × ℝ) :
    D2 (fun x => (m : ℝ) * (newAngles a z x).1 - n * (newAngles a z x).2) x = m * D2 a x - n * (1 + D2 z x) := by
  rw [← h.d2A, ← h.d2Z]
  unfold D2
  have e1 : DifferentiableAt ℝ (fun x : ℝ × ℝ => x.1 + a x) x := h.sA.differentiable x
  have e2 : DifferentiableAt ℝ (fun x : ℝ × ℝ => x.2 + z x) x := h.sZ.differentiable x
  show fderiv ℝ (fun x => (m : ℝ) * (x.1 + a x) - n * (x.2 + z x)) x _ = _
  rw [fderiv_fun_sub (e1.const_mul _) (e2.const_mul _), fderiv_const_mul e1, fderiv_const_mul e2]
  simp

/-- For a mode other than (0,0), any 2π-periodic function of the phase has, as a derivative, mean zero. -/
theorem mean_phase (h : TorusMap a z) {m n : ℤ} (hmn : ¬ (m = 0 ∧ n = 0)) {f f' : ℝ → ℝ} (hf : ContDiff ℝ (⊤ : ℕ∞) f)
    (hper : Periodic f τ) (hd : ∀ t, HasDerivAt f (f' t) t) :
    mean2 τ τ (fun x => f' (m * (newAngles a z x).1 - n * (newAngles a z x).2) * newDet a z x) = 0 := by
  set ph : ℝ × ℝ → ℝ := fun x => m * (newAngles a z x).1 - n * (newAngles a z x).2 with hph
  have sE : Smooth fun x => f (ph x) := hf.comp (h.phase_smooth m n)
  have pE : DPer τ τ fun x => f (ph x) := by
    constructor
    · intro x
      have := h.shift 1 0 x
      have e : ph (x + (τ, 0)) = ph x + m * τ := by
        have e' : x + (τ, 0) = (x.1 + ((1 : ℤ) : ℝ) * τ, x.2 + ((0 : ℤ) : ℝ) * τ) := by ext <;> simp
        rw [hph, e']
        simp only [this]
        push_cast
        ring
      show f (ph (x + (τ, 0))) = f (ph x)
      rw [e]
      exact hper.int_mul m (ph x)
    · intro x
      have := h.shift 0 1 x
      have e : ph (x + (0, τ)) = ph x + (-n : ℤ) * τ := by
        have e' : x + (0, τ) = (x.1 + ((0 : ℤ) : ℝ) * τ, x.2 + ((1 : ℤ) : ℝ) * τ) := by ext <;> simp
        rw [hph, e']
        simp only [this]
        push_cast
        ring
      show f (ph (x + (0, τ))) = f (ph x)
      rw [e]
      exact hper.int_mul (-n) (ph x)
  have dE1 : ∀ x, D1 (fun x => f (ph x)) x = f' (ph x) * (m * (1 + D1 a x) - n * D1 z x) := by
    intro x
    rw [← h.d1_phase]
    unfold D1
    have := (hd (ph x)).comp_hasFDerivAt x ((h.phase_smooth m n).differentiable x).hasFDerivAt
    have e := this.fderiv
    show fderiv ℝ (f ∘ ph) x (1, 0) = _
    rw [e]
    simp
  have dE2 : ∀ x, D2 (fun x => f (ph x)) x = f' (ph x) * (m * D2 a x - n * (1 + D2 z x)) := by
    intro x
    rw [← h.d2_phase]
    unfold D2
    have := (hd (ph x)).comp_hasFDerivAt x ((h.phase_smooth m n).differentiable x).hasFDerivAt
    have e := this.fderiv
    show fderiv ℝ (f ∘ ph) x (0, 1) = _
    rw [e]
    simp
  have p1Z : DPer τ τ (D1 fun x => x.2 + z x) := by
    rw [show (D1 fun x => x.2 + z x) = D1 z from funext h.d1Z]
    exact h.pz.d1
  have p2Z : DPer τ τ (D2 fun x => x.2 + z x) := by
    rw [show (D2 fun x => x.2 + z x) = fun x => 1 + D2 z x from funext h.d2Z]
    exact ⟨fun x => by simp only [h.pz.d2.1 x], fun x => by simp only [h.pz.d2.2 x]⟩
  have p2A : DPer τ τ (D2 fun x => x.1 + a x) := by
    rw [show (D2 fun x => x.1 + a x) = D2 a from funext h.d2A]
    exact h.pa.d2
  have p1A : DPer τ τ (D1 fun x => x.1 + a x) := by
    rw [show (D1 fun x => x.1 + a x) = fun x => 1 + D1 a x from funext h.d1A]
    exact ⟨fun x => by simp only [h.pa.d1.1 x], fun x => by simp only [h.pa.d1.2 x]⟩
  by_cases hm : m = 0
  · have hn : (n : ℝ) ≠ 0 := by
      intro h0
      exact hmn ⟨hm, by exact_mod_cast h0⟩
    have := mean2_jac tau_pos tau_pos pE sE h.sA p1A p2A
    have e : (fun x => D1 (fun x => f (ph x)) x * D2 (fun x => x.1 + a x) x -
        D2 (fun x => f (ph x)) x * D1 (fun x => x.1 + a x) x) = fun x => n * (f' (ph x) * newDet a z x) := by
      funext x
      rw [dE1, dE2, h.d2A, h.d1A]
      unfold newDet
      ring
    rw [e, mean2_smul] at this
    exact (mul_eq_zero.1 this).resolve_left hn
  · have hm' : (m : ℝ) ≠ 0 := by exact_mod_cast hm
    have := mean2_jac tau_pos tau_pos pE sE h.sZ p1Z p2Z
    have e : (fun x => D1 (fun x => f (ph x)) x * D2 (fun x => x.2 + z x) x -
        D2 (fun x => f (ph x)) x * D1 (fun x => x.2 + z x) x) = fun x => m * (f' (ph x) * newDet a z x) := by
      funext x
      rw [dE1, dE2, h.d2Z, h.d1Z]
      unfold newDet
      ring
    rw [e, mean2_smul] at this
    exact (mul_eq_zero.1 this).resolve_left hm'

theorem mean_cos (h : TorusMap a z) (m n : ℤ) :
    mean2 τ τ (fun x => Real.cos (m * (newAngles a z x).1 - n * (newAngles a z x).2) * newDet a z x) =
      if m = 0 ∧ n = 0 then 1 else 0 := by
  split
  · next h0 =>
    obtain ⟨rfl, rfl⟩ := h0
    simp only [Int.cast_zero, zero_mul, sub_zero, Real.cos_zero, one_mul]
    exact h.mean_det
  · next h0 => exact h.mean_phase h0 Real.contDiff_sin Real.sin_periodic fun t => Real.hasDerivAt_sin t

theorem mean_sin (h : TorusMap a z) (m n : ℤ) :
    mean2 τ τ (fun x => Real.sin (m * (newAngles a z x).1 - n * (newAngles a z x).2) * newDet a z x) = 0 := by
  by_cases h0 : m = 0 ∧ n = 0
  · obtain ⟨rfl, rfl⟩ := h0
    simpa using mean2_zero
  · have := h.mean_phase h0 (f := fun t => -Real.cos t) Real.contDiff_cos.neg
      (fun t => by simp [Real.cos_periodic t]) (fun t => (Real.hasDerivAt_cos t).neg) (f' := fun t => - -Real.sin t)
    simpa using this

theorem mean_series (h : TorusMap a z) (K : ℕ) (m n : ℕ → ℤ) (c s : ℕ → ℝ) :
    mean2 τ τ (fun x => series K m n c s (newAngles a z x).1 (newAngles a z x).2 * newDet a z x) =
      ∑ k ∈ range K, c k * if m k = 0 ∧ n k = 0 then 1 else 0 := by
  have cph : ∀ k, Continuous fun x => (m k : ℝ) * (newAngles a z x).1 - n k * (newAngles a z x).2 := fun k =>
    (h.phase_smooth _ _).continuous
  have cd := h.det_smooth.continuous
  have e : (fun x => series K m n c s (newAngles a z x).1 (newAngles a z x).2 * newDet a z x) = fun x =>
      ∑ k ∈ range K, (c k * (Real.cos (m k * (newAngles a z x).1 - n k * (newAngles a z x).2) * newDet a z x) +
        s k * (Real.sin (m k * (newAngles a z x).1 - n k * (newAngles a z x).2) * newDet a z x)) := by
    funext x
    unfold series
    rw [sum_mul]
    exact sum_congr rfl fun k _ => by ring
  have c1 : ∀ k, Continuous fun x => c k * (Real.cos (m k * (newAngles a z x).1 - n k * (newAngles a z x).2) * newDet a z x) :=
    fun k => continuous_const.mul ((Real.continuous_cos.comp (cph k)).mul cd)
  have c2 : ∀ k, Continuous fun x => s k * (Real.sin (m k * (newAngles a z x).1 - n k * (newAngles a z x).2) * newDet a z x) :=
    fun k => continuous_const.mul ((Real.continuous_sin.comp (cph k)).mul cd)
  have c3 : ∀ k, Continuous fun x => c k * (Real.cos (m k * (newAngles a z x).1 - n k * (newAngles a z x).2) * newDet a z x) +
      s k * (Real.sin (m k * (newAngles a z x).1 - n k * (newAngles a z x).2) * newDet a z x) := fun k => (c1 k).add (c2 k)
  rw [e, mean2_sum _ c3]
  refine sum_congr rfl fun k _ => ?_
  rw [mean2_add (c1 k) (c2 k), mean2_smul, mean2_smul, h.mean_cos, h.mean_sin]
  ring

theorem id : TorusMap (fun _ => 0) (fun _ => 0) :=
  ⟨contDiff_const, contDiff_const, ⟨fun _ => rfl, fun _ => rfl⟩, ⟨fun _ => rfl, fun _ => rfl⟩⟩

theorem id_det : newDet (fun _ => 0) (fun _ => 0) = fun _ => 1 := by
  funext x
  simp [newDet, D1, D2]

/-- **Change of variables.** -/
theorem mean_new (h : TorusMap a z) {g : ℝ × ℝ → ℝ} (hc : Continuous g) (hp : DPer τ τ g) :
    mean2 τ τ (fun x => g (newAngles a z x) * newDet a z x) = mean2 τ τ g := by
  have cd := h.det_smooth.continuous
  have pd : DPer τ τ (newDet a z) := by
    unfold newDet
    exact ⟨fun x => by simp only [h.pa.d1.1 x, h.pz.d2.1 x, h.pa.d2.1 x, h.pz.d1.1 x],
      fun x => by simp only [h.pa.d1.2 x, h.pz.d2.2 x, h.pa.d2.2 x, h.pz.d1.2 x]⟩
  obtain ⟨B, hB⟩ := pd.bounded tau_pos tau_pos cd
  have hB0 : 0 ≤ B := (abs_nonneg _).trans (hB 0)
  have key : ∀ ε > 0, |mean2 τ τ (fun x => g (newAngles a z x) * newDet a z x) - mean2 τ τ g| ≤ ε * (B + 1) := by
    intro ε hε
    obtain ⟨K, m, n, c, s, ht⟩ := trig_dense hc hp hε
    have ct : Continuous fun x : ℝ × ℝ => series K m n c s x.1 x.2 := by
      unfold series
      exact continuous_finsetSum _ fun k _ => by fun_prop
    have e1 := h.mean_series K m n c s
    have e2 := id.mean_series K m n c s
    rw [id_det] at e2
    simp only [newAngles, add_zero, mul_one] at e2
    have ctn : Continuous fun x => series K m n c s (newAngles a z x).1 (newAngles a z x).2 := ct.comp h.continuous
    have d1 : |mean2 τ τ (fun x => g (newAngles a z x) * newDet a z x) -
        mean2 τ τ (fun x => series K m n c s (newAngles a z x).1 (newAngles a z x).2 * newDet a z x)| ≤ ε * B := by
      have k1 : Continuous fun x => g (newAngles a z x) * newDet a z x := (hc.comp h.continuous).mul cd
      have k2 : Continuous fun x => series K m n c s (newAngles a z x).1 (newAngles a z x).2 * newDet a z x := ctn.mul cd
      rw [← mean2_sub k1 k2]
      refine mean2_abs_le tau_pos tau_pos fun x => ?_
      rw [← sub_mul, abs_mul]
      exact mul_le_mul (ht _) (hB x) (abs_nonneg _) hε.le
    have d2 : |mean2 τ τ g - mean2 τ τ (fun x => series K m n c s x.1 x.2)| ≤ ε := by
      rw [← mean2_sub hc ct]
      exact mean2_abs_le tau_pos tau_pos fun x => ht x
    rw [e1] at d1
    rw [e2] at d2
    have : mean2 τ τ (fun x => g (newAngles a z x) * newDet a z x) - mean2 τ τ g =
      (mean2 τ τ (fun x => g (newAngles a z x) * newDet a z x) - ∑ k ∈ range K, c k * if m k = 0 ∧ n k = 0 then 1 else 0) -
      (mean2 τ τ g - ∑ k ∈ range K, c k * if m k = 0 ∧ n k = 0 then 1 else 0) := by ring
    rw [this]
    refine (abs_sub _ _).trans ?_
    rw [mul_add, mul_one]
    exact add_le_add d1 d2
  by_contra hne
  have hpos : 0 < |mean2 τ τ (fun x => g (newAngles a z x) * newDet a z x) - mean2 τ τ g| :=
    abs_pos.2 (sub_ne_zero.2 hne)
  have := key (|mean2 τ τ (fun x => g (newAngles a z x) * newDet a z x) - mean2 τ τ g| / (2 * (B + 1))) (by positivity)
  have e : |mean2 τ τ (fun x => g (newAngles a z x) * newDet a z x) - mean2 τ τ g| / (2 * (B + 1)) * (B + 1) =
    |mean2 τ τ (fun x => g (newAngles a z x) * newDet a z x) - mean2 τ τ g| / 2 := by field_simp
  rw [e] at this
  linarith

end TorusMap

end Booz.Trapezoid
