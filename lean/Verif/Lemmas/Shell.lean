import Mathlib.MeasureTheory.Function.Jacobian
import Mathlib.MeasureTheory.Integral.DominatedConvergence
import Mathlib.MeasureTheory.Integral.IntervalIntegral.Basic
import Mathlib.MeasureTheory.Integral.Prod
import Mathlib.MeasureTheory.Constructions.Pi
import Mathlib.MeasureTheory.Measure.Lebesgue.Basic
import Mathlib.LinearAlgebra.Matrix.Determinant.Basic
import Mathlib.Analysis.Calculus.ContDiff.Basic
import Mathlib.Analysis.Calculus.Deriv.Pi
import Verif.Spec.Volume
import Verif.Props.Field

/-!
# Integrals over thin shells
-/

namespace Booz
open Spec Matrix MeasureTheory Filter Topology Set

/-- Position as a function of the triple of coordinates. -/
def pos3 (x : ℝ → ℝ → ℝ → V3) (p : V3) : V3 := x (p 0) (p 1) (p 2)

/-- Coordinates of the point of the shell of thickness `h` which belongs to the point `p` of the box. -/
def stretch (ψ₀ h : ℝ) (p : V3) : V3 := ![ψ₀ + h * p 0, p 1, p 2]

/-- The box of coordinates. -/
def box3 : Set V3 := {p | p 0 ∈ Ioc (0 : ℝ) 1 ∧ p 1 ∈ Ioc (0 : ℝ) (2 * Real.pi) ∧ p 2 ∈ Ioc (0 : ℝ) (2 * Real.pi)}

theorem box3_pi : box3 = Set.pi univ ![Ioc (0 : ℝ) 1, Ioc (0 : ℝ) (2 * Real.pi), Ioc (0 : ℝ) (2 * Real.pi)] := by
  ext p
  simp only [box3, Set.mem_setOf_eq, Set.mem_pi, Set.mem_univ, true_implies, Fin.forall_fin_succ]
  simp

theorem box3_measurable : MeasurableSet box3 := by
  rw [box3_pi]
  refine MeasurableSet.univ_pi fun i => ?_
  fin_cases i <;> exact measurableSet_Ioc

theorem box3_volume : volume box3 ≠ ⊤ := by
  rw [box3_pi, volume_pi_pi]
  refine ENNReal.prod_ne_top fun i _ => ?_
  fin_cases i <;> exact measure_Ioc_lt_top.ne

/-- Integral over the box of a function of the two angles. -/
theorem box3_integral {G : ℝ → ℝ → ℝ} (hG : Continuous (Function.uncurry G)) :
    ∫ p in box3, G (p 1) (p 2) = ∫ θ in (0 : ℝ)..2 * Real.pi, ∫ ζ in (0 : ℝ)..2 * Real.pi, G θ ζ := by
  have h2 : (0 : ℝ) ≤ 2 * Real.pi := by positivity
  let T := Ioc (0 : ℝ) (2 * Real.pi)
  have e1 := volume_preserving_piFinSuccAbove (fun _ : Fin 3 => ℝ) 0
  have e2 := volume_preserving_finTwoArrow ℝ
  have q1 : ∫ p in box3, G (p 1) (p 2) =
      ∫ y in Ioc (0 : ℝ) 1 ×ˢ (MeasurableEquiv.finTwoArrow (α := ℝ) ⁻¹' (T ×ˢ T)), G (y.2 0) (y.2 1) := by
    have := e1.setIntegral_preimage_emb (MeasurableEquiv.measurableEmbedding _)
      (fun y : ℝ × (Fin 2 → ℝ) => G (y.2 0) (y.2 1)) (Ioc (0 : ℝ) 1 ×ˢ (MeasurableEquiv.finTwoArrow (α := ℝ) ⁻¹' (T ×ˢ T)))
    rw [← this]
    rfl
  have q2 : ∫ u in (MeasurableEquiv.finTwoArrow (α := ℝ) ⁻¹' (T ×ˢ T)), G (u 0) (u 1) = ∫ y in T ×ˢ T, G y.1 y.2 :=
    e2.setIntegral_preimage_emb (MeasurableEquiv.measurableEmbedding _) (fun y : ℝ × ℝ => G y.1 y.2) (T ×ˢ T)
  have int : IntegrableOn (Function.uncurry G) (T ×ˢ T) :=
    (hG.continuousOn.integrableOn_compact (isCompact_Icc.prod isCompact_Icc)).mono_set
      (Set.prod_mono Ioc_subset_Icc_self Ioc_subset_Icc_self)
  have q3 : ∫ y in T ×ˢ T, G y.1 y.2 = ∫ θ in (0 : ℝ)..2 * Real.pi, ∫ ζ in (0 : ℝ)..2 * Real.pi, G θ ζ := by
    rw [intervalIntegral.integral_of_le h2]
    simp only [intervalIntegral.integral_of_le h2]
    exact setIntegral_prod _ int
  rw [q1, ← q3, ← q2]
  have q4 : ∫ y in Ioc (0 : ℝ) 1 ×ˢ (MeasurableEquiv.finTwoArrow (α := ℝ) ⁻¹' (T ×ˢ T)), (1 : ℝ) * G (y.2 0) (y.2 1) =
      (∫ _ in Ioc (0 : ℝ) 1, (1 : ℝ)) * ∫ u in (MeasurableEquiv.finTwoArrow (α := ℝ) ⁻¹' (T ×ˢ T)), G (u 0) (u 1) :=
    setIntegral_prod_mul (fun _ : ℝ => (1 : ℝ)) (fun u : Fin 2 → ℝ => G (u 0) (u 1)) _ _
  simp only [one_mul] at q4
  rw [q4]
  simp

variable {x : ℝ → ℝ → ℝ → V3} {ψ₀ δ : ℝ}

theorem region_open : IsOpen {p : V3 | |p 0 - ψ₀| < δ} :=
  isOpen_lt (by fun_prop) continuous_const

theorem stretch_mem {h : ℝ} (h0 : 0 ≤ h) (h1 : h < δ) {p : V3} (hp : p 0 ∈ Icc (0 : ℝ) 1) :
    stretch ψ₀ h p ∈ {p : V3 | |p 0 - ψ₀| < δ} := by
  show |ψ₀ + h * p 0 - ψ₀| < δ
  rw [add_sub_cancel_left, abs_of_nonneg (mul_nonneg h0 hp.1)]
  exact (mul_le_of_le_one_right h0 hp.2).trans_lt h1

/-- The linear part of the stretching. -/
noncomputable def stretchL (h : ℝ) : V3 →L[ℝ] V3 :=
  LinearMap.toContinuousLinearMap (Matrix.toLin' (Matrix.diagonal ![h, 1, 1]))

theorem stretchL_det (h : ℝ) : (stretchL h).det = h := by
  unfold stretchL
  rw [LinearMap.det_toContinuousLinearMap, LinearMap.det_toLin', Matrix.det_diagonal]
  simp [Fin.prod_univ_three]

theorem stretch_deriv (h : ℝ) (p : V3) : HasFDerivAt (stretch ψ₀ h) (stretchL h) p := by
  have e : stretch ψ₀ h = fun p => ![ψ₀, 0, 0] + stretchL h p := by
    funext p i
    fin_cases i <;> simp [stretch, stretchL, Matrix.toLin'_apply, Matrix.mulVec_diagonal]
  rw [e]
  exact (stretchL h).hasFDerivAt.const_add _

theorem stretch_cont (h : ℝ) : Continuous (stretch ψ₀ h) :=
  continuous_iff_continuousAt.mpr fun p => (stretch_deriv h p).continuousAt

theorem nested_deriv (hn : Nested x ψ₀ δ) {p : V3} (hp : |p 0 - ψ₀| < δ) : HasFDerivAt (pos3 x) (fderiv ℝ (pos3 x) p) p :=
  ((hn.smooth.differentiableOn (by norm_num)).differentiableAt (region_open.mem_nhds hp)).hasFDerivAt

theorem nested_cont (hn : Nested x ψ₀ δ) : ContinuousOn (fun p => (fderiv ℝ (pos3 x) p).det) {p : V3 | |p 0 - ψ₀| < δ} :=
  ContinuousLinearMap.continuous_det.comp_continuousOn (hn.smooth.continuousOn_fderiv_of_isOpen region_open le_rfl)

theorem shell_image {h : ℝ} (h0 : 0 < h) : shell x ψ₀ h = (fun p => pos3 x (stretch ψ₀ h p)) '' box3 := by
  ext r
  constructor
  · rintro ⟨ψ, θ, ζ, h1, h2, h3, rfl⟩
    refine ⟨![(ψ - ψ₀) / h, θ, ζ], ⟨⟨div_pos (by linarith) h0, (div_le_one h0).mpr (by linarith)⟩, h2, h3⟩, ?_⟩
    show x (ψ₀ + h * ((ψ - ψ₀) / h)) θ ζ = x ψ θ ζ
    rw [mul_div_cancel₀ _ h0.ne', add_sub_cancel]
  · rintro ⟨p, ⟨h1, h2, h3⟩, rfl⟩
    refine ⟨ψ₀ + h * p 0, p 1, p 2, ⟨?_, ?_⟩, h2, h3, rfl⟩
    · have := mul_pos h0 h1.1; linarith
    · have := mul_le_of_le_one_right h0.le h1.2; linarith

/-- Change of variables. -/
theorem shell_integral (hn : Nested x ψ₀ δ) {h : ℝ} (h0 : 0 < h) (h1 : h < δ) (Q : V3 → ℝ) :
    ∫ r in shell x ψ₀ h, Q r =
      h * ∫ p in box3, |(fderiv ℝ (pos3 x) (stretch ψ₀ h p)).det| * Q (pos3 x (stretch ψ₀ h p)) := by
  have hm : ∀ p ∈ box3, |stretch ψ₀ h p 0 - ψ₀| < δ := fun p hp =>
    stretch_mem h0.le h1 ⟨hp.1.1.le, hp.1.2⟩
  have hd : ∀ p ∈ box3, HasFDerivWithinAt (fun p => pos3 x (stretch ψ₀ h p))
      ((fderiv ℝ (pos3 x) (stretch ψ₀ h p)).comp (stretchL h)) box3 p := fun p hp =>
    ((nested_deriv hn (hm p hp)).comp p (stretch_deriv h p)).hasFDerivWithinAt
  have hi : InjOn (fun p => pos3 x (stretch ψ₀ h p)) box3 := by
    intro p hp q hq e
    have b : ∀ p ∈ box3, ψ₀ < ψ₀ + h * p 0 ∧ ψ₀ + h * p 0 < ψ₀ + δ := by
      intro p hp
      have := mul_pos h0 hp.1.1
      have := mul_le_of_le_one_right h0.le hp.1.2
      constructor <;> linarith
    obtain ⟨e1, e2, e3⟩ := hn.once _ _ _ _ _ _ (b p hp) hp.2.1 hp.2.2 (b q hq) hq.2.1 hq.2.2 e
    have e0 : p 0 = q 0 := mul_left_cancel₀ h0.ne' (add_left_cancel e1)
    funext i
    fin_cases i
    · exact e0
    · exact e2
    · exact e3
  rw [shell_image h0, integral_image_eq_integral_abs_det_fderiv_smul volume box3_measurable hd hi Q, ← integral_const_mul]
  refine setIntegral_congr_fun box3_measurable fun p _ => ?_
  show |((fderiv ℝ (pos3 x) (stretch ψ₀ h p)).comp (stretchL h)).det| • Q _ = _
  have e : ((fderiv ℝ (pos3 x) (stretch ψ₀ h p)).comp (stretchL h)).det =
      (fderiv ℝ (pos3 x) (stretch ψ₀ h p)).det * h := by
    have := LinearMap.det_comp (fderiv ℝ (pos3 x) (stretch ψ₀ h p)).toLinearMap (stretchL h).toLinearMap
    have k := stretchL_det h
    unfold ContinuousLinearMap.det at k ⊢
    rw [ContinuousLinearMap.toLinearMap_comp, this, k]
  rw [e, abs_mul, abs_of_pos h0, smul_eq_mul]
  ring

/-- The triple product of the coordinate vectors. -/
theorem frame_det {ψ θ ζ : ℝ} {e : Frame} (he : IsFrame x ψ θ ζ e) (hd : DifferentiableAt ℝ (pos3 x) ![ψ, θ, ζ]) :
    (fderiv ℝ (pos3 x) ![ψ, θ, ζ]).det = e.psi ⬝ᵥ e.theta ⨯₃ e.zeta := by
  set D := fderiv ℝ (pos3 x) ![ψ, θ, ζ] with hD
  have hf : HasFDerivAt (pos3 x) D ![ψ, θ, ζ] := hd.hasFDerivAt
  have col : ∀ i : Fin 3, HasDerivAt (fun t => pos3 x (Function.update ![ψ, θ, ζ] i t)) (D (Pi.single i 1)) (![ψ, θ, ζ] i) := by
    intro i
    have k := hasDerivAt_update ![ψ, θ, ζ] i (![ψ, θ, ζ] i)
    have hf' : HasFDerivAt (pos3 x) D (Function.update ![ψ, θ, ζ] i (![ψ, θ, ζ] i)) := by
      rw [Function.update_eq_self]; exact hf
    exact hf'.comp_hasDerivAt _ k
  have c0 : D (Pi.single 0 1) = e.psi := by
    refine HasDerivAt.unique (col 0) ?_
    exact he.psi
  have c1 : D (Pi.single 1 1) = e.theta := by
    refine HasDerivAt.unique (col 1) ?_
    exact he.theta
  have c2 : D (Pi.single 2 1) = e.zeta := by
    refine HasDerivAt.unique (col 2) ?_
    exact he.zeta
  have hm : ∀ i j, LinearMap.toMatrix' D.toLinearMap i j = D (Pi.single j 1) i := by
    intro i j
    rw [LinearMap.toMatrix'_apply]
    rfl
  unfold ContinuousLinearMap.det
  rw [← LinearMap.det_toMatrix', Matrix.det_fin_three]
  simp only [hm, c0, c1, c2]
  obtain ⟨a0, a1, a2⟩ := cross3 e.theta e.zeta
  rw [dot3, a0, a1, a2]
  ring

/-- The limit of integrals over thin shells divided by the thickness. -/
theorem shell_limit (hn : Nested x ψ₀ δ) {E : ℝ → ℝ → Frame} (he : ∀ θ ζ, IsFrame x ψ₀ θ ζ (E θ ζ)) {Q : V3 → ℝ}
    (hQ : Continuous Q) :
    Tendsto (fun h => (∫ r in shell x ψ₀ h, Q r) / h) (𝓝[>] 0)
      (𝓝 (∫ θ in (0 : ℝ)..2 * Real.pi, ∫ ζ in (0 : ℝ)..2 * Real.pi,
        |(E θ ζ).psi ⬝ᵥ (E θ ζ).theta ⨯₃ (E θ ζ).zeta| * Q (x ψ₀ θ ζ))) := by
  set g : V3 → ℝ := fun p => |(fderiv ℝ (pos3 x) p).det| * Q (pos3 x p) with hg
  have cg : ContinuousOn g {p : V3 | |p 0 - ψ₀| < δ} :=
    (nested_cont hn).abs.mul (hQ.comp_continuousOn hn.smooth.continuousOn)
  have mem0 : ∀ θ ζ : ℝ, ![ψ₀, θ, ζ] ∈ {p : V3 | |p 0 - ψ₀| < δ} := by
    intro θ ζ
    show |ψ₀ - ψ₀| < δ
    rw [sub_self, abs_zero]
    exact hn.pos
  have val : ∀ θ ζ, |(E θ ζ).psi ⬝ᵥ (E θ ζ).theta ⨯₃ (E θ ζ).zeta| * Q (x ψ₀ θ ζ) = g ![ψ₀, θ, ζ] := by
    intro θ ζ
    rw [← frame_det (he θ ζ) (nested_deriv hn (mem0 θ ζ)).differentiableAt]
    rfl
  have cG : Continuous (Function.uncurry fun θ ζ : ℝ => g ![ψ₀, θ, ζ]) := by
    refine cg.comp_continuous (f := fun y : ℝ × ℝ => ![ψ₀, y.1, y.2]) ?_ fun y => mem0 y.1 y.2
    refine continuous_pi fun i => ?_
    fin_cases i
    · exact continuous_const
    · exact continuous_fst
    · exact continuous_snd
  simp only [val]
  rw [← box3_integral cG]
  have half : 0 < δ / 2 := half_pos hn.pos
  -- the compact set which contains all points considered
  let K : Set V3 := Set.pi univ ![Icc ψ₀ (ψ₀ + δ / 2), Icc (0 : ℝ) (2 * Real.pi), Icc (0 : ℝ) (2 * Real.pi)]
  have hK : IsCompact K := by
    refine isCompact_univ_pi fun i => ?_
    fin_cases i <;> exact isCompact_Icc
  have hKsub : K ⊆ {p : V3 | |p 0 - ψ₀| < δ} := by
    intro p hp
    have k := hp 0 (mem_univ _)
    replace k : p 0 ∈ Icc ψ₀ (ψ₀ + δ / 2) := k
    show |p 0 - ψ₀| < δ
    rw [abs_of_nonneg (by linarith [k.1])]
    linarith [k.2]
  obtain ⟨C, hC⟩ := hK.exists_bound_of_continuousOn (cg.mono hKsub)
  have near : ∀ᶠ h in 𝓝[>] (0 : ℝ), 0 < h ∧ h < δ / 2 := by
    refine (eventually_mem_nhdsWithin).and ?_
    exact mem_nhdsWithin_of_mem_nhds (Iio_mem_nhds half)
  have hlim : Tendsto (fun h => ∫ p in box3, g (stretch ψ₀ h p)) (𝓝[>] 0) (𝓝 (∫ p in box3, g ![ψ₀, p 1, p 2])) := by
    refine tendsto_integral_filter_of_dominated_convergence (fun _ => C) ?_ ?_ ?_ ?_
    · filter_upwards [near] with h hh
      refine ContinuousOn.aestronglyMeasurable (cg.comp (stretch_cont h).continuousOn fun p hp => ?_) box3_measurable
      exact stretch_mem hh.1.le (by linarith) ⟨hp.1.1.le, hp.1.2⟩
    · filter_upwards [near] with h hh
      refine (ae_restrict_mem box3_measurable).mono fun p hp => hC _ fun i _ => ?_
      fin_cases i
      · show ψ₀ + h * p 0 ∈ Icc ψ₀ (ψ₀ + δ / 2)
        have := mul_pos hh.1 hp.1.1
        have := mul_le_of_le_one_right hh.1.le hp.1.2
        constructor <;> linarith
      · exact Ioc_subset_Icc_self hp.2.1
      · exact Ioc_subset_Icc_self hp.2.2
    · exact integrableOn_const box3_volume
    · refine Eventually.of_forall fun p => ?_
      have k : Tendsto (fun h : ℝ => stretch ψ₀ h p) (𝓝[>] 0) (𝓝 ![ψ₀, p 1, p 2]) := by
        have c : Continuous fun h : ℝ => stretch ψ₀ h p := by
          refine continuous_pi fun i => ?_
          fin_cases i
          · exact continuous_const.add (continuous_id.mul continuous_const)
          · exact continuous_const
          · exact continuous_const
        have := c.tendsto 0
        have e : stretch ψ₀ 0 p = ![ψ₀, p 1, p 2] := by
          unfold stretch
          rw [zero_mul, add_zero]
        rw [e] at this
        exact this.mono_left nhdsWithin_le_nhds
      exact ((cg.continuousAt (region_open.mem_nhds (mem0 _ _))).tendsto).comp k
  refine hlim.congr' ?_
  filter_upwards [near] with h hh
  rw [shell_integral hn hh.1 (by linarith), mul_div_cancel_left₀ _ hh.1.ne']

/-- Volumes. -/
theorem shell_volume (ψ₀ h : ℝ) : (volume (shell x ψ₀ h)).toReal = ∫ _ in shell x ψ₀ h, (1 : ℝ) := by
  simp [Measure.real]

end Booz
