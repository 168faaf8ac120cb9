import Verif.Lemmas.TorusMap
import Mathlib.Analysis.Real.Cardinality
import Mathlib.Analysis.Calculus.InverseFunctionTheorem.ContDiff
import Mathlib.Analysis.SpecialFunctions.Trigonometric.Bounds
import Mathlib.LinearAlgebra.Matrix.ToLin
import Mathlib.LinearAlgebra.Determinant
import Mathlib.MeasureTheory.Function.Jacobian
import Mathlib.MeasureTheory.Group.Measure
import Mathlib.Topology.Algebra.Module.FiniteDimension

/-!
# A map of the torus homotopic to the identity with nowhere vanishing Jacobian is a change of coordinates

The new angles take every value (whatever the Jacobian), and take it once if the Jacobian vanishes nowhere.
Both follow from `TorusMap.mean_new` applied to a periodic bump.
-/

namespace Booz.Trapezoid
open Finset Function Spec MeasureTheory Set

variable {F : ℝ × ℝ → ℝ} {a z : ℝ × ℝ → ℝ}

instance : Measure.IsAddHaarMeasure volume (G := ℝ × ℝ) := Measure.prod.instIsAddHaarMeasure _ _

/-! ### Boxes anywhere -/

theorem mean_box {f : ℝ → ℝ} (hp : Periodic f τ) (s : ℝ) : mean τ f = (∫ x in Ioc s (s + τ), f x) / τ := by
  unfold mean
  rw [← intervalIntegral.integral_of_le (by linarith [tau_pos]), hp.intervalIntegral_add_eq s 0, zero_add]

theorem mean2_any (hp : DPer τ τ F) (hc : Continuous F) (s t : ℝ) :
    mean2 τ τ F = (∫ x in Ioc s (s + τ) ×ˢ Ioc t (t + τ), F x) / (τ * τ) := by
  have hi : IntegrableOn F (Ioc s (s + τ) ×ˢ Ioc t (t + τ)) (volume.prod volume) := by
    refine (hc.continuousOn.integrableOn_compact (isCompact_Icc (a := s) (b := s + τ) |>.prod
      (isCompact_Icc (a := t) (b := t + τ)))).mono_set ?_
    exact Set.prod_mono Set.Ioc_subset_Icc_self Set.Ioc_subset_Icc_self
  rw [Measure.volume_eq_prod, setIntegral_prod _ hi]
  have h1 : ∀ θ, mean τ (fun ζ => F (θ, ζ)) = (∫ ζ in Ioc t (t + τ), F (θ, ζ)) / τ := fun θ =>
    mean_box (hp.slice2 θ) t
  have h2 : Periodic (fun θ => mean τ fun ζ => F (θ, ζ)) τ := by
    intro θ
    have : ∀ ζ, F (θ + τ, ζ) = F (θ, ζ) := fun ζ => hp.slice1 ζ θ
    simp only [this]
  unfold mean2
  rw [mean_box h2 s]
  simp only [h1]
  rw [integral_div, div_div]

/-! ### A periodic bump -/

/-- Distance to the lattice through `c`, as a periodic function. -/
noncomputable def latDist (c y : ℝ × ℝ) : ℝ := |Real.sin ((y.1 - c.1) / 2)| + |Real.sin ((y.2 - c.2) / 2)|

theorem latDist_continuous (c : ℝ × ℝ) : Continuous (latDist c) := by
  unfold latDist
  fun_prop

theorem latDist_per (c : ℝ × ℝ) : DPer τ τ (latDist c) := by
  have key : ∀ u v : ℝ, |Real.sin ((u + τ - v) / 2)| = |Real.sin ((u - v) / 2)| := by
    intro u v
    have : (u + τ - v) / 2 = (u - v) / 2 + Real.pi := by ring
    rw [this, Real.sin_add_pi, abs_neg]
  constructor
  · intro x
    show |Real.sin ((x.1 + τ - c.1) / 2)| + |Real.sin ((x.2 + 0 - c.2) / 2)| = _
    rw [key, add_zero]
    rfl
  · intro x
    show |Real.sin ((x.1 + 0 - c.1) / 2)| + |Real.sin ((x.2 + τ - c.2) / 2)| = _
    rw [key, add_zero]
    rfl

theorem latDist_self (c : ℝ × ℝ) : latDist c c = 0 := by simp [latDist]

theorem latDist_nonneg (c y : ℝ × ℝ) : 0 ≤ latDist c y := by unfold latDist; positivity

theorem latDist_zero {c y : ℝ × ℝ} (h : latDist c y = 0) : ∃ i j : ℤ, y = (c.1 + i * τ, c.2 + j * τ) := by
  have h1 : Real.sin ((y.1 - c.1) / 2) = 0 := by
    have := abs_nonneg (Real.sin ((y.2 - c.2) / 2))
    have := abs_nonneg (Real.sin ((y.1 - c.1) / 2))
    unfold latDist at h
    exact abs_eq_zero.1 (by linarith)
  have h2 : Real.sin ((y.2 - c.2) / 2) = 0 := by
    have := abs_nonneg (Real.sin ((y.2 - c.2) / 2))
    have := abs_nonneg (Real.sin ((y.1 - c.1) / 2))
    unfold latDist at h
    exact abs_eq_zero.1 (by linarith)
  obtain ⟨i, hi⟩ := Real.sin_eq_zero_iff.1 h1
  obtain ⟨j, hj⟩ := Real.sin_eq_zero_iff.1 h2
  refine ⟨i, j, Prod.ext ?_ ?_⟩
  · show y.1 = c.1 + i * (2 * Real.pi)
    linarith
  · show y.2 = c.2 + j * (2 * Real.pi)
    linarith

/-- Near the lattice point. -/
theorem latDist_near {c y : ℝ × ℝ} (h1 : |y.1 - c.1| ≤ Real.pi) (h2 : |y.2 - c.2| ≤ Real.pi) {δ : ℝ}
    (h : latDist c y < δ) : y ∈ Metric.ball c (Real.pi * δ) := by
  have hpi := Real.pi_pos
  have key : ∀ t : ℝ, |t| ≤ Real.pi → |t| ≤ Real.pi * |Real.sin (t / 2)| := by
    intro t ht
    have e : |t / 2| = |t| / 2 := by rw [abs_div]; norm_num
    have := Real.mul_abs_le_abs_sin (x := t / 2) (by rw [e]; linarith)
    rw [e] at this
    calc |t| = Real.pi * (2 / Real.pi * (|t| / 2)) := by field_simp
      _ ≤ _ := by gcongr
  have k1 := key _ h1
  have k2 := key _ h2
  have n1 := abs_nonneg (Real.sin ((y.1 - c.1) / 2))
  have n2 := abs_nonneg (Real.sin ((y.2 - c.2) / 2))
  unfold latDist at h
  rw [Metric.mem_ball, Prod.dist_eq, Real.dist_eq, Real.dist_eq]
  refine max_lt (lt_of_le_of_lt k1 ?_) (lt_of_le_of_lt k2 ?_)
  · exact mul_lt_mul_of_pos_left (by linarith) hpi
  · exact mul_lt_mul_of_pos_left (by linarith) hpi

/-- The bump. -/
noncomputable def bump (c : ℝ × ℝ) (δ : ℝ) (y : ℝ × ℝ) : ℝ := max 0 (δ - latDist c y)

theorem bump_continuous (c : ℝ × ℝ) (δ : ℝ) : Continuous (bump c δ) :=
  continuous_const.max (continuous_const.sub (latDist_continuous c))

theorem bump_per (c : ℝ × ℝ) (δ : ℝ) : DPer τ τ (bump c δ) :=
  ⟨fun x => by unfold bump; rw [(latDist_per c).1 x], fun x => by unfold bump; rw [(latDist_per c).2 x]⟩

theorem bump_nonneg (c : ℝ × ℝ) (δ : ℝ) (y : ℝ × ℝ) : 0 ≤ bump c δ y := le_max_left _ _

theorem bump_lattice (c : ℝ × ℝ) (δ : ℝ) (i j : ℤ) (y : ℝ × ℝ) :
    bump (c.1 + i * τ, c.2 + j * τ) δ y = bump c δ y := by
  have e : latDist (c.1 + i * τ, c.2 + j * τ) y = latDist c y := by
    have := per_int (latDist_per c) (-i) (-j) y
    rw [← this]
    unfold latDist
    congr 3 <;> push_cast <;> ring
  unfold bump
  rw [e]

/-- Integral of the bump over its ball. -/
theorem bump_mean (c : ℝ × ℝ) {δ : ℝ} (hδ : 0 < δ) (h1 : δ ≤ 1) :
    mean2 τ τ (bump c δ) = (∫ y in Metric.ball c (Real.pi * δ), bump c δ y) / (τ * τ) := by
  have hpi := Real.pi_pos
  rw [mean2_any (bump_per c δ) (bump_continuous c δ) (c.1 - Real.pi) (c.2 - Real.pi)]
  congr 1
  have hle : Real.pi * δ ≤ Real.pi := by nlinarith
  apply setIntegral_eq_of_subset_of_forall_sdiff_eq_zero
  · exact measurableSet_Ioc.prod measurableSet_Ioc
  · intro y hy
    rw [Metric.mem_ball, Prod.dist_eq, Real.dist_eq, Real.dist_eq, max_lt_iff, abs_lt, abs_lt] at hy
    refine ⟨⟨by linarith, ?_⟩, ⟨by linarith, ?_⟩⟩
    · show _ ≤ c.1 - Real.pi + 2 * Real.pi
      linarith
    · show _ ≤ c.2 - Real.pi + 2 * Real.pi
      linarith
  · rintro y ⟨⟨⟨a1, a2⟩, b1, b2⟩, hn⟩
    have a2' : y.1 ≤ c.1 - Real.pi + 2 * Real.pi := a2
    have b2' : y.2 ≤ c.2 - Real.pi + 2 * Real.pi := b2
    refine max_eq_left ?_
    by_contra hlt
    exact hn (latDist_near (abs_le.2 ⟨by linarith, by linarith⟩) (abs_le.2 ⟨by linarith, by linarith⟩) (by linarith))

theorem bump_pos (c : ℝ × ℝ) {δ : ℝ} (hδ : 0 < δ) : 0 < ∫ y in Metric.ball c (Real.pi * δ), bump c δ y := by
  have hpi := Real.pi_pos
  have hi : IntegrableOn (bump c δ) (Metric.ball c (Real.pi * δ)) :=
    ((bump_continuous c δ).continuousOn.integrableOn_compact (isCompact_closedBall c (Real.pi * δ))).mono_set
      Metric.ball_subset_closedBall
  rw [setIntegral_pos_iff_support_of_nonneg_ae (Filter.Eventually.of_forall (bump_nonneg c δ)) hi]
  have ho : IsOpen (support (bump c δ) ∩ Metric.ball c (Real.pi * δ)) :=
    ((bump_continuous c δ).isOpen_support).inter Metric.isOpen_ball
  refine ho.measure_pos _ ⟨c, ?_, Metric.mem_ball_self (by positivity)⟩
  show bump c δ c ≠ 0
  unfold bump
  rw [latDist_self, sub_zero, max_eq_right hδ.le]
  exact hδ.ne'

namespace TorusMap

/-! ### Every value is taken -/

theorem surjective (h : TorusMap a z) : Surjective (newAngles a z) := by
  intro c
  by_contra hno
  push Not at hno
  have hne : ∀ x, 0 < latDist c (newAngles a z x) := by
    intro x
    rcases (latDist_nonneg c (newAngles a z x)).lt_or_eq with hlt | heq
    · exact hlt
    · obtain ⟨i, j, e⟩ := latDist_zero heq.symm
      exfalso
      apply hno (x.1 + (-i : ℤ) * τ, x.2 + (-j : ℤ) * τ)
      rw [h.shift, e]
      ext <;> push_cast <;> ring
  have hcont : Continuous fun x => latDist c (newAngles a z x) := (latDist_continuous c).comp h.continuous
  obtain ⟨x0, -, hmin⟩ := (isCompact_Icc (a := (0 : ℝ)) (b := τ) |>.prod (isCompact_Icc (a := (0 : ℝ)) (b := τ))).exists_isMinOn
    ⟨((0 : ℝ), (0 : ℝ)), ⟨⟨le_rfl, tau_pos.le⟩, ⟨le_rfl, tau_pos.le⟩⟩⟩ hcont.continuousOn
  set δ := min 1 (latDist c (newAngles a z x0)) with hδd
  have hδ : 0 < δ := lt_min one_pos (hne x0)
  have hb : ∀ x, δ ≤ latDist c (newAngles a z x) := by
    intro x
    have hx : ∃ i j : ℤ, (x.1 + i * τ, x.2 + j * τ) ∈ Icc (0 : ℝ) τ ×ˢ Icc (0 : ℝ) τ := by
      have key : ∀ u : ℝ, ∃ i : ℤ, u + i * τ ∈ Icc (0 : ℝ) τ := by
        intro u
        refine ⟨-⌊u / τ⌋, ?_, ?_⟩
        · have := Int.floor_le (u / τ)
          rw [le_div_iff₀ tau_pos] at this
          push_cast
          linarith
        · have := (Int.lt_floor_add_one (u / τ)).le
          rw [div_le_iff₀ tau_pos] at this
          push_cast
          linarith
      obtain ⟨i, hi⟩ := key x.1
      obtain ⟨j, hj⟩ := key x.2
      exact ⟨i, j, hi, hj⟩
    obtain ⟨i, j, hx⟩ := hx
    have h1 := hmin hx
    have h2 : latDist c (newAngles a z x0) ≤ latDist c (newAngles a z (x.1 + i * τ, x.2 + j * τ)) := h1
    rw [h.shift, per_int (latDist_per c)] at h2
    exact (min_le_right _ _).trans h2
  have e0 : (fun x => bump c δ (newAngles a z x) * newDet a z x) = fun _ => 0 := by
    funext x
    have : bump c δ (newAngles a z x) = 0 := max_eq_left (by linarith [hb x])
    rw [this, zero_mul]
  have := h.mean_new (bump_continuous c δ) (bump_per c δ)
  rw [e0, mean2_zero, bump_mean c hδ (min_le_left _ _)] at this
  have hp := div_pos (bump_pos c hδ) (mul_pos tau_pos tau_pos)
  linarith

/-! ### The derivative -/

/-- The derivative of the new angles. -/
noncomputable def newDeriv (a z : ℝ × ℝ → ℝ) (x : ℝ × ℝ) : ℝ × ℝ →L[ℝ] ℝ × ℝ :=
  (ContinuousLinearMap.fst ℝ ℝ ℝ + fderiv ℝ a x).prod (ContinuousLinearMap.snd ℝ ℝ ℝ + fderiv ℝ z x)

theorem smooth (h : TorusMap a z) : ContDiff ℝ (⊤ : ℕ∞) (newAngles a z) := h.sA.prodMk h.sZ

theorem hasStrict (h : TorusMap a z) (x : ℝ × ℝ) : HasStrictFDerivAt (newAngles a z) (newDeriv a z x) x := by
  have h1 : HasStrictFDerivAt (newAngles a z) (fderiv ℝ (newAngles a z) x) x :=
    (h.smooth.contDiffAt).hasStrictFDerivAt (by simp)
  have h2 : HasFDerivAt (newAngles a z) (newDeriv a z x) x :=
    (hasFDerivAt_fst.add (h.sa.differentiable x).hasFDerivAt).prodMk
      (hasFDerivAt_snd.add (h.sz.differentiable x).hasFDerivAt)
  rwa [h2.fderiv] at h1

theorem det_eq (a z : ℝ × ℝ → ℝ) (x : ℝ × ℝ) : (newDeriv a z x).det = newDet a z x := by
  unfold ContinuousLinearMap.det
  rw [← LinearMap.det_toMatrix (Module.Basis.finTwoProd ℝ), Matrix.det_fin_two]
  simp only [LinearMap.toMatrix_apply, Module.Basis.finTwoProd_zero, Module.Basis.finTwoProd_one]
  simp [newDeriv, newDet, D1, D2]

/-- The derivative as an isomorphism. -/
noncomputable def newEquiv (hd : ∀ x, newDet a z x ≠ 0) (x : ℝ × ℝ) : (ℝ × ℝ) ≃L[ℝ] (ℝ × ℝ) :=
  (newDeriv a z x).toContinuousLinearEquivOfDetNeZero (by rw [det_eq]; exact hd x)

theorem coe_newEquiv (hd : ∀ x, newDet a z x ≠ 0) (x : ℝ × ℝ) :
    (newEquiv hd x : ℝ × ℝ →L[ℝ] ℝ × ℝ) = newDeriv a z x :=
  ContinuousLinearMap.coe_toContinuousLinearEquivOfDetNeZero _ _

theorem isOpenMap (h : TorusMap a z) (hd : ∀ x, newDet a z x ≠ 0) : IsOpenMap (newAngles a z) :=
  isOpenMap_of_hasStrictFDerivAt_equiv (f' := newEquiv hd) fun x => by
    rw [coe_newEquiv]
    exact h.hasStrict x

/-- Since its mean is 1, a determinant that vanishes nowhere is positive. -/
theorem det_pos (h : TorusMap a z) (hd : ∀ x, newDet a z x ≠ 0) (x : ℝ × ℝ) : 0 < newDet a z x := by
  have hcont := h.det_smooth.continuous
  by_contra hx
  have hall : ∀ y, newDet a z y < 0 := by
    intro y
    by_contra hy
    have hy' : 0 ≤ newDet a z y := not_lt.1 hy
    obtain ⟨w, hw⟩ := mem_range_of_exists_le_of_exists_ge hcont ⟨x, not_lt.1 hx⟩ ⟨y, hy'⟩
    exact hd w hw
  have h1 := h.mean_det
  rw [mean2_box tau_pos tau_pos hcont] at h1
  have : (∫ x in Ioc (0 : ℝ) τ ×ˢ Ioc (0 : ℝ) τ, newDet a z x) ≤ 0 :=
    setIntegral_nonpos (measurableSet_Ioc.prod measurableSet_Ioc) fun y _ => (hall y).le
  have h2 := div_nonpos_of_nonpos_of_nonneg this (mul_pos tau_pos tau_pos).le
  linarith

/-! ### No value is taken twice -/

/-- A point of the lattice class of `u` inside the open interval after `s`, if `u` is not on its edge. -/
theorem _root_.Booz.Trapezoid.into_box {u s : ℝ} (hs : ∀ i : ℤ, u + i * τ ≠ s) : ∃ i : ℤ, u + i * τ ∈ Ioo s (s + τ) := by
  refine ⟨-⌊(u - s) / τ⌋, ?_, ?_⟩
  · have := Int.floor_le ((u - s) / τ)
    rw [le_div_iff₀ tau_pos] at this
    refine lt_of_le_of_ne ?_ (hs _).symm
    push_cast
    linarith
  · have := Int.lt_floor_add_one ((u - s) / τ)
    rw [div_lt_iff₀ tau_pos] at this
    push_cast
    linarith

/-- A start of an interval avoiding two classes. -/
theorem _root_.Booz.Trapezoid.avoid (u v : ℝ) : ∃ s : ℝ, (∀ i : ℤ, u + i * τ ≠ s) ∧ ∀ i : ℤ, v + i * τ ≠ s := by
  have hc : (Set.range (fun i : ℤ => u + i * τ) ∪ Set.range fun i : ℤ => v + i * τ).Countable :=
    (Set.countable_range _).union (Set.countable_range _)
  have : (Set.range (fun i : ℤ => u + i * τ) ∪ Set.range fun i : ℤ => v + i * τ) ≠ Set.univ := by
    intro e
    rw [e] at hc
    exact Set.not_countable_univ hc
  obtain ⟨s, hs⟩ := (Set.ne_univ_iff_exists_notMem _).1 this
  refine ⟨s, fun i hi => hs (Or.inl ⟨i, hi⟩), fun i hi => hs (Or.inr ⟨i, hi⟩)⟩

/-- A neighbourhood inside `W` on which the map is injective, and a ball its image contains. -/
theorem local_inj (h : TorusMap a z) (hd : ∀ x, newDet a z x ≠ 0) {x : ℝ × ℝ} {W : Set (ℝ × ℝ)} (hW : IsOpen W)
    (hx : x ∈ W) : ∃ U ⊆ W, IsOpen U ∧ InjOn (newAngles a z) U ∧ ∃ ρ > 0, Metric.ball (newAngles a z x) ρ ⊆ newAngles a z '' U := by
  have hs : HasStrictFDerivAt (newAngles a z) (newEquiv hd x : ℝ × ℝ →L[ℝ] ℝ × ℝ) x := by
    rw [coe_newEquiv]
    exact h.hasStrict x
  set e := hs.toOpenPartialHomeomorph (newAngles a z) with he
  have hxe : x ∈ e.source := hs.mem_toOpenPartialHomeomorph_source
  refine ⟨e.source ∩ W, inter_subset_right, e.open_source.inter hW, fun u hu v hv huv => e.injOn hu.1 hv.1 huv, ?_⟩
  have ho := h.isOpenMap hd _ (e.open_source.inter hW)
  exact Metric.isOpen_iff.1 ho _ ⟨x, ⟨hxe, hx⟩, rfl⟩

theorem integral_local (h : TorusMap a z) (hd : ∀ x, newDet a z x ≠ 0) {U : Set (ℝ × ℝ)} (hU : IsOpen U)
    (hi : InjOn (newAngles a z) U) (g : ℝ × ℝ → ℝ) :
    ∫ y in newAngles a z '' U, g y = ∫ x in U, g (newAngles a z x) * newDet a z x := by
  rw [integral_image_eq_integral_abs_det_fderiv_smul volume hU.measurableSet
    (fun x _ => (h.hasStrict x).hasFDerivAt.hasFDerivWithinAt) hi]
  refine setIntegral_congr_fun hU.measurableSet fun x _ => ?_
  show |(newDeriv a z x).det| • g (newAngles a z x) = _
  rw [det_eq, abs_of_pos (h.det_pos hd x), smul_eq_mul, mul_comm]

theorem det_per (h : TorusMap a z) : DPer τ τ (newDet a z) := by
  constructor
  · intro x
    unfold newDet
    rw [h.pa.d1.1 x, h.pz.d2.1 x, h.pa.d2.1 x, h.pz.d1.1 x]
  · intro x
    unfold newDet
    rw [h.pa.d1.2 x, h.pz.d2.2 x, h.pa.d2.2 x, h.pz.d1.2 x]

theorem comp_per (h : TorusMap a z) {g : ℝ × ℝ → ℝ} (hg : DPer τ τ g) : DPer τ τ fun x => g (newAngles a z x) := by
  constructor
  · intro x
    have := h.shift 1 0 x
    have e' : x + (τ, 0) = (x.1 + ((1 : ℤ) : ℝ) * τ, x.2 + ((0 : ℤ) : ℝ) * τ) := by ext <;> simp
    show g (newAngles a z (x + (τ, 0))) = _
    rw [e', this, per_int hg]
  · intro x
    have := h.shift 0 1 x
    have e' : x + (0, τ) = (x.1 + ((0 : ℤ) : ℝ) * τ, x.2 + ((1 : ℤ) : ℝ) * τ) := by ext <;> simp
    show g (newAngles a z (x + (0, τ))) = _
    rw [e', this, per_int hg]

/-- Two points of one box with the same new angles up to the lattice coincide. -/
theorem inj_box (h : TorusMap a z) (hd : ∀ x, newDet a z x ≠ 0) {s t : ℝ} {x y : ℝ × ℝ}
    (hx : x ∈ Ioo s (s + τ) ×ˢ Ioo t (t + τ)) (hy : y ∈ Ioo s (s + τ) ×ˢ Ioo t (t + τ)) (i j : ℤ)
    (he : newAngles a z y = ((newAngles a z x).1 + i * τ, (newAngles a z x).2 + j * τ)) : x = y := by
  by_contra hne
  have hpi := Real.pi_pos
  set c := newAngles a z x with hc
  set W : Set (ℝ × ℝ) := Ioo s (s + τ) ×ˢ Ioo t (t + τ) with hW
  have hWo : IsOpen W := isOpen_Ioo.prod isOpen_Ioo
  obtain ⟨V1, V2, hV1, hV2, hx1, hy2, hdis⟩ := t2_separation hne
  obtain ⟨U1, hU1W, hU1, hi1, ρ1, hρ1, hb1⟩ := h.local_inj hd (hV1.inter hWo) ⟨hx1, hx⟩
  obtain ⟨U2, hU2W, hU2, hi2, ρ2, hρ2, hb2⟩ := h.local_inj hd (hV2.inter hWo) ⟨hy2, hy⟩
  set δ := min 1 (min ρ1 ρ2 / Real.pi) with hδd
  have hδ : 0 < δ := lt_min one_pos (div_pos (lt_min hρ1 hρ2) hpi)
  have hδρ : Real.pi * δ ≤ min ρ1 ρ2 := by
    have := mul_le_mul_of_nonneg_left (min_le_right 1 (min ρ1 ρ2 / Real.pi)) hpi.le
    rwa [mul_div_cancel₀ _ hpi.ne'] at this
  set g := bump c δ with hg
  have hgc : Continuous g := bump_continuous c δ
  set f : ℝ × ℝ → ℝ := fun x => g (newAngles a z x) * newDet a z x with hf
  have hfc : Continuous f := (hgc.comp h.continuous).mul h.det_smooth.continuous
  have hfp : DPer τ τ f := by
    have p1 := h.comp_per (bump_per c δ)
    have p2 := h.det_per
    exact ⟨fun x => congrArg₂ (· * ·) (p1.1 x) (p2.1 x), fun x => congrArg₂ (· * ·) (p1.2 x) (p2.2 x)⟩
  have hf0 : ∀ x, 0 ≤ f x := fun x => mul_nonneg (bump_nonneg _ _ _) (h.det_pos hd x).le
  set I := ∫ y in Metric.ball c (Real.pi * δ), g y with hI
  have hIpos : 0 < I := bump_pos c hδ
  -- the integral over the box is I
  have hbox : ∫ x in Ioc s (s + τ) ×ˢ Ioc t (t + τ), f x = I := by
    have h1 := h.mean_new hgc (bump_per c δ)
    rw [bump_mean c hδ (min_le_left _ _), mean2_any hfp hfc s t] at h1
    exact (div_left_inj' (mul_pos tau_pos tau_pos).ne').1 h1
  -- each neighbourhood contributes I
  have hint : ∀ {K : Set (ℝ × ℝ)}, K ⊆ Ioc s (s + τ) ×ˢ Ioc t (t + τ) → IntegrableOn f K := fun {K} hK =>
    (hfc.continuousOn.integrableOn_compact (isCompact_Icc (a := s) (b := s + τ) |>.prod
      (isCompact_Icc (a := t) (b := t + τ)))).mono_set
      (hK.trans (Set.prod_mono Set.Ioc_subset_Icc_self Set.Ioc_subset_Icc_self))
  have hsub : W ⊆ Ioc s (s + τ) ×ˢ Ioc t (t + τ) := Set.prod_mono Set.Ioo_subset_Ioc_self Set.Ioo_subset_Ioc_self
  have gi : ∀ {U : Set (ℝ × ℝ)}, IsOpen U → InjOn (newAngles a z) U → U ⊆ W → IntegrableOn g (newAngles a z '' U) := by
    intro U hU hi hUW
    rw [integrableOn_image_iff_integrableOn_abs_det_fderiv_smul volume hU.measurableSet
      (fun x _ => (h.hasStrict x).hasFDerivAt.hasFDerivWithinAt) hi]
    refine (hint (hUW.trans hsub)).congr_fun (fun x _ => ?_) hU.measurableSet
    show _ = |(newDeriv a z x).det| • g (newAngles a z x)
    rw [det_eq, abs_of_pos (h.det_pos hd x), smul_eq_mul, mul_comm]
  have k1 : I ≤ ∫ x in U1, f x := by
    rw [← h.integral_local hd hU1 hi1 g]
    refine setIntegral_mono_set (gi hU1 hi1 fun _ hu => (hU1W hu).2)
      (Filter.Eventually.of_forall (bump_nonneg c δ)) (LE.le.eventuallyLE ?_)
    exact (Metric.ball_subset_ball (hδρ.trans (min_le_left _ _))).trans hb1
  have k2 : I ≤ ∫ x in U2, f x := by
    rw [← h.integral_local hd hU2 hi2 g]
    have e1 : I = ∫ y in Metric.ball (newAngles a z y) (Real.pi * δ), g y := by
      have m1 := bump_mean c hδ (min_le_left _ _)
      have m2 := bump_mean (newAngles a z y) hδ (min_le_left _ _)
      have e2 : bump (newAngles a z y) δ = g := by
        funext w
        rw [he]
        exact bump_lattice c δ i j w
      rw [e2, m1] at m2
      exact (div_left_inj' (mul_pos tau_pos tau_pos).ne').1 m2
    rw [e1]
    refine setIntegral_mono_set (gi hU2 hi2 fun _ hu => (hU2W hu).2)
      (Filter.Eventually.of_forall (bump_nonneg c δ)) (LE.le.eventuallyLE ?_)
    exact (Metric.ball_subset_ball (hδρ.trans (min_le_right _ _))).trans hb2
  have hd12 : Disjoint U1 U2 := hdis.mono (fun _ hu => (hU1W hu).1) fun _ hu => (hU2W hu).1
  have k3 : (∫ x in U1, f x) + ∫ x in U2, f x ≤ I := by
    rw [← setIntegral_union hd12 hU2.measurableSet (hint fun _ hu => hsub (hU1W hu).2) (hint fun _ hu => hsub (hU2W hu).2),
      ← hbox]
    refine setIntegral_mono_set (hint subset_rfl) (Filter.Eventually.of_forall hf0)
      (LE.le.eventuallyLE ?_)
    rintro u (hu | hu)
    · exact hsub (hU1W hu).2
    · exact hsub (hU2W hu).2
  linarith

theorem injective (h : TorusMap a z) (hd : ∀ x, newDet a z x ≠ 0) : Injective (newAngles a z) := by
  intro x y hxy
  obtain ⟨s, hs1, hs2⟩ := avoid x.1 y.1
  obtain ⟨t, ht1, ht2⟩ := avoid x.2 y.2
  obtain ⟨i1, hi1⟩ := into_box hs1
  obtain ⟨i2, hi2⟩ := into_box hs2
  obtain ⟨j1, hj1⟩ := into_box ht1
  obtain ⟨j2, hj2⟩ := into_box ht2
  have he := h.inj_box hd (x := (x.1 + i1 * τ, x.2 + j1 * τ)) (y := (y.1 + i2 * τ, y.2 + j2 * τ)) (s := s) (t := t)
    ⟨hi1, hj1⟩ ⟨hi2, hj2⟩ (i2 - i1) (j2 - j1) (by
      rw [h.shift, h.shift, hxy]
      ext <;> push_cast <;> ring)
  have e1 : x.1 + i1 * τ = y.1 + i2 * τ := congrArg Prod.fst he
  have e2 : x.2 + j1 * τ = y.2 + j2 * τ := congrArg Prod.snd he
  have ey : y = (x.1 + (i1 - i2 : ℤ) * τ, x.2 + (j1 - j2 : ℤ) * τ) := by
    ext <;> push_cast <;> linarith
  rw [ey, h.shift] at hxy
  have f1 : (newAngles a z x).1 = (newAngles a z x).1 + (i1 - i2 : ℤ) * τ := congrArg Prod.fst hxy
  have f2 : (newAngles a z x).2 = (newAngles a z x).2 + (j1 - j2 : ℤ) * τ := congrArg Prod.snd hxy
  rw [ey]
  ext
  · show x.1 = x.1 + (i1 - i2 : ℤ) * τ
    linarith
  · show x.2 = x.2 + (j1 - j2 : ℤ) * τ
    linarith

/-! ### The inverse -/

/-- The change of coordinates. -/
noncomputable def homeo (h : TorusMap a z) (hd : ∀ x, newDet a z x ≠ 0) : (ℝ × ℝ) ≃ₜ (ℝ × ℝ) :=
  (Equiv.ofBijective _ ⟨h.injective hd, h.surjective⟩).toHomeomorphOfContinuousOpen h.continuous (h.isOpenMap hd)

theorem homeo_apply (h : TorusMap a z) (hd : ∀ x, newDet a z x ≠ 0) (x : ℝ × ℝ) : h.homeo hd x = newAngles a z x := rfl

theorem symm_smooth (h : TorusMap a z) (hd : ∀ x, newDet a z x ≠ 0) : ContDiff ℝ (⊤ : ℕ∞) (h.homeo hd).symm :=
  (h.homeo hd).contDiff_symm (f₀' := newEquiv hd)
    (fun x => by rw [coe_newEquiv]; exact (h.hasStrict x).hasFDerivAt) h.smooth

theorem symm_shift (h : TorusMap a z) (hd : ∀ x, newDet a z x ≠ 0) (i j : ℤ) (y : ℝ × ℝ) :
    (h.homeo hd).symm (y.1 + i * τ, y.2 + j * τ) = (((h.homeo hd).symm y).1 + i * τ, ((h.homeo hd).symm y).2 + j * τ) := by
  rw [Homeomorph.symm_apply_eq, homeo_apply, h.shift, ← h.homeo_apply hd, Homeomorph.apply_symm_apply]

end TorusMap
end Booz.Trapezoid
