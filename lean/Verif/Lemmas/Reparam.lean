import Verif.Spec.Reparam
import Verif.Lemmas.Shift
import Verif.Props.Theory
import Verif.Props.Quasisymmetry

/-!
# Lemmas for C79: change of the poloidal angle
-/

namespace Booz
open Spec Trapezoid Finset Function

variable {F : ℝ × ℝ → ℝ} {χ : ℝ → ℝ → ℝ}

theorem fderiv_pair (x : ℝ × ℝ) (u v : ℝ) : fderiv ℝ F x (u, v) = u * D1 F x + v * D2 F x := by
  have : ((u, v) : ℝ × ℝ) = u • (1, 0) + v • (0, 1) := by simp
  rw [this, map_add, map_smul, map_smul]
  rfl

theorem comp_deriv1 (hF : Smooth F) (hχ : Smooth (uncurry χ)) (θ ζ : ℝ) :
    HasDerivAt (fun t => F (t + χ t ζ, ζ)) (D1 F (θ + χ θ ζ, ζ) * (1 + deriv (fun t => χ t ζ) θ)) θ := by
  have c : HasDerivAt (fun t => χ t ζ) (deriv (fun t => χ t ζ) θ) θ :=
    (hχ.hasDeriv1 θ ζ).differentiableAt.hasDerivAt
  have cv : HasDerivAt (fun t => (t + χ t ζ, ζ)) (1 + deriv (fun t => χ t ζ) θ, 0) θ :=
    ((hasDerivAt_id θ).add c).prodMk (hasDerivAt_const θ ζ)
  have := (hF.differentiable (θ + χ θ ζ, ζ)).hasFDerivAt.comp_hasDerivAt (f := fun t => (t + χ t ζ, ζ)) θ cv
  rw [fderiv_pair] at this
  exact this.congr_deriv (by ring)

theorem comp_deriv2 (hF : Smooth F) (hχ : Smooth (uncurry χ)) (θ ζ : ℝ) :
    HasDerivAt (fun z => F (θ + χ θ z, z)) (D1 F (θ + χ θ ζ, ζ) * deriv (fun z => χ θ z) ζ + D2 F (θ + χ θ ζ, ζ)) ζ := by
  have c : HasDerivAt (fun z => χ θ z) (deriv (fun z => χ θ z) ζ) ζ :=
    (hχ.hasDeriv2 θ ζ).differentiableAt.hasDerivAt
  have cv : HasDerivAt (fun z => (θ + χ θ z, z)) (deriv (fun z => χ θ z) ζ, 1) ζ := (c.const_add θ).prodMk (hasDerivAt_id ζ)
  have := (hF.differentiable (θ + χ θ ζ, ζ)).hasFDerivAt.comp_hasDerivAt (f := fun z => (θ + χ θ z, z)) ζ cv
  rw [fderiv_pair] at this
  exact this.congr_deriv (by ring)

/-- A function with constant derivative and equal values at two points is constant. -/
theorem const_of_deriv {f : ℝ → ℝ} {c p : ℝ} (h : ∀ x, HasDerivAt f c x) (hp : p ≠ 0) (hf : f p = f 0) :
    c = 0 ∧ ∀ x, f x = f 0 := by
  have e : ∀ x, f x - c * x = f 0 := by
    intro x
    have hd : ∀ x, HasDerivAt (fun x => f x - c * x) (c - c * 1) x := fun x => (h x).sub ((hasDerivAt_id x).const_mul c)
    have := is_const_of_deriv_eq_zero (f := fun x => f x - c * x) (fun x => (hd x).differentiableAt)
      (fun x => by rw [(hd x).deriv]; ring) x 0
    simpa using this
  have c0 : c = 0 := by
    have := e p
    rw [hf] at this
    exact (mul_eq_zero.1 (by linarith : c * p = 0)).resolve_right hp
  refine ⟨c0, fun x => ?_⟩
  have := e x
  rw [c0] at this
  linarith

/-- What a change of the poloidal angle does to a surface. -/
structure Reparam (χ : ℝ → ℝ → ℝ) (θ₀ ζ₀ : ℝ) (S₁ S₂ : Surface) : Prop where
  smooth : Smooth (uncurry χ)
  periodic : TorusFn χ
  iota : S₁.iota = S₂.iota
  I : S₁.I = S₂.I
  G : S₁.G = S₂.G
  angles : AnglesAgree χ θ₀ ζ₀ S₁ S₂
  R : ∀ θ ζ, S₁.R θ ζ = S₂.R (θ + χ θ ζ) ζ
  Z : ∀ θ ζ, S₁.Z θ ζ = S₂.Z (θ + χ θ ζ) ζ
  B : ∀ θ ζ, S₁.B θ ζ = S₂.B (θ + χ θ ζ) ζ

theorem reparam_of {I₁ I₂ : Inputs ℝ} {a₁ a₂ : Bool} {j₁ j₂ : ℕ} (h : SameField χ I₁ a₁ j₁ I₂ a₂ j₂)
    (ho₁ : OriginOnce I₁) (ho₂ : OriginOnce I₂) (q₁ : 1 ≤ I₁.xm_nyq.size) (q₂ : 1 ≤ I₂.xm_nyq.size)
    (hc₁ : NoRadialCurrent I₁ a₁ j₁) (hc₂ : NoRadialCurrent I₂ a₂ j₂)
    (p₁ : DPer τ τ (uncurry (surface I₁ a₁ j₁).w)) (p₂ : DPer τ τ (uncurry (surface I₂ a₂ j₂).w)) :
    ∃ θ₀ ζ₀, Reparam χ θ₀ ζ₀ (surface I₁ a₁ j₁) (surface I₂ a₂ j₂) ∧
      (a₁ = false → a₂ = false → χ 0 0 = 0 → θ₀ = 0 ∧ ζ₀ = 0) := by
  set S₁ := surface I₁ a₁ j₁ with hS₁
  set S₂ := surface I₂ a₂ j₂ with hS₂
  have s₂ := smooth_surface I₂ a₂ j₂
  have d1 : ∀ θ ζ, D1 (uncurry S₂.w) (θ, ζ) = bTheta I₂ a₂ j₂ θ ζ - S₂.I := fun θ ζ =>
    (s₂.w.hasDeriv1 θ ζ).unique (w_deriv_theta ho₂ q₂ hc₂ θ ζ)
  have d2 : ∀ θ ζ, D2 (uncurry S₂.w) (θ, ζ) = bZeta I₂ a₂ j₂ θ ζ - S₂.G := fun θ ζ =>
    (s₂.w.hasDeriv2 θ ζ).unique (w_deriv_zeta ho₂ q₂ hc₂ θ ζ)
  let F : ℝ → ℝ → ℝ := fun θ ζ => S₁.w θ ζ - S₂.w (θ + χ θ ζ) ζ - S₂.I * χ θ ζ
  have f1 : ∀ ζ θ, HasDerivAt (fun t => F t ζ) (S₂.I - S₁.I) θ := fun ζ θ => by
    have c : HasDerivAt (fun t => χ t ζ) (deriv (fun t => χ t ζ) θ) θ :=
      (Smooth.hasDeriv1 h.smooth θ ζ).differentiableAt.hasDerivAt
    refine (((w_deriv_theta ho₁ q₁ hc₁ θ ζ).sub (comp_deriv1 s₂.w h.smooth θ ζ)).sub (c.const_mul S₂.I)).congr_deriv ?_
    rw [d1, h.Btheta]
    show _ - S₁.I - _ - _ = _
    ring
  have f2 : ∀ θ ζ, HasDerivAt (fun z => F θ z) (S₂.G - S₁.G) ζ := fun θ ζ => by
    have c : HasDerivAt (fun z => χ θ z) (deriv (fun z => χ θ z) ζ) ζ :=
      (Smooth.hasDeriv2 h.smooth θ ζ).differentiableAt.hasDerivAt
    refine (((w_deriv_zeta ho₁ q₁ hc₁ θ ζ).sub (comp_deriv2 s₂.w h.smooth θ ζ)).sub (c.const_mul S₂.I)).congr_deriv ?_
    rw [d1, d2, h.Bzeta]
    show _ - S₁.G - _ - _ = _
    ring
  have hτ : (2 * Real.pi) ≠ 0 := by positivity
  have g1 : ∀ ζ, S₂.I - S₁.I = 0 ∧ ∀ θ, F θ ζ = F 0 ζ := fun ζ => const_of_deriv (f1 ζ) hτ (by
    have e1 := p₁.slice1 ζ 0
    have e2 := p₂.slice1 ζ (0 + χ 0 ζ)
    have e3 := h.periodic.1 0 ζ
    simp only [zero_add, uncurry] at e1 e2 e3
    show S₁.w _ ζ - S₂.w (_ + χ _ ζ) ζ - S₂.I * χ _ ζ = S₁.w 0 ζ - S₂.w (0 + χ 0 ζ) ζ - S₂.I * χ 0 ζ
    rw [e3, zero_add, add_comm (2 * Real.pi), e2, e1])
  have g2 : ∀ θ, S₂.G - S₁.G = 0 ∧ ∀ ζ, F θ ζ = F θ 0 := fun θ => const_of_deriv (f2 θ) hτ (by
    have e1 := p₁.slice2 θ 0
    have e2 := p₂.slice2 (θ + χ θ 0) 0
    have e3 := h.periodic.2 θ 0
    simp only [zero_add, uncurry] at e1 e2 e3
    show S₁.w θ _ - S₂.w (θ + χ θ _) _ - S₂.I * χ θ _ = S₁.w θ 0 - S₂.w (θ + χ θ 0) 0 - S₂.I * χ θ 0
    rw [e3, e2, e1])
  have eI : S₁.I = S₂.I := by linarith [(g1 0).1]
  have eG : S₁.G = S₂.G := by linarith [(g2 0).1]
  have eF : ∀ θ ζ, F θ ζ = F 0 0 := fun θ ζ => ((g1 ζ).2 θ).trans ((g2 0).2 ζ)
  obtain ⟨a, ha⟩ := h.line
  have nu : ∀ θ ζ, S₁.nu θ ζ = S₂.nu (θ + χ θ ζ) ζ + (F 0 0 - S₂.I * a) / (S₂.G + S₂.iota * S₂.I) := by
    intro θ ζ
    unfold Surface.nu
    rw [h.iota, eI, eG, ← add_div]
    congr 1
    have x := eF θ ζ
    have y := ha θ ζ
    have x' : S₁.w θ ζ - S₂.w (θ + χ θ ζ) ζ - S₂.I * χ θ ζ = F 0 0 := x
    linear_combination x' - S₂.I * y
  refine ⟨a + S₂.iota * ((F 0 0 - S₂.I * a) / (S₂.G + S₂.iota * S₂.I)), (F 0 0 - S₂.I * a) / (S₂.G + S₂.iota * S₂.I),
    ⟨h.smooth, h.periodic, h.iota, eI, eG, fun θ ζ => ⟨?_, ?_⟩, h.R, h.Z, h.B⟩, ?_⟩
  · unfold Surface.thetaB
    rw [nu, h.iota]
    linear_combination ha θ ζ
  · unfold Surface.zetaB
    rw [nu]
    ring
  · intro b₁ b₂ hχ
    have odd0 : ∀ {f : ℝ → ℝ → ℝ}, OddF f → f 0 0 = 0 := fun {f} hf => by
      have := hf 0 0
      simp only [neg_zero] at this
      linarith
    obtain ⟨l₁, w₁, -⟩ := surf_parity I₁ j₁
    obtain ⟨l₂, w₂, -⟩ := surf_parity I₂ j₂
    rw [← b₁] at l₁ w₁
    rw [← b₂] at l₂ w₂
    have a0 : a = 0 := by
      have := ha 0 0
      rw [hχ, add_zero, odd0 l₁, odd0 l₂] at this
      linarith
    have F0 : F 0 0 = 0 := by
      show S₁.w 0 0 - S₂.w (0 + χ 0 0) 0 - S₂.I * χ 0 0 = 0
      rw [hχ, add_zero, odd0 w₁, odd0 w₂]
      ring
    rw [a0, F0]
    simp

namespace Reparam
variable {S₁ S₂ : Surface} {θ₀ ζ₀ : ℝ} {nfp : ℕ}

theorem nu (h : Reparam χ θ₀ ζ₀ S₁ S₂) (θ ζ : ℝ) : S₁.nu θ ζ = S₂.nu (θ + χ θ ζ) ζ + ζ₀ := by
  have := (h.angles θ ζ).2
  unfold Surface.zetaB at this
  linarith

theorem jacobian (h : Reparam χ θ₀ ζ₀ S₁ S₂) (θ ζ : ℝ) : S₁.jacobian θ ζ = S₂.jacobian (θ + χ θ ζ) ζ := by
  unfold Surface.jacobian
  rw [h.G, h.I, h.iota, h.B]

theorem det (h : Reparam χ θ₀ ζ₀ S₁ S₂) (s₂ : SmoothSurface S₂) (θ ζ : ℝ) :
    S₁.det θ ζ = S₂.det (θ + χ θ ζ) ζ * (1 + deriv (fun t => χ t ζ) θ) := by
  unfold Surface.det
  have t1 : HasDerivAt (fun t => S₁.thetaB t ζ) _ θ :=
    ((comp_deriv1 s₂.thetaB h.smooth θ ζ).add_const θ₀).congr_of_eventuallyEq (.of_forall fun t => (h.angles t ζ).1)
  have t2 : HasDerivAt (fun z => S₁.thetaB θ z) _ ζ :=
    ((comp_deriv2 s₂.thetaB h.smooth θ ζ).add_const θ₀).congr_of_eventuallyEq (.of_forall fun z => (h.angles θ z).1)
  have z1 : HasDerivAt (fun t => S₁.zetaB t ζ) _ θ :=
    ((comp_deriv1 s₂.zetaB h.smooth θ ζ).add_const ζ₀).congr_of_eventuallyEq (.of_forall fun t => (h.angles t ζ).2)
  have z2 : HasDerivAt (fun z => S₁.zetaB θ z) _ ζ :=
    ((comp_deriv2 s₂.zetaB h.smooth θ ζ).add_const ζ₀).congr_of_eventuallyEq (.of_forall fun z => (h.angles θ z).2)
  rw [t1.deriv, t2.deriv, z1.deriv, z2.deriv]
  have e1 := (s₂.thetaB.hasDeriv1 (θ + χ θ ζ) ζ).deriv
  have e2 := (s₂.thetaB.hasDeriv2 (θ + χ θ ζ) ζ).deriv
  have e3 := (s₂.zetaB.hasDeriv1 (θ + χ θ ζ) ζ).deriv
  have e4 := (s₂.zetaB.hasDeriv2 (θ + χ θ ζ) ζ).deriv
  simp only [uncurry] at e1 e2 e3 e4
  rw [e1, e2, e3, e4]
  ring

/-- Integrals of the theory section after a change of the poloidal angle. -/
theorem integral (h : Reparam χ θ₀ ζ₀ S₁ S₂) (hp : 1 ≤ nfp) (s₂ : SmoothSurface S₂) (hl : PerF nfp S₂.lam)
    (hw : PerF nfp S₂.w) {q₁ q₂ : ℝ → ℝ → ℝ} (hq : PerF nfp q₂) (sq : Smooth (uncurry q₂))
    (e : ∀ θ ζ, q₁ θ ζ = q₂ (θ + χ θ ζ) ζ) (m : ℤ) {n : ℤ} (hn : (nfp : ℤ) ∣ n) :
    let φ := m * θ₀ - n * ζ₀
    S₁.integralCos q₁ m n = Real.cos φ * S₂.integralCos q₂ m n - Real.sin φ * S₂.integralSin q₂ m n ∧
    S₁.integralSin q₁ m n = Real.cos φ * S₂.integralSin q₂ m n + Real.sin φ * S₂.integralCos q₂ m n := by
  intro φ
  have iC : ∀ (S : Surface) (q : ℝ → ℝ → ℝ), S.integralCos q m n =
      (if m = 0 ∧ n = 0 then 1 else 2) * mean2 τ τ (uncurry (intC S q m n)) := fun S q => by
    rw [mean2_tau, Surface.integralCos, div_eq_mul_one_div, mul_assoc]
    rfl
  have iS : ∀ (S : Surface) (q : ℝ → ℝ → ℝ), S.integralSin q m n =
      (if m = 0 ∧ n = 0 then 1 else 2) * mean2 τ τ (uncurry (intS S q m n)) := fun S q => by
    rw [mean2_tau, Surface.integralSin, div_eq_mul_one_div, mul_assoc]
    rfl
  have c1 := (s₂.intC sq m n).continuous
  have c2 := (s₂.intS sq m n).continuous
  have p1 := (intC_per hp hl hw hq m n hn).torus hp
  have p2 := (intS_per hp hl hw hq m n hn).torus hp
  have T : TorusMap (uncurry χ) (fun _ => 0) := ⟨h.smooth, contDiff_const, h.periodic.dper, ⟨fun _ => rfl, fun _ => rfl⟩⟩
  have nd : ∀ θ ζ, newDet (uncurry χ) (fun _ => 0) (θ, ζ) = 1 + deriv (fun t => χ t ζ) θ := fun θ ζ => by
    unfold newDet
    rw [← (Smooth.hasDeriv1 h.smooth θ ζ).deriv]
    simp [D1, D2]
  have na : ∀ θ ζ, newAngles (uncurry χ) (fun _ => 0) (θ, ζ) = (θ + χ θ ζ, ζ) := fun θ ζ => by
    simp [newAngles, uncurry]
  have ang : ∀ θ ζ, (m : ℝ) * S₁.thetaB θ ζ - n * S₁.zetaB θ ζ =
      (m * S₂.thetaB (θ + χ θ ζ) ζ - n * S₂.zetaB (θ + χ θ ζ) ζ) + φ := fun θ ζ => by
    rw [(h.angles θ ζ).1, (h.angles θ ζ).2]
    ring
  have per : ∀ u v : ℝ, DPer τ τ fun y => u * uncurry (intC S₂ q₂ m n) y + v * uncurry (intS S₂ q₂ m n) y := fun u v =>
    ⟨fun x => congrArg₂ (fun a b => u * a + v * b) (p1.1 x) (p2.1 x),
      fun x => congrArg₂ (fun a b => u * a + v * b) (p1.2 x) (p2.2 x)⟩
  constructor
  · have e1 : uncurry (intC S₁ q₁ m n) = fun x => (fun y => Real.cos φ * uncurry (intC S₂ q₂ m n) y +
        -Real.sin φ * uncurry (intS S₂ q₂ m n) y) (newAngles (uncurry χ) (fun _ => 0) x) * newDet (uncurry χ) (fun _ => 0) x := by
      funext ⟨θ, ζ⟩
      rw [na, nd]
      simp only [uncurry, intC, intS]
      rw [e, h.det s₂, ang, Real.cos_add]
      ring
    rw [iC, iC, iS, e1, T.mean_new (g := fun y => Real.cos φ * uncurry (intC S₂ q₂ m n) y +
      -Real.sin φ * uncurry (intS S₂ q₂ m n) y) ((c1.const_mul _).add (c2.const_mul _)) (per _ _), mean_lin2 _ _ c1 c2]
    ring
  · have e1 : uncurry (intS S₁ q₁ m n) = fun x => (fun y => Real.sin φ * uncurry (intC S₂ q₂ m n) y +
        Real.cos φ * uncurry (intS S₂ q₂ m n) y) (newAngles (uncurry χ) (fun _ => 0) x) * newDet (uncurry χ) (fun _ => 0) x := by
      funext ⟨θ, ζ⟩
      rw [na, nd]
      simp only [uncurry, intC, intS]
      rw [e, h.det s₂, ang, Real.sin_add]
      ring
    rw [iS, iC, iS, e1, T.mean_new (g := fun y => Real.sin φ * uncurry (intC S₂ q₂ m n) y +
      Real.cos φ * uncurry (intS S₂ q₂ m n) y) ((c1.const_mul _).add (c2.const_mul _)) (per _ _), mean_lin2 _ _ c1 c2]
    ring

end Reparam

/-- Harmonics of a constant. -/
theorem integral_const {S : Surface} {nfp : ℕ} (hp : 1 ≤ nfp) (h : SmoothSurface S) (hl : PerF nfp S.lam) (hw : PerF nfp S.w)
    (c : ℝ) (m n : ℤ) : S.integralCos (fun _ _ => c) m n = (if m = 0 ∧ n = 0 then c else 0) ∧
      S.integralSin (fun _ _ => c) m n = 0 := by
  obtain ⟨h1, h2⟩ := integral_fourier hp h hl hw (f := fun _ _ => c) (q := fun _ _ => c) continuous_const
    ⟨fun _ _ => rfl, fun _ _ => rfl⟩ (fun _ _ => rfl) m n
  obtain ⟨f1, f2⟩ := fourier_coeff (fun _ _ => c) m n
  have e1 : cc (uncurry fun _ _ => c) (m, n) = c * mean2 τ τ (cosM (m, n)) := mean2_smul _ _
  have e2 : sc (uncurry fun _ _ => c) (m, n) = c * mean2 τ τ (sinM (m, n)) := mean2_smul _ _
  rw [h1, h2, f1, f2, e1, e2, mean_cosM, mean_sinM]
  constructor
  · simp only [Prod.mk_eq_zero]
    split <;> ring
  · ring

/-- Harmonics of a quantity to which a constant is added. -/
theorem integral_add_const {S : Surface} {nfp : ℕ} (hp : 1 ≤ nfp) (h : SmoothSurface S) (hl : PerF nfp S.lam) (hw : PerF nfp S.w)
    {q : ℝ → ℝ → ℝ} (sq : Smooth (uncurry q)) (c : ℝ) (m n : ℤ) :
    S.integralCos (fun θ ζ => q θ ζ + c) m n = S.integralCos q m n + (if m = 0 ∧ n = 0 then c else 0) ∧
    S.integralSin (fun θ ζ => q θ ζ + c) m n = S.integralSin q m n := by
  obtain ⟨k1, k2⟩ := integral_const hp h hl hw c m n
  have iC : ∀ (q : ℝ → ℝ → ℝ), S.integralCos q m n =
      (if m = 0 ∧ n = 0 then 1 else 2) * mean2 τ τ (uncurry (intC S q m n)) := fun q => by
    rw [mean2_tau, Surface.integralCos, div_eq_mul_one_div, mul_assoc]
    rfl
  have iS : ∀ (q : ℝ → ℝ → ℝ), S.integralSin q m n =
      (if m = 0 ∧ n = 0 then 1 else 2) * mean2 τ τ (uncurry (intS S q m n)) := fun q => by
    rw [mean2_tau, Surface.integralSin, div_eq_mul_one_div, mul_assoc]
    rfl
  have sc : Smooth (uncurry fun _ _ : ℝ => c) := contDiff_const
  have a1 : mean2 τ τ (uncurry (intC S (fun θ ζ => q θ ζ + c) m n)) =
      mean2 τ τ (uncurry (intC S q m n)) + mean2 τ τ (uncurry (intC S (fun _ _ => c) m n)) := by
    rw [← mean2_add (h.intC sq m n).continuous (h.intC sc m n).continuous]
    congr 1
    funext ⟨θ, ζ⟩
    simp only [uncurry, intC]
    ring
  have a2 : mean2 τ τ (uncurry (intS S (fun θ ζ => q θ ζ + c) m n)) =
      mean2 τ τ (uncurry (intS S q m n)) + mean2 τ τ (uncurry (intS S (fun _ _ => c) m n)) := by
    rw [← mean2_add (h.intS sq m n).continuous (h.intS sc m n).continuous]
    congr 1
    funext ⟨θ, ζ⟩
    simp only [uncurry, intS]
    ring
  rw [iC] at k1
  rw [iS] at k2
  constructor
  · rw [iC, iC, a1, mul_add, k1]
  · rw [iS, iS, a2, mul_add, k2, add_zero]

/-- For stellarator-symmetric data the integrals of the other parity vanish. -/
theorem integral_parity {s : St ℝ} {d : Dims} (h : RunReady s.inp d) (hp : FieldPeriodic s.inp d.nfp)
    (ho : OriginOnce s.inp) (hreg : ∀ b < d.nsb, (surface s.inp d.asym (selected s.inp b)).Regular)
    (ha : d.asym = false) {b : ℕ} (hb : b < d.nsb) (m : ℤ) {n : ℤ} (hn : (d.nfp : ℤ) ∣ n) :
    let S := surface s.inp d.asym (selected s.inp b)
    S.integralSin S.B m n = 0 ∧ S.integralSin S.R m n = 0 ∧ S.integralCos S.Z m n = 0 ∧ S.integralCos S.nu m n = 0 ∧
    S.integralSin S.jacobian m n = 0 := by
  intro S
  obtain ⟨C, h1, -⟩ := C52_convergence h hp ho hreg m n (p := 1) le_rfl
  have key : ∀ x : ℝ, (∀ k : ℕ, 1 ≤ k → |0 - x| ≤ C * ((1 / (k : ℝ)) ^ 1 + (1 / (k : ℝ)) ^ 1)) → x = 0 := by
    intro x hx
    by_contra hne
    have hpos : 0 < |x| := abs_pos.2 hne
    obtain ⟨k, hk⟩ := exists_nat_gt (2 * C / |x|)
    have hk1 : (0 : ℝ) < (k + 1 : ℕ) := by positivity
    have a := hx (k + 1) (by omega)
    rw [zero_sub, abs_neg, pow_one, show C * (1 / ((k + 1 : ℕ) : ℝ) + 1 / ((k + 1 : ℕ) : ℝ)) = 2 * C / ((k + 1 : ℕ) : ℝ) by ring,
      le_div_iff₀ hk1] at a
    rw [div_lt_iff₀ hpos] at hk
    push_cast at a
    nlinarith
  obtain ⟨n', rfl⟩ := hn
  rw [mul_comm] at h1 ⊢
  have P := fun (k : ℕ) (hk : 1 ≤ k) => quad_parity h hp ha (selected s.inp b) hk hk m n'
  have Q := h1 b hb (dvd_mul_left _ _)
  refine ⟨key _ fun k hk => ?_, key _ fun k hk => ?_, key _ fun k hk => ?_, key _ fun k hk => ?_, key _ fun k hk => ?_⟩
  · have := (Q S.B (by simp [S]) k k hk hk).2
    rwa [(P k hk).1] at this
  · have := (Q S.R (by simp [S]) k k hk hk).2
    rwa [(P k hk).2.1] at this
  · have := (Q S.Z (by simp [S]) k k hk hk).1
    rwa [(P k hk).2.2.1] at this
  · have := (Q S.nu (by simp [S]) k k hk hk).1
    rwa [(P k hk).2.2.2.1] at this
  · have := (Q S.jacobian (by simp [S]) k k hk hk).2
    rwa [(P k hk).2.2.2.2] at this

end Booz
