import Verif.Spec.LineRounding
import Verif.Props.FieldLine
import Verif.Props.FileSeries

/-!
# C108 on a machine with rounding: integrals along field lines from the numbers stored
-/

namespace Booz
open Spec Matrix Set
open Trapezoid (τ)

section
variable {s : St ℝ} {d : Dims} (h : RunReady s.inp d) (hp : FieldPeriodic s.inp d.nfp) (ho : OriginOnce s.inp)
  {b : ℕ} (hb : b < d.nsb) (hc : NoRadialCurrent s.inp d.asym (selected s.inp b))
  (hreg : (surface s.inp d.asym (selected s.inp b)).Regular)
  {x : ℝ → ℝ → ℝ → V3} {lam : ℝ → ℝ → ℝ → ℝ} {ψ₀ : ℝ} {B : ℝ → ℝ → V3}
  (hf : IsField (surface s.inp d.asym (selected s.inp b)) (bTheta s.inp d.asym (selected s.inp b))
    (bZeta s.inp d.asym (selected s.inp b)) x lam ψ₀ B)
include h hp ho hb hc hreg hf

/-- **C108, approximate numbers.**  Let `F` be continuously differentiable.  If ι, I, G are known up to `e'` and |B| as a
function of the Boozer angles up to `e` (both small enough), the integral along a field line which is computed from them is
off by at most `A (e + e' (1 + |Δζ_B|)) |Δζ_B|`: the error of ι lets the computed line drift away from the true one. -/
theorem C108_numbers (hx : SurfaceSmooth x ψ₀) {F : ℝ → ℝ} (hF : ContDiffOn ℝ 1 F (Ioi 0)) :
    let S := surface s.inp d.asym (selected s.inp b)
    ∃ A η : ℝ, 0 ≤ A ∧ 0 < η ∧ ∀ (e e' iota I G : ℝ) (g : ℝ → ℝ → ℝ), Continuous (Function.uncurry g) → e ≤ η → e' ≤ η →
      |iota - S.iota| ≤ e' → |I - S.I| ≤ e' → |G - S.G| ≤ e' →
      (∀ θ ζ, |S.B θ ζ - g (S.thetaB θ ζ) (S.zetaB θ ζ)| ≤ e) →
      ∀ θ ζ σ t₀ t₁, IsFieldLine x ψ₀ B θ ζ σ t₀ t₁ →
        |alongLine B F θ ζ σ t₀ t₁ - lineIntegral iota I G g F (S.thetaB (θ t₀) (ζ t₀) - iota * S.zetaB (θ t₀) (ζ t₀))
          (S.zetaB (θ t₀) (ζ t₀)) (S.zetaB (θ t₁) (ζ t₁))| ≤
        A * (e + e' * (1 + |S.zetaB (θ t₁) (ζ t₁) - S.zetaB (θ t₀) (ζ t₀)|)) *
          |S.zetaB (θ t₁) (ζ t₁) - S.zetaB (θ t₀) (ζ t₀)| := by
  intro S
  have hd : ∀ θ ζ, S.det θ ζ ≠ 0 := fun θ ζ => (field_point h hp ho hb hc hreg hf θ ζ).1
  obtain ⟨f, hfe, sf, pf, -⟩ := express_q h hp hreg hd S.B (by show _ ∈ [S.B, S.R, S.Z, S.nu, S.jacobian]; simp)
  obtain ⟨m₀, m₁, hm, hr⟩ := strength_range h hp hreg
  have hpi : 0 < τ := Real.two_pi_pos
  have cf : Continuous (Function.uncurry f) := ContDiff.continuous sf
  -- the function varies slowly along the surface
  obtain ⟨Λ, hΛ⟩ := (pf.torus h.nfp_pos).d1.bounded hpi hpi (ContDiff.continuous sf.d1)
  have hΛ0 : 0 ≤ Λ := (abs_nonneg _).trans (hΛ (0, 0))
  have hlipf : ∀ t t' z, |f t z - f t' z| ≤ Λ * |t - t'| := fun t t' z =>
    convex_univ.norm_image_sub_le_of_norm_hasDerivWithin_le (f := fun t => f t z) (C := Λ)
      (fun u _ => (sf.hasDeriv1 u z).hasDerivWithinAt) (fun u _ => hΛ (u, z)) (mem_univ t') (mem_univ t)
  -- its range
  have angles : ∀ t z, ∃ θ ζ, S.thetaB θ ζ = t ∧ S.zetaB θ ζ = z := fun t z => by
    obtain ⟨y, hy⟩ := every_angle_occurs h hp (selected s.inp b) (t, z)
    exact ⟨y.1, y.2, congrArg Prod.fst hy, congrArg Prod.snd hy⟩
  have hfr : ∀ t z, m₀ ≤ |f t z| ∧ |f t z| ≤ m₁ := fun t z => by
    obtain ⟨θ, ζ, rfl, rfl⟩ := angles t z
    rw [show f (S.thetaB θ ζ) (S.zetaB θ ζ) = S.B θ ζ from hfe θ ζ]
    exact hr θ ζ
  set Φ : ℝ → ℝ := fun y => F y / y ^ 2 with hΦ
  have hsub : Icc (m₀ / 2) (m₁ + m₀ / 2) ⊆ Ioi 0 := fun y hy => (half_pos hm).trans_le hy.1
  have hcd : ContDiffOn ℝ 1 Φ (Ioi 0) := hF.div (contDiffOn_id.pow 2) fun y hy => pow_ne_zero 2 (ne_of_gt hy)
  obtain ⟨L, hL⟩ := (isCompact_Icc (a := m₀ / 2) (b := m₁ + m₀ / 2)).exists_bound_of_continuousOn
    ((hcd.continuousOn_deriv_of_isOpen isOpen_Ioi le_rfl).mono hsub)
  obtain ⟨Φ₀, hΦ₀⟩ := (isCompact_Icc (a := m₀ / 2) (b := m₁ + m₀ / 2)).exists_bound_of_continuousOn
    (hcd.continuousOn.mono hsub)
  have hlip : ∀ y ∈ Icc (m₀ / 2) (m₁ + m₀ / 2), ∀ w ∈ Icc (m₀ / 2) (m₁ + m₀ / 2), |Φ y - Φ w| ≤ |L| * |y - w| := by
    intro y hy w hw
    exact (convex_Icc _ _).norm_image_sub_le_of_norm_deriv_le
      (fun u hu => (hcd.differentiableOn (by norm_num)).differentiableAt (Ioi_mem_nhds (hsub hu)))
      (fun u hu => (hL u hu).trans (le_abs_self L)) hw hy
  have hf0 : ∀ t z, f t z ≠ 0 := fun t z => abs_pos.1 (hm.trans_le (hfr t z).1)
  refine ⟨|L| * |S.G + S.iota * S.I| * (Λ + 1) + |Φ₀| * (2 + |S.iota| + |S.I|), min (m₀ / 2) 1, by positivity,
    lt_min (half_pos hm) one_pos, ?_⟩
  intro e e' iota I G g cg he he' hi hI hG hg θ ζ σ t₀ t₁ hl
  have he0 : 0 ≤ e := (abs_nonneg _).trans (hg 0 0)
  have he0' : 0 ≤ e' := (abs_nonneg _).trans hi
  have hgf : ∀ t z, |f t z - g t z| ≤ e := fun t z => by
    obtain ⟨θ, ζ, rfl, rfl⟩ := angles t z
    rw [show f (S.thetaB θ ζ) (S.zetaB θ ζ) = S.B θ ζ from hfe θ ζ]
    exact hg θ ζ
  have hgr : ∀ t z, |g t z| ∈ Icc (m₀ / 2) (m₁ + m₀ / 2) := fun t z => by
    have a := abs_le.1 ((abs_abs_sub_abs_le_abs_sub (f t z) (g t z)).trans ((hgf t z).trans (he.trans (min_le_left _ _))))
    have := hfr t z
    exact ⟨by linarith, by linarith⟩
  have hg0 : ∀ t z, g t z ≠ 0 := fun t z => abs_pos.1 (hsub (hgr t z))
  have hex := line_near h hp ho hb hc hreg hf hx hF.continuousOn cf hf0 (ε := 0)
      (fun θ ζ => by intro S'; rw [show f (S'.thetaB θ ζ) (S'.zetaB θ ζ) = S'.B θ ζ from hfe θ ζ]; simp) hl
  have hex' := sub_eq_zero.1 (abs_nonpos_iff.1 (hex.trans_eq (zero_mul _)))
  rw [hex']
  change |lineIntegral S.iota S.I S.G f F (S.thetaB (θ t₀) (ζ t₀) - S.iota * S.zetaB (θ t₀) (ζ t₀)) (S.zetaB (θ t₀) (ζ t₀))
    (S.zetaB (θ t₁) (ζ t₁)) - _| ≤ _
  generalize S.thetaB (θ t₀) (ζ t₀) = t at *
  generalize S.zetaB (θ t₀) (ζ t₀) = z₀ at *
  generalize S.zetaB (θ t₁) (ζ t₁) = z₁ at *
  have cF : ∀ {k : ℝ → ℝ} (K : ℝ), Continuous k → (∀ t, k t ≠ 0) → Continuous fun t => F |k t| * (K / k t ^ 2) := by
    intro k K hk hk0
    have h1 : Continuous fun t => F |k t| := hF.continuousOn.comp_continuous hk.abs fun t => abs_pos.2 (hk0 t)
    exact h1.mul (continuous_const.div (hk.pow 2) fun t => pow_ne_zero 2 (hk0 t))
  have c1 : Continuous fun z => F |f (t - S.iota * z₀ + S.iota * z) z| *
      ((S.G + S.iota * S.I) / f (t - S.iota * z₀ + S.iota * z) z ^ 2) :=
    cF (k := fun z => f (t - S.iota * z₀ + S.iota * z) z) _
      (cf.comp (f := fun z => (t - S.iota * z₀ + S.iota * z, z)) (by fun_prop)) fun z => hf0 _ _
  have c2 : Continuous fun z => F |g (t - iota * z₀ + iota * z) z| *
      ((G + iota * I) / g (t - iota * z₀ + iota * z) z ^ 2) :=
    cF (k := fun z => g (t - iota * z₀ + iota * z) z) _
      (cg.comp (f := fun z => (t - iota * z₀ + iota * z, z)) (by fun_prop)) fun z => hg0 _ _
  unfold lineIntegral
  rw [← intervalIntegral.integral_sub (c1.intervalIntegrable _ _) (c2.intervalIntegrable _ _), ← Real.norm_eq_abs]
  refine intervalIntegral.norm_integral_le_of_norm_le_const fun z hz => ?_
  have hzl : |z - z₀| ≤ |z₁ - z₀| := abs_sub_left_of_mem_uIcc (uIoc_subset_uIcc hz)
  have eΦ : ∀ y K : ℝ, F |y| * (K / y ^ 2) = Φ |y| * K := fun y K => by
    rw [hΦ]
    beta_reduce
    rw [sq_abs]
    ring
  rw [Real.norm_eq_abs, eΦ, eΦ]
  generalize ht1 : t - S.iota * z₀ + S.iota * z = y₁
  generalize ht2 : t - iota * z₀ + iota * z = y₂
  have hy : |y₁ - y₂| ≤ e' * |z₁ - z₀| := by
    rw [← ht1, ← ht2, show t - S.iota * z₀ + S.iota * z - (t - iota * z₀ + iota * z) = -((iota - S.iota) * (z - z₀)) by ring,
      abs_neg, abs_mul]
    exact mul_le_mul hi hzl (abs_nonneg _) he0'
  have h1 : |(|f y₁ z| - |g y₂ z|)| ≤ Λ * (e' * |z₁ - z₀|) + e := by
    refine (abs_abs_sub_abs_le_abs_sub _ _).trans ?_
    have := abs_sub_le (f y₁ z) (f y₂ z) (g y₂ z)
    have h2 := (hlipf y₁ y₂ z).trans (mul_le_mul_of_nonneg_left hy hΛ0)
    linarith [hgf y₂ z]
  have h2 : |(Φ |f y₁ z| - Φ (|g y₂ z|))| ≤ |L| * (Λ * (e' * |z₁ - z₀|) + e) :=
    (hlip _ ⟨by linarith [(hfr y₁ z).1], by linarith [(hfr y₁ z).2]⟩ _ (hgr y₂ z)).trans
      (mul_le_mul_of_nonneg_left h1 (abs_nonneg _))
  have h3 : |(Φ (|g y₂ z|))| ≤ |Φ₀| := (hΦ₀ _ (hgr y₂ z)).trans (le_abs_self _)
  have h4 : |(S.G + S.iota * S.I) - (G + iota * I)| ≤ e' * (2 + |S.iota| + |S.I|) := by
    have e1 : (S.G + S.iota * S.I) - (G + iota * I) =
        -((G - S.G) + S.iota * (I - S.I) + (iota - S.iota) * S.I + (iota - S.iota) * (I - S.I)) := by ring
    rw [e1, abs_neg]
    have a1 := abs_add_le ((G - S.G) + S.iota * (I - S.I) + (iota - S.iota) * S.I) ((iota - S.iota) * (I - S.I))
    have a2 := abs_add_le ((G - S.G) + S.iota * (I - S.I)) ((iota - S.iota) * S.I)
    have a3 := abs_add_le (G - S.G) (S.iota * (I - S.I))
    rw [abs_mul] at a1 a2 a3
    have b1 := mul_le_mul_of_nonneg_left hI (abs_nonneg S.iota)
    have b2 := mul_le_mul_of_nonneg_right hi (abs_nonneg S.I)
    have b3 : |iota - S.iota| * |I - S.I| ≤ e' * 1 :=
      mul_le_mul hi (hI.trans (he'.trans (min_le_right _ _))) (abs_nonneg _) he0'
    linarith
  have e2 : Φ |f y₁ z| * (S.G + S.iota * S.I) - Φ |g y₂ z| * (G + iota * I) =
      (Φ |f y₁ z| - Φ |g y₂ z|) * (S.G + S.iota * S.I) + Φ |g y₂ z| * ((S.G + S.iota * S.I) - (G + iota * I)) := by ring
  rw [e2]
  refine (abs_add_le _ _).trans ?_
  rw [abs_mul, abs_mul]
  have k1 := mul_le_mul_of_nonneg_right h2 (abs_nonneg (S.G + S.iota * S.I))
  have k2 := mul_le_mul h3 h4 (abs_nonneg _) (abs_nonneg Φ₀)
  have n1 := abs_nonneg L
  have n2 := abs_nonneg (S.G + S.iota * S.I)
  have n3 := abs_nonneg (z₁ - z₀)
  have p1 : |L| * (Λ * (e' * |z₁ - z₀|) + e) * |S.G + S.iota * S.I| ≤
      |L| * |S.G + S.iota * S.I| * (Λ + 1) * (e + e' * (1 + |z₁ - z₀|)) := by
    have : Λ * (e' * |z₁ - z₀|) + e ≤ (Λ + 1) * (e + e' * (1 + |z₁ - z₀|)) := by
      have q1 := mul_nonneg he0' n3
      have q2 := mul_nonneg hΛ0 he0
      have q3 := mul_nonneg hΛ0 he0'
      nlinarith
    calc _ = |L| * |S.G + S.iota * S.I| * (Λ * (e' * |z₁ - z₀|) + e) := by ring
      _ ≤ |L| * |S.G + S.iota * S.I| * ((Λ + 1) * (e + e' * (1 + |z₁ - z₀|))) :=
        mul_le_mul_of_nonneg_left this (mul_nonneg n1 n2)
      _ = _ := by ring
  have p2 : |Φ₀| * (e' * (2 + |S.iota| + |S.I|)) ≤ |Φ₀| * (2 + |S.iota| + |S.I|) * (e + e' * (1 + |z₁ - z₀|)) := by
    have : e' ≤ e + e' * (1 + |z₁ - z₀|) := by nlinarith [mul_nonneg he0' n3]
    calc _ = |Φ₀| * (2 + |S.iota| + |S.I|) * e' := by ring
      _ ≤ _ := mul_le_mul_of_nonneg_left this (by positivity)
  linarith

/-- **C108, on a machine.**  At high enough resolution, and precise enough, the integrals along field lines which are
computed from the numbers that a machine with rounding holds after `run()` (harmonics of |B|, ι, I, G, with their rounding
errors and those of the input) are off by at most `(C / mboz^p + D u (1 + |Δζ_B|)) |Δζ_B|`. -/
theorem C108_machine (hx : SurfaceSmooth x ψ₀) {F : ℝ → ℝ} (hF : ContDiffOn ℝ 1 F (Ioi 0))
    (hregs : ∀ b < d.nsb, (surface s.inp d.asym (selected s.inp b)).Regular)
    (hdets : ∀ b < d.nsb, ∀ θ ζ, (surface s.inp d.asym (selected s.inp b)).det θ ζ ≠ 0)
    {c : ℝ} (hc0 : 0 ≤ c) {ρ : ℝ} (hρ : ρ < 1) {p : ℕ} (hp1 : 1 ≤ p) :
    let S := surface s.inp d.asym (selected s.inp b)
    ∃ (C : ℝ) (M₀ : ℕ), ∀ M N : ℕ, M₀ ≤ M → 1 ≤ N → (M : ℝ) ≤ c * N → (N : ℝ) ≤ c * M →
      RunReady { s.inp with mboz := M, nboz := N } { d with M := M, N := N } → S.ResolvedBy d.nfp M N ρ →
      ∀ K : ℝ, 0 ≤ K → ∃ D u₀, 0 < u₀ ∧
        ∀ (α : Type) [Arith α] (fin : α → Prop) (val : α → ℝ) (u : ℝ), Precision α fin val u → u ≤ u₀ →
        ∀ s1 : St α, RunReady s1.inp { d with M := M, N := N } →
          InputsNear fin val { d with M := M, N := N } (K * u) s1.inp s.inp →
          ∃ t r m n cc cs iota I G, run false s1 = .ok (t, r) ∧
            MachineField fin val t d.asym (numModes M N) b (selected s.inp b) m n cc cs iota I G ∧
            ∀ θ ζ σ t₀ t₁, IsFieldLine x ψ₀ B θ ζ σ t₀ t₁ →
              |alongLine B F θ ζ σ t₀ t₁ - lineIntegral iota I G (series (numModes M N) m n cc cs) F
                (S.thetaB (θ t₀) (ζ t₀) - iota * S.zetaB (θ t₀) (ζ t₀)) (S.zetaB (θ t₀) (ζ t₀)) (S.zetaB (θ t₁) (ζ t₁))| ≤
              (C * (1 / (M : ℝ)) ^ p + D * u * (1 + |S.zetaB (θ t₁) (ζ t₁) - S.zetaB (θ t₀) (ζ t₀)|)) *
                |S.zetaB (θ t₁) (ζ t₁) - S.zetaB (θ t₀) (ζ t₀)| := by
  intro S
  obtain ⟨A, η, hA, hη, key⟩ := C108_numbers h hp ho hb hc hreg hf hx hF
  obtain ⟨C, hC, H⟩ := C110_machine h hp ho hregs hdets hc0 hρ p
  obtain ⟨M₀, hM₀⟩ := exists_nat_gt (C / (η / 2))
  refine ⟨A * C, M₀, fun M N hM hN hMN hNM hr hres K hK => ?_⟩
  obtain ⟨D, u₀, hD, h0, G⟩ := H M N hN hMN hNM hr K hK
  have hM1 : (1 : ℝ) ≤ M := by exact_mod_cast hr.mboz_ge
  have hMp : (0 : ℝ) < M := by linarith
  have hsmall : C * (1 / (M : ℝ)) ^ p ≤ η / 2 := by
    have h2 : C / (η / 2) ≤ M := hM₀.le.trans (by exact_mod_cast hM)
    rw [div_le_iff₀ (half_pos hη)] at h2
    have h3 : (1 / (M : ℝ)) ^ p ≤ 1 / M := by
      refine pow_le_of_le_one (by positivity) ?_ (by omega)
      rw [div_le_one hMp]
      exact hM1
    refine (mul_le_mul_of_nonneg_left h3 hC).trans ?_
    rw [mul_one_div, div_le_iff₀ hMp]
    linarith
  refine ⟨2 * A * D, min u₀ (η / 2 / (D + 1)), lt_min h0 (by positivity), ?_⟩
  intro α _ fin val u hu hle s1 hs1 hn
  obtain ⟨t, r, g1, g2, g3⟩ := G α fin val u hu (hle.trans (min_le_left _ _)) s1 hs1 hn
  obtain ⟨m, n, q1, ⟨cc, cs, q2, q3⟩, -⟩ := g2 b hb hres
  obtain ⟨iota, I, G', i1, i2, i3, i4, i5, i6, i7, i8, i9⟩ := g3 (selected s.inp b)
    (by have := h.surfs_range b hb; unfold selected; omega)
  have hDu : D * u ≤ η / 2 := by
    have h1 := hle.trans (min_le_right _ _)
    rw [le_div_iff₀ (by positivity)] at h1
    nlinarith [hu.u_pos]
  have hDu0 : 0 ≤ D * u := mul_nonneg hD hu.u_pos.le
  refine ⟨t, r, m, n, cc, cs, val iota, val I, val G', g1,
    ⟨q1, fun k hk => (q2 k hk).1, fun k hk => (q2 k hk).2, ⟨_, i1, i4, rfl⟩, ⟨_, i2, i5, rfl⟩, ⟨_, i3, i6, rfl⟩⟩,
    fun θ ζ σ t₀ t₁ hl => ?_⟩
  have cg : Continuous (Function.uncurry (series (numModes M N) m n cc cs)) := by
    have e : Function.uncurry (series (numModes M N) m n cc cs) = fun y : ℝ × ℝ => series (numModes M N) m n cc cs y.1 y.2 := rfl
    rw [e]
    unfold series
    fun_prop
  refine (key (C * (1 / (M : ℝ)) ^ p + D * u) (D * u) (val iota) (val I) (val G') _ cg (by linarith) (by linarith) i7 i8 i9 q3
    θ ζ σ t₀ t₁ hl).trans ?_
  change A * (C * (1 / (M : ℝ)) ^ p + D * u + D * u * (1 + |S.zetaB (θ t₁) (ζ t₁) - S.zetaB (θ t₀) (ζ t₀)|)) *
    |S.zetaB (θ t₁) (ζ t₁) - S.zetaB (θ t₀) (ζ t₀)| ≤ _
  refine mul_le_mul_of_nonneg_right ?_ (abs_nonneg _)
  have n1 := abs_nonneg (S.zetaB (θ t₁) (ζ t₁) - S.zetaB (θ t₀) (ζ t₀))
  generalize |S.zetaB (θ t₁) (ζ t₁) - S.zetaB (θ t₀) (ζ t₀)| = L at n1
  have n2 := mul_nonneg (mul_nonneg hA hDu0) n1
  nlinarith

end

/-! ### The cylinder -/

/-- `C108_machine` for the length of the field lines of the cylinder, `mboz = nboz = M`, on machines with more and more
bits. -/
example (asym : Bool) :
    let S := surface (Ex.cyl asym).inp asym (selected (Ex.cyl asym).inp 0)
    ∃ (C : ℝ) (M₀ : ℕ), ∀ M : ℕ, M₀ ≤ M → 1 ≤ M → (4 * M + 2) * (4 * M + 2) < 2 ^ 30 → ∃ (D : ℝ) (p₀ : ℕ), ∀ p ≥ p₀,
      ∃ t r m n cc cs iota I G,
      run false ({ Ex.st asym with
        inp := Ex.mapI (fun x => (⟨Ex.rnd p x⟩ : Ex.Flp p)) { (Ex.cyl asym).inp with mboz := M, nboz := M } }) = .ok (t, r) ∧
      MachineField (fun _ => True) Ex.Flp.val t asym (numModes M M) 0 (selected (Ex.cyl asym).inp 0) m n cc cs iota I G ∧
      ∀ θ ζ σ, IsFieldLine Ex.cylX (1 / 2) Ex.cylB θ ζ σ 0 1 →
        |alongLine Ex.cylB (fun y => y) θ ζ σ 0 1 - lineIntegral iota I G (series (numModes M M) m n cc cs) (fun y => y)
          (S.thetaB (θ 0) (ζ 0) - iota * S.zetaB (θ 0) (ζ 0)) (S.zetaB (θ 0) (ζ 0)) (S.zetaB (θ 1) (ζ 1))| ≤
        (C * (1 / (M : ℝ)) ^ 3 + D * (4 / 2 ^ p) * (1 + |S.zetaB (θ 1) (ζ 1) - S.zetaB (θ 0) (ζ 0)|)) *
          |S.zetaB (θ 1) (ζ 1) - S.zetaB (θ 0) (ζ 0)| := by
  intro S
  have hs : ∀ b < 2, selected (Ex.cyl asym).inp b < 2 := fun b hb => Ex.polar_sel asym (1 / 16) b hb
  obtain ⟨C, M₀, H⟩ := C108_machine (s := Ex.cyl asym) (d := Ex.dims asym) (Ex.cyl_ready asym)
    (Ex.polar_periodic asym (1 / 16)) (Ex.polar_origin asym (1 / 16)) (b := 0) (by show 0 < 2; decide)
    (Ex.cyl_noCurrent asym (hs 0 (by decide))) (Ex.cyl_regular asym (hs 0 (by decide))) (Ex.cyl_field asym (hs 0 (by decide)))
    Ex.cyl_smooth (F := fun y => y) contDiffOn_id (fun b hb => Ex.cyl_regular asym (hs b hb))
    (fun b hb θ ζ => (field_point (s := Ex.cyl asym) (d := Ex.dims asym) (Ex.cyl_ready asym)
      (Ex.polar_periodic asym (1 / 16)) (Ex.polar_origin asym (1 / 16)) hb (Ex.cyl_noCurrent asym (hs b hb))
      (Ex.cyl_regular asym (hs b hb)) (Ex.cyl_field asym (hs b hb)) θ ζ).1)
    (c := 1) (by norm_num) (ρ := 1 / 2) (by norm_num) (p := 3) (by norm_num)
  refine ⟨C, M₀, fun M hM h1 hf => ?_⟩
  have hr := Ex.cyl_ready_res asym h1 hf
  obtain ⟨K, hK, near⟩ := Ex.mapI_near hr
  obtain ⟨D, u₀, h0, G⟩ := H M M hM h1 (by rw [one_mul]) (by rw [one_mul]) hr
    (Ex.cyl_resolved asym (b := 0) (by decide) M) K hK
  obtain ⟨p₀, hp₀⟩ := Ex.bits h0
  refine ⟨D, p₀, fun p hp => ?_⟩
  obtain ⟨t, r, m, n, cc, cs, iota, I, G', g1, g2, g3⟩ := G (Ex.Flp p) (fun _ => True) Ex.Flp.val (4 / 2 ^ p)
    (Ex.flp_precision p) (hp₀ p hp)
    { Ex.st asym with
      inp := Ex.mapI (fun x => (⟨Ex.rnd p x⟩ : Ex.Flp p)) { (Ex.cyl asym).inp with mboz := M, nboz := M } }
    (Ex.mapI_ready _ hr) { near p with }
  exact ⟨t, r, m, n, cc, cs, iota, I, G', g1, g2, fun θ ζ σ hl => g3 θ ζ σ 0 1 hl⟩

end Booz
