import Verif.Spec.Field
import Verif.Props.BoozerAngles
import Verif.Props.Reparam
import Verif.Lemmas.Fill

/-!
# C99: for a magnetic field in space, the Boozer angles and the Jacobian are those of the field
-/

namespace Booz
open Spec Matrix

/-! ### Vectors -/

/-- Components. -/
theorem dot3 (u v : V3) : u ⬝ᵥ v = u 0 * v 0 + u 1 * v 1 + u 2 * v 2 := by
  simp [dotProduct, Fin.sum_univ_three]

theorem cross3 (u v : V3) :
    (u ⨯₃ v) 0 = u 1 * v 2 - u 2 * v 1 ∧ (u ⨯₃ v) 1 = u 2 * v 0 - u 0 * v 2 ∧
      (u ⨯₃ v) 2 = u 0 * v 1 - u 1 * v 0 := by
  simp [cross_apply]

/-- A vector is determined by its products with three independent vectors. -/
theorem eq_of_dots {e₁ e₂ e₃ u v : V3} (h : e₁ ⬝ᵥ e₂ ⨯₃ e₃ ≠ 0) (h1 : u ⬝ᵥ e₁ = v ⬝ᵥ e₁)
    (h2 : u ⬝ᵥ e₂ = v ⬝ᵥ e₂) (h3 : u ⬝ᵥ e₃ = v ⬝ᵥ e₃) : u = v := by
  obtain ⟨c0, c1, c2⟩ := cross3 e₂ e₃
  rw [dot3] at h
  simp only [dot3] at h1 h2 h3
  rw [c0, c1, c2] at h
  funext i
  refine mul_right_cancel₀ h ?_
  fin_cases i
  · simp only [Fin.zero_eta]
    linear_combination (e₂ 1 * e₃ 2 - e₂ 2 * e₃ 1) * h1 + (e₃ 1 * e₁ 2 - e₃ 2 * e₁ 1) * h2 +
      (e₁ 1 * e₂ 2 - e₁ 2 * e₂ 1) * h3
  · simp only [Fin.mk_one]
    linear_combination (e₂ 2 * e₃ 0 - e₂ 0 * e₃ 2) * h1 + (e₃ 2 * e₁ 0 - e₃ 0 * e₁ 2) * h2 +
      (e₁ 2 * e₂ 0 - e₁ 0 * e₂ 2) * h3
  · simp only [Fin.reduceFinMk]
    linear_combination (e₂ 0 * e₃ 1 - e₂ 1 * e₃ 0) * h1 + (e₃ 0 * e₁ 1 - e₃ 1 * e₁ 0) * h2 +
      (e₁ 0 * e₂ 1 - e₁ 1 * e₂ 0) * h3

/-- A vector by its products with the three cross products. -/
theorem smul_eq_cross (e₁ e₂ e₃ u : V3) : (e₁ ⬝ᵥ e₂ ⨯₃ e₃) • u =
    (u ⬝ᵥ e₂ ⨯₃ e₃) • e₁ + (u ⬝ᵥ e₃ ⨯₃ e₁) • e₂ + (u ⬝ᵥ e₁ ⨯₃ e₂) • e₃ := by
  obtain ⟨a0, a1, a2⟩ := cross3 e₂ e₃
  obtain ⟨b0, b1, b2⟩ := cross3 e₃ e₁
  obtain ⟨c0, c1, c2⟩ := cross3 e₁ e₂
  funext i
  simp only [dot3, a0, a1, a2, b0, b1, b2, c0, c1, c2, Pi.add_apply, Pi.smul_apply, smul_eq_mul]
  fin_cases i <;> simp <;> ring

/-- Product of two triple products. -/
theorem gram (a t z e₁ e₂ e₃ : V3) : (a ⬝ᵥ t ⨯₃ z) * (e₁ ⬝ᵥ e₂ ⨯₃ e₃) =
    (a ⬝ᵥ e₁) * ((t ⬝ᵥ e₂) * (z ⬝ᵥ e₃) - (t ⬝ᵥ e₃) * (z ⬝ᵥ e₂)) -
    (a ⬝ᵥ e₂) * ((t ⬝ᵥ e₁) * (z ⬝ᵥ e₃) - (t ⬝ᵥ e₃) * (z ⬝ᵥ e₁)) +
    (a ⬝ᵥ e₃) * ((t ⬝ᵥ e₁) * (z ⬝ᵥ e₂) - (t ⬝ᵥ e₂) * (z ⬝ᵥ e₁)) := by
  obtain ⟨a0, a1, a2⟩ := cross3 e₂ e₃
  obtain ⟨b0, b1, b2⟩ := cross3 t z
  simp only [dot3, a0, a1, a2, b0, b1, b2]
  ring

/-- A gradient with given components exists. -/
theorem exists_dual {e₁ e₂ e₃ : V3} (h : e₁ ⬝ᵥ e₂ ⨯₃ e₃ ≠ 0) (a b c : ℝ) :
    ∃ g : V3, g ⬝ᵥ e₁ = a ∧ g ⬝ᵥ e₂ = b ∧ g ⬝ᵥ e₃ = c := by
  refine ⟨(1 / (e₁ ⬝ᵥ e₂ ⨯₃ e₃)) • (a • e₂ ⨯₃ e₃ + b • e₃ ⨯₃ e₁ + c • e₁ ⨯₃ e₂), ?_⟩
  obtain ⟨a0, a1, a2⟩ := cross3 e₂ e₃
  obtain ⟨b0, b1, b2⟩ := cross3 e₃ e₁
  obtain ⟨c0, c1, c2⟩ := cross3 e₁ e₂
  have k : ∀ x v : V3, ∀ r : ℝ, x ⬝ᵥ v = r * (e₁ ⬝ᵥ e₂ ⨯₃ e₃) → ((1 / (e₁ ⬝ᵥ e₂ ⨯₃ e₃)) • x) ⬝ᵥ v = r := by
    intro x v r hx
    rw [smul_dotProduct, hx, smul_eq_mul]
    field_simp
  refine ⟨k _ _ _ ?_, k _ _ _ ?_, k _ _ _ ?_⟩ <;>
  · simp only [dot3, a0, a1, a2, b0, b1, b2, c0, c1, c2, Pi.add_apply, Pi.smul_apply, smul_eq_mul]
    ring

/-! ### One point -/

/-- The computation of `theory.rst` at one point.  `a`, `s`, `z` are the gradients of ψ, θ + λ and ζ; `t`, `y`
those of the Boozer angles. -/
theorem boozer_point {e₁ e₂ e₃ B a s z t y : V3} {iota I G lt lz nt nz Bt Bz : ℝ}
    (he : e₁ ⬝ᵥ e₂ ⨯₃ e₃ ≠ 0) (a1 : a ⬝ᵥ e₁ = 1) (a2 : a ⬝ᵥ e₂ = 0) (a3 : a ⬝ᵥ e₃ = 0)
    (s2 : s ⬝ᵥ e₂ = 1 + lt) (s3 : s ⬝ᵥ e₃ = lz) (z1 : z ⬝ᵥ e₁ = 0) (z2 : z ⬝ᵥ e₂ = 0) (z3 : z ⬝ᵥ e₃ = 1)
    (hB : B = a ⨯₃ s + iota • z ⨯₃ a) (ht : B ⬝ᵥ e₂ = Bt) (hz : B ⬝ᵥ e₃ = Bz)
    (cB : Bt = (1 + lt) * I + (G + iota * I) * nt) (cz : Bz = G + I * lz + (G + iota * I) * nz)
    (t2 : t ⬝ᵥ e₂ = 1 + lt + iota * nt) (t3 : t ⬝ᵥ e₃ = lz + iota * nz) (y2 : y ⬝ᵥ e₂ = nt)
    (y3 : y ⬝ᵥ e₃ = 1 + nz) :
    (e₁ ⬝ᵥ e₂ ⨯₃ e₃) * (B ⬝ᵥ B) =
        (G + iota * I) * ((1 + lt + iota * nt) * (1 + nz) - (lz + iota * nz) * nt) ∧
      B = a ⨯₃ t + iota • y ⨯₃ a ∧ B = (B ⬝ᵥ e₁ - I * (t ⬝ᵥ e₁) - G * (y ⬝ᵥ e₁)) • a + I • t + G • y ∧
      (a ⬝ᵥ t ⨯₃ y) * (e₁ ⬝ᵥ e₂ ⨯₃ e₃) = (1 + lt + iota * nt) * (1 + nz) - (lz + iota * nz) * nt := by
  have d23 : ∀ u v : V3, u ⨯₃ v ⬝ᵥ e₂ ⨯₃ e₃ = (u ⬝ᵥ e₂) * (v ⬝ᵥ e₃) - (u ⬝ᵥ e₃) * (v ⬝ᵥ e₂) :=
    fun u v => cross_dot_cross u v e₂ e₃
  have d31 : ∀ u v : V3, u ⨯₃ v ⬝ᵥ e₃ ⨯₃ e₁ = (u ⬝ᵥ e₃) * (v ⬝ᵥ e₁) - (u ⬝ᵥ e₁) * (v ⬝ᵥ e₃) :=
    fun u v => cross_dot_cross u v e₃ e₁
  have d12 : ∀ u v : V3, u ⨯₃ v ⬝ᵥ e₁ ⨯₃ e₂ = (u ⬝ᵥ e₁) * (v ⬝ᵥ e₂) - (u ⬝ᵥ e₂) * (v ⬝ᵥ e₁) :=
    fun u v => cross_dot_cross u v e₁ e₂
  have B1 : B ⬝ᵥ e₂ ⨯₃ e₃ = 0 := by
    rw [hB, add_dotProduct, smul_dotProduct, d23, d23, a2, a3, z2, z3]; simp
  have B2 : B ⬝ᵥ e₃ ⨯₃ e₁ = iota - lz := by
    rw [hB, add_dotProduct, smul_dotProduct, d31, d31, a1, a3, z1, z3, s3]; simp; ring
  have B3 : B ⬝ᵥ e₁ ⨯₃ e₂ = 1 + lt := by
    rw [hB, add_dotProduct, smul_dotProduct, d12, d12, a1, a2, z1, z2, s2]; simp
  have hg := smul_eq_cross e₁ e₂ e₃
  have hsB : (e₁ ⬝ᵥ e₂ ⨯₃ e₃) • B = (iota - lz) • e₂ + (1 + lt) • e₃ := by
    rw [hg B, B1, B2, B3, zero_smul, zero_add]
  refine ⟨?_, ?_, ?_, ?_⟩
  · have e : (e₁ ⬝ᵥ e₂ ⨯₃ e₃) * (B ⬝ᵥ B) = B ⬝ᵥ ((e₁ ⬝ᵥ e₂ ⨯₃ e₃) • B) := by
      rw [dotProduct_smul, smul_eq_mul]
    rw [e, hsB, dotProduct_add, dotProduct_smul, dotProduct_smul, ht, hz, cB, cz]
    simp only [smul_eq_mul]
    ring
  · have hs : (e₁ ⬝ᵥ e₂ ⨯₃ e₃) • B = (e₁ ⬝ᵥ e₂ ⨯₃ e₃) • (a ⨯₃ t + iota • y ⨯₃ a) := by
      rw [hsB, hg (a ⨯₃ t + iota • y ⨯₃ a)]
      simp only [add_dotProduct, smul_dotProduct, d23, d31, d12, a1, a2, a3, t2, t3, y2, y3, smul_eq_mul]
      have q1 : (0 * (lz + iota * nz) - 0 * (1 + lt + iota * nt) + iota * (nt * 0 - (1 + nz) * 0) : ℝ) = 0 := by
        ring
      have q2 : (0 * (t ⬝ᵥ e₁) - 1 * (lz + iota * nz) + iota * ((1 + nz) * 1 - (y ⬝ᵥ e₁) * 0) : ℝ) =
        iota - lz := by ring
      have q3 : (1 * (1 + lt + iota * nt) - 0 * (t ⬝ᵥ e₁) + iota * ((y ⬝ᵥ e₁) * 0 - nt * 1) : ℝ) = 1 + lt := by
        ring
      rw [q1, q2, q3, zero_smul, zero_add]
    exact smul_right_injective _ he hs
  · refine eq_of_dots he ?_ ?_ ?_
    · simp only [add_dotProduct, smul_dotProduct, a1, smul_eq_mul]
      ring
    · simp only [add_dotProduct, smul_dotProduct, a2, t2, y2, smul_eq_mul, ht, cB]
      ring
    · simp only [add_dotProduct, smul_dotProduct, a3, t3, y3, smul_eq_mul, hz, cz]
      ring
  · rw [gram, a1, a2, a3, t2, t3, y2, y3]
    ring

/-! ### The surface -/

/-- A field described by the surface data has these Boozer angles, and their Jacobian determinant vanishes
nowhere. -/
theorem field_boozer {S : Surface} {bθ bζ : ℝ → ℝ → ℝ} {x : ℝ → ℝ → ℝ → V3} {lam : ℝ → ℝ → ℝ → ℝ} {ψ₀ : ℝ}
    {B : ℝ → ℝ → V3} (hf : IsField S bθ bζ x lam ψ₀ B) (hreg : S.Regular) {θ ζ lt lz nt nz : ℝ}
    (d1 : HasDerivAt (fun t => S.lam t ζ) lt θ) (d2 : HasDerivAt (fun z => S.lam θ z) lz ζ)
    (d3 : HasDerivAt (fun t => S.nu t ζ) nt θ) (d4 : HasDerivAt (fun z => S.nu θ z) nz ζ)
    (c1 : bθ θ ζ = (1 + lt) * S.I + (S.G + S.iota * S.I) * nt)
    (c2 : bζ θ ζ = S.G + S.I * lz + (S.G + S.iota * S.I) * nz) :
    S.det θ ζ ≠ 0 ∧ ∀ tB zB : ℝ → ℝ → ℝ → ℝ, tB ψ₀ = S.thetaB → zB ψ₀ = S.zetaB →
      DifferentiableAt ℝ (fun p => tB p θ ζ) ψ₀ → DifferentiableAt ℝ (fun p => zB p θ ζ) ψ₀ →
      IsBoozer x ψ₀ θ ζ tB zB S.iota S.I S.G (B θ ζ) (S.jacobian θ ζ) := by
  obtain ⟨e, he, ⟨a, s, z, ga, gs, gz, hB⟩, ht, hz, hBB⟩ := hf.point θ ζ
  have hg := he.indep
  have a1 : a ⬝ᵥ e.psi = 1 := ga.psi.unique (hasDerivAt_id ψ₀)
  have a2 : a ⬝ᵥ e.theta = 0 := ga.theta.unique (hasDerivAt_const θ ψ₀)
  have a3 : a ⬝ᵥ e.zeta = 0 := ga.zeta.unique (hasDerivAt_const ζ ψ₀)
  have z1 : z ⬝ᵥ e.psi = 0 := gz.psi.unique (hasDerivAt_const ψ₀ ζ)
  have z2 : z ⬝ᵥ e.theta = 0 := gz.theta.unique (hasDerivAt_const θ ζ)
  have z3 : z ⬝ᵥ e.zeta = 1 := gz.zeta.unique (hasDerivAt_id ζ)
  have s2 : s ⬝ᵥ e.theta = 1 + lt := by
    refine gs.theta.unique ?_
    rw [hf.lam_eq]
    exact (hasDerivAt_id θ).add d1
  have s3 : s ⬝ᵥ e.zeta = lz := by
    refine gs.zeta.unique ?_
    rw [hf.lam_eq]
    exact d2.const_add θ
  have k1 : HasDerivAt (fun t => S.thetaB t ζ) (1 + lt + S.iota * nt) θ :=
    ((hasDerivAt_id θ).add d1).add (d3.const_mul S.iota)
  have k2 : HasDerivAt (fun z => S.thetaB θ z) (lz + S.iota * nz) ζ :=
    (d2.const_add θ).add (d4.const_mul S.iota)
  have k3 : HasDerivAt (fun t => S.zetaB t ζ) nt θ := d3.const_add ζ
  have k4 : HasDerivAt (fun z => S.zetaB θ z) (1 + nz) ζ := (hasDerivAt_id ζ).add d4
  have hdet : S.det θ ζ = (1 + lt + S.iota * nt) * (1 + nz) - (lz + S.iota * nz) * nt := by
    unfold Surface.det
    rw [k1.deriv, k2.deriv, k3.deriv, k4.deriv]
  have key : ∀ t y : V3, t ⬝ᵥ e.theta = 1 + lt + S.iota * nt → t ⬝ᵥ e.zeta = lz + S.iota * nz →
      y ⬝ᵥ e.theta = nt → y ⬝ᵥ e.zeta = 1 + nz → _ := fun t y t2 t3 y2 y3 =>
    boozer_point (B := B θ ζ) (I := S.I) (G := S.G) hg a1 a2 a3 s2 s3 z1 z2 z3 hB ht hz c1 c2 t2 t3 y2 y3
  have hB0 : S.B θ ζ ^ 2 ≠ 0 := pow_ne_zero 2 (hreg.2 θ ζ)
  have hdet0 : S.det θ ζ ≠ 0 := by
    obtain ⟨t, -, t2, t3⟩ := exists_dual hg 0 (1 + lt + S.iota * nt) (lz + S.iota * nz)
    obtain ⟨y, -, y2, y3⟩ := exists_dual hg 0 nt (1 + nz)
    obtain ⟨q1, -⟩ := key t y t2 t3 y2 y3
    rw [hBB, ← hdet] at q1
    intro h0
    rw [h0, mul_zero] at q1
    exact (mul_ne_zero hg hB0) q1
  refine ⟨hdet0, ?_⟩
  intro tB zB htB hzB dt dz
  obtain ⟨t, t1, t2, t3⟩ := exists_dual hg (deriv (fun p => tB p θ ζ) ψ₀) (1 + lt + S.iota * nt) (lz + S.iota * nz)
  obtain ⟨y, y1, y2, y3⟩ := exists_dual hg (deriv (fun p => zB p θ ζ) ψ₀) nt (1 + nz)
  obtain ⟨q1, q2, q3, q4⟩ := key t y t2 t3 y2 y3
  refine ⟨e, he, a, t, y, ga, ⟨?_, ?_, ?_⟩, ⟨?_, ?_, ?_⟩, q2, ⟨_, q3⟩, ?_⟩
  · rw [t1]; exact dt.hasDerivAt
  · rw [t2, htB]; exact k1
  · rw [t3, htB]; exact k2
  · rw [y1]; exact dz.hasDerivAt
  · rw [y2, hzB]; exact k3
  · rw [y3, hzB]; exact k4
  · rw [← hdet] at q1 q4
    rw [hBB] at q1
    unfold Surface.jacobian
    have e1 : a ⬝ᵥ t ⨯₃ y = S.det θ ζ / (e.psi ⬝ᵥ e.theta ⨯₃ e.zeta) := (eq_div_iff hg).mpr q4
    rw [e1, div_mul_div_comm, ← q1, mul_comm]
    exact div_self (mul_ne_zero hB0 hg)

/-- The Jacobian is determined by the coordinates. -/
theorem boozer_unique {x : ℝ → ℝ → ℝ → V3} {ψ₀ θ ζ : ℝ} {tB zB : ℝ → ℝ → ℝ → ℝ} {i₁ I₁ G₁ i₂ I₂ G₂ J₁ J₂ : ℝ}
    {B₁ B₂ : V3} (h1 : IsBoozer x ψ₀ θ ζ tB zB i₁ I₁ G₁ B₁ J₁) (h2 : IsBoozer x ψ₀ θ ζ tB zB i₂ I₂ G₂ B₂ J₂) :
    J₁ = J₂ := by
  obtain ⟨e, he, a, t, y, ha, ht, hy, -, -, hJ⟩ := h1
  obtain ⟨e', he', a', t', y', ha', ht', hy', -, -, hJ'⟩ := h2
  have q1 : e'.psi = e.psi := he'.psi.unique he.psi
  have q2 : e'.theta = e.theta := he'.theta.unique he.theta
  have q3 : e'.zeta = e.zeta := he'.zeta.unique he.zeta
  have same : ∀ {f : ℝ → ℝ → ℝ → ℝ} {g g' : V3}, IsGradient e f ψ₀ θ ζ g → IsGradient e' f ψ₀ θ ζ g' → g' = g := by
    intro f g g' k k'
    refine eq_of_dots he.indep ?_ ?_ ?_
    · rw [← q1, k'.psi.unique k.psi, q1]
    · rw [← q2, k'.theta.unique k.theta, q2]
    · rw [← q3, k'.zeta.unique k.zeta, q3]
  rw [same ha ha', same ht ht', same hy hy'] at hJ'
  have h0 : a ⬝ᵥ t ⨯₃ y ≠ 0 := right_ne_zero_of_mul_eq_one hJ
  exact mul_right_cancel₀ h0 (hJ.trans hJ'.symm)

/-- At one point: two sets of Boozer angles have the same `I θ_B + G ζ_B` and `θ_B - ι ζ_B` up to constants. -/
theorem boozer_diff {x : ℝ → ℝ → ℝ → V3} {ψ₀ θ ζ : ℝ} {t₁ z₁ t₂ z₂ : ℝ → ℝ → ℝ → ℝ} {i₁ I₁ G₁ i₂ I₂ G₂ J₁ J₂ : ℝ}
    {B : V3} (h1 : IsBoozer x ψ₀ θ ζ t₁ z₁ i₁ I₁ G₁ B J₁) (h2 : IsBoozer x ψ₀ θ ζ t₂ z₂ i₂ I₂ G₂ B J₂) :
    HasDerivAt (fun a => (I₁ * t₁ ψ₀ a ζ + G₁ * z₁ ψ₀ a ζ) - (I₂ * t₂ ψ₀ a ζ + G₂ * z₂ ψ₀ a ζ)) 0 θ ∧
    HasDerivAt (fun a => (I₁ * t₁ ψ₀ θ a + G₁ * z₁ ψ₀ θ a) - (I₂ * t₂ ψ₀ θ a + G₂ * z₂ ψ₀ θ a)) 0 ζ ∧
    HasDerivAt (fun a => (t₁ ψ₀ a ζ - i₁ * z₁ ψ₀ a ζ) - (t₂ ψ₀ a ζ - i₂ * z₂ ψ₀ a ζ)) 0 θ ∧
    HasDerivAt (fun a => (t₁ ψ₀ θ a - i₁ * z₁ ψ₀ θ a) - (t₂ ψ₀ θ a - i₂ * z₂ ψ₀ θ a)) 0 ζ := by
  obtain ⟨e, he, a, t, y, ha, ht, hy, hB, ⟨β, hC⟩, -⟩ := h1
  obtain ⟨e', he', a', t', y', ha', ht', hy', hB', ⟨β', hC'⟩, -⟩ := h2
  have q1 : e'.psi = e.psi := he'.psi.unique he.psi
  have q2 : e'.theta = e.theta := he'.theta.unique he.theta
  have q3 : e'.zeta = e.zeta := he'.zeta.unique he.zeta
  obtain ⟨u1, u2, u3⟩ := ht
  obtain ⟨v1, v2, v3⟩ := hy
  obtain ⟨u1', u2', u3'⟩ := ht'
  obtain ⟨v1', v2', v3'⟩ := hy'
  rw [q1] at u1' v1'
  rw [q2] at u2' v2'
  rw [q3] at u3' v3'
  have a2 : a ⬝ᵥ e.theta = 0 := ha.theta.unique (hasDerivAt_const θ ψ₀)
  have a3 : a ⬝ᵥ e.zeta = 0 := ha.zeta.unique (hasDerivAt_const ζ ψ₀)
  have a1 : a ⬝ᵥ e.psi = 1 := ha.psi.unique (hasDerivAt_id ψ₀)
  have a2' : a' ⬝ᵥ e.theta = 0 := by rw [← q2]; exact ha'.theta.unique (hasDerivAt_const θ ψ₀)
  have a3' : a' ⬝ᵥ e.zeta = 0 := by rw [← q3]; exact ha'.zeta.unique (hasDerivAt_const ζ ψ₀)
  have a1' : a' ⬝ᵥ e.psi = 1 := by rw [← q1]; exact ha'.psi.unique (hasDerivAt_id ψ₀)
  have hcov : ∀ w : V3, a ⬝ᵥ w = 0 → a' ⬝ᵥ w = 0 → I₁ * (t ⬝ᵥ w) + G₁ * (y ⬝ᵥ w) = I₂ * (t' ⬝ᵥ w) + G₂ * (y' ⬝ᵥ w) := by
    intro w w1 w2
    have k := congrArg (· ⬝ᵥ w) (hC.symm.trans hC')
    simp only [add_dotProduct, smul_dotProduct, smul_eq_mul, w1, w2] at k
    linarith
  have hcon : ∀ u v : V3, a ⬝ᵥ u = 1 → a' ⬝ᵥ u = 1 → a ⬝ᵥ v = 0 → a' ⬝ᵥ v = 0 →
      (t ⬝ᵥ v) - i₁ * (y ⬝ᵥ v) = (t' ⬝ᵥ v) - i₂ * (y' ⬝ᵥ v) := by
    intro u v c1 c2 c3 c4
    have k := congrArg (· ⬝ᵥ u ⨯₃ v) (hB.symm.trans hB')
    simp only [add_dotProduct, smul_dotProduct, smul_eq_mul, cross_dot_cross, c1, c2, c3, c4] at k
    linarith
  refine ⟨?_, ?_, ?_, ?_⟩
  · exact (((u2.const_mul I₁).add (v2.const_mul G₁)).sub ((u2'.const_mul I₂).add (v2'.const_mul G₂))).congr_deriv
      (by rw [hcov _ a2 a2', sub_self])
  · exact (((u3.const_mul I₁).add (v3.const_mul G₁)).sub ((u3'.const_mul I₂).add (v3'.const_mul G₂))).congr_deriv
      (by rw [hcov _ a3 a3', sub_self])
  · exact ((u2.sub (v2.const_mul i₁)).sub (u2'.sub (v2'.const_mul i₂))).congr_deriv
      (by rw [hcon _ _ a1 a1' a2 a2', sub_self])
  · exact ((u3.sub (v3.const_mul i₁)).sub (u3'.sub (v3'.const_mul i₂))).congr_deriv
      (by rw [hcon _ _ a1 a1' a3 a3', sub_self])

/-- A function whose two partial derivatives vanish is constant. -/
theorem const_of_partials {f : ℝ → ℝ → ℝ} (h1 : ∀ θ ζ, HasDerivAt (fun a => f a ζ) 0 θ)
    (h2 : ∀ θ ζ, HasDerivAt (fun a => f θ a) 0 ζ) (θ ζ : ℝ) : f θ ζ = f 0 0 :=
  (is_const_of_deriv_eq_zero (f := fun a => f a ζ) (fun a => (h1 a ζ).differentiableAt) (fun a => (h1 a ζ).deriv) θ 0).trans
    (is_const_of_deriv_eq_zero (f := fun a => f 0 a) (fun a => (h2 0 a).differentiableAt) (fun a => (h2 0 a).deriv) ζ 0)

/-- Two pairs of Boozer angles of the same field on the same surface: the flux functions are the same and the
angles differ by constants. -/
theorem boozer_angles_unique {x : ℝ → ℝ → ℝ → V3} {ψ₀ : ℝ} {t₁ z₁ t₂ z₂ : ℝ → ℝ → ℝ → ℝ}
    {i₁ I₁ G₁ i₂ I₂ G₂ : ℝ} {J₁ J₂ : ℝ → ℝ → ℝ} {B : ℝ → ℝ → V3}
    (h1 : ∀ θ ζ, IsBoozer x ψ₀ θ ζ t₁ z₁ i₁ I₁ G₁ (B θ ζ) (J₁ θ ζ))
    (h2 : ∀ θ ζ, IsBoozer x ψ₀ θ ζ t₂ z₂ i₂ I₂ G₂ (B θ ζ) (J₂ θ ζ))
    (p1 : IsPoloidal (t₁ ψ₀)) (p2 : IsPoloidal (t₂ ψ₀)) (r1 : IsToroidal (z₁ ψ₀)) (r2 : IsToroidal (z₂ ψ₀))
    (h0 : G₁ + i₁ * I₁ ≠ 0) :
    i₂ = i₁ ∧ I₂ = I₁ ∧ G₂ = G₁ ∧ ∃ c₁ c₂, ∀ θ ζ, t₂ ψ₀ θ ζ = t₁ ψ₀ θ ζ + c₁ ∧ z₂ ψ₀ θ ζ = z₁ ψ₀ θ ζ + c₂ := by
  have hd := fun θ ζ => boozer_diff (h1 θ ζ) (h2 θ ζ)
  have kF := const_of_partials (f := fun θ ζ => (I₁ * t₁ ψ₀ θ ζ + G₁ * z₁ ψ₀ θ ζ) - (I₂ * t₂ ψ₀ θ ζ + G₂ * z₂ ψ₀ θ ζ))
    (fun θ ζ => (hd θ ζ).1) (fun θ ζ => (hd θ ζ).2.1)
  have kH := const_of_partials (f := fun θ ζ => (t₁ ψ₀ θ ζ - i₁ * z₁ ψ₀ θ ζ) - (t₂ ψ₀ θ ζ - i₂ * z₂ ψ₀ θ ζ))
    (fun θ ζ => (hd θ ζ).2.2.1) (fun θ ζ => (hd θ ζ).2.2.2)
  have pi0 : (2 * Real.pi : ℝ) ≠ 0 := by positivity
  have eI : I₂ = I₁ := by
    have k := kF (0 + 2 * Real.pi) 0
    simp only [p1.theta, p2.theta, r1.theta, r2.theta] at k
    refine mul_right_cancel₀ pi0 ?_
    linarith
  have eG : G₂ = G₁ := by
    have k := kF 0 (0 + 2 * Real.pi)
    simp only [p1.zeta, p2.zeta, r1.zeta, r2.zeta] at k
    refine mul_right_cancel₀ pi0 ?_
    linarith
  have ei : i₂ = i₁ := by
    have k := kH 0 (0 + 2 * Real.pi)
    simp only [p1.zeta, p2.zeta, r1.zeta, r2.zeta] at k
    refine mul_right_cancel₀ pi0 ?_
    linarith
  subst eI eG ei
  have kz : ∀ θ ζ, z₂ ψ₀ θ ζ - z₁ ψ₀ θ ζ = z₂ ψ₀ 0 0 - z₁ ψ₀ 0 0 := by
    intro θ ζ
    have k1 := kF θ ζ
    have k2 := kH θ ζ
    refine mul_left_cancel₀ h0 ?_
    linear_combination -k1 + I₂ * k2
  refine ⟨rfl, rfl, rfl, t₂ ψ₀ 0 0 - t₁ ψ₀ 0 0, z₂ ψ₀ 0 0 - z₁ ψ₀ 0 0, fun θ ζ => ⟨?_, ?_⟩⟩
  · have k2 := kH θ ζ
    linear_combination -k2 + i₂ * kz θ ζ
  · linear_combination kz θ ζ

/-- **C99.**  Suppose the input arrays of a selected surface describe a magnetic field in space with no radial
current: λ, ι, the two covariant components and |B| are those of the field, and `G + ι I` and |B| do not
vanish.  Then

* the map `(θ, ζ) ↦ (θ_B, ζ_B)` has nowhere vanishing Jacobian determinant, so that the Boozer angles are
  coordinates of the surface (C66);
* for every way of continuing the two angles to neighbouring surfaces, the field satisfies the two equations
  defining Boozer angles, `B = ∇ψ × ∇θ_B + ι ∇ζ_B × ∇ψ` and `B = β ∇ψ + I ∇θ_B + G ∇ζ_B`, with the flux functions
  `Boozer_I`, `Boozer_G` put out by `run()`, and there is a function `J` which is everywhere the Jacobian of the
  coordinates (ψ, θ_B, ζ_B);
* at the grid points the arrays `theta_Boozer`, `zeta_Boozer`, `jacobian` hold these angles and this
  Jacobian; and `gmnc_b` (and `gmns_b`) are its harmonics. -/
theorem C99_field {dbg : Bool} {s : St ℝ} {d : Dims} (h : RunReady s.inp d) (hp : FieldPeriodic s.inp d.nfp)
    (ho : OriginOnce s.inp) {b : ℕ} (hb : b < d.nsb)
    (hc : NoRadialCurrent s.inp d.asym (selected s.inp b))
    (hreg : (surface s.inp d.asym (selected s.inp b)).Regular)
    {x : ℝ → ℝ → ℝ → V3} {lam : ℝ → ℝ → ℝ → ℝ} {ψ₀ : ℝ} {B : ℝ → ℝ → V3}
    (hf : IsField (surface s.inp d.asym (selected s.inp b)) (bTheta s.inp d.asym (selected s.inp b))
      (bZeta s.inp d.asym (selected s.inp b)) x lam ψ₀ B) :
    let S := surface s.inp d.asym (selected s.inp b)
    Coordinates S d.nfp ∧
    ∃ L s' r iota I G, workOf dbg b s = .ok L ∧ run dbg s = .ok (s', r) ∧
      s.inp.iota.rdN (selected s.inp b) = .ok iota ∧ s'.out.boozer_I.rdN b = .ok I ∧
      s'.out.boozer_G.rdN b = .ok G ∧
      ∀ tB zB : ℝ → ℝ → ℝ → ℝ, tB ψ₀ = S.thetaB → zB ψ₀ = S.zetaB →
        (∀ θ ζ, DifferentiableAt ℝ (fun p => tB p θ ζ) ψ₀ ∧ DifferentiableAt ℝ (fun p => zB p θ ζ) ψ₀) →
        (∃ J : ℝ → ℝ → ℝ, ∀ θ ζ, IsBoozer x ψ₀ θ ζ tB zB iota I G (B θ ζ) (J θ ζ)) ∧
        ∀ J : ℝ → ℝ → ℝ, (∀ θ ζ, IsBoozer x ψ₀ θ ζ tB zB iota I G (B θ ζ) (J θ ζ)) →
          (∀ p < numPoints d.asym d.M d.N,
            let θ := pointTheta d.M d.N p
            let ζ := pointZeta d.N d.nfp p
            L.har.theta_Boozer.rdN p = .ok (tB ψ₀ θ ζ) ∧ L.har.zeta_Boozer.rdN p = .ok (zB ψ₀ θ ζ) ∧
            L.har.jacobian.rdN p = .ok (J θ ζ)) ∧
          ∀ k < numModes d.M d.N, ∃ m n : ℤ, s'.out.xm_b.rdN k = .ok m ∧ s'.out.xn_b.rdN k = .ok n ∧
            s'.out.spec.gmnc_b.rdN k b = .ok (S.quadCos (ntheta d.M) (nzeta d.N) d.nfp J m n) ∧
            (d.asym = true →
              s'.out.spec.gmns_b.rdN k b = .ok (S.quadSin (ntheta d.M) (nzeta d.N) d.nfp J m n)) := by
  intro S
  obtain ⟨-, cov⟩ := C17_covariant h hp ho hb hc hreg
  have main : ∀ θ ζ, S.det θ ζ ≠ 0 ∧ ∀ tB zB : ℝ → ℝ → ℝ → ℝ, tB ψ₀ = S.thetaB → zB ψ₀ = S.zetaB →
      DifferentiableAt ℝ (fun p => tB p θ ζ) ψ₀ → DifferentiableAt ℝ (fun p => zB p θ ζ) ψ₀ →
      IsBoozer x ψ₀ θ ζ tB zB S.iota S.I S.G (B θ ζ) (S.jacobian θ ζ) := by
    intro θ ζ
    obtain ⟨lt, lz, nt, nz, -, -, -, -, d1, d2, d3, d4, c1, c2, -⟩ := cov θ ζ
    exact field_boozer hf hreg d1 d2 d3 d4 c1 c2
  refine ⟨boozer_coordinates h hp _ fun θ ζ => (main θ ζ).1, ?_⟩
  obtain ⟨L, hL, hw⟩ := C18_weight (dbg := dbg) h hp ho hb hreg
  obtain ⟨L', hL', hj⟩ := C20_product (dbg := dbg) h hp ho hb hreg
  obtain rfl : L = L' := by rw [hL] at hL'; exact Except.ok.inj hL'
  have hrun := originFirst_of h ho dbg
  have hrun0 := originFirst_of h ho false
  obtain ⟨-, -, -, -, -, hIG⟩ := C15_flux_functions h ho hrun0
  obtain ⟨hI, hG⟩ := hIG b hb
  have hsel : selected s.inp b < d.ns := by
    have := h.surfs_range b hb
    unfold selected
    omega
  refine ⟨L, _, _, S.iota, S.I, S.G, hL, hrun, ?_, ?_, ?_, ?_⟩
  · exact h.iota.rdN 0 hsel
  · rw [hI]; exact Mat.Full.rdN' 0 h.bsubumnc h.mnmax_nyq_ge hsel
  · rw [hG]; exact Mat.Full.rdN' 0 h.bsubvmnc h.mnmax_nyq_ge hsel
  intro tB zB htB hzB hd
  have hJ : ∀ θ ζ, IsBoozer x ψ₀ θ ζ tB zB S.iota S.I S.G (B θ ζ) (S.jacobian θ ζ) := fun θ ζ =>
    (main θ ζ).2 tB zB htB hzB (hd θ ζ).1 (hd θ ζ).2
  refine ⟨⟨_, hJ⟩, ?_⟩
  intro J hJ'
  obtain rfl : J = S.jacobian := by
    funext θ ζ
    exact boozer_unique (hJ' θ ζ) (hJ θ ζ)
  refine ⟨?_, ?_⟩
  · intro p hp' θ ζ
    obtain ⟨-, k1, k2, -⟩ := hw p hp'
    obtain ⟨g, Bp, k3, -, rfl, kB, k4⟩ := hj p hp'
    rw [htB, hzB]
    refine ⟨k1, k2, ?_⟩
    rw [k3, (eq_div_iff (mul_ne_zero kB kB)).mpr k4, ← pow_two]
    rfl
  · intro k hk
    obtain ⟨m, n, r1, r2, -, -, -, -, r3, r4⟩ := isSpectrum_runSt h hp ho hb k hk
    exact ⟨m, n, r1, r2, r3, fun ha => (r4 ha).2.2.2.2⟩

/-- The angles of the code go round as angles do. -/
theorem angles_turn {I : Inputs ℝ} {d : Dims} (h : RunReady I d) (hp : FieldPeriodic I d.nfp) (js : ℕ) :
    IsPoloidal (surface I d.asym js).thetaB ∧ IsToroidal (surface I d.asym js).zetaB := by
  obtain ⟨pl, pw, -⟩ := surf_per h hp d.asym js
  have pn := nu_per pl pw
  have l2 : ∀ θ ζ, (surface I d.asym js).lam θ (ζ + 2 * Real.pi) = (surface I d.asym js).lam θ ζ := fun θ ζ =>
    by simpa using (pl.torus h.nfp_pos).2 (θ, ζ)
  have n2 : ∀ θ ζ, (surface I d.asym js).nu θ (ζ + 2 * Real.pi) = (surface I d.asym js).nu θ ζ := fun θ ζ =>
    by simpa using (pn.torus h.nfp_pos).2 (θ, ζ)
  refine ⟨⟨fun θ ζ => ?_, fun θ ζ => ?_⟩, ⟨fun θ ζ => ?_, fun θ ζ => ?_⟩⟩
  · unfold Surface.thetaB
    rw [pl.1, pn.1]
    ring
  · unfold Surface.thetaB
    rw [l2, n2]
  · unfold Surface.zetaB
    rw [pn.1]
  · unfold Surface.zetaB
    rw [n2]
    ring

/-- **C100.**  Let the input arrays of a selected surface describe a magnetic field in space as in C99, and let
`tB`, `zB` be any Boozer angles of that field: a poloidal and a toroidal angle of the surface satisfying both equations
of Boozer coordinates, with any numbers `i'`, `I'`, `G'` in the place of ι, I, G.  Then these numbers are the `iota` of
the input and the `Boozer_I`, `Boozer_G` put out by `run()`; at every grid point the angles computed by the code are
`tB` and `zB` up to two constants; and `jacobian`, `gmnc_b`, `gmns_b` belong to the Jacobian `J` of (ψ, tB, zB). -/
theorem C100_unique {dbg : Bool} {s : St ℝ} {d : Dims} (h : RunReady s.inp d) (hp : FieldPeriodic s.inp d.nfp)
    (ho : OriginOnce s.inp) {b : ℕ} (hb : b < d.nsb)
    (hc : NoRadialCurrent s.inp d.asym (selected s.inp b))
    (hreg : (surface s.inp d.asym (selected s.inp b)).Regular)
    {x : ℝ → ℝ → ℝ → V3} {lam : ℝ → ℝ → ℝ → ℝ} {ψ₀ : ℝ} {B : ℝ → ℝ → V3}
    (hf : IsField (surface s.inp d.asym (selected s.inp b)) (bTheta s.inp d.asym (selected s.inp b))
      (bZeta s.inp d.asym (selected s.inp b)) x lam ψ₀ B)
    {tB zB : ℝ → ℝ → ℝ → ℝ} {i' I' G' : ℝ} {J : ℝ → ℝ → ℝ} (ht : IsPoloidal (tB ψ₀)) (hz : IsToroidal (zB ψ₀))
    (hJ : ∀ θ ζ, IsBoozer x ψ₀ θ ζ tB zB i' I' G' (B θ ζ) (J θ ζ)) :
    ∃ L s' r c₁ c₂, workOf dbg b s = .ok L ∧ run dbg s = .ok (s', r) ∧
      s.inp.iota.rdN (selected s.inp b) = .ok i' ∧ s'.out.boozer_I.rdN b = .ok I' ∧
      s'.out.boozer_G.rdN b = .ok G' ∧
      (∀ p < numPoints d.asym d.M d.N,
        let θ := pointTheta d.M d.N p
        let ζ := pointZeta d.N d.nfp p
        ∃ t z, L.har.theta_Boozer.rdN p = .ok t ∧ L.har.zeta_Boozer.rdN p = .ok z ∧
          tB ψ₀ θ ζ = t + c₁ ∧ zB ψ₀ θ ζ = z + c₂ ∧ L.har.jacobian.rdN p = .ok (J θ ζ)) ∧
      ∀ k < numModes d.M d.N, ∃ m n : ℤ, s'.out.xm_b.rdN k = .ok m ∧ s'.out.xn_b.rdN k = .ok n ∧
        s'.out.spec.gmnc_b.rdN k b =
          .ok ((surface s.inp d.asym (selected s.inp b)).quadCos (ntheta d.M) (nzeta d.N) d.nfp J m n) ∧
        (d.asym = true → s'.out.spec.gmns_b.rdN k b =
          .ok ((surface s.inp d.asym (selected s.inp b)).quadSin (ntheta d.M) (nzeta d.N) d.nfp J m n)) := by
  set S := surface s.inp d.asym (selected s.inp b) with hS
  obtain ⟨-, L, s', r, iota, I, G, h1, h2, h3, h4, h5, h6⟩ := C99_field (dbg := dbg) h hp ho hb hc hreg hf
  obtain ⟨⟨J₁, hJ₁⟩, -⟩ := h6 (fun _ => S.thetaB) (fun _ => S.zetaB) rfl rfl
    (fun θ ζ => ⟨differentiableAt_const _, differentiableAt_const _⟩)
  obtain ⟨a1, a2⟩ := angles_turn h hp (selected s.inp b)
  have hsel : selected s.inp b < d.ns := by
    have := h.surfs_range b hb
    unfold selected
    omega
  have e1 : iota = S.iota := by
    have k := h.iota.rdN 0 hsel
    rw [h3] at k
    exact Except.ok.inj k
  obtain ⟨-, -, -, -, -, hIG⟩ := C15_flux_functions h ho (originFirst_of h ho false)
  have hr : runSt d s d.nsb = s' := by
    have k := originFirst_of h ho dbg
    rw [h2] at k
    exact (Prod.mk.inj (Except.ok.inj k)).1.symm
  rw [hr] at hIG
  have e2 : I = S.I := by
    have k := (hIG b hb).1
    rw [h4, Mat.Full.rdN' 0 h.bsubumnc h.mnmax_nyq_ge hsel] at k
    exact Except.ok.inj k
  have e3 : G = S.G := by
    have k := (hIG b hb).2
    rw [h5, Mat.Full.rdN' 0 h.bsubvmnc h.mnmax_nyq_ge hsel] at k
    exact Except.ok.inj k
  subst e1 e2 e3
  obtain ⟨rfl, rfl, rfl, c₁, c₂, hcc⟩ := boozer_angles_unique hJ₁ hJ a1 ht a2 hz hreg.1
  obtain ⟨-, h10⟩ := h6 (fun p θ ζ => tB p θ ζ - c₁) (fun p θ ζ => zB p θ ζ - c₂)
    (by funext θ ζ; exact sub_eq_of_eq_add (hcc θ ζ).1) (by funext θ ζ; exact sub_eq_of_eq_add (hcc θ ζ).2)
    (fun θ ζ => by
      obtain ⟨e, he, ga, gt, gz, ha, k1, k2, -⟩ := hJ θ ζ
      exact ⟨(k1.psi.sub_const c₁).differentiableAt, (k2.psi.sub_const c₂).differentiableAt⟩)
  obtain ⟨h11, h12⟩ := h10 J (fun θ ζ => by
    obtain ⟨e, he, ga, gt, gz, ha, k1, k2, k3⟩ := hJ θ ζ
    exact ⟨e, he, ga, gt, gz, ha, ⟨k1.psi.sub_const c₁, k1.theta.sub_const c₁, k1.zeta.sub_const c₁⟩,
      ⟨k2.psi.sub_const c₂, k2.theta.sub_const c₂, k2.zeta.sub_const c₂⟩, k3⟩)
  refine ⟨L, s', r, c₁, c₂, h1, h2, h3, h4, h5, ?_, h12⟩
  intro p hp' θ ζ
  obtain ⟨k1, k2, k3⟩ := h11 p hp'
  exact ⟨_, _, k1, k2, (sub_add_cancel _ _).symm, (sub_add_cancel _ _).symm, k3⟩

/-! ### Non-vacuity

A straight cylinder: distance `√(2ψ)` from the axis, `B` the sum of a unit vector along the axis and 3/4
of the poloidal coordinate vector.  At ψ = 1/2 the geometric angles are its Boozer angles; the input
describes it in other angles, `θ_B = θ + sin(θ + 2ζ)/4`, `ζ_B = ζ + sin(θ + 2ζ)/4`. -/

/-- Input arrays of the cylinder. -/
noncomputable def Ex.cyl (asym : Bool) : St ℝ :=
  { Ex.polar asym (1 / 16) with
    inp := { (Ex.polar asym (1 / 16)).inp with
      iota := Vec.tab 2 fun _ => 3 / 4
      bmnc := Mat.tab 4 2 fun k _ => if k = 0 then 5 / 4 else 0
      bmns := Mat.tab 4 2 fun _ _ => 0
      bsubumnc := Mat.tab 4 2 fun k _ => if k = 0 then 3 / 4 else if k = 2 then 7 / 16 else 0
      bsubvmnc := Mat.tab 4 2 fun k _ => if k = 0 then 1 else if k = 2 then 7 / 8 else 0 } }

theorem Ex.cyl_ready (asym : Bool) : RunReady (Ex.cyl asym).inp (Ex.dims asym) :=
  { Ex.polar_ready asym (1 / 16) with
    iota := Vec.full_tab 2 _
    bmnc := Mat.full_tab 4 2 _
    bmns := fun _ => Mat.full_tab 4 2 _
    bsubumnc := Mat.full_tab 4 2 _
    bsubvmnc := Mat.full_tab 4 2 _ }

section
variable (asym : Bool) {js : ℕ} (hj : js < 2) (θ ζ : ℝ)
include hj

theorem Ex.cyl_lam : (surface (Ex.cyl asym).inp asym js).lam θ ζ = 1 / 16 * Real.sin (θ + 2 * ζ) :=
  Ex.polar_lam asym (1 / 16) hj θ ζ

theorem Ex.cyl_B : (surface (Ex.cyl asym).inp asym js).B θ ζ = 5 / 4 := by
  have v : ∀ k < 4, entry (Ex.cyl asym).inp.bmnc k js = if k = 0 then 5 / 4 else 0 := fun k hk => Mat.val_tab hk hj
  have u : ∀ k < 4, entry (Ex.cyl asym).inp.bmns k js = 0 := fun k hk => Mat.val_tab hk hj
  refine (Ex.polar4 (fun k => entry (Ex.cyl asym).inp.bmnc k js)
    (fun k => onlyIf asym (entry (Ex.cyl asym).inp.bmns k js)) ((v 3 (by omega)).trans (by simp))
    (onlyIf_of_zero (u 3 (by omega))) θ ζ).trans ?_
  rw [onlyIf_of_zero (u 1 (by omega)), onlyIf_of_zero (u 2 (by omega)), v 0 (by omega), v 1 (by omega), v 2 (by omega)]
  simp

theorem Ex.cyl_bTheta : bTheta (Ex.cyl asym).inp asym js θ ζ = 3 / 4 + 7 / 16 * Real.cos (θ + 2 * ζ) := by
  have v : ∀ k < 4, entry (Ex.cyl asym).inp.bsubumnc k js = if k = 0 then 3 / 4 else if k = 2 then 7 / 16 else 0 :=
    fun k hk => Mat.val_tab hk hj
  have u : ∀ k < 4, entry (Ex.cyl asym).inp.bsubumns k js = 0 := fun k hk => Mat.val_tab hk hj
  refine (Ex.polar4 (fun k => entry (Ex.cyl asym).inp.bsubumnc k js)
    (fun k => onlyIf asym (entry (Ex.cyl asym).inp.bsubumns k js)) ((v 3 (by omega)).trans (by simp))
    (onlyIf_of_zero (u 3 (by omega))) θ ζ).trans ?_
  rw [onlyIf_of_zero (u 1 (by omega)), onlyIf_of_zero (u 2 (by omega)), v 0 (by omega), v 1 (by omega), v 2 (by omega)]
  simp

theorem Ex.cyl_bZeta : bZeta (Ex.cyl asym).inp asym js θ ζ = 1 + 7 / 8 * Real.cos (θ + 2 * ζ) := by
  have v : ∀ k < 4, entry (Ex.cyl asym).inp.bsubvmnc k js = if k = 0 then 1 else if k = 2 then 7 / 8 else 0 :=
    fun k hk => Mat.val_tab hk hj
  have u : ∀ k < 4, entry (Ex.cyl asym).inp.bsubvmns k js = 0 := fun k hk => Mat.val_tab hk hj
  refine (Ex.polar4 (fun k => entry (Ex.cyl asym).inp.bsubvmnc k js)
    (fun k => onlyIf asym (entry (Ex.cyl asym).inp.bsubvmns k js)) ((v 3 (by omega)).trans (by simp))
    (onlyIf_of_zero (u 3 (by omega))) θ ζ).trans ?_
  rw [onlyIf_of_zero (u 1 (by omega)), onlyIf_of_zero (u 2 (by omega)), v 0 (by omega), v 1 (by omega), v 2 (by omega)]
  simp

omit θ ζ in
theorem Ex.cyl_iota : (surface (Ex.cyl asym).inp asym js).iota = 3 / 4 := Vec.val_tab hj

omit θ ζ in
theorem Ex.cyl_noCurrent : NoRadialCurrent (Ex.cyl asym).inp asym js := by
  have v : ∀ k < 4, entry (Ex.cyl asym).inp.bsubumnc k js = if k = 0 then 3 / 4 else if k = 2 then 7 / 16 else 0 :=
    fun k hk => Mat.val_tab hk hj
  have v' : ∀ k < 4, entry (Ex.cyl asym).inp.bsubvmnc k js = if k = 0 then 1 else if k = 2 then 7 / 8 else 0 :=
    fun k hk => Mat.val_tab hk hj
  have u : ∀ k < 4, entry (Ex.cyl asym).inp.bsubumns k js = 0 := fun k hk => Mat.val_tab hk hj
  have u' : ∀ k < 4, entry (Ex.cyl asym).inp.bsubvmns k js = 0 := fun k hk => Mat.val_tab hk hj
  intro k hk
  replace hk : k < 4 := hk
  rw [u k hk, u' k hk, v k hk, v' k hk]
  refine ⟨?_, fun _ => by ring⟩
  show (((Ex.vec (β := ℤ) [0, 0, 1, 2]).val 0 k : ℤ) : ℝ) * _ = -((((Ex.vec (β := ℤ) [0, 2, -2, -2]).val 0 k : ℤ) : ℝ) * _)
  have c4 : k = 0 ∨ k = 1 ∨ k = 2 ∨ k = 3 := by omega
  rcases c4 with rfl | rfl | rfl | rfl
  · rw [show (Ex.vec (β := ℤ) [0, 0, 1, 2]).val 0 0 = 0 from rfl, show (Ex.vec (β := ℤ) [0, 2, -2, -2]).val 0 0 = 0 from rfl]
    simp
  · simp
  · rw [show (Ex.vec (β := ℤ) [0, 0, 1, 2]).val 0 2 = 1 from rfl, show (Ex.vec (β := ℤ) [0, 2, -2, -2]).val 0 2 = -2 from rfl]
    norm_num
  · simp

omit θ ζ in
theorem Ex.cyl_regular : (surface (Ex.cyl asym).inp asym js).Regular := by
  have e1 : (surface (Ex.cyl asym).inp asym js).G = 1 := (Mat.val_tab (by decide) hj).trans (by simp)
  have e2 : (surface (Ex.cyl asym).inp asym js).I = 3 / 4 := (Mat.val_tab (by decide) hj).trans (by simp)
  constructor
  · rw [e1, e2, Ex.cyl_iota asym hj]
    norm_num
  · intro θ ζ
    rw [Ex.cyl_B asym hj]
    norm_num

end

/-- Geometric angle. -/
noncomputable def Ex.cylT (θ ζ : ℝ) : ℝ := θ + 1 / 4 * Real.sin (θ + 2 * ζ)
/-- Length along the axis. -/
noncomputable def Ex.cylZ (θ ζ : ℝ) : ℝ := ζ + 1 / 4 * Real.sin (θ + 2 * ζ)
/-- Position. -/
noncomputable def Ex.cylX (ψ θ ζ : ℝ) : V3 :=
  ![√(2 * ψ) * Real.cos (Ex.cylT θ ζ), √(2 * ψ) * Real.sin (Ex.cylT θ ζ), Ex.cylZ θ ζ]
/-- The field at ψ = 1/2. -/
noncomputable def Ex.cylB (θ ζ : ℝ) : V3 :=
  ![-(3 / 4) * Real.sin (Ex.cylT θ ζ), 3 / 4 * Real.cos (Ex.cylT θ ζ), 1]

theorem Ex.sin_t (θ ζ : ℝ) : HasDerivAt (fun t => 1 / 4 * Real.sin (t + 2 * ζ)) (1 / 4 * Real.cos (θ + 2 * ζ)) θ := by
  have := (((hasDerivAt_id θ).add_const (2 * ζ)).sin).const_mul (1 / 4 : ℝ)
  rwa [mul_one] at this

theorem Ex.sin_z (θ ζ : ℝ) : HasDerivAt (fun z => 1 / 4 * Real.sin (θ + 2 * z)) (1 / 2 * Real.cos (θ + 2 * ζ)) ζ :=
  (((((hasDerivAt_id ζ).const_mul 2).const_add θ).sin).const_mul (1 / 4 : ℝ)).congr_deriv (by simp; ring)

/-- The coordinate vectors at ψ = 1/2. -/
noncomputable def Ex.cylE (θ ζ : ℝ) : Frame :=
  let c := Real.cos (θ + 2 * ζ)
  let C := Real.cos (Ex.cylT θ ζ)
  let D := Real.sin (Ex.cylT θ ζ)
  { psi := ![C, D, 0]
    theta := ![-(1 + c / 4) * D, (1 + c / 4) * C, c / 4]
    zeta := ![-(c / 2) * D, c / 2 * C, 1 + c / 2] }

theorem Ex.cyl_frame (θ ζ : ℝ) : IsFrame Ex.cylX (1 / 2) θ ζ (Ex.cylE θ ζ) := by
  have h1 : √(2 * (1 / 2) : ℝ) = 1 := by norm_num
  have dr : HasDerivAt (fun p : ℝ => √(2 * p)) 1 (1 / 2) := by
    have := (((hasDerivAt_id (1 / 2 : ℝ)).const_mul 2).sqrt (by norm_num))
    refine this.congr_deriv ?_
    simp
  have t1 : HasDerivAt (fun t => Ex.cylT t ζ) (1 + 1 / 4 * Real.cos (θ + 2 * ζ)) θ := (hasDerivAt_id θ).add (Ex.sin_t θ ζ)
  have t2 : HasDerivAt (fun z => Ex.cylT θ z) (1 / 2 * Real.cos (θ + 2 * ζ)) ζ := (Ex.sin_z θ ζ).const_add θ
  have z1 : HasDerivAt (fun t => Ex.cylZ t ζ) (1 / 4 * Real.cos (θ + 2 * ζ)) θ := (Ex.sin_t θ ζ).const_add ζ
  have z2 : HasDerivAt (fun z => Ex.cylZ θ z) (1 + 1 / 2 * Real.cos (θ + 2 * ζ)) ζ := (hasDerivAt_id ζ).add (Ex.sin_z θ ζ)
  have lower := Real.neg_one_le_cos (θ + 2 * ζ)
  have one := Real.sin_sq_add_cos_sq (Ex.cylT θ ζ)
  refine ⟨?_, ?_, ?_, ?_⟩
  · refine hasDerivAt_pi.mpr fun i => ?_
    fin_cases i
    · exact (dr.mul_const _).congr_deriv (by simp [Ex.cylE])
    · exact (dr.mul_const _).congr_deriv (by simp [Ex.cylE])
    · exact (hasDerivAt_const _ _).congr_deriv (by simp [Ex.cylE])
  · refine hasDerivAt_pi.mpr fun i => ?_
    fin_cases i
    · exact (t1.cos.const_mul _).congr_deriv (by rw [h1]; simp [Ex.cylE]; ring)
    · exact (t1.sin.const_mul _).congr_deriv (by rw [h1]; simp [Ex.cylE]; ring)
    · exact z1.congr_deriv (by simp [Ex.cylE]; ring)
  · refine hasDerivAt_pi.mpr fun i => ?_
    fin_cases i
    · exact (t2.cos.const_mul _).congr_deriv (by rw [h1]; simp [Ex.cylE]; ring)
    · exact (t2.sin.const_mul _).congr_deriv (by rw [h1]; simp [Ex.cylE]; ring)
    · exact z2.congr_deriv (by simp [Ex.cylE]; ring)
  · have e : (Ex.cylE θ ζ).psi ⬝ᵥ (Ex.cylE θ ζ).theta ⨯₃ (Ex.cylE θ ζ).zeta = 1 + 3 / 4 * Real.cos (θ + 2 * ζ) := by
      rw [dot3]
      simp [Ex.cylE, cross_apply]
      linear_combination (1 + 3 / 4 * Real.cos (θ + 2 * ζ)) * one
    rw [e]
    intro h0
    linarith

theorem Ex.cyl_field (asym : Bool) {js : ℕ} (hj : js < 2) :
    IsField (surface (Ex.cyl asym).inp asym js) (bTheta (Ex.cyl asym).inp asym js) (bZeta (Ex.cyl asym).inp asym js)
      Ex.cylX (fun _ t z => 1 / 16 * Real.sin (t + 2 * z)) (1 / 2) Ex.cylB := by
  refine ⟨?_, fun θ ζ => ⟨Ex.cylE θ ζ, Ex.cyl_frame θ ζ, ?_, ?_, ?_, ?_⟩⟩
  · funext θ ζ
    rw [Ex.cyl_lam asym hj]
  · have lower := Real.neg_one_le_cos (θ + 2 * ζ)
    have one := Real.sin_sq_add_cos_sq (Ex.cylT θ ζ)
    have hD : 1 + 3 / 4 * Real.cos (θ + 2 * ζ) ≠ 0 := fun h0 => by linarith
    have s1 : HasDerivAt (fun t => t + 1 / 16 * Real.sin (t + 2 * ζ)) (1 + 1 / 16 * Real.cos (θ + 2 * ζ)) θ := by
      have := (((hasDerivAt_id θ).add_const (2 * ζ)).sin).const_mul (1 / 16 : ℝ)
      rw [mul_one] at this
      exact (hasDerivAt_id θ).add this
    have s2 : HasDerivAt (fun z => θ + 1 / 16 * Real.sin (θ + 2 * z)) (1 / 8 * Real.cos (θ + 2 * ζ)) ζ :=
      ((((((hasDerivAt_id ζ).const_mul 2).const_add θ).sin).const_mul (1 / 16 : ℝ)).const_add θ).congr_deriv
        (by simp; ring)
    have k : ∀ x v : V3, ∀ r : ℝ, x ⬝ᵥ v = r * (1 + 3 / 4 * Real.cos (θ + 2 * ζ)) →
        r = ((1 / (1 + 3 / 4 * Real.cos (θ + 2 * ζ))) • x) ⬝ᵥ v := by
      intro x v r hx
      rw [smul_dotProduct, hx, smul_eq_mul, one_div, mul_comm r, inv_mul_cancel_left₀ hD]
    set c := Real.cos (θ + 2 * ζ) with hc
    set C := Real.cos (Ex.cylT θ ζ) with hC
    set D := Real.sin (Ex.cylT θ ζ) with hDef
    refine ⟨![C, D, 0], (1 / (1 + 3 / 4 * c)) • ![-(1 + 9 / 16 * c) * D, (1 + 9 / 16 * c) * C, -(3 / 8 * c)],
      (1 / (1 + 3 / 4 * c)) • ![c / 4 * D, -(c / 4) * C, 1 + c / 4], ⟨?_, ?_, ?_⟩, ⟨?_, ?_, ?_⟩, ⟨?_, ?_, ?_⟩, ?_⟩
    · refine (hasDerivAt_id _).congr_deriv ?_
      rw [dot3]; simp [Ex.cylE]; linear_combination -one
    · refine (hasDerivAt_const _ _).congr_deriv ?_
      rw [dot3]; simp [Ex.cylE]; ring
    · refine (hasDerivAt_const _ _).congr_deriv ?_
      rw [dot3]; simp [Ex.cylE]; ring
    · refine (hasDerivAt_const _ _).congr_deriv ?_
      rw [smul_dotProduct, dot3]; simp [Ex.cylE]; right; ring
    · refine s1.congr_deriv (k _ _ _ ?_)
      rw [dot3]; simp [Ex.cylE]; linear_combination (1 + c / 4) * (1 + 9 / 16 * c) * one
    · refine s2.congr_deriv (k _ _ _ ?_)
      rw [dot3]; simp [Ex.cylE]; linear_combination c / 2 * (1 + 9 / 16 * c) * one
    · refine (hasDerivAt_const _ _).congr_deriv (k _ _ _ ?_)
      rw [dot3]; simp [Ex.cylE]; ring
    · refine (hasDerivAt_const _ _).congr_deriv (k _ _ _ ?_)
      rw [dot3]; simp [Ex.cylE]; linear_combination -(c / 4) * (1 + c / 4) * one
    · refine (hasDerivAt_id _).congr_deriv (k _ _ _ ?_)
      rw [dot3]; simp [Ex.cylE]; linear_combination -(c / 4) * (c / 2) * one
    · rw [Ex.cyl_iota asym hj]
      have hD' : 4 + 3 * c ≠ 0 := fun h0 => by linarith
      funext i
      fin_cases i
      · simp [Ex.cylB, cross_apply]
        field_simp
        ring
      · simp [Ex.cylB, cross_apply]
        field_simp
        ring
      · simp [Ex.cylB, cross_apply]
        field_simp
        linear_combination (-256 - 192 * c) * one
  · rw [Ex.cyl_bTheta asym hj, dot3]
    simp [Ex.cylB, Ex.cylE]
    linear_combination (3 / 4 + 3 / 16 * Real.cos (θ + 2 * ζ)) * Real.sin_sq_add_cos_sq (Ex.cylT θ ζ)
  · rw [Ex.cyl_bZeta asym hj, dot3]
    simp [Ex.cylB, Ex.cylE]
    linear_combination (3 / 8 * Real.cos (θ + 2 * ζ)) * Real.sin_sq_add_cos_sq (Ex.cylT θ ζ)
  · rw [Ex.cyl_B asym hj, dot3]
    simp [Ex.cylB]
    linear_combination (9 / 16 : ℝ) * Real.sin_sq_add_cos_sq (Ex.cylT θ ζ)

/-- The cylinder meets the hypotheses of `C99_field`. -/
example (asym : Bool) {b : ℕ} (hb : b < 2) :
    RunReady (Ex.cyl asym).inp (Ex.dims asym) ∧ FieldPeriodic (Ex.cyl asym).inp 2 ∧ OriginOnce (Ex.cyl asym).inp ∧
    NoRadialCurrent (Ex.cyl asym).inp asym (selected (Ex.cyl asym).inp b) ∧
    (surface (Ex.cyl asym).inp asym (selected (Ex.cyl asym).inp b)).Regular ∧
    IsField (surface (Ex.cyl asym).inp asym (selected (Ex.cyl asym).inp b))
      (bTheta (Ex.cyl asym).inp asym (selected (Ex.cyl asym).inp b))
      (bZeta (Ex.cyl asym).inp asym (selected (Ex.cyl asym).inp b)) Ex.cylX
      (fun _ t z => 1 / 16 * Real.sin (t + 2 * z)) (1 / 2) Ex.cylB :=
  have hs : selected (Ex.cyl asym).inp b < 2 := Ex.polar_sel asym (1 / 16) b hb
  ⟨Ex.cyl_ready asym, Ex.polar_periodic asym (1 / 16), Ex.polar_origin asym (1 / 16), Ex.cyl_noCurrent asym hs,
    Ex.cyl_regular asym hs, Ex.cyl_field asym hs⟩

/-- The angles of the input are not the Boozer angles. -/
example : Ex.cylT (Real.pi / 2) 0 = Real.pi / 2 + 1 / 4 := by simp [Ex.cylT]

/-- The conclusion for the cylinder, both angles continued unchanged to the neighbouring surfaces. -/
example (asym : Bool) : Coordinates (surface (Ex.cyl asym).inp asym (selected (Ex.cyl asym).inp 0)) 2 ∧
    ∃ J : ℝ → ℝ → ℝ, ∀ θ ζ, ∃ iota I G, IsBoozer Ex.cylX (1 / 2) θ ζ
      (fun _ => (surface (Ex.cyl asym).inp asym (selected (Ex.cyl asym).inp 0)).thetaB)
      (fun _ => (surface (Ex.cyl asym).inp asym (selected (Ex.cyl asym).inp 0)).zetaB) iota I G (Ex.cylB θ ζ) (J θ ζ) := by
  have hs : selected (Ex.cyl asym).inp 0 < 2 := Ex.polar_sel asym (1 / 16) 0 (by decide)
  obtain ⟨h1, L, s', r, iota, I, G, -, -, -, -, -, h2⟩ := C99_field (dbg := true) (s := Ex.cyl asym) (d := Ex.dims asym)
    (Ex.cyl_ready asym) (Ex.polar_periodic asym (1 / 16)) (Ex.polar_origin asym (1 / 16)) (b := 0) (by show 0 < 2; decide)
    (Ex.cyl_noCurrent asym hs) (Ex.cyl_regular asym hs) (Ex.cyl_field asym hs)
  obtain ⟨⟨J, hJ⟩, -⟩ := h2 (fun _ => (surface (Ex.cyl asym).inp asym (selected (Ex.cyl asym).inp 0)).thetaB)
    (fun _ => (surface (Ex.cyl asym).inp asym (selected (Ex.cyl asym).inp 0)).zetaB) rfl rfl
    (fun θ ζ => ⟨differentiableAt_const _, differentiableAt_const _⟩)
  exact ⟨h1, J, fun θ ζ => ⟨iota, I, G, hJ θ ζ⟩⟩

/-- The geometric angles of the cylinder, shifted, meet the further hypotheses of `C100_unique`. -/
example : IsPoloidal (fun θ ζ => Ex.cylT θ ζ + 1) ∧ IsToroidal (fun θ ζ => Ex.cylZ θ ζ + 2) ∧
    ∀ θ ζ, IsBoozer Ex.cylX (1 / 2) θ ζ (fun _ θ ζ => Ex.cylT θ ζ + 1) (fun _ θ ζ => Ex.cylZ θ ζ + 2) (3 / 4) (3 / 4) 1
      (Ex.cylB θ ζ) 1 := by
  have e2 : ∀ θ ζ, Real.sin (θ + 2 * (ζ + 2 * Real.pi)) = Real.sin (θ + 2 * ζ) := fun θ ζ => by
    rw [show θ + 2 * (ζ + 2 * Real.pi) = θ + 2 * ζ + 2 * Real.pi + 2 * Real.pi by ring, Real.sin_add_two_pi, Real.sin_add_two_pi]
  have e1 : ∀ θ ζ, Real.sin (θ + 2 * Real.pi + 2 * ζ) = Real.sin (θ + 2 * ζ) := fun θ ζ => by
    rw [add_right_comm, Real.sin_add_two_pi]
  refine ⟨⟨fun θ ζ => ?_, fun θ ζ => ?_⟩, ⟨fun θ ζ => ?_, fun θ ζ => ?_⟩, fun θ ζ => ?_⟩
  · simp only [Ex.cylT, e1]; ring
  · simp only [Ex.cylT, e2]
  · simp only [Ex.cylZ, e1]
  · simp only [Ex.cylZ, e2]; ring
  · have one := Real.sin_sq_add_cos_sq (Ex.cylT θ ζ)
    refine ⟨Ex.cylE θ ζ, Ex.cyl_frame θ ζ, ![Real.cos (Ex.cylT θ ζ), Real.sin (Ex.cylT θ ζ), 0],
      ![-Real.sin (Ex.cylT θ ζ), Real.cos (Ex.cylT θ ζ), 0], ![0, 0, 1], ⟨?_, ?_, ?_⟩, ⟨?_, ?_, ?_⟩, ⟨?_, ?_, ?_⟩, ?_, ⟨0, ?_⟩, ?_⟩
    · exact (hasDerivAt_id _).congr_deriv (by rw [dot3]; simp [Ex.cylE]; linear_combination -one)
    · exact (hasDerivAt_const _ _).congr_deriv (by rw [dot3]; simp [Ex.cylE]; ring)
    · exact (hasDerivAt_const _ _).congr_deriv (by rw [dot3]; simp [Ex.cylE]; ring)
    · exact (hasDerivAt_const _ _).congr_deriv (by rw [dot3]; simp [Ex.cylE]; ring)
    · refine (((hasDerivAt_id θ).add (Ex.sin_t θ ζ)).add_const 1).congr_deriv ?_
      rw [dot3]; simp [Ex.cylE]; linear_combination -(1 + Real.cos (θ + 2 * ζ) / 4) * one
    · refine (((Ex.sin_z θ ζ).const_add θ).add_const 1).congr_deriv ?_
      rw [dot3]; simp [Ex.cylE]; linear_combination -(Real.cos (θ + 2 * ζ) / 2) * one
    · exact (hasDerivAt_const _ _).congr_deriv (by rw [dot3]; simp [Ex.cylE])
    · refine (((Ex.sin_t θ ζ).const_add ζ).add_const 2).congr_deriv ?_
      rw [dot3]; simp [Ex.cylE]; ring
    · refine (((hasDerivAt_id ζ).add (Ex.sin_z θ ζ)).add_const 2).congr_deriv ?_
      rw [dot3]; simp [Ex.cylE]; ring
    · funext i
      fin_cases i
      · simp [Ex.cylB, cross_apply]
      · simp [Ex.cylB, cross_apply]
      · simp [Ex.cylB, cross_apply]; linear_combination -one
    · funext i
      fin_cases i <;> simp [Ex.cylB]
    · rw [dot3]
      simp [cross_apply]
      linear_combination one

end Booz
