import Mathlib.MeasureTheory.Integral.IntervalIntegral.IntegrationByParts
import Verif.Spec.FieldLine
import Verif.Props.Field
import Verif.Props.Uniform
import Verif.Props.Volume

/-!
# C107, C108: currents, and integrals along field lines
-/

namespace Booz
open Spec Matrix Set
open Trapezoid (τ)

/-- Chain rule along a curve on the surface. -/
theorem curve_deriv {E : Type} [NormedAddCommGroup E] [NormedSpace ℝ E] {g : ℝ × ℝ → E} {θ ζ : ℝ → ℝ} {t θ' ζ' : ℝ} {a b : E}
    (hg : DifferentiableAt ℝ g (θ t, ζ t)) (ha : HasDerivAt (fun s => g (s, ζ t)) a (θ t))
    (hb : HasDerivAt (fun s => g (θ t, s)) b (ζ t)) (hθ : HasDerivAt θ θ' t) (hζ : HasDerivAt ζ ζ' t) :
    HasDerivAt (fun u => g (θ u, ζ u)) (θ' • a + ζ' • b) t := by
  set L := fderiv ℝ g (θ t, ζ t) with hL
  have hf : HasFDerivAt g L (θ t, ζ t) := hg.hasFDerivAt
  have ea : L (1, 0) = a := by
    refine HasDerivAt.unique (f := fun s => g (s, ζ t)) ?_ ha
    exact hf.comp_hasDerivAt (θ t) ((hasDerivAt_id (θ t)).prodMk (hasDerivAt_const (θ t) (ζ t)))
  have eb : L (0, 1) = b := by
    refine HasDerivAt.unique (f := fun s => g (θ t, s)) ?_ hb
    exact hf.comp_hasDerivAt (ζ t) ((hasDerivAt_const (ζ t) (θ t)).prodMk (hasDerivAt_id (ζ t)))
  have k := hf.comp_hasDerivAt t (hθ.prodMk hζ)
  have e : L (θ', ζ') = θ' • a + ζ' • b := by
    rw [← ea, ← eb, ← map_smul, ← map_smul, ← map_add]
    congr 1
    simp
  rw [e] at k
  exact k

/-- The Boozer angles along a curve. -/
theorem boozer_curve (I : Inputs ℝ) (asym : Bool) (js : ℕ) {θ ζ : ℝ → ℝ} (hθ : ContDiff ℝ 1 θ) (hζ : ContDiff ℝ 1 ζ) :
    ContDiff ℝ 1 (fun t => (surface I asym js).thetaB (θ t) (ζ t)) ∧
    ContDiff ℝ 1 (fun t => (surface I asym js).zetaB (θ t) (ζ t)) ∧
    ContDiff ℝ 1 (fun t => (surface I asym js).B (θ t) (ζ t)) := by
  have hs := smooth_surface I asym js
  have one : ∀ {f : ℝ × ℝ → ℝ}, Trapezoid.Smooth f → ContDiff ℝ 1 fun t => f (θ t, ζ t) := fun hf =>
    (hf.of_le (by exact_mod_cast le_top)).comp (hθ.prodMk hζ)
  exact ⟨one hs.thetaB, one hs.zetaB, one hs.B⟩

theorem strengthSeries_continuous (S : Surface) (nfp M N : ℕ) : Continuous (Function.uncurry (S.strengthSeries nfp M N)) := by
  have e : Function.uncurry (S.strengthSeries nfp M N) = fun y : ℝ × ℝ => ∑ k ∈ outputModes M N,
      (S.quadCos (ntheta M) (nzeta N) nfp S.B k.1 (k.2 * nfp) * Real.cos (k.1 * y.1 - (k.2 * nfp : ℤ) * y.2) +
        S.quadSin (ntheta M) (nzeta N) nfp S.B k.1 (k.2 * nfp) * Real.sin (k.1 * y.1 - (k.2 * nfp : ℤ) * y.2)) := rfl
  rw [e]
  fun_prop

section
variable {s : St ℝ} {d : Dims} (h : RunReady s.inp d) (hp : FieldPeriodic s.inp d.nfp) (ho : OriginOnce s.inp)
  {b : ℕ} (hb : b < d.nsb) (hc : NoRadialCurrent s.inp d.asym (selected s.inp b))
  (hreg : (surface s.inp d.asym (selected s.inp b)).Regular)
  {x : ℝ → ℝ → ℝ → V3} {lam : ℝ → ℝ → ℝ → ℝ} {ψ₀ : ℝ} {B : ℝ → ℝ → V3}
  (hf : IsField (surface s.inp d.asym (selected s.inp b)) (bTheta s.inp d.asym (selected s.inp b))
    (bZeta s.inp d.asym (selected s.inp b)) x lam ψ₀ B)
include h hp ho hb hc hreg hf

theorem field_point (θ ζ : ℝ) :
    let S := surface s.inp d.asym (selected s.inp b)
    S.det θ ζ ≠ 0 ∧
      IsBoozer x ψ₀ θ ζ (fun _ => S.thetaB) (fun _ => S.zetaB) S.iota S.I S.G (B θ ζ) (S.jacobian θ ζ) := by
  intro S
  obtain ⟨-, cov⟩ := C17_covariant h hp ho hb hc hreg
  obtain ⟨lt, lz, nt, nz, -, -, -, -, d1, d2, d3, d4, c1, c2, -⟩ := cov θ ζ
  have k := field_boozer hf hreg d1 d2 d3 d4 c1 c2
  exact ⟨k.1, k.2 _ _ rfl rfl (differentiableAt_const _) (differentiableAt_const _)⟩


/-- Velocity of the Boozer angles along a curve on the surface. -/
theorem curve_boozer (hx : SurfaceSmooth x ψ₀) {θ ζ : ℝ → ℝ} {t : ℝ} (hθ : DifferentiableAt ℝ θ t) (hζ : DifferentiableAt ℝ ζ t) :
    let S := surface s.inp d.asym (selected s.inp b)
    ∃ gψ gt gz r' : V3, gψ ⬝ᵥ r' = 0 ∧ HasDerivAt (fun u => x ψ₀ (θ u) (ζ u)) r' t ∧
      HasDerivAt (fun u => S.thetaB (θ u) (ζ u)) (gt ⬝ᵥ r') t ∧ HasDerivAt (fun u => S.zetaB (θ u) (ζ u)) (gz ⬝ᵥ r') t ∧
      B (θ t) (ζ t) = gψ ⨯₃ gt + S.iota • gz ⨯₃ gψ ∧ (∃ β : ℝ, B (θ t) (ζ t) = β • gψ + S.I • gt + S.G • gz) ∧
      S.jacobian (θ t) (ζ t) * (gψ ⬝ᵥ gt ⨯₃ gz) = 1 := by
  intro S
  obtain ⟨-, e, he, gψ, gt, gz, h1, h2, h3, h4, h5, h6⟩ := field_point h hp ho hb hc hreg hf (θ t) (ζ t)
  have hs := smooth_surface s.inp d.asym (selected s.inp b)
  have dt := ContDiff.differentiable (n := ((⊤ : ℕ∞) : WithTop ℕ∞)) hs.thetaB (by simp)
  have dz := ContDiff.differentiable (n := ((⊤ : ℕ∞) : WithTop ℕ∞)) hs.zetaB (by simp)
  have k := curve_deriv (hx (θ t, ζ t)) he.theta he.zeta hθ.hasDerivAt hζ.hasDerivAt
  have k1 := curve_deriv (dt (θ t, ζ t)) h2.theta h2.zeta hθ.hasDerivAt hζ.hasDerivAt
  have k2 := curve_deriv (dz (θ t, ζ t)) h3.theta h3.zeta hθ.hasDerivAt hζ.hasDerivAt
  refine ⟨gψ, gt, gz, _, ?_, k, k1.congr_deriv ?_, k2.congr_deriv ?_, h4, h5, h6⟩
  · have a2 : gψ ⬝ᵥ e.theta = 0 := h1.theta.unique (hasDerivAt_const (θ t) ψ₀)
    have a3 : gψ ⬝ᵥ e.zeta = 0 := h1.zeta.unique (hasDerivAt_const (ζ t) ψ₀)
    rw [dotProduct_add, dotProduct_smul, dotProduct_smul, a2, a3]
    simp
  · rw [dotProduct_add, dotProduct_smul, dotProduct_smul]
  · rw [dotProduct_add, dotProduct_smul, dotProduct_smul]

/-- The circulation of the field is that of `I dθ_B + G dζ_B`. -/
theorem circulation_eq (hx : SurfaceSmooth x ψ₀) {θ ζ : ℝ → ℝ} {k l : ℤ} (hl : IsLoop θ ζ k l) :
    let S := surface s.inp d.asym (selected s.inp b)
    circulation x ψ₀ B θ ζ = 2 * Real.pi * (k * S.I + l * S.G) := by
  intro S
  obtain ⟨pt, pz⟩ := angles_turn h hp (selected s.inp b)
  have dθ : ∀ t, DifferentiableAt ℝ θ t := fun t => hl.theta.differentiable (by norm_num) t
  have dζ : ∀ t, DifferentiableAt ℝ ζ t := fun t => hl.zeta.differentiable (by norm_num) t
  set H : ℝ → ℝ := fun t => S.I * S.thetaB (θ t) (ζ t) + S.G * S.zetaB (θ t) (ζ t) with hH
  have key : ∀ t, HasDerivAt H (B (θ t) (ζ t) ⬝ᵥ deriv (fun u => x ψ₀ (θ u) (ζ u)) t) t := by
    intro t
    obtain ⟨gψ, gt, gz, r', h0, h1, h2, h3, -, ⟨β, h5⟩, -⟩ := curve_boozer h hp ho hb hc hreg hf hx (dθ t) (dζ t)
    refine ((h2.const_mul S.I).add (h3.const_mul S.G)).congr_deriv ?_
    rw [h1.deriv, h5]
    simp only [add_dotProduct, smul_dotProduct, h0, smul_eq_mul]
    ring
  have cont : Continuous fun t => B (θ t) (ζ t) ⬝ᵥ deriv (fun u => x ψ₀ (θ u) (ζ u)) t := by
    obtain ⟨c1, c2, -⟩ := boozer_curve s.inp d.asym (selected s.inp b) hl.theta hl.zeta
    have cH : ContDiff ℝ 1 H := (contDiff_const.mul c1).add (contDiff_const.mul c2)
    refine (cH.continuous_deriv le_rfl).congr fun t => (key t).deriv
  unfold circulation
  rw [intervalIntegral.integral_eq_sub_of_hasDerivAt (fun t _ => key t) (cont.intervalIntegrable _ _)]
  have turn : ∀ {f : ℝ → ℝ → ℝ} {c₁ c₂ : ℝ}, (∀ u v, f (u + 2 * Real.pi) v = f u v + c₁ * (2 * Real.pi)) →
      (∀ u v, f u (v + 2 * Real.pi) = f u v + c₂ * (2 * Real.pi)) → ∀ u v,
      f (u + k * (2 * Real.pi)) (v + l * (2 * Real.pi)) = f u v + (c₁ * k + c₂ * l) * (2 * Real.pi) := by
    intro f c₁ c₂ f1 f2 u v
    have p1 : ∀ v, Function.Periodic (fun u => f u v - c₁ * u) (2 * Real.pi) := fun v u => by
      beta_reduce; rw [f1]; ring
    have p2 : ∀ u, Function.Periodic (fun v => f u v - c₂ * v) (2 * Real.pi) := fun u v => by
      beta_reduce; rw [f2]; ring
    have q1 := (p1 (v + l * (2 * Real.pi))).int_mul k u
    have q2 := (p2 u).int_mul l v
    beta_reduce at q1 q2
    linarith
  have e1 := turn (f := S.thetaB) (c₁ := 1) (c₂ := 0) (fun u v => by rw [pt.theta]; ring) (fun u v => by rw [pt.zeta]; ring)
    (θ 0) (ζ 0)
  have e2 := turn (f := S.zetaB) (c₁ := 0) (c₂ := 1) (fun u v => by rw [pz.theta]; ring) (fun u v => by rw [pz.zeta]; ring)
    (θ 0) (ζ 0)
  rw [hH]
  beta_reduce
  rw [hl.theta_end, hl.zeta_end, e1, e2]
  ring

/-- **C107.**  Let the input arrays of a selected surface describe a magnetic field in space as in C99.  For every
closed curve on the surface, the circulation of the field along it is `2π (k Boozer_I + l Boozer_G)` with the numbers
put out by `run()`, `k` and `l` being the numbers of turns of the curve the poloidal and the toroidal way. -/
theorem C107_circulation (dbg : Bool) (hx : SurfaceSmooth x ψ₀) :
    ∃ s' r I G, run dbg s = .ok (s', r) ∧ s'.out.boozer_I.rdN b = .ok I ∧ s'.out.boozer_G.rdN b = .ok G ∧
      ∀ (θ ζ : ℝ → ℝ) (k l : ℤ), IsLoop θ ζ k l → circulation x ψ₀ B θ ζ = 2 * Real.pi * (k * I + l * G) := by
  obtain ⟨-, -, -, -, -, hIG⟩ := C15_flux_functions h ho (originFirst_of h ho false)
  obtain ⟨hI, hG⟩ := hIG b hb
  have hsel : selected s.inp b < d.ns := by
    have := h.surfs_range b hb
    unfold selected
    omega
  refine ⟨_, _, (surface s.inp d.asym (selected s.inp b)).I, (surface s.inp d.asym (selected s.inp b)).G,
    originFirst_of h ho dbg, ?_, ?_, fun θ ζ k l hl => circulation_eq h hp ho hb hc hreg hf hx hl⟩
  · rw [hI]; exact Mat.Full.rdN' 0 h.bsubumnc h.mnmax_nyq_ge hsel
  · rw [hG]; exact Mat.Full.rdN' 0 h.bsubvmnc h.mnmax_nyq_ge hsel

/-- Along a field line the Boozer angles grow at the rates `σ ι / J`, `σ / J`. -/
theorem line_rates (hx : SurfaceSmooth x ψ₀) {θ ζ σ : ℝ → ℝ} {t₀ t₁ : ℝ} (hl : IsFieldLine x ψ₀ B θ ζ σ t₀ t₁) {t : ℝ}
    (ht : t ∈ uIcc t₀ t₁) :
    let S := surface s.inp d.asym (selected s.inp b)
    HasDerivAt (fun u => S.thetaB (θ u) (ζ u)) (S.iota * (σ t * (S.B (θ t) (ζ t) ^ 2 / (S.G + S.iota * S.I)))) t ∧
    HasDerivAt (fun u => S.zetaB (θ u) (ζ u)) (σ t * (S.B (θ t) (ζ t) ^ 2 / (S.G + S.iota * S.I))) t := by
  intro S
  have dθ : DifferentiableAt ℝ θ t := hl.theta.differentiable (by norm_num) t
  have dζ : DifferentiableAt ℝ ζ t := hl.zeta.differentiable (by norm_num) t
  obtain ⟨gψ, gt, gz, r', h0, h1, h2, h3, h4, -, h6⟩ := curve_boozer h hp ho hb hc hreg hf hx dθ dζ
  have e : r' = σ t • B (θ t) (ζ t) := h1.unique (hl.velocity t ht).2
  have hj : gψ ⬝ᵥ gt ⨯₃ gz = S.B (θ t) (ζ t) ^ 2 / (S.G + S.iota * S.I) := by
    have hK : S.G + S.iota * S.I ≠ 0 := hreg.1
    have hB : S.B (θ t) (ζ t) ≠ 0 := hreg.2 _ _
    have h6' : (S.G + S.iota * S.I) / S.B (θ t) (ζ t) ^ 2 * (gψ ⬝ᵥ gt ⨯₃ gz) = 1 := h6
    field_simp at h6' ⊢
    linarith
  refine ⟨h2.congr_deriv ?_, h3.congr_deriv ?_⟩ <;> rw [e, h4, ← hj] <;>
    simp only [dot3, cross3, Pi.add_apply, Pi.smul_apply, smul_eq_mul, Matrix.cons_val_zero, Matrix.cons_val_one,
      Matrix.cons_val] <;> ring

/-- Every line `θ_B = α + ι ζ_B` is a field line. -/
theorem line_exists (hx : SurfaceSmooth x ψ₀) (α : ℝ) {z₀ z₁ : ℝ} :
    let S := surface s.inp d.asym (selected s.inp b)
    0 < (S.G + S.iota * S.I) * (z₁ - z₀) →
    ∃ θ ζ σ, IsFieldLine x ψ₀ B θ ζ σ 0 1 ∧
      ∀ t, S.zetaB (θ t) (ζ t) = z₀ + t * (z₁ - z₀) ∧
        S.thetaB (θ t) (ζ t) = α + S.iota * (z₀ + t * (z₁ - z₀)) := by
  intro S hz
  obtain ⟨pl, pw, -⟩ := surf_per h hp d.asym (selected s.inp b)
  have T := torusMap h.nfp_pos (smooth_surface s.inp d.asym (selected s.inp b)) pl pw
  have hd : ∀ y, Trapezoid.newDet (shiftA S) (Function.uncurry S.nu) y ≠ 0 := fun y => by
    rw [show y = (y.1, y.2) from rfl, newDet_eq (smooth_surface s.inp d.asym (selected s.inp b)) T]
    exact (field_point h hp ho hb hc hreg hf y.1 y.2).1
  let c : ℝ → ℝ × ℝ := fun t => (T.homeo hd).symm (α + S.iota * (z₀ + t * (z₁ - z₀)), z₀ + t * (z₁ - z₀))
  have hcs : ContDiff ℝ 1 c := by
    refine ((T.symm_smooth hd).of_le (by exact_mod_cast le_top)).comp ?_
    fun_prop
  have hang : ∀ t, S.boozer (c t) = (α + S.iota * (z₀ + t * (z₁ - z₀)), z₀ + t * (z₁ - z₀)) := fun t => by
    rw [← newAngles_eq]
    exact (T.homeo hd).apply_symm_apply _
  have hz1 : ∀ t, S.zetaB (c t).1 (c t).2 = z₀ + t * (z₁ - z₀) := fun t => congrArg Prod.snd (hang t)
  have ht1 : ∀ t, S.thetaB (c t).1 (c t).2 = α + S.iota * (z₀ + t * (z₁ - z₀)) := fun t => congrArg Prod.fst (hang t)
  refine ⟨fun t => (c t).1, fun t => (c t).2, fun t => S.jacobian (c t).1 (c t).2 * (z₁ - z₀),
    ⟨contDiff_fst.comp hcs, contDiff_snd.comp hcs, fun t _ => ⟨?_, ?_⟩⟩, fun t => ⟨hz1 t, ht1 t⟩⟩
  · have hB : 0 < S.B (c t).1 (c t).2 ^ 2 := sq_pos_of_ne_zero (hreg.2 _ _)
    show 0 < (S.G + S.iota * S.I) / S.B (c t).1 (c t).2 ^ 2 * (z₁ - z₀)
    rw [div_mul_eq_mul_div]
    exact div_pos hz hB
  · have dθ : DifferentiableAt ℝ (fun t => (c t).1) t := (contDiff_fst.comp hcs).differentiable (by norm_num) t
    have dζ : DifferentiableAt ℝ (fun t => (c t).2) t := (contDiff_snd.comp hcs).differentiable (by norm_num) t
    obtain ⟨gψ, gt, gz, r', h0, h1, h2, h3, h4, -, h6⟩ := curve_boozer h hp ho hb hc hreg hf hx dθ dζ
    have a3 : gz ⬝ᵥ r' = z₁ - z₀ := by
      refine h3.unique (((((hasDerivAt_id t).mul_const (z₁ - z₀)).const_add z₀).congr_deriv (one_mul _)).congr_of_eventuallyEq ?_)
      exact Filter.Eventually.of_forall hz1
    have a2 : gt ⬝ᵥ r' = S.iota * (z₁ - z₀) := by
      refine h2.unique (((((((hasDerivAt_id t).mul_const (z₁ - z₀)).const_add z₀).congr_deriv (one_mul _)).const_mul S.iota).const_add
        α).congr_of_eventuallyEq ?_)
      exact Filter.Eventually.of_forall ht1
    have hJ : gψ ⬝ᵥ gt ⨯₃ gz ≠ 0 := fun h0 => by rw [h0, mul_zero] at h6; exact zero_ne_one h6
    have eq : r' = (S.jacobian (c t).1 (c t).2 * (z₁ - z₀)) • B (c t).1 (c t).2 := by
      set J := S.jacobian (c t).1 (c t).2 with hJe
      have p2 : gt ⬝ᵥ B (c t).1 (c t).2 = S.iota * (gψ ⬝ᵥ gt ⨯₃ gz) := by
        rw [h4]
        simp only [dot3, cross3, Pi.add_apply, Pi.smul_apply, smul_eq_mul, Matrix.cons_val_zero, Matrix.cons_val_one,
          Matrix.cons_val]
        ring
      have p3 : gz ⬝ᵥ B (c t).1 (c t).2 = gψ ⬝ᵥ gt ⨯₃ gz := by
        rw [h4]
        simp only [dot3, cross3, Pi.add_apply, Pi.smul_apply, smul_eq_mul, Matrix.cons_val_zero, Matrix.cons_val_one,
          Matrix.cons_val]
        ring
      have p1 : gψ ⬝ᵥ B (c t).1 (c t).2 = 0 := by
        rw [h4]
        simp only [dot3, cross3, Pi.add_apply, Pi.smul_apply, smul_eq_mul, Matrix.cons_val_zero, Matrix.cons_val_one,
          Matrix.cons_val]
        ring
      refine eq_of_dots hJ ?_ ?_ ?_
      · rw [dotProduct_comm, h0, smul_dotProduct, dotProduct_comm, p1, smul_zero]
      · rw [dotProduct_comm, a2, smul_dotProduct, dotProduct_comm, p2, smul_eq_mul]
        linear_combination -(S.iota * (z₁ - z₀)) * h6
      · rw [dotProduct_comm, a3, smul_dotProduct, dotProduct_comm, p3, smul_eq_mul]
        linear_combination -(z₁ - z₀) * h6
    rw [← eq]
    exact h1

/-- Field lines are straight in Boozer angles. -/
theorem line_straight (hx : SurfaceSmooth x ψ₀) {θ ζ σ : ℝ → ℝ} {t₀ t₁ : ℝ} (hl : IsFieldLine x ψ₀ B θ ζ σ t₀ t₁) {t : ℝ}
    (ht : t ∈ uIcc t₀ t₁) :
    let S := surface s.inp d.asym (selected s.inp b)
    S.thetaB (θ t) (ζ t) - S.iota * S.zetaB (θ t) (ζ t) = S.thetaB (θ t₀) (ζ t₀) - S.iota * S.zetaB (θ t₀) (ζ t₀) := by
  intro S
  have key : ∀ u ∈ uIcc t₀ t₁, HasDerivAt (fun u => S.thetaB (θ u) (ζ u) - S.iota * S.zetaB (θ u) (ζ u)) 0 u := by
    intro u hu
    obtain ⟨k1, k2⟩ := line_rates h hp ho hb hc hreg hf hx hl hu
    exact (k1.sub (k2.const_mul S.iota)).congr_deriv (sub_self _)
  have := intervalIntegral.integral_eq_sub_of_hasDerivAt (a := t₀) (b := t)
    (fun u hu => key u (uIcc_subset_uIcc_left ht hu)) (by simp)
  rw [intervalIntegral.integral_zero] at this
  beta_reduce at this
  linarith

/-- If `F(|g|) K / g²` is within ε of `F(|B|) K / B²` everywhere, the integral computed from `g` is within
`ε |z₁ - z₀|` of the integral along the line. -/
theorem line_near (hx : SurfaceSmooth x ψ₀) {F : ℝ → ℝ} (hF : ContinuousOn F (Ioi 0)) {g : ℝ → ℝ → ℝ}
    (hg : Continuous (Function.uncurry g)) (hg0 : ∀ t z, g t z ≠ 0) {ε : ℝ}
    (hε : ∀ θ ζ, let S := surface s.inp d.asym (selected s.inp b)
      |F |S.B θ ζ| * ((S.G + S.iota * S.I) / S.B θ ζ ^ 2) -
        F |g (S.thetaB θ ζ) (S.zetaB θ ζ)| * ((S.G + S.iota * S.I) / g (S.thetaB θ ζ) (S.zetaB θ ζ) ^ 2)| ≤ ε)
    {θ ζ σ : ℝ → ℝ} {t₀ t₁ : ℝ} (hl : IsFieldLine x ψ₀ B θ ζ σ t₀ t₁) :
    let S := surface s.inp d.asym (selected s.inp b)
    |alongLine B F θ ζ σ t₀ t₁ - lineIntegral S.iota S.I S.G g F (S.thetaB (θ t₀) (ζ t₀) - S.iota * S.zetaB (θ t₀) (ζ t₀))
      (S.zetaB (θ t₀) (ζ t₀)) (S.zetaB (θ t₁) (ζ t₁))| ≤ ε * |S.zetaB (θ t₁) (ζ t₁) - S.zetaB (θ t₀) (ζ t₀)| := by
  intro S
  obtain ⟨c1, c2, c3⟩ := boozer_curve s.inp d.asym (selected s.inp b) hl.theta hl.zeta
  set K := S.G + S.iota * S.I with hK
  have hK0 : K ≠ 0 := hreg.1
  have hB0 : ∀ t, S.B (θ t) (ζ t) ≠ 0 := fun t => hreg.2 _ _
  set tB : ℝ → ℝ := fun t => S.thetaB (θ t) (ζ t) with htB
  set zB : ℝ → ℝ := fun t => S.zetaB (θ t) (ζ t) with hzB
  set bB : ℝ → ℝ := fun t => S.B (θ t) (ζ t) with hbB
  set α := tB t₀ - S.iota * zB t₀ with hα
  have hz' : ∀ t ∈ uIcc t₀ t₁, HasDerivAt zB (σ t * (bB t ^ 2 / K)) t := fun t ht =>
    (line_rates h hp ho hb hc hreg hf hx hl ht).2
  have hst : ∀ t ∈ uIcc t₀ t₁, tB t = α + S.iota * zB t := fun t ht => by
    have := line_straight h hp ho hb hc hreg hf hx hl ht
    change tB t - S.iota * zB t = α at this
    linarith
  have cσ : ContinuousOn (fun t => σ t * (bB t ^ 2 / K)) (uIcc t₀ t₁) :=
    (c2.continuous_deriv le_rfl).continuousOn.congr fun t ht => (hz' t ht).deriv.symm
  have cF : ∀ {k : ℝ → ℝ}, Continuous k → (∀ t, k t ≠ 0) → Continuous fun t => F |k t| * (K / k t ^ 2) := by
    intro k hk hk0
    have h1 : Continuous fun t => F |k t| := hF.comp_continuous hk.abs fun t => abs_pos.2 (hk0 t)
    exact h1.mul (continuous_const.div (hk.pow 2) fun t => pow_ne_zero 2 (hk0 t))
  have cB : Continuous fun t => F |bB t| * (K / bB t ^ 2) := cF c3.continuous hB0
  have cg : Continuous fun z => F |g (α + S.iota * z) z| * (K / g (α + S.iota * z) z ^ 2) :=
    cF (k := fun z => g (α + S.iota * z) z) (hg.comp (f := fun z => (α + S.iota * z, z)) (by fun_prop)) fun z => hg0 _ _
  have cgt : Continuous fun t => F |g (tB t) (zB t)| * (K / g (tB t) (zB t) ^ 2) :=
    cF (k := fun t => g (tB t) (zB t)) (hg.comp (c1.continuous.prodMk c2.continuous)) fun t => hg0 _ _
  have e1 : alongLine B F θ ζ σ t₀ t₁ = ∫ t in t₀..t₁, F |bB t| * (K / bB t ^ 2) * (σ t * (bB t ^ 2 / K)) := by
    unfold alongLine
    refine intervalIntegral.integral_congr fun t ht => ?_
    obtain ⟨e, -, -, -, -, hBB⟩ := hf.point (θ t) (ζ t)
    rw [hBB, Real.sqrt_sq_eq_abs]
    have := hB0 t
    change bB t ≠ 0 at this
    change F |bB t| * σ t = _
    field_simp
  have e2 : lineIntegral S.iota S.I S.G g F α (zB t₀) (zB t₁) =
      ∫ t in t₀..t₁, F |g (tB t) (zB t)| * (K / g (tB t) (zB t) ^ 2) * (σ t * (bB t ^ 2 / K)) := by
    unfold lineIntegral
    rw [← hK, ← intervalIntegral.integral_comp_mul_deriv'' c2.continuous.continuousOn
      (fun t ht => (hz' t (Ioo_subset_Icc_self ht)).hasDerivWithinAt) cσ cg.continuousOn]
    refine intervalIntegral.integral_congr fun t ht => ?_
    simp only [Function.comp_apply]
    rw [← hst t ht]
  have i1 : IntervalIntegrable (fun t => F |bB t| * (K / bB t ^ 2) * (σ t * (bB t ^ 2 / K))) MeasureTheory.volume t₀ t₁ :=
    (cB.continuousOn.mul cσ).intervalIntegrable
  have i2 : IntervalIntegrable (fun t => F |g (tB t) (zB t)| * (K / g (tB t) (zB t) ^ 2) * (σ t * (bB t ^ 2 / K)))
      MeasureTheory.volume t₀ t₁ := (cgt.continuousOn.mul cσ).intervalIntegrable
  rw [e1, e2, ← intervalIntegral.integral_sub i1 i2]
  have cε : ContinuousOn (fun t => ε * (|K| / K * (σ t * (bB t ^ 2 / K)))) (uIcc t₀ t₁) := by
    exact continuousOn_const.mul (continuousOn_const.mul cσ)
  have hle : ∀ᵐ t, t ∈ uIoc t₀ t₁ → ‖F |bB t| * (K / bB t ^ 2) * (σ t * (bB t ^ 2 / K)) -
      F |g (tB t) (zB t)| * (K / g (tB t) (zB t) ^ 2) * (σ t * (bB t ^ 2 / K))‖ ≤
      ε * (|K| / K * (σ t * (bB t ^ 2 / K))) := by
    refine Filter.Eventually.of_forall fun t ht => ?_
    have hσ := (hl.velocity t (uIoc_subset_uIcc ht)).1
    rw [← sub_mul, norm_mul, Real.norm_eq_abs, Real.norm_eq_abs]
    have eabs : |σ t * (bB t ^ 2 / K)| = |K| / K * (σ t * (bB t ^ 2 / K)) := by
      rw [abs_mul, abs_of_pos hσ, abs_div, abs_of_nonneg (sq_nonneg _)]
      have : |K| ≠ 0 := abs_ne_zero.2 hK0
      have k2 : |K| * |K| = K * K := abs_mul_abs_self K
      field_simp
      linear_combination -bB t ^ 2 * k2
    rw [eabs]
    refine mul_le_mul_of_nonneg_right (hε (θ t) (ζ t)) ?_
    rw [← eabs]
    exact abs_nonneg _
  have fin := intervalIntegral.norm_integral_le_abs_of_norm_le ((MeasureTheory.ae_restrict_iff' measurableSet_uIoc).2 hle) cε.intervalIntegrable
  rw [Real.norm_eq_abs] at fin
  refine fin.trans (le_of_eq ?_)
  rw [intervalIntegral.integral_const_mul, intervalIntegral.integral_const_mul,
    intervalIntegral.integral_eq_sub_of_hasDerivAt hz' cσ.intervalIntegrable, abs_mul, abs_mul, abs_div, abs_abs,
    div_self (abs_ne_zero.2 hK0), one_mul]
  have h0 : 0 ≤ ε := (abs_nonneg _).trans (hε 0 0)
  rw [abs_of_nonneg h0]

omit ho hb hc hf in
/-- |B| stays between two positive numbers. -/
theorem strength_range : ∃ m₀ m₁ : ℝ, 0 < m₀ ∧ ∀ θ ζ, m₀ ≤ |(surface s.inp d.asym (selected s.inp b)).B θ ζ| ∧
    |(surface s.inp d.asym (selected s.inp b)).B θ ζ| ≤ m₁ := by
  obtain ⟨-, -, -, -, pB⟩ := surf_per h hp d.asym (selected s.inp b)
  have sB := (smooth_surface s.inp d.asym (selected s.inp b)).B
  set S := surface s.inp d.asym (selected s.inp b)
  have cB : Continuous (Function.uncurry S.B) := ContDiff.continuous sB
  have hD : Trapezoid.DPer τ τ (Function.uncurry S.B) := pB.torus h.nfp_pos
  have hpi : 0 < τ := Real.two_pi_pos
  obtain ⟨m₁, h1⟩ := hD.bounded hpi hpi cB
  have hD' : Trapezoid.DPer τ τ fun y => (Function.uncurry S.B y)⁻¹ :=
    ⟨fun y => congrArg _ (hD.1 y), fun y => congrArg _ (hD.2 y)⟩
  obtain ⟨m₂, h2⟩ := hD'.bounded hpi hpi (cB.inv₀ fun y => hreg.2 y.1 y.2)
  have h20 : 0 < m₂ := (abs_pos.2 (inv_ne_zero (hreg.2 0 0))).trans_le (h2 (0, 0))
  refine ⟨m₂⁻¹, m₁, inv_pos.2 h20, fun θ ζ => ⟨?_, h1 (θ, ζ)⟩⟩
  have := h2 (θ, ζ)
  rw [abs_inv] at this
  exact inv_le_of_inv_le₀ (abs_pos.2 (hreg.2 θ ζ)) this

omit hc hreg hf in
/-- What is put out: the flux functions and the harmonics of |B|. -/
theorem outputB_eq (dbg : Bool) :
    let S := surface s.inp d.asym (selected s.inp b)
    ∃ s' r, run dbg s = .ok (s', r) ∧ s.inp.iota.rdN (selected s.inp b) = .ok S.iota ∧
      s'.out.boozer_I.rdN b = .ok S.I ∧ s'.out.boozer_G.rdN b = .ok S.G ∧
      outputB s'.out d.asym b = S.strengthSeries d.nfp d.M d.N := by
  intro S
  obtain ⟨-, -, -, -, -, hIG⟩ := C15_flux_functions h ho (originFirst_of h ho false)
  obtain ⟨hI, hG⟩ := hIG b hb
  have hsel : selected s.inp b < d.ns := by
    have := h.surfs_range b hb
    unfold selected
    omega
  refine ⟨_, _, originFirst_of h ho dbg, h.iota.rdN 0 hsel, ?_, ?_, ?_⟩
  · rw [hI]; exact Mat.Full.rdN' 0 h.bsubumnc h.mnmax_nyq_ge hsel
  · rw [hG]; exact Mat.Full.rdN' 0 h.bsubvmnc h.mnmax_nyq_ge hsel
  · funext t z
    have g := fun (k : ℕ) (hk : k < d.nmodes) => spectrum_at h hp ho (b := b) hb hk
    have k1 : ∀ k < d.nmodes, Coefficient (some (runSt d s d.nsb).out.spec.bmnc_b) k b
        (S.quadCos (ntheta d.M) (nzeta d.N) d.nfp S.B (modeM d.N k) (modeN d.N k * d.nfp)) := fun k hk => (g k hk).1
    have k2 : ∀ k < d.nmodes, Coefficient (if d.asym then some (runSt d s d.nsb).out.spec.bmns_b else none) k b
        (S.quadSin (ntheta d.M) (nzeta d.N) d.nfp S.B (modeM d.N k) (modeN d.N k * d.nfp)) := by
      intro k hk
      by_cases ha : d.asym = true
      · rw [if_pos ha]
        exact ((g k hk).2.2.2.2.2 ha).1
      · rw [if_neg ha]
        exact (quad_parity h hp (by simpa using ha) (selected s.inp b) (ntheta_pos d.M) (nzeta_pos d.N) _ _).1
    exact outputB_sum h (fullSum_run h k1 k2 t z)

omit ho hb hc hreg hf in
/-- What is near |B| on the surface is near it for all Boozer angles. -/
theorem near_nonzero {m₀ : ℝ} {g : ℝ → ℝ → ℝ}
    (hm : ∀ θ ζ, m₀ ≤ |(surface s.inp d.asym (selected s.inp b)).B θ ζ|)
    (hg : ∀ θ ζ, let S := surface s.inp d.asym (selected s.inp b)
      |S.B θ ζ - g (S.thetaB θ ζ) (S.zetaB θ ζ)| < m₀) (t z : ℝ) : g t z ≠ 0 := by
  obtain ⟨y, hy⟩ := every_angle_occurs h hp (selected s.inp b) (t, z)
  intro h0
  have h1 := hg y.1 y.2
  have e1 : (surface s.inp d.asym (selected s.inp b)).thetaB y.1 y.2 = t := congrArg Prod.fst hy
  have e2 : (surface s.inp d.asym (selected s.inp b)).zetaB y.1 y.2 = z := congrArg Prod.snd hy
  simp only [e1, e2, h0, sub_zero] at h1
  exact absurd (hm y.1 y.2) (not_le.2 h1)

/-- **C108.**  Let the input arrays of a selected surface describe a magnetic field in space as in C99.  There is a
function `f` on the torus, which at the Boozer angles of any point is the strength of the field there (up to the sign),
such that for every field line on the surface `θ_B - ι ζ_B` is constant, and the integral of `F(|B|) dl/|B|` along it is
an integral over `ζ_B` in which only `f`, ι, I, G occur, for every continuous `F`; and every line `θ_B - ι ζ_B = α` is a
field line. -/
theorem C108_field_lines (hx : SurfaceSmooth x ψ₀) :
    let S := surface s.inp d.asym (selected s.inp b)
    ∃ f, Continuous (Function.uncurry f) ∧ TorusFn f ∧
      (∀ θ ζ, f (S.thetaB θ ζ) (S.zetaB θ ζ) ^ 2 = B θ ζ ⬝ᵥ B θ ζ) ∧ S.Expresses f S.B ∧
      (∀ θ ζ σ t₀ t₁, IsFieldLine x ψ₀ B θ ζ σ t₀ t₁ →
        let α := S.thetaB (θ t₀) (ζ t₀) - S.iota * S.zetaB (θ t₀) (ζ t₀)
        (∀ t ∈ uIcc t₀ t₁, S.thetaB (θ t) (ζ t) = α + S.iota * S.zetaB (θ t) (ζ t)) ∧
        ∀ F, ContinuousOn F (Ioi 0) → alongLine B F θ ζ σ t₀ t₁ =
          lineIntegral S.iota S.I S.G f F α (S.zetaB (θ t₀) (ζ t₀)) (S.zetaB (θ t₁) (ζ t₁))) ∧
      ∀ α z₀ z₁, 0 < (S.G + S.iota * S.I) * (z₁ - z₀) → ∃ θ ζ σ, IsFieldLine x ψ₀ B θ ζ σ 0 1 ∧
        ∀ t, S.zetaB (θ t) (ζ t) = z₀ + t * (z₁ - z₀) ∧
          S.thetaB (θ t) (ζ t) = α + S.iota * (z₀ + t * (z₁ - z₀)) := by
  intro S
  have hd : ∀ θ ζ, S.det θ ζ ≠ 0 := fun θ ζ => (field_point h hp ho hb hc hreg hf θ ζ).1
  obtain ⟨f, hfe, sf, -, tf⟩ := express_q h hp hreg hd S.B (by show _ ∈ [S.B, S.R, S.Z, S.nu, S.jacobian]; simp)
  obtain ⟨m₀, m₁, hm, hr⟩ := strength_range h hp hreg
  have hf0 : ∀ t z, f t z ≠ 0 := near_nonzero h hp (fun θ ζ => (hr θ ζ).1) fun θ ζ => by
    intro S'
    rw [show f (S'.thetaB θ ζ) (S'.zetaB θ ζ) = S'.B θ ζ from hfe θ ζ]
    simpa using hm
  refine ⟨f, ContDiff.continuous sf, tf, fun θ ζ => ?_, hfe, fun θ ζ σ t₀ t₁ hl => ⟨fun t ht => ?_, fun F hF => ?_⟩,
    fun α z₀ z₁ hz => line_exists h hp ho hb hc hreg hf hx α hz⟩
  · obtain ⟨e, -, -, -, -, hBB⟩ := hf.point θ ζ
    rw [hBB, hfe θ ζ]
  · linarith [line_straight h hp ho hb hc hreg hf hx hl ht]
  · have := line_near h hp ho hb hc hreg hf hx hF (ContDiff.continuous sf) hf0 (ε := 0)
      (fun θ ζ => by intro S'; rw [show f (S'.thetaB θ ζ) (S'.zetaB θ ζ) = S'.B θ ζ from hfe θ ζ]; simp) hl
    exact sub_eq_zero.1 (abs_nonpos_iff.1 (this.trans_eq (zero_mul _)))

/-- **C108, from the outputs.**  Let `F` be continuous and `ε > 0`.  At high enough resolution (with the two numbers of
modes comparable, and the grid resolving the angles), for every field line of the surface the integral computed from
ι, the `Boozer_I`, `Boozer_G` and the harmonics of |B| put out by `run()` is within `ε |Δζ_B|` of the integral of
`F(|B|) dl/|B|` along the line.  The resolution needed does not depend on the line.  (The first part is about the
harmonics by quadrature at any resolution, the second about those which `run()` puts out where its index arithmetic
does not overflow.) -/
theorem C108_outputs (hx : SurfaceSmooth x ψ₀) {F : ℝ → ℝ} (hF : ContinuousOn F (Ioi 0)) {c : ℝ} (hc0 : 0 ≤ c) {ρ : ℝ}
    (hρ : ρ < 1) {ε : ℝ} (hε : 0 < ε) :
    let S := surface s.inp d.asym (selected s.inp b)
    ∃ M₀ : ℕ,
      (∀ M N : ℕ, M₀ ≤ M → 1 ≤ M → 1 ≤ N → (M : ℝ) ≤ c * N → (N : ℝ) ≤ c * M → S.ResolvedBy d.nfp M N ρ →
        ∀ θ ζ σ t₀ t₁, IsFieldLine x ψ₀ B θ ζ σ t₀ t₁ →
          |alongLine B F θ ζ σ t₀ t₁ - lineIntegral S.iota S.I S.G (S.strengthSeries d.nfp M N) F
            (S.thetaB (θ t₀) (ζ t₀) - S.iota * S.zetaB (θ t₀) (ζ t₀)) (S.zetaB (θ t₀) (ζ t₀)) (S.zetaB (θ t₁) (ζ t₁))| ≤
          ε * |S.zetaB (θ t₁) (ζ t₁) - S.zetaB (θ t₀) (ζ t₀)|) ∧
      ∀ (M N : ℕ) (s1 : St ℝ) (dbg : Bool), M₀ ≤ M → 1 ≤ N → (M : ℝ) ≤ c * N → (N : ℝ) ≤ c * M →
        s1.inp = { s.inp with mboz := M, nboz := N } → RunReady s1.inp { d with M := M, N := N } →
        S.ResolvedBy d.nfp M N ρ →
        ∃ s' r iota I G, run dbg s1 = .ok (s', r) ∧ s1.inp.iota.rdN (selected s.inp b) = .ok iota ∧
          s'.out.boozer_I.rdN b = .ok I ∧ s'.out.boozer_G.rdN b = .ok G ∧
          ∀ θ ζ σ t₀ t₁, IsFieldLine x ψ₀ B θ ζ σ t₀ t₁ →
            |alongLine B F θ ζ σ t₀ t₁ - lineIntegral iota I G (outputB s'.out d.asym b) F
              (S.thetaB (θ t₀) (ζ t₀) - iota * S.zetaB (θ t₀) (ζ t₀)) (S.zetaB (θ t₀) (ζ t₀))
              (S.zetaB (θ t₁) (ζ t₁))| ≤ ε * |S.zetaB (θ t₁) (ζ t₁) - S.zetaB (θ t₀) (ζ t₀)| := by
  intro S
  suffices key : ∃ M₀ : ℕ, ∀ M N : ℕ, M₀ ≤ M → 1 ≤ M → 1 ≤ N → (M : ℝ) ≤ c * N → (N : ℝ) ≤ c * M → S.ResolvedBy d.nfp M N ρ →
      ∀ θ ζ σ t₀ t₁, IsFieldLine x ψ₀ B θ ζ σ t₀ t₁ →
        |alongLine B F θ ζ σ t₀ t₁ - lineIntegral S.iota S.I S.G (S.strengthSeries d.nfp M N) F
          (S.thetaB (θ t₀) (ζ t₀) - S.iota * S.zetaB (θ t₀) (ζ t₀)) (S.zetaB (θ t₀) (ζ t₀)) (S.zetaB (θ t₁) (ζ t₁))| ≤
        ε * |S.zetaB (θ t₁) (ζ t₁) - S.zetaB (θ t₀) (ζ t₀)| by
    obtain ⟨M₀, key⟩ := key
    refine ⟨M₀, key, fun M N s1 dbg hM hN hMN hNM e1 h1 hres => ?_⟩
    have hp' : FieldPeriodic s1.inp ({ d with M := M, N := N } : Dims).nfp := by rw [e1]; exact hp
    have ho' : OriginOnce s1.inp := by rw [e1]; exact ho
    have hsel : selected s1.inp b = selected s.inp b := by rw [e1]; rfl
    have eS : surface s1.inp ({ d with M := M, N := N } : Dims).asym (selected s1.inp b) = S := by rw [e1]; rfl
    obtain ⟨s', r, hrun, hi, hI, hG, hB⟩ := outputB_eq h1 hp' ho' (b := b) hb dbg
    rw [eS] at hi hI hG hB
    rw [hsel] at hi
    refine ⟨s', r, S.iota, S.I, S.G, hrun, hi, hI, hG, ?_⟩
    intro θ ζ σ t₀ t₁ hl
    have hB' : outputB s'.out d.asym b = S.strengthSeries d.nfp M N := hB
    rw [hB']
    exact key M N hM h1.mboz_ge hN hMN hNM hres θ ζ σ t₀ t₁ hl
  obtain ⟨m₀, m₁, hm, hr⟩ := strength_range h hp hreg
  obtain ⟨C, hC, hout⟩ := surface_rate h hp hreg (fun θ ζ => (field_point h hp ho hb hc hreg hf θ ζ).1) hc0 hρ 1
  set K := S.G + S.iota * S.I with hK
  have hcont : ContinuousOn (fun y => F y * (K / y ^ 2)) (Icc (m₀ / 2) (m₁ + m₀ / 2)) := by
    have hsub : Icc (m₀ / 2) (m₁ + m₀ / 2) ⊆ Ioi 0 := fun y hy => (half_pos hm).trans_le hy.1
    exact (hF.mono hsub).mul (continuousOn_const.div (continuousOn_pow 2) fun y hy => pow_ne_zero 2 (hsub hy).ne')
  have huc := isCompact_Icc.uniformContinuousOn_of_continuous hcont
  rw [Metric.uniformContinuousOn_iff_le] at huc
  obtain ⟨δ, hδ, huc⟩ := huc ε hε
  obtain ⟨M₀, hM₀⟩ := exists_nat_gt (C / min δ (m₀ / 2))
  have hmin : 0 < min δ (m₀ / 2) := lt_min hδ (half_pos hm)
  refine ⟨M₀, fun M N hM hM1 hN hMN hNM hres θ ζ σ t₀ t₁ hl => ?_⟩
  have hn := hout S.B (by show _ ∈ [S.B, S.R, S.Z, S.nu, S.jacobian]; simp) M N hM1 hN hMN hNM hres
  have hMp : (0 : ℝ) < M := by exact_mod_cast hM1
  have hsmall : C * (1 / (M : ℝ)) ^ 1 ≤ min δ (m₀ / 2) := by
    have h2 : C / min δ (m₀ / 2) ≤ M := hM₀.le.trans (by exact_mod_cast hM)
    rw [div_le_iff₀ hmin] at h2
    rw [pow_one, mul_one_div, div_le_iff₀ hMp]
    linarith
  have hn' : ∀ θ ζ, |S.B θ ζ - S.strengthSeries d.nfp M N (S.thetaB θ ζ) (S.zetaB θ ζ)| ≤ min δ (m₀ / 2) := fun θ ζ =>
    (hn θ ζ).trans hsmall
  refine line_near h hp ho hb hc hreg hf hx hF (strengthSeries_continuous S d.nfp M N)
    (near_nonzero h hp (fun θ ζ => (hr θ ζ).1) fun θ ζ =>
      ((hn' θ ζ).trans (min_le_right _ _)).trans_lt (half_lt_self hm)) (fun θ ζ => ?_) hl
  intro S'
  have a1 := (hn' θ ζ).trans (min_le_left _ _)
  have a2 := (hn' θ ζ).trans (min_le_right _ _)
  have a3 := abs_abs_sub_abs_le_abs_sub (S.B θ ζ) (S.strengthSeries d.nfp M N (S.thetaB θ ζ) (S.zetaB θ ζ))
  have a4 := abs_le.1 (a3.trans a2)
  have := huc |S.B θ ζ| ⟨by linarith [(hr θ ζ).1], by linarith [(hr θ ζ).2]⟩
    |S.strengthSeries d.nfp M N (S.thetaB θ ζ) (S.zetaB θ ζ)|
    ⟨by linarith [(hr θ ζ).1], by linarith [(hr θ ζ).2]⟩ (a3.trans a1)
  rw [Real.dist_eq, sq_abs, sq_abs] at this
  exact this

/-- **C108, rate.**  If `F` is continuously differentiable, the error is of any order `p` in `1 / mboz`. -/
theorem C108_rate (hx : SurfaceSmooth x ψ₀) {F : ℝ → ℝ} (hF : ContDiffOn ℝ 1 F (Ioi 0)) {c : ℝ} (hc0 : 0 ≤ c) {ρ : ℝ}
    (hρ : ρ < 1) {p : ℕ} (hp1 : 1 ≤ p) :
    let S := surface s.inp d.asym (selected s.inp b)
    ∃ (C : ℝ) (M₀ : ℕ),
      (∀ M N : ℕ, M₀ ≤ M → 1 ≤ M → 1 ≤ N → (M : ℝ) ≤ c * N → (N : ℝ) ≤ c * M → S.ResolvedBy d.nfp M N ρ →
        ∀ θ ζ σ t₀ t₁, IsFieldLine x ψ₀ B θ ζ σ t₀ t₁ →
          |alongLine B F θ ζ σ t₀ t₁ - lineIntegral S.iota S.I S.G (S.strengthSeries d.nfp M N) F
            (S.thetaB (θ t₀) (ζ t₀) - S.iota * S.zetaB (θ t₀) (ζ t₀)) (S.zetaB (θ t₀) (ζ t₀)) (S.zetaB (θ t₁) (ζ t₁))| ≤
          C * (1 / (M : ℝ)) ^ p * |S.zetaB (θ t₁) (ζ t₁) - S.zetaB (θ t₀) (ζ t₀)|) ∧
      ∀ (M N : ℕ) (s1 : St ℝ) (dbg : Bool), M₀ ≤ M → 1 ≤ N → (M : ℝ) ≤ c * N → (N : ℝ) ≤ c * M →
        s1.inp = { s.inp with mboz := M, nboz := N } → RunReady s1.inp { d with M := M, N := N } →
        S.ResolvedBy d.nfp M N ρ →
        ∃ s' r iota I G, run dbg s1 = .ok (s', r) ∧ s1.inp.iota.rdN (selected s.inp b) = .ok iota ∧
          s'.out.boozer_I.rdN b = .ok I ∧ s'.out.boozer_G.rdN b = .ok G ∧
          ∀ θ ζ σ t₀ t₁, IsFieldLine x ψ₀ B θ ζ σ t₀ t₁ →
            |alongLine B F θ ζ σ t₀ t₁ - lineIntegral iota I G (outputB s'.out d.asym b) F
              (S.thetaB (θ t₀) (ζ t₀) - iota * S.zetaB (θ t₀) (ζ t₀)) (S.zetaB (θ t₀) (ζ t₀))
              (S.zetaB (θ t₁) (ζ t₁))| ≤ C * (1 / (M : ℝ)) ^ p * |S.zetaB (θ t₁) (ζ t₁) - S.zetaB (θ t₀) (ζ t₀)| := by
  intro S
  suffices key : ∃ (C : ℝ) (M₀ : ℕ), ∀ M N : ℕ, M₀ ≤ M → 1 ≤ M → 1 ≤ N → (M : ℝ) ≤ c * N → (N : ℝ) ≤ c * M → S.ResolvedBy d.nfp M N ρ →
      ∀ θ ζ σ t₀ t₁, IsFieldLine x ψ₀ B θ ζ σ t₀ t₁ →
        |alongLine B F θ ζ σ t₀ t₁ - lineIntegral S.iota S.I S.G (S.strengthSeries d.nfp M N) F
          (S.thetaB (θ t₀) (ζ t₀) - S.iota * S.zetaB (θ t₀) (ζ t₀)) (S.zetaB (θ t₀) (ζ t₀)) (S.zetaB (θ t₁) (ζ t₁))| ≤
        C * (1 / (M : ℝ)) ^ p * |S.zetaB (θ t₁) (ζ t₁) - S.zetaB (θ t₀) (ζ t₀)| by
    obtain ⟨C, M₀, key⟩ := key
    refine ⟨C, M₀, key, fun M N s1 dbg hM hN hMN hNM e1 h1 hres => ?_⟩
    have hp' : FieldPeriodic s1.inp ({ d with M := M, N := N } : Dims).nfp := by rw [e1]; exact hp
    have ho' : OriginOnce s1.inp := by rw [e1]; exact ho
    have hsel : selected s1.inp b = selected s.inp b := by rw [e1]; rfl
    have eS : surface s1.inp ({ d with M := M, N := N } : Dims).asym (selected s1.inp b) = S := by rw [e1]; rfl
    obtain ⟨s', r, hrun, hi, hI, hG, hB⟩ := outputB_eq h1 hp' ho' (b := b) hb dbg
    rw [eS] at hi hI hG hB
    rw [hsel] at hi
    refine ⟨s', r, S.iota, S.I, S.G, hrun, hi, hI, hG, ?_⟩
    intro θ ζ σ t₀ t₁ hl
    have hB' : outputB s'.out d.asym b = S.strengthSeries d.nfp M N := hB
    rw [hB']
    exact key M N hM h1.mboz_ge hN hMN hNM hres θ ζ σ t₀ t₁ hl
  obtain ⟨m₀, m₁, hm, hr⟩ := strength_range h hp hreg
  obtain ⟨C, hC, hout⟩ := surface_rate h hp hreg (fun θ ζ => (field_point h hp ho hb hc hreg hf θ ζ).1) hc0 hρ p
  set K := S.G + S.iota * S.I with hK
  set Φ : ℝ → ℝ := fun y => F y * (K / y ^ 2) with hΦ
  have hsub : Icc (m₀ / 2) (m₁ + m₀ / 2) ⊆ Ioi 0 := fun y hy => (half_pos hm).trans_le hy.1
  have hcd : ContDiffOn ℝ 1 Φ (Ioi 0) :=
    hF.mul (contDiffOn_const.div (contDiffOn_id.pow 2) fun y hy => pow_ne_zero 2 (ne_of_gt hy))
  obtain ⟨L, hL⟩ := (isCompact_Icc (a := m₀ / 2) (b := m₁ + m₀ / 2)).exists_bound_of_continuousOn
    ((hcd.continuousOn_deriv_of_isOpen isOpen_Ioi le_rfl).mono hsub)
  have hlip : ∀ y ∈ Icc (m₀ / 2) (m₁ + m₀ / 2), ∀ w ∈ Icc (m₀ / 2) (m₁ + m₀ / 2), |Φ y - Φ w| ≤ |L| * |y - w| := by
    intro y hy w hw
    exact (convex_Icc _ _).norm_image_sub_le_of_norm_deriv_le
      (fun u hu => (hcd.differentiableOn (by norm_num)).differentiableAt (Ioi_mem_nhds (hsub hu)))
      (fun u hu => (hL u hu).trans (le_abs_self L)) hw hy
  obtain ⟨M₀, hM₀⟩ := exists_nat_gt (C / (m₀ / 2))
  refine ⟨|L| * C, M₀, fun M N hM hM1' hN hMN hNM hres θ ζ σ t₀ t₁ hl => ?_⟩
  have hn := hout S.B (by show _ ∈ [S.B, S.R, S.Z, S.nu, S.jacobian]; simp) M N hM1' hN hMN hNM hres
  have hM1 : (1 : ℝ) ≤ M := by exact_mod_cast hM1'
  have hMp : (0 : ℝ) < M := by linarith
  have hsmall : C * (1 / (M : ℝ)) ^ p ≤ m₀ / 2 := by
    have h2 : C / (m₀ / 2) ≤ M := hM₀.le.trans (by exact_mod_cast hM)
    rw [div_le_iff₀ (half_pos hm)] at h2
    have h3 : (1 / (M : ℝ)) ^ p ≤ 1 / M := by
      refine pow_le_of_le_one (by positivity) ?_ (by omega)
      rw [div_le_one hMp]
      exact hM1
    refine (mul_le_mul_of_nonneg_left h3 hC).trans ?_
    rw [mul_one_div, div_le_iff₀ hMp]
    linarith
  refine line_near h hp ho hb hc hreg hf hx hF.continuousOn (strengthSeries_continuous S d.nfp M N)
    (near_nonzero h hp (fun θ ζ => (hr θ ζ).1) fun θ ζ =>
      ((hn θ ζ).trans hsmall).trans_lt (half_lt_self hm)) (fun θ ζ => ?_) hl
  intro S'
  have hnθ : |S.B θ ζ - S.strengthSeries d.nfp M N (S.thetaB θ ζ) (S.zetaB θ ζ)| ≤ C * (1 / (M : ℝ)) ^ p := hn θ ζ
  have a2 := hnθ.trans hsmall
  have a3 := abs_abs_sub_abs_le_abs_sub (S.B θ ζ) (S.strengthSeries d.nfp M N (S.thetaB θ ζ) (S.zetaB θ ζ))
  have a4 := abs_le.1 (a3.trans a2)
  have := hlip |S.B θ ζ| ⟨by linarith [(hr θ ζ).1], by linarith [(hr θ ζ).2]⟩
    |S.strengthSeries d.nfp M N (S.thetaB θ ζ) (S.zetaB θ ζ)|
    ⟨by linarith [(hr θ ζ).1], by linarith [(hr θ ζ).2]⟩
  rw [hΦ] at this
  beta_reduce at this
  rw [sq_abs, sq_abs] at this
  refine this.trans ?_
  rw [mul_assoc]
  exact mul_le_mul_of_nonneg_left (a3.trans hnθ) (abs_nonneg L)

end

/-! ### The cylinder -/

theorem Ex.cyl_smooth : SurfaceSmooth Ex.cylX (1 / 2) := by
  refine differentiable_pi.2 fun i => ?_
  fin_cases i
  · show Differentiable ℝ fun y : ℝ × ℝ => √(2 * (1 / 2)) * Real.cos (y.1 + 1 / 4 * Real.sin (y.1 + 2 * y.2))
    fun_prop
  · show Differentiable ℝ fun y : ℝ × ℝ => √(2 * (1 / 2)) * Real.sin (y.1 + 1 / 4 * Real.sin (y.1 + 2 * y.2))
    fun_prop
  · show Differentiable ℝ fun y : ℝ × ℝ => y.2 + 1 / 4 * Real.sin (y.1 + 2 * y.2)
    fun_prop

/-- A curve which goes once round the poloidal way and twice round the toroidal way. -/
theorem Ex.helix : IsLoop (fun t => t * (2 * Real.pi)) (fun t => t * (4 * Real.pi)) 1 2 :=
  ⟨by fun_prop, by fun_prop, by norm_num, by push_cast; ring⟩

/-- C107 for the cylinder and this curve: the circulation is `2π (3/4 + 2)`. -/
example (asym dbg : Bool) : circulation Ex.cylX (1 / 2) Ex.cylB (fun t => t * (2 * Real.pi)) (fun t => t * (4 * Real.pi)) =
    2 * Real.pi * (11 / 4) ∧
    ∃ s' r I G, run dbg (Ex.cyl asym) = .ok (s', r) ∧ s'.out.boozer_I.rdN 0 = .ok I ∧ s'.out.boozer_G.rdN 0 = .ok G ∧
      2 * Real.pi * (11 / 4) = 2 * Real.pi * ((1 : ℤ) * I + (2 : ℤ) * G) := by
  have hs : selected (Ex.cyl asym).inp 0 < 2 := Ex.polar_sel asym (1 / 16) 0 (by decide)
  have e := circulation_eq (s := Ex.cyl asym) (d := Ex.dims asym) (Ex.cyl_ready asym) (Ex.polar_periodic asym (1 / 16))
    (Ex.polar_origin asym (1 / 16)) (b := 0) (by show 0 < 2; decide) (Ex.cyl_noCurrent asym hs) (Ex.cyl_regular asym hs)
    (Ex.cyl_field asym hs) Ex.cyl_smooth Ex.helix
  have e' : circulation Ex.cylX (1 / 2) Ex.cylB (fun t => t * (2 * Real.pi)) (fun t => t * (4 * Real.pi)) =
      2 * Real.pi * (11 / 4) := by
    refine e.trans ?_
    show 2 * Real.pi * ((1 : ℤ) * (surface (Ex.cyl asym).inp asym (selected (Ex.cyl asym).inp 0)).I +
      (2 : ℤ) * (surface (Ex.cyl asym).inp asym (selected (Ex.cyl asym).inp 0)).G) = _
    rw [(Ex.cyl_IG asym hs).1, (Ex.cyl_IG asym hs).2]
    push_cast
    ring
  refine ⟨e', ?_⟩
  obtain ⟨s', r, I, G, h1, h2, h3, h4⟩ := C107_circulation (s := Ex.cyl asym) (d := Ex.dims asym) (Ex.cyl_ready asym)
    (Ex.polar_periodic asym (1 / 16)) (Ex.polar_origin asym (1 / 16)) (b := 0) (by show 0 < 2; decide)
    (Ex.cyl_noCurrent asym hs) (Ex.cyl_regular asym hs) (Ex.cyl_field asym hs) dbg Ex.cyl_smooth
  exact ⟨s', r, I, G, h1, h2, h3, e'.symm.trans (h4 _ _ _ _ Ex.helix)⟩

/-- C108 for the cylinder: through any point `θ_B = α`, `ζ_B = 0` passes a field line going once along the cylinder; its length
is `2π · 5/4`. -/
example (asym : Bool) (α : ℝ) :
    let S := surface (Ex.cyl asym).inp asym (selected (Ex.cyl asym).inp 0)
    ∃ θ ζ σ, IsFieldLine Ex.cylX (1 / 2) Ex.cylB θ ζ σ 0 1 ∧ S.thetaB (θ 0) (ζ 0) = α ∧ S.zetaB (θ 0) (ζ 0) = 0 ∧
      S.zetaB (θ 1) (ζ 1) = 2 * Real.pi ∧ alongLine Ex.cylB (fun y => y) θ ζ σ 0 1 = 5 / 4 * (2 * Real.pi) := by
  intro S
  have hs : selected (Ex.cyl asym).inp 0 < 2 := Ex.polar_sel asym (1 / 16) 0 (by decide)
  have hG : S.G = 1 := (Ex.cyl_IG asym hs).1
  have hI : S.I = 3 / 4 := (Ex.cyl_IG asym hs).2
  have hi : S.iota = 3 / 4 := Ex.cyl_iota asym hs
  obtain ⟨f, hf1, -, -, hf, hl, he⟩ := C108_field_lines (s := Ex.cyl asym) (d := Ex.dims asym) (Ex.cyl_ready asym)
    (Ex.polar_periodic asym (1 / 16)) (Ex.polar_origin asym (1 / 16)) (b := 0) (by show 0 < 2; decide)
    (Ex.cyl_noCurrent asym hs) (Ex.cyl_regular asym hs) (Ex.cyl_field asym hs) Ex.cyl_smooth
  have hz : 0 < (S.G + S.iota * S.I) * (2 * Real.pi - 0) := by
    rw [hG, hI, hi]
    have := Real.pi_pos
    norm_num
    exact this
  obtain ⟨θ, ζ, σ, h1, h2⟩ := he α 0 (2 * Real.pi) hz
  have a0 : S.zetaB (θ 0) (ζ 0) = 0 := ((h2 0).1).trans (by ring)
  have a1 : S.zetaB (θ 1) (ζ 1) = 2 * Real.pi := ((h2 1).1).trans (by ring)
  have a2 : S.thetaB (θ 0) (ζ 0) = α := ((h2 0).2).trans (by ring)
  refine ⟨θ, ζ, σ, h1, a2, a0, a1, ?_⟩
  rw [(hl θ ζ σ 0 1 h1).2 (fun y => y) continuousOn_id]
  have fB : ∀ t z, f t z = 5 / 4 := by
    intro t z
    obtain ⟨y, hy⟩ := every_angle_occurs (d := Ex.dims asym) (Ex.cyl_ready asym) (Ex.polar_periodic asym (1 / 16))
      (selected (Ex.cyl asym).inp 0) (t, z)
    have k := hf y.1 y.2
    have k1 : S.thetaB y.1 y.2 = t := congrArg Prod.fst hy
    have k2 : S.zetaB y.1 y.2 = z := congrArg Prod.snd hy
    have k3 : S.B y.1 y.2 = 5 / 4 := Ex.cyl_B asym hs y.1 y.2
    replace k : f (S.thetaB y.1 y.2) (S.zetaB y.1 y.2) = S.B y.1 y.2 := k
    rw [← k3, ← k, k1, k2]
  show lineIntegral S.iota S.I S.G f _ _ (S.zetaB (θ 0) (ζ 0)) (S.zetaB (θ 1) (ζ 1)) = _
  unfold lineIntegral
  simp only [fB, a0, a1, hG, hI, hi, intervalIntegral.integral_const, smul_eq_mul]
  norm_num
  ring

theorem Ex.cyl_ready_res (asym : Bool) {M N : ℕ} (hM : 1 ≤ M) (hf : (4 * M + 2) * (4 * N + 2) < 2 ^ 30) :
    RunReady { (Ex.cyl asym).inp with mboz := M, nboz := N } { Ex.dims asym with M := M, N := N } :=
  { Ex.polar_ready_res asym (1 / 16) hM hf with
    iota := Vec.full_tab 2 _
    bmnc := Mat.full_tab 4 2 _
    bmns := fun _ => Mat.full_tab 4 2 _
    bsubumnc := Mat.full_tab 4 2 _
    bsubvmnc := Mat.full_tab 4 2 _ }

/-- With `M = N` the grid resolves the angles of the cylinder. -/
theorem Ex.cyl_resolved (asym : Bool) {b : ℕ} (hb : b < 2) (M : ℕ) :
    (surface (Ex.cyl asym).inp asym (selected (Ex.cyl asym).inp b)).ResolvedBy 2 M M (1 / 2) := by
  have hs : selected (Ex.cyl asym).inp b < 2 := Ex.polar_sel asym (1 / 16) b hb
  intro θ ζ
  obtain ⟨-, cov⟩ := C17_covariant (s := Ex.cyl asym) (d := Ex.dims asym) (Ex.cyl_ready asym)
    (Ex.polar_periodic asym (1 / 16)) (Ex.polar_origin asym (1 / 16)) (b := b) hb (Ex.cyl_noCurrent asym hs)
    (Ex.cyl_regular asym hs)
  obtain ⟨lt, lz, nt, nz, -, -, -, -, d1, d2, d3, d4, c1, c2, -⟩ := cov θ ζ
  change HasDerivAt (fun t => (surface (Ex.cyl asym).inp asym (selected (Ex.cyl asym).inp b)).lam t ζ) lt θ at d1
  change HasDerivAt (fun z => (surface (Ex.cyl asym).inp asym (selected (Ex.cyl asym).inp b)).lam θ z) lz ζ at d2
  change HasDerivAt (fun t => (surface (Ex.cyl asym).inp asym (selected (Ex.cyl asym).inp b)).nu t ζ) nt θ at d3
  change HasDerivAt (fun z => (surface (Ex.cyl asym).inp asym (selected (Ex.cyl asym).inp b)).nu θ z) nz ζ at d4
  change bTheta (Ex.cyl asym).inp asym (selected (Ex.cyl asym).inp b) θ ζ = (1 + lt) *
    (surface (Ex.cyl asym).inp asym (selected (Ex.cyl asym).inp b)).I +
    ((surface (Ex.cyl asym).inp asym (selected (Ex.cyl asym).inp b)).G +
    (surface (Ex.cyl asym).inp asym (selected (Ex.cyl asym).inp b)).iota *
    (surface (Ex.cyl asym).inp asym (selected (Ex.cyl asym).inp b)).I) * nt at c1
  change bZeta (Ex.cyl asym).inp asym (selected (Ex.cyl asym).inp b) θ ζ =
    (surface (Ex.cyl asym).inp asym (selected (Ex.cyl asym).inp b)).G +
    (surface (Ex.cyl asym).inp asym (selected (Ex.cyl asym).inp b)).I * lz +
    ((surface (Ex.cyl asym).inp asym (selected (Ex.cyl asym).inp b)).G +
    (surface (Ex.cyl asym).inp asym (selected (Ex.cyl asym).inp b)).iota *
    (surface (Ex.cyl asym).inp asym (selected (Ex.cyl asym).inp b)).I) * nz at c2
  rw [Ex.cyl_bTheta asym hs, (Ex.cyl_IG asym hs).1, (Ex.cyl_IG asym hs).2, Ex.cyl_iota asym hs] at c1
  rw [Ex.cyl_bZeta asym hs, (Ex.cyl_IG asym hs).1, (Ex.cyl_IG asym hs).2, Ex.cyl_iota asym hs] at c2
  have hi := Ex.cyl_iota asym hs
  have hlam := Ex.cyl_lam asym hs
  set S := surface (Ex.cyl asym).inp asym (selected (Ex.cyl asym).inp b) with hS
  have elt : lt = 1 / 16 * Real.cos (θ + 2 * ζ) := by
    refine d1.unique ?_
    simp only [hlam]
    have := (((hasDerivAt_id θ).add_const (2 * ζ)).sin).const_mul (1 / 16 : ℝ)
    rwa [mul_one] at this
  have elz : lz = 1 / 8 * Real.cos (θ + 2 * ζ) := by
    refine d2.unique ?_
    simp only [hlam]
    exact (((((hasDerivAt_id ζ).const_mul 2).const_add θ).sin).const_mul (1 / 16 : ℝ)).congr_deriv (by simp; ring)
  have ent : nt = 1 / 4 * Real.cos (θ + 2 * ζ) := by rw [elt] at c1; linarith
  have enz : nz = 1 / 2 * Real.cos (θ + 2 * ζ) := by rw [elz] at c2; linarith
  have g1 : deriv (fun t => S.thetaB t ζ) θ = 1 + 1 / 4 * Real.cos (θ + 2 * ζ) := by
    have : HasDerivAt (fun t => S.thetaB t ζ) (1 + lt + S.iota * nt) θ := ((hasDerivAt_id θ).add d1).add (d3.const_mul S.iota)
    rw [this.deriv, hi, elt, ent]
    ring
  have g2 : deriv (fun z => S.thetaB θ z) ζ = 1 / 2 * Real.cos (θ + 2 * ζ) := by
    have : HasDerivAt (fun z => S.thetaB θ z) (lz + S.iota * nz) ζ := (d2.const_add θ).add (d4.const_mul S.iota)
    rw [this.deriv, hi, elz, enz]
    ring
  have g3 : deriv (fun t => S.zetaB t ζ) θ = 1 / 4 * Real.cos (θ + 2 * ζ) := by
    have : HasDerivAt (fun t => S.zetaB t ζ) nt θ := d3.const_add ζ
    rw [this.deriv, ent]
  have g4 : deriv (fun z => S.zetaB θ z) ζ = 1 + 1 / 2 * Real.cos (θ + 2 * ζ) := by
    have : HasDerivAt (fun z => S.zetaB θ z) (1 + nz) ζ := (hasDerivAt_id ζ).add d4
    rw [this.deriv, enz]
  have lo := Real.neg_one_le_cos (θ + 2 * ζ)
  have hi' := Real.cos_le_one (θ + 2 * ζ)
  have b1 : |deriv (fun t => S.thetaB t ζ) θ| ≤ 5 / 4 := by rw [g1, abs_le]; constructor <;> linarith
  have b2 : |deriv (fun z => S.thetaB θ z) ζ| ≤ 1 / 2 := by rw [g2, abs_le]; constructor <;> linarith
  have b3 : |deriv (fun t => S.zetaB t ζ) θ| ≤ 1 / 4 := by rw [g3, abs_le]; constructor <;> linarith
  have b4 : |deriv (fun z => S.zetaB θ z) ζ| ≤ 3 / 2 := by rw [g4, abs_le]; constructor <;> linarith
  have hM : (0 : ℝ) ≤ M := by positivity
  have hz : (4 * M : ℝ) ≤ nzeta M := by
    have : 4 * M ≤ nzeta M := by unfold nzeta; split <;> omega
    exact_mod_cast this
  have ht : (4 * M : ℝ) ≤ ntheta M := by
    have : 4 * M ≤ ntheta M := by unfold ntheta; omega
    exact_mod_cast this
  push_cast
  constructor
  · nlinarith [mul_le_mul_of_nonneg_left b1 hM, mul_le_mul_of_nonneg_left b3 hM]
  · nlinarith [mul_le_mul_of_nonneg_left b2 hM, mul_le_mul_of_nonneg_left b4 hM]

/-- `C108_outputs`, `C108_rate` for the cylinder and the length of its field lines, `mboz = nboz = M`. -/
example (asym : Bool) {ε : ℝ} (hε : 0 < ε) :
    let S := surface (Ex.cyl asym).inp asym (selected (Ex.cyl asym).inp 0)
    ∃ (C : ℝ) (M₀ : ℕ), ∀ M : ℕ, M₀ ≤ M → ∀ θ ζ σ, IsFieldLine Ex.cylX (1 / 2) Ex.cylB θ ζ σ 0 1 →
      let e := |alongLine Ex.cylB (fun y => y) θ ζ σ 0 1 - lineIntegral S.iota S.I S.G (S.strengthSeries 2 M M) (fun y => y)
        (S.thetaB (θ 0) (ζ 0) - S.iota * S.zetaB (θ 0) (ζ 0)) (S.zetaB (θ 0) (ζ 0)) (S.zetaB (θ 1) (ζ 1))|
      e ≤ ε * |S.zetaB (θ 1) (ζ 1) - S.zetaB (θ 0) (ζ 0)| ∧
      e ≤ C * (1 / (M : ℝ)) ^ 3 * |S.zetaB (θ 1) (ζ 1) - S.zetaB (θ 0) (ζ 0)| := by
  intro S
  have hs : selected (Ex.cyl asym).inp 0 < 2 := Ex.polar_sel asym (1 / 16) 0 (by decide)
  obtain ⟨M₀, hM, -⟩ := C108_outputs (s := Ex.cyl asym) (d := Ex.dims asym) (Ex.cyl_ready asym)
    (Ex.polar_periodic asym (1 / 16)) (Ex.polar_origin asym (1 / 16)) (b := 0) (by show 0 < 2; decide)
    (Ex.cyl_noCurrent asym hs) (Ex.cyl_regular asym hs) (Ex.cyl_field asym hs) Ex.cyl_smooth (F := fun y => y) continuousOn_id
    (c := 1) (by norm_num) (ρ := 1 / 2) (by norm_num) hε
  obtain ⟨C, M₁, hM', -⟩ := C108_rate (s := Ex.cyl asym) (d := Ex.dims asym) (Ex.cyl_ready asym)
    (Ex.polar_periodic asym (1 / 16)) (Ex.polar_origin asym (1 / 16)) (b := 0) (by show 0 < 2; decide)
    (Ex.cyl_noCurrent asym hs) (Ex.cyl_regular asym hs) (Ex.cyl_field asym hs) Ex.cyl_smooth (F := fun y => y) contDiffOn_id
    (c := 1) (by norm_num) (ρ := 1 / 2) (by norm_num) (p := 3) (by norm_num)
  refine ⟨C, max 1 (max M₀ M₁), fun M h1 θ ζ σ hl => ?_⟩
  have k1 : 1 ≤ M := (le_max_left _ _).trans h1
  have k2 : M₀ ≤ M := ((le_max_left _ _).trans (le_max_right _ _)).trans h1
  have k3 : M₁ ≤ M := ((le_max_right _ _).trans (le_max_right _ _)).trans h1
  have res := Ex.cyl_resolved asym (b := 0) (by decide) M
  exact ⟨hM M M k2 k1 k1 (by rw [one_mul]) (by rw [one_mul]) res θ ζ σ 0 1 hl,
    hM' M M k3 k1 k1 (by rw [one_mul]) (by rw [one_mul]) res θ ζ σ 0 1 hl⟩

/-- The second parts have instances: `run()` at `mboz = nboz = 100`. -/
example (asym : Bool) : RunReady { (Ex.cyl asym).inp with mboz := 100, nboz := 100 } { Ex.dims asym with M := 100, N := 100 } :=
  Ex.cyl_ready_res asym (by decide) (by decide)

end Booz
