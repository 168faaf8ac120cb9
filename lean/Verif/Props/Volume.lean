import Verif.Spec.Volume
import Verif.Lemmas.Shell
import Verif.Lemmas.ParsevalFinite
import Verif.Props.MeanSquare

/-!
# C106: the (0, 0) harmonic of the Jacobian gives the volume and the flux surface average of B²
-/

namespace Booz
open Spec Matrix MeasureTheory Filter Topology Trapezoid

/-- The triple product of the coordinate vectors, for a field described by the surface. -/
theorem triple_eq {S : Surface} {x : ℝ → ℝ → ℝ → V3} {ψ₀ θ ζ : ℝ} {B : V3} {J : ℝ} {e : Frame} (he : IsFrame x ψ₀ θ ζ e)
    (hB : IsBoozer x ψ₀ θ ζ (fun _ => S.thetaB) (fun _ => S.zetaB) S.iota S.I S.G B J) :
    e.psi ⬝ᵥ e.theta ⨯₃ e.zeta = J * S.det θ ζ := by
  obtain ⟨e', he', a, t, y, ga, gt, gy, -, -, hJ⟩ := hB
  obtain rfl : e' = e := by
    have q1 : e'.psi = e.psi := he'.psi.unique he.psi
    have q2 : e'.theta = e.theta := he'.theta.unique he.theta
    have q3 : e'.zeta = e.zeta := he'.zeta.unique he.zeta
    cases e; cases e'
    simp only at q1 q2 q3
    subst q1 q2 q3
    rfl
  have a1 : a ⬝ᵥ e'.psi = 1 := ga.psi.unique (hasDerivAt_id ψ₀)
  have a2 : a ⬝ᵥ e'.theta = 0 := ga.theta.unique (hasDerivAt_const θ ψ₀)
  have a3 : a ⬝ᵥ e'.zeta = 0 := ga.zeta.unique (hasDerivAt_const ζ ψ₀)
  have k := gram a t y e'.psi e'.theta e'.zeta
  rw [a1, a2, a3] at k
  have hd : S.det θ ζ = (t ⬝ᵥ e'.theta) * (y ⬝ᵥ e'.zeta) - (t ⬝ᵥ e'.zeta) * (y ⬝ᵥ e'.theta) := by
    unfold Surface.det
    rw [gt.theta.deriv, gt.zeta.deriv, gy.theta.deriv, gy.zeta.deriv]
  rw [hd]
  linear_combination J * k - (e'.psi ⬝ᵥ e'.theta ⨯₃ e'.zeta) * hJ

section
variable {I : Inputs ℝ} {d : Dims} (h : RunReady I d) (hp : FieldPeriodic I d.nfp) (js : ℕ)
include h hp

/-- The average of a constant. -/
theorem average_const (c : ℝ) : (surface I d.asym js).average (fun _ _ => c) = c := by
  rw [average_expressed h hp js (f := fun _ _ => c) continuous_const ⟨fun _ _ => rfl, fun _ _ => rfl⟩ fun _ _ => rfl, mean2_tau]
  simp
  have := Real.pi_ne_zero
  field_simp
  norm_num

/-- The average of the Jacobian has the sign of `G + ι I`. -/
theorem average_jacobian_sign {js : ℕ} (hreg : (surface I d.asym js).Regular) (hdet : ∀ θ ζ, (surface I d.asym js).det θ ζ ≠ 0) :
    let S := surface I d.asym js
    0 < (S.G + S.iota * S.I) * S.average S.jacobian := by
  intro S
  obtain ⟨f, hf, sf, pf, tf⟩ := express_q h hp hreg hdet S.jacobian (by show _ ∈ [S.B, S.R, S.Z, S.nu, S.jacobian]; simp)
  rw [average_expressed h hp js sf.continuous tf hf]
  set K := S.G + S.iota * S.I with hK
  have hK0 : K ≠ 0 := hreg.1
  have surj := every_angle_occurs h hp js
  have hpos : ∀ y : ℝ × ℝ, 0 < K * Function.uncurry f y := by
    intro y
    obtain ⟨u, rfl⟩ := surj y
    have e : Function.uncurry f (S.boozer u) = S.jacobian u.1 u.2 := hf u.1 u.2
    rw [e]
    unfold Surface.jacobian
    rw [← hK, mul_div_assoc', ← sq]
    exact div_pos (sq_pos_of_ne_zero hK0) (sq_pos_of_ne_zero (hreg.2 u.1 u.2))
  rw [← mean2_smul]
  refine lt_of_le_of_ne (mean2_nonneg fun y => (hpos y).le) fun hm => ?_
  replace hm := hm.symm
  have := mean_pos (F := fun y => K * Function.uncurry f y) ?_ (continuous_const.mul sf.continuous) (fun y => (hpos y).le) hm 0
  · exact (hpos 0).ne' this
  · exact DPer.mul ⟨fun _ => rfl, fun _ => rfl⟩ tf.dper

end

/-- **C106, without the outputs.**  Let the input arrays of a selected surface describe a magnetic field in space as in
C99, and let the flux surfaces near ψ₀ be nested.  Then the volume inside the flux surface grows with ψ at the rate
`4 π²` times the absolute value of the average of the Jacobian over the Boozer angles, which is not zero; and the flux
surface average of every continuous function of position is its average over the Boozer angles with the Jacobian as
weight. -/
theorem C106_flux_average {s : St ℝ} {d : Dims} (h : RunReady s.inp d) (hp : FieldPeriodic s.inp d.nfp)
    (ho : OriginOnce s.inp) {b : ℕ} (hb : b < d.nsb) (hc : NoRadialCurrent s.inp d.asym (selected s.inp b))
    (hreg : (surface s.inp d.asym (selected s.inp b)).Regular)
    {x : ℝ → ℝ → ℝ → V3} {lam : ℝ → ℝ → ℝ → ℝ} {ψ₀ δ : ℝ} {B : ℝ → ℝ → V3}
    (hf : IsField (surface s.inp d.asym (selected s.inp b)) (bTheta s.inp d.asym (selected s.inp b))
      (bZeta s.inp d.asym (selected s.inp b)) x lam ψ₀ B) (hn : Nested x ψ₀ δ) :
    let S := surface s.inp d.asym (selected s.inp b)
    S.average S.jacobian ≠ 0 ∧ VolumeRate x ψ₀ (4 * Real.pi ^ 2 * |S.average S.jacobian|) ∧
    ∀ Q : V3 → ℝ, Continuous Q → FluxAverage x ψ₀ Q
      (S.average (fun θ ζ => Q (x ψ₀ θ ζ) * S.jacobian θ ζ) / S.average S.jacobian) := by
  intro S
  obtain ⟨-, cov⟩ := C17_covariant h hp ho hb hc hreg
  have main : ∀ θ ζ, S.det θ ζ ≠ 0 ∧
      IsBoozer x ψ₀ θ ζ (fun _ => S.thetaB) (fun _ => S.zetaB) S.iota S.I S.G (B θ ζ) (S.jacobian θ ζ) := by
    intro θ ζ
    obtain ⟨lt, lz, nt, nz, -, -, -, -, d1, d2, d3, d4, c1, c2, -⟩ := cov θ ζ
    have k := field_boozer hf hreg d1 d2 d3 d4 c1 c2
    exact ⟨k.1, k.2 _ _ rfl rfl (differentiableAt_const _) (differentiableAt_const _)⟩
  have hdet : ∀ θ ζ, S.det θ ζ ≠ 0 := fun θ ζ => (main θ ζ).1
  have dpos := (boozer_coordinates h hp _ hdet).det_pos
  have hsg := average_jacobian_sign h hp hreg hdet
  have hg : S.average S.jacobian ≠ 0 := right_ne_zero_of_mul hsg.ne'
  choose E hE using fun θ ζ => (hf.point θ ζ).imp fun e he => he.1
  set K := S.G + S.iota * S.I with hK
  have hK0 : K ≠ 0 := hreg.1
  -- the absolute value of the triple product
  have tri : ∀ θ ζ, |(E θ ζ).psi ⬝ᵥ (E θ ζ).theta ⨯₃ (E θ ζ).zeta| = K / |K| * (S.jacobian θ ζ * S.det θ ζ) := by
    intro θ ζ
    rw [triple_eq (hE θ ζ) (main θ ζ).2, abs_mul, abs_of_pos (dpos θ ζ)]
    have e : |S.jacobian θ ζ| = K / |K| * S.jacobian θ ζ := by
      unfold Surface.jacobian
      rw [← hK, abs_div, abs_of_nonneg (sq_nonneg (S.B θ ζ)), mul_div_assoc']
      congr 1
      rw [eq_comm, div_mul_eq_mul_div, div_eq_iff (abs_ne_zero.mpr hK0), ← sq, ← sq, sq_abs]
    rw [e, mul_assoc]
  have pi0 : (4 * Real.pi ^ 2 : ℝ) ≠ 0 := by positivity
  have lim : ∀ Q : V3 → ℝ, Continuous Q → Tendsto (fun h => (∫ r in shell x ψ₀ h, Q r) / h) (𝓝[>] 0)
      (𝓝 (K / |K| * (4 * Real.pi ^ 2) * S.average (fun θ ζ => Q (x ψ₀ θ ζ) * S.jacobian θ ζ))) := by
    intro Q hQ
    have k := shell_limit hn hE hQ
    convert k using 2
    unfold Surface.average
    rw [mul_assoc, ← mul_assoc (4 * Real.pi ^ 2), mul_one_div_cancel pi0, one_mul, ← intervalIntegral.integral_const_mul]
    simp only [← intervalIntegral.integral_const_mul]
    refine intervalIntegral.integral_congr fun θ _ => intervalIntegral.integral_congr fun ζ _ => ?_
    beta_reduce
    rw [tri]
    ring
  have vol : VolumeRate x ψ₀ (K / |K| * (4 * Real.pi ^ 2) * S.average S.jacobian) := by
    have k := lim (fun _ => 1) continuous_const
    simp only [one_mul] at k
    unfold VolumeRate
    simp only [shell_volume]
    exact k
  have sgn0 : K / |K| ≠ 0 := div_ne_zero hK0 (abs_ne_zero.mpr hK0)
  have val : K / |K| * (4 * Real.pi ^ 2) * S.average S.jacobian = 4 * Real.pi ^ 2 * |S.average S.jacobian| := by
    have e : |K| * |S.average S.jacobian| = K * S.average S.jacobian := by rw [← abs_mul]; exact abs_of_pos hsg
    rw [mul_right_comm, mul_comm, div_mul_eq_mul_div, ← e, mul_div_cancel_left₀ _ (abs_ne_zero.mpr hK0)]
  refine ⟨hg, val ▸ vol, fun Q hQ => ?_⟩
  have v0 : K / |K| * (4 * Real.pi ^ 2) * S.average S.jacobian ≠ 0 := mul_ne_zero (mul_ne_zero sgn0 pi0) hg
  have k := (lim Q hQ).div vol v0
  rw [mul_div_mul_left _ _ (mul_ne_zero sgn0 pi0)] at k
  refine k.congr' ?_
  filter_upwards [self_mem_nhdsWithin] with h hh
  exact div_div_div_cancel_right₀ (ne_of_gt hh) _ _

/-- **C106.**  Let the input arrays of a selected surface describe a magnetic field in space as in C99, and let the flux
surfaces near ψ₀ be nested.  Let `v` be the rate at which the volume inside the flux surface grows with ψ, and `a` the
flux surface average of B².  Then the first output mode is (0, 0), and at every resolution, for the numbers `g`, `I`, `G`
which `run()` puts into `gmnc_b`, `Boozer_I`, `Boozer_G` for this mode and surface, `4 π² |g|` is `v` and
`(G + ι I) / g` is `a` up to an error of any order in the grid spacings. -/
theorem C106_outputs {s : St ℝ} {d : Dims} (h : RunReady s.inp d) (hp : FieldPeriodic s.inp d.nfp)
    (ho : OriginOnce s.inp) {b : ℕ} (hb : b < d.nsb) (hc : NoRadialCurrent s.inp d.asym (selected s.inp b))
    (hreg : (surface s.inp d.asym (selected s.inp b)).Regular)
    {x : ℝ → ℝ → ℝ → V3} {lam : ℝ → ℝ → ℝ → ℝ} {ψ₀ δ : ℝ} {B : ℝ → ℝ → V3}
    (hf : IsField (surface s.inp d.asym (selected s.inp b)) (bTheta s.inp d.asym (selected s.inp b))
      (bZeta s.inp d.asym (selected s.inp b)) x lam ψ₀ B) (hn : Nested x ψ₀ δ)
    {Q : V3 → ℝ} (hQ : Continuous Q) (hQB : ∀ θ ζ, Q (x ψ₀ θ ζ) = B θ ζ ⬝ᵥ B θ ζ) {p : ℕ} (hp1 : 1 ≤ p) :
    ∃ v a C, 0 < v ∧ 0 < a ∧ VolumeRate x ψ₀ v ∧ FluxAverage x ψ₀ Q a ∧
    ∀ (M N : ℕ) (s1 : St ℝ) (dbg : Bool), s1.inp = { s.inp with mboz := M, nboz := N } →
      RunReady s1.inp { d with M := M, N := N } →
      ∃ s' r iota I G g, run dbg s1 = .ok (s', r) ∧ s'.out.xm_b.rdN 0 = .ok 0 ∧ s'.out.xn_b.rdN 0 = .ok 0 ∧
        s1.inp.iota.rdN (selected s.inp b) = .ok iota ∧ s'.out.boozer_I.rdN b = .ok I ∧
        s'.out.boozer_G.rdN b = .ok G ∧ s'.out.spec.gmnc_b.rdN 0 b = .ok g ∧
        |4 * Real.pi ^ 2 * |g| - v| ≤ C * gridError M N p ∧
        (C * gridError M N p ≤ 1 → |(G + iota * I) / g - a| ≤ C * gridError M N p) := by
  obtain ⟨hg, hv, ha⟩ := C106_flux_average h hp ho hb hc hreg hf hn
  set S := surface s.inp d.asym (selected s.inp b) with hS
  set K := S.G + S.iota * S.I with hK
  set A := S.average S.jacobian with hA
  have hK0 : K ≠ 0 := hreg.1
  have hAp : 0 < |A| := abs_pos.mpr hg
  have hdet : ∀ θ ζ, S.det θ ζ ≠ 0 := by
    intro θ ζ
    obtain ⟨-, cov⟩ := C17_covariant h hp ho hb hc hreg
    obtain ⟨lt, lz, nt, nz, -, -, -, -, d1, d2, d3, d4, c1, c2, -⟩ := cov θ ζ
    exact (field_boozer hf hreg d1 d2 d3 d4 c1 c2).1
  have hsg : 0 < K * A := average_jacobian_sign h hp hreg hdet
  have haK : S.average (fun θ ζ => Q (x ψ₀ θ ζ) * S.jacobian θ ζ) = K := by
    rw [← average_const h hp (selected s.inp b) K]
    congr 1
    funext θ ζ
    obtain ⟨e, -, -, -, -, hBB⟩ := hf.point θ ζ
    rw [hQB, hBB]
    exact mul_div_cancel₀ _ (pow_ne_zero 2 (hreg.2 θ ζ))
  have hQ' := ha Q hQ
  rw [haK] at hQ'
  obtain ⟨C₀, hC₀, err⟩ := surface_error h hp hreg (m := 0) (n := 0) (dvd_zero _) hp1
  have hint : S.integralCos S.jacobian 0 0 = A := by
    rw [hA]
    unfold Surface.average Surface.integralCos
    simp
  let C := max (4 * Real.pi ^ 2 * C₀) (max (2 * C₀ / |A|) (2 * |K| * C₀ / |A| ^ 2))
  have le1 : 4 * Real.pi ^ 2 * C₀ ≤ C := le_max_left _ _
  have le2 : 2 * C₀ / |A| ≤ C := (le_max_left _ _).trans (le_max_right _ _)
  have le3 : 2 * |K| * C₀ / |A| ^ 2 ≤ C := (le_max_right _ _).trans (le_max_right _ _)
  refine ⟨4 * Real.pi ^ 2 * |A|, K / A, C, by positivity, ?_, hv, hQ', ?_⟩
  · have := div_pos hsg (sq_pos_of_ne_zero hg)
    rwa [sq, mul_div_mul_right _ _ hg] at this
  intro M N s1 dbg e1 hr
  have hin : ∀ js, surface s1.inp d.asym js = surface s.inp d.asym js := fun js => by rw [e1]; rfl
  have hsel1 : selected s1.inp b = selected s.inp b := by rw [e1]; rfl
  have hp' : FieldPeriodic s1.inp d.nfp := by rw [e1]; exact hp
  have ho' : OriginOnce s1.inp := by rw [e1]; exact ho
  have hsel : selected s1.inp b < d.ns := by
    have := hr.surfs_range b hb
    unfold selected
    show _ < ({ d with M := M, N := N } : Dims).ns
    omega
  have hrun := originFirst_of hr ho' dbg
  obtain ⟨-, -, -, -, -, hIG⟩ := C15_flux_functions hr ho' (originFirst_of hr ho' false)
  obtain ⟨hI, hG⟩ := hIG b hb
  have hnm : 0 < ({ d with M := M, N := N } : Dims).nmodes := Nat.succ_pos _
  obtain ⟨-, -, -, -, hgm, -⟩ := spectrum_at hr hp' ho' hb hnm
  have m0 : ((modeM N 0 : ℕ) : ℤ) = 0 := by rw [modeM, zero_add, Nat.div_eq_of_lt (by omega)]; rfl
  have n0 : modeN N 0 * (d.nfp : ℤ) = 0 := by rw [modeN, zero_add, Nat.mod_eq_of_lt (by omega), sub_self, zero_mul]
  have iE : S.iota = (surface s1.inp d.asym (selected s1.inp b)).iota := by rw [hin, hsel1]
  have IE : S.I = (surface s1.inp d.asym (selected s1.inp b)).I := by rw [hin, hsel1]
  have GE : S.G = (surface s1.inp d.asym (selected s1.inp b)).G := by rw [hin, hsel1]
  refine ⟨_, _, S.iota, S.I, S.G, S.quadCos (ntheta M) (nzeta N) d.nfp S.jacobian 0 0, hrun, ?_, ?_, ?_, ?_, ?_, ?_, ?_⟩
  · exact (Vec.rdN_tab hnm).trans (congrArg _ m0)
  · exact (Vec.rdN_tab hnm).trans (congrArg _ n0)
  · rw [iE, ← hsel1]; exact hr.iota.rdN 0 hsel
  · rw [hI, IE]; exact Mat.Full.rdN' 0 hr.bsubumnc hr.mnmax_nyq_ge hsel
  · rw [hG, GE]; exact Mat.Full.rdN' 0 hr.bsubvmnc hr.mnmax_nyq_ge hsel
  · refine hgm.trans ?_
    dsimp only
    rw [m0, n0, hin, hsel1]
  set g := S.quadCos (ntheta M) (nzeta N) d.nfp S.jacobian 0 0 with hgdef
  have near : |g - A| ≤ C₀ * gridError M N p := by
    rw [← hint]
    exact (err S.jacobian (by show _ ∈ [S.B, S.R, S.Z, S.nu, S.jacobian]; simp) (ntheta M) (nzeta N) (ntheta_pos M) (nzeta_pos N)).1
  have ge0 : 0 ≤ gridError M N p := by unfold gridError; positivity
  constructor
  · rw [← mul_sub, abs_mul, abs_of_pos (by positivity : (0 : ℝ) < 4 * Real.pi ^ 2)]
    calc 4 * Real.pi ^ 2 * |(|g| - |A|)| ≤ 4 * Real.pi ^ 2 * (C₀ * gridError M N p) :=
          mul_le_mul_of_nonneg_left ((abs_abs_sub_abs_le_abs_sub g A).trans near) (by positivity)
      _ = 4 * Real.pi ^ 2 * C₀ * gridError M N p := by ring
      _ ≤ _ := mul_le_mul_of_nonneg_right le1 ge0
  · intro small
    have k1 : 2 * C₀ / |A| * gridError M N p ≤ 1 := (mul_le_mul_of_nonneg_right le2 ge0).trans small
    have k2 : 2 * |g - A| ≤ |A| := by
      rw [div_mul_eq_mul_div, div_le_one hAp] at k1
      linarith
    have k3 : |A| / 2 ≤ |g| := by
      have := abs_sub_abs_le_abs_sub A g
      rw [abs_sub_comm] at this
      linarith
    have g0 : g ≠ 0 := abs_pos.mp (lt_of_lt_of_le (half_pos hAp) k3)
    rw [div_sub_div _ _ g0 hg, abs_div, abs_mul, ← hK, show K * A - g * K = K * (A - g) by ring, abs_mul, abs_sub_comm A g]
    refine le_trans ?_ (mul_le_mul_of_nonneg_right le3 ge0)
    rw [div_mul_eq_mul_div, div_le_div_iff₀ (mul_pos (abs_pos.mpr g0) hAp) (pow_pos hAp 2)]
    have := abs_nonneg K
    calc |K| * |g - A| * |A| ^ 2 ≤ |K| * (C₀ * gridError M N p) * |A| ^ 2 := by gcongr
      _ = |K| * (C₀ * gridError M N p) * |A| * (2 * (|A| / 2)) := by ring
      _ ≤ |K| * (C₀ * gridError M N p) * |A| * (2 * |g|) := by gcongr
      _ = _ := by ring

/-! ### Non-vacuity: the cylinder of C99 -/

theorem Ex.cyl_angles {θ ζ θ' ζ' : ℝ} {k : ℤ} (h1 : Ex.cylT θ ζ = Ex.cylT θ' ζ' + k * (2 * Real.pi))
    (h2 : Ex.cylZ θ ζ = Ex.cylZ θ' ζ') : θ = θ' + k * (2 * Real.pi) ∧ ζ = ζ' := by
  have mono : StrictMono fun u : ℝ => u + 3 / 4 * Real.sin u := by
    refine strictMono_of_deriv_pos fun u => ?_
    have e : HasDerivAt (fun u : ℝ => u + 3 / 4 * Real.sin u) (1 + 3 / 4 * Real.cos u) u :=
      (hasDerivAt_id u).add ((Real.hasDerivAt_sin u).const_mul _)
    rw [e.deriv]
    linarith [Real.neg_one_le_cos u]
  have per : Real.sin (θ' + k * (2 * Real.pi) + 2 * ζ') = Real.sin (θ' + 2 * ζ') := by
    rw [add_right_comm, Real.sin_add_int_mul_two_pi]
  unfold Ex.cylT at h1
  unfold Ex.cylZ at h2
  have u : θ + 2 * ζ = θ' + k * (2 * Real.pi) + 2 * ζ' := by
    refine mono.injective ?_
    show θ + 2 * ζ + 3 / 4 * Real.sin (θ + 2 * ζ) =
      θ' + k * (2 * Real.pi) + 2 * ζ' + 3 / 4 * Real.sin (θ' + k * (2 * Real.pi) + 2 * ζ')
    rw [per]
    linarith
  rw [u, per] at h1 h2
  constructor <;> linarith

theorem Ex.cyl_nested : Nested Ex.cylX (1 / 2) (1 / 4) := by
  refine ⟨by norm_num, ?_, ?_⟩
  · have c0 : ContDiff ℝ 1 fun p : V3 => p 0 := contDiff_apply ℝ ℝ 0
    have c1 : ContDiff ℝ 1 fun p : V3 => p 1 := contDiff_apply ℝ ℝ 1
    have c2 : ContDiff ℝ 1 fun p : V3 => p 2 := contDiff_apply ℝ ℝ 2
    have cs : ContDiff ℝ 1 fun p : V3 => 1 / 4 * Real.sin (p 1 + 2 * p 2) :=
      contDiff_const.mul (Real.contDiff_sin.comp (c1.add (contDiff_const.mul c2)))
    have cT : ContDiff ℝ 1 fun p : V3 => Ex.cylT (p 1) (p 2) := c1.add cs
    have cZ : ContDiff ℝ 1 fun p : V3 => Ex.cylZ (p 1) (p 2) := c2.add cs
    have cr : ContDiffOn ℝ 1 (fun p : V3 => √(2 * p 0)) {p | |p 0 - 1 / 2| < 1 / 4} := by
      refine ContDiffOn.sqrt (contDiff_const.mul c0).contDiffOn fun p hp => ?_
      have := (abs_lt.mp (show |p 0 - 1 / 2| < 1 / 4 from hp)).1
      exact ne_of_gt (by linarith)
    refine contDiffOn_pi.mpr fun i => ?_
    fin_cases i
    · exact cr.mul (Real.contDiff_cos.comp cT).contDiffOn
    · exact cr.mul (Real.contDiff_sin.comp cT).contDiffOn
    · exact cZ.contDiffOn
  · intro ψ θ ζ ψ' θ' ζ' hψ hθ hζ hψ' hθ' hζ' e
    have e0 : √(2 * ψ) * Real.cos (Ex.cylT θ ζ) = √(2 * ψ') * Real.cos (Ex.cylT θ' ζ') := congrFun e 0
    have e1 : √(2 * ψ) * Real.sin (Ex.cylT θ ζ) = √(2 * ψ') * Real.sin (Ex.cylT θ' ζ') := congrFun e 1
    have e2 : Ex.cylZ θ ζ = Ex.cylZ θ' ζ' := congrFun e 2
    have q := Real.sq_sqrt (show 0 ≤ 2 * ψ by linarith [hψ.1])
    have q' := Real.sq_sqrt (show 0 ≤ 2 * ψ' by linarith [hψ'.1])
    have s1 := Real.sin_sq_add_cos_sq (Ex.cylT θ ζ)
    have s2 := Real.sin_sq_add_cos_sq (Ex.cylT θ' ζ')
    have eψ : ψ = ψ' := by
      have k : √(2 * ψ) ^ 2 * (Real.sin (Ex.cylT θ ζ) ^ 2 + Real.cos (Ex.cylT θ ζ) ^ 2) =
          √(2 * ψ') ^ 2 * (Real.sin (Ex.cylT θ' ζ') ^ 2 + Real.cos (Ex.cylT θ' ζ') ^ 2) := by
        rw [mul_add, mul_add, ← mul_pow, ← mul_pow, ← mul_pow, ← mul_pow, e0, e1]
      rw [s1, s2, q, q'] at k
      linarith
    subst eψ
    have r0 : √(2 * ψ) ≠ 0 := (Real.sqrt_pos.mpr (by linarith [hψ.1])).ne'
    have c := mul_left_cancel₀ r0 e0
    have s := mul_left_cancel₀ r0 e1
    obtain ⟨k, hk⟩ := (Real.Angle.angle_eq_iff_two_pi_dvd_sub).mp (Real.Angle.cos_sin_inj c s)
    have hk' : Ex.cylT θ ζ = Ex.cylT θ' ζ' + k * (2 * Real.pi) := by linarith
    obtain ⟨eθ, eζ⟩ := Ex.cyl_angles hk' e2
    refine ⟨rfl, ?_, eζ⟩
    have p0 : (0 : ℝ) < 2 * Real.pi := by positivity
    have u1 : (k : ℝ) * (2 * Real.pi) < 1 * (2 * Real.pi) := by linarith [hθ.2, hθ'.1]
    have u2 : (-1 : ℝ) * (2 * Real.pi) < k * (2 * Real.pi) := by linarith [hθ.1, hθ'.2]
    have v1 := lt_of_mul_lt_mul_right u1 p0.le
    have v2 := lt_of_mul_lt_mul_right u2 p0.le
    have k0 : k = 0 := by
      have w1 : k < 1 := by exact_mod_cast v1
      have w2 : -1 < k := by exact_mod_cast v2
      omega
    rw [eθ, k0]
    simp

/-- B² of the cylinder as a function of position. -/
noncomputable def Ex.cylQ (r : V3) : ℝ := 9 / 16 * (r 0 ^ 2 + r 1 ^ 2) + 1

/-- The cylinder meets the hypotheses of `C106_outputs`; B² is not constant in space. -/
example (asym : Bool) : ∃ v a C, 0 < v ∧ 0 < a ∧ VolumeRate Ex.cylX (1 / 2) v ∧ FluxAverage Ex.cylX (1 / 2) Ex.cylQ a ∧
    ∀ (M N : ℕ) (s1 : St ℝ) (dbg : Bool), s1.inp = { (Ex.cyl asym).inp with mboz := M, nboz := N } →
      RunReady s1.inp { Ex.dims asym with M := M, N := N } →
      ∃ s' r g, run dbg s1 = .ok (s', r) ∧ s'.out.spec.gmnc_b.rdN 0 0 = .ok g ∧
        |4 * Real.pi ^ 2 * |g| - v| ≤ C * gridError M N 3 := by
  have hs : selected (Ex.cyl asym).inp 0 < 2 := Ex.polar_sel asym (1 / 16) 0 (by decide)
  obtain ⟨v, a, C, h1, h2, h3, h4, h5⟩ := C106_outputs (s := Ex.cyl asym) (d := Ex.dims asym)
    (Ex.cyl_ready asym) (Ex.polar_periodic asym (1 / 16)) (Ex.polar_origin asym (1 / 16)) (b := 0) (by show 0 < 2; decide)
    (Ex.cyl_noCurrent asym hs) (Ex.cyl_regular asym hs) (Ex.cyl_field asym hs) Ex.cyl_nested (Q := Ex.cylQ)
    (by unfold Ex.cylQ; fun_prop) (fun θ ζ => by
      rw [dot3]
      simp [Ex.cylQ, Ex.cylX, Ex.cylB]
      linear_combination -(9 / 16 : ℝ) * Real.sin_sq_add_cos_sq (Ex.cylT θ ζ)) (p := 3) (by decide)
  refine ⟨v, a, C, h1, h2, h3, h4, fun M N s1 dbg e hr => ?_⟩
  obtain ⟨s', r, iota, I, G, g, k1, -, -, -, -, -, k2, k3, -⟩ := h5 M N s1 dbg e hr
  exact ⟨s', r, g, k1, k2, k3⟩

theorem Ex.cyl_IG (asym : Bool) {js : ℕ} (hj : js < 2) :
    (surface (Ex.cyl asym).inp asym js).G = 1 ∧ (surface (Ex.cyl asym).inp asym js).I = 3 / 4 :=
  ⟨(Mat.val_tab (by decide) hj).trans (by simp), (Mat.val_tab (by decide) hj).trans (by simp)⟩

/-- The volume of the cylinder of radius `√(2ψ)` and length 2π. -/
example : VolumeRate Ex.cylX (1 / 2) (4 * Real.pi ^ 2) := by
  have hs : selected (Ex.cyl false).inp 0 < 2 := Ex.polar_sel false (1 / 16) 0 (by decide)
  obtain ⟨-, h2, -⟩ := C106_flux_average (s := Ex.cyl false) (d := Ex.dims false)
    (Ex.cyl_ready false) (Ex.polar_periodic false (1 / 16)) (Ex.polar_origin false (1 / 16)) (b := 0) (by show 0 < 2; decide)
    (Ex.cyl_noCurrent false hs) (Ex.cyl_regular false hs) (Ex.cyl_field false hs) Ex.cyl_nested
  have ej : (surface (Ex.cyl false).inp false (selected (Ex.cyl false).inp 0)).jacobian = fun _ _ => 1 := by
    funext θ ζ
    unfold Surface.jacobian
    rw [Ex.cyl_B false hs, (Ex.cyl_IG false hs).1, (Ex.cyl_IG false hs).2, Ex.cyl_iota false hs]
    norm_num
  have k := average_const (Ex.cyl_ready false) (Ex.polar_periodic false (1 / 16)) (selected (Ex.cyl false).inp 0) 1
  replace h2 : VolumeRate Ex.cylX (1 / 2) (4 * Real.pi ^ 2 *
    |(surface (Ex.cyl false).inp false (selected (Ex.cyl false).inp 0)).average
      (surface (Ex.cyl false).inp false (selected (Ex.cyl false).inp 0)).jacobian|) := h2
  rw [ej] at h2
  replace k : (surface (Ex.cyl false).inp false (selected (Ex.cyl false).inp 0)).average (fun _ _ => 1) = 1 := k
  rw [k, abs_one, mul_one] at h2
  exact h2

end Booz
