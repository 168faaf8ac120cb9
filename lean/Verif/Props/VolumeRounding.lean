import Verif.Props.Volume
import Verif.Props.LineRounding

/-!
# C106 on a machine with rounding

The volume and flux average of C106 computed from the numbers that a machine holds after `run()`.
-/

namespace Booz

open Booz.Spec Matrix

/-- The quotient (G + ι I) / g of numbers with errors. -/
theorem quotient_near (i I G g : ℝ) (hg : g ≠ 0) : ∃ D η : ℝ, 0 ≤ D ∧ 0 < η ∧ ∀ e i' I' G' g' : ℝ, e ≤ η →
    |i' - i| ≤ e → |I' - I| ≤ e → |G' - G| ≤ e → |g' - g| ≤ e →
    |(G' + i' * I') / g' - (G + i * I) / g| ≤ D * e := by
  have hgp : 0 < |g| := abs_pos.mpr hg
  refine ⟨2 * ((2 + |i| + |I|) * |g| + |G + i * I|) / |g| ^ 2, min (|g| / 2) 1, by positivity, by positivity, ?_⟩
  intro e i' I' G' g' he h1 h2 h3 h4
  have e0 : 0 ≤ e := (abs_nonneg _).trans h1
  have e1 : e ≤ 1 := he.trans (min_le_right _ _)
  have k3 : |g| / 2 ≤ |g'| := by
    have := abs_sub_abs_le_abs_sub g g'
    rw [abs_sub_comm] at this
    linarith [he.trans (min_le_left _ _)]
  have g0 : g' ≠ 0 := abs_pos.mp (lt_of_lt_of_le (half_pos hgp) k3)
  have hK : |(G' + i' * I') - (G + i * I)| ≤ (2 + |i| + |I|) * e := by
    rw [show (G' + i' * I') - (G + i * I) = (G' - G) + i * (I' - I) + (i' - i) * I + (i' - i) * (I' - I) by ring]
    have a1 := abs_add_le ((G' - G) + i * (I' - I) + (i' - i) * I) ((i' - i) * (I' - I))
    have a2 := abs_add_le ((G' - G) + i * (I' - I)) ((i' - i) * I)
    have a3 := abs_add_le (G' - G) (i * (I' - I))
    rw [abs_mul] at a1 a2 a3
    have b1 := mul_le_mul_of_nonneg_left h2 (abs_nonneg i)
    have b2 := mul_le_mul_of_nonneg_right h1 (abs_nonneg I)
    have b3 : |i' - i| * |I' - I| ≤ e * 1 := mul_le_mul h1 (h2.trans e1) (abs_nonneg _) e0
    linarith
  rw [div_sub_div _ _ g0 hg, abs_div, abs_mul,
    show (G' + i' * I') * g - g' * (G + i * I) = ((G' + i' * I') - (G + i * I)) * g - (g' - g) * (G + i * I) by ring]
  have num := abs_sub (((G' + i' * I') - (G + i * I)) * g) ((g' - g) * (G + i * I))
  rw [abs_mul, abs_mul] at num
  replace num := num.trans (add_le_add (mul_le_mul_of_nonneg_right hK hgp.le)
    (mul_le_mul_of_nonneg_right h4 (abs_nonneg (G + i * I))))
  rw [div_mul_eq_mul_div, div_le_div_iff₀ (mul_pos (abs_pos.mpr g0) hgp) (pow_pos hgp 2)]
  set X := (2 + |i| + |I|) * |g| + |G + i * I| with hX
  have hX0 : 0 ≤ X := by positivity
  have num' : |((G' + i' * I') - (G + i * I)) * g - (g' - g) * (G + i * I)| ≤ X * e := num.trans (le_of_eq (by rw [hX]; ring))
  calc _ ≤ X * e * |g| ^ 2 := mul_le_mul_of_nonneg_right num' (by positivity)
    _ = X * e * |g| * (2 * (|g| / 2)) := by ring
    _ ≤ X * e * |g| * (2 * |g'|) := by gcongr
    _ = _ := by ring

/-- **C106, on a machine.**  Suppose the input describes a magnetic field.  A machine with relative error `u`, given the
data rounded to within `K u`, stores after `run()` finite numbers ι, `Boozer_I`, `Boozer_G` and (0,0) harmonic of the
Jacobian, from which the rate of the volume with the flux and the flux average of B² come out with an error of
`C (1/ntheta^p + 1/nzeta^p) + D u`. -/
theorem C106_machine {s : St ℝ} {d : Dims} (h : RunReady s.inp d) (hp : FieldPeriodic s.inp d.nfp)
    (ho : OriginOnce s.inp) {b : ℕ} (hb : b < d.nsb) (hc : NoRadialCurrent s.inp d.asym (selected s.inp b))
    (hregs : ∀ b < d.nsb, (surface s.inp d.asym (selected s.inp b)).Regular)
    {x : ℝ → ℝ → ℝ → V3} {lam : ℝ → ℝ → ℝ → ℝ} {ψ₀ δ : ℝ} {B : ℝ → ℝ → V3}
    (hf : IsField (surface s.inp d.asym (selected s.inp b)) (bTheta s.inp d.asym (selected s.inp b))
      (bZeta s.inp d.asym (selected s.inp b)) x lam ψ₀ B) (hn : Nested x ψ₀ δ)
    {Q : V3 → ℝ} (hQ : Continuous Q) (hQB : ∀ θ ζ, Q (x ψ₀ θ ζ) = B θ ζ ⬝ᵥ B θ ζ) {p : ℕ} (hp1 : 1 ≤ p) :
    ∃ v a C, 0 < v ∧ 0 < a ∧ VolumeRate x ψ₀ v ∧ FluxAverage x ψ₀ Q a ∧
    ∀ M N : ℕ, RunReady { s.inp with mboz := M, nboz := N } { d with M := M, N := N } → ∀ K : ℝ, 0 ≤ K →
      ∃ D u₀, 0 < u₀ ∧
        ∀ (α : Type) [Arith α] (fin : α → Prop) (val : α → ℝ) (u : ℝ), Precision α fin val u → u ≤ u₀ →
        ∀ s1 : St α, RunReady s1.inp { d with M := M, N := N } →
          InputsNear fin val { d with M := M, N := N } (K * u) s1.inp s.inp →
          ∃ s' r iota I G g, run false s1 = .ok (s', r) ∧ s'.out.xm_b.rdN 0 = .ok 0 ∧ s'.out.xn_b.rdN 0 = .ok 0 ∧
            s1.inp.iota.rdN (selected s.inp b) = .ok iota ∧ s'.out.boozer_I.rdN b = .ok I ∧
            s'.out.boozer_G.rdN b = .ok G ∧ s'.out.spec.gmnc_b.rdN 0 b = .ok g ∧ fin iota ∧ fin I ∧ fin G ∧ fin g ∧
            |4 * Real.pi ^ 2 * |val g| - v| ≤ C * gridError M N p + D * u ∧
            (C * gridError M N p ≤ 1 → |(val G + val iota * val I) / val g - a| ≤ C * gridError M N p + D * u) := by
  obtain ⟨v, a, C, hv, ha, h1, h2, H⟩ := C106_outputs h hp ho hb hc (hregs b hb) hf hn hQ hQB hp1
  have hC' : |C| ≤ |C| * (1 + 2 / v) := le_mul_of_one_le_right (abs_nonneg C) (by linarith [div_pos two_pos hv])
  refine ⟨v, a, |C| * (1 + 2 / v), hv, ha, h1, h2, fun M N hr K hK => ?_⟩
  have ge0 : 0 ≤ gridError M N p := by unfold gridError; positivity
  have leC : C * gridError M N p ≤ |C| * (1 + 2 / v) * gridError M N p :=
    mul_le_mul_of_nonneg_right ((le_abs_self C).trans hC') ge0
  let s₁ : St ℝ := { s with inp := { s.inp with mboz := M, nboz := N } }
  obtain ⟨A, u₀, h0, R⟩ := C69_rounding (s₀ := s₁) (d := { d with M := M, N := N }) hr hp ho hregs hK
  obtain ⟨t, q, i₀, I₀, G₀, g₀, k1, k2, k3, k4, k5, k6, k7, k8, k9⟩ := H M N s₁ false rfl hr
  have hsel : selected s.inp b < d.ns := by
    have := h.surfs_range b hb
    unfold selected
    omega
  have hnm : 0 < ({ d with M := M, N := N } : Dims).nmodes := Nat.succ_pos _
  let E : ℝ := |A| + K
  have hE : 0 ≤ E := by positivity
  -- the numbers of the machine
  have nums : ∀ (α : Type) [Arith α] (fin : α → Prop) (val : α → ℝ) (u : ℝ), Precision α fin val u → u ≤ u₀ →
        ∀ s1 : St α, RunReady s1.inp { d with M := M, N := N } →
          InputsNear fin val { d with M := M, N := N } (K * u) s1.inp s.inp →
          ∃ s' r iota I G g, run false s1 = .ok (s', r) ∧ s'.out.xm_b.rdN 0 = .ok 0 ∧ s'.out.xn_b.rdN 0 = .ok 0 ∧
            s1.inp.iota.rdN (selected s.inp b) = .ok iota ∧ s'.out.boozer_I.rdN b = .ok I ∧
            s'.out.boozer_G.rdN b = .ok G ∧ s'.out.spec.gmnc_b.rdN 0 b = .ok g ∧ fin iota ∧ fin I ∧ fin G ∧ fin g ∧
            |val iota - i₀| ≤ E * u ∧ |val I - I₀| ≤ E * u ∧ |val G - G₀| ≤ E * u ∧ |val g - g₀| ≤ E * u := by
    intro α _ fin val u hu hle s1 hs1 hn1
    obtain ⟨s', r, t', q', e1, e2, e3⟩ := R α fin val u hu hle s1 hs1 { hn1 with }
    rw [k1] at e2
    cases e2
    obtain ⟨I, y, a1, a2, a3, a4⟩ := e3.boozer_I b hb
    cases k5.symm.trans a2
    obtain ⟨G, y, b1, b2, b3, b4⟩ := e3.boozer_G b hb
    cases k6.symm.trans b2
    obtain ⟨g, y, c1, c2, c3, c4⟩ := e3.gmnc 0 hnm b hb
    cases k7.symm.trans c2
    obtain ⟨iota, y, d1, d2, d3, d4⟩ := hn1.iota _ hsel
    cases k4.symm.trans d2
    have le1 : A * u ≤ E * u := mul_le_mul_of_nonneg_right (by show A ≤ |A| + K; linarith [le_abs_self A]) hu.u_pos.le
    have le2 : K * u ≤ E * u := mul_le_mul_of_nonneg_right (by show K ≤ |A| + K; linarith [abs_nonneg A]) hu.u_pos.le
    exact ⟨s', r, iota, I, G, g, e1, by rw [e3.xm_b]; exact k2, by rw [e3.xn_b]; exact k3, d1, a1, b1, c1, d3, a3, b3, c3,
      d4.trans le2, a4.trans le1, b4.trans le1, c4.trans le1⟩
  have vol : ∀ {g u : ℝ}, |g - g₀| ≤ E * u →
      |4 * Real.pi ^ 2 * |g| - v| ≤ |C| * (1 + 2 / v) * gridError M N p + 4 * Real.pi ^ 2 * E * u := by
    intro g u hg
    have a1 := abs_sub_le (4 * Real.pi ^ 2 * |g|) (4 * Real.pi ^ 2 * |g₀|) v
    have a2 : |(4 * Real.pi ^ 2 * |g| - 4 * Real.pi ^ 2 * |g₀|)| ≤ 4 * Real.pi ^ 2 * (E * u) := by
      rw [← mul_sub, abs_mul, abs_of_pos (by positivity : (0 : ℝ) < 4 * Real.pi ^ 2)]
      exact mul_le_mul_of_nonneg_left ((abs_abs_sub_abs_le_abs_sub g g₀).trans hg) (by positivity)
    linarith
  by_cases small : |C| * (1 + 2 / v) * gridError M N p ≤ 1
  · have hg0 : g₀ ≠ 0 := by
      rintro rfl
      rw [abs_zero, mul_zero, zero_sub, abs_neg, abs_of_pos hv] at k8
      have e1 : |C| * (1 + 2 / v) * gridError M N p = |C| * gridError M N p + 2 / v * (|C| * gridError M N p) := by ring
      have e2 : v ≤ |C| * gridError M N p := k8.trans (mul_le_mul_of_nonneg_right (le_abs_self C) ge0)
      have e3 : 2 / v * v ≤ 2 / v * (|C| * gridError M N p) := mul_le_mul_of_nonneg_left e2 (by positivity)
      rw [div_mul_cancel₀ _ hv.ne'] at e3
      linarith
    obtain ⟨D, η, hD, hη, hq⟩ := quotient_near i₀ I₀ G₀ g₀ hg0
    refine ⟨4 * Real.pi ^ 2 * E + D * E, min u₀ (η / (E + 1)), lt_min h0 (by positivity), ?_⟩
    intro α _ fin val u hu hle s1 hs1 hn1
    obtain ⟨s', r, iota, I, G, g, e1, e2, e3, e4, e5, e6, e7, f1, f2, f3, f4, n1, n2, n3, n4⟩ :=
      nums α fin val u hu (hle.trans (min_le_left _ _)) s1 hs1 hn1
    have u0 := hu.u_pos.le
    have p1 : 0 ≤ D * E * u := by positivity
    have p2 : 0 ≤ 4 * Real.pi ^ 2 * E * u := by positivity
    refine ⟨s', r, iota, I, G, g, e1, e2, e3, e4, e5, e6, e7, f1, f2, f3, f4, (vol n4).trans (by linarith), fun _ => ?_⟩
    have hEu : E * u ≤ η := by
      have h1 := hle.trans (min_le_right _ _)
      rw [le_div_iff₀ (by positivity)] at h1
      nlinarith
    have a1 := abs_sub_le ((val G + val iota * val I) / val g) ((G₀ + i₀ * I₀) / g₀) a
    have a2 := hq (E * u) _ _ _ _ hEu n1 n2 n3 n4
    have a3 := k9 (leC.trans small)
    linarith
  · refine ⟨4 * Real.pi ^ 2 * E, u₀, h0, ?_⟩
    intro α _ fin val u hu hle s1 hs1 hn1
    obtain ⟨s', r, iota, I, G, g, e1, e2, e3, e4, e5, e6, e7, f1, f2, f3, f4, n1, n2, n3, n4⟩ :=
      nums α fin val u hu hle s1 hs1 hn1
    exact ⟨s', r, iota, I, G, g, e1, e2, e3, e4, e5, e6, e7, f1, f2, f3, f4, vol n4, fun h => absurd h small⟩

/-- `C106_machine` for the cylinder, `mboz = nboz = M`, on machines with more and more bits. -/
example (asym : Bool) : ∃ v a C, 0 < v ∧ 0 < a ∧ VolumeRate Ex.cylX (1 / 2) v ∧ FluxAverage Ex.cylX (1 / 2) Ex.cylQ a ∧
    ∀ M : ℕ, 1 ≤ M → (4 * M + 2) * (4 * M + 2) < 2 ^ 30 → ∃ (D : ℝ) (p₀ : ℕ), ∀ p ≥ p₀, ∃ s' r g,
      run false ({ Ex.st asym with
        inp := Ex.mapI (fun x => (⟨Ex.rnd p x⟩ : Ex.Flp p)) { (Ex.cyl asym).inp with mboz := M, nboz := M } }) = .ok (s', r) ∧
      s'.out.spec.gmnc_b.rdN 0 0 = .ok g ∧
      |4 * Real.pi ^ 2 * |g.val| - v| ≤ C * gridError M M 3 + D * (4 / 2 ^ p) := by
  have hs : ∀ b < 2, selected (Ex.cyl asym).inp b < 2 := fun b hb => Ex.polar_sel asym (1 / 16) b hb
  obtain ⟨v, a, C, h1, h2, h3, h4, H⟩ := C106_machine (s := Ex.cyl asym) (d := Ex.dims asym)
    (Ex.cyl_ready asym) (Ex.polar_periodic asym (1 / 16)) (Ex.polar_origin asym (1 / 16)) (b := 0) (by show 0 < 2; decide)
    (Ex.cyl_noCurrent asym (hs 0 (by decide))) (fun b hb => Ex.cyl_regular asym (hs b hb))
    (Ex.cyl_field asym (hs 0 (by decide))) Ex.cyl_nested (Q := Ex.cylQ)
    (by unfold Ex.cylQ; fun_prop) (fun θ ζ => by
      rw [dot3]
      simp [Ex.cylQ, Ex.cylX, Ex.cylB]
      linear_combination -(9 / 16 : ℝ) * Real.sin_sq_add_cos_sq (Ex.cylT θ ζ)) (p := 3) (by decide)
  refine ⟨v, a, C, h1, h2, h3, h4, fun M hM hf => ?_⟩
  have hr := Ex.cyl_ready_res asym hM hf
  obtain ⟨K, hK, near⟩ := Ex.mapI_near hr
  obtain ⟨D, u₀, h0, G⟩ := H M M hr K hK
  obtain ⟨p₀, hp₀⟩ := Ex.bits h0
  refine ⟨D, p₀, fun p hp => ?_⟩
  obtain ⟨s', r, iota, I, G', g, g1, -, -, -, -, -, g7, -, -, -, -, g8, -⟩ := G (Ex.Flp p) (fun _ => True) Ex.Flp.val (4 / 2 ^ p)
    (Ex.flp_precision p) (hp₀ p hp)
    { Ex.st asym with
      inp := Ex.mapI (fun x => (⟨Ex.rnd p x⟩ : Ex.Flp p)) { (Ex.cyl asym).inp with mboz := M, nboz := M } }
    (Ex.mapI_ready _ hr) { near p with }
  exact ⟨s', r, g, g1, g7, g8⟩

end Booz
