import Verif.Spec.Quasisymmetry
import Verif.Lemmas.Shift
import Verif.Props.Axisymmetric

/-!
# C76: symmetry-breaking harmonics and quasisymmetry
-/

namespace Booz
open Spec Trapezoid Finset Function

/-- The function expressing |B| in Boozer angles. -/
theorem express_B {I : Inputs ℝ} {d : Dims} (h : RunReady I d) (hp : FieldPeriodic I d.nfp) {js : ℕ}
    (hd : ∀ θ ζ, (surface I d.asym js).det θ ζ ≠ 0) :
    ∃ f, (surface I d.asym js).Expresses f (surface I d.asym js).B ∧ Smooth (uncurry f) ∧ PerF d.nfp f ∧ TorusFn f := by
  obtain ⟨-, -, -, -, pB⟩ := surf_per h hp d.asym js
  obtain ⟨f, ⟨hf, sf, p1, p2⟩, -⟩ := (boozer_coordinates h hp js hd).express _ (smooth_surface I d.asym js).B pB.1 pB.2
  have pf : PerF d.nfp f := ⟨p1, p2⟩
  have := pf.torus h.nfp_pos
  exact ⟨f, hf, sf, pf, p1, fun t z => by simpa using this.2 (t, z)⟩

theorem fourier_coeff (f : ℝ → ℝ → ℝ) (m n : ℤ) :
    fourierCos f m n = (if m = 0 ∧ n = 0 then 1 else 2) * cc (uncurry f) (m, n) ∧
    fourierSin f m n = (if m = 0 ∧ n = 0 then 1 else 2) * sc (uncurry f) (m, n) := by
  unfold fourierCos fourierSin cc sc
  rw [mean2_tau, mean2_tau]
  constructor
  · rw [div_eq_mul_one_div, mul_assoc]
    rfl
  · rw [div_eq_mul_one_div, mul_assoc]
    rfl

/-- Quasisymmetry in terms of the integrals of the theory section. -/
theorem quasi_iff {I : Inputs ℝ} {d : Dims} (h : RunReady I d) (hp : FieldPeriodic I d.nfp) {js : ℕ}
    (hd : ∀ θ ζ, (surface I d.asym js).det θ ζ ≠ 0) {Mh Nh : ℤ} (hMN : ¬ (Mh = 0 ∧ Nh = 0)) :
    let S := surface I d.asym js
    S.Quasisymmetric Mh Nh ↔ ∀ m n : ℤ, m * Nh ≠ n * Mh → S.integralCos S.B m n = 0 ∧ S.integralSin S.B m n = 0 := by
  intro S
  obtain ⟨f, hf, sf, pf, tf⟩ := express_B h hp hd
  have hsurj := (boozer_coordinates h hp js hd).bijective.2
  have e : S.Quasisymmetric Mh Nh ↔
      ∀ x y : ℝ × ℝ, Mh * x.1 - Nh * x.2 = Mh * y.1 - Nh * y.2 → uncurry f x = uncurry f y := by
    constructor
    · intro hq x y hxy
      obtain ⟨a, rfl⟩ := hsurj x
      obtain ⟨b, rfl⟩ := hsurj y
      show f (S.thetaB a.1 a.2) (S.zetaB a.1 a.2) = f (S.thetaB b.1 b.2) (S.zetaB b.1 b.2)
      rw [hf, hf]
      exact hq _ _ _ _ hxy
    · intro hq θ ζ θ' ζ' hx
      rw [← hf θ ζ, ← hf θ' ζ']
      exact hq (S.thetaB θ ζ, S.zetaB θ ζ) (S.thetaB θ' ζ', S.zetaB θ' ζ') hx
  rw [e, helical_iff sf.continuous tf.dper hMN]
  have key : ∀ m n : ℤ, (S.integralCos S.B m n = 0 ∧ S.integralSin S.B m n = 0) ↔
      (cc (uncurry f) (m, n) = 0 ∧ sc (uncurry f) (m, n) = 0) := by
    intro m n
    obtain ⟨e1, e2⟩ := C67_coefficients h hp js sf.continuous tf hf m n
    obtain ⟨e3, e4⟩ := fourier_coeff f m n
    rw [e1, e2, e3, e4]
    have : (if m = 0 ∧ n = 0 then (1 : ℝ) else 2) ≠ 0 := by split <;> norm_num
    rw [mul_eq_zero, mul_eq_zero, or_iff_right this, or_iff_right this]
  exact ⟨fun hk m n hmn => (key m n).2 (hk (m, n) hmn), fun hk k hkn => (key k.1 k.2).1 (hk k.1 k.2 hkn)⟩

/-- Integrals vanish unless n is a multiple of nfp. -/
theorem integral_nfp {I : Inputs ℝ} {d : Dims} (h : RunReady I d) (hp : FieldPeriodic I d.nfp) {js : ℕ}
    (hd : ∀ θ ζ, (surface I d.asym js).det θ ζ ≠ 0) {m n : ℤ} (hn : ¬ (d.nfp : ℤ) ∣ n) :
    let S := surface I d.asym js
    S.integralCos S.B m n = 0 ∧ S.integralSin S.B m n = 0 := by
  intro S
  obtain ⟨f, hf, sf, pf, tf⟩ := express_B h hp hd
  obtain ⟨e1, e2⟩ := C67_coefficients h hp js sf.continuous tf hf m n
  obtain ⟨e3, e4⟩ := fourier_coeff f m n
  have hnfp : (d.nfp : ℝ) ≠ 0 := by
    have := h.nfp_pos
    positivity
  have := coeff_zero_of_invariant sf.continuous tf.dper (v := (0, 2 * Real.pi / d.nfp)) (k := (m, n))
    (fun x => by
      show f (x.1 + 0) (x.2 + 2 * Real.pi / d.nfp) = f x.1 x.2
      rw [add_zero, pf.2])
    (fun hc => hn (by
      obtain ⟨j, hj⟩ := (Real.cos_eq_one_iff _).1 hc
      have e : (j : ℝ) * (2 * Real.pi) = -(n * (2 * Real.pi / d.nfp)) := by
        rw [hj]; unfold ph; simp
      refine ⟨-j, ?_⟩
      have e' : (n : ℝ) = d.nfp * -j := by
        have hpi : (2 * Real.pi) ≠ 0 := by positivity
        apply mul_right_cancel₀ hpi
        field_simp at e
        linear_combination (2 * Real.pi) * e
      exact_mod_cast e'))
  rw [e1, e2, e3, e4, this.1, this.2, mul_zero]
  exact ⟨rfl, rfl⟩

theorem integral_neg (S : Surface) (q : ℝ → ℝ → ℝ) (m n : ℤ) :
    S.integralCos q (-m) (-n) = S.integralCos q m n ∧ S.integralSin q (-m) (-n) = -S.integralSin q m n := by
  unfold Surface.integralCos Surface.integralSin
  have e : ∀ θ ζ, ((-m : ℤ) : ℝ) * S.thetaB θ ζ - ((-n : ℤ) : ℝ) * S.zetaB θ ζ = -(m * S.thetaB θ ζ - n * S.zetaB θ ζ) :=
    fun θ ζ => by push_cast; ring
  simp only [e, Real.cos_neg, Real.sin_neg, neg_eq_zero, mul_neg, intervalIntegral.integral_neg]
  exact ⟨trivial, trivial⟩

/-- In stellarator symmetry |B| has no sine harmonics. -/
theorem integralSin_sym {s : St ℝ} {d : Dims} (h : RunReady s.inp d) (hp : FieldPeriodic s.inp d.nfp)
    (ho : OriginOnce s.inp) (hreg : ∀ b < d.nsb, (surface s.inp d.asym (selected s.inp b)).Regular)
    (ha : d.asym = false) {b : ℕ} (hb : b < d.nsb) (m n : ℤ) :
    let S := surface s.inp d.asym (selected s.inp b)
    S.integralSin S.B m (n * d.nfp) = 0 := by
  intro S
  obtain ⟨C, h1, -⟩ := C52_convergence h hp ho hreg m (n * d.nfp) (p := 1) le_rfl
  have key : ∀ k : ℕ, 1 ≤ k → |S.integralSin S.B m (n * d.nfp)| ≤ 2 * C / k := by
    intro k hk
    have a := (h1 b hb (dvd_mul_left _ _) S.B List.mem_cons_self k k hk hk).2
    have z := (quad_parity h hp ha (selected s.inp b) hk hk m n).1
    rw [z, zero_sub, abs_neg] at a
    refine a.trans (le_of_eq ?_)
    ring
  by_contra hne
  have hpos : 0 < |S.integralSin S.B m (n * d.nfp)| := abs_pos.2 hne
  obtain ⟨k, hk⟩ := exists_nat_gt (2 * C / |S.integralSin S.B m (n * d.nfp)|)
  have hk1 : (0 : ℝ) < (k + 1 : ℕ) := by positivity
  have a := key (k + 1) (by omega)
  rw [le_div_iff₀ hk1] at a
  rw [div_lt_iff₀ hpos] at hk
  push_cast at a
  nlinarith

/-- **C76, vanishing.** Let |B| be quasisymmetric on a processed surface, a function of `Mh θ_B − Nh ζ_B`, and the
Jacobian determinant of the Boozer angles vanish nowhere on it. The output harmonics of |B| for a mode (m, n) that is
not a multiple of (Mh, Nh) are at most `C (1/ntheta^p + 1/nzeta^p)` at every resolution. -/
theorem C76_quasisymmetric {s : St ℝ} {d : Dims} (h : RunReady s.inp d) (hp : FieldPeriodic s.inp d.nfp)
    (ho : OriginOnce s.inp) (hreg : ∀ b < d.nsb, (surface s.inp d.asym (selected s.inp b)).Regular)
    {b : ℕ} (hb : b < d.nsb) (hdet : ∀ θ ζ, (surface s.inp d.asym (selected s.inp b)).det θ ζ ≠ 0)
    {Mh Nh : ℤ} (hMN : ¬ (Mh = 0 ∧ Nh = 0)) (hq : (surface s.inp d.asym (selected s.inp b)).Quasisymmetric Mh Nh)
    {m n : ℤ} (hmn : m * Nh ≠ n * Mh) {p : ℕ} (hp1 : 1 ≤ p) :
    ∃ C, ((d.nfp : ℤ) ∣ n → ∀ nt nz : ℕ, 1 ≤ nt → 1 ≤ nz →
      let S := surface s.inp d.asym (selected s.inp b)
      |S.quadCos nt nz d.nfp S.B m n| ≤ C * ((1 / (nt : ℝ)) ^ p + (1 / (nz : ℝ)) ^ p) ∧
      |S.quadSin nt nz d.nfp S.B m n| ≤ C * ((1 / (nt : ℝ)) ^ p + (1 / (nz : ℝ)) ^ p)) ∧
    ∀ (M N : ℕ) (s1 : St ℝ) (dbg : Bool), s1.inp = { s.inp with mboz := M, nboz := N } →
      RunReady s1.inp { d with M := M, N := N } →
      ∃ s' r, run dbg s1 = .ok (s', r) ∧ ∀ k < numModes M N, s'.out.xm_b.rdN k = .ok m → s'.out.xn_b.rdN k = .ok n →
        Near s'.out.spec.bmnc_b k b 0 (C * gridError M N p) ∧
        (d.asym = true → Near s'.out.spec.bmns_b k b 0 (C * gridError M N p)) := by
  obtain ⟨C, h1, h2⟩ := C52_convergence h hp ho hreg m n hp1
  obtain ⟨z1, z2⟩ := (quasi_iff h hp hdet hMN).1 hq m n hmn
  refine ⟨C, fun hn nt nz ht hz => ?_, fun M N s1 dbg e hr => ?_⟩
  · intro S
    have := h1 b hb hn S.B List.mem_cons_self nt nz ht hz
    rwa [z1, z2, sub_zero, sub_zero] at this
  · obtain ⟨s', r, ok, H⟩ := h2 M N s1 dbg e hr
    refine ⟨s', r, ok, fun k hk hm hn => ?_⟩
    have a := H b hb k hk hm hn
    have a1 := a.bmnc
    rw [z1] at a1
    refine ⟨a1, fun ha => ?_⟩
    have a2 := a.bmns ha
    rwa [z2] at a2

/-- **C76, detection.** If |B| is *not* a function of `Mh θ_B − Nh ζ_B` on a processed surface, then one of its
harmonics that break this symmetry stays away from zero: there are a mode (m, n) not a multiple of (Mh, Nh) and `δ > 0`
such that every run whose resolution includes the mode lists it, with a harmonic of at least
`δ − C (1/ntheta^p + 1/nzeta^p)`. -/
theorem C76_detect {s : St ℝ} {d : Dims} (h : RunReady s.inp d) (hp : FieldPeriodic s.inp d.nfp)
    (ho : OriginOnce s.inp) (hreg : ∀ b < d.nsb, (surface s.inp d.asym (selected s.inp b)).Regular)
    {b : ℕ} (hb : b < d.nsb) (hdet : ∀ θ ζ, (surface s.inp d.asym (selected s.inp b)).det θ ζ ≠ 0)
    {Mh Nh : ℤ} (hMN : ¬ (Mh = 0 ∧ Nh = 0)) (hq : ¬ (surface s.inp d.asym (selected s.inp b)).Quasisymmetric Mh Nh) :
    ∃ (m : ℕ) (n : ℤ) (δ : ℝ), (m : ℤ) * Nh ≠ n * d.nfp * Mh ∧ 0 < δ ∧ ∃ sine : Bool, (sine = true → d.asym = true) ∧
    ∀ p, 1 ≤ p → ∃ C, (∀ nt nz : ℕ, 1 ≤ nt → 1 ≤ nz →
      let S := surface s.inp d.asym (selected s.inp b)
      δ - C * ((1 / (nt : ℝ)) ^ p + (1 / (nz : ℝ)) ^ p) ≤
        |if sine then S.quadSin nt nz d.nfp S.B m (n * d.nfp) else S.quadCos nt nz d.nfp S.B m (n * d.nfp)|) ∧
    ∀ (M N : ℕ) (s1 : St ℝ) (dbg : Bool), s1.inp = { s.inp with mboz := M, nboz := N } →
      RunReady s1.inp { d with M := M, N := N } → m < M → n.natAbs ≤ N →
      ∃ s' r, run dbg s1 = .ok (s', r) ∧ ∃ k < numModes M N, s'.out.xm_b.rdN k = .ok (m : ℤ) ∧
        s'.out.xn_b.rdN k = .ok (n * d.nfp) ∧
        AtLeast (if sine then s'.out.spec.bmns_b else s'.out.spec.bmnc_b) k b (δ - C * gridError M N p) := by
  let S := surface s.inp d.asym (selected s.inp b)
  have hnf : (0 : ℤ) < d.nfp := by have := h.nfp_pos; omega
  -- a mode with a nonzero integral
  obtain ⟨m0, n0, hmn0, hne⟩ : ∃ m n : ℤ, m * Nh ≠ n * Mh ∧ ¬ (S.integralCos S.B m n = 0 ∧ S.integralSin S.B m n = 0) := by
    by_contra hno
    push Not at hno
    refine hq ((quasi_iff h hp hdet hMN).2 fun m n hmn => ?_)
    by_contra hh
    exact hh (hno m n hmn)
  obtain ⟨n1, rfl⟩ : ∃ n1, n0 = n1 * d.nfp := by
    by_contra hno
    refine hne (integral_nfp h hp hdet fun hd => hno ?_)
    obtain ⟨j, hj⟩ := hd
    exact ⟨j, by rw [hj]; ring⟩
  -- in the half plane
  obtain ⟨m, n, hmn, hhalf, hne⟩ : ∃ (m : ℕ) (n : ℤ), (m : ℤ) * Nh ≠ n * d.nfp * Mh ∧ (m = 0 → 0 ≤ n) ∧
      ¬ (S.integralCos S.B m (n * d.nfp) = 0 ∧ S.integralSin S.B m (n * d.nfp) = 0) := by
    by_cases hh : 0 ≤ m0 ∧ (m0 = 0 → 0 ≤ n1)
    · refine ⟨m0.toNat, n1, ?_, fun h0 => hh.2 (by omega), ?_⟩
      · rwa [Int.toNat_of_nonneg hh.1]
      · rwa [Int.toNat_of_nonneg hh.1]
    · have hm0 : m0 ≤ 0 := by
        by_contra hc
        exact hh ⟨by omega, fun h0 => by omega⟩
      refine ⟨(-m0).toNat, -n1, ?_, fun h0 => ?_, ?_⟩
      · rw [Int.toNat_of_nonneg (by omega)]
        intro hc
        apply hmn0
        linarith
      · by_contra hc
        have hm0' : m0 = 0 := by omega
        exact hh ⟨by omega, fun _ => by omega⟩
      · rw [Int.toNat_of_nonneg (by omega), neg_mul]
        obtain ⟨e1, e2⟩ := integral_neg S S.B m0 (n1 * d.nfp)
        rw [e1, e2, neg_eq_zero]
        exact hne
  -- which of the two
  obtain ⟨sine, hsa, hL⟩ : ∃ sine : Bool, (sine = true → d.asym = true) ∧
      (if sine then S.integralSin S.B m (n * d.nfp) else S.integralCos S.B m (n * d.nfp)) ≠ 0 := by
    by_cases hc : S.integralCos S.B m (n * d.nfp) = 0
    · have hs : S.integralSin S.B m (n * d.nfp) ≠ 0 := fun hs => hne ⟨hc, hs⟩
      refine ⟨true, fun _ => ?_, hs⟩
      cases ha : d.asym
      · exact absurd (integralSin_sym h hp ho hreg ha hb m n) hs
      · rfl
    · exact ⟨false, fun hf => by simp at hf, hc⟩
  refine ⟨m, n, _, hmn, abs_pos.2 hL, sine, hsa, fun p hp1 => ?_⟩
  have far : ∀ {x y e : ℝ}, |x - y| ≤ e → |y| - e ≤ |x| := fun {x y e} hxy => by
    have := abs_sub_abs_le_abs_sub y x
    rw [abs_sub_comm] at this
    linarith
  obtain ⟨C, h1, h2⟩ := C52_convergence h hp ho hreg m (n * d.nfp) hp1
  refine ⟨C, fun nt nz ht hz => ?_, fun M N s1 dbg e hr hM hN => ?_⟩
  · intro S
    obtain ⟨a1, a2⟩ := h1 b hb (dvd_mul_left _ _) S.B List.mem_cons_self nt nz ht hz
    cases sine
    · exact far a1
    · exact far a2
  · obtain ⟨s', r, ok, H⟩ := h2 M N s1 dbg e hr
    have ho' : OriginOnce s1.inp := by rw [e]; exact ho
    have ok' := run_real (dbg := dbg) hr fun _ => originOnce_first hr ho'
    rw [ok] at ok'
    obtain ⟨es, -⟩ := Prod.mk.inj (Except.ok.inj ok')
    obtain ⟨k, hk, ek⟩ := (modePair_mem { d with M := M, N := N } hr.mboz_ge h.nfp_pos ((m : ℤ), n * d.nfp)).2
      ⟨by positivity, by simpa using hM, n, rfl, by simp only; omega, by simp only; omega, fun h0 => hhalf (by simpa using h0)⟩
    obtain ⟨ek1, ek2⟩ := Prod.mk.inj ek
    have km : s'.out.xm_b.rdN k = .ok (m : ℤ) := by
      rw [es, ← ek1]
      exact Vec.rdN_tab hk
    have kn : s'.out.xn_b.rdN k = .ok (n * d.nfp) := by
      rw [es, ← ek2]
      exact Vec.rdN_tab hk
    refine ⟨s', r, ok, k, hk, km, kn, ?_⟩
    have a := H b hb k hk km kn
    cases sine
    · obtain ⟨x, hx, hxe⟩ := a.bmnc
      exact ⟨x, hx, far hxe⟩
    · obtain ⟨x, hx, hxe⟩ := a.bmns (hsa rfl)
      exact ⟨x, hx, far hxe⟩

/-! ### Non-vacuity: axisymmetric equilibria -/

/-- Axisymmetric equilibria are quasisymmetric with helicity (1, 0). -/
theorem axi_quasi {I : Inputs ℝ} {d : Dims} (h : RunReady I d) (hp : FieldPeriodic I d.nfp) (ha : Axisymmetric I) {js : ℕ}
    (hd : ∀ θ ζ, (surface I d.asym js).det θ ζ ≠ 0) : (surface I d.asym js).Quasisymmetric 1 0 := by
  intro θ ζ θ' ζ' e
  have hx := axi_surface h ha d.asym js
  set S := surface I d.asym js with hS
  simp only [Int.cast_one, one_mul, Int.cast_zero, zero_mul, sub_zero] at e
  have inj := (boozer_coordinates h hp js hd).bijective.1
  have := @inj (θ, ζ) (θ', ζ + S.nu θ 0 - S.nu θ' 0) (Prod.ext (by
      show S.thetaB θ ζ = S.thetaB θ' (ζ + S.nu θ 0 - S.nu θ' 0)
      rw [e, hx.thetaB θ' ζ', hx.thetaB θ' (ζ + S.nu θ 0 - S.nu θ' 0)]) (by
      show S.zetaB θ ζ = S.zetaB θ' (ζ + S.nu θ 0 - S.nu θ' 0)
      rw [hx.zetaB, hx.zetaB]
      ring))
  have e1 : θ = θ' := congrArg Prod.fst this
  rw [e1, hx.B θ' ζ, hx.B θ' ζ']

/-- The axisymmetric example is not quasisymmetric with helicity (0, 1): |B| varies poloidally. -/
theorem Ex.axi_not_quasi {js : ℕ} (hj : js < 2) : ¬ (surface (Ex.axi false).inp false js).Quasisymmetric 0 1 := by
  intro hq
  have hx : AxiSurface (surface (Ex.axi false).inp false js) := axi_surface (d := { Ex.dims false with M := 1, N := 0 }) (Ex.axi_ready false (M := 1) le_rfl (by norm_num))
    (Ex.axi_axisymmetric false) false js
  have hB : ∀ θ ζ, (surface (Ex.axi false).inp false js).B θ ζ =
      7 + js + (Real.cos θ + Real.cos θ + Real.cos (2 * θ)) := by
    intro θ ζ
    have e1 : ∀ k < 4, entry (Ex.axi false).inp.bmnc k js = (((if k = 0 then 7 + (js : ℤ) else 1) : ℤ) : ℝ) := by
      intro k hk
      show (Mat.tab 4 2 fun k j => (Arith.ofInt (if k = 0 then 7 + (j : ℤ) else 1) : ℝ)).val 0 k js = _
      rw [Mat.val_tab hk hj, real_ofInt]
    show series 4 ((Ex.vec (β := ℤ) [0, 1, 1, 2]).val 0) ((Ex.vec (β := ℤ) [0, 0, 0, 0]).val 0)
      (fun k => entry (Ex.axi false).inp.bmnc k js) (fun k => onlyIf false (entry (Ex.axi false).inp.bmns k js)) θ ζ = _
    unfold series
    rw [sum_range_succ, sum_range_succ, sum_range_succ, sum_range_one]
    beta_reduce
    rw [e1 0 (by omega), e1 1 (by omega), e1 2 (by omega), e1 3 (by omega)]
    rw [show (Ex.vec (β := ℤ) [0, 1, 1, 2]).val 0 0 = 0 from rfl, show (Ex.vec (β := ℤ) [0, 1, 1, 2]).val 0 1 = 1 from rfl,
      show (Ex.vec (β := ℤ) [0, 1, 1, 2]).val 0 2 = 1 from rfl, show (Ex.vec (β := ℤ) [0, 1, 1, 2]).val 0 3 = 2 from rfl,
      show (Ex.vec (β := ℤ) [0, 0, 0, 0]).val 0 0 = 0 from rfl, show (Ex.vec (β := ℤ) [0, 0, 0, 0]).val 0 1 = 0 from rfl,
      show (Ex.vec (β := ℤ) [0, 0, 0, 0]).val 0 2 = 0 from rfl, show (Ex.vec (β := ℤ) [0, 0, 0, 0]).val 0 3 = 0 from rfl]
    simp [onlyIf]
    ring
  have := hq 0 0 Real.pi ((surface (Ex.axi false).inp false js).nu 0 0 - (surface (Ex.axi false).inp false js).nu Real.pi 0) (by
    rw [hx.zetaB, hx.zetaB]
    push_cast
    ring)
  rw [hB, hB] at this
  simp only [Real.cos_pi, mul_zero, Real.cos_zero, Real.cos_two_pi] at this
  linarith

/-- Both parts apply to the axisymmetric example: with helicity (1, 0) harmonics such as (1, 2) vanish, with helicity
(0, 1) a symmetry-breaking harmonic is found. -/
example : (∃ C, ∀ nt nz : ℕ, 1 ≤ nt → 1 ≤ nz →
      let S := surface (Ex.axi true).inp true (selected (Ex.axi true).inp 0)
      |S.quadCos nt nz 2 S.B 1 2| ≤
        C * ((1 / (nt : ℝ)) ^ 3 + (1 / (nz : ℝ)) ^ 3)) ∧
    ∃ (m : ℕ) (n : ℤ) (δ : ℝ), (m : ℤ) * 1 ≠ n * 2 * 0 ∧ 0 < δ := by
  have sel : ∀ asym : Bool, ∀ b < 2, selected (Ex.axi asym).inp b < 2 := fun asym => Ex.selected_lt asym
  have hr := fun asym => Ex.axi_ready asym (M := 1) le_rfl (by norm_num)
  constructor
  · have hd := fun θ ζ => Ex.axi_det true (js := selected (Ex.axi true).inp 0) (sel true 0 (by omega)) θ ζ
    obtain ⟨C, h1, -⟩ := C76_quasisymmetric
      (s := { Ex.axi true with inp := { (Ex.axi true).inp with mboz := (1 : ℕ), nboz := 0 } })
      (d := { Ex.dims true with M := 1, N := 0 }) (hr true) (Ex.axi_periodic true) (Ex.axi_origin true)
      (fun b hb => Ex.axi_regular true (sel true b hb)) (b := 0) (by show 0 < 2; omega) hd (Mh := 1) (Nh := 0) (by simp)
      (axi_quasi (hr true) (Ex.axi_periodic true) (Ex.axi_axisymmetric true) hd)
      (m := 1) (n := 2) (by norm_num) (p := 3) (by omega)
    exact ⟨C, fun nt nz ht hz => (h1 (by show (2 : ℤ) ∣ 2; exact dvd_rfl) nt nz ht hz).1⟩
  · obtain ⟨m, n, δ, h1, h2, -⟩ := C76_detect
      (s := { Ex.axi false with inp := { (Ex.axi false).inp with mboz := (1 : ℕ), nboz := 0 } })
      (d := { Ex.dims false with M := 1, N := 0 }) (hr false) (Ex.axi_periodic false) (Ex.axi_origin false)
      (fun b hb => Ex.axi_regular false (sel false b hb)) (b := 0) (by show 0 < 2; omega)
      (fun θ ζ => Ex.axi_det false (sel false 0 (by omega)) θ ζ) (Mh := 0) (Nh := 1) (by simp)
      (Ex.axi_not_quasi (sel false 0 (by omega)))
    exact ⟨m, n, δ, h1, h2⟩

end Booz
