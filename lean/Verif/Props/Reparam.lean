import Verif.Lemmas.Reparam
import Verif.Props.Translation

/-!
# C79: the result does not depend on the poloidal angle of the input
-/

namespace Booz
open Spec Trapezoid Finset Function

variable {χ : ℝ → ℝ → ℝ}

/-- **C79, the angles.** If two inputs describe the same field on the same surface with different poloidal angles, then
`I` and `G` agree and every position on the surface has the same Boozer angles in both descriptions, up to two constants;
the constants are zero if both inputs are stellarator symmetric and have the same origin. -/
theorem C79_angles {I₁ I₂ : Inputs ℝ} {d₁ d₂ : Dims} (h₁ : RunReady I₁ d₁) (h₂ : RunReady I₂ d₂)
    (hp₁ : FieldPeriodic I₁ d₁.nfp) (hp₂ : FieldPeriodic I₂ d₂.nfp) (ho₁ : OriginOnce I₁) (ho₂ : OriginOnce I₂)
    {j₁ j₂ : ℕ} (hc₁ : NoRadialCurrent I₁ d₁.asym j₁) (hc₂ : NoRadialCurrent I₂ d₂.asym j₂)
    (hf : SameField χ I₁ d₁.asym j₁ I₂ d₂.asym j₂) :
    let S₁ := surface I₁ d₁.asym j₁
    let S₂ := surface I₂ d₂.asym j₂
    S₁.I = S₂.I ∧ S₁.G = S₂.G ∧ ∃ θ₀ ζ₀, AnglesAgree χ θ₀ ζ₀ S₁ S₂ ∧
      (d₁.asym = false → d₂.asym = false → χ 0 0 = 0 → θ₀ = 0 ∧ ζ₀ = 0) := by
  intro S₁ S₂
  obtain ⟨θ₀, ζ₀, r, hz⟩ := reparam_of hf ho₁ ho₂ (by rw [h₁.xm_nyq.1]; exact h₁.mnmax_nyq_ge)
    (by rw [h₂.xm_nyq.1]; exact h₂.mnmax_nyq_ge) hc₁ hc₂ ((surf_per h₁ hp₁ d₁.asym j₁).2.1.torus h₁.nfp_pos)
    ((surf_per h₂ hp₂ d₂.asym j₂).2.1.torus h₂.nfp_pos)
  exact ⟨r.I, r.G, θ₀, ζ₀, r.angles, hz⟩

/-- A coefficient, possibly of a matrix which is not computed, is within `e` of `y`. -/
def NearO (A : Option (Mat ℝ)) (k b : ℕ) (y e : ℝ) : Prop := ∃ x, Coefficient A k b x ∧ |x - y| ≤ e

theorem nearO_some {A : Mat ℝ} {k b : ℕ} {y e e' : ℝ} (h : Near A k b y e) (he : e ≤ e') : NearO (some A) k b y e' := by
  obtain ⟨x, hx, hy⟩ := h
  exact ⟨x, hx, hy.trans he⟩

theorem nearO_if {asym : Bool} {A : Mat ℝ} {k b : ℕ} {y e e' : ℝ} (h : asym = true → Near A k b y e)
    (hz : asym = false → y = 0) (he : e ≤ e') (h0 : 0 ≤ e') : NearO (ifAsym asym A) k b y e' := by
  unfold ifAsym
  cases asym with
  | true => exact nearO_some (h rfl) he
  | false => exact ⟨0, rfl, by rw [hz rfl, sub_zero, abs_zero]; exact h0⟩

theorem rotatedPair_of {A₁ A₂ B₁ B₂ : Option (Mat ℝ)} {k b k' b' : ℕ} {φ δ x y x' y' e : ℝ} (h1 : NearO A₁ k b x e)
    (h2 : NearO A₂ k b y e) (h3 : NearO B₁ k' b' x' e) (h4 : NearO B₂ k' b' y' e)
    (e1 : x' = Real.cos φ * x - Real.sin φ * y + δ) (e2 : y' = Real.cos φ * y + Real.sin φ * x) :
    RotatedPair φ δ A₁ A₂ k b B₁ B₂ k' b' (3 * e) := by
  obtain ⟨X, a1, b1⟩ := h1
  obtain ⟨Y, a2, b2⟩ := h2
  obtain ⟨X', a3, b3⟩ := h3
  obtain ⟨Y', a4, b4⟩ := h4
  have hb : ∀ {u v : ℝ}, |u| ≤ 1 → |v| ≤ e → |u * v| ≤ e := fun hu hv => by
    rw [abs_mul]
    exact (mul_le_of_le_one_left (abs_nonneg _) hu).trans hv
  have c1 := hb (Real.abs_cos_le_one φ) b1
  have c2 := hb (Real.abs_cos_le_one φ) b2
  have c3 := hb (Real.abs_sin_le_one φ) b1
  have c4 := hb (Real.abs_sin_le_one φ) b2
  refine ⟨X, Y, X', Y', a1, a2, a3, a4, ?_, ?_⟩
  · rw [show X' - (Real.cos φ * X - Real.sin φ * Y + δ) = (X' - x') - Real.cos φ * (X - x) + Real.sin φ * (Y - y) by rw [e1]; ring]
    refine (abs_add_le _ _).trans ?_
    have := abs_sub (X' - x') (Real.cos φ * (X - x))
    linarith
  · rw [show Y' - (Real.cos φ * Y + Real.sin φ * X) = (Y' - y') - Real.cos φ * (Y - y) - Real.sin φ * (X - x) by rw [e2]; ring]
    refine (abs_sub _ _).trans ?_
    have := abs_sub (Y' - y') (Real.cos φ * (Y - y))
    linarith

/-- The output flux functions of a run. -/
theorem run_flux {s s' : St ℝ} {d : Dims} {dbg : Bool} {r : List (Report ℝ)} (h : RunReady s.inp d) (ho : OriginOnce s.inp)
    (hr : run dbg s = .ok (s', r)) {b : ℕ} (hb : b < d.nsb) :
    s'.out.boozer_I.rdN b = .ok (surface s.inp d.asym (selected s.inp b)).I ∧
    s'.out.boozer_G.rdN b = .ok (surface s.inp d.asym (selected s.inp b)).G := by
  rw [originFirst_of h ho dbg] at hr
  have e : runSt d s d.nsb = s' := (Prod.ext_iff.1 (Except.ok.inj hr)).1
  obtain ⟨-, -, -, -, -, a2⟩ := C15_flux_functions h ho (originFirst_of h ho false)
  rw [e] at a2
  exact ⟨(a2 b hb).1.trans (h.bsubumnc.rdN 0 h.mnmax_nyq_ge (sel_lt h hb)),
    (a2 b hb).2.trans (h.bsubvmnc.rdN 0 h.mnmax_nyq_ge (sel_lt h hb))⟩

/-- **C79, the outputs.** Under the same conditions, with (θ₀, ζ₀) the constants of `C79_angles`: Boozer I and G of the two
runs are equal, and for every mode and order `p` there is one constant `C` such that, for all resolutions of the two
runs, the harmonics of the mode differ by the rotation by `m θ₀ − n ζ₀` only (and by ζ₀ in the mean of ν), up to `C` times
the sum of the discretisation errors of order `p`. -/
theorem C79_outputs {s₁ s₂ : St ℝ} {d₁ d₂ : Dims} (h₁ : RunReady s₁.inp d₁) (h₂ : RunReady s₂.inp d₂)
    (hp₁ : FieldPeriodic s₁.inp d₁.nfp) (hp₂ : FieldPeriodic s₂.inp d₂.nfp) (ho₁ : OriginOnce s₁.inp) (ho₂ : OriginOnce s₂.inp)
    (hreg₁ : ∀ b < d₁.nsb, (surface s₁.inp d₁.asym (selected s₁.inp b)).Regular)
    (hreg₂ : ∀ b < d₂.nsb, (surface s₂.inp d₂.asym (selected s₂.inp b)).Regular)
    {b₁ b₂ : ℕ} (hb₁ : b₁ < d₁.nsb) (hb₂ : b₂ < d₂.nsb)
    (hc₁ : NoRadialCurrent s₁.inp d₁.asym (selected s₁.inp b₁)) (hc₂ : NoRadialCurrent s₂.inp d₂.asym (selected s₂.inp b₂))
    (hf : SameField χ s₁.inp d₁.asym (selected s₁.inp b₁) s₂.inp d₂.asym (selected s₂.inp b₂))
    {θ₀ ζ₀ : ℝ} (hang : AnglesAgree χ θ₀ ζ₀ (surface s₁.inp d₁.asym (selected s₁.inp b₁))
      (surface s₂.inp d₂.asym (selected s₂.inp b₂)))
    (m n : ℤ) {p : ℕ} (hp : 1 ≤ p) :
    ∃ C, ∀ (M₁ N₁ M₂ N₂ : ℕ) (t₁ t₂ : St ℝ) (dbg : Bool),
      t₁.inp = { s₁.inp with mboz := M₁, nboz := N₁ } → RunReady t₁.inp { d₁ with M := M₁, N := N₁ } →
      t₂.inp = { s₂.inp with mboz := M₂, nboz := N₂ } → RunReady t₂.inp { d₂ with M := M₂, N := N₂ } →
      ∃ u₁ r₁ u₂ r₂, run dbg t₁ = .ok (u₁, r₁) ∧ run dbg t₂ = .ok (u₂, r₂) ∧
        (∃ x y, u₁.out.boozer_I.rdN b₁ = .ok x ∧ u₂.out.boozer_I.rdN b₂ = .ok x ∧
          u₁.out.boozer_G.rdN b₁ = .ok y ∧ u₂.out.boozer_G.rdN b₂ = .ok y) ∧
        ∀ k₁ < numModes M₁ N₁, ∀ k₂ < numModes M₂ N₂,
          u₁.out.xm_b.rdN k₁ = .ok m → u₁.out.xn_b.rdN k₁ = .ok n → u₂.out.xm_b.rdN k₂ = .ok m → u₂.out.xn_b.rdN k₂ = .ok n →
          RotatedSpectra (m * θ₀ - n * ζ₀) (if m = 0 ∧ n = 0 then ζ₀ else 0) u₂.out d₂.asym k₂ b₂ u₁.out d₁.asym k₁ b₁
            (C * (gridError M₁ N₁ p + gridError M₂ N₂ p)) := by
  obtain ⟨eI, eG, -⟩ := C79_angles h₁ h₂ hp₁ hp₂ ho₁ ho₂ hc₁ hc₂ hf
  obtain ⟨C1, -, g1⟩ := C52_convergence h₁ hp₁ ho₁ hreg₁ m n hp
  obtain ⟨C2, -, g2⟩ := C52_convergence h₂ hp₂ ho₂ hreg₂ m n hp
  set C := max 0 (max C1 C2) with hC
  refine ⟨3 * C, fun M₁ N₁ M₂ N₂ t₁ t₂ dbg e₁ hr₁ e₂ hr₂ => ?_⟩
  obtain ⟨u₁, r₁, ok₁, H₁⟩ := g1 M₁ N₁ t₁ dbg e₁ hr₁
  obtain ⟨u₂, r₂, ok₂, H₂⟩ := g2 M₂ N₂ t₂ dbg e₂ hr₂
  have ho₁' : OriginOnce t₁.inp := by rw [e₁]; exact ho₁
  have ho₂' : OriginOnce t₂.inp := by rw [e₂]; exact ho₂
  refine ⟨u₁, r₁, u₂, r₂, ok₁, ok₂, ?_, fun k₁ hk₁ k₂ hk₂ hm₁ hn₁ hm₂ hn₂ => ?_⟩
  · obtain ⟨i1, i2⟩ := run_flux hr₁ ho₁' ok₁ hb₁
    obtain ⟨i3, i4⟩ := run_flux hr₂ ho₂' ok₂ hb₂
    refine ⟨_, _, i1, ?_, i2, ?_⟩
    · rw [i3, e₁, e₂]
      exact congrArg Except.ok eI.symm
    · rw [i4, e₁, e₂]
      exact congrArg Except.ok eG.symm
  have dv₁ : (d₁.nfp : ℤ) ∣ n := by
    have x := hn₁.symm.trans (run_modes hr₁ ho₁' ok₁ hk₁).2
    injection x with x
    rw [x]
    exact dvd_mul_left _ _
  have dv₂ : (d₂.nfp : ℤ) ∣ n := by
    have x := hn₂.symm.trans (run_modes hr₂ ho₂' ok₂ hk₂).2
    injection x with x
    rw [x]
    exact dvd_mul_left _ _
  have a := H₁ b₁ hb₁ k₁ hk₁ hm₁ hn₁
  have c := H₂ b₂ hb₂ k₂ hk₂ hm₂ hn₂
  have z₁ := fun ha : d₁.asym = false => integral_parity h₁ hp₁ ho₁ hreg₁ ha hb₁ m dv₁
  have z₂ := fun ha : d₂.asym = false => integral_parity h₂ hp₂ ho₂ hreg₂ ha hb₂ m dv₂
  set S₁ := surface s₁.inp d₁.asym (selected s₁.inp b₁)
  set S₂ := surface s₂.inp d₂.asym (selected s₂.inp b₂)
  have r : Reparam χ θ₀ ζ₀ S₁ S₂ := ⟨hf.smooth, hf.periodic, hf.iota, eI, eG, hang, hf.R, hf.Z, hf.B⟩
  obtain ⟨pl, pw, pR, pZ, pB⟩ := surf_per h₂ hp₂ d₂.asym (selected s₂.inp b₂)
  have sm := smooth_surface s₂.inp d₂.asym (selected s₂.inp b₂)
  have hn1 := h₂.nfp_pos
  obtain ⟨B1, B2⟩ := r.integral hn1 sm pl pw pB sm.B r.B m dv₂
  obtain ⟨R1, R2⟩ := r.integral hn1 sm pl pw pR sm.R r.R m dv₂
  obtain ⟨Z1, Z2⟩ := r.integral hn1 sm pl pw pZ sm.Z r.Z m dv₂
  obtain ⟨J1, J2⟩ := r.integral hn1 sm pl pw (jac_per pB) (sm.jacobian (hreg₂ b₂ hb₂).2) r.jacobian m dv₂
  have pn := nu_per pl pw
  obtain ⟨n1, n2⟩ := r.integral hn1 sm pl pw (q₁ := S₁.nu) (q₂ := fun θ ζ => S₂.nu θ ζ + ζ₀)
    ⟨fun θ ζ => congrArg (· + ζ₀) (pn.1 θ ζ), fun θ ζ => congrArg (· + ζ₀) (pn.2 θ ζ)⟩ (ContDiff.add sm.nu contDiff_const) r.nu m dv₂
  obtain ⟨n3, n4⟩ := integral_add_const hn1 sm pl pw sm.nu ζ₀ m n
  rw [n3, n4] at n1 n2
  have n1' : S₁.integralCos S₁.nu m n = Real.cos (m * θ₀ - n * ζ₀) * S₂.integralCos S₂.nu m n -
      Real.sin (m * θ₀ - n * ζ₀) * S₂.integralSin S₂.nu m n + (if m = 0 ∧ n = 0 then ζ₀ else 0) := by
    rw [n1]
    split
    · next hmn =>
      rw [hmn.1, hmn.2]
      simp
      rfl
    · ring
  have n2' : S₁.integralSin S₁.nu m n = Real.cos (m * θ₀ - n * ζ₀) * S₂.integralSin S₂.nu m n +
      Real.sin (m * θ₀ - n * ζ₀) * S₂.integralCos S₂.nu m n := by
    rw [n2]
    split
    · next hmn =>
      rw [hmn.1, hmn.2]
      simp
      rfl
    · ring
  have G1 : (0 : ℝ) ≤ gridError M₁ N₁ p := by unfold gridError; positivity
  have G2 : (0 : ℝ) ≤ gridError M₂ N₂ p := by unfold gridError; positivity
  have C0 : 0 ≤ C := le_max_left _ _
  have up1 : C1 * gridError M₁ N₁ p ≤ C * (gridError M₁ N₁ p + gridError M₂ N₂ p) := by
    have : C1 ≤ C := (le_max_left _ _).trans (le_max_right _ _)
    have := mul_le_mul_of_nonneg_right this G1
    have := mul_nonneg C0 G2
    linarith
  have up2 : C2 * gridError M₂ N₂ p ≤ C * (gridError M₁ N₁ p + gridError M₂ N₂ p) := by
    have : C2 ≤ C := (le_max_right _ _).trans (le_max_right _ _)
    have := mul_le_mul_of_nonneg_right this G2
    have := mul_nonneg C0 G1
    linarith
  have E0 : 0 ≤ C * (gridError M₁ N₁ p + gridError M₂ N₂ p) := mul_nonneg C0 (add_nonneg G1 G2)
  rw [mul_assoc]
  exact
    ⟨rotatedPair_of (nearO_some c.bmnc up2) (nearO_if c.bmns (fun ha => (z₂ ha).1) up2 E0)
      (nearO_some a.bmnc up1) (nearO_if a.bmns (fun ha => (z₁ ha).1) up1 E0) (by rw [add_zero]; exact B1) B2,
    rotatedPair_of (nearO_some c.rmnc up2) (nearO_if c.rmns (fun ha => (z₂ ha).2.1) up2 E0)
      (nearO_some a.rmnc up1) (nearO_if a.rmns (fun ha => (z₁ ha).2.1) up1 E0) (by rw [add_zero]; exact R1) R2,
    rotatedPair_of (nearO_if c.zmnc (fun ha => (z₂ ha).2.2.1) up2 E0) (nearO_some c.zmns up2)
      (nearO_if a.zmnc (fun ha => (z₁ ha).2.2.1) up1 E0) (nearO_some a.zmns up1) (by rw [add_zero]; exact Z1) Z2,
    rotatedPair_of (nearO_if c.numnc (fun ha => (z₂ ha).2.2.2.1) up2 E0) (nearO_some c.numns up2)
      (nearO_if a.numnc (fun ha => (z₁ ha).2.2.2.1) up1 E0) (nearO_some a.numns up1) n1' n2',
    rotatedPair_of (nearO_some c.gmnc up2) (nearO_if c.gmns (fun ha => (z₂ ha).2.2.2.2) up2 E0)
      (nearO_some a.gmnc up1) (nearO_if a.gmns (fun ha => (z₁ ha).2.2.2.2) up1 E0) (by rw [add_zero]; exact J1) J2⟩

/-- **C79, stellarator symmetry.** If both inputs are stellarator symmetric with the same origin, every harmonic computed by
the one run is that computed by the other, up to the discretisation errors of the two runs. -/
theorem C79_symmetric {s₁ s₂ : St ℝ} {d₁ d₂ : Dims} (h₁ : RunReady s₁.inp d₁) (h₂ : RunReady s₂.inp d₂)
    (hp₁ : FieldPeriodic s₁.inp d₁.nfp) (hp₂ : FieldPeriodic s₂.inp d₂.nfp) (ho₁ : OriginOnce s₁.inp) (ho₂ : OriginOnce s₂.inp)
    (hreg₁ : ∀ b < d₁.nsb, (surface s₁.inp d₁.asym (selected s₁.inp b)).Regular)
    (hreg₂ : ∀ b < d₂.nsb, (surface s₂.inp d₂.asym (selected s₂.inp b)).Regular)
    (ha₁ : d₁.asym = false) (ha₂ : d₂.asym = false)
    {b₁ b₂ : ℕ} (hb₁ : b₁ < d₁.nsb) (hb₂ : b₂ < d₂.nsb)
    (hc₁ : NoRadialCurrent s₁.inp d₁.asym (selected s₁.inp b₁)) (hc₂ : NoRadialCurrent s₂.inp d₂.asym (selected s₂.inp b₂))
    (hf : SameField χ s₁.inp d₁.asym (selected s₁.inp b₁) s₂.inp d₂.asym (selected s₂.inp b₂)) (hχ : χ 0 0 = 0)
    (m n : ℤ) {p : ℕ} (hp : 1 ≤ p) :
    ∃ C, ∀ (M₁ N₁ M₂ N₂ : ℕ) (t₁ t₂ : St ℝ) (dbg : Bool),
      t₁.inp = { s₁.inp with mboz := M₁, nboz := N₁ } → RunReady t₁.inp { d₁ with M := M₁, N := N₁ } →
      t₂.inp = { s₂.inp with mboz := M₂, nboz := N₂ } → RunReady t₂.inp { d₂ with M := M₂, N := N₂ } →
      ∃ u₁ r₁ u₂ r₂, run dbg t₁ = .ok (u₁, r₁) ∧ run dbg t₂ = .ok (u₂, r₂) ∧
        ∀ k₁ < numModes M₁ N₁, ∀ k₂ < numModes M₂ N₂,
          u₁.out.xm_b.rdN k₁ = .ok m → u₁.out.xn_b.rdN k₁ = .ok n → u₂.out.xm_b.rdN k₂ = .ok m → u₂.out.xn_b.rdN k₂ = .ok n →
          ∀ (i : ℕ) (A₁ A₂ : Mat ℝ), (amplitudes u₁.out false)[i]? = some A₁ → (amplitudes u₂.out false)[i]? = some A₂ →
            ∃ x y, A₁.rdN k₁ b₁ = .ok x ∧ A₂.rdN k₂ b₂ = .ok y ∧
              |x - y| ≤ C * (gridError M₁ N₁ p + gridError M₂ N₂ p) := by
  obtain ⟨-, -, θ₀, ζ₀, hang, hz⟩ := C79_angles h₁ h₂ hp₁ hp₂ ho₁ ho₂ hc₁ hc₂ hf
  obtain ⟨rfl, rfl⟩ := hz ha₁ ha₂ hχ
  obtain ⟨C, H⟩ := C79_outputs h₁ h₂ hp₁ hp₂ ho₁ ho₂ hreg₁ hreg₂ hb₁ hb₂ hc₁ hc₂ hf hang m n hp
  refine ⟨C, fun M₁ N₁ M₂ N₂ t₁ t₂ dbg e₁ hr₁ e₂ hr₂ => ?_⟩
  obtain ⟨u₁, r₁, u₂, r₂, ok₁, ok₂, -, K⟩ := H M₁ N₁ M₂ N₂ t₁ t₂ dbg e₁ hr₁ e₂ hr₂
  refine ⟨u₁, r₁, u₂, r₂, ok₁, ok₂, fun k₁ hk₁ k₂ hk₂ m₁ n₁ m₂ n₂ => ?_⟩
  have R := K k₁ hk₁ k₂ hk₂ m₁ n₁ m₂ n₂
  rw [ha₁, ha₂] at R
  have e0 : (m : ℝ) * 0 - n * 0 = 0 := by ring
  rw [e0, ite_self] at R
  generalize C * (gridError M₁ N₁ p + gridError M₂ N₂ p) = E at R ⊢
  have cosP : ∀ {A A' : Mat ℝ} {Y Y' : Option (Mat ℝ)}, RotatedPair 0 0 (some A) Y k₂ b₂ (some A') Y' k₁ b₁ E →
      ∃ x y, A'.rdN k₁ b₁ = .ok x ∧ A.rdN k₂ b₂ = .ok y ∧ |x - y| ≤ E := by
    rintro A A' Y Y' ⟨x, y, x', y', a, -, c, -, d, -⟩
    rw [Real.cos_zero, Real.sin_zero] at d
    exact ⟨x', x, c, a, by rwa [show x' - (1 * x - 0 * y + 0) = x' - x by ring] at d⟩
  have sinP : ∀ {A A' : Mat ℝ} {Y Y' : Option (Mat ℝ)}, RotatedPair 0 0 Y (some A) k₂ b₂ Y' (some A') k₁ b₁ E →
      ∃ x y, A'.rdN k₁ b₁ = .ok x ∧ A.rdN k₂ b₂ = .ok y ∧ |x - y| ≤ E := by
    rintro A A' Y Y' ⟨x, y, x', y', -, a, -, c, -, d⟩
    rw [Real.cos_zero, Real.sin_zero] at d
    exact ⟨y', y, c, a, by rwa [show y' - (1 * y + 0 * x) = y' - y by ring] at d⟩
  intro i A₁ A₂ hi₁ hi₂
  match i, hi₁, hi₂ with
  | 0, hi₁, hi₂ => injection hi₁ with hi₁; injection hi₂ with hi₂; rw [← hi₁, ← hi₂]; exact cosP R.B
  | 1, hi₁, hi₂ => injection hi₁ with hi₁; injection hi₂ with hi₂; rw [← hi₁, ← hi₂]; exact cosP R.R
  | 2, hi₁, hi₂ => injection hi₁ with hi₁; injection hi₂ with hi₂; rw [← hi₁, ← hi₂]; exact sinP R.Z
  | 3, hi₁, hi₂ => injection hi₁ with hi₁; injection hi₂ with hi₂; rw [← hi₁, ← hi₂]; exact sinP R.nu
  | 4, hi₁, hi₂ => injection hi₁ with hi₁; injection hi₂ with hi₂; rw [← hi₁, ← hi₂]; exact cosP R.jacobian

/-! ### Non-vacuity -/

/-- One field in a family of poloidal angles: the angle of the description with the parameter 0 is θ + ε sin(θ + 2ζ). -/
noncomputable def Ex.polar (asym : Bool) (ε : ℝ) : St ℝ :=
  { Ex.gentle asym with inp := { (Ex.gentle asym).inp with
      xn_nyq := Ex.vec [0, 2, -2, -2]
      lmns := Mat.tab 3 2 fun k _ => if k = 2 then ε else 0
      lmnc := Mat.tab 3 2 fun _ _ => 0
      rmnc := Mat.tab 3 2 fun k _ => if k = 0 then 10 else if k = 1 then 1 else 0
      rmns := Mat.tab 3 2 fun k _ => if k = 1 then 1 else 0
      zmns := Mat.tab 3 2 fun k _ => if k = 1 then 1 else 0
      zmnc := Mat.tab 3 2 fun k _ => if k = 1 then 2 else 0
      bmnc := Mat.tab 4 2 fun k _ => if k = 0 then 3 else if k = 1 then 1 else 0
      bmns := Mat.tab 4 2 fun k _ => if k = 1 then 1 else 0
      bsubumnc := Mat.tab 4 2 fun k _ => if k = 0 then 1 else if k = 2 then ε else 0
      bsubvmnc := Mat.tab 4 2 fun k _ => if k = 0 then 20 else if k = 1 then 1 else if k = 2 then 2 * ε else 0
      bsubumns := Mat.tab 4 2 fun _ _ => 0
      bsubvmns := Mat.tab 4 2 fun _ _ => 0 } }

theorem Ex.polar_ready_res (asym : Bool) (ε : ℝ) {M N : ℕ} (hM : 1 ≤ M) (hf : (4 * M + 2) * (4 * N + 2) < 2 ^ 30) :
    RunReady { (Ex.polar asym ε).inp with mboz := M, nboz := N } { Ex.dims asym with M := M, N := N } :=
  { Ex.gentle_ready_res asym hM hf with
    xn_nyq := Ex.full_vec _
    xn_nyq_range := (by decide : ∀ k, k < 4 → (Vec.val 0 (Ex.vec (β := ℤ) [0, 2, -2, -2]) k).natAbs / 2 ≤ 1)
    xn_nyq_int := (by decide : ∀ k, k < 4 → (Vec.val 0 (Ex.vec (β := ℤ) [0, 2, -2, -2]) k).natAbs < 2147483648)
    lmns := Mat.full_tab 3 2 _
    lmnc := fun _ => Mat.full_tab 3 2 _
    rmnc := Mat.full_tab 3 2 _
    rmns := fun _ => Mat.full_tab 3 2 _
    zmns := Mat.full_tab 3 2 _
    zmnc := fun _ => Mat.full_tab 3 2 _
    bmnc := Mat.full_tab 4 2 _
    bmns := fun _ => Mat.full_tab 4 2 _
    bsubumnc := Mat.full_tab 4 2 _
    bsubvmnc := Mat.full_tab 4 2 _
    bsubumns := fun _ => Mat.full_tab 4 2 _
    bsubvmns := fun _ => Mat.full_tab 4 2 _ }

theorem Ex.polar_ready (asym : Bool) (ε : ℝ) : RunReady (Ex.polar asym ε).inp (Ex.dims asym) :=
  Ex.polar_ready_res asym ε (M := 2) (N := 1) (by decide) (by decide)

theorem Ex.polar_periodic (asym : Bool) (ε : ℝ) : FieldPeriodic (Ex.polar asym ε).inp 2 :=
  ⟨(by decide : ∀ k < 3, (2 : ℤ) ∣ Vec.val 0 (Ex.vec (β := ℤ) [0, 2, -2]) k),
   (by decide : ∀ k < 4, (2 : ℤ) ∣ Vec.val 0 (Ex.vec (β := ℤ) [0, 2, -2, -2]) k)⟩

theorem Ex.polar_origin (asym : Bool) (ε : ℝ) : OriginOnce (Ex.polar asym ε).inp :=
  (by decide : ∀ k < 4, (Vec.val 0 (Ex.vec (β := ℤ) [0, 0, 1, 2]) k = 0 ∧
    Vec.val 0 (Ex.vec (β := ℤ) [0, 2, -2, -2]) k = 0) ↔ k = 0)

theorem series4 {m n : ℕ → ℤ} {c s : ℕ → ℝ} (θ ζ : ℝ) : series 4 m n c s θ ζ = series 3 m n c s θ ζ +
    (c 3 * Real.cos (m 3 * θ - n 3 * ζ) + s 3 * Real.sin (m 3 * θ - n 3 * ζ)) := sum_range_succ _ _

/-- A series with the first two modes (0,0), (0,2) and a third (1,-2). -/
theorem series_polar {m n : ℕ → ℤ} {c s : ℕ → ℝ} (m0 : m 0 = 0) (m1 : m 1 = 0) (m2 : m 2 = 1) (n0 : n 0 = 0) (n1 : n 1 = 2)
    (n2 : n 2 = -2) (θ ζ : ℝ) : series 3 m n c s θ ζ = c 0 + (c 1 * Real.cos (2 * ζ) - s 1 * Real.sin (2 * ζ)) +
      (c 2 * Real.cos (θ + 2 * ζ) + s 2 * Real.sin (θ + 2 * ζ)) := by
  unfold series
  rw [sum_range_succ, sum_range_succ, sum_range_succ, sum_range_zero, m0, m1, m2, n0, n1, n2]
  have e1 : ((0 : ℤ) : ℝ) * θ - ((2 : ℤ) : ℝ) * ζ = -(2 * ζ) := by push_cast; ring
  have e2 : ((1 : ℤ) : ℝ) * θ - ((-2 : ℤ) : ℝ) * ζ = θ + 2 * ζ := by push_cast; ring
  have e0 : ((0 : ℤ) : ℝ) * θ - ((0 : ℤ) : ℝ) * ζ = 0 := by push_cast; ring
  rw [e0, e1, e2, Real.cos_neg, Real.sin_neg, Real.cos_zero, Real.sin_zero]
  ring

theorem Ex.polar3 (c s : ℕ → ℝ) (θ ζ : ℝ) :
    series 3 ((Ex.vec (β := ℤ) [0, 0, 1]).val 0) ((Ex.vec (β := ℤ) [0, 2, -2]).val 0) c s θ ζ =
      c 0 + (c 1 * Real.cos (2 * ζ) - s 1 * Real.sin (2 * ζ)) + (c 2 * Real.cos (θ + 2 * ζ) + s 2 * Real.sin (θ + 2 * ζ)) :=
  series_polar (m := (Ex.vec (β := ℤ) [0, 0, 1]).val 0) (n := (Ex.vec (β := ℤ) [0, 2, -2]).val 0) rfl rfl rfl rfl rfl rfl θ ζ

theorem Ex.polar4 (c s : ℕ → ℝ) (hc : c 3 = 0) (hs : s 3 = 0) (θ ζ : ℝ) :
    series 4 ((Ex.vec (β := ℤ) [0, 0, 1, 2]).val 0) ((Ex.vec (β := ℤ) [0, 2, -2, -2]).val 0) c s θ ζ =
      c 0 + (c 1 * Real.cos (2 * ζ) - s 1 * Real.sin (2 * ζ)) + (c 2 * Real.cos (θ + 2 * ζ) + s 2 * Real.sin (θ + 2 * ζ)) := by
  rw [series4, hc, hs, zero_mul, zero_mul, add_zero, add_zero]
  exact series_polar (m := (Ex.vec (β := ℤ) [0, 0, 1, 2]).val 0) (n := (Ex.vec (β := ℤ) [0, 2, -2, -2]).val 0) rfl rfl rfl rfl rfl rfl θ ζ

theorem onlyIf_of_zero {asym : Bool} {x : ℝ} (h : x = 0) : onlyIf asym x = 0 := by
  rw [h]; unfold onlyIf; split <;> rfl

section
variable (asym : Bool) (ε : ℝ) {js : ℕ} (hj : js < 2) (θ ζ : ℝ)
include hj

theorem Ex.polar_lam : (surface (Ex.polar asym ε).inp asym js).lam θ ζ = ε * Real.sin (θ + 2 * ζ) := by
  have v : ∀ k < 3, entry (Ex.polar asym ε).inp.lmns k js = if k = 2 then ε else 0 := fun k hk => Mat.val_tab hk hj
  have u : ∀ k < 3, entry (Ex.polar asym ε).inp.lmnc k js = 0 := fun k hk => Mat.val_tab hk hj
  refine (Ex.polar3 (fun k => onlyIf asym (entry (Ex.polar asym ε).inp.lmnc k js))
    (fun k => entry (Ex.polar asym ε).inp.lmns k js) θ ζ).trans ?_
  rw [onlyIf_of_zero (u 0 (by omega)), onlyIf_of_zero (u 1 (by omega)), onlyIf_of_zero (u 2 (by omega)), v 1 (by omega),
    v 2 (by omega)]
  simp

theorem Ex.polar_R : (surface (Ex.polar asym ε).inp asym js).R θ ζ =
    10 + (Real.cos (2 * ζ) - onlyIf asym 1 * Real.sin (2 * ζ)) := by
  have v : ∀ k < 3, entry (Ex.polar asym ε).inp.rmnc k js = if k = 0 then 10 else if k = 1 then 1 else 0 :=
    fun k hk => Mat.val_tab hk hj
  have u : ∀ k < 3, entry (Ex.polar asym ε).inp.rmns k js = if k = 1 then 1 else 0 := fun k hk => Mat.val_tab hk hj
  refine (Ex.polar3 (fun k => entry (Ex.polar asym ε).inp.rmnc k js)
    (fun k => onlyIf asym (entry (Ex.polar asym ε).inp.rmns k js)) θ ζ).trans ?_
  rw [u 1 (by omega), onlyIf_of_zero ((u 2 (by omega)).trans (by simp)), v 0 (by omega), v 1 (by omega), v 2 (by omega)]
  simp

theorem Ex.polar_Z : (surface (Ex.polar asym ε).inp asym js).Z θ ζ = onlyIf asym 2 * Real.cos (2 * ζ) - Real.sin (2 * ζ) := by
  have v : ∀ k < 3, entry (Ex.polar asym ε).inp.zmns k js = if k = 1 then 1 else 0 := fun k hk => Mat.val_tab hk hj
  have u : ∀ k < 3, entry (Ex.polar asym ε).inp.zmnc k js = if k = 1 then 2 else 0 := fun k hk => Mat.val_tab hk hj
  refine (Ex.polar3 (fun k => onlyIf asym (entry (Ex.polar asym ε).inp.zmnc k js))
    (fun k => entry (Ex.polar asym ε).inp.zmns k js) θ ζ).trans ?_
  rw [onlyIf_of_zero ((u 0 (by omega)).trans (by simp)), u 1 (by omega), onlyIf_of_zero ((u 2 (by omega)).trans (by simp)),
    v 1 (by omega), v 2 (by omega)]
  simp

theorem Ex.polar_B : (surface (Ex.polar asym ε).inp asym js).B θ ζ =
    3 + (Real.cos (2 * ζ) - onlyIf asym 1 * Real.sin (2 * ζ)) := by
  have v : ∀ k < 4, entry (Ex.polar asym ε).inp.bmnc k js = if k = 0 then 3 else if k = 1 then 1 else 0 :=
    fun k hk => Mat.val_tab hk hj
  have u : ∀ k < 4, entry (Ex.polar asym ε).inp.bmns k js = if k = 1 then 1 else 0 := fun k hk => Mat.val_tab hk hj
  refine (Ex.polar4 (fun k => entry (Ex.polar asym ε).inp.bmnc k js)
    (fun k => onlyIf asym (entry (Ex.polar asym ε).inp.bmns k js)) ((v 3 (by omega)).trans (by simp)) (onlyIf_of_zero ((u 3 (by omega)).trans (by simp))) θ ζ).trans ?_
  rw [u 1 (by omega), onlyIf_of_zero ((u 2 (by omega)).trans (by simp)),
    v 0 (by omega), v 1 (by omega), v 2 (by omega)]
  simp

theorem Ex.polar_bTheta : bTheta (Ex.polar asym ε).inp asym js θ ζ = 1 + ε * Real.cos (θ + 2 * ζ) := by
  have v : ∀ k < 4, entry (Ex.polar asym ε).inp.bsubumnc k js = if k = 0 then 1 else if k = 2 then ε else 0 :=
    fun k hk => Mat.val_tab hk hj
  have u : ∀ k < 4, entry (Ex.polar asym ε).inp.bsubumns k js = 0 := fun k hk => Mat.val_tab hk hj
  refine (Ex.polar4 (fun k => entry (Ex.polar asym ε).inp.bsubumnc k js)
    (fun k => onlyIf asym (entry (Ex.polar asym ε).inp.bsubumns k js)) ((v 3 (by omega)).trans (by simp)) (onlyIf_of_zero (u 3 (by omega))) θ ζ).trans ?_
  rw [onlyIf_of_zero (u 1 (by omega)), onlyIf_of_zero (u 2 (by omega)),
    v 0 (by omega), v 1 (by omega), v 2 (by omega)]
  simp

theorem Ex.polar_bZeta : bZeta (Ex.polar asym ε).inp asym js θ ζ =
    20 + Real.cos (2 * ζ) + 2 * ε * Real.cos (θ + 2 * ζ) := by
  have v : ∀ k < 4, entry (Ex.polar asym ε).inp.bsubvmnc k js =
    if k = 0 then 20 else if k = 1 then 1 else if k = 2 then 2 * ε else 0 := fun k hk => Mat.val_tab hk hj
  have u : ∀ k < 4, entry (Ex.polar asym ε).inp.bsubvmns k js = 0 := fun k hk => Mat.val_tab hk hj
  refine (Ex.polar4 (fun k => entry (Ex.polar asym ε).inp.bsubvmnc k js)
    (fun k => onlyIf asym (entry (Ex.polar asym ε).inp.bsubvmns k js)) ((v 3 (by omega)).trans (by simp)) (onlyIf_of_zero (u 3 (by omega))) θ ζ).trans ?_
  rw [onlyIf_of_zero (u 1 (by omega)), onlyIf_of_zero (u 2 (by omega)),
    v 0 (by omega), v 1 (by omega), v 2 (by omega)]
  simp

omit θ ζ in
theorem Ex.polar_noCurrent : NoRadialCurrent (Ex.polar asym ε).inp asym js := by
  have v : ∀ k < 4, entry (Ex.polar asym ε).inp.bsubumnc k js = if k = 0 then 1 else if k = 2 then ε else 0 :=
    fun k hk => Mat.val_tab hk hj
  have v' : ∀ k < 4, entry (Ex.polar asym ε).inp.bsubvmnc k js =
    if k = 0 then 20 else if k = 1 then 1 else if k = 2 then 2 * ε else 0 := fun k hk => Mat.val_tab hk hj
  have u : ∀ k < 4, entry (Ex.polar asym ε).inp.bsubumns k js = 0 := fun k hk => Mat.val_tab hk hj
  have u' : ∀ k < 4, entry (Ex.polar asym ε).inp.bsubvmns k js = 0 := fun k hk => Mat.val_tab hk hj
  intro k hk
  replace hk : k < 4 := hk
  rw [u k hk, u' k hk, v k hk, v' k hk]
  refine ⟨?_, fun _ => by ring⟩
  show (((Ex.vec (β := ℤ) [0, 0, 1, 2]).val 0 k : ℤ) : ℝ) * _ = -((((Ex.vec (β := ℤ) [0, 2, -2, -2]).val 0 k : ℤ) : ℝ) * _)
  have c4 : k = 0 ∨ k = 1 ∨ k = 2 ∨ k = 3 := by omega
  rcases c4 with rfl | rfl | rfl | rfl
  · rw [show (Ex.vec (β := ℤ) [0, 0, 1, 2]).val 0 0 = 0 from rfl, show (Ex.vec (β := ℤ) [0, 2, -2, -2]).val 0 0 = 0 from rfl]
    simp
  · rw [show (Ex.vec (β := ℤ) [0, 0, 1, 2]).val 0 1 = 0 from rfl, show (Ex.vec (β := ℤ) [0, 2, -2, -2]).val 0 1 = 2 from rfl]
    simp
  · rw [show (Ex.vec (β := ℤ) [0, 0, 1, 2]).val 0 2 = 1 from rfl, show (Ex.vec (β := ℤ) [0, 2, -2, -2]).val 0 2 = -2 from rfl]
    simp
  · rw [show (Ex.vec (β := ℤ) [0, 0, 1, 2]).val 0 3 = 2 from rfl, show (Ex.vec (β := ℤ) [0, 2, -2, -2]).val 0 3 = -2 from rfl]
    simp

omit θ ζ in
theorem Ex.polar_regular : (surface (Ex.polar asym ε).inp asym js).Regular := by
  have e1 : (surface (Ex.polar asym ε).inp asym js).G = 20 := (Mat.val_tab (by decide) hj).trans (by simp)
  have e2 : (surface (Ex.polar asym ε).inp asym js).I = 1 := (Mat.val_tab (by decide) hj).trans (by simp)
  have e3 : (surface (Ex.polar asym ε).inp asym js).iota = (js : ℝ) + 1 := (Ex.gentle_consts asym hj).2.2
  constructor
  · rw [e1, e2, e3]
    positivity
  · intro θ ζ
    rw [Ex.polar_B asym ε hj]
    have h1 := Real.neg_one_le_cos (2 * ζ)
    have h2 := Real.sin_le_one (2 * ζ)
    unfold onlyIf
    split <;> linarith

omit θ ζ in
/-- The two descriptions are of the same field. -/
theorem Ex.polar_same : SameField (fun θ ζ => ε * Real.sin (θ + 2 * ζ)) (Ex.polar asym ε).inp asym js
    (Ex.polar asym 0).inp asym js := by
  have d1 : ∀ θ ζ : ℝ, deriv (fun t => ε * Real.sin (t + 2 * ζ)) θ = ε * Real.cos (θ + 2 * ζ) := fun θ ζ => by
    have : HasDerivAt (fun t => ε * Real.sin (t + 2 * ζ)) (ε * (Real.cos (θ + 2 * ζ) * 1)) θ :=
      (((hasDerivAt_id θ).add_const (2 * ζ)).sin).const_mul ε
    rw [this.deriv, mul_one]
  have d2 : ∀ θ ζ : ℝ, deriv (fun z => ε * Real.sin (θ + 2 * z)) ζ = 2 * ε * Real.cos (θ + 2 * ζ) := fun θ ζ => by
    have : HasDerivAt (fun z => ε * Real.sin (θ + 2 * z)) (ε * (Real.cos (θ + 2 * ζ) * (2 * 1))) ζ :=
      ((((hasDerivAt_id ζ).const_mul 2).const_add θ).sin).const_mul ε
    rw [this.deriv]
    ring
  refine ⟨?_, ⟨fun t z => ?_, fun t z => ?_⟩, rfl, ⟨0, fun θ ζ => ?_⟩, fun θ ζ => ?_, fun θ ζ => ?_, fun θ ζ => ?_, fun θ ζ => ?_,
    fun θ ζ => ?_⟩
  · show ContDiff ℝ _ fun x : ℝ × ℝ => ε * Real.sin (x.1 + 2 * x.2)
    exact contDiff_const.mul (Real.contDiff_sin.comp (by fun_prop))
  · show ε * Real.sin (t + 2 * Real.pi + 2 * z) = ε * Real.sin (t + 2 * z)
    rw [add_right_comm, Real.sin_add_two_pi]
  · show ε * Real.sin (t + 2 * (z + 2 * Real.pi)) = ε * Real.sin (t + 2 * z)
    rw [show t + 2 * (z + 2 * Real.pi) = t + 2 * z + 2 * Real.pi + 2 * Real.pi by ring, Real.sin_add_two_pi, Real.sin_add_two_pi]
  · rw [Ex.polar_lam asym ε hj, Ex.polar_lam asym 0 hj]
    ring
  · rw [Ex.polar_R asym ε hj, Ex.polar_R asym 0 hj]
  · rw [Ex.polar_Z asym ε hj, Ex.polar_Z asym 0 hj]
  · rw [Ex.polar_B asym ε hj, Ex.polar_B asym 0 hj]
  · rw [Ex.polar_bTheta asym ε hj, Ex.polar_bTheta asym 0 hj, d1]
    ring
  · rw [Ex.polar_bZeta asym ε hj, Ex.polar_bZeta asym 0 hj, Ex.polar_bTheta asym 0 hj, d2]
    ring

end

theorem Ex.polar_sel (asym : Bool) (ε : ℝ) (b : ℕ) (hb : b < 2) : selected (Ex.polar asym ε).inp b < 2 := Ex.selected_lt asym b hb

example (asym : Bool) (ε : ℝ) : ∃ θ₀ ζ₀, AnglesAgree (fun θ ζ => ε * Real.sin (θ + 2 * ζ)) θ₀ ζ₀
    (surface (Ex.polar asym ε).inp asym 0) (surface (Ex.polar asym 0).inp asym 0) := by
  obtain ⟨-, -, θ₀, ζ₀, h, -⟩ := C79_angles (d₁ := Ex.dims asym) (d₂ := Ex.dims asym) (Ex.polar_ready asym ε) (Ex.polar_ready asym 0)
    (Ex.polar_periodic asym ε) (Ex.polar_periodic asym 0) (Ex.polar_origin asym ε) (Ex.polar_origin asym 0)
    (Ex.polar_noCurrent asym ε (js := 0) (by omega)) (Ex.polar_noCurrent asym 0 (js := 0) (by omega))
    (Ex.polar_same asym ε (by omega))
  exact ⟨θ₀, ζ₀, h⟩

/-- The poloidal angles are different, and so are the input series: λ vanishes in one of them only. -/
example (asym : Bool) : (surface (Ex.polar asym (1 / 16)).inp asym 0).lam (Real.pi / 2) 0 = 1 / 16 ∧
    (surface (Ex.polar asym 0).inp asym 0).lam (Real.pi / 2) 0 = 0 := by
  rw [Ex.polar_lam asym _ (by omega), Ex.polar_lam asym _ (by omega)]
  simp

example : ∃ C, ∀ M₁ N₁ M₂ N₂ : ℕ, 1 ≤ M₁ → (4 * M₁ + 2) * (4 * N₁ + 2) < 2 ^ 30 → 1 ≤ M₂ → (4 * M₂ + 2) * (4 * N₂ + 2) < 2 ^ 30 →
    ∃ u₁ r₁ u₂ r₂,
      run false { Ex.polar false (1 / 16) with inp := { (Ex.polar false (1 / 16)).inp with mboz := M₁, nboz := N₁ } } = .ok (u₁, r₁) ∧
      run false { Ex.polar false 0 with inp := { (Ex.polar false 0).inp with mboz := M₂, nboz := N₂ } } = .ok (u₂, r₂) ∧
      ∀ k₁ < numModes M₁ N₁, ∀ k₂ < numModes M₂ N₂,
        u₁.out.xm_b.rdN k₁ = .ok 1 → u₁.out.xn_b.rdN k₁ = .ok (-2) → u₂.out.xm_b.rdN k₂ = .ok 1 → u₂.out.xn_b.rdN k₂ = .ok (-2) →
        ∃ x y, u₁.out.spec.bmnc_b.rdN k₁ 0 = .ok x ∧ u₂.out.spec.bmnc_b.rdN k₂ 0 = .ok y ∧
          |x - y| ≤ C * (gridError M₁ N₁ 7 + gridError M₂ N₂ 7) := by
  obtain ⟨C, H⟩ := C79_symmetric (s₁ := Ex.polar false (1 / 16)) (s₂ := Ex.polar false 0) (d₁ := Ex.dims false)
    (d₂ := Ex.dims false) (Ex.polar_ready _ _) (Ex.polar_ready _ _) (Ex.polar_periodic _ _) (Ex.polar_periodic _ _)
    (Ex.polar_origin _ _) (Ex.polar_origin _ _) (fun b hb => Ex.polar_regular _ _ (Ex.polar_sel _ _ b hb))
    (fun b hb => Ex.polar_regular _ _ (Ex.polar_sel _ _ b hb)) rfl rfl (b₁ := 0) (b₂ := 0) (by decide) (by decide)
    (Ex.polar_noCurrent _ _ (Ex.polar_sel _ _ 0 (by omega))) (Ex.polar_noCurrent _ _ (Ex.polar_sel _ _ 0 (by omega)))
    (Ex.polar_same false (1 / 16) (Ex.polar_sel _ _ 0 (by omega))) (by simp) 1 (-2) (p := 7) (by omega)
  refine ⟨C, fun M₁ N₁ M₂ N₂ a1 a2 a3 a4 => ?_⟩
  obtain ⟨u₁, r₁, u₂, r₂, h1, h2, h3⟩ := H M₁ N₁ M₂ N₂
    { Ex.polar false (1 / 16) with inp := { (Ex.polar false (1 / 16)).inp with mboz := M₁, nboz := N₁ } }
    { Ex.polar false 0 with inp := { (Ex.polar false 0).inp with mboz := M₂, nboz := N₂ } } false rfl (Ex.polar_ready_res false (1 / 16) a1 a2) rfl
    (Ex.polar_ready_res false 0 a3 a4)
  exact ⟨u₁, r₁, u₂, r₂, h1, h2, fun k₁ hk₁ k₂ hk₂ m1 n1 m2 n2 => h3 k₁ hk₁ k₂ hk₂ m1 n1 m2 n2 0 _ _ rfl rfl⟩

/-- Without stellarator symmetry. -/
example : ∃ θ₀ ζ₀ C, ∀ M N : ℕ, 1 ≤ M → (4 * M + 2) * (4 * N + 2) < 2 ^ 30 →
    ∃ u₁ r₁ u₂ r₂,
      run true { Ex.polar true (1 / 16) with inp := { (Ex.polar true (1 / 16)).inp with mboz := M, nboz := N } } = .ok (u₁, r₁) ∧
      run true { Ex.polar true 0 with inp := { (Ex.polar true 0).inp with mboz := M, nboz := N } } = .ok (u₂, r₂) ∧
      ∀ k < numModes M N, u₁.out.xm_b.rdN k = .ok 1 → u₁.out.xn_b.rdN k = .ok (-2) → u₂.out.xm_b.rdN k = .ok 1 →
        u₂.out.xn_b.rdN k = .ok (-2) → RotatedSpectra ((1 : ℤ) * θ₀ - (-2 : ℤ) * ζ₀) 0 u₂.out true k 1 u₁.out true k 1
          (C * (gridError M N 7 + gridError M N 7)) := by
  obtain ⟨-, -, θ₀, ζ₀, ha, -⟩ := C79_angles (d₁ := Ex.dims true) (d₂ := Ex.dims true) (Ex.polar_ready true (1 / 16))
    (Ex.polar_ready true 0) (Ex.polar_periodic _ _) (Ex.polar_periodic _ _) (Ex.polar_origin _ _) (Ex.polar_origin _ _)
    (Ex.polar_noCurrent _ _ (Ex.polar_sel _ (1 / 16) 1 (by omega))) (Ex.polar_noCurrent _ _ (Ex.polar_sel _ 0 1 (by omega)))
    (Ex.polar_same true (1 / 16) (Ex.polar_sel _ (1 / 16) 1 (by omega)))
  obtain ⟨C, H⟩ := C79_outputs (s₁ := Ex.polar true (1 / 16)) (s₂ := Ex.polar true 0) (d₁ := Ex.dims true)
    (d₂ := Ex.dims true) (Ex.polar_ready _ _) (Ex.polar_ready _ _) (Ex.polar_periodic _ _) (Ex.polar_periodic _ _)
    (Ex.polar_origin _ _) (Ex.polar_origin _ _) (fun b hb => Ex.polar_regular _ _ (Ex.polar_sel _ _ b hb))
    (fun b hb => Ex.polar_regular _ _ (Ex.polar_sel _ _ b hb)) (b₁ := 1) (b₂ := 1) (by decide) (by decide)
    (Ex.polar_noCurrent _ _ (Ex.polar_sel _ _ 1 (by omega))) (Ex.polar_noCurrent _ _ (Ex.polar_sel _ _ 1 (by omega)))
    (Ex.polar_same true (1 / 16) (Ex.polar_sel _ _ 1 (by omega))) ha 1 (-2) (p := 7) (by omega)
  refine ⟨θ₀, ζ₀, C, fun M N a1 a2 => ?_⟩
  obtain ⟨u₁, r₁, u₂, r₂, h1, h2, -, h3⟩ := H M N M N
    { Ex.polar true (1 / 16) with inp := { (Ex.polar true (1 / 16)).inp with mboz := M, nboz := N } }
    { Ex.polar true 0 with inp := { (Ex.polar true 0).inp with mboz := M, nboz := N } } true rfl (Ex.polar_ready_res true (1 / 16) a1 a2) rfl
    (Ex.polar_ready_res true 0 a1 a2)
  exact ⟨u₁, r₁, u₂, r₂, h1, h2, fun k hk m1 n1 m2 n2 => h3 k hk k hk m1 n1 m2 n2⟩

end Booz
