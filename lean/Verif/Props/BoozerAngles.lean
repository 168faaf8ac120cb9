import Verif.Spec.BoozerAngles
import Verif.Lemmas.TorusDiffeo
import Verif.Lemmas.FourierTorus
import Verif.Props.Convergence
import Verif.Props.Modes
import Verif.Props.AlreadyBoozer
import Verif.Lemmas.QuadMore

/-!
# C66, C67, C68: the output harmonics as Fourier coefficients in Boozer angles
-/

namespace Booz
open Spec Trapezoid Finset Function

variable {S : Surface} {nfp : ℕ}

/-! ### The angles of a surface as a map of the torus -/

/-- Displacement of the poloidal angle. -/
noncomputable def shiftA (S : Surface) : ℝ × ℝ → ℝ := uncurry fun θ ζ => S.lam θ ζ + S.iota * S.nu θ ζ

theorem perF_add {f g : ℝ → ℝ → ℝ} (c : ℝ) (hf : PerF nfp f) (hg : PerF nfp g) : PerF nfp fun θ ζ => f θ ζ + c * g θ ζ :=
  ⟨fun θ ζ => congrArg₂ (fun x y => x + c * y) (hf.1 θ ζ) (hg.1 θ ζ),
    fun θ ζ => congrArg₂ (fun x y => x + c * y) (hf.2 θ ζ) (hg.2 θ ζ)⟩

/-- A function with the period of the field is 2π-periodic. -/
theorem PerF.torus (hp : 1 ≤ nfp) {f : ℝ → ℝ → ℝ} (h : PerF nfp f) : DPer τ τ (uncurry f) := by
  have hn : (nfp : ℝ) ≠ 0 := by positivity
  refine ⟨h.dper.1, ?_⟩
  have := (h.dper.2).nsmul nfp
  have e : nfp • ((0 : ℝ), 2 * Real.pi / (nfp : ℝ)) = (0, τ) := by
    ext
    · simp
    · show nfp • (2 * Real.pi / (nfp : ℝ)) = 2 * Real.pi
      rw [nsmul_eq_mul, mul_div_cancel₀ _ hn]
  rwa [e] at this

theorem torusMap (hp : 1 ≤ nfp) (h : SmoothSurface S) (hl : PerF nfp S.lam) (hw : PerF nfp S.w) :
    TorusMap (shiftA S) (uncurry S.nu) :=
  ⟨ContDiff.add h.lam (contDiff_const.mul h.nu), h.nu, (perF_add S.iota hl (nu_per hl hw)).torus hp, (nu_per hl hw).torus hp⟩

theorem newAngles_eq (S : Surface) : newAngles (shiftA S) (uncurry S.nu) = S.boozer := by
  funext x
  unfold newAngles Surface.boozer shiftA Surface.thetaB Surface.zetaB
  ext
  · show x.1 + (S.lam x.1 x.2 + S.iota * S.nu x.1 x.2) = _
    ring
  · rfl

theorem newDet_eq (h : SmoothSurface S) (T : TorusMap (shiftA S) (uncurry S.nu)) (θ ζ : ℝ) :
    newDet (shiftA S) (uncurry S.nu) (θ, ζ) = S.det θ ζ := by
  have eA : (fun x : ℝ × ℝ => x.1 + shiftA S x) = uncurry S.thetaB := by
    funext x
    show x.1 + (S.lam x.1 x.2 + S.iota * S.nu x.1 x.2) = x.1 + S.lam x.1 x.2 + S.iota * S.nu x.1 x.2
    ring
  have eZ : (fun x : ℝ × ℝ => x.2 + uncurry S.nu x) = uncurry S.zetaB := rfl
  have a1 := T.d1A (θ, ζ)
  have a2 := T.d2A (θ, ζ)
  have a3 := T.d1Z (θ, ζ)
  have a4 := T.d2Z (θ, ζ)
  rw [eA] at a1 a2
  rw [eZ] at a3 a4
  unfold newDet
  rw [← a1, ← a2, ← a3, ← a4]
  unfold Surface.det
  rw [← (h.thetaB.hasDeriv1 θ ζ).deriv, ← (h.zetaB.hasDeriv2 θ ζ).deriv, ← (h.thetaB.hasDeriv2 θ ζ).deriv,
    ← (h.zetaB.hasDeriv1 θ ζ).deriv]
  rfl

/-! ### C66 -/

theorem coordinates (hp : 1 ≤ nfp) (h : SmoothSurface S) (hl : PerF nfp S.lam) (hw : PerF nfp S.w)
    (hd : ∀ θ ζ, S.det θ ζ ≠ 0) : Coordinates S nfp := by
  have T := torusMap hp h hl hw
  have hd' : ∀ x, newDet (shiftA S) (uncurry S.nu) x ≠ 0 := fun x => by
    rw [newDet_eq h T x.1 x.2]
    exact hd _ _
  have eB := newAngles_eq S
  refine ⟨fun θ ζ => ?_, ?_, fun q sq hq1 hq2 => ?_⟩
  · rw [← newDet_eq h T]
    exact T.det_pos hd' _
  · rw [← eB]
    exact ⟨T.injective hd', T.surjective⟩
  · let Φ := T.homeo hd'
    have hΦ : ∀ x, Φ x = S.boozer x := fun x => by rw [← eB]; rfl
    let f : ℝ → ℝ → ℝ := fun t z => uncurry q (Φ.symm (t, z))
    have hf : S.Expresses f q := by
      intro θ ζ
      show uncurry q (Φ.symm (S.boozer (θ, ζ))) = q θ ζ
      rw [← hΦ, Homeomorph.symm_apply_apply]
      rfl
    have hnu := nu_per hl hw
    have back : ∀ (y v : ℝ × ℝ), (∀ x, S.boozer (x + v) = S.boozer x + v) → Φ.symm (y + v) = Φ.symm y + v := by
      intro y v hv
      rw [Homeomorph.symm_apply_eq, hΦ, hv, ← hΦ, Homeomorph.apply_symm_apply]
    have v1 : ∀ x, S.boozer (x + (2 * Real.pi, 0)) = S.boozer x + (2 * Real.pi, 0) := by
      intro x
      unfold Surface.boozer Surface.thetaB Surface.zetaB
      simp only [Prod.fst_add, Prod.snd_add, add_zero, hl.1, hnu.1]
      ext <;> simp only [Prod.fst_add, Prod.snd_add] <;> ring
    have v2 : ∀ x, S.boozer (x + (0, 2 * Real.pi / nfp)) = S.boozer x + (0, 2 * Real.pi / nfp) := by
      intro x
      unfold Surface.boozer Surface.thetaB Surface.zetaB
      simp only [Prod.fst_add, Prod.snd_add, add_zero, hl.2, hnu.2]
      ext <;> simp only [Prod.fst_add, Prod.snd_add] <;> ring
    refine ⟨f, ⟨hf, ?_, fun t z => ?_, fun t z => ?_⟩, ?_⟩
    · exact ContDiff.comp sq (T.symm_smooth hd')
    · have := back (t, z) _ v1
      simp only [Prod.mk_add_mk, add_zero] at this
      show uncurry q _ = uncurry q _
      rw [this]
      exact (congrArg₂ q rfl (add_zero _)).trans (hq1 _ _)
    · have := back (t, z) _ v2
      simp only [Prod.mk_add_mk, add_zero] at this
      show uncurry q _ = uncurry q _
      rw [this]
      exact (congrArg₂ q (add_zero _) rfl).trans (hq2 _ _)
    · rintro g ⟨hg, -⟩
      funext t z
      obtain ⟨x, hx⟩ : ∃ x, S.boozer x = (t, z) := ⟨Φ.symm (t, z), by rw [← hΦ, Homeomorph.apply_symm_apply]⟩
      have e1 : S.thetaB x.1 x.2 = t := congrArg Prod.fst hx
      have e2 : S.zetaB x.1 x.2 = z := congrArg Prod.snd hx
      rw [← e1, ← e2, hg, hf]

theorem boozer_coordinates {I : Inputs ℝ} {d : Dims} (h : RunReady I d) (hp : FieldPeriodic I d.nfp) (js : ℕ)
    (hd : ∀ θ ζ, (surface I d.asym js).det θ ζ ≠ 0) : Coordinates (surface I d.asym js) d.nfp := by
  obtain ⟨pl, pw, -⟩ := surf_per h hp d.asym js
  exact coordinates h.nfp_pos (smooth_surface I d.asym js) pl pw hd

theorem every_angle_occurs {I : Inputs ℝ} {d : Dims} (h : RunReady I d) (hp : FieldPeriodic I d.nfp) (js : ℕ) :
    Surjective (surface I d.asym js).boozer := by
  obtain ⟨pl, pw, -⟩ := surf_per h hp d.asym js
  rw [← newAngles_eq]
  exact (torusMap h.nfp_pos (smooth_surface I d.asym js) pl pw).surjective

/-- **C66.** If the Jacobian determinant of the Boozer angles with respect to the original angles vanishes
nowhere on a surface, then it is positive, every pair of Boozer angles belongs to exactly one pair of original
angles, and every smooth periodic quantity is a smooth function, with the same periods, of the Boozer angles, in
exactly one way. -/
theorem C66_coordinates {I : Inputs ℝ} {d : Dims} (h : RunReady I d) (hp : FieldPeriodic I d.nfp) (js : ℕ)
    (_hG : (surface I d.asym js).G + (surface I d.asym js).iota * (surface I d.asym js).I ≠ 0)
    (hd : ∀ θ ζ, (surface I d.asym js).det θ ζ ≠ 0) : Coordinates (surface I d.asym js) d.nfp :=
  boozer_coordinates h hp js hd

/-- **C66, without the condition.** Every pair of Boozer angles occurs on the surface, whatever the input (for which the angles
are defined: `G + ι I` is not zero). -/
theorem C66_all_angles {I : Inputs ℝ} {d : Dims} (h : RunReady I d) (hp : FieldPeriodic I d.nfp) (js : ℕ)
    (_hG : (surface I d.asym js).G + (surface I d.asym js).iota * (surface I d.asym js).I ≠ 0) :
    Surjective (surface I d.asym js).boozer :=
  every_angle_occurs h hp js

/-! ### C67 -/

theorem mean2_tau (F : ℝ × ℝ → ℝ) : mean2 τ τ F =
    1 / (4 * Real.pi ^ 2) * ∫ θ in (0 : ℝ)..2 * Real.pi, ∫ ζ in (0 : ℝ)..2 * Real.pi, F (θ, ζ) := by
  unfold mean2 mean
  rw [intervalIntegral.integral_div]
  field_simp
  ring

theorem Spec.TorusFn.dper {f : ℝ → ℝ → ℝ} (h : TorusFn f) : DPer τ τ (uncurry f) := by
  constructor
  · rintro ⟨t, z⟩
    show f (t + 2 * Real.pi) (z + 0) = f t z
    rw [add_zero, h.1]
  · rintro ⟨t, z⟩
    show f (t + 0) (z + 2 * Real.pi) = f t z
    rw [add_zero, h.2]

theorem integral_fourier (hp : 1 ≤ nfp) (h : SmoothSurface S) (hl : PerF nfp S.lam) (hw : PerF nfp S.w)
    {f q : ℝ → ℝ → ℝ} (hf : Continuous (uncurry f)) (hft : TorusFn f) (he : S.Expresses f q) (m n : ℤ) :
    S.integralCos q m n = fourierCos f m n ∧ S.integralSin q m n = fourierSin f m n := by
  have T := torusMap hp h hl hw
  have key : ∀ (E : ℝ × ℝ → ℝ), Continuous E → DPer τ τ E →
      (∫ θ in (0 : ℝ)..2 * Real.pi, ∫ ζ in (0 : ℝ)..2 * Real.pi, q θ ζ * S.det θ ζ * E (S.boozer (θ, ζ))) =
      ∫ t in (0 : ℝ)..2 * Real.pi, ∫ z in (0 : ℝ)..2 * Real.pi, f t z * E (t, z) := by
    intro E cE pE
    have e := T.mean_new (hf.mul cE) (hft.dper.mul pE)
    rw [newAngles_eq, mean2_tau, mean2_tau] at e
    have e' := mul_left_cancel₀ (by positivity) e
    rw [← show _ = ∫ t in (0 : ℝ)..2 * Real.pi, ∫ z in (0 : ℝ)..2 * Real.pi, f t z * E (t, z) from e']
    congr 1
    funext θ
    congr 1
    funext ζ
    show _ = f (S.thetaB θ ζ) (S.zetaB θ ζ) * E (S.boozer (θ, ζ)) * newDet (shiftA S) (uncurry S.nu) (θ, ζ)
    rw [he, newDet_eq h T]
    ring
  unfold Surface.integralCos Surface.integralSin fourierCos fourierSin
  constructor
  · congr 1
    exact key (cosM (m, n)) (cosM_smooth _).continuous (cosM_per _)
  · congr 1
    exact key (sinM (m, n)) (sinM_smooth _).continuous (sinM_per _)

/-- **C67.** The integrals of the theory section, to which the output harmonics converge (C52), are the Fourier
coefficients of the quantity as a function of the Boozer angles, whenever it is a continuous function of these
angles — by C66, always if the Jacobian determinant vanishes nowhere. -/
theorem C67_coefficients {I : Inputs ℝ} {d : Dims} (h : RunReady I d) (hp : FieldPeriodic I d.nfp) (js : ℕ)
    {f q : ℝ → ℝ → ℝ} (hf : Continuous (uncurry f)) (hft : TorusFn f) (he : (surface I d.asym js).Expresses f q) (m n : ℤ) :
    (surface I d.asym js).integralCos q m n = fourierCos f m n ∧
    (surface I d.asym js).integralSin q m n = fourierSin f m n := by
  obtain ⟨pl, pw, -⟩ := surf_per h hp d.asym js
  exact integral_fourier h.nfp_pos (smooth_surface I d.asym js) pl pw hf hft he m n

/-- **C67, for the outputs.** For fixed data, a fixed mode (m, n) and every order `p` there is one constant `C` such
that at every resolution the harmonics of that mode computed by `run()` are within `C (1/ntheta^p + 1/nzeta^p)`
of the Fourier coefficients of |B|, R, Z, ν and the Jacobian as functions of the Boozer angles. -/
theorem C67_outputs {s : St ℝ} {d : Dims} (h : RunReady s.inp d) (hp : FieldPeriodic s.inp d.nfp)
    (ho : OriginOnce s.inp) (hreg : ∀ b < d.nsb, (surface s.inp d.asym (selected s.inp b)).Regular)
    (m n : ℤ) {p : ℕ} (hp1 : 1 ≤ p) :
    ∃ C, (∀ b < d.nsb, (d.nfp : ℤ) ∣ n →
      let S := surface s.inp d.asym (selected s.inp b)
      ∀ q ∈ S.quantities, ∀ f, Continuous (uncurry f) → TorusFn f → S.Expresses f q → ∀ nt nz : ℕ, 1 ≤ nt → 1 ≤ nz →
      |S.quadCos nt nz d.nfp q m n - fourierCos f m n| ≤ C * ((1 / (nt : ℝ)) ^ p + (1 / (nz : ℝ)) ^ p) ∧
      |S.quadSin nt nz d.nfp q m n - fourierSin f m n| ≤ C * ((1 / (nt : ℝ)) ^ p + (1 / (nz : ℝ)) ^ p)) ∧
    ∀ (M N : ℕ) (s1 : St ℝ) (dbg : Bool), s1.inp = { s.inp with mboz := M, nboz := N } →
      RunReady s1.inp { d with M := M, N := N } →
      ∃ s' r, run dbg s1 = .ok (s', r) ∧ ∀ b < d.nsb, ∀ k < numModes M N,
        s'.out.xm_b.rdN k = .ok m → s'.out.xn_b.rdN k = .ok n →
        IsBoozerSpectrum s'.out (surface s.inp d.asym (selected s.inp b)) d.asym k b m n (C * gridError M N p) := by
  obtain ⟨C, h1, h2⟩ := C52_convergence h hp ho hreg m n hp1
  refine ⟨C, ?_, fun M N s1 dbg e hr => ?_⟩
  · intro b hb hn S q hq f cf tf ef nt nz hnt hnz
    obtain ⟨e1, e2⟩ := C67_coefficients h hp (selected s.inp b) cf tf ef m n
    rw [← e1, ← e2]
    exact h1 b hb hn q hq nt nz hnt hnz
  · obtain ⟨s', r, ok, H⟩ := h2 M N s1 dbg e hr
    refine ⟨s', r, ok, fun b hb k hk hm hn => ?_⟩
    have a := H b hb k hk hm hn
    have toC : ∀ {A : Mat ℝ} {q : ℝ → ℝ → ℝ} {e : ℝ}, Near A k b
        ((surface s.inp d.asym (selected s.inp b)).integralCos q m n) e →
        NearCos A (surface s.inp d.asym (selected s.inp b)) q k b m n e := fun hA f cf tf ef => by
      rw [← (C67_coefficients h hp (selected s.inp b) cf tf ef m n).1]; exact hA
    have toS : ∀ {A : Mat ℝ} {q : ℝ → ℝ → ℝ} {e : ℝ}, Near A k b
        ((surface s.inp d.asym (selected s.inp b)).integralSin q m n) e →
        NearSin A (surface s.inp d.asym (selected s.inp b)) q k b m n e := fun hA f cf tf ef => by
      rw [← (C67_coefficients h hp (selected s.inp b) cf tf ef m n).2]; exact hA
    exact ⟨toC a.bmnc, toC a.rmnc, toS a.zmns, toS a.numns, toC a.gmnc, fun ha => toS (a.bmns ha),
      fun ha => toS (a.rmns ha), fun ha => toC (a.zmnc ha), fun ha => toC (a.numnc ha), fun ha => toS (a.gmns ha)⟩

/-! ### C68 -/

theorem modes_half (K : ℕ) : modesUpTo K = half K := by
  ext k
  unfold modesUpTo half
  simp only [Finset.mem_filter, Finset.mem_product, Finset.mem_Icc, mem_box, abs_le]
  omega

/-- Mean over a period after rescaling the angle. -/
theorem mean_rescale (c : ℝ) (hc : c ≠ 0) (g : ℝ → ℝ) : mean τ (fun z => g (z / c)) = mean (τ / c) g := by
  unfold mean
  rw [intervalIntegral.integral_comp_div (f := g) hc, zero_div, smul_eq_mul]
  have := tau_pos.ne'
  field_simp

/-- A function with the period of the field, and the terms of its Fourier series, as functions on the torus. -/
theorem field_terms (hp : 1 ≤ nfp) {f : ℝ → ℝ → ℝ} (sf : Smooth (uncurry f)) (hf : PerF nfp f) :
    ∃ F : ℝ × ℝ → ℝ, Smooth F ∧ DPer τ τ F ∧ (∀ t z, F (t, z * nfp) = f t z) ∧
      ∀ (k : ℤ × ℤ) (t z : ℝ), (if k = 0 then 1 else 2) * term F k (t, z * nfp) =
        fourierCos f k.1 (k.2 * nfp) * Real.cos (k.1 * t - (k.2 * nfp : ℤ) * z) +
          fourierSin f k.1 (k.2 * nfp) * Real.sin (k.1 * t - (k.2 * nfp : ℤ) * z) := by
  have hn : (nfp : ℝ) ≠ 0 := by positivity
  let F : ℝ × ℝ → ℝ := fun x => f x.1 (x.2 / nfp)
  have sF : Smooth F := by
    have : ContDiff ℝ (⊤ : ℕ∞) fun x : ℝ × ℝ => (x.1, x.2 / (nfp : ℝ)) :=
      contDiff_fst.prodMk (contDiff_snd.div_const _)
    exact ContDiff.comp sf this
  have pF : DPer τ τ F := by
    constructor
    · intro x
      show f (x.1 + 2 * Real.pi) ((x.2 + 0) / nfp) = f x.1 (x.2 / nfp)
      rw [add_zero, hf.1]
    · intro x
      show f (x.1 + 0) ((x.2 + 2 * Real.pi) / nfp) = f x.1 (x.2 / nfp)
      rw [add_zero, add_div, hf.2]
  have coef : ∀ (trig : ℝ → ℝ), Continuous trig → Periodic trig τ → ∀ m n : ℤ,
      mean2 τ τ (fun x => F x * trig (ph (m, n) x)) = 1 / (4 * Real.pi ^ 2) *
        ∫ t in (0 : ℝ)..2 * Real.pi, ∫ z in (0 : ℝ)..2 * Real.pi, f t z * trig (m * t - (n * nfp : ℤ) * z) := by
    intro trig ct pt m n
    let g : ℝ → ℝ → ℝ := fun t z => f t z * trig (m * t - (n * nfp : ℤ) * z)
    have cg : Continuous (uncurry g) := by
      have c1 : Continuous fun x : ℝ × ℝ => (m : ℝ) * x.1 - (n * nfp : ℤ) * x.2 := by fun_prop
      exact sf.continuous.mul (ct.comp c1)
    have pg : PerF nfp g := by
      constructor
      · intro t z
        show f (t + 2 * Real.pi) z * trig _ = f t z * trig _
        rw [hf.1, show (m : ℝ) * (t + 2 * Real.pi) - (n * nfp : ℤ) * z = (m * t - (n * nfp : ℤ) * z) + m * τ by
          show _ = _ + (m : ℝ) * (2 * Real.pi); ring, pt.int_mul]
      · intro t z
        show f t (z + 2 * Real.pi / nfp) * trig _ = f t z * trig _
        rw [hf.2, show (m : ℝ) * t - (n * nfp : ℤ) * (z + 2 * Real.pi / nfp) =
          (m * t - (n * nfp : ℤ) * z) + (-n : ℤ) * τ by
            show _ = _ + ((-n : ℤ) : ℝ) * (2 * Real.pi)
            push_cast
            field_simp
            ring, pt.int_mul]
    rw [← mean2_eq hp pg cg]
    unfold mean2
    congr 1
    funext θ
    rw [← mean_rescale nfp hn]
    congr 1
    funext ζ
    show f θ (ζ / nfp) * trig (m * θ - n * ζ) = f θ (ζ / nfp) * trig (m * θ - (n * nfp : ℤ) * (ζ / nfp))
    congr 2
    push_cast
    field_simp
  refine ⟨F, sF, pF, fun t z => ?_, fun k t z => ?_⟩
  · show f t (z * nfp / nfp) = f t z
    rw [mul_div_cancel_right₀ _ hn]
  obtain ⟨m, n⟩ := k
  unfold term cc sc
  have c1 := coef Real.cos Real.continuous_cos Real.cos_periodic m n
  have c2 := coef Real.sin Real.continuous_sin Real.sin_periodic m n
  have ephase : ph (m, n) (t, z * nfp) = m * t - (n * nfp : ℤ) * z := by
    unfold ph
    push_cast
    ring
  have hnn : ((m, n) : ℤ × ℤ) = 0 ↔ (m = 0 ∧ n * (nfp : ℤ) = 0) := by
    have h0 : nfp ≠ 0 := by omega
    simp [Prod.mk_eq_zero, h0]
  unfold cosM sinM
  rw [c1, c2, ephase]
  unfold fourierCos fourierSin
  simp only [hnn]
  ring

/-- Fourier series of a function with the period of the field. -/
theorem fourier_field (hp : 1 ≤ nfp) {f : ℝ → ℝ → ℝ} (sf : Smooth (uncurry f)) (hf : PerF nfp f) {ε : ℝ} (hε : 0 < ε) :
    ∃ K0 : ℕ, ∀ K, K0 ≤ K → ∀ t z, |f t z - truncated nfp K (fourierCos f) (fourierSin f) t z| ≤ ε := by
  obtain ⟨F, sF, pF, e0, e1⟩ := field_terms hp sf hf
  obtain ⟨K0, hK0⟩ := fourier_uniform sF pF hε
  refine ⟨K0, fun K hK t z => ?_⟩
  have := hK0 K hK (t, z * nfp)
  rw [e0] at this
  refine le_of_eq_of_le ?_ this
  congr 2
  unfold truncated
  rw [modes_half]
  exact sum_congr rfl fun k _ => (e1 k t z).symm

/-- Truncated series with the integrals of the theory section as coefficients. -/
theorem series_of_integrals {I : Inputs ℝ} {d : Dims} (h : RunReady I d) (hp : FieldPeriodic I d.nfp) {js : ℕ}
    (hreg : (surface I d.asym js).Regular) (hd : ∀ θ ζ, (surface I d.asym js).det θ ζ ≠ 0) {ε : ℝ} (hε : 0 < ε) :
    let S := surface I d.asym js
    ∃ K0 : ℕ, ∀ q ∈ S.quantities, ∀ K, K0 ≤ K → ∀ θ ζ,
      |q θ ζ - truncated d.nfp K (S.integralCos q) (S.integralSin q) (S.thetaB θ ζ) (S.zetaB θ ζ)| ≤ ε := by
  intro S
  obtain ⟨pl, pw, pR, pZ, pB⟩ := surf_per h hp d.asym js
  have hs := smooth_surface I d.asym js
  have hc := coordinates h.nfp_pos hs pl pw hd
  have one : ∀ q, PerF d.nfp q → Smooth (uncurry q) → ∃ K0 : ℕ, ∀ K, K0 ≤ K → ∀ θ ζ,
      |q θ ζ - truncated d.nfp K (S.integralCos q) (S.integralSin q) (S.thetaB θ ζ) (S.zetaB θ ζ)| ≤ ε := by
    intro q hq1 hq2
    obtain ⟨f, ⟨hf, sf, p1, p2⟩, -⟩ := hc.express q hq2 hq1.1 hq1.2
    have pf : PerF d.nfp f := ⟨p1, p2⟩
    have hft : TorusFn f := by
      have := pf.torus h.nfp_pos
      exact ⟨p1, fun t z => by simpa using this.2 (t, z)⟩
    obtain ⟨K0, hK⟩ := fourier_field h.nfp_pos sf pf hε
    refine ⟨K0, fun K hK0 θ ζ => ?_⟩
    have e1 : S.integralCos q = fourierCos f := by
      funext m n
      exact (integral_fourier h.nfp_pos hs pl pw sf.continuous hft hf m n).1
    have e2 : S.integralSin q = fourierSin f := by
      funext m n
      exact (integral_fourier h.nfp_pos hs pl pw sf.continuous hft hf m n).2
    rw [e1, e2, ← hf θ ζ]
    exact hK K hK0 _ _
  obtain ⟨k1, h1⟩ := one S.B pB hs.B
  obtain ⟨k2, h2⟩ := one S.R pR hs.R
  obtain ⟨k3, h3⟩ := one S.Z pZ hs.Z
  obtain ⟨k4, h4⟩ := one S.nu (nu_per pl pw) hs.nu
  obtain ⟨k5, h5⟩ := one S.jacobian (jac_per pB) (hs.jacobian hreg.2)
  refine ⟨k1 + k2 + k3 + k4 + k5, fun q hq K hK => ?_⟩
  unfold Surface.quantities at hq
  simp only [List.mem_cons, List.not_mem_nil, or_false] at hq
  rcases hq with rfl | rfl | rfl | rfl | rfl
  · exact h1 K (by omega)
  · exact h2 K (by omega)
  · exact h3 K (by omega)
  · exact h4 K (by omega)
  · exact h5 K (by omega)

/-- Error of the truncated series from the errors of its coefficients. -/
theorem truncated_error {K : ℕ} {c c' s s' : ℤ → ℤ → ℝ} {E : ℤ × ℤ → ℝ}
    (hc : ∀ k ∈ modesUpTo K, |c k.1 (k.2 * nfp) - c' k.1 (k.2 * nfp)| ≤ E k)
    (hs : ∀ k ∈ modesUpTo K, |s k.1 (k.2 * nfp) - s' k.1 (k.2 * nfp)| ≤ E k) (t z : ℝ) :
    |truncated nfp K c s t z - truncated nfp K c' s' t z| ≤ ∑ k ∈ modesUpTo K, 2 * E k := by
  unfold truncated
  rw [← sum_sub_distrib]
  refine (abs_sum_le_sum_abs _ _).trans (sum_le_sum fun k hk => ?_)
  set p := (k.1 : ℝ) * t - (k.2 * nfp : ℤ) * z with hpdef
  have e : c k.1 (k.2 * nfp) * Real.cos p + s k.1 (k.2 * nfp) * Real.sin p -
      (c' k.1 (k.2 * nfp) * Real.cos p + s' k.1 (k.2 * nfp) * Real.sin p) =
      (c k.1 (k.2 * nfp) - c' k.1 (k.2 * nfp)) * Real.cos p +
      (s k.1 (k.2 * nfp) - s' k.1 (k.2 * nfp)) * Real.sin p := by ring
  rw [e]
  refine (abs_add_le _ _).trans ?_
  rw [abs_mul, abs_mul, two_mul]
  refine add_le_add ?_ ?_
  · exact (mul_le_of_le_one_right (abs_nonneg _) (Real.abs_cos_le_one p)).trans (hc k hk)
  · exact (mul_le_of_le_one_right (abs_nonneg _) (Real.abs_sin_le_one p)).trans (hs k hk)

/-- Sum over the selected output modes = sum over the half plane. -/
theorem sum_modes (d : Dims) (hM : 1 ≤ d.M) (hp : 1 ≤ d.nfp) {K : ℕ} (hKM : K < d.M) (hKN : K ≤ d.N) (g : ℤ → ℤ → ℝ) :
    ∑ k ∈ (range d.nmodes).filter (fun k => |(modeM d.N k : ℤ)| ≤ K ∧ |modeN d.N k * d.nfp| ≤ (K * d.nfp : ℕ)),
      g (modeM d.N k) (modeN d.N k * d.nfp) = ∑ k ∈ modesUpTo K, g k.1 (k.2 * d.nfp) := by
  have hp0 : (0 : ℤ) < d.nfp := by exact_mod_cast hp
  have bound : ∀ n : ℤ, |n * d.nfp| ≤ ((K * d.nfp : ℕ) : ℤ) ↔ -(K : ℤ) ≤ n ∧ n ≤ K := by
    intro n
    rw [abs_mul, abs_of_pos hp0, Nat.cast_mul, mul_le_mul_iff_of_pos_right hp0, abs_le]
  refine sum_nbij (fun k => ((modeM d.N k : ℤ), modeN d.N k)) ?_ ?_ ?_ ?_
  · intro k hk
    rw [mem_filter, mem_range] at hk
    obtain ⟨hk, h1, h2⟩ := hk
    obtain ⟨i1, -, n', e, -, -, i3⟩ := (modePair_mem d hM hp _).1 ⟨k, hk, rfl⟩
    have e : modeN d.N k = n' := mul_right_cancel₀ hp0.ne' e
    subst e
    unfold modesUpTo
    rw [mem_filter, mem_product, mem_Icc, mem_Icc]
    exact ⟨⟨⟨i1, le_of_abs_le h1⟩, (bound _).1 h2⟩, i3⟩
  · intro i hi j hj e
    simp only [Prod.mk.injEq] at e
    by_contra hne
    rcases Nat.lt_or_gt_of_ne hne with hlt | hlt
    · have := modePair_lex d hp hlt
      unfold Spec.Lex at this
      simp only [e.1, e.2, lt_irrefl, and_false, or_false] at this
    · have := modePair_lex d hp hlt
      unfold Spec.Lex at this
      simp only [e.1, e.2, lt_irrefl, and_false, or_false] at this
  · rintro ⟨m, n⟩ hk
    have hk : (m, n) ∈ modesUpTo K := hk
    unfold modesUpTo at hk
    rw [mem_filter, mem_product, mem_Icc, mem_Icc] at hk
    obtain ⟨⟨⟨a1, a2⟩, a3, a4⟩, a5⟩ := hk
    simp only at a1 a2 a3 a4 a5
    obtain ⟨k, hk, e⟩ := (modePair_mem d hM hp (m, n * d.nfp)).2
      ⟨a1, by simp only; omega, n, rfl, by omega, by omega, a5⟩
    obtain ⟨e1, e2⟩ := Prod.mk.inj e
    have e2 : modeN d.N k = n := mul_right_cancel₀ hp0.ne' e2
    refine ⟨k, ?_, Prod.ext e1 e2⟩
    rw [mem_coe, mem_filter, mem_range]
    refine ⟨hk, ?_, ?_⟩
    · rw [e1, abs_of_nonneg a1]; exact a2
    · rw [bound, e2]; exact ⟨a3, a4⟩
  · exact fun _ _ => rfl

/-- Partial sums of the outputs of a run. -/
theorem partialSum_run {s : St ℝ} {d : Dims} (h : RunReady s.inp d) {b K : ℕ} (hKM : K < d.M) (hKN : K ≤ d.N)
    {cosA sinA : Option (Mat ℝ)} {c t : ℤ → ℤ → ℝ}
    (hc : ∀ k < d.nmodes, Coefficient cosA k b (c (modeM d.N k) (modeN d.N k * d.nfp)))
    (hs : ∀ k < d.nmodes, Coefficient sinA k b (t (modeM d.N k) (modeN d.N k * d.nfp))) (x y : ℝ) :
    PartialSum (runSt d s d.nsb).out.xm_b (runSt d s d.nsb).out.xn_b d.nmodes b K (K * d.nfp) cosA sinA x y
      (truncated d.nfp K c t x y) := by
  refine ⟨fun k => modeM d.N k, fun k => modeN d.N k * d.nfp, fun k => c (modeM d.N k) (modeN d.N k * d.nfp),
    fun k => t (modeM d.N k) (modeN d.N k * d.nfp), fun k hk => ⟨Vec.rdN_tab hk, Vec.rdN_tab hk, hc k hk, hs k hk⟩, ?_⟩
  exact (sum_modes d h.mboz_ge h.nfp_pos hKM hKN fun m n => c m n * Real.cos (m * x - n * y) +
    t m n * Real.sin (m * x - n * y)).symm

/-- For stellarator-symmetric data the quadratures of the other parity vanish. -/
theorem quad_parity {I : Inputs ℝ} {d : Dims} (h : RunReady I d) (hp : FieldPeriodic I d.nfp) (ha : d.asym = false)
    (js : ℕ) {nt nz : ℕ} (ht : 1 ≤ nt) (hz : 1 ≤ nz) (m n : ℤ) :
    let S := surface I d.asym js
    S.quadSin nt nz d.nfp S.B m (n * d.nfp) = 0 ∧ S.quadSin nt nz d.nfp S.R m (n * d.nfp) = 0 ∧
    S.quadCos nt nz d.nfp S.Z m (n * d.nfp) = 0 ∧ S.quadCos nt nz d.nfp S.nu m (n * d.nfp) = 0 ∧
    S.quadSin nt nz d.nfp S.jacobian m (n * d.nfp) = 0 := by
  rw [ha]
  obtain ⟨pl, pw, pR, pZ, pB⟩ := surf_per h hp false js
  obtain ⟨ol, ow, eR, oZ, eB⟩ := surf_parity I js
  have dv := dvd_mul_left (d.nfp : ℤ) n
  have z : ∀ {x y : ℝ}, x = 0 → y * x = 0 := fun hx => by rw [hx, mul_zero]
  have hn := h.nfp_pos
  exact ⟨z (gridSum_odd hn ht hz (intS_per hn pl pw pB _ _ dv) (intS_odd ol ow eB _ _)),
    z (gridSum_odd hn ht hz (intS_per hn pl pw pR _ _ dv) (intS_odd ol ow eR _ _)),
    z (gridSum_odd hn ht hz (intC_per hn pl pw pZ _ _ dv) (intC_odd ol ow oZ _ _)),
    z (gridSum_odd hn ht hz (intC_per hn pl pw (nu_per pl pw) _ _ dv) (intC_odd ol ow (nu_odd ol ow) _ _)),
    z (gridSum_odd hn ht hz (intS_per hn pl pw (jac_per pB) _ _ dv) (intS_odd ol ow (jac_even eB) _ _))⟩

/-- The outputs of a run reconstruct the surface as well as the quadratures do. -/
theorem reconstructs_of {s : St ℝ} {d : Dims} (h : RunReady s.inp d) (hp : FieldPeriodic s.inp d.nfp)
    (ho : OriginOnce s.inp) {b : ℕ} (hb : b < d.nsb) {T : (ℤ → ℤ → ℝ) → (ℤ → ℤ → ℝ) → ℝ → ℝ → ℝ} {K L : ℕ} {E : ℝ}
    (hT : ∀ (cosA sinA : Option (Mat ℝ)) (c t : ℤ → ℤ → ℝ),
      (∀ k < d.nmodes, Coefficient cosA k b (c (modeM d.N k) (modeN d.N k * d.nfp))) →
      (∀ k < d.nmodes, Coefficient sinA k b (t (modeM d.N k) (modeN d.N k * d.nfp))) → ∀ x y,
      PartialSum (runSt d s d.nsb).out.xm_b (runSt d s d.nsb).out.xn_b d.nmodes b K L cosA sinA x y (T c t x y))
    (err : let S := surface s.inp d.asym (selected s.inp b)
      ∀ q ∈ S.quantities, ∀ θ ζ, |q θ ζ - T (S.quadCos (ntheta d.M) (nzeta d.N) d.nfp q)
        (S.quadSin (ntheta d.M) (nzeta d.N) d.nfp q) (S.thetaB θ ζ) (S.zetaB θ ζ)| ≤ E) :
    Reconstructs (runSt d s d.nsb).out (surface s.inp d.asym (selected s.inp b)) d.asym (numModes d.M d.N) b K L E := by
  intro θ ζ near ifAsym
  have g := fun (k : ℕ) (hk : k < d.nmodes) => spectrum_at h hp ho (b := b) hb hk
  have par := fun (ha : d.asym = false) (m n : ℤ) => quad_parity h hp ha (selected s.inp b) (ntheta_pos d.M) (nzeta_pos d.N) m n
  have other : ∀ (a : Mat ℝ) (f : ℤ → ℤ → ℝ), (d.asym = true → ∀ k < d.nmodes,
      a.rdN k b = .ok (f (modeM d.N k) (modeN d.N k * d.nfp))) → (d.asym = false → ∀ m n : ℤ, f m (n * d.nfp) = 0) →
      ∀ k < d.nmodes, Coefficient (ifAsym a) k b (f (modeM d.N k) (modeN d.N k * d.nfp)) := by
    intro a f h1 h2 k hk
    unfold ifAsym
    cases ha : d.asym
    · exact h2 ha _ _
    · exact h1 ha k hk
  set S := surface s.inp d.asym (selected s.inp b) with hS
  have fin : ∀ (cosA sinA : Option (Mat ℝ)) (q : ℝ → ℝ → ℝ), q ∈ S.quantities →
      (∀ k < d.nmodes,
        Coefficient cosA k b (S.quadCos (ntheta d.M) (nzeta d.N) d.nfp q (modeM d.N k) (modeN d.N k * d.nfp))) →
      (∀ k < d.nmodes,
        Coefficient sinA k b (S.quadSin (ntheta d.M) (nzeta d.N) d.nfp q (modeM d.N k) (modeN d.N k * d.nfp))) →
      near cosA sinA (q θ ζ) := fun cosA sinA q hq h2 h3 =>
    ⟨_, hT cosA sinA (S.quadCos (ntheta d.M) (nzeta d.N) d.nfp q) (S.quadSin (ntheta d.M) (nzeta d.N) d.nfp q) h2 h3 _ _,
      err q hq θ ζ⟩
  refine ⟨fin _ _ S.B ?_ (fun k hk => (g k hk).1)
      (other _ (S.quadSin _ _ _ _) (fun ha k hk => ((g k hk).2.2.2.2.2 ha).1) fun ha m n => (par ha m n).1),
    fin _ _ S.R ?_ (fun k hk => (g k hk).2.1)
      (other _ (S.quadSin _ _ _ _) (fun ha k hk => ((g k hk).2.2.2.2.2 ha).2.1) fun ha m n => (par ha m n).2.1),
    fin _ _ S.Z ?_ (other _ (S.quadCos _ _ _ _) (fun ha k hk => ((g k hk).2.2.2.2.2 ha).2.2.1)
      fun ha m n => (par ha m n).2.2.1) (fun k hk => (g k hk).2.2.1),
    fin _ _ S.nu ?_ (other _ (S.quadCos _ _ _ _) (fun ha k hk => ((g k hk).2.2.2.2.2 ha).2.2.2.1)
      fun ha m n => (par ha m n).2.2.2.1) (fun k hk => (g k hk).2.2.2.1),
    fin _ _ S.jacobian ?_ (fun k hk => (g k hk).2.2.2.2.1)
      (other _ (S.quadSin _ _ _ _) (fun ha k hk => ((g k hk).2.2.2.2.2 ha).2.2.2.2) fun ha m n => (par ha m n).2.2.2.2)⟩ <;>
  · unfold Surface.quantities
    simp only [List.mem_cons, true_or, or_true]

/-- **C68.** Let the Jacobian determinant of the Boozer angles vanish on no processed surface.  For every
tolerance `ε` there is a truncation `K0` such that, for every truncation `K ≥ K0`, the harmonics with `m ≤ K`,
`|n| ≤ K nfp` of the output, summed as Fourier series at the Boozer angles of any point, give |B|, R, Z, ν and
the Jacobian at that point with an error of at most `ε + C (1/ntheta^p + 1/nzeta^p)`, with one `C` for all
resolutions `mboz > K`, `nboz ≥ K` and all points. -/
theorem C68_reconstruct {s : St ℝ} {d : Dims} (h : RunReady s.inp d) (hp : FieldPeriodic s.inp d.nfp)
    (ho : OriginOnce s.inp) (hreg : ∀ b < d.nsb, (surface s.inp d.asym (selected s.inp b)).Regular)
    (hdet : ∀ b < d.nsb, ∀ θ ζ, (surface s.inp d.asym (selected s.inp b)).det θ ζ ≠ 0)
    {p : ℕ} (hp1 : 1 ≤ p) {ε : ℝ} (hε : 0 < ε) :
    ∃ K0 : ℕ, ∀ K, K0 ≤ K → ∃ C,
    (∀ b < d.nsb, let S := surface s.inp d.asym (selected s.inp b)
      ∀ q ∈ S.quantities, ∀ nt nz : ℕ, 1 ≤ nt → 1 ≤ nz → ∀ θ ζ,
      |q θ ζ - truncated d.nfp K (S.quadCos nt nz d.nfp q) (S.quadSin nt nz d.nfp q) (S.thetaB θ ζ) (S.zetaB θ ζ)| ≤
        ε + C * ((1 / (nt : ℝ)) ^ p + (1 / (nz : ℝ)) ^ p)) ∧
    ∀ (M N : ℕ) (s1 : St ℝ) (dbg : Bool), K < M → K ≤ N → s1.inp = { s.inp with mboz := M, nboz := N } →
      RunReady s1.inp { d with M := M, N := N } →
      ∃ s' r, run dbg s1 = .ok (s', r) ∧ ∀ b < d.nsb,
        Reconstructs s'.out (surface s.inp d.asym (selected s.inp b)) d.asym (numModes M N) b K (K * d.nfp)
          (ε + C * gridError M N p) := by
  have hK : ∀ b, ∃ K0 : ℕ, b < d.nsb → let S := surface s.inp d.asym (selected s.inp b)
      ∀ q ∈ S.quantities, ∀ K, K0 ≤ K → ∀ θ ζ,
      |q θ ζ - truncated d.nfp K (S.integralCos q) (S.integralSin q) (S.thetaB θ ζ) (S.zetaB θ ζ)| ≤ ε := by
    intro b
    by_cases hb : b < d.nsb
    · obtain ⟨K0, hK⟩ := series_of_integrals h hp (hreg b hb) (hdet b hb) hε
      exact ⟨K0, fun _ => hK⟩
    · exact ⟨0, fun hb' => absurd hb' hb⟩
  choose K0 hK0 using hK
  refine ⟨∑ b ∈ range d.nsb, K0 b, fun K hKK => ?_⟩
  have hCe : ∀ (b : ℕ) (k : ℤ × ℤ), ∃ C, 0 ≤ C ∧ (b < d.nsb → let S := surface s.inp d.asym (selected s.inp b)
      ∀ q ∈ S.quantities, ∀ nt nz : ℕ, 1 ≤ nt → 1 ≤ nz →
      |S.quadCos nt nz d.nfp q k.1 (k.2 * d.nfp) - S.integralCos q k.1 (k.2 * d.nfp)| ≤
        C * ((1 / (nt : ℝ)) ^ p + (1 / (nz : ℝ)) ^ p) ∧
      |S.quadSin nt nz d.nfp q k.1 (k.2 * d.nfp) - S.integralSin q k.1 (k.2 * d.nfp)| ≤
        C * ((1 / (nt : ℝ)) ^ p + (1 / (nz : ℝ)) ^ p)) := by
    intro b k
    by_cases hb : b < d.nsb
    · obtain ⟨C, hC, hq⟩ := surface_error h hp (hreg b hb) (m := k.1) (dvd_mul_left (d.nfp : ℤ) k.2) hp1
      exact ⟨C, hC, fun _ => hq⟩
    · exact ⟨0, le_rfl, fun hb' => absurd hb' hb⟩
  choose C hC0 hC using hCe
  let T : ℝ := ∑ b ∈ range d.nsb, ∑ k ∈ modesUpTo K, 2 * C b k
  have part1 : ∀ b < d.nsb, let S := surface s.inp d.asym (selected s.inp b)
      ∀ q ∈ S.quantities, ∀ nt nz : ℕ, 1 ≤ nt → 1 ≤ nz → ∀ θ ζ,
      |q θ ζ - truncated d.nfp K (S.quadCos nt nz d.nfp q) (S.quadSin nt nz d.nfp q) (S.thetaB θ ζ) (S.zetaB θ ζ)| ≤
        ε + T * ((1 / (nt : ℝ)) ^ p + (1 / (nz : ℝ)) ^ p) := by
    intro b hb S q hq nt nz hnt hnz θ ζ
    set e : ℝ := (1 / (nt : ℝ)) ^ p + (1 / (nz : ℝ)) ^ p with hedef
    have he : 0 ≤ e := by positivity
    have hKb : K0 b ≤ K := (single_le_sum (f := K0) (fun _ _ => Nat.zero_le _) (mem_range.2 hb)).trans hKK
    have a1 := hK0 b hb q hq K hKb θ ζ
    have a2 := truncated_error (nfp := d.nfp) (K := K) (E := fun k => C b k * e)
      (fun k _ => (hC b k hb q hq nt nz hnt hnz).1) (fun k _ => (hC b k hb q hq nt nz hnt hnz).2)
      (S.thetaB θ ζ) (S.zetaB θ ζ)
    have a3 : ∑ k ∈ modesUpTo K, 2 * (C b k * e) ≤ T * e := by
      rw [show ∑ k ∈ modesUpTo K, 2 * (C b k * e) = (∑ k ∈ modesUpTo K, 2 * C b k) * e by
        rw [sum_mul]; exact sum_congr rfl fun _ _ => by ring]
      refine mul_le_mul_of_nonneg_right ?_ he
      exact single_le_sum (f := fun b => ∑ k ∈ modesUpTo K, 2 * C b k)
        (fun b _ => sum_nonneg fun k _ => mul_nonneg (by norm_num) (hC0 b k)) (mem_range.2 hb)
    rw [abs_sub_comm] at a2
    refine (abs_sub_le _ _ _).trans (add_le_add a1 (a2.trans a3))
  refine ⟨T, part1, fun M N s1 dbg hKM hKN e h1 => ?_⟩
  have hp' : FieldPeriodic s1.inp ({ d with M := M, N := N } : Dims).nfp := by rw [e]; exact hp
  have ho' : OriginOnce s1.inp := by rw [e]; exact ho
  refine ⟨_, _, run_real h1 fun _ => originOnce_first h1 ho', fun b hb => ?_⟩
  have eS : surface s1.inp ({ d with M := M, N := N } : Dims).asym (selected s1.inp b) =
      surface s.inp d.asym (selected s.inp b) := by rw [e]; rfl
  have := reconstructs_of h1 hp' ho' (b := b) hb (T := truncated d.nfp K) (K := K) (L := K * d.nfp)
    (E := ε + T * gridError M N p) (fun _ _ _ _ h2 h3 x y => partialSum_run h1 hKM hKN h2 h3 x y)
  rw [eS] at this
  exact this fun q hq θ ζ => part1 b hb q hq (ntheta M) (nzeta N) (ntheta_pos M) (nzeta_pos N) θ ζ

/-! ### Non-vacuity -/

/-- The determinant from the derivatives of λ and w. -/
theorem det_formula (S : Surface) {θ ζ lt lz wt wz : ℝ} (h1 : HasDerivAt (fun t => S.lam t ζ) lt θ)
    (h2 : HasDerivAt (fun z => S.lam θ z) lz ζ) (h3 : HasDerivAt (fun t => S.w t ζ) wt θ)
    (h4 : HasDerivAt (fun z => S.w θ z) wz ζ) :
    S.det θ ζ = (1 + lt + S.iota * ((wt - S.I * lt) / (S.G + S.iota * S.I))) * (1 + (wz - S.I * lz) / (S.G + S.iota * S.I)) -
      (lz + S.iota * ((wz - S.I * lz) / (S.G + S.iota * S.I))) * ((wt - S.I * lt) / (S.G + S.iota * S.I)) := by
  have n1 : HasDerivAt (fun t => S.nu t ζ) ((wt - S.I * lt) / (S.G + S.iota * S.I)) θ :=
    (h3.sub (h1.const_mul S.I)).div_const _
  have n2 : HasDerivAt (fun z => S.nu θ z) ((wz - S.I * lz) / (S.G + S.iota * S.I)) ζ :=
    (h4.sub (h2.const_mul S.I)).div_const _
  have t1 : HasDerivAt (fun t => S.thetaB t ζ) _ θ := ((hasDerivAt_id θ).add h1).add (n1.const_mul S.iota)
  have t2 : HasDerivAt (fun z => S.thetaB θ z) (lz + S.iota * ((wz - S.I * lz) / (S.G + S.iota * S.I))) ζ :=
    (h2.const_add θ).add (n2.const_mul S.iota)
  have z1 : HasDerivAt (fun t => S.zetaB t ζ) _ θ := n1.const_add ζ
  have z2 : HasDerivAt (fun z => S.zetaB θ z) _ ζ := (hasDerivAt_id ζ).add n2
  unfold Surface.det
  rw [t1.deriv, t2.deriv, z1.deriv, z2.deriv]

/-- The example with small λ and w: the Boozer angles differ from the original angles, but not much. -/
noncomputable def Ex.gentle (asym : Bool) : St ℝ :=
  { Ex.st asym with inp := { Ex.inputs asym with
      lmns := Mat.tab 3 2 fun k _ => k / 32
      lmnc := Mat.tab 3 2 fun _ _ => 1 / 64
      bsubumnc := Mat.tab 4 2 fun k _ => if k = 0 then 1 else 0
      bsubvmnc := Mat.tab 4 2 fun k _ => if k = 0 then 20 else if k = 1 then 1 else 0
      bsubumns := Mat.tab 4 2 fun _ _ => 0
      bsubvmns := Mat.tab 4 2 fun _ _ => 0 } }

theorem Ex.gentle_ready (asym : Bool) : RunReady (Ex.gentle asym).inp (Ex.dims asym) :=
  { Ex.ready (α := ℝ) asym with
    lmns := Mat.full_tab 3 2 _
    lmnc := fun _ => Mat.full_tab 3 2 _
    bsubumnc := Mat.full_tab 4 2 _
    bsubvmnc := Mat.full_tab 4 2 _
    bsubumns := fun _ => Mat.full_tab 4 2 _
    bsubvmns := fun _ => Mat.full_tab 4 2 _ }

theorem Ex.gentle_consts (asym : Bool) {js : ℕ} (hj : js < 2) :
    (surface (Ex.gentle asym).inp asym js).G = 20 ∧ (surface (Ex.gentle asym).inp asym js).I = 1 ∧
    (surface (Ex.gentle asym).inp asym js).iota = (js : ℝ) + 1 := by
  refine ⟨(Mat.val_tab (by decide) hj).trans (by simp), (Mat.val_tab (by decide) hj).trans (by simp), ?_⟩
  show (Vec.tab 2 fun j => (ofInt ((j : ℤ) + 1) : ℝ)).val 0 js = _
  rw [Vec.val_tab hj, real_ofInt]
  push_cast
  rfl

theorem Ex.gentle_regular (asym : Bool) {js : ℕ} (hj : js < 2) : (surface (Ex.gentle asym).inp asym js).Regular := by
  obtain ⟨e1, e2, e3⟩ := Ex.gentle_consts asym hj
  constructor
  · rw [e1, e2, e3]
    positivity
  · intro θ ζ
    have : 1 ≤ (surface (Ex.gentle asym).inp asym js).B θ ζ := Ex.B_ge asym hj θ ζ
    linarith

theorem Ex.gentle_lam (asym : Bool) {js : ℕ} (hj : js < 2) (θ ζ : ℝ) :
    (surface (Ex.gentle asym).inp asym js).lam θ ζ = onlyIf asym (1 / 64) + (onlyIf asym (1 / 64) * Real.cos (2 * ζ) -
      1 / 32 * Real.sin (2 * ζ)) + (onlyIf asym (1 / 64) * Real.cos (θ + 2 * ζ) + 1 / 16 * Real.sin (θ + 2 * ζ)) := by
  have v : ∀ k < 3, entry (Ex.gentle asym).inp.lmns k js = (k : ℝ) / 32 := fun k hk => Mat.val_tab hk hj
  have v' : ∀ k < 3, entry (Ex.gentle asym).inp.lmnc k js = 1 / 64 := fun k hk => Mat.val_tab hk hj
  show series 3 ((Ex.vec (β := ℤ) [0, 0, 1]).val 0) ((Ex.vec (β := ℤ) [0, 2, -2]).val 0)
    (fun k => onlyIf asym (entry (Ex.gentle asym).inp.lmnc k js)) (fun k => entry (Ex.gentle asym).inp.lmns k js) θ ζ = _
  unfold series
  rw [sum_range_succ, sum_range_succ, sum_range_succ, sum_range_zero]
  simp only []
  rw [v 0 (by omega), v 1 (by omega), v 2 (by omega), v' 0 (by omega), v' 1 (by omega), v' 2 (by omega)]
  rw [show (Ex.vec (β := ℤ) [0, 0, 1]).val 0 0 = 0 from rfl, show (Ex.vec (β := ℤ) [0, 0, 1]).val 0 1 = 0 from rfl,
    show (Ex.vec (β := ℤ) [0, 0, 1]).val 0 2 = 1 from rfl, show (Ex.vec (β := ℤ) [0, 2, -2]).val 0 0 = 0 from rfl,
    show (Ex.vec (β := ℤ) [0, 2, -2]).val 0 1 = 2 from rfl, show (Ex.vec (β := ℤ) [0, 2, -2]).val 0 2 = -2 from rfl]
  have e1 : ((0 : ℤ) : ℝ) * θ - ((2 : ℤ) : ℝ) * ζ = -(2 * ζ) := by push_cast; ring
  have e2 : ((1 : ℤ) : ℝ) * θ - ((-2 : ℤ) : ℝ) * ζ = θ + 2 * ζ := by push_cast; ring
  have e0 : ((0 : ℤ) : ℝ) * θ - ((0 : ℤ) : ℝ) * ζ = 0 := by push_cast; ring
  rw [e0, e1, e2, Real.cos_neg, Real.sin_neg, Real.cos_zero, Real.sin_zero]
  push_cast
  ring

theorem Ex.gentle_w (asym : Bool) {js : ℕ} (hj : js < 2) (θ ζ : ℝ) :
    (surface (Ex.gentle asym).inp asym js).w θ ζ = 1 / 2 * Real.sin (2 * ζ) := by
  have v : ∀ k < 4, entry (Ex.gentle asym).inp.bsubumnc k js = if k = 0 then 1 else 0 := fun k hk => Mat.val_tab hk hj
  have v' : ∀ k < 4, entry (Ex.gentle asym).inp.bsubvmnc k js = if k = 0 then 20 else if k = 1 then 1 else 0 :=
    fun k hk => Mat.val_tab hk hj
  have u : ∀ k < 4, entry (Ex.gentle asym).inp.bsubumns k js = 0 := fun k hk => Mat.val_tab hk hj
  have u' : ∀ k < 4, entry (Ex.gentle asym).inp.bsubvmns k js = 0 := fun k hk => Mat.val_tab hk hj
  have w0 : ∀ m n : ℤ, onlyIf asym (wCos m n 0 0) = 0 := by
    intro m n
    unfold onlyIf wCos
    simp
  have w0' : ∀ m n : ℤ, wSin m n 0 0 = 0 := by
    intro m n
    unfold wSin
    simp
  show series 4 ((Ex.vec (β := ℤ) [0, 0, 1, 2]).val 0) ((Ex.vec (β := ℤ) [0, 2, 0, -2]).val 0)
    (fun k => onlyIf asym (wCos ((Ex.vec (β := ℤ) [0, 0, 1, 2]).val 0 k) ((Ex.vec (β := ℤ) [0, 2, 0, -2]).val 0 k)
      (entry (Ex.gentle asym).inp.bsubumns k js) (entry (Ex.gentle asym).inp.bsubvmns k js)))
    (fun k => wSin ((Ex.vec (β := ℤ) [0, 0, 1, 2]).val 0 k) ((Ex.vec (β := ℤ) [0, 2, 0, -2]).val 0 k)
      (entry (Ex.gentle asym).inp.bsubumnc k js) (entry (Ex.gentle asym).inp.bsubvmnc k js)) θ ζ = _
  unfold series
  rw [sum_range_succ, sum_range_succ, sum_range_succ, sum_range_succ, sum_range_zero]
  simp only []
  rw [v 0 (by omega), v 1 (by omega), v 2 (by omega), v 3 (by omega), v' 0 (by omega), v' 1 (by omega), v' 2 (by omega),
    v' 3 (by omega), u 0 (by omega), u 1 (by omega), u 2 (by omega), u 3 (by omega), u' 0 (by omega), u' 1 (by omega),
    u' 2 (by omega), u' 3 (by omega)]
  simp only [w0, zero_mul, zero_add, if_true, one_ne_zero, if_false, show (2 : ℕ) ≠ 0 by omega,
    show (3 : ℕ) ≠ 0 by omega, show (2 : ℕ) ≠ 1 by omega, show (3 : ℕ) ≠ 1 by omega, w0', add_zero]
  rw [show (Ex.vec (β := ℤ) [0, 0, 1, 2]).val 0 0 = 0 from rfl, show (Ex.vec (β := ℤ) [0, 0, 1, 2]).val 0 1 = 0 from rfl,
    show (Ex.vec (β := ℤ) [0, 2, 0, -2]).val 0 0 = 0 from rfl, show (Ex.vec (β := ℤ) [0, 2, 0, -2]).val 0 1 = 2 from rfl]
  have e1 : ((0 : ℤ) : ℝ) * θ - ((2 : ℤ) : ℝ) * ζ = -(2 * ζ) := by push_cast; ring
  rw [e1, Real.sin_neg]
  unfold wSin
  simp
  ring

theorem Ex.gentle_det (asym : Bool) {js : ℕ} (hj : js < 2) (θ ζ : ℝ) :
    1 / 2 < (surface (Ex.gentle asym).inp asym js).det θ ζ := by
  obtain ⟨e1, e2, e3⟩ := Ex.gentle_consts asym hj
  set S := surface (Ex.gentle asym).inp asym js with hS
  set g := onlyIf asym (1 / 64) with hg
  have hgb : 0 ≤ g ∧ g ≤ 1 / 64 := by
    rw [hg]; unfold onlyIf
    split <;> norm_num
  have el : S.lam = fun θ ζ => g + (g * Real.cos (2 * ζ) - 1 / 32 * Real.sin (2 * ζ)) +
      (g * Real.cos (θ + 2 * ζ) + 1 / 16 * Real.sin (θ + 2 * ζ)) := by
    funext a b; exact Ex.gentle_lam asym hj a b
  have ew : S.w = fun _ ζ => 1 / 2 * Real.sin (2 * ζ) := by
    funext a b; exact Ex.gentle_w asym hj a b
  have d2 : HasDerivAt (fun z : ℝ => 2 * z) 2 ζ := by simpa using (hasDerivAt_id ζ).const_mul 2
  have d3 : HasDerivAt (fun z : ℝ => θ + 2 * z) 2 ζ := d2.const_add θ
  have d4 : HasDerivAt (fun t : ℝ => t + 2 * ζ) 1 θ := (hasDerivAt_id θ).add_const _
  have h1 : HasDerivAt (fun t => S.lam t ζ)
      (g * (-Real.sin (θ + 2 * ζ) * 1) + 1 / 16 * (Real.cos (θ + 2 * ζ) * 1)) θ := by
    rw [el]
    exact ((d4.cos.const_mul g).add (d4.sin.const_mul (1 / 16))).const_add _
  have h2 : HasDerivAt (fun z => S.lam θ z)
      ((g * (-Real.sin (2 * ζ) * 2) - 1 / 32 * (Real.cos (2 * ζ) * 2)) +
        (g * (-Real.sin (θ + 2 * ζ) * 2) + 1 / 16 * (Real.cos (θ + 2 * ζ) * 2))) ζ := by
    rw [el]
    exact (((d2.cos.const_mul g).sub (d2.sin.const_mul (1 / 32))).const_add g).add
      ((d3.cos.const_mul g).add (d3.sin.const_mul (1 / 16)))
  have h3 : HasDerivAt (fun t => S.w t ζ) 0 θ := by rw [ew]; exact hasDerivAt_const _ _
  have h4 : HasDerivAt (fun z => S.w θ z) (1 / 2 * (Real.cos (2 * ζ) * 2)) ζ := by rw [ew]; exact d2.sin.const_mul (1 / 2)
  rw [det_formula S h1 h2 h3 h4, e1, e2, e3]
  have c1 := Real.abs_cos_le_one (2 * ζ)
  have c2 := Real.abs_cos_le_one (θ + 2 * ζ)
  have s1 := Real.abs_sin_le_one (2 * ζ)
  have s2 := Real.abs_sin_le_one (θ + 2 * ζ)
  set C1 := Real.cos (2 * ζ)
  set C2 := Real.cos (θ + 2 * ζ)
  set S1 := Real.sin (2 * ζ)
  set S2 := Real.sin (θ + 2 * ζ)
  have gs : ∀ x : ℝ, |x| ≤ 1 → |g * x| ≤ 1 / 64 := fun x hx => by
    rw [abs_mul, abs_of_nonneg hgb.1]
    calc g * |x| ≤ 1 / 64 * 1 := mul_le_mul hgb.2 hx (abs_nonneg _) (by norm_num)
      _ = _ := mul_one _
  have q1 := abs_le.1 (gs _ s1)
  have q2 := abs_le.1 (gs _ s2)
  rw [abs_le] at c1 c2 s1 s2
  generalize hlt : g * (-S2 * 1) + 1 / 16 * (C2 * 1) = lt
  generalize hlz : g * (-S1 * 2) - 1 / 32 * (C1 * 2) + (g * (-S2 * 2) + 1 / 16 * (C2 * 2)) = lz
  generalize hwz : 1 / 2 * (C1 * 2) = wz
  have blt : |lt| ≤ 1 / 8 := by rw [abs_le, ← hlt]; constructor <;> linarith
  have blz : |lz| ≤ 1 / 4 := by rw [abs_le, ← hlz]; constructor <;> linarith
  have bwz : |wz| ≤ 1 := by rw [abs_le, ← hwz]; constructor <;> linarith
  have hi : (1 : ℝ) ≤ (js : ℝ) + 1 ∧ (js : ℝ) + 1 ≤ 2 := by
    have : (js : ℝ) ≤ 1 := by exact_mod_cast Nat.lt_succ_iff.1 hj
    have : (0 : ℝ) ≤ js := by positivity
    constructor <;> linarith
  generalize hio : (js : ℝ) + 1 = i at *
  have hD : (20 : ℝ) ≤ 20 + i * 1 := by linarith [hi.1]
  generalize hDd : (20 : ℝ) + i * 1 = D at *
  have bnt : |(0 - 1 * lt) / D| ≤ 1 / 16 := by
    rw [abs_div, abs_of_pos (by linarith : (0 : ℝ) < D), div_le_iff₀ (by linarith)]
    rw [abs_le] at blt ⊢
    constructor <;> linarith [blt.1, blt.2]
  have bnz : |(wz - 1 * lz) / D| ≤ 1 / 16 := by
    rw [abs_div, abs_of_pos (by linarith : (0 : ℝ) < D), div_le_iff₀ (by linarith)]
    rw [abs_le] at blz bwz ⊢
    constructor <;> linarith [blz.1, blz.2, bwz.1, bwz.2]
  generalize (0 - 1 * lt) / D = nt at *
  generalize (wz - 1 * lz) / D = nz at *
  have p1 : |i * nt| ≤ 1 / 8 := by
    rw [abs_mul, abs_of_nonneg (by linarith : (0 : ℝ) ≤ i)]
    calc i * |nt| ≤ 2 * (1 / 16) := mul_le_mul hi.2 bnt (abs_nonneg _) (by norm_num)
      _ = _ := by norm_num
  have p2 : |lt * nz| ≤ 1 / 8 * (1 / 16) := by
    rw [abs_mul]; exact mul_le_mul blt bnz (abs_nonneg _) (by norm_num)
  have p3 : |lz * nt| ≤ 1 / 4 * (1 / 16) := by
    rw [abs_mul]; exact mul_le_mul blz bnt (abs_nonneg _) (by norm_num)
  have e : (1 + lt + i * nt) * (1 + nz) - (lz + i * nz) * nt = 1 + lt + i * nt + nz + lt * nz - lz * nt := by ring
  rw [e]
  linarith [(abs_le.1 p1).1, (abs_le.1 p2).1, (abs_le.1 p3).2, (abs_le.1 blt).1, (abs_le.1 bnz).1]

theorem Ex.gentle_ready_res (asym : Bool) {M N : ℕ} (hM : 1 ≤ M) (h : (4 * M + 2) * (4 * N + 2) < 2 ^ 30) :
    RunReady { (Ex.gentle asym).inp with mboz := M, nboz := N } { Ex.dims asym with M := M, N := N } :=
  { Ex.ready_res asym hM h with
    lmns := Mat.full_tab 3 2 _
    lmnc := fun _ => Mat.full_tab 3 2 _
    bsubumnc := Mat.full_tab 4 2 _
    bsubvmnc := Mat.full_tab 4 2 _
    bsubumns := fun _ => Mat.full_tab 4 2 _
    bsubvmns := fun _ => Mat.full_tab 4 2 _ }

/-- C66 on both surfaces of the example. -/
theorem Ex.gentle_coordinates (asym : Bool) {js : ℕ} (hj : js < 2) : Coordinates (surface (Ex.gentle asym).inp asym js) 2 :=
  C66_coordinates (d := Ex.dims asym) (Ex.gentle_ready asym) (Ex.fieldPeriodic (α := ℝ) asym) js (Ex.gentle_regular asym hj).1
    (fun θ ζ => (lt_trans (by norm_num) (Ex.gentle_det asym hj θ ζ)).ne')

example (asym : Bool) {js : ℕ} (hj : js < 2) : Surjective (surface (Ex.inputs asym) asym js).boozer :=
  C66_all_angles (d := Ex.dims asym) (Ex.ready asym) (Ex.fieldPeriodic asym) js (Ex.regular asym hj).1

/-- There is a function as in C67 for |B| of the example, and its coefficients are the integrals. -/
example (asym : Bool) : ∃ f, Continuous (uncurry f) ∧ TorusFn f ∧
    (surface (Ex.gentle asym).inp asym 0).Expresses f (surface (Ex.gentle asym).inp asym 0).B ∧
    (surface (Ex.gentle asym).inp asym 0).integralCos (surface (Ex.gentle asym).inp asym 0).B 1 (-2) =
      fourierCos f 1 (-2) := by
  obtain ⟨-, -, -, -, pB⟩ := surf_per (Ex.gentle_ready asym) (Ex.fieldPeriodic (α := ℝ) asym) asym 0
  obtain ⟨f, ⟨ef, sf, p1, p2⟩, -⟩ := (Ex.gentle_coordinates asym (by omega : 0 < 2)).express _
    (smooth_surface (Ex.gentle asym).inp asym 0).B pB.1 pB.2
  have tf : TorusFn f := ⟨p1, fun t z => by
    simpa using (PerF.torus (nfp := 2) (by omega) ⟨p1, p2⟩).2 (t, z)⟩
  have cf : Continuous (uncurry f) := sf.continuous
  exact ⟨f, cf, tf, ef, (C67_coefficients (d := Ex.dims asym) (Ex.gentle_ready asym) (Ex.fieldPeriodic (α := ℝ) asym) 0
    cf tf ef 1 (-2)).1⟩

example (asym : Bool) : ∃ C, ∀ (M N : ℕ), 1 ≤ M → (4 * M + 2) * (4 * N + 2) < 2 ^ 30 → ∀ out g dbg,
    let s1 : St ℝ := { Ex.gentle asym with inp := { (Ex.gentle asym).inp with mboz := M, nboz := N }, out := out, grid := g }
    ∃ s' r, run dbg s1 = .ok (s', r) ∧ ∀ b < 2, ∀ k < numModes M N,
      s'.out.xm_b.rdN k = .ok 1 → s'.out.xn_b.rdN k = .ok (-2) →
      IsBoozerSpectrum s'.out (surface (Ex.gentle asym).inp asym (selected (Ex.gentle asym).inp b)) asym k b 1 (-2)
        (C * gridError M N 7) := by
  obtain ⟨C, -, hC⟩ := C67_outputs (s := Ex.gentle asym) (d := Ex.dims asym) (Ex.gentle_ready asym)
    (Ex.fieldPeriodic (α := ℝ) asym) (Ex.originOnce (α := ℝ) asym)
    (fun b hb => Ex.gentle_regular asym (Ex.selected_lt asym b hb)) 1 (-2) (p := 7) (by omega)
  exact ⟨C, fun M N hM hf out g dbg => hC M N _ dbg rfl (Ex.gentle_ready_res asym hM hf)⟩

example (asym : Bool) : ∃ K0 : ℕ, ∀ K, K0 ≤ K → ∃ C, ∀ (M N : ℕ), K < M → K ≤ N → (4 * M + 2) * (4 * N + 2) < 2 ^ 30 →
    ∀ out g dbg,
    let s1 : St ℝ := { Ex.gentle asym with inp := { (Ex.gentle asym).inp with mboz := M, nboz := N }, out := out, grid := g }
    ∃ s' r, run dbg s1 = .ok (s', r) ∧ ∀ b < 2,
      Reconstructs s'.out (surface (Ex.gentle asym).inp asym (selected (Ex.gentle asym).inp b)) asym (numModes M N) b K
        (K * 2) (1 / 1000 + C * gridError M N 3) := by
  obtain ⟨K0, hK⟩ := C68_reconstruct (s := Ex.gentle asym) (d := Ex.dims asym) (Ex.gentle_ready asym)
    (Ex.fieldPeriodic (α := ℝ) asym) (Ex.originOnce (α := ℝ) asym)
    (fun b hb => Ex.gentle_regular asym (Ex.selected_lt asym b hb))
    (fun b hb θ ζ => (lt_trans (by norm_num) (Ex.gentle_det asym (Ex.selected_lt asym b hb) θ ζ)).ne')
    (p := 3) (by omega) (ε := 1 / 1000) (by norm_num)
  refine ⟨K0, fun K hKK => ?_⟩
  obtain ⟨C, -, hC⟩ := hK K hKK
  exact ⟨C, fun M N hKM hKN hf out g dbg => hC M N _ dbg hKM hKN rfl (Ex.gentle_ready_res asym (by omega) hf)⟩

end Booz
