import Verif.Spec.Integral
import Verif.Lemmas.Smooth
import Verif.Props.Quadrature
import Mathlib.Analysis.SpecialFunctions.Trigonometric.Deriv

/-!
# C52: the output harmonics converge to the theory's integrals, faster than every power of the grid size
-/

namespace Booz
open Spec Trapezoid Finset Function

/-! ### Smoothness -/

theorem smooth_series (K : ℕ) (m n : ℕ → ℤ) (c s : ℕ → ℝ) : Smooth (uncurry (series K m n c s)) := by
  have : uncurry (series K m n c s) = fun x => ∑ k ∈ range K,
      (c k * Real.cos (m k * x.1 - n k * x.2) + s k * Real.sin (m k * x.1 - n k * x.2)) := by
    funext x
    rfl
  rw [this]
  refine ContDiff.sum fun k _ => ?_
  have h1 : ContDiff ℝ (⊤ : ℕ∞) fun x : ℝ × ℝ => (m k : ℝ) * x.1 - n k * x.2 := by fun_prop
  exact (contDiff_const.mul (Real.contDiff_cos.comp h1)).add (contDiff_const.mul (Real.contDiff_sin.comp h1))

/-- The functions describing a surface are smooth. -/
structure SmoothSurface (S : Surface) : Prop where
  lam : Smooth (uncurry S.lam)
  w : Smooth (uncurry S.w)
  R : Smooth (uncurry S.R)
  Z : Smooth (uncurry S.Z)
  B : Smooth (uncurry S.B)

theorem smooth_surface (I : Inputs ℝ) (asym : Bool) (js : ℕ) : SmoothSurface (surface I asym js) :=
  ⟨smooth_series _ _ _ _ _, smooth_series _ _ _ _ _, smooth_series _ _ _ _ _, smooth_series _ _ _ _ _,
    smooth_series _ _ _ _ _⟩

variable {S : Surface}

theorem SmoothSurface.nu (h : SmoothSurface S) : Smooth (uncurry S.nu) :=
  (h.w.sub (contDiff_const.mul h.lam)).div_const _

theorem SmoothSurface.thetaB (h : SmoothSurface S) : Smooth (uncurry S.thetaB) :=
  (contDiff_fst.add h.lam).add (contDiff_const.mul h.nu)

theorem SmoothSurface.zetaB (h : SmoothSurface S) : Smooth (uncurry S.zetaB) := contDiff_snd.add h.nu

theorem SmoothSurface.det (h : SmoothSurface S) : Smooth (uncurry S.det) := by
  have : uncurry S.det = fun x => D1 (uncurry S.thetaB) x * D2 (uncurry S.zetaB) x -
      D2 (uncurry S.thetaB) x * D1 (uncurry S.zetaB) x := by
    funext ⟨θ, ζ⟩
    show S.det θ ζ = _
    unfold Surface.det
    rw [← (h.thetaB.hasDeriv1 θ ζ).deriv, ← (h.zetaB.hasDeriv2 θ ζ).deriv, ← (h.thetaB.hasDeriv2 θ ζ).deriv,
      ← (h.zetaB.hasDeriv1 θ ζ).deriv]
    rfl
  rw [this]
  exact (h.thetaB.d1.mul h.zetaB.d2).sub (h.thetaB.d2.mul h.zetaB.d1)

theorem SmoothSurface.jacobian (h : SmoothSurface S) (hB : ∀ θ ζ, S.B θ ζ ≠ 0) : Smooth (uncurry S.jacobian) :=
  contDiff_const.div (h.B.pow 2) fun x => pow_ne_zero 2 (hB x.1 x.2)

theorem SmoothSurface.intC (h : SmoothSurface S) {q : ℝ → ℝ → ℝ} (hq : Smooth (uncurry q)) (m n : ℤ) :
    Smooth (uncurry (intC S q m n)) :=
  (hq.mul h.det).mul (Real.contDiff_cos.comp ((contDiff_const.mul h.thetaB).sub (contDiff_const.mul h.zetaB)))

theorem SmoothSurface.intS (h : SmoothSurface S) {q : ℝ → ℝ → ℝ} (hq : Smooth (uncurry q)) (m n : ℤ) :
    Smooth (uncurry (intS S q m n)) :=
  (hq.mul h.det).mul (Real.contDiff_sin.comp ((contDiff_const.mul h.thetaB).sub (contDiff_const.mul h.zetaB)))

theorem PerF.dper {nfp : ℕ} {f : ℝ → ℝ → ℝ} (h : PerF nfp f) : DPer (2 * Real.pi) (2 * Real.pi / nfp) (uncurry f) := by
  constructor
  · rintro ⟨θ, ζ⟩
    show f (θ + 2 * Real.pi) (ζ + 0) = f θ ζ
    rw [add_zero, h.1]
  · rintro ⟨θ, ζ⟩
    show f (θ + 0) (ζ + 2 * Real.pi / nfp) = f θ ζ
    rw [add_zero, h.2]

/-! ### Integrals over one field period and over the torus -/

theorem mean2_eq {nfp : ℕ} (hp : 1 ≤ nfp) {f : ℝ → ℝ → ℝ} (h : PerF nfp f) (hc : Continuous (uncurry f)) :
    mean2 (2 * Real.pi) (2 * Real.pi / nfp) (uncurry f) =
      1 / (4 * Real.pi ^ 2) * ∫ θ in (0 : ℝ)..2 * Real.pi, ∫ ζ in (0 : ℝ)..2 * Real.pi, f θ ζ := by
  have hnf : (nfp : ℝ) ≠ 0 := by positivity
  have e : ∀ θ, mean (2 * Real.pi / nfp) (fun ζ => uncurry f (θ, ζ)) =
      (∫ ζ in (0 : ℝ)..2 * Real.pi, f θ ζ) / (2 * Real.pi) := by
    intro θ
    have hpz := h.dper.slice2 θ
    have hcz : Continuous fun ζ => uncurry f (θ, ζ) := hc.comp (by fun_prop)
    have := hpz.intervalIntegral_add_zsmul_eq (nfp : ℤ) 0 fun a b => hcz.intervalIntegrable a b
    rw [zero_add, zero_add, zsmul_eq_mul, zsmul_eq_mul, Int.cast_natCast, mul_div_cancel₀ _ hnf] at this
    unfold mean
    have this' : (∫ ζ in (0 : ℝ)..2 * Real.pi, f θ ζ) = _ := this
    rw [this']
    field_simp
  unfold mean2
  simp only [e]
  unfold mean
  rw [intervalIntegral.integral_div]
  field_simp
  ring

theorem gridMean_eq (nt nz nfp : ℕ) (f : ℝ → ℝ → ℝ) :
    gridMean (2 * Real.pi) (2 * Real.pi / nfp) nt nz (uncurry f) =
      1 / ((nt : ℝ) * nz) * ∑ a ∈ range nt, ∑ b ∈ range nz, f (2 * Real.pi * a / nt) (2 * Real.pi * b / (nfp * nz)) := by
  unfold gridMean
  rw [div_eq_mul_one_div, mul_comm]
  congr 1
  refine sum_congr rfl fun a _ => sum_congr rfl fun b _ => ?_
  show f _ _ = f _ _
  congr 1
  rw [div_mul_eq_mul_div, div_div]

/-- Error of the quadrature, for any smooth quantity. -/
theorem quad_error {nfp : ℕ} (hp : 1 ≤ nfp) (h : SmoothSurface S) (hl : PerF nfp S.lam) (hw : PerF nfp S.w)
    {q : ℝ → ℝ → ℝ} (hq : PerF nfp q) (hqs : Smooth (uncurry q)) (m n : ℤ) (hn : (nfp : ℤ) ∣ n) {p : ℕ} (hp1 : 1 ≤ p) :
    ∃ C, 0 ≤ C ∧ ∀ nt nz : ℕ, 1 ≤ nt → 1 ≤ nz →
      |S.quadCos nt nz nfp q m n - S.integralCos q m n| ≤ C * ((1 / (nt : ℝ)) ^ p + (1 / (nz : ℝ)) ^ p) ∧
      |S.quadSin nt nz nfp q m n - S.integralSin q m n| ≤ C * ((1 / (nt : ℝ)) ^ p + (1 / (nz : ℝ)) ^ p) := by
  have hP : 0 < 2 * Real.pi := by positivity
  have hQ : 0 < 2 * Real.pi / nfp := by positivity
  obtain ⟨C1, h1⟩ := grid_error hP hQ (intC_per hp hl hw hq m n hn).dper (h.intC hqs m n) hp1
  obtain ⟨C2, h2⟩ := grid_error hP hQ (intS_per hp hl hw hq m n hn).dper (h.intS hqs m n) hp1
  set f : ℝ := if m = 0 ∧ n = 0 then 1 else 2 with hf
  have hf2 : |f| ≤ 2 := by rw [hf]; split <;> norm_num
  refine ⟨2 * max 0 (max C1 C2), by positivity, fun nt nz hnt hnz => ?_⟩
  have hnt0 : (nt : ℝ) ≠ 0 := by positivity
  have hnz0 : (nz : ℝ) ≠ 0 := by positivity
  have he : (0 : ℝ) ≤ (1 / (nt : ℝ)) ^ p + (1 / (nz : ℝ)) ^ p := by positivity
  have fin : ∀ (x C : ℝ), C ≤ max C1 C2 → |x| ≤ C * ((1 / (nt : ℝ)) ^ p + (1 / (nz : ℝ)) ^ p) →
      |f * x| ≤ 2 * max 0 (max C1 C2) * ((1 / (nt : ℝ)) ^ p + (1 / (nz : ℝ)) ^ p) := by
    intro x C hC hx
    rw [abs_mul, mul_assoc]
    refine mul_le_mul hf2 (hx.trans ?_) (abs_nonneg _) (by norm_num)
    exact mul_le_mul_of_nonneg_right (hC.trans (le_max_right _ _)) he
  constructor
  · have := fin _ C1 (le_max_left _ _) (h1 nt nz hnt hnz)
    rw [gridMean_eq, mean2_eq hp (intC_per hp hl hw hq m n hn) (h.intC hqs m n).continuous, mul_sub, ← mul_assoc,
      ← mul_assoc, mul_one_div, mul_one_div] at this
    exact this
  · have := fin _ C2 (le_max_right _ _) (h2 nt nz hnt hnz)
    rw [gridMean_eq, mean2_eq hp (intS_per hp hl hw hq m n hn) (h.intS hqs m n).continuous, mul_sub, ← mul_assoc,
      ← mul_assoc, mul_one_div, mul_one_div] at this
    exact this

/-! ### Runs -/

/-- One constant for all quantities of a surface. -/
theorem surface_error {I : Inputs ℝ} {d : Dims} (h : RunReady I d) (hp : FieldPeriodic I d.nfp) {js : ℕ}
    (hreg : (surface I d.asym js).Regular) {m n : ℤ} (hn : (d.nfp : ℤ) ∣ n) {p : ℕ} (hp1 : 1 ≤ p) :
    let S := surface I d.asym js
    ∃ C, 0 ≤ C ∧ ∀ q ∈ [S.B, S.R, S.Z, S.nu, S.jacobian], ∀ nt nz : ℕ, 1 ≤ nt → 1 ≤ nz →
      |S.quadCos nt nz d.nfp q m n - S.integralCos q m n| ≤ C * ((1 / (nt : ℝ)) ^ p + (1 / (nz : ℝ)) ^ p) ∧
      |S.quadSin nt nz d.nfp q m n - S.integralSin q m n| ≤ C * ((1 / (nt : ℝ)) ^ p + (1 / (nz : ℝ)) ^ p) := by
  intro S
  obtain ⟨pl, pw, pR, pZ, pB⟩ := surf_per h hp d.asym js
  have hs := smooth_surface I d.asym js
  have all : ∀ qs : List (ℝ → ℝ → ℝ), (∀ q ∈ qs, PerF d.nfp q ∧ Smooth (uncurry q)) →
      ∃ C, 0 ≤ C ∧ ∀ q ∈ qs, ∀ nt nz : ℕ, 1 ≤ nt → 1 ≤ nz →
      |S.quadCos nt nz d.nfp q m n - S.integralCos q m n| ≤ C * ((1 / (nt : ℝ)) ^ p + (1 / (nz : ℝ)) ^ p) ∧
      |S.quadSin nt nz d.nfp q m n - S.integralSin q m n| ≤ C * ((1 / (nt : ℝ)) ^ p + (1 / (nz : ℝ)) ^ p) := by
    intro qs
    induction qs with
    | nil => exact fun _ => ⟨0, le_refl 0, fun q hq => absurd hq (by simp)⟩
    | cons q qs ih =>
      intro hqs
      obtain ⟨C1, hC1, h1⟩ := ih fun q' hq' => hqs q' (List.mem_cons_of_mem _ hq')
      obtain ⟨hq1, hq2⟩ := hqs q List.mem_cons_self
      obtain ⟨C2, hC2, h2⟩ := quad_error h.nfp_pos hs pl pw hq1 hq2 m n hn hp1
      refine ⟨C1 + C2, by positivity, fun q' hq' nt nz hnt hnz => ?_⟩
      have he : (0 : ℝ) ≤ (1 / (nt : ℝ)) ^ p + (1 / (nz : ℝ)) ^ p := by positivity
      have a1 := mul_nonneg hC1 he
      have a2 := mul_nonneg hC2 he
      rw [add_mul]
      rcases List.mem_cons.1 hq' with rfl | hq'
      · obtain ⟨b1, b2⟩ := h2 nt nz hnt hnz
        exact ⟨b1.trans (by linarith), b2.trans (by linarith)⟩
      · obtain ⟨b1, b2⟩ := h1 q' hq' nt nz hnt hnz
        exact ⟨b1.trans (by linarith), b2.trans (by linarith)⟩
  refine all _ fun q hq => ?_
  simp only [List.mem_cons, List.not_mem_nil, or_false] at hq
  rcases hq with rfl | rfl | rfl | rfl | rfl
  · exact ⟨pB, hs.B⟩
  · exact ⟨pR, hs.R⟩
  · exact ⟨pZ, hs.Z⟩
  · exact ⟨nu_per pl pw, hs.nu⟩
  · exact ⟨jac_per pB, hs.jacobian hreg.2⟩

theorem ntheta_pos (M : ℕ) : 1 ≤ ntheta M := by unfold ntheta; omega
theorem nzeta_pos (N : ℕ) : 1 ≤ nzeta N := by unfold nzeta; split <;> omega

/-- **C52.** For fixed input data and a fixed mode (m, n), and for every order `p`, there is one constant
`C` such that for *every* resolution `mboz = M`, `nboz = N` the harmonics of that mode computed by `run()`
differ from the integrals of the theory section by at most `C (1/ntheta^p + 1/nzeta^p)`.  The same constant
serves for all grids, also those too large for a run with 32-bit sizes (first part). -/
theorem C52_convergence {s : St ℝ} {d : Dims} (h : RunReady s.inp d) (hp : FieldPeriodic s.inp d.nfp)
    (ho : OriginOnce s.inp) (hreg : ∀ b < d.nsb, (surface s.inp d.asym (selected s.inp b)).Regular)
    (m n : ℤ) {p : ℕ} (hp1 : 1 ≤ p) :
    ∃ C, (∀ b < d.nsb, (d.nfp : ℤ) ∣ n →
      let S := surface s.inp d.asym (selected s.inp b)
      ∀ q ∈ [S.B, S.R, S.Z, S.nu, S.jacobian], ∀ nt nz : ℕ, 1 ≤ nt → 1 ≤ nz →
      |S.quadCos nt nz d.nfp q m n - S.integralCos q m n| ≤ C * ((1 / (nt : ℝ)) ^ p + (1 / (nz : ℝ)) ^ p) ∧
      |S.quadSin nt nz d.nfp q m n - S.integralSin q m n| ≤ C * ((1 / (nt : ℝ)) ^ p + (1 / (nz : ℝ)) ^ p)) ∧
    ∀ (M N : ℕ) (s1 : St ℝ) (dbg : Bool), s1.inp = { s.inp with mboz := M, nboz := N } →
      RunReady s1.inp { d with M := M, N := N } →
      ∃ s' r, run dbg s1 = .ok (s', r) ∧ ∀ b < d.nsb, ∀ k < numModes M N,
        s'.out.xm_b.rdN k = .ok m → s'.out.xn_b.rdN k = .ok n →
        Approximates s'.out (surface s.inp d.asym (selected s.inp b)) d.asym k b m n (C * gridError M N p) := by
  have key : ∀ J, J ≤ d.nsb → ∃ C, 0 ≤ C ∧ ∀ b < J, (d.nfp : ℤ) ∣ n →
      let S := surface s.inp d.asym (selected s.inp b)
      ∀ q ∈ [S.B, S.R, S.Z, S.nu, S.jacobian], ∀ nt nz : ℕ, 1 ≤ nt → 1 ≤ nz →
      |S.quadCos nt nz d.nfp q m n - S.integralCos q m n| ≤ C * ((1 / (nt : ℝ)) ^ p + (1 / (nz : ℝ)) ^ p) ∧
      |S.quadSin nt nz d.nfp q m n - S.integralSin q m n| ≤ C * ((1 / (nt : ℝ)) ^ p + (1 / (nz : ℝ)) ^ p) := by
    by_cases hn : (d.nfp : ℤ) ∣ n
    · intro J
      induction J with
      | zero => exact fun _ => ⟨0, le_refl 0, fun b hb => absurd hb (by omega)⟩
      | succ J ih =>
        intro hJ
        obtain ⟨C1, hC1, h1⟩ := ih (by omega)
        obtain ⟨C2, hC2, h2⟩ := surface_error h hp (hreg J (by omega)) hn hp1
        refine ⟨C1 + C2, by positivity, fun b hb hn q hq nt nz hnt hnz => ?_⟩
        have he : (0 : ℝ) ≤ (1 / (nt : ℝ)) ^ p + (1 / (nz : ℝ)) ^ p := by positivity
        have a1 := mul_nonneg hC1 he
        have a2 := mul_nonneg hC2 he
        rw [add_mul]
        rcases Nat.lt_succ_iff_lt_or_eq.1 hb with hb | rfl
        · obtain ⟨b1, b2⟩ := h1 b hb hn q hq nt nz hnt hnz
          exact ⟨b1.trans (by linarith), b2.trans (by linarith)⟩
        · obtain ⟨b1, b2⟩ := h2 q hq nt nz hnt hnz
          exact ⟨b1.trans (by linarith), b2.trans (by linarith)⟩
    · exact fun J _ => ⟨0, le_refl 0, fun b _ hn' => absurd hn' hn⟩
  obtain ⟨C, _, hC⟩ := key d.nsb le_rfl
  refine ⟨C, hC, fun M N s1 dbg e h1 => ?_⟩
  have hp' : FieldPeriodic s1.inp ({ d with M := M, N := N } : Dims).nfp := by rw [e]; exact hp
  have ho' : OriginOnce s1.inp := by rw [e]; exact ho
  refine ⟨_, _, run_real h1 fun _ => originOnce_first h1 ho', fun b hb k hk hm hn => ?_⟩
  have hs := isSpectrum_runSt h1 hp' ho' (b := b) hb k hk
  have eS : surface s1.inp ({ d with M := M, N := N } : Dims).asym (selected s1.inp b) =
      surface s.inp d.asym (selected s.inp b) := by rw [e]; rfl
  rw [eS] at hs
  obtain ⟨m', n', e1, e2, r1, r2, r3, r4, r5, r6⟩ := hs
  obtain rfl : m = m' := Except.ok.inj (hm.symm.trans e1)
  obtain rfl : n = n' := Except.ok.inj (hn.symm.trans e2)
  have hdvd : (d.nfp : ℤ) ∣ n := by
    have e3 : (runSt { d with M := M, N := N } s1 ({ d with M := M, N := N } : Dims).nsb).out.xn_b.rdN k =
        .ok (modeN N k * d.nfp) := Vec.rdN_tab hk
    obtain rfl := Except.ok.inj (e2.symm.trans e3)
    exact Dvd.intro_left _ rfl
  have hq := hC b hb hdvd
  have cC : ∀ {a : Mat ℝ} {q : ℝ → ℝ → ℝ}, a.rdN k b = .ok ((surface s.inp d.asym (selected s.inp b)).quadCos
      (ntheta M) (nzeta N) d.nfp q m n) → q ∈ _ → Near a k b _ (C * gridError M N p) := fun {a q} ha hm =>
    ⟨_, ha, (hq q hm _ _ (ntheta_pos M) (nzeta_pos N)).1⟩
  have cS : ∀ {a : Mat ℝ} {q : ℝ → ℝ → ℝ}, a.rdN k b = .ok ((surface s.inp d.asym (selected s.inp b)).quadSin
      (ntheta M) (nzeta N) d.nfp q m n) → q ∈ _ → Near a k b _ (C * gridError M N p) := fun {a q} ha hm =>
    ⟨_, ha, (hq q hm _ _ (ntheta_pos M) (nzeta_pos N)).2⟩
  exact ⟨cC r1 (by simp), cC r2 (by simp), cS r3 (by simp), cS r4 (by simp), cC r5 (by simp),
    fun ha => cS (r6 ha).1 (by simp), fun ha => cS (r6 ha).2.1 (by simp), fun ha => cC (r6 ha).2.2.1 (by simp),
    fun ha => cC (r6 ha).2.2.2.1 (by simp), fun ha => cS (r6 ha).2.2.2.2 (by simp)⟩

/-- The quadratures tend to the integrals as the resolution grows. -/
theorem C52_limit {I : Inputs ℝ} {d : Dims} (h : RunReady I d) (hp : FieldPeriodic I d.nfp) {js : ℕ}
    (hreg : (surface I d.asym js).Regular) {m n : ℤ} (hn : (d.nfp : ℤ) ∣ n) :
    let S := surface I d.asym js
    ∀ q ∈ [S.B, S.R, S.Z, S.nu, S.jacobian],
      Filter.Tendsto (fun x : ℕ × ℕ => S.quadCos (ntheta x.1) (nzeta x.2) d.nfp q m n) Filter.atTop
        (nhds (S.integralCos q m n)) ∧
      Filter.Tendsto (fun x : ℕ × ℕ => S.quadSin (ntheta x.1) (nzeta x.2) d.nfp q m n) Filter.atTop
        (nhds (S.integralSin q m n)) := by
  intro S q hq
  obtain ⟨C, hC, hb⟩ := surface_error h hp hreg hn (le_refl 1)
  have small : Filter.Tendsto (fun x : ℕ × ℕ => C * ((1 / (ntheta x.1 : ℝ)) ^ 1 + (1 / (nzeta x.2 : ℝ)) ^ 1))
      Filter.atTop (nhds 0) := by
    rw [← mul_zero C]
    refine Filter.Tendsto.const_mul C ?_
    simp only [pow_one]
    rw [← add_zero (0 : ℝ)]
    rw [← Filter.prod_atTop_atTop_eq]
    refine Filter.Tendsto.add ?_ ?_
    · refine (tendsto_one_div_atTop_nhds_zero_nat.comp ?_).comp Filter.tendsto_fst
      exact Filter.tendsto_atTop_mono (fun M => by show M ≤ 4 * M + 2; omega) Filter.tendsto_id
    · refine (tendsto_one_div_atTop_nhds_zero_nat.comp ?_).comp Filter.tendsto_snd
      exact Filter.tendsto_atTop_mono (fun N => by show N ≤ nzeta N; unfold nzeta; split <;> omega) Filter.tendsto_id
  constructor
  · refine tendsto_iff_dist_tendsto_zero.2 (squeeze_zero (fun _ => dist_nonneg) (fun x => ?_) small)
    exact (hb q hq _ _ (ntheta_pos x.1) (nzeta_pos x.2)).1
  · refine tendsto_iff_dist_tendsto_zero.2 (squeeze_zero (fun _ => dist_nonneg) (fun x => ?_) small)
    exact (hb q hq _ _ (ntheta_pos x.1) (nzeta_pos x.2)).2

/-! Non-vacuity: the example object, all resolutions for which the sizes fit in an `int`. -/

theorem Ex.ready_res (asym : Bool) {M N : ℕ} (hM : 1 ≤ M) (h : (4 * M + 2) * (4 * N + 2) < 2 ^ 30) :
    RunReady { Ex.inputs (α := ℝ) asym with mboz := M, nboz := N } { Ex.dims asym with M := M, N := N } := by
  have hz : ({ Ex.dims asym with M := M, N := N } : Dims).nz ≤ 4 * N + 2 := by
    show (if N = 0 then 1 else 2 * (2 * N + 1)) ≤ _
    split <;> omega
  have ht : ({ Ex.dims asym with M := M, N := N } : Dims).nu3 ≤ 4 * M + 2 := by
    show (if asym then 2 * (2 * M + 1) else 2 * M + 2) ≤ _
    split <;> omega
  have a1 := Nat.mul_le_mul ht hz
  have a2 : (4 * M + 2) * 1 ≤ (4 * M + 2) * (4 * N + 2) := Nat.mul_le_mul le_rfl (by omega)
  have a3 : 1 * (4 * N + 2) ≤ (4 * M + 2) * (4 * N + 2) := Nat.mul_le_mul (by omega) le_rfl
  have b := Ex.ready (α := ℝ) asym
  exact { b with
    mboz := rfl, mboz_ge := hM, nboz := rfl
    fit_theta := by show 2 * (2 * M + 1) < _; omega
    fit_zeta := by show 2 * (2 * N + 1) < _; omega
    fit_pts := by show _ * _ < _; omega
    fit_nfp := by show 2 * _ < _; omega }

example (asym : Bool) : ∃ C, ∀ (M N : ℕ), 1 ≤ M → (4 * M + 2) * (4 * N + 2) < 2 ^ 30 → ∀ out g dbg,
    let s1 : St ℝ := { Ex.st asym with inp := { Ex.inputs asym with mboz := M, nboz := N }, out := out, grid := g }
    ∃ s' r, run dbg s1 = .ok (s', r) ∧ ∀ b < 2, ∀ k < numModes M N,
      s'.out.xm_b.rdN k = .ok 1 → s'.out.xn_b.rdN k = .ok (-2) →
      Approximates s'.out (surface (Ex.inputs asym) asym (selected (Ex.inputs (α := ℝ) asym) b)) asym k b 1 (-2)
        (C * gridError M N 7) := by
  obtain ⟨C, -, hC⟩ := C52_convergence (s := Ex.st asym) (d := Ex.dims asym) (Ex.ready asym) (Ex.fieldPeriodic asym)
    (Ex.originOnce asym) (fun b hb => Ex.regular asym (Ex.selected_lt asym b hb)) 1 (-2) (p := 7) (by omega)
  exact ⟨C, fun M N hM hf out g dbg => hC M N _ dbg rfl (Ex.ready_res asym hM hf)⟩

example (asym : Bool) : Filter.Tendsto (fun x : ℕ × ℕ => (surface (Ex.inputs asym) asym 0).quadCos (ntheta x.1)
    (nzeta x.2) 2 (surface (Ex.inputs asym) asym 0).B 1 2) Filter.atTop
    (nhds ((surface (Ex.inputs asym) asym 0).integralCos (surface (Ex.inputs asym) asym 0).B 1 2)) :=
  (C52_limit (d := Ex.dims asym) (Ex.ready asym) (Ex.fieldPeriodic asym) (Ex.regular asym (by omega))
    ⟨1, rfl⟩ _ List.mem_cons_self).1

end Booz
