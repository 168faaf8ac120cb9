import Verif.Spec.Exponential
import Verif.Lemmas.Strip
import Verif.Lemmas.RealTrig
import Verif.Props.Convergence

/-!
# C82: the output harmonics converge to the theory's integrals exponentially
-/

namespace Booz
open Spec Trapezoid Finset Function

variable {a : ℝ} {S : Surface} {I : Inputs ℝ}

/-! ### Analyticity -/

theorem series_An2 (K : ℕ) (m n : ℕ → ℤ) (c s : ℕ → ℝ) : An2 a (series K m n c s) := by
  unfold series
  exact An2.sum _ fun k _ => ((cos_angle_An2 _ _).const_mul _).add ((sin_angle_An2 _ _).const_mul _)

/-- Entire in each angle, with its first derivatives. -/
structure AnD (a : ℝ) (f : ℝ → ℝ → ℝ) : Prop where
  an : An2 a f
  dt : ∃ f1 : ℝ → ℝ → ℝ, (∀ θ ζ, HasDerivAt (fun t => f t ζ) (f1 θ ζ) θ) ∧ An2 a f1
  dz : ∃ f2 : ℝ → ℝ → ℝ, (∀ θ ζ, HasDerivAt (fun z => f θ z) (f2 θ ζ) ζ) ∧ An2 a f2

theorem series_AnD (K : ℕ) (m n : ℕ → ℤ) (c s : ℕ → ℝ) : AnD a (series K m n c s) :=
  ⟨series_An2 _ _ _ _ _, ⟨_, series_deriv_theta K m n c s, series_An2 _ _ _ _ _⟩,
    ⟨_, series_deriv_zeta K m n c s, series_An2 _ _ _ _ _⟩⟩

/-- The functions describing a surface are analytic. -/
structure AnSurface (a : ℝ) (S : Surface) : Prop where
  lam : AnD a S.lam
  w : AnD a S.w
  R : An2 a S.R
  Z : An2 a S.Z
  B : An2 a S.B

theorem an_surface (I : Inputs ℝ) (asym : Bool) (js : ℕ) : AnSurface a (surface I asym js) :=
  ⟨series_AnD _ _ _ _ _, series_AnD _ _ _ _ _, series_An2 _ _ _ _ _, series_An2 _ _ _ _ _, series_An2 _ _ _ _ _⟩

theorem AnSurface.nu (h : AnSurface a S) : AnD a S.nu := by
  obtain ⟨l1, dl1, al1⟩ := h.lam.dt
  obtain ⟨l2, dl2, al2⟩ := h.lam.dz
  obtain ⟨w1, dw1, aw1⟩ := h.w.dt
  obtain ⟨w2, dw2, aw2⟩ := h.w.dz
  set D := S.G + S.iota * S.I with hD
  have comb : ∀ {u v : ℝ → ℝ → ℝ}, An2 a u → An2 a v → An2 a fun θ ζ => (u θ ζ - S.I * v θ ζ) / D := by
    intro u v hu hv
    have := (hu.sub (hv.const_mul S.I)).const_mul D⁻¹
    have e : (fun θ ζ => (u θ ζ - S.I * v θ ζ) / D) = fun θ ζ => D⁻¹ * (u θ ζ - S.I * v θ ζ) := by
      funext θ ζ; rw [div_eq_inv_mul]
    rw [e]
    exact this
  exact ⟨comb h.w.an h.lam.an,
    ⟨_, fun θ ζ => ((dw1 θ ζ).sub ((dl1 θ ζ).const_mul S.I)).div_const D, comb aw1 al1⟩,
    ⟨_, fun θ ζ => ((dw2 θ ζ).sub ((dl2 θ ζ).const_mul S.I)).div_const D, comb aw2 al2⟩⟩

theorem AnSurface.det (h : AnSurface a S) : An2 a S.det := by
  obtain ⟨l1, dl1, al1⟩ := h.lam.dt
  obtain ⟨l2, dl2, al2⟩ := h.lam.dz
  obtain ⟨n1, dn1, an1⟩ := h.nu.dt
  obtain ⟨n2, dn2, an2⟩ := h.nu.dz
  have e : S.det = fun θ ζ => (1 + l1 θ ζ + S.iota * n1 θ ζ) * (1 + n2 θ ζ) -
      (l2 θ ζ + S.iota * n2 θ ζ) * n1 θ ζ := by
    funext θ ζ
    have t1 : HasDerivAt (fun t => S.thetaB t ζ) (1 + l1 θ ζ + S.iota * n1 θ ζ) θ :=
      ((hasDerivAt_id θ).add (dl1 θ ζ)).add ((dn1 θ ζ).const_mul _)
    have t2 : HasDerivAt (fun z => S.thetaB θ z) (l2 θ ζ + S.iota * n2 θ ζ) ζ :=
      ((dl2 θ ζ).const_add θ).add ((dn2 θ ζ).const_mul _)
    have z1 : HasDerivAt (fun t => S.zetaB t ζ) (n1 θ ζ) θ := (dn1 θ ζ).const_add ζ
    have z2 : HasDerivAt (fun z => S.zetaB θ z) (1 + n2 θ ζ) ζ := (hasDerivAt_id ζ).add (dn2 θ ζ)
    unfold Surface.det
    rw [t1.deriv, t2.deriv, z1.deriv, z2.deriv]
  rw [e]
  exact ((((An2.const 1).add al1).add (an1.const_mul _)).mul ((An2.const 1).add an2)).sub
    ((al2.add (an2.const_mul _)).mul an1)

/-- Boozer phase, apart from the linear part. -/
theorem AnSurface.phase (h : AnSurface a S) (m n : ℤ) :
    An2 a (fun θ ζ => Real.cos (m * S.thetaB θ ζ - n * S.zetaB θ ζ)) ∧
    An2 a (fun θ ζ => Real.sin (m * S.thetaB θ ζ - n * S.zetaB θ ζ)) := by
  have hp : An2 a fun θ ζ => (m : ℝ) * S.lam θ ζ + (m * S.iota - n) * S.nu θ ζ :=
    (h.lam.an.const_mul _).add (h.nu.an.const_mul _)
  generalize hP : (fun θ ζ => (m : ℝ) * S.lam θ ζ + (m * S.iota - n) * S.nu θ ζ) = P at hp
  have e : ∀ θ ζ, (m : ℝ) * S.thetaB θ ζ - n * S.zetaB θ ζ = (m * θ - n * ζ) + P θ ζ := by
    intro θ ζ
    rw [← hP]
    unfold Surface.thetaB Surface.zetaB
    ring
  simp only [e, Real.cos_add, Real.sin_add]
  exact ⟨((cos_angle_An2 _ _).mul hp.cos).sub ((sin_angle_An2 _ _).mul hp.sin),
    ((sin_angle_An2 _ _).mul hp.cos).add ((cos_angle_An2 _ _).mul hp.sin)⟩

theorem AnSurface.intC (h : AnSurface a S) {q : ℝ → ℝ → ℝ} (hq : An2 a q) (m n : ℤ) : An2 a (intC S q m n) :=
  (hq.mul h.det).mul (h.phase m n).1
theorem AnSurface.intS (h : AnSurface a S) {q : ℝ → ℝ → ℝ} (hq : An2 a q) (m n : ℤ) : An2 a (intS S q m n) :=
  (hq.mul h.det).mul (h.phase m n).2

/-- The Jacobian is analytic in some strip. -/
theorem jacobian_An {nfp : ℕ} (hp : 1 ≤ nfp) (h : AnSurface 1 S) (hs : SmoothSurface S) (pB : PerF nfp S.B)
    (hB : ∀ θ ζ, S.B θ ζ ≠ 0) : ∃ b, 0 < b ∧ b ≤ 1 ∧ An2 b S.jacobian := by
  have hinv : Continuous (uncurry fun θ ζ => (S.B θ ζ)⁻¹) := hs.B.continuous.inv₀ fun x => hB x.1 x.2
  have pinv : PerF nfp fun θ ζ => (S.B θ ζ)⁻¹ :=
    ⟨fun θ ζ => by show (S.B _ _)⁻¹ = _; rw [pB.1], fun θ ζ => by show (S.B _ _)⁻¹ = _; rw [pB.2]⟩
  obtain ⟨L, hL⟩ := pinv.dper.bounded (by positivity) (by positivity) hinv
  have hL0 : 0 ≤ L := (abs_nonneg _).trans (hL (0, 0))
  have hlow : ∀ θ ζ, (L + 1)⁻¹ ≤ |S.B θ ζ| := by
    intro θ ζ
    have h1 : |(S.B θ ζ)⁻¹| ≤ L := hL (θ, ζ)
    rw [abs_inv] at h1
    have h2 : 0 < |S.B θ ζ| := abs_pos.2 (hB θ ζ)
    exact inv_le_of_inv_le₀ h2 (h1.trans (by linarith))
  obtain ⟨b, b0, b1, hb⟩ := h.B.inv one_pos (by positivity) hlow
  refine ⟨b, b0, b1, ?_⟩
  have e : S.jacobian = fun θ ζ => (S.G + S.iota * S.I) * ((S.B θ ζ)⁻¹ * (S.B θ ζ)⁻¹) := by
    funext θ ζ
    unfold Surface.jacobian
    rw [div_eq_mul_inv, pow_two, mul_inv]
  rw [e]
  exact (hb.mul hb).const_mul _

/-! ### Quadratures -/

/-- The quadratures of the quantity `q` are within `C (e^{-σ nt} + e^{-σ nz})` of the integrals, on all grids. -/
def QuadExp (S : Surface) (nfp : ℕ) (q : ℝ → ℝ → ℝ) (m n : ℤ) (σ C : ℝ) : Prop :=
  ∀ nt nz : ℕ, 1 ≤ nt → 1 ≤ nz →
    |S.quadCos nt nz nfp q m n - S.integralCos q m n| ≤ C * (Real.exp (-σ * nt) + Real.exp (-σ * nz)) ∧
    |S.quadSin nt nz nfp q m n - S.integralSin q m n| ≤ C * (Real.exp (-σ * nt) + Real.exp (-σ * nz))

theorem QuadExp.mono {nfp : ℕ} {q : ℝ → ℝ → ℝ} {m n : ℤ} {σ σ' C C' : ℝ} (h : QuadExp S nfp q m n σ C)
    (h0 : 0 ≤ C) (hC : C ≤ C') (hσ : σ' ≤ σ) : QuadExp S nfp q m n σ' C' := by
  intro nt nz h1 h2
  obtain ⟨a1, a2⟩ := h nt nz h1 h2
  have e : ∀ k : ℕ, Real.exp (-σ * k) ≤ Real.exp (-σ' * k) := fun k =>
    Real.exp_le_exp.2 (mul_le_mul_of_nonneg_right (by linarith) (Nat.cast_nonneg k))
  have : C * (Real.exp (-σ * nt) + Real.exp (-σ * nz)) ≤ C' * (Real.exp (-σ' * nt) + Real.exp (-σ' * nz)) :=
    mul_le_mul hC (add_le_add (e nt) (e nz)) (by positivity) (h0.trans hC)
  exact ⟨a1.trans this, a2.trans this⟩

theorem quad_exp {nfp : ℕ} (hp : 1 ≤ nfp) (h : AnSurface a S) (hs : SmoothSurface S) (hl : PerF nfp S.lam)
    (hw : PerF nfp S.w) {q : ℝ → ℝ → ℝ} (hq : PerF nfp q) (hqs : Smooth (uncurry q)) (hqa : An2 a q) (m n : ℤ)
    (hn : (nfp : ℤ) ∣ n) {σ : ℝ} (hσ : 0 < σ) (hσa : σ < a) : ∃ C, 0 ≤ C ∧ QuadExp S nfp q m n σ C := by
  have hP : 0 < 2 * Real.pi := by positivity
  have hQ : 0 < 2 * Real.pi / nfp := by positivity
  have hnf : (1 : ℝ) ≤ nfp := by exact_mod_cast hp
  obtain ⟨C1, p1, h1⟩ := grid_exp hP hQ (intC_per hp hl hw hq m n hn).dper (hs.intC hqs m n).continuous
    (h.intC hqa m n) hσ hσa
  obtain ⟨C2, p2, h2⟩ := grid_exp hP hQ (intS_per hp hl hw hq m n hn).dper (hs.intS hqs m n).continuous
    (h.intS hqa m n) hσ hσa
  set f : ℝ := if m = 0 ∧ n = 0 then 1 else 2 with hf
  have hf2 : |f| ≤ 2 := by rw [hf]; split <;> norm_num
  refine ⟨2 * (C1 + C2), by positivity, fun nt nz hnt hnz => ?_⟩
  have r1 : Real.exp (-(2 * Real.pi * σ / (2 * Real.pi)) * nt) = Real.exp (-σ * nt) := by
    rw [mul_div_cancel_left₀ _ hP.ne']
  have r2 : Real.exp (-(2 * Real.pi * σ / (2 * Real.pi / nfp)) * nz) ≤ Real.exp (-σ * nz) := by
    refine Real.exp_le_exp.2 (mul_le_mul_of_nonneg_right ?_ (Nat.cast_nonneg nz))
    have : 2 * Real.pi * σ / (2 * Real.pi / nfp) = σ * nfp := by field_simp
    rw [this]
    nlinarith
  have fin : ∀ (x C : ℝ), 0 ≤ C → C ≤ C1 + C2 → |x| ≤ C * (Real.exp (-(2 * Real.pi * σ / (2 * Real.pi)) * nt) +
      Real.exp (-(2 * Real.pi * σ / (2 * Real.pi / nfp)) * nz)) →
      |f * x| ≤ 2 * (C1 + C2) * (Real.exp (-σ * nt) + Real.exp (-σ * nz)) := by
    intro x C hC0 hC hx
    rw [abs_mul, mul_assoc]
    refine mul_le_mul hf2 (hx.trans ?_) (abs_nonneg _) (by norm_num)
    rw [r1]
    exact mul_le_mul hC (by linarith) (by positivity) (by positivity)
  constructor
  · have := fin _ C1 p1 (by linarith) (h1 nt nz hnt hnz)
    rw [gridMean_eq, mean2_eq hp (intC_per hp hl hw hq m n hn) (hs.intC hqs m n).continuous, mul_sub, ← mul_assoc,
      ← mul_assoc, mul_one_div, mul_one_div] at this
    exact this
  · have := fin _ C2 p2 (by linarith) (h2 nt nz hnt hnz)
    rw [gridMean_eq, mean2_eq hp (intS_per hp hl hw hq m n hn) (hs.intS hqs m n).continuous, mul_sub, ← mul_assoc,
      ← mul_assoc, mul_one_div, mul_one_div] at this
    exact this

/-- One number for finitely many objects. -/
theorem uniform_list {J : Type*} {Q : J → ℝ → Prop} (hm : ∀ j x y, 0 < x → x ≤ y → Q j x → Q j y) (l : List J)
    (h : ∀ j ∈ l, ∃ x, 0 < x ∧ Q j x) : ∃ x, 0 < x ∧ ∀ j ∈ l, Q j x := by
  induction l with
  | nil => exact ⟨1, one_pos, fun j hj => absurd hj (by simp)⟩
  | cons i l ih =>
    obtain ⟨x, x0, hx⟩ := ih fun j hj => h j (List.mem_cons_of_mem _ hj)
    obtain ⟨y, y0, hy⟩ := h i List.mem_cons_self
    refine ⟨x + y, by positivity, fun j hj => ?_⟩
    rcases List.mem_cons.1 hj with rfl | hj
    · exact hm _ y _ y0 (by linarith) hy
    · exact hm _ x _ x0 (by linarith) (hx j hj)

/-- The quantities of a surface other than the Jacobian: every rate. -/
theorem fields_exp {d : Dims} (h : RunReady I d) (hp : FieldPeriodic I d.nfp) (m n : ℤ) (hn : (d.nfp : ℤ) ∣ n)
    {σ : ℝ} (hσ : 0 < σ) (l : List ℕ) : ∃ C, 0 < C ∧ ∀ js ∈ l, let S := surface I d.asym js
      ∀ q ∈ [S.B, S.R, S.Z, S.nu], QuadExp S d.nfp q m n σ C := by
  refine uniform_list (fun js x y x0 hxy hq q hm => (hq q hm).mono x0.le hxy le_rfl) l fun js _ => ?_
  obtain ⟨pl, pw, pR, pZ, pB⟩ := surf_per h hp d.asym js
  have hs := smooth_surface I d.asym js
  have ha := an_surface (a := σ + 1) I d.asym js
  refine uniform_list (fun q x y x0 hxy hq => hq.mono x0.le hxy le_rfl) _ fun q hq => ?_
  have pos : (∃ C, 0 ≤ C ∧ QuadExp (surface I d.asym js) d.nfp q m n σ C) →
      ∃ C, 0 < C ∧ QuadExp (surface I d.asym js) d.nfp q m n σ C := fun ⟨C, C0, hC⟩ =>
    ⟨C + 1, by positivity, hC.mono C0 (by linarith) le_rfl⟩
  simp only [List.mem_cons, List.not_mem_nil, or_false] at hq
  rcases hq with rfl | rfl | rfl | rfl
  · exact pos (quad_exp h.nfp_pos ha hs pl pw pB hs.B ha.B m n hn hσ (by linarith))
  · exact pos (quad_exp h.nfp_pos ha hs pl pw pR hs.R ha.R m n hn hσ (by linarith))
  · exact pos (quad_exp h.nfp_pos ha hs pl pw pZ hs.Z ha.Z m n hn hσ (by linarith))
  · exact pos (quad_exp h.nfp_pos ha hs pl pw (nu_per pl pw) hs.nu ha.nu.an m n hn hσ (by linarith))

/-- The Jacobian: some rate, the same for all modes. -/
theorem jacobian_rate {d : Dims} (h : RunReady I d) (hp : FieldPeriodic I d.nfp) (l : List ℕ)
    (hreg : ∀ js ∈ l, (surface I d.asym js).Regular) : ∃ τ, 0 < τ ∧ ∀ m n : ℤ, (d.nfp : ℤ) ∣ n →
      ∃ C, 0 < C ∧ ∀ js ∈ l, QuadExp (surface I d.asym js) d.nfp (surface I d.asym js).jacobian m n τ C := by
  obtain ⟨x, x0, hx⟩ := uniform_list (Q := fun js x => js ∈ l → An2 x⁻¹ (surface I d.asym js).jacobian)
    (fun js x y x0 hxy hq hm => (hq hm).mono (inv_anti₀ x0 hxy)) l fun js hjs => by
      obtain ⟨pl, pw, pR, pZ, pB⟩ := surf_per h hp d.asym js
      obtain ⟨b, b0, _, hb⟩ := jacobian_An h.nfp_pos (an_surface I d.asym js) (smooth_surface I d.asym js) pB
        (hreg js hjs).2
      exact ⟨b⁻¹, by positivity, fun _ => by rw [inv_inv]; exact hb⟩
  refine ⟨x⁻¹ / 2, by positivity, fun m n hn => ?_⟩
  obtain ⟨C, C0, hC⟩ := uniform_list
    (Q := fun js C => js ∈ l → QuadExp (surface I d.asym js) d.nfp (surface I d.asym js).jacobian m n (x⁻¹ / 2) C)
    (fun js x y x0 hxy hq hm => (hq hm).mono x0.le hxy le_rfl) l fun js hjs => by
      obtain ⟨pl, pw, pR, pZ, pB⟩ := surf_per h hp d.asym js
      have hs := smooth_surface I d.asym js
      obtain ⟨C, C0, hC⟩ := quad_exp h.nfp_pos (an_surface I d.asym js) hs pl pw (jac_per pB)
        (hs.jacobian (hreg js hjs).2) (hx js hjs hjs) m n hn (σ := x⁻¹ / 2) (by positivity)
        (by have : 0 < x⁻¹ := by positivity
            linarith)
      exact ⟨C + 1, by positivity, fun _ => hC.mono C0 (by linarith) le_rfl⟩
  exact ⟨C, C0, fun js hjs => hC js hjs hjs⟩

/-! ### Runs -/

/-- **C82.** For fixed input data there is a rate `τ > 0` such that for every mode (m, n) and **every** rate `σ > 0`
there is one constant `C` such that for every resolution `mboz = M`, `nboz = N` the harmonics of that mode computed by
`run()` differ from the integrals of the theory section by at most `C (e^{-σ ntheta} + e^{-σ nzeta})` for |B|, R, Z
and ν, and by at most `C (e^{-τ ntheta} + e^{-τ nzeta})` for the Jacobian.  The first two parts give the same
constant for all grids, also those too large for a run with 32-bit sizes. -/
theorem C82_exponential {s : St ℝ} {d : Dims} (h : RunReady s.inp d) (hp : FieldPeriodic s.inp d.nfp)
    (ho : OriginOnce s.inp) (hreg : ∀ b < d.nsb, (surface s.inp d.asym (selected s.inp b)).Regular) :
    ∃ τ, 0 < τ ∧ ∀ (m n : ℤ) (σ : ℝ), 0 < σ → ∃ C,
    (∀ b < d.nsb, (d.nfp : ℤ) ∣ n → let S := surface s.inp d.asym (selected s.inp b)
      ∀ nt nz : ℕ, 1 ≤ nt → 1 ≤ nz →
      (∀ q ∈ [S.B, S.R, S.Z, S.nu],
        |S.quadCos nt nz d.nfp q m n - S.integralCos q m n| ≤ C * (Real.exp (-σ * nt) + Real.exp (-σ * nz)) ∧
        |S.quadSin nt nz d.nfp q m n - S.integralSin q m n| ≤ C * (Real.exp (-σ * nt) + Real.exp (-σ * nz))) ∧
      |S.quadCos nt nz d.nfp S.jacobian m n - S.integralCos S.jacobian m n| ≤
        C * (Real.exp (-τ * nt) + Real.exp (-τ * nz)) ∧
      |S.quadSin nt nz d.nfp S.jacobian m n - S.integralSin S.jacobian m n| ≤
        C * (Real.exp (-τ * nt) + Real.exp (-τ * nz))) ∧
    ∀ (M N : ℕ) (s1 : St ℝ) (dbg : Bool), s1.inp = { s.inp with mboz := M, nboz := N } →
      RunReady s1.inp { d with M := M, N := N } →
      ∃ s' r, run dbg s1 = .ok (s', r) ∧ ∀ b < d.nsb, ∀ k < numModes M N,
        s'.out.xm_b.rdN k = .ok m → s'.out.xn_b.rdN k = .ok n →
        ApproximatesTo s'.out (surface s.inp d.asym (selected s.inp b)) d.asym k b m n (C * expError σ M N)
          (C * expError τ M N) := by
  set l : List ℕ := (List.range d.nsb).map (selected s.inp) with hl
  have mem : ∀ b < d.nsb, selected s.inp b ∈ l := fun b hb =>
    List.mem_map.2 ⟨b, List.mem_range.2 hb, rfl⟩
  obtain ⟨τ, τ0, hτ⟩ := jacobian_rate h hp l fun js hjs => by
    obtain ⟨b, hb, rfl⟩ := List.mem_map.1 hjs
    exact hreg b (List.mem_range.1 hb)
  refine ⟨τ, τ0, fun m n σ σ0 => ?_⟩
  have key : ∃ C, ∀ b < d.nsb, (d.nfp : ℤ) ∣ n → let S := surface s.inp d.asym (selected s.inp b)
      (∀ q ∈ [S.B, S.R, S.Z, S.nu], QuadExp S d.nfp q m n σ C) ∧ QuadExp S d.nfp S.jacobian m n τ C := by
    by_cases hn : (d.nfp : ℤ) ∣ n
    · obtain ⟨C1, p1, h1⟩ := fields_exp h hp m n hn σ0 l
      obtain ⟨C2, p2, h2⟩ := hτ m n hn
      exact ⟨C1 + C2, fun b hb _ => ⟨fun q hq => (h1 _ (mem b hb) q hq).mono p1.le (by linarith) le_rfl,
        (h2 _ (mem b hb)).mono p2.le (by linarith) le_rfl⟩⟩
    · exact ⟨0, fun b _ hn' => absurd hn' hn⟩
  obtain ⟨C, hC⟩ := key
  refine ⟨C, fun b hb hn nt nz h1 h2 => ⟨fun q hq => (hC b hb hn).1 q hq nt nz h1 h2, (hC b hb hn).2 nt nz h1 h2⟩,
    fun M N s1 dbg e h1 => ?_⟩
  have hp' : FieldPeriodic s1.inp ({ d with M := M, N := N } : Dims).nfp := by rw [e]; exact hp
  have ho' : OriginOnce s1.inp := by rw [e]; exact ho
  refine ⟨_, _, run_real h1 fun _ => originOnce_first h1 ho', fun b hb k hk hm hn => ?_⟩
  have hs := isSpectrum_runSt h1 hp' ho' (b := b) hb k hk
  have eS : surface s1.inp ({ d with M := M, N := N } : Dims).asym (selected s1.inp b) =
      surface s.inp d.asym (selected s.inp b) := by rw [e]; rfl
  rw [eS] at hs
  obtain ⟨m', n', e1, e2, r1, r2, r3, r4, r5, r6⟩ := hs
  obtain rfl : m = m' := Except.ok.inj (hm.symm.trans e1)
  obtain rfl : n = n' := Except.ok.inj (hn.symm.trans e2)
  have hdvd : (d.nfp : ℤ) ∣ n := by
    have e3 : (runSt { d with M := M, N := N } s1 ({ d with M := M, N := N } : Dims).nsb).out.xn_b.rdN k =
        .ok (modeN N k * d.nfp) := Vec.rdN_tab hk
    obtain rfl := Except.ok.inj (e2.symm.trans e3)
    exact Dvd.intro_left _ rfl
  obtain ⟨hq, hJ⟩ := hC b hb hdvd
  have cC : ∀ {x : Mat ℝ} {q : ℝ → ℝ → ℝ} {ρ : ℝ}, x.rdN k b = .ok ((surface s.inp d.asym (selected s.inp b)).quadCos
      (ntheta M) (nzeta N) d.nfp q m n) → QuadExp (surface s.inp d.asym (selected s.inp b)) d.nfp q m n ρ C →
      Near x k b _ (C * expError ρ M N) := fun hx hm => ⟨_, hx, (hm _ _ (ntheta_pos M) (nzeta_pos N)).1⟩
  have cS : ∀ {x : Mat ℝ} {q : ℝ → ℝ → ℝ} {ρ : ℝ}, x.rdN k b = .ok ((surface s.inp d.asym (selected s.inp b)).quadSin
      (ntheta M) (nzeta N) d.nfp q m n) → QuadExp (surface s.inp d.asym (selected s.inp b)) d.nfp q m n ρ C →
      Near x k b _ (C * expError ρ M N) := fun hx hm => ⟨_, hx, (hm _ _ (ntheta_pos M) (nzeta_pos N)).2⟩
  exact ⟨cC r1 (hq _ (by simp)), cC r2 (hq _ (by simp)), cS r3 (hq _ (by simp)), cS r4 (hq _ (by simp)), cC r5 hJ,
    fun ha => cS (r6 ha).1 (hq _ (by simp)), fun ha => cS (r6 ha).2.1 (hq _ (by simp)),
    fun ha => cC (r6 ha).2.2.1 (hq _ (by simp)), fun ha => cC (r6 ha).2.2.2.1 (hq _ (by simp)),
    fun ha => cS (r6 ha).2.2.2.2 hJ⟩

/-! Non-vacuity: the example object, all resolutions for which the sizes fit in an `int`, rate 100. -/

example (asym : Bool) : ∃ τ, 0 < τ ∧ ∃ C, ∀ (M N : ℕ), 1 ≤ M → (4 * M + 2) * (4 * N + 2) < 2 ^ 30 → ∀ out g dbg,
    let s1 : St ℝ := { Ex.st asym with inp := { Ex.inputs asym with mboz := M, nboz := N }, out := out, grid := g }
    ∃ s' r, run dbg s1 = .ok (s', r) ∧ ∀ b < 2, ∀ k < numModes M N,
      s'.out.xm_b.rdN k = .ok 1 → s'.out.xn_b.rdN k = .ok (-2) →
      ApproximatesTo s'.out (surface (Ex.inputs asym) asym (selected (Ex.inputs (α := ℝ) asym) b)) asym k b 1 (-2)
        (C * expError 100 M N) (C * expError τ M N) := by
  obtain ⟨τ, τ0, hτ⟩ := C82_exponential (s := Ex.st asym) (d := Ex.dims asym) (Ex.ready asym) (Ex.fieldPeriodic asym)
    (Ex.originOnce asym) (fun b hb => Ex.regular asym (Ex.selected_lt asym b hb))
  obtain ⟨C, -, hC⟩ := hτ 1 (-2) 100 (by norm_num)
  exact ⟨τ, τ0, C, fun M N hM hf out g dbg => hC M N _ dbg rfl (Ex.ready_res asym hM hf)⟩

end Booz
