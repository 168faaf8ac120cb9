import Verif.Props.Quadrature
import Verif.Lemmas.Work

/-!
# C17-C20: the angle map computed by `surface_solve`

`workOf dbg b s` are the local variables of `surface_solve` for output surface `b` when `run()` is
called on `s`.
-/

namespace Booz
open Spec

/-- Poloidal angle of grid point `p` (the toroidal index is the fast one). -/
noncomputable def Spec.pointTheta (M N p : ℕ) : ℝ := 2 * Real.pi * ((p / nzeta N : ℕ) : ℝ) / ntheta M
/-- Toroidal angle of grid point `p`. -/
noncomputable def Spec.pointZeta (N nfp p : ℕ) : ℝ :=
  2 * Real.pi * ((p % nzeta N : ℕ) : ℝ) / (nfp * nzeta N)
/-- Number of grid points: all poloidal angles, or `0 ≤ θ ≤ π` under stellarator symmetry. -/
def Spec.numPoints (asym : Bool) (M N : ℕ) : ℕ :=
  (if asym then ntheta M else ntheta M / 2 + 1) * nzeta N

theorem np_eq (d : Dims) : d.np = numPoints d.asym d.M d.N := by
  unfold Dims.np numPoints Dims.nu3
  rw [nz_eq, nt_eq]
  congr 1
  split
  · rfl
  · unfold Dims.nu2 ntheta; omega

theorem gridT_eq (d : Dims) (p : ℕ) : (gridT d p : ℝ) = pointTheta d.M d.N p := by
  rw [gridT_real]; unfold pointTheta; rw [nz_eq, nt_eq]
theorem gridZ_eq (d : Dims) (p : ℕ) : (gridZ d p : ℝ) = pointZeta d.N d.nfp p := by
  rw [gridZ_real]; unfold pointZeta; rw [nz_eq]

theorem workOf_real {dbg : Bool} {s : St ℝ} {d : Dims} (h : RunReady s.inp d) (ho : OriginOnce s.inp)
    {b : ℕ} (hb : b < d.nsb) : workOf dbg b s = .ok (localTab s.inp d (selected s.inp b)) :=
  workOf_ok h (fun _ => originOnce_first h ho) (fun _ _ => chkAsserts_real d h.nfp_pos) hb

/-! ### C18 -/

/-- **C18.** In exact arithmetic, for every selected surface and at every grid point: `nu` and the two
Boozer angles computed by `surface_solve` are those of the theory, its derivative arrays are the true
partial derivatives of λ and w, and the quadrature weight `d_Boozer_d_vmec` is the determinant of the
derivative of the (differentiable) map `(θ, ζ) ↦ (θ_B, ζ_B)`. -/
theorem C18_weight {dbg : Bool} {s : St ℝ} {d : Dims} (h : RunReady s.inp d)
    (hp : FieldPeriodic s.inp d.nfp) (ho : OriginOnce s.inp) {b : ℕ} (hb : b < d.nsb) :
    let S := surface s.inp d.asym (selected s.inp b)
    S.Regular → ∃ L, workOf dbg b s = .ok L ∧ ∀ p < numPoints d.asym d.M d.N,
      let θ := pointTheta d.M d.N p
      let ζ := pointZeta d.N d.nfp p
      L.har.nu.rdN p = .ok (S.nu θ ζ) ∧
      L.har.theta_Boozer.rdN p = .ok (S.thetaB θ ζ) ∧
      L.har.zeta_Boozer.rdN p = .ok (S.zetaB θ ζ) ∧
      (∃ lt lz wt wz, L.rz.d_lambda_d_theta.rdN p = .ok lt ∧ HasDerivAt (fun t => S.lam t ζ) lt θ ∧
        L.rz.d_lambda_d_zeta.rdN p = .ok lz ∧ HasDerivAt (fun z => S.lam θ z) lz ζ ∧
        L.wb.d_w_d_theta.rdN p = .ok wt ∧ HasDerivAt (fun t => S.w t ζ) wt θ ∧
        L.wb.d_w_d_zeta.rdN p = .ok wz ∧ HasDerivAt (fun z => S.w θ z) wz ζ) ∧
      (∃ tt tz zt zz, HasDerivAt (fun t => S.thetaB t ζ) tt θ ∧ HasDerivAt (fun z => S.thetaB θ z) tz ζ ∧
        HasDerivAt (fun t => S.zetaB t ζ) zt θ ∧ HasDerivAt (fun z => S.zetaB θ z) zz ζ ∧
        L.har.d_Boozer_d_vmec.rdN p = .ok (tt * zz - tz * zt)) := by
  intro S _hreg
  refine ⟨_, workOf_real h ho hb, ?_⟩
  intro p hp' θ ζ
  have hpn : p < d.np := by rw [np_eq]; exact hp'
  have eθ : (gridT d p : ℝ) = θ := gridT_eq d p
  have eζ : (gridZ d p : ℝ) = ζ := gridZ_eq d p
  have r : ∀ {f : ℕ → ℝ} {x : ℝ}, f p = x → (Vec.tab d.np f).rdN p = .ok x := by
    intro f x e; rw [Vec.rdN_tab hpn, e]
  unfold localTab rzTab wbTab harTab
  have e1 := (ltP_real h hp (selected s.inp b) θ ζ)
  have e2 := (lzP_real h hp (selected s.inp b) θ ζ)
  have e3 := (wtP_real h hp (selected s.inp b) θ ζ)
  have e4 := (wzP_real h hp (selected s.inp b) θ ζ)
  have e5 := nuT_real h hp ho (selected s.inp b) θ ζ
  have e6 := nuZ_real h hp ho (selected s.inp b) θ ζ
  refine ⟨r ?_, r ?_, r ?_, ⟨_, _, _, _, r ?_, e1, r ?_, e2, r ?_, e3, r ?_, e4⟩,
    ⟨1 + ltP s.inp d (selected s.inp b) d.mnmax θ ζ + S.iota * nuT s.inp d (selected s.inp b) θ ζ,
      lzP s.inp d (selected s.inp b) d.mnmax θ ζ + S.iota * nuZ s.inp d (selected s.inp b) θ ζ,
      nuT s.inp d (selected s.inp b) θ ζ, 1 + nuZ s.inp d (selected s.inp b) θ ζ, ?_, ?_, ?_, ?_, r ?_⟩⟩
  · simp only [eθ, eζ]; exact nuV_real h hp ho _ θ ζ
  · simp only [eθ, eζ]; exact thB_real h hp ho _ θ ζ
  · simp only [eθ, eζ]; exact zeB_real h hp ho _ θ ζ
  · simp only [eθ, eζ]
  · simp only [eθ, eζ]
  · simp only [eθ, eζ]
  · simp only [eθ, eζ]
  · exact ((hasDerivAt_id θ).add e1).add (e5.const_mul S.iota)
  · exact (e2.const_add θ).add (e6.const_mul S.iota)
  · exact e5.const_add ζ
  · exact (hasDerivAt_id ζ).add e6
  · simp only [eθ, eζ]
    unfold dBdV
    have : iotaV s.inp (selected s.inp b) = S.iota := by simp [S, surface, iotaV]
    rw [this, real_ofInt]
    push_cast
    ring

example (dbg asym : Bool) : ∃ L, workOf dbg 1 (Ex.st (α := ℝ) asym) = .ok L := by
  obtain ⟨L, h, -⟩ := C18_weight (dbg := dbg) (s := Ex.st asym) (d := Ex.dims asym) (b := 1) (Ex.ready asym)
    (Ex.fieldPeriodic asym) (Ex.originOnce asym) (by show 1 < 2; decide)
    (Ex.regular asym (Ex.selected_lt asym 1 (by decide)))
  exact ⟨L, h⟩

/-! ### C17 -/

/-- The covariant components carry no radial current: mode by mode `m B_ζ = - n B_θ`. -/
def Spec.NoRadialCurrent (I : Inputs ℝ) (asym : Bool) (js : ℕ) : Prop :=
  ∀ k < I.xm_nyq.size,
    I.xm_nyq.val 0 k * entry I.bsubvmnc k js = -(I.xn_nyq.val 0 k * entry I.bsubumnc k js) ∧
    (asym = true →
      I.xm_nyq.val 0 k * entry I.bsubvmns k js = -(I.xn_nyq.val 0 k * entry I.bsubumns k js))

section
variable {I : Inputs ℝ} {asym : Bool} {js : ℕ}

theorem w_deriv_theta (ho : OriginOnce I) (h1 : 1 ≤ I.xm_nyq.size) (hc : NoRadialCurrent I asym js)
    (θ ζ : ℝ) : HasDerivAt (fun t => (surface I asym js).w t ζ)
      (bTheta I asym js θ ζ - entry I.bsubumnc 0 js) θ := by
  refine (series_deriv_theta _ _ _ _ _ θ ζ).congr_deriv ?_
  have e0 : entry I.bsubumnc 0 js =
      ∑ k ∈ Finset.range I.xm_nyq.size, if k = 0 then entry I.bsubumnc k js else 0 := by
    rw [Finset.sum_ite_eq' (Finset.range I.xm_nyq.size) 0, if_pos (Finset.mem_range.mpr h1)]
  rw [e0]
  unfold bTheta series
  rw [← Finset.sum_sub_distrib]
  apply Finset.sum_congr rfl
  intro k hk
  have hk := Finset.mem_range.mp hk
  obtain ⟨c1, c2⟩ := hc k hk
  have hz := ho k hk
  beta_reduce
  generalize I.xm_nyq.val 0 k = m at *
  generalize I.xn_nyq.val 0 k = n at *
  by_cases hm : m = 0
  · subst hm
    by_cases hn : n = 0
    · subst hn
      have k0 : k = 0 := hz.mp ⟨rfl, rfl⟩
      subst k0
      simp
    · have hn' : (n : ℝ) ≠ 0 := by exact_mod_cast hn
      have k0 : ¬ k = 0 := fun hk0 => hn (hz.mpr hk0).2
      have u0 : entry I.bsubumnc k js = 0 := by
        have : (n : ℝ) * entry I.bsubumnc k js = 0 := by
          have := c1; push_cast at this; linarith
        exact (mul_eq_zero.mp this).resolve_left hn'
      have u1 : onlyIf asym (entry I.bsubumns k js) = 0 := by
        unfold onlyIf
        split
        · next ha =>
          have : (n : ℝ) * entry I.bsubumns k js = 0 := by
            have := c2 ha; push_cast at this; linarith
          exact (mul_eq_zero.mp this).resolve_left hn'
        · rfl
      simp [u0, u1, k0]
  · have hm' : (m : ℝ) ≠ 0 := by exact_mod_cast hm
    have k0 : ¬ k = 0 := fun hk0 => hm (hz.mpr hk0).1
    have a1 : (m : ℝ) * wSin m n (entry I.bsubumnc k js) (entry I.bsubvmnc k js) =
        entry I.bsubumnc k js := by
      unfold wSin; rw [if_pos hm]; field_simp
    have a2 : -((m : ℝ) * onlyIf asym (wCos m n (entry I.bsubumns k js) (entry I.bsubvmns k js))) =
        onlyIf asym (entry I.bsubumns k js) := by
      unfold onlyIf
      split
      · unfold wCos; rw [if_pos hm]; field_simp
      · simp
    rw [a1, a2, if_neg k0, sub_zero]

theorem w_deriv_zeta (ho : OriginOnce I) (h1 : 1 ≤ I.xm_nyq.size) (hc : NoRadialCurrent I asym js)
    (θ ζ : ℝ) : HasDerivAt (fun z => (surface I asym js).w θ z)
      (bZeta I asym js θ ζ - entry I.bsubvmnc 0 js) ζ := by
  refine (series_deriv_zeta _ _ _ _ _ θ ζ).congr_deriv ?_
  have e0 : entry I.bsubvmnc 0 js =
      ∑ k ∈ Finset.range I.xm_nyq.size, if k = 0 then entry I.bsubvmnc k js else 0 := by
    rw [Finset.sum_ite_eq' (Finset.range I.xm_nyq.size) 0, if_pos (Finset.mem_range.mpr h1)]
  rw [e0]
  unfold bZeta series
  rw [← Finset.sum_sub_distrib]
  apply Finset.sum_congr rfl
  intro k hk
  have hk := Finset.mem_range.mp hk
  obtain ⟨c1, c2⟩ := hc k hk
  have hz := ho k hk
  beta_reduce
  generalize I.xm_nyq.val 0 k = m at *
  generalize I.xn_nyq.val 0 k = n at *
  by_cases hm : m = 0
  · subst hm
    by_cases hn : n = 0
    · subst hn
      have k0 : k = 0 := hz.mp ⟨rfl, rfl⟩
      subst k0
      simp
    · have hn' : (n : ℝ) ≠ 0 := by exact_mod_cast hn
      have k0 : ¬ k = 0 := fun hk0 => hn (hz.mpr hk0).2
      have a1 : -((n : ℝ) * wSin 0 n (entry I.bsubumnc k js) (entry I.bsubvmnc k js)) =
          entry I.bsubvmnc k js := by
        unfold wSin; rw [if_neg (by simp), if_pos hn]; field_simp
      have a2 : (n : ℝ) * onlyIf asym (wCos 0 n (entry I.bsubumns k js) (entry I.bsubvmns k js)) =
          onlyIf asym (entry I.bsubvmns k js) := by
        unfold onlyIf
        split
        · unfold wCos; rw [if_neg (by simp), if_pos hn]; field_simp
        · simp
      rw [a1, a2, if_neg k0, sub_zero]
  · have hm' : (m : ℝ) ≠ 0 := by exact_mod_cast hm
    have k0 : ¬ k = 0 := fun hk0 => hm (hz.mpr hk0).1
    have a1 : -((n : ℝ) * wSin m n (entry I.bsubumnc k js) (entry I.bsubvmnc k js)) =
        entry I.bsubvmnc k js := by
      unfold wSin; rw [if_pos hm]; field_simp; linarith
    have a2 : (n : ℝ) * onlyIf asym (wCos m n (entry I.bsubumns k js) (entry I.bsubvmns k js)) =
        onlyIf asym (entry I.bsubvmns k js) := by
      unfold onlyIf
      split
      · next ha => have := c2 ha; unfold wCos; rw [if_pos hm]; field_simp; linarith
      · simp
    rw [a1, a2, if_neg k0, sub_zero]

end

/-- **C17.** In exact arithmetic, for covariant components without radial current, at every point the
map `(θ, ζ) ↦ (θ_B, ζ_B)` computed by `surface_solve` (see C18: `nu`, `theta_Boozer`, `zeta_Boozer` are
`S.nu`, `S.thetaB`, `S.zetaB`) satisfies
`B_θ = (1 + ∂λ/∂θ) I + (G + ι I) ∂ν/∂θ` and `B_ζ = G + I ∂λ/∂ζ + (G + ι I) ∂ν/∂ζ`,
that is `B_θ = I ∂θ_B/∂θ + G ∂ζ_B/∂θ` and `B_ζ = I ∂θ_B/∂ζ + G ∂ζ_B/∂ζ`: in the new angles the
covariant components are the flux functions `I` and `G`. -/
theorem C17_covariant {s : St ℝ} {d : Dims} (h : RunReady s.inp d)
    (hp : FieldPeriodic s.inp d.nfp) (ho : OriginOnce s.inp) {b : ℕ} (hb : b < d.nsb) :
    let S := surface s.inp d.asym (selected s.inp b)
    let Bθ := bTheta s.inp d.asym (selected s.inp b)
    let Bζ := bZeta s.inp d.asym (selected s.inp b)
    NoRadialCurrent s.inp d.asym (selected s.inp b) → S.Regular →
    (∀ dbg, ∃ L, workOf dbg b s = .ok L ∧ ∀ p < numPoints d.asym d.M d.N,
      L.har.nu.rdN p = .ok (S.nu (pointTheta d.M d.N p) (pointZeta d.N d.nfp p))) ∧
    ∀ θ ζ, ∃ lt lz nt nz tt tz zt zz,
      HasDerivAt (fun t => S.lam t ζ) lt θ ∧ HasDerivAt (fun z => S.lam θ z) lz ζ ∧
      HasDerivAt (fun t => S.nu t ζ) nt θ ∧ HasDerivAt (fun z => S.nu θ z) nz ζ ∧
      Bθ θ ζ = (1 + lt) * S.I + (S.G + S.iota * S.I) * nt ∧
      Bζ θ ζ = S.G + S.I * lz + (S.G + S.iota * S.I) * nz ∧
      HasDerivAt (fun t => S.thetaB t ζ) tt θ ∧ HasDerivAt (fun z => S.thetaB θ z) tz ζ ∧
      HasDerivAt (fun t => S.zetaB t ζ) zt θ ∧ HasDerivAt (fun z => S.zetaB θ z) zz ζ ∧
      Bθ θ ζ = S.I * tt + S.G * zt ∧ Bζ θ ζ = S.I * tz + S.G * zz := by
  intro S Bθ Bζ hc hreg
  have h1 : 1 ≤ s.inp.xm_nyq.size := by rw [h.xm_nyq.1]; exact h.mnmax_nyq_ge
  constructor
  · intro dbg
    obtain ⟨L, hL, hw⟩ := C18_weight (dbg := dbg) h hp ho hb hreg
    exact ⟨L, hL, fun p hp' => (hw p hp').1⟩
  intro θ ζ
  have e1 := ltP_real h hp (selected s.inp b) θ ζ
  have e2 := lzP_real h hp (selected s.inp b) θ ζ
  have w1 := w_deriv_theta ho h1 hc θ ζ
  have w2 := w_deriv_zeta ho h1 hc θ ζ
  set lt := ltP s.inp d (selected s.inp b) d.mnmax θ ζ
  set lz := lzP s.inp d (selected s.inp b) d.mnmax θ ζ
  have hgi : S.G + S.iota * S.I ≠ 0 := hreg.1
  have e5 : HasDerivAt (fun t => S.nu t ζ) ((Bθ θ ζ - S.I - S.I * lt) / (S.G + S.iota * S.I)) θ :=
    (w1.sub (e1.const_mul S.I)).div_const _
  have e6 : HasDerivAt (fun z => S.nu θ z) ((Bζ θ ζ - S.G - S.I * lz) / (S.G + S.iota * S.I)) ζ :=
    (w2.sub (e2.const_mul S.I)).div_const _
  have hnt : (S.G + S.iota * S.I) * ((Bθ θ ζ - S.I - S.I * lt) / (S.G + S.iota * S.I)) =
      Bθ θ ζ - S.I - S.I * lt := mul_div_cancel₀ _ hgi
  have hnz : (S.G + S.iota * S.I) * ((Bζ θ ζ - S.G - S.I * lz) / (S.G + S.iota * S.I)) =
      Bζ θ ζ - S.G - S.I * lz := mul_div_cancel₀ _ hgi
  generalize (Bθ θ ζ - S.I - S.I * lt) / (S.G + S.iota * S.I) = nt at *
  generalize (Bζ θ ζ - S.G - S.I * lz) / (S.G + S.iota * S.I) = nz at *
  refine ⟨lt, lz, nt, nz, _, _, _, _, e1, e2, e5, e6, ?_, ?_,
    ((hasDerivAt_id θ).add e1).add (e5.const_mul S.iota), (e2.const_add θ).add (e6.const_mul S.iota),
    e5.const_add ζ, (hasDerivAt_id ζ).add e6, ?_, ?_⟩
  · linear_combination -hnt
  · linear_combination -hnz
  · linear_combination -hnt
  · linear_combination -hnz

theorem Ex.noCurrent (asym : Bool) {js : ℕ} (hj : js < 2) :
    NoRadialCurrent (Ex.inputs (α := ℝ) asym) asym js := by
  intro k hk
  replace hk : k < 4 := hk
  have e1 : entry (Ex.inputs (α := ℝ) asym).bsubumnc k js =
      (((if k = 0 then 1 else if k = 1 then 0 else (k : ℤ) - 1 + js) : ℤ) : ℝ) := by
    show (Mat.tab 4 2 fun k j => (ofInt (if k = 0 then 1 else if k = 1 then 0 else (k : ℤ) - 1 + (j : ℤ)) :
        ℝ)).val 0 k js = _
    rw [Mat.val_tab hk hj, real_ofInt]
  have e2 : entry (Ex.inputs (α := ℝ) asym).bsubvmnc k js =
      (((if k = 0 then 20 else if k = 1 then 5 else if k = 2 then 0 else 2 + js) : ℤ) : ℝ) := by
    show (Mat.tab 4 2 fun k j => (ofInt (if k = 0 then 20 else if k = 1 then 5 else if k = 2 then 0
        else 2 + (j : ℤ)) : ℝ)).val 0 k js = _
    rw [Mat.val_tab hk hj, real_ofInt]
  have m0 : (Ex.inputs (α := ℝ) asym).xm_nyq.val 0 k = if k = 0 then 0 else if k = 1 then 0 else if k = 2 then 1 else 2 := by
    have c4 : k = 0 ∨ k = 1 ∨ k = 2 ∨ k = 3 := by omega
    rcases c4 with rfl | rfl | rfl | rfl <;> rfl
  have n0 : (Ex.inputs (α := ℝ) asym).xn_nyq.val 0 k = if k = 0 then 0 else if k = 1 then 2 else if k = 2 then 0 else -2 := by
    have c4 : k = 0 ∨ k = 1 ∨ k = 2 ∨ k = 3 := by omega
    rcases c4 with rfl | rfl | rfl | rfl <;> rfl
  have c4 : k = 0 ∨ k = 1 ∨ k = 2 ∨ k = 3 := by omega
  constructor
  · rw [e1, e2, m0, n0]
    rcases c4 with rfl | rfl | rfl | rfl <;> simp <;> ring
  · intro ha
    subst ha
    have e3 : entry (Ex.inputs (α := ℝ) true).bsubumns k js =
        (((if k < 2 then 0 else (k : ℤ) - 1) : ℤ) : ℝ) := by
      show (Mat.tab 4 2 fun k _ => (ofInt (if k < 2 then 0 else (k : Int) - 1) : ℝ)).val 0 k js = _
      rw [Mat.val_tab hk hj, real_ofInt]
    have e4 : entry (Ex.inputs (α := ℝ) true).bsubvmns k js =
        (((if k = 1 then 1 else if k = 3 then 2 else 0) : ℤ) : ℝ) := by
      show (Mat.tab 4 2 fun k _ => (ofInt (if k = 1 then 1 else if k = 3 then 2 else 0) : ℝ)).val 0 k js = _
      rw [Mat.val_tab hk hj, real_ofInt]
    rw [e3, e4, m0, n0]
    rcases c4 with rfl | rfl | rfl | rfl <;> norm_num

example (asym : Bool) : ∀ θ ζ : ℝ, ∃ tt zt : ℝ,
    bTheta (Ex.inputs asym) asym (selected (Ex.inputs (α := ℝ) asym) 0) θ ζ =
      (surface (Ex.inputs asym) asym (selected (Ex.inputs (α := ℝ) asym) 0)).I * tt +
      (surface (Ex.inputs asym) asym (selected (Ex.inputs (α := ℝ) asym) 0)).G * zt := by
  intro θ ζ
  have hs := Ex.selected_lt asym 0 (by decide)
  obtain ⟨-, H⟩ := C17_covariant (s := Ex.st asym) (d := Ex.dims asym) (b := 0) (Ex.ready asym)
    (Ex.fieldPeriodic asym) (Ex.originOnce asym) (by show 0 < 2; decide)
    (Ex.noCurrent asym hs) (Ex.regular asym hs)
  obtain ⟨_, _, _, _, tt, _, zt, _, _, _, _, _, _, _, _, _, _, _, e, _⟩ := H θ ζ
  exact ⟨tt, zt, e⟩

/-! ### C19 -/

/-- **C19.** The field-line label is preserved: at every grid point of every selected surface the
computed Boozer angles satisfy `θ_B - ι ζ_B = θ + λ - ι ζ`, with `θ`, `ζ`, λ the code's own grid and
`lambda` arrays (exact arithmetic). -/
theorem C19_field_lines {dbg : Bool} {s : St ℝ} {d : Dims} (h : RunReady s.inp d) (ho : OriginOnce s.inp)
    {b : ℕ} (hb : b < d.nsb) :
    ∃ L s' r i, workOf dbg b s = .ok L ∧ run dbg s = .ok (s', r) ∧
      s.inp.iota.rdN (selected s.inp b) = .ok i ∧
      ∀ p < numPoints d.asym d.M d.N, ∃ tB zB t z l,
        L.har.theta_Boozer.rdN p = .ok tB ∧ L.har.zeta_Boozer.rdN p = .ok zB ∧
        s'.grid.theta_grid.rdN p = .ok t ∧ s'.grid.zeta_grid.rdN p = .ok z ∧
        L.rz.lambda.rdN p = .ok l ∧ tB - i * zB = t + l - i * z := by
  have hs := h.surfs_range b hb
  have hsel : selected s.inp b < d.ns := by unfold selected; omega
  refine ⟨_, _, _, iotaV s.inp (selected s.inp b), workOf_real h ho hb,
    run_real h fun _ => originOnce_first h ho, ?_, ?_⟩
  · exact h.iota.rdN _ hsel
  intro p hp'
  have hpn : p < d.np := by rw [np_eq]; exact hp'
  refine ⟨_, _, _, _, _, Vec.rdN_tab hpn, Vec.rdN_tab hpn, Vec.rdN_tab hpn, Vec.rdN_tab hpn,
    Vec.rdN_tab hpn, ?_⟩
  unfold thB zeB
  ring

example (dbg asym : Bool) : ∃ L, workOf dbg 0 (Ex.st (α := ℝ) asym) = .ok L := by
  obtain ⟨L, _, _, _, h, -⟩ := C19_field_lines (dbg := dbg) (s := Ex.st asym) (d := Ex.dims asym) (b := 0)
    (Ex.ready asym) (Ex.originOnce asym) (by show 0 < 2; decide)
  exact ⟨L, h⟩

end Booz
