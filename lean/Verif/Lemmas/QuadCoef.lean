import Verif.Lemmas.Quad

/-!
# Output harmonics are quadratures
-/

open Finset

namespace Booz
open Spec

theorem nt_eq (d : Dims) : d.nt = ntheta d.M := by unfold Dims.nt ntheta; omega
theorem nz_eq (d : Dims) : d.nz = nzeta d.N := by
  unfold Dims.nz nzeta; split <;> omega

theorem gridT_real (d : Dims) (j : ℕ) :
    (gridT d j : ℝ) = 2 * Real.pi * ((j / d.nz : ℕ) : ℝ) / d.nt := by
  unfold gridT dTheta
  generalize j / d.nz = a
  rw [real_twopi, real_ofInt, real_ofInt]
  push_cast
  ring

theorem gridZ_real (d : Dims) (j : ℕ) :
    (gridZ d j : ℝ) = 2 * Real.pi * ((j % d.nz : ℕ) : ℝ) / (d.nfp * d.nz) := by
  unfold gridZ dZeta
  generalize j % d.nz = a
  rw [real_twopi, real_ofInt, real_ofInt]
  push_cast
  ring

theorem mode_zero_iff {d : Dims} (hp : 1 ≤ d.nfp) {k : ℕ} :
    ((modeM d.N k : ℤ) = 0 ∧ modeN d.N k * d.nfp = 0) ↔ k = 0 := by
  constructor
  · rintro ⟨h1, h2⟩
    have h1 : modeM d.N k = 0 := by exact_mod_cast h1
    unfold modeM at h1
    have hlt := (Nat.div_eq_zero_iff_lt (by omega)).mp h1
    have h2 : modeN d.N k = 0 := by
      rcases Int.mul_eq_zero.mp h2 with h | h
      · exact h
      · omega
    unfold modeN at h2
    rw [Nat.mod_eq_of_lt hlt] at h2
    omega
  · rintro rfl
    unfold modeM modeN
    rw [Nat.zero_add, Nat.mod_eq_of_lt (by omega), Nat.div_eq_of_lt (by omega)]
    simp

theorem wt_real (d : Dims) (j : ℕ) (x : ℝ) :
    wt d j x = (if d.asym = false ∧ (j < d.nz ∨ (d.nu2 - 1) * d.nz ≤ j) then (1 / 2 : ℝ) else 1) * x := by
  unfold wt
  split
  · rw [real_half]
  · rw [one_mul]

section
variable {I : Inputs ℝ} {d : Dims}

theorem tC_real (h : RunReady I d) (hp : FieldPeriodic I d.nfp) (ho : OriginOnce I) (js k j : ℕ)
    (q : ℝ → ℝ → ℝ) :
    tC I d js k j * q (gridT d j) (gridZ d j) = facK d k * wt d j
      (intC (surface I d.asym js) q (modeM d.N k) (modeN d.N k * d.nfp) (gridT d j) (gridZ d j)) := by
  unfold tC intC
  simp only [wt_real, cosT_real, sinT_real, thB_real h hp ho, zeB_real h hp ho, dBdV_real h hp ho,
    real_ofInt]
  have := cos_combine h.nfp_pos (dvd_mul_left (d.nfp : ℤ) (modeN d.N k)) (modeM d.N k)
    ((surface I d.asym js).thetaB (gridT d j) (gridZ d j))
    ((surface I d.asym js).zetaB (gridT d j) (gridZ d j))
  rw [Int.cast_natCast (modeM d.N k), ← this]
  ring

theorem tS_real (h : RunReady I d) (hp : FieldPeriodic I d.nfp) (ho : OriginOnce I) (js k j : ℕ)
    (q : ℝ → ℝ → ℝ) :
    tS I d js k j * q (gridT d j) (gridZ d j) = facK d k * wt d j
      (intS (surface I d.asym js) q (modeM d.N k) (modeN d.N k * d.nfp) (gridT d j) (gridZ d j)) := by
  unfold tS intS
  simp only [wt_real, cosT_real, sinT_real, thB_real h hp ho, zeB_real h hp ho, dBdV_real h hp ho,
    real_ofInt]
  have := sin_combine h.nfp_pos (dvd_mul_left (d.nfp : ℤ) (modeN d.N k)) (modeM d.N k)
    ((surface I d.asym js).thetaB (gridT d j) (gridZ d j))
    ((surface I d.asym js).zetaB (gridT d j) (gridZ d j))
  rw [Int.cast_natCast (modeM d.N k), ← this]
  ring

/-- The weighted sum over the points the code visits is the full-grid sum, with the right factor. -/
theorem sum_pts (d : Dims) (hp : 1 ≤ d.nfp) {k : ℕ} {F : ℝ → ℝ → ℝ}
    (hF : d.asym = false → EvenF F ∧ PerF d.nfp F) :
    ∑ j ∈ range d.np, facK d k * wt d j (F (gridT d j) (gridZ d j)) =
      (if (modeM d.N k : ℤ) = 0 ∧ modeN d.N k * d.nfp = 0 then (1 : ℝ) else 2) /
        (((ntheta d.M : ℕ) : ℝ) * ((nzeta d.N : ℕ) : ℝ)) *
      ∑ a ∈ range (ntheta d.M), ∑ b ∈ range (nzeta d.N),
        F (2 * Real.pi * a / ((ntheta d.M : ℕ) : ℝ)) (2 * Real.pi * b / (d.nfp * ((nzeta d.N : ℕ) : ℝ))) := by
  have hz := nz_pos d
  rw [← nt_eq, ← nz_eq, ← mul_sum]
  simp only [mode_zero_iff hp]
  have key : ∀ A : ℕ, ∑ j ∈ range (A * d.nz), wt d j (F (gridT d j) (gridZ d j)) =
      ∑ a ∈ range A, ∑ b ∈ range d.nz, (if d.asym = false ∧ (a < 1 ∨ d.nu2 - 1 ≤ a) then
        1 / 2 * F (2 * Real.pi * a / d.nt) (2 * Real.pi * b / (d.nfp * d.nz)) else
        F (2 * Real.pi * a / d.nt) (2 * Real.pi * b / (d.nfp * d.nz))) := by
    intro A
    rw [← sum_range_div_mod A d.nz hz (fun a b => if d.asym = false ∧ (a < 1 ∨ d.nu2 - 1 ≤ a) then
        1 / 2 * F (2 * Real.pi * a / d.nt) (2 * Real.pi * b / (d.nfp * d.nz)) else
        F (2 * Real.pi * a / d.nt) (2 * Real.pi * b / (d.nfp * d.nz)))]
    apply sum_congr rfl
    intro j _
    have e1 : (j < d.nz) ↔ (j / d.nz < 1) := by
      rw [Nat.div_lt_iff_lt_mul hz]; omega
    have e2 : ((d.nu2 - 1) * d.nz ≤ j) ↔ (d.nu2 - 1 ≤ j / d.nz) := by
      rw [Nat.le_div_iff_mul_le hz]
    unfold wt
    rw [gridT_real, gridZ_real, real_half]
    simp only [e1, e2]
  cases ha : d.asym with
  | true =>
    have hnp : d.np = d.nt * d.nz := by simp [Dims.np, Dims.nu3, ha]
    rw [hnp, key]
    simp only [ha, Bool.true_eq_false, false_and, if_false]
    congr 1
    unfold facK fac0
    simp only [ha, if_true, real_ofInt, real_half]
    push_cast
    split <;> ring
  | false =>
    obtain ⟨he, hper⟩ := hF ha
    have hnp : d.np = (2 * d.M + 1 + 1) * d.nz := by simp [Dims.np, Dims.nu3, ha, Dims.nu2]
    rw [hnp, key]
    have hnu : d.nu2 - 1 = 2 * d.M + 1 := by unfold Dims.nu2; omega
    have hnt : (d.nt : ℝ) = 2 * ((2 * d.M + 1 : ℕ) : ℝ) := by unfold Dims.nt; push_cast; ring
    have hnt' : d.nt = 2 * (2 * d.M + 1) := rfl
    have hfg := fold_grid (F := F) (P := 2 * Real.pi / d.nfp) (h := 2 * d.M + 1) (nz := d.nz)
      (by omega) hz he hper.1 hper.2
    have hb : ∀ b : ℕ, 2 * Real.pi / (d.nfp : ℝ) * b / d.nz = 2 * Real.pi * b / (d.nfp * d.nz) := by
      intro b; field_simp
    simp only [hb] at hfg
    simp only [ha, true_and, hnu, hnt]
    rw [hfg, ← hnt']
    have hh' : ((2 * d.M + 1 : ℕ) : ℝ) ≠ 0 := by positivity
    have hz' : (d.nz : ℝ) ≠ 0 := by positivity
    have hfac : (facK d k : ℝ) * (1 / 2) =
        (if k = 0 then (1 : ℝ) else 2) / (2 * ((2 * d.M + 1 : ℕ) : ℝ) * d.nz) := by
      unfold facK fac0
      simp only [ha, real_ofInt, real_half, Bool.false_eq_true, if_false]
      have : (((d.nu2 : ℤ) - 1 : ℤ) : ℝ) = ((2 * d.M + 1 : ℕ) : ℝ) := by
        unfold Dims.nu2; push_cast; ring
      rw [Int.cast_mul, this]
      push_cast at *
      split <;> field_simp
    rw [← mul_assoc, hfac]

theorem coefC_real (h : RunReady I d) (hp : FieldPeriodic I d.nfp) (ho : OriginOnce I) (js : ℕ)
    {k : ℕ} {q : ℝ → ℝ → ℝ} (hq : d.asym = false → EvenF q ∧ PerF d.nfp q)
    (hS : d.asym = false → OddF (surface I d.asym js).lam ∧ OddF (surface I d.asym js).w)
    (hl : PerF d.nfp (surface I d.asym js).lam) (hw : PerF d.nfp (surface I d.asym js).w) :
    coefF d (tC I d js) q (ofInt 0) k =
      (surface I d.asym js).quadCos (ntheta d.M) (nzeta d.N) d.nfp q (modeM d.N k)
        (modeN d.N k * d.nfp) := by
  unfold coefF
  rw [foldAdd_real, real_ofInt, Int.cast_zero, zero_add]
  simp only [tC_real h hp ho]
  rw [sum_pts d h.nfp_pos]
  · rfl
  · intro ha
    exact ⟨intC_even (hS ha).1 (hS ha).2 (hq ha).1 _ _,
      intC_per h.nfp_pos hl hw (hq ha).2 _ _ (dvd_mul_left _ _)⟩

theorem coefS_real (h : RunReady I d) (hp : FieldPeriodic I d.nfp) (ho : OriginOnce I) (js : ℕ)
    {k : ℕ} {q : ℝ → ℝ → ℝ} (hq : d.asym = false → OddF q ∧ PerF d.nfp q)
    (hS : d.asym = false → OddF (surface I d.asym js).lam ∧ OddF (surface I d.asym js).w)
    (hl : PerF d.nfp (surface I d.asym js).lam) (hw : PerF d.nfp (surface I d.asym js).w) :
    coefF d (tS I d js) q (ofInt 0) k =
      (surface I d.asym js).quadSin (ntheta d.M) (nzeta d.N) d.nfp q (modeM d.N k)
        (modeN d.N k * d.nfp) := by
  unfold coefF
  rw [foldAdd_real, real_ofInt, Int.cast_zero, zero_add]
  simp only [tS_real h hp ho]
  rw [sum_pts d h.nfp_pos]
  · rfl
  · intro ha
    exact ⟨intS_even (hS ha).1 (hS ha).2 (hq ha).1 _ _,
      intS_per h.nfp_pos hl hw (hq ha).2 _ _ (dvd_mul_left _ _)⟩

/-! Parity and periodicity of the surface built from the inputs. -/

theorem surf_per (h : RunReady I d) (hp : FieldPeriodic I d.nfp) (a : Bool) (js : ℕ) :
    PerF d.nfp (surface I a js).lam ∧ PerF d.nfp (surface I a js).w ∧
    PerF d.nfp (surface I a js).R ∧ PerF d.nfp (surface I a js).Z ∧
    PerF d.nfp (surface I a js).B := by
  have e1 : I.xm.size = I.xn.size := by rw [h.xm.1, h.xn.1]
  have e2 : I.xm_nyq.size = I.xn_nyq.size := by rw [h.xm_nyq.1, h.xn_nyq.1]
  refine ⟨series_per h.nfp_pos ?_ _ _, series_per h.nfp_pos ?_ _ _, series_per h.nfp_pos ?_ _ _,
    series_per h.nfp_pos ?_ _ _, series_per h.nfp_pos ?_ _ _⟩
  · rw [e1]; exact hp.1
  · rw [e2]; exact hp.2
  · rw [e1]; exact hp.1
  · rw [e1]; exact hp.1
  · rw [e2]; exact hp.2

theorem surf_parity (I : Inputs ℝ) (js : ℕ) :
    OddF (surface I false js).lam ∧ OddF (surface I false js).w ∧ EvenF (surface I false js).R ∧
    OddF (surface I false js).Z ∧ EvenF (surface I false js).B :=
  ⟨series_odd fun _ _ => rfl, series_odd fun _ _ => rfl, series_even fun _ _ => rfl,
    series_odd fun _ _ => rfl, series_even fun _ _ => rfl⟩

theorem jac_per {S : Surface} {nfp : ℕ} (hB : PerF nfp S.B) : PerF nfp S.jacobian := by
  constructor <;> intro θ ζ <;> unfold Surface.jacobian
  · rw [hB.1]
  · rw [hB.2]

theorem jac_even {S : Surface} (hB : EvenF S.B) : EvenF S.jacobian := by
  intro θ ζ; unfold Surface.jacobian; rw [hB]

end

end Booz
