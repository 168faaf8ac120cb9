import Verif.Spec.Positions
import Verif.Props.Uniform

/-!
# C109: positions in space from the outputs
-/

namespace Booz
open Spec Set Finset
open Trapezoid (τ)

/-- A series in the output modes whose coefficients are given by functions of the mode numbers. -/
theorem series_sum {s : St ℝ} {d : Dims} (h : RunReady s.inp d) {c t : ℤ → ℤ → ℝ}
    {p q : ℕ → ℝ} (hc : ∀ k < d.nmodes, p k = c (modeM d.N k) (modeN d.N k * d.nfp))
    (hs : ∀ k < d.nmodes, q k = t (modeM d.N k) (modeN d.N k * d.nfp)) (x y : ℝ) :
    series (numModes d.M d.N) (outM (runSt d s d.nsb)) (outN (runSt d s d.nsb)) p q x y =
      outputSeries d.nfp d.M d.N c t x y := by
  have hp0 : (0 : ℤ) < d.nfp := by exact_mod_cast h.nfp_pos
  have em : ∀ k < d.nmodes, outM (runSt d s d.nsb) k = modeM d.N k := fun k hk => Vec.val_tab hk
  have en : ∀ k < d.nmodes, outN (runSt d s d.nsb) k = modeN d.N k * d.nfp := fun k hk => Vec.val_tab hk
  have key := sum_all d h.mboz_ge h.nfp_pos fun m n => c m n * Real.cos (m * x - n * y) + t m n * Real.sin (m * x - n * y)
  rw [Finset.filter_true_of_mem] at key
  · refine Eq.trans ?_ key
    unfold series
    refine sum_congr rfl fun k hk => ?_
    have hk : k < d.nmodes := Finset.mem_range.1 hk
    beta_reduce
    rw [em k hk, en k hk, hc k hk, hs k hk]
  · intro k hk
    have hk := Finset.mem_range.1 hk
    obtain ⟨i1, i2, n', e, i3, i4, -⟩ := (modePair_mem d h.mboz_ge h.nfp_pos _).1 ⟨k, hk, rfl⟩
    have e : modeN d.N k = n' := mul_right_cancel₀ hp0.ne' e
    subst e
    rw [abs_of_nonneg i1, abs_mul, abs_of_pos hp0, Nat.cast_mul, mul_le_mul_iff_of_pos_right hp0, abs_le]
    exact ⟨le_of_lt i2, i3, i4⟩

section
variable {s : St ℝ} {d : Dims} (h : RunReady s.inp d) (hp : FieldPeriodic s.inp d.nfp) (ho : OriginOnce s.inp)
  {b : ℕ} (hb : b < d.nsb)
include h hp ho hb

/-- The points computed from the outputs are those computed from the harmonics by quadrature. -/
theorem boozerPoint_eq :
    boozerPoint (runSt d s d.nsb) (numModes d.M d.N) d.asym b =
      (surface s.inp d.asym (selected s.inp b)).quadPoint d.nfp d.M d.N := by
  set S := surface s.inp d.asym (selected s.inp b) with hS
  have g := fun (k : ℕ) (hk : k < d.nmodes) => spectrum_at h hp ho (b := b) hb hk
  have par := fun (ha : d.asym = false) (m n : ℤ) => quad_parity h hp ha (selected s.inp b) (ntheta_pos d.M) (nzeta_pos d.N) m n
  have other : ∀ (a : Mat ℝ) (f : ℤ → ℤ → ℝ), (d.asym = true → ∀ k < d.nmodes,
      a.rdN k b = .ok (f (modeM d.N k) (modeN d.N k * d.nfp))) → (d.asym = false → ∀ m n : ℤ, f m (n * d.nfp) = 0) →
      ∀ k < d.nmodes, onlyIf d.asym (entry a k b) = f (modeM d.N k) (modeN d.N k * d.nfp) := by
    intro a f h1 h2 k hk
    cases ha : d.asym
    · exact (h2 ha _ _).symm
    · exact Mat.val_of_rdN 0 (h1 ha k hk)
  funext t z
  unfold boozerPoint Surface.quadPoint Surface.quadSeries seriesR seriesZ seriesNu
  rw [series_sum h (c := S.quadCos (ntheta d.M) (nzeta d.N) d.nfp S.R) (t := S.quadSin (ntheta d.M) (nzeta d.N) d.nfp S.R)
      (fun k hk => Mat.val_of_rdN 0 (g k hk).2.1)
      (other _ _ (fun ha k hk => ((g k hk).2.2.2.2.2 ha).2.1) fun ha m n => (par ha m n).2.1),
    series_sum h (c := S.quadCos (ntheta d.M) (nzeta d.N) d.nfp S.nu) (t := S.quadSin (ntheta d.M) (nzeta d.N) d.nfp S.nu)
      (other _ _ (fun ha k hk => ((g k hk).2.2.2.2.2 ha).2.2.2.1) fun ha m n => (par ha m n).2.2.2.1)
      (fun k hk => Mat.val_of_rdN 0 (g k hk).2.2.2.1),
    series_sum h (c := S.quadCos (ntheta d.M) (nzeta d.N) d.nfp S.Z) (t := S.quadSin (ntheta d.M) (nzeta d.N) d.nfp S.Z)
      (other _ _ (fun ha k hk => ((g k hk).2.2.2.2.2 ha).2.2.1) fun ha m n => (par ha m n).2.2.1)
      (fun k hk => Mat.val_of_rdN 0 (g k hk).2.2.1)]

omit ho hb in
/-- `R` is bounded. -/
theorem R_bounded : ∃ m, 0 ≤ m ∧ ∀ θ ζ, |(surface s.inp d.asym (selected s.inp b)).R θ ζ| ≤ m := by
  obtain ⟨-, -, pR, -, -⟩ := surf_per h hp d.asym (selected s.inp b)
  have sR := (smooth_surface s.inp d.asym (selected s.inp b)).R
  have hD : Trapezoid.DPer τ τ (Function.uncurry (surface s.inp d.asym (selected s.inp b)).R) := pR.torus h.nfp_pos
  obtain ⟨m, h1⟩ := hD.bounded Real.two_pi_pos Real.two_pi_pos (ContDiff.continuous sR)
  exact ⟨m, (abs_nonneg _).trans (h1 (0, 0)), fun θ ζ => h1 (θ, ζ)⟩

end

/-- Error of a position from the errors of the cylindrical coordinates. -/
theorem cartesian_dist {R R' φ φ' Z Z' m e : ℝ} (hm : |R| ≤ m) (h1 : |R - R'| ≤ e) (h2 : |φ - φ'| ≤ e) (h3 : |Z - Z'| ≤ e) :
    dist (cartesian R' φ' Z') (cartesian R φ Z) ≤ (1 + m) * e := by
  have he : 0 ≤ e := (abs_nonneg _).trans h1
  have hm0 : 0 ≤ m := (abs_nonneg _).trans hm
  have one : ∀ f : ℝ → ℝ, (∀ u, |f u| ≤ 1) → (∀ u v, |f u - f v| ≤ |u - v|) → |R' * f φ' - R * f φ| ≤ (1 + m) * e := by
    intro f f1 f2
    have k : R' * f φ' - R * f φ = -(R - R') * f φ' + R * (f φ' - f φ) := by ring
    rw [k]
    refine (abs_add_le _ _).trans ?_
    rw [abs_mul, abs_mul, abs_neg, add_mul, one_mul]
    refine add_le_add ?_ ?_
    · calc |R - R'| * |f φ'| ≤ e * 1 := mul_le_mul h1 (f1 _) (abs_nonneg _) he
        _ = e := mul_one e
    · refine mul_le_mul hm ((f2 _ _).trans ?_) (abs_nonneg _) hm0
      rwa [abs_sub_comm]
  rw [Prod.dist_eq, Prod.dist_eq, max_le_iff, max_le_iff]
  refine ⟨one Real.cos Real.abs_cos_le_one fun u v => ?_, one Real.sin Real.abs_sin_le_one fun u v => ?_, ?_⟩
  · simpa [Real.dist_eq] using Real.lipschitzWith_cos.dist_le_mul u v
  · simpa [Real.dist_eq] using Real.lipschitzWith_sin.dist_le_mul u v
  · show |Z' - Z| ≤ _
    rw [abs_sub_comm]
    refine h3.trans ?_
    nlinarith

/-- **C109.**  Let the Boozer angles of a selected surface be coordinates.  For any order `p` there is a constant `C` such
that at every resolution (the numbers of modes comparable, and the grid resolving the angles) the point of space which is
computed for given Boozer angles from the harmonics of `R`, `ν`, `Z` is within `C / mboz^p` of the point of the input
surface which has these Boozer angles, for all points of the surface; and all Boozer angles occur.  So the surface computed
and the input surface are within that distance of each other.  The second part is about the outputs of `run()`. -/
theorem C109_positions {s : St ℝ} {d : Dims} (h : RunReady s.inp d) (hp : FieldPeriodic s.inp d.nfp) (ho : OriginOnce s.inp)
    {b : ℕ} (hb : b < d.nsb) (hreg : (surface s.inp d.asym (selected s.inp b)).Regular)
    (hdet : ∀ θ ζ, (surface s.inp d.asym (selected s.inp b)).det θ ζ ≠ 0) {c : ℝ} (hc : 0 ≤ c) {ρ : ℝ} (hρ : ρ < 1) (p : ℕ) :
    let S := surface s.inp d.asym (selected s.inp b)
    let x := inputPoint s.inp d.asym (selected s.inp b)
    let Near := fun (y : ℝ → ℝ → ℝ × ℝ × ℝ) (e : ℝ) =>
      (∀ θ ζ, dist (y (S.thetaB θ ζ) (S.zetaB θ ζ)) (x θ ζ) ≤ e) ∧
      (∀ t z, ∃ θ ζ, S.thetaB θ ζ = t ∧ S.zetaB θ ζ = z ∧ dist (y t z) (x θ ζ) ≤ e) ∧
      Metric.hausdorffDist (fluxSurface y) (fluxSurface x) ≤ e
    ∃ C, 0 ≤ C ∧
      (∀ M N : ℕ, 1 ≤ M → 1 ≤ N → (M : ℝ) ≤ c * N → (N : ℝ) ≤ c * M → S.ResolvedBy d.nfp M N ρ →
        Near (S.quadPoint d.nfp M N) (C * (1 / (M : ℝ)) ^ p)) ∧
      ∀ (M N : ℕ) (s1 : St ℝ) (dbg : Bool), 1 ≤ N → (M : ℝ) ≤ c * N → (N : ℝ) ≤ c * M →
        s1.inp = { s.inp with mboz := M, nboz := N } → RunReady s1.inp { d with M := M, N := N } →
        S.ResolvedBy d.nfp M N ρ →
        ∃ s' r, run dbg s1 = .ok (s', r) ∧
          Near (boozerPoint s' (numModes M N) d.asym b) (C * (1 / (M : ℝ)) ^ p) := by
  intro S x Near
  obtain ⟨C, hC, hr⟩ := surface_rate h hp hreg hdet hc hρ p
  obtain ⟨m, hm, hR⟩ := R_bounded h hp (b := b)
  have key : ∀ M N : ℕ, 1 ≤ M → 1 ≤ N → (M : ℝ) ≤ c * N → (N : ℝ) ≤ c * M → S.ResolvedBy d.nfp M N ρ →
      Near (S.quadPoint d.nfp M N) ((1 + m) * C * (1 / (M : ℝ)) ^ p) := by
    intro M N hM hN hMN hNM hres
    have near := fun q hq => hr q hq M N hM hN hMN hNM hres
    have pt : ∀ θ ζ, dist (S.quadPoint d.nfp M N (S.thetaB θ ζ) (S.zetaB θ ζ)) (x θ ζ) ≤ (1 + m) * C * (1 / (M : ℝ)) ^ p := by
      intro θ ζ
      rw [mul_assoc]
      refine cartesian_dist (hR θ ζ) (near S.R (by show _ ∈ [S.B, S.R, S.Z, S.nu, S.jacobian]; simp) θ ζ) ?_
        (near S.Z (by show _ ∈ [S.B, S.R, S.Z, S.nu, S.jacobian]; simp) θ ζ)
      have k := near S.nu (by show _ ∈ [S.B, S.R, S.Z, S.nu, S.jacobian]; simp) θ ζ
      have e : ζ - (S.zetaB θ ζ - S.quadSeries d.nfp M N S.nu (S.thetaB θ ζ) (S.zetaB θ ζ)) =
          -(S.nu θ ζ - S.quadSeries d.nfp M N S.nu (S.thetaB θ ζ) (S.zetaB θ ζ)) := by
        unfold Surface.zetaB
        ring
      rw [e, abs_neg]
      exact k
    have all : ∀ t z, ∃ θ ζ, S.thetaB θ ζ = t ∧ S.zetaB θ ζ = z ∧
        dist (S.quadPoint d.nfp M N t z) (x θ ζ) ≤ (1 + m) * C * (1 / (M : ℝ)) ^ p := by
      intro t z
      obtain ⟨y, hy⟩ := every_angle_occurs h hp (selected s.inp b) (t, z)
      have e1 : S.thetaB y.1 y.2 = t := congrArg Prod.fst hy
      have e2 : S.zetaB y.1 y.2 = z := congrArg Prod.snd hy
      refine ⟨y.1, y.2, e1, e2, ?_⟩
      have := pt y.1 y.2
      rwa [e1, e2] at this
    refine ⟨pt, all, Metric.hausdorffDist_le_of_mem_dist (by positivity) ?_ ?_⟩
    · rintro - ⟨⟨t, z⟩, rfl⟩
      obtain ⟨θ, ζ, -, -, k⟩ := all t z
      exact ⟨x θ ζ, ⟨(θ, ζ), rfl⟩, k⟩
    · rintro - ⟨⟨θ, ζ⟩, rfl⟩
      exact ⟨_, ⟨(S.thetaB θ ζ, S.zetaB θ ζ), rfl⟩, (dist_comm _ _).trans_le (pt θ ζ)⟩
  refine ⟨(1 + m) * C, by positivity, key, fun M N s1 dbg hN hMN hNM e1 h1 hres => ?_⟩
  have hp' : FieldPeriodic s1.inp ({ d with M := M, N := N } : Dims).nfp := by rw [e1]; exact hp
  have ho' : OriginOnce s1.inp := by rw [e1]; exact ho
  have eS : surface s1.inp ({ d with M := M, N := N } : Dims).asym (selected s1.inp b) = S := by rw [e1]; rfl
  refine ⟨_, _, originFirst_of h1 ho' dbg, ?_⟩
  have e := boozerPoint_eq h1 hp' ho' (b := b) hb
  rw [eS] at e
  have e' : boozerPoint (runSt { d with M := M, N := N } s1 d.nsb) (numModes M N) d.asym b = S.quadPoint d.nfp M N := e
  rw [e']
  exact key M N h1.mboz_ge hN hMN hNM hres

/-- C109 for the example, at all resolutions with `M ≤ 2 N`, `N ≤ 2 M`. -/
example (asym : Bool) :
    let S := surface (Ex.gentle asym).inp asym (selected (Ex.gentle asym).inp 1)
    let x := inputPoint (Ex.gentle asym).inp asym (selected (Ex.gentle asym).inp 1)
    ∃ C, 0 ≤ C ∧ (∀ M N : ℕ, 1 ≤ M → 1 ≤ N → M ≤ 2 * N → N ≤ 2 * M →
      Metric.hausdorffDist (fluxSurface (S.quadPoint 2 M N)) (fluxSurface x) ≤ C * (1 / (M : ℝ)) ^ 5) ∧
    ∀ (M N : ℕ), 1 ≤ M → 1 ≤ N → M ≤ 2 * N → N ≤ 2 * M → (4 * M + 2) * (4 * N + 2) < 2 ^ 30 →
      ∃ s' r, run false { Ex.gentle asym with inp := { (Ex.gentle asym).inp with mboz := M, nboz := N } } = .ok (s', r) ∧
        ∀ θ ζ, dist (boozerPoint s' (numModes M N) asym 1 (S.thetaB θ ζ) (S.zetaB θ ζ)) (x θ ζ) ≤ C * (1 / (M : ℝ)) ^ 5 := by
  intro S x
  have hs := Ex.selected_lt asym 1 (by decide)
  obtain ⟨C, h0, h1, h2⟩ := C109_positions (s := Ex.gentle asym) (d := Ex.dims asym) (Ex.gentle_ready asym)
    (Ex.fieldPeriodic (α := ℝ) asym) (Ex.originOnce (α := ℝ) asym) (b := 1) (by show 1 < 2; decide)
    (Ex.gentle_regular asym hs) (fun θ ζ => (lt_trans (by norm_num) (Ex.gentle_det asym hs θ ζ)).ne')
    (c := 2) (by norm_num) (ρ := 1 / 2) (by norm_num) 5
  refine ⟨C, h0, fun M N k1 k2 k3 k4 => ?_, fun M N k1 k2 k3 k4 k5 => ?_⟩
  · exact (h1 M N k1 k2 (by exact_mod_cast k3) (by exact_mod_cast k4) (Ex.gentle_resolved asym hs k3 k4)).2.2
  · obtain ⟨s', r, e, k, -⟩ := h2 M N
      { Ex.gentle asym with inp := { (Ex.gentle asym).inp with mboz := M, nboz := N } } false k2 (by exact_mod_cast k3) (by exact_mod_cast k4) rfl
      (Ex.gentle_ready_res asym k1 k5) (Ex.gentle_resolved asym hs k3 k4)
    exact ⟨s', r, e, k⟩

end Booz
