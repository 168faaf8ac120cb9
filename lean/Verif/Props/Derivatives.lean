import Verif.Spec.Derivatives
import Verif.Lemmas.Landau
import Verif.Props.FileSeries
import Verif.Props.MeanSquare

/-!
# C114: derivatives with respect to the Boozer angles
-/

namespace Booz
open Spec Finset Function
open Trapezoid (τ Smooth DPer D1 D2 Dab tsum2)

/-- Harmonics by quadrature are bounded, whatever the mode and the grid. -/
theorem quad_le {S : Surface} {q : ℝ → ℝ → ℝ} {E : ℝ} (hE : ∀ θ ζ, |q θ ζ * S.det θ ζ| ≤ E) {nt nz nfp : ℕ} (ht : 1 ≤ nt)
    (hz : 1 ≤ nz) (m n : ℤ) : |S.quadCos nt nz nfp q m n| ≤ 2 * E ∧ |S.quadSin nt nz nfp q m n| ≤ 2 * E := by
  have E0 : 0 ≤ E := (abs_nonneg _).trans (hE 0 0)
  have t0 : (0 : ℝ) < nt := by exact_mod_cast ht
  have z0 : (0 : ℝ) < nz := by exact_mod_cast hz
  have key : ∀ g : ℝ → ℝ → ℝ, (∀ θ ζ, |g θ ζ| ≤ E) →
      |(if m = 0 ∧ n = 0 then (1 : ℝ) else 2) / ((nt : ℝ) * nz) *
        ∑ a ∈ range nt, ∑ b ∈ range nz, g (2 * Real.pi * a / nt) (2 * Real.pi * b / (nfp * nz))| ≤ 2 * E := by
    intro g hg
    have h1 : |∑ a ∈ range nt, ∑ b ∈ range nz, g (2 * Real.pi * a / nt) (2 * Real.pi * b / (nfp * nz))| ≤ nt * (nz * E) := by
      refine (abs_sum_le_sum_abs _ _).trans ?_
      refine (sum_le_card_nsmul _ _ (nz * E) fun a _ => ?_).trans_eq (by rw [card_range, nsmul_eq_mul])
      refine (abs_sum_le_sum_abs _ _).trans ?_
      exact (sum_le_card_nsmul _ _ E fun b _ => hg _ _).trans_eq (by rw [card_range, nsmul_eq_mul])
    rw [abs_mul]
    have h2 : |(if m = 0 ∧ n = 0 then (1 : ℝ) else 2) / ((nt : ℝ) * nz)| ≤ 2 / (nt * nz) := by
      rw [abs_div, abs_of_pos (mul_pos t0 z0)]
      refine div_le_div_of_nonneg_right ?_ (mul_pos t0 z0).le
      split <;> norm_num
    refine (mul_le_mul h2 h1 (abs_nonneg _) (by positivity)).trans_eq ?_
    field_simp
  have one : ∀ x y : ℝ, |x| ≤ E → |y| ≤ 1 → |x * y| ≤ E := fun x y hx hy => by
    rw [abs_mul]
    calc |x| * |y| ≤ E * 1 := mul_le_mul hx hy (abs_nonneg _) E0
      _ = E := mul_one E
  exact ⟨key (fun θ ζ => q θ ζ * S.det θ ζ * Real.cos (m * S.thetaB θ ζ - n * S.zetaB θ ζ))
      fun θ ζ => one _ _ (hE θ ζ) (Real.abs_cos_le_one _),
    key (fun θ ζ => q θ ζ * S.det θ ζ * Real.sin (m * S.thetaB θ ζ - n * S.zetaB θ ζ))
      fun θ ζ => one _ _ (hE θ ζ) (Real.abs_sin_le_one _)⟩

/-- The series over the output modes as a trigonometric sum. -/
theorem outputSeries_tsum (nfp M N : ℕ) (c s : ℤ → ℤ → ℝ) :
    uncurry (outputSeries nfp M N c s) = tsum2 (outputModes M N) (fun k => (k.1 : ℝ)) (fun k => ((k.2 * nfp : ℤ) : ℝ))
      (fun k => c k.1 (k.2 * nfp)) (fun k => s k.1 (k.2 * nfp)) 0 0 := by
  rw [Trapezoid.tsum2_zero]
  rfl

theorem series_tsum (K : ℕ) (m n : ℕ → ℤ) (c s : ℕ → ℝ) :
    uncurry (series K m n c s) = tsum2 (range K) (fun k => (m k : ℝ)) (fun k => (n k : ℝ)) c s 0 0 := by
  rw [Trapezoid.tsum2_zero]
  rfl

/-- **C114, term by term.**  Term-by-term differentiation is differentiation. -/
theorem C114_termwise (a b K : ℕ) (m n : ℕ → ℤ) (c s : ℕ → ℝ) (t z : ℝ) :
    partialDeriv a b (series K m n c s) t z = seriesDeriv a b K m n c s t z := by
  have hs : Smooth (uncurry (series K m n c s)) := by rw [series_tsum]; exact Trapezoid.tsum2_smooth _ _ _ _ _ 0 0
  have e := Trapezoid.Dab_iterated hs a b t z
  refine (show partialDeriv a b (series K m n c s) t z = _ from e).trans ?_
  rw [series_tsum, Trapezoid.tsum2_Dab]
  unfold tsum2 seriesDeriv
  push_cast
  rfl

/-- **C114, series.**  Let the Boozer angles be coordinates of the surface.  |B|, R, Z, ν and the Jacobian are smooth functions
of the Boozer angles, and the derivatives of any order of the sum of all output harmonics converge to their derivatives, faster
than any power of `1/M`, uniformly in the angles. -/
theorem C114_series {I : Inputs ℝ} {d : Dims} (h : RunReady I d) (hp : FieldPeriodic I d.nfp) {js : ℕ}
    (hreg : (surface I d.asym js).Regular) (hd : ∀ θ ζ, (surface I d.asym js).det θ ζ ≠ 0) {c : ℝ} (hc : 0 ≤ c) {ρ : ℝ}
    (hρ : ρ < 1) :
    let S := surface I d.asym js
    ∀ q ∈ S.quantities, ∃ f, ContDiff ℝ (⊤ : ℕ∞) (uncurry f) ∧ S.Expresses f q ∧ ∀ a b p : ℕ,
      ∃ C, 0 ≤ C ∧ ∀ M N : ℕ, 1 ≤ M → 1 ≤ N → (M : ℝ) ≤ c * N → (N : ℝ) ≤ c * M → S.ResolvedBy d.nfp M N ρ → ∀ t z,
        |partialDeriv a b f t z - partialDeriv a b (outputSeries d.nfp M N (S.quadCos (ntheta M) (nzeta N) d.nfp q)
          (S.quadSin (ntheta M) (nzeta N) d.nfp q)) t z| ≤ C * (1 / (M : ℝ)) ^ p := by
  intro S q hq
  obtain ⟨f, hf, sf, pf, -⟩ := express_q h hp hreg hd q hq
  refine ⟨f, sf, hf, fun a b p => ?_⟩
  obtain ⟨pl, pw, pR, pZ, pB⟩ := surf_per h hp d.asym js
  have hs := smooth_surface I d.asym js
  have hn : (0 : ℝ) < d.nfp := by exact_mod_cast h.nfp_pos
  have hQ : (0 : ℝ) < 2 * Real.pi / d.nfp := div_pos Real.two_pi_pos hn
  -- a bound for the harmonics
  have hqs : Smooth (uncurry q) ∧ PerF d.nfp q := by
    have hq' := hq
    unfold Surface.quantities at hq'
    simp only [List.mem_cons, List.not_mem_nil, or_false] at hq'
    rcases hq' with rfl | rfl | rfl | rfl | rfl
    · exact ⟨hs.B, pB⟩
    · exact ⟨hs.R, pR⟩
    · exact ⟨hs.Z, pZ⟩
    · exact ⟨hs.nu, nu_per pl pw⟩
    · exact ⟨hs.jacobian hreg.2, jac_per pB⟩
  obtain ⟨Bq, hBq⟩ := hqs.2.dper.bounded Real.two_pi_pos hQ hqs.1.continuous
  obtain ⟨Bd, hBd⟩ := (det_per pl pw).dper.bounded Real.two_pi_pos hQ hs.det.continuous
  have B0 : 0 ≤ Bq := (abs_nonneg _).trans (hBq (0, 0))
  have hE : ∀ θ ζ, |q θ ζ * S.det θ ζ| ≤ Bq * Bd := fun θ ζ => by
    rw [abs_mul]
    exact mul_le_mul (hBq (θ, ζ)) (hBd (θ, ζ)) (abs_nonneg _) B0
  have E0 : 0 ≤ Bq * Bd := (abs_nonneg _).trans (hE 0 0)
  -- the family of differences
  let ι := { y : ℕ × ℕ // 1 ≤ y.1 ∧ 1 ≤ y.2 ∧ (y.1 : ℝ) ≤ c * y.2 ∧ (y.2 : ℝ) ≤ c * y.1 ∧ S.ResolvedBy d.nfp y.1 y.2 ρ }
  let T : ι → ℝ × ℝ → ℝ := fun i => uncurry (outputSeries d.nfp i.1.1 i.1.2
    (S.quadCos (ntheta i.1.1) (nzeta i.1.2) d.nfp q) (S.quadSin (ntheta i.1.1) (nzeta i.1.2) d.nfp q))
  have sT : ∀ i, Smooth (T i) := fun i => by
    show Smooth (uncurry _)
    rw [outputSeries_tsum]
    exact Trapezoid.tsum2_smooth _ _ _ _ _ 0 0
  have hM : ∀ i : ι, (1 : ℝ) ≤ i.1.1 := fun i => by exact_mod_cast i.2.1
  have small : ∀ p : ℕ, ∃ C, 0 ≤ C ∧ ∀ (i : ι) (x : ℝ × ℝ), |uncurry f x - T i x| ≤ C * (1 / (i.1.1 : ℝ)) ^ p := by
    intro p
    obtain ⟨C, hC, H⟩ := surface_rate h hp hreg hd hc hρ p
    refine ⟨C, hC, fun i x => ?_⟩
    obtain ⟨⟨θ, ζ⟩, hy⟩ := every_angle_occurs h hp js x
    have e1 : S.thetaB θ ζ = x.1 := congrArg Prod.fst hy
    have e2 : S.zetaB θ ζ = x.2 := congrArg Prod.snd hy
    have := H q hq i.1.1 i.1.2 i.2.1 i.2.2.1 i.2.2.2.1 i.2.2.2.2.1 i.2.2.2.2.2 θ ζ
    rw [← hf θ ζ] at this
    change |f (S.thetaB θ ζ) (S.zetaB θ ζ) - outputSeries d.nfp i.1.1 i.1.2 _ _ (S.thetaB θ ζ) (S.zetaB θ ζ)| ≤ _ at this
    rw [e1, e2] at this
    exact this
  have big : ∀ a b : ℕ, ∃ (B : ℝ) (P : ℕ), 0 ≤ B ∧ ∀ (i : ι) (x : ℝ × ℝ),
      |Dab a b (fun x => uncurry f x - T i x) x| ≤ B * (i.1.1 : ℝ) ^ P := by
    intro a b
    have pF : DPer (2 * Real.pi) (2 * Real.pi / d.nfp) (Dab a b (uncurry f)) :=
      Trapezoid.iter_per (fun _ => DPer.d1) (Trapezoid.iter_per (fun _ => DPer.d2) pf.dper b) a
    obtain ⟨Bf, hBf⟩ := pF.bounded Real.two_pi_pos hQ (Trapezoid.Dab_smooth sf a b).continuous
    have Bf0 : 0 ≤ Bf := (abs_nonneg _).trans (hBf (0, 0))
    refine ⟨Bf + (2 * c + 1) * (c * d.nfp) ^ b * (2 * (2 * (Bq * Bd))), a + b + 2, by positivity, fun i x => ?_⟩
    have m1 := hM i
    have mP : (1 : ℝ) ≤ (i.1.1 : ℝ) ^ (a + b + 2) := one_le_pow₀ m1
    rw [Trapezoid.Dab_sub sf (sT i)]
    refine (abs_sub _ _).trans ?_
    rw [add_mul]
    refine add_le_add ((hBf x).trans (le_mul_of_one_le_right Bf0 mP)) ?_
    show |Dab a b (uncurry _) x| ≤ _
    rw [outputSeries_tsum, Trapezoid.tsum2_Dab]
    have bd := fun m n => quad_le hE (nfp := d.nfp) (ntheta_pos i.1.1) (nzeta_pos i.1.2) m n
    refine (Trapezoid.tsum2_le _ _ _ _ _ (E := 2 * (Bq * Bd)) (W := fun _ => (i.1.1 : ℝ) ^ a * (c * d.nfp * i.1.1) ^ b) a b
      (fun k _ => (bd _ _).1) (fun k _ => (bd _ _).2) (fun k hk => ?_) x).trans ?_
    · obtain ⟨b1, b2⟩ := outputModes_le hk
      have c1 : |(k.1 : ℝ)| ≤ i.1.1 := by
        rw [← Int.cast_abs]
        exact_mod_cast b1
      have c2 : |((k.2 * d.nfp : ℤ) : ℝ)| ≤ c * d.nfp * i.1.1 := by
        have c3 : |(k.2 : ℝ)| ≤ i.1.2 := by
          rw [← Int.cast_abs]
          exact_mod_cast b2
        push_cast
        rw [abs_mul, abs_of_pos hn]
        calc |(k.2 : ℝ)| * d.nfp ≤ (c * i.1.1) * d.nfp := mul_le_mul_of_nonneg_right (c3.trans i.2.2.2.2.1) hn.le
          _ = _ := by ring
      exact mul_le_mul (pow_le_pow_left₀ (abs_nonneg _) c1 a) (pow_le_pow_left₀ (abs_nonneg _) c2 b) (by positivity)
        (by positivity)
    · rw [sum_const, nsmul_eq_mul]
      have cd : ((outputModes i.1.1 i.1.2).card : ℝ) ≤ (2 * c + 1) * (i.1.1 : ℝ) ^ 2 := by
        have : ((outputModes i.1.1 i.1.2).card : ℝ) ≤ (i.1.1 * (2 * i.1.2 + 1) : ℕ) := by
          exact_mod_cast outputModes_card i.1.1 i.1.2
        push_cast at this
        have h4 := i.2.2.2.2.1
        nlinarith
      calc _ ≤ (2 * c + 1) * (i.1.1 : ℝ) ^ 2 * ((i.1.1 : ℝ) ^ a * (c * d.nfp * i.1.1) ^ b) * (2 * (2 * (Bq * Bd))) := by gcongr
        _ = _ := by rw [mul_pow (c * (d.nfp : ℝ))]; ring
  obtain ⟨C, hC, H⟩ := Trapezoid.family_derivs (M := fun i : ι => (i.1.1 : ℝ)) hM
    (G := fun i x => uncurry f x - T i x) (fun i => sf.sub (sT i)) small big a b p
  refine ⟨C, hC, fun M N h1 h2 h3 h4 h5 t z => ?_⟩
  have k := H ⟨(M, N), h1, h2, h3, h4, h5⟩ (t, z)
  rw [Trapezoid.Dab_sub sf (sT _)] at k
  have e1 := Trapezoid.Dab_iterated sf a b t z
  have e2 := Trapezoid.Dab_iterated (sT ⟨(M, N), h1, h2, h3, h4, h5⟩) a b t z
  beta_reduce at k
  rw [← e1, ← e2] at k
  exact k

/-! ### Runs on a machine -/

theorem rebuildsDeriv_of {i j K : ℕ} {m n : ℕ → ℤ} {cosN sinN : ℕ → ℝ → Prop} {S : Surface} {q f : ℝ → ℝ → ℝ} {c s : ℕ → ℝ}
    {e E W : ℝ} (sf : Smooth (uncurry f)) (hf : S.Expresses f q) (hc : ∀ k < K, ∃ x, cosN k x ∧ |x - c k| ≤ E)
    (hs : ∀ k < K, ∃ x, sinN k x ∧ |x - s k| ≤ E)
    (hW : ∑ k ∈ range K, |(m k : ℝ)| ^ i * |(n k : ℝ)| ^ j ≤ W) (hE : 0 ≤ E)
    (hq : ∀ t z, |partialDeriv i j f t z - partialDeriv i j (series K m n c s) t z| ≤ e) :
    RebuildsDeriv i j K m n cosN sinN S q (e + W * (2 * E)) := by
  have hc' : ∀ k, ∃ x, k < K → cosN k x ∧ |x - c k| ≤ E := fun k => by
    by_cases hk : k < K
    · exact (hc k hk).imp fun _ h _ => h
    · exact ⟨0, fun h => absurd h hk⟩
  have hs' : ∀ k, ∃ x, k < K → sinN k x ∧ |x - s k| ≤ E := fun k => by
    by_cases hk : k < K
    · exact (hs k hk).imp fun _ h _ => h
    · exact ⟨0, fun h => absurd h hk⟩
  choose c' hc' using hc'
  choose s' hs' using hs'
  refine ⟨f, c', s', sf, hf, fun k hk => ⟨(hc' k hk).1, (hs' k hk).1⟩, fun t z => ?_⟩
  have h1 := hq t z
  rw [C114_termwise] at h1
  have h2 := (Trapezoid.tsum2_le (range K) (fun k => (m k : ℝ)) (fun k => (n k : ℝ)) (fun k => c' k - c k)
    (fun k => s' k - s k) (E := E) i j (fun k hk => (hc' k (mem_range.1 hk)).2) (fun k hk => (hs' k (mem_range.1 hk)).2)
    (fun _ _ => le_rfl) (t, z)).trans (mul_le_mul_of_nonneg_right hW (by positivity))
  have e2 : tsum2 (range K) (fun k => (m k : ℝ)) (fun k => (n k : ℝ)) (fun k => c' k - c k) (fun k => s' k - s k) i j (t, z) =
      seriesDeriv i j K m n c' s' t z - seriesDeriv i j K m n c s t z := by
    unfold tsum2 seriesDeriv
    rw [← sum_sub_distrib]
    refine sum_congr rfl fun k _ => ?_
    push_cast
    ring
  rw [e2] at h2
  have := abs_sub_le (partialDeriv i j f t z) (seriesDeriv i j K m n c s t z) (seriesDeriv i j K m n c' s' t z)
  rw [abs_sub_comm (seriesDeriv i j K m n c s t z)] at this
  linarith

/-- Outputs near those of an exact run. -/
theorem machine_derivs {s₀ : St ℝ} {d : Dims} (h : RunReady s₀.inp d) (hp : FieldPeriodic s₀.inp d.nfp)
    (ho : OriginOnce s₀.inp) {b : ℕ} (hb : b < d.nsb) (i j : ℕ) :
    let S := surface s₀.inp d.asym (selected s₀.inp b)
    ∃ W : ℝ, 0 ≤ W ∧ ∀ (α : Type) [Arith α] (fin : α → Prop) (val : α → ℝ) (o : Outputs α) (e E : ℝ), 0 ≤ E →
      OutputsNear fin val d E o (runSt d s₀ d.nsb).out →
      (∀ q ∈ S.quantities, ∃ f, Smooth (uncurry f) ∧ S.Expresses f q ∧ ∀ t z, |partialDeriv i j f t z -
        partialDeriv i j (outputSeries d.nfp d.M d.N (S.quadCos (ntheta d.M) (nzeta d.N) d.nfp q)
          (S.quadSin (ntheta d.M) (nzeta d.N) d.nfp q)) t z| ≤ e) →
      MachineDerivs fin val i j o S d.asym (numModes d.M d.N) b (e + W * (2 * E)) := by
  intro S
  set m := outM (runSt d s₀ d.nsb) with hm
  set n := outN (runSt d s₀ d.nsb) with hn'
  refine ⟨∑ k ∈ range (numModes d.M d.N), |(m k : ℝ)| ^ i * |(n k : ℝ)| ^ j, by positivity, ?_⟩
  intro α _ fin val o e E hE hn hq
  have g := fun (k : ℕ) (hk : k < d.nmodes) => spectrum_at h hp ho (b := b) hb hk
  have par := fun (ha : d.asym = false) (m n : ℤ) => quad_parity h hp ha (selected s₀.inp b) (ntheta_pos d.M) (nzeta_pos d.N) m n
  have yes : ∀ (a : Mat α) (a₀ : Mat ℝ) (f : ℤ → ℤ → ℝ), MatNear fin val d.nmodes d.nsb E a a₀ →
      (∀ k < d.nmodes, a₀.rdN k b = .ok (f (modeM d.N k) (modeN d.N k * d.nfp))) →
      ∀ k < numModes d.M d.N, ∃ x, Stores fin val a k b x ∧ |x - f (modeM d.N k) (modeN d.N k * d.nfp)| ≤ E := by
    intro a a₀ f h1 h2 k hk
    obtain ⟨x, y, k1, k2, k3, k4⟩ := h1 k hk b hb
    rw [h2 k hk] at k2
    cases k2
    exact ⟨val x, ⟨x, k1, k3, rfl⟩, k4⟩
  have other : ∀ (a : Mat α) (a₀ : Mat ℝ) (f : ℤ → ℤ → ℝ), (d.asym = true → MatNear fin val d.nmodes d.nsb E a a₀) →
      (d.asym = true → ∀ k < d.nmodes, a₀.rdN k b = .ok (f (modeM d.N k) (modeN d.N k * d.nfp))) →
      (d.asym = false → ∀ m n : ℤ, f m (n * d.nfp) = 0) →
      ∀ k < numModes d.M d.N, ∃ x, IfAsym d.asym (Stores fin val a k b) x ∧
        |x - f (modeM d.N k) (modeN d.N k * d.nfp)| ≤ E := by
    intro a a₀ f h1 h2 h3 k hk
    cases ha : d.asym
    · exact ⟨0, rfl, by rw [h3 ha]; simpa using hE⟩
    · exact yes a a₀ f (h1 ha) (h2 ha) k hk
  have fit : ∀ q ∈ S.quantities, ∀ cosN sinN : ℕ → ℝ → Prop,
      (∀ k < numModes d.M d.N, ∃ x, cosN k x ∧
        |x - S.quadCos (ntheta d.M) (nzeta d.N) d.nfp q (modeM d.N k) (modeN d.N k * d.nfp)| ≤ E) →
      (∀ k < numModes d.M d.N, ∃ x, sinN k x ∧
        |x - S.quadSin (ntheta d.M) (nzeta d.N) d.nfp q (modeM d.N k) (modeN d.N k * d.nfp)| ≤ E) →
      RebuildsDeriv i j (numModes d.M d.N) m n cosN sinN S q
        (e + (∑ k ∈ range (numModes d.M d.N), |(m k : ℝ)| ^ i * |(n k : ℝ)| ^ j) * (2 * E)) := by
    intro q hq' cosN sinN h1 h2
    obtain ⟨f, sf, hf, H⟩ := hq q hq'
    refine rebuildsDeriv_of sf hf h1 h2 le_rfl hE fun t z => ?_
    have e1 : series (numModes d.M d.N) m n
        (fun k => S.quadCos (ntheta d.M) (nzeta d.N) d.nfp q (modeM d.N k) (modeN d.N k * d.nfp))
        (fun k => S.quadSin (ntheta d.M) (nzeta d.N) d.nfp q (modeM d.N k) (modeN d.N k * d.nfp)) =
        outputSeries d.nfp d.M d.N (S.quadCos (ntheta d.M) (nzeta d.N) d.nfp q)
          (S.quadSin (ntheta d.M) (nzeta d.N) d.nfp q) := by
      funext x y
      exact series_sum h (fun _ _ => rfl) (fun _ _ => rfl) x y
    rw [e1]
    exact H t z
  have mem : ∀ q ∈ [S.B, S.R, S.Z, S.nu, S.jacobian], q ∈ S.quantities := fun q hq => hq
  refine ⟨m, n, fun k hk => ⟨?_, ?_⟩, ?_, ?_, ?_, ?_, ?_⟩
  · have e : m k = modeM d.N k := Vec.val_tab hk
    rw [hn.xm_b, e]
    exact Vec.rdN_tab hk
  · have e : n k = modeN d.N k * d.nfp := Vec.val_tab hk
    rw [hn.xn_b, e]
    exact Vec.rdN_tab hk
  · exact fit _ (mem _ (by simp)) _ _ (yes _ _ _ hn.bmnc fun k hk => (g k hk).1)
      (other _ _ _ hn.bmns (fun ha k hk => ((g k hk).2.2.2.2.2 ha).1) fun ha m n => (par ha m n).1)
  · exact fit _ (mem _ (by simp)) _ _ (yes _ _ _ hn.rmnc fun k hk => (g k hk).2.1)
      (other _ _ _ hn.rmns (fun ha k hk => ((g k hk).2.2.2.2.2 ha).2.1) fun ha m n => (par ha m n).2.1)
  · exact fit _ (mem _ (by simp)) _ _
      (other _ _ _ hn.zmnc (fun ha k hk => ((g k hk).2.2.2.2.2 ha).2.2.1) fun ha m n => (par ha m n).2.2.1)
      (yes _ _ _ hn.zmns fun k hk => (g k hk).2.2.1)
  · exact fit _ (mem _ (by simp)) _ _
      (other _ _ _ hn.numnc (fun ha k hk => ((g k hk).2.2.2.2.2 ha).2.2.2.1) fun ha m n => (par ha m n).2.2.2.1)
      (yes _ _ _ hn.numns fun k hk => (g k hk).2.2.2.1)
  · exact fit _ (mem _ (by simp)) _ _ (yes _ _ _ hn.gmnc fun k hk => (g k hk).2.2.2.2.1)
      (other _ _ _ hn.gmns (fun ha k hk => ((g k hk).2.2.2.2.2 ha).2.2.2.2) fun ha m n => (par ha m n).2.2.2.2)

/-- **C114, on a machine.**  Let the real data be regular on the selected surfaces, and the Boozer angles coordinates of the
surface in place `b`.  For any orders `i`, `j` of the derivatives and any `p` there is a constant `C`, and for each resolution
(M, N) with `M ≤ c N`, `N ≤ c M` which resolves the angles a constant `D` and a precision `u₀`, such that every machine of
precision `u ≤ u₀`, given the data rounded to within `K u` and run at this resolution, stores finite numbers whose Fourier
series, differentiated term by term, are within `C / M^p + D u` of the derivatives of |B|, R, Z, ν and the Jacobian as
functions of the Boozer angles. -/
theorem C114_machine {s₀ : St ℝ} {d : Dims} (h : RunReady s₀.inp d) (hp : FieldPeriodic s₀.inp d.nfp)
    (ho : OriginOnce s₀.inp) (hreg : ∀ b < d.nsb, (surface s₀.inp d.asym (selected s₀.inp b)).Regular) {b : ℕ} (hb : b < d.nsb)
    (hdet : ∀ θ ζ, (surface s₀.inp d.asym (selected s₀.inp b)).det θ ζ ≠ 0)
    {c : ℝ} (hc : 0 ≤ c) {ρ : ℝ} (hρ : ρ < 1) (i j p : ℕ) :
    let S := surface s₀.inp d.asym (selected s₀.inp b)
    ∃ C, 0 ≤ C ∧ ∀ M N : ℕ, 1 ≤ N → (M : ℝ) ≤ c * N → (N : ℝ) ≤ c * M →
      RunReady { s₀.inp with mboz := M, nboz := N } { d with M := M, N := N } → S.ResolvedBy d.nfp M N ρ →
      ∀ K : ℝ, 0 ≤ K → ∃ D u₀, 0 ≤ D ∧ 0 < u₀ ∧
        ∀ (α : Type) [Arith α] (fin : α → Prop) (val : α → ℝ) (u : ℝ), Precision α fin val u → u ≤ u₀ →
        ∀ s : St α, RunReady s.inp { d with M := M, N := N } →
          InputsNear fin val { d with M := M, N := N } (K * u) s.inp s₀.inp →
          ∃ s' r, run false s = .ok (s', r) ∧
            MachineDerivs fin val i j s'.out S d.asym (numModes M N) b (C * (1 / (M : ℝ)) ^ p + D * u) := by
  intro S
  have F := C114_series h hp (hreg b hb) hdet hc hρ
  have F' : ∀ q : ℝ → ℝ → ℝ, ∃ (C : ℝ) (f : ℝ → ℝ → ℝ), 0 ≤ C ∧ (q ∈ S.quantities → Smooth (uncurry f) ∧ S.Expresses f q ∧
      ∀ M N : ℕ, 1 ≤ M → 1 ≤ N → (M : ℝ) ≤ c * N → (N : ℝ) ≤ c * M → S.ResolvedBy d.nfp M N ρ → ∀ t z,
        |partialDeriv i j f t z - partialDeriv i j (outputSeries d.nfp M N (S.quadCos (ntheta M) (nzeta N) d.nfp q)
          (S.quadSin (ntheta M) (nzeta N) d.nfp q)) t z| ≤ C * (1 / (M : ℝ)) ^ p) := by
    intro q
    by_cases hq : q ∈ S.quantities
    · obtain ⟨f, sf, hf, H⟩ := F q hq
      obtain ⟨C, hC, H⟩ := H i j p
      exact ⟨C, f, hC, fun _ => ⟨sf, hf, H⟩⟩
    · exact ⟨0, 0, le_rfl, fun h => absurd h hq⟩
  choose Cq fq hC0 HF using F'
  have hC : ∀ q ∈ S.quantities, Cq q ≤ Cq S.B + Cq S.R + Cq S.Z + Cq S.nu + Cq S.jacobian := by
    intro q hq
    have := hC0 S.B; have := hC0 S.R; have := hC0 S.Z; have := hC0 S.nu; have := hC0 S.jacobian
    unfold Surface.quantities at hq
    simp only [List.mem_cons, List.not_mem_nil, or_false] at hq
    rcases hq with rfl | rfl | rfl | rfl | rfl <;> linarith
  set C := Cq S.B + Cq S.R + Cq S.Z + Cq S.nu + Cq S.jacobian with hCdef
  refine ⟨C, (hC0 S.B).trans (hC S.B (by show _ ∈ [S.B, S.R, S.Z, S.nu, S.jacobian]; simp)), fun M N hN hMN hNM hr hres K hK => ?_⟩
  let s₁ : St ℝ := { s₀ with inp := { s₀.inp with mboz := M, nboz := N } }
  obtain ⟨A, u₀, h0, G⟩ := C69_rounding (s₀ := s₁) (d := { d with M := M, N := N }) hr hp ho hreg hK
  obtain ⟨W, hW, H⟩ := machine_derivs (s₀ := s₁) (d := { d with M := M, N := N }) hr hp ho hb i j
  refine ⟨W * (2 * |A|), u₀, by positivity, h0, fun α _ fin val u hu hle s hs hn => ?_⟩
  obtain ⟨s', r, t, q, h1, h2, h3⟩ := G α fin val u hu hle s hs { hn with }
  obtain ⟨rfl, -⟩ := run_false hr h2
  have hu0 := hu.u_pos.le
  refine ⟨s', r, h1, ?_⟩
  have weaken : OutputsNear fin val { d with M := M, N := N } (|A| * u) s'.out
      (runSt { d with M := M, N := N } s₁ ({ d with M := M, N := N } : Dims).nsb).out := by
    have le : A * u ≤ |A| * u := mul_le_mul_of_nonneg_right (le_abs_self A) hu0
    have vw : ∀ {n : ℕ} {v : Vec α} {w : Vec ℝ}, VecNear fin val n (A * u) v w → VecNear fin val n (|A| * u) v w :=
      fun h i hi => by
        obtain ⟨x, y, a1, a2, a3, a4⟩ := h i hi
        exact ⟨x, y, a1, a2, a3, a4.trans le⟩
    have mw : ∀ {n k : ℕ} {v : Mat α} {w : Mat ℝ}, MatNear fin val n k (A * u) v w → MatNear fin val n k (|A| * u) v w :=
      fun h i hi j hj => by
        obtain ⟨x, y, a1, a2, a3, a4⟩ := h i hi j hj
        exact ⟨x, y, a1, a2, a3, a4.trans le⟩
    exact ⟨h3.ns_b, h3.mnboz, h3.xm_b, h3.xn_b, vw h3.s_b, vw h3.boozer_I, vw h3.boozer_G, vw h3.boozer_I_all,
      vw h3.boozer_G_all, mw h3.bmnc, mw h3.rmnc, mw h3.zmns, mw h3.numns, mw h3.gmnc, fun a => mw (h3.bmns a),
      fun a => mw (h3.rmns a), fun a => mw (h3.zmnc a), fun a => mw (h3.numnc a), fun a => mw (h3.gmns a)⟩
  have key := H α fin val s'.out (C * (1 / (M : ℝ)) ^ p) (|A| * u) (mul_nonneg (abs_nonneg A) hu0) weaken fun q hq => by
    obtain ⟨sf, hf, k⟩ := HF q hq
    exact ⟨fq q, sf, hf, fun t z => (k M N hr.mboz_ge hN hMN hNM hres t z).trans
      (mul_le_mul_of_nonneg_right (hC q hq) (by positivity))⟩
  rw [show W * (2 * (|A| * u)) = W * (2 * |A|) * u by ring] at key
  exact key

/-! ### Examples -/

/-- The derivative along the first angle written out. -/
example (K : ℕ) (m n : ℕ → ℤ) (c s : ℕ → ℝ) (t z : ℝ) : seriesDeriv 1 0 K m n c s t z =
    ∑ k ∈ range K, (-(m k : ℝ) * c k * Real.sin (m k * t - n k * z) + m k * s k * Real.cos (m k * t - n k * z)) := by
  unfold seriesDeriv
  refine sum_congr rfl fun k _ => ?_
  rw [show (m k : ℝ) * t - n k * z + ((1 : ℕ) + (0 : ℕ)) * (Real.pi / 2) = (m k * t - n k * z) + Real.pi / 2 by
    push_cast; ring, Real.cos_add_pi_div_two, Real.sin_add_pi_div_two]
  ring

/-- The mixed second derivative of |B| in the example, at every resolution, on machines with more and more bits. -/
example (asym : Bool) : ∃ C, ∀ M N : ℕ, 1 ≤ M → 1 ≤ N → M ≤ 2 * N → N ≤ 2 * M → (4 * M + 2) * (4 * N + 2) < 2 ^ 30 →
    ∃ D p₀, ∀ p ≥ p₀, ∃ s' r,
    run false ({ Ex.st asym with
      inp := Ex.mapI (fun x => (⟨Ex.rnd p x⟩ : Ex.Flp p)) { (Ex.gentle asym).inp with mboz := M, nboz := N } }) =
        .ok (s', r) ∧
    MachineDerivs (fun _ => True) Ex.Flp.val 1 1 s'.out
      (surface (Ex.gentle asym).inp asym (selected (Ex.gentle asym).inp 1)) asym (numModes M N) 1
      (C * (1 / (M : ℝ)) ^ 7 + D * (4 / 2 ^ p)) := by
  obtain ⟨C, -, H⟩ := C114_machine (s₀ := Ex.gentle asym) (d := Ex.dims asym) (Ex.gentle_ready asym)
    (Ex.fieldPeriodic (α := ℝ) asym) (Ex.originOnce (α := ℝ) asym)
    (fun b hb => Ex.gentle_regular asym (Ex.selected_lt asym b hb)) (b := 1) (by show 1 < 2; decide)
    (fun θ ζ => (lt_trans (by norm_num) (Ex.gentle_det asym (Ex.selected_lt asym 1 (by decide)) θ ζ)).ne')
    (c := 2) (by norm_num) (ρ := 1 / 2) (by norm_num) 1 1 7
  refine ⟨C, fun M N hM hN h1 h2 hf => ?_⟩
  have hr := Ex.gentle_ready_res asym hM hf
  obtain ⟨K, hK, near⟩ := Ex.mapI_near hr
  obtain ⟨D, u₀, -, h0, G⟩ := H M N hN (by exact_mod_cast h1) (by exact_mod_cast h2) hr
    (Ex.gentle_resolved asym (Ex.selected_lt asym 1 (by decide)) h1 h2) K hK
  obtain ⟨p₀, hp₀⟩ := Ex.bits h0
  refine ⟨D, p₀, fun p hp => ?_⟩
  obtain ⟨s', r, g1, g2⟩ := G (Ex.Flp p) (fun _ => True) Ex.Flp.val (4 / 2 ^ p) (Ex.flp_precision p) (hp₀ p hp)
    { Ex.st asym with
      inp := Ex.mapI (fun x => (⟨Ex.rnd p x⟩ : Ex.Flp p)) { (Ex.gentle asym).inp with mboz := M, nboz := N } }
    (Ex.mapI_ready _ hr) { near p with }
  exact ⟨s', r, g1, g2⟩

end Booz
