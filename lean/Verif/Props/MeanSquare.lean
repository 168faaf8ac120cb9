import Verif.Spec.MeanSquare
import Verif.Lemmas.Parseval
import Verif.Props.Quasisymmetry

/-!
# C105: sums of squares of harmonics are mean squares over the Boozer angles
-/

namespace Booz
open Spec Trapezoid Finset Function

/-- The average over the Boozer angles is the mean of the function which expresses the quantity. -/
theorem average_expressed {I : Inputs ℝ} {d : Dims} (h : RunReady I d) (hp : FieldPeriodic I d.nfp) (js : ℕ)
    {f q : ℝ → ℝ → ℝ} (hf : Continuous (uncurry f)) (hft : TorusFn f) (he : (surface I d.asym js).Expresses f q) :
    (surface I d.asym js).average q = mean2 τ τ (uncurry f) := by
  have e := (C67_coefficients h hp js hf hft he 0 0).1
  rw [(fourier_coeff f 0 0).1] at e
  have e1 : cc (uncurry f) (0, 0) = mean2 τ τ (uncurry f) := by
    unfold cc cosM ph
    congr 1
    funext x
    simp
  rw [e1, if_pos ⟨rfl, rfl⟩, one_mul] at e
  rw [← e]
  unfold Surface.average Surface.integralCos
  simp

/-- Coefficients of functions with `nfp` field periods. -/
theorem coeff_nfp {nfp : ℕ} (hp : 1 ≤ nfp) {f : ℝ → ℝ → ℝ} (cf : Continuous (uncurry f)) (pf : PerF nfp f) (tf : TorusFn f)
    {k : ℤ × ℤ} (hn : ¬ (nfp : ℤ) ∣ k.2) : cc (uncurry f) k = 0 ∧ sc (uncurry f) k = 0 := by
  have hnfp : (nfp : ℝ) ≠ 0 := by positivity
  refine coeff_zero_of_invariant cf tf.dper (v := (0, 2 * Real.pi / nfp)) (fun x => ?_) fun hc => hn ?_
  · show f (x.1 + 0) (x.2 + 2 * Real.pi / nfp) = f x.1 x.2
    rw [add_zero, pf.2]
  · obtain ⟨j, hj⟩ := (Real.cos_eq_one_iff _).1 hc
    have e : (j : ℝ) * (2 * Real.pi) = -(k.2 * (2 * Real.pi / nfp)) := by
      rw [hj]; unfold ph; simp
    refine ⟨-j, ?_⟩
    have e' : (k.2 : ℝ) = nfp * -j := by
      have hpi : (2 * Real.pi) ≠ 0 := by positivity
      apply mul_right_cancel₀ hpi
      field_simp at e
      linear_combination (2 * Real.pi) * e
    exact_mod_cast e'

open Classical in
/-- Sum of squares over the selected modes of the half plane. -/
noncomputable def squares (nfp K : ℕ) (sel : ℤ → ℤ → Prop) (c s : ℤ → ℤ → ℝ) : ℝ :=
  ∑ k ∈ modesUpTo K, if sel k.1 (k.2 * nfp) then
    (if k.1 = 0 ∧ k.2 * (nfp : ℤ) = 0 then 1 else 1 / 2) * (c k.1 (k.2 * nfp) ^ 2 + s k.1 (k.2 * nfp) ^ 2) else 0

/-- Error of a square from the error of the number. -/
theorem sq_error {x y C e : ℝ} (hC : 0 ≤ C) (he0 : 0 ≤ e) (he : e ≤ 2) (hxy : |x - y| ≤ C * e) :
    |x ^ 2 - y ^ 2| ≤ C * (2 * |y| + 2 * C) * e := by
  have e1 : x ^ 2 - y ^ 2 = (x - y) * (2 * y + (x - y)) := by ring
  rw [e1, abs_mul]
  have h1 : |2 * y + (x - y)| ≤ 2 * |y| + 2 * C := by
    refine (abs_add_le _ _).trans ?_
    rw [abs_mul, abs_two]
    nlinarith
  calc |x - y| * |2 * y + (x - y)| ≤ (C * e) * (2 * |y| + 2 * C) :=
        mul_le_mul hxy h1 (abs_nonneg _) (by positivity)
    _ = _ := by ring

theorem squares_error {nfp K : ℕ} {sel : ℤ → ℤ → Prop} {c c' s s' : ℤ → ℤ → ℝ} {C : ℤ × ℤ → ℝ} {e : ℝ} (hC : ∀ k, 0 ≤ C k)
    (he0 : 0 ≤ e) (he : e ≤ 2) (hc : ∀ k ∈ modesUpTo K, |c k.1 (k.2 * nfp) - c' k.1 (k.2 * nfp)| ≤ C k * e)
    (hs : ∀ k ∈ modesUpTo K, |s k.1 (k.2 * nfp) - s' k.1 (k.2 * nfp)| ≤ C k * e) :
    |squares nfp K sel c s - squares nfp K sel c' s'| ≤
      (∑ k ∈ modesUpTo K, (C k * (2 * |c' k.1 (k.2 * nfp)| + 2 * C k) + C k * (2 * |s' k.1 (k.2 * nfp)| + 2 * C k))) * e := by
  unfold squares
  rw [← sum_sub_distrib, sum_mul]
  refine (abs_sum_le_sum_abs _ _).trans (sum_le_sum fun k hk => ?_)
  have h1 := sq_error (hC k) he0 he (hc k hk)
  have h2 := sq_error (hC k) he0 he (hs k hk)
  have h0 := hC k
  split
  · rw [← mul_sub, abs_mul]
    have hw : |(if k.1 = 0 ∧ k.2 * (nfp : ℤ) = 0 then (1 : ℝ) else 1 / 2)| ≤ 1 := by split <;> norm_num [abs_of_pos]
    refine (mul_le_of_le_one_left (abs_nonneg _) hw).trans ?_
    rw [show ∀ a b c d : ℝ, a + b - (c + d) = (a - c) + (b - d) from fun _ _ _ _ => by ring, add_mul]
    exact (abs_add_le _ _).trans (add_le_add h1 h2)
  · rw [sub_zero, abs_zero]
    positivity

/-- The selected squares of the integrals of the theory section. -/
theorem squares_series {I : Inputs ℝ} {d : Dims} (h : RunReady I d) (hp : FieldPeriodic I d.nfp) {js : ℕ}
    {f q : ℝ → ℝ → ℝ} (sf : Smooth (uncurry f)) (pf : PerF d.nfp f) (tf : TorusFn f)
    (hf : (surface I d.asym js).Expresses f q) {sel : ℤ → ℤ → Prop} {w : ℤ × ℤ → ℝ} {Q : ℝ}
    (hQ : HasSum (fun k => w k * en (uncurry f) k) Q) (hw : ∀ k, w (-k) = w k)
    (hsel : ∀ k : ℤ × ℤ, (sel k.1 k.2 → w k = 1) ∧ (¬ sel k.1 k.2 → w k = 0)) {ε : ℝ} (hε : 0 < ε) :
    let S := surface I d.asym js
    ∃ K0 : ℕ, ∀ K, K0 ≤ K → |Q - squares d.nfp K sel (S.integralCos q) (S.integralSin q)| ≤ ε := by
  intro S
  obtain ⟨K0, hK⟩ := sum_halves hQ (fun k => by rw [hw, en_neg]) h.nfp_pos (fun k hk => by
    obtain ⟨z1, z2⟩ := coeff_nfp h.nfp_pos sf.continuous pf tf hk
    unfold en
    rw [z1, z2]
    ring) hε
  refine ⟨K0, fun K hK0 => ?_⟩
  have := hK K hK0
  refine le_of_eq_of_le ?_ this
  congr 2
  unfold squares
  rw [modes_half]
  refine sum_congr rfl fun k _ => ?_
  obtain ⟨e1, e2⟩ := C67_coefficients h hp js sf.continuous tf hf k.1 (k.2 * d.nfp)
  obtain ⟨e3, e4⟩ := fourier_coeff f k.1 (k.2 * d.nfp)
  have hn : (d.nfp : ℤ) ≠ 0 := by have := h.nfp_pos; omega
  have ek : (k.1 = 0 ∧ k.2 * (d.nfp : ℤ) = 0) ↔ k = 0 := by
    rw [mul_eq_zero, or_iff_left hn]
    exact ⟨fun e => Prod.ext e.1 e.2, fun e => by rw [e]; exact ⟨rfl, rfl⟩⟩
  rw [e1, e2, e3, e4]
  simp only [ek]
  unfold en
  split
  · next hs =>
    rw [(hsel (k.1, k.2 * d.nfp)).1 hs]
    split <;> ring
  · next hs =>
    rw [(hsel (k.1, k.2 * d.nfp)).2 hs]
    ring

/-- The coefficients of the five quantities in the outputs of a run. -/
theorem outputs_each {s : St ℝ} {d : Dims} (h : RunReady s.inp d) (hp : FieldPeriodic s.inp d.nfp)
    (ho : OriginOnce s.inp) {b : ℕ} (hb : b < d.nsb) {P : Option (Mat ℝ) → Option (Mat ℝ) → (ℝ → ℝ → ℝ) → Prop}
    (hP : let S := surface s.inp d.asym (selected s.inp b)
      ∀ (cosA sinA : Option (Mat ℝ)), ∀ q ∈ S.quantities,
      (∀ k < d.nmodes, Coefficient cosA k b (S.quadCos (ntheta d.M) (nzeta d.N) d.nfp q (modeM d.N k) (modeN d.N k * d.nfp))) →
      (∀ k < d.nmodes, Coefficient sinA k b (S.quadSin (ntheta d.M) (nzeta d.N) d.nfp q (modeM d.N k) (modeN d.N k * d.nfp))) →
      P cosA sinA q) :
    let o := (runSt d s d.nsb).out
    let S := surface s.inp d.asym (selected s.inp b)
    let ifAsym (a : Mat ℝ) : Option (Mat ℝ) := if d.asym then some a else none
    P (some o.spec.bmnc_b) (ifAsym o.spec.bmns_b) S.B ∧
    P (some o.spec.rmnc_b) (ifAsym o.spec.rmns_b) S.R ∧
    P (ifAsym o.spec.zmnc_b) (some o.spec.zmns_b) S.Z ∧
    P (ifAsym o.spec.numnc_b) (some o.spec.numns_b) S.nu ∧
    P (some o.spec.gmnc_b) (ifAsym o.spec.gmns_b) S.jacobian := by
  intro o S ifAsym
  have g := fun (k : ℕ) (hk : k < d.nmodes) => spectrum_at h hp ho (b := b) hb hk
  have par := fun (ha : d.asym = false) (m n : ℤ) => quad_parity h hp ha (selected s.inp b) (ntheta_pos d.M) (nzeta_pos d.N) m n
  have other : ∀ (a : Mat ℝ) (f : ℤ → ℤ → ℝ), (d.asym = true → ∀ k < d.nmodes,
      a.rdN k b = .ok (f (modeM d.N k) (modeN d.N k * d.nfp))) → (d.asym = false → ∀ m n : ℤ, f m (n * d.nfp) = 0) →
      ∀ k < d.nmodes, Coefficient (ifAsym a) k b (f (modeM d.N k) (modeN d.N k * d.nfp)) := by
    intro a f h1 h2 k hk
    simp only [ifAsym]
    cases ha : d.asym
    · exact h2 ha _ _
    · exact h1 ha k hk
  refine ⟨hP _ _ S.B ?_ (fun k hk => (g k hk).1)
      (other _ (S.quadSin _ _ _ _) (fun ha k hk => ((g k hk).2.2.2.2.2 ha).1) fun ha m n => (par ha m n).1),
    hP _ _ S.R ?_ (fun k hk => (g k hk).2.1)
      (other _ (S.quadSin _ _ _ _) (fun ha k hk => ((g k hk).2.2.2.2.2 ha).2.1) fun ha m n => (par ha m n).2.1),
    hP _ _ S.Z ?_ (other _ (S.quadCos _ _ _ _) (fun ha k hk => ((g k hk).2.2.2.2.2 ha).2.2.1)
      fun ha m n => (par ha m n).2.2.1) (fun k hk => (g k hk).2.2.1),
    hP _ _ S.nu ?_ (other _ (S.quadCos _ _ _ _) (fun ha k hk => ((g k hk).2.2.2.2.2 ha).2.2.2.1)
      fun ha m n => (par ha m n).2.2.2.1) (fun k hk => (g k hk).2.2.2.1),
    hP _ _ S.jacobian ?_ (fun k hk => (g k hk).2.2.2.2.1)
      (other _ (S.quadSin _ _ _ _) (fun ha k hk => ((g k hk).2.2.2.2.2 ha).2.2.2.2) fun ha m n => (par ha m n).2.2.2.2)⟩ <;>
  · show _ ∈ [S.B, S.R, S.Z, S.nu, S.jacobian]
    simp only [List.mem_cons, true_or, or_true]

/-- Sums of squares of the outputs of a run. -/
theorem squareSum_run {s : St ℝ} {d : Dims} (h : RunReady s.inp d) {b K : ℕ} (hKM : K < d.M) (hKN : K ≤ d.N)
    {cosA sinA : Option (Mat ℝ)} {c t : ℤ → ℤ → ℝ} (sel : ℤ → ℤ → Prop)
    (hc : ∀ k < d.nmodes, Coefficient cosA k b (c (modeM d.N k) (modeN d.N k * d.nfp)))
    (hs : ∀ k < d.nmodes, Coefficient sinA k b (t (modeM d.N k) (modeN d.N k * d.nfp))) :
    SquareSum (runSt d s d.nsb).out.xm_b (runSt d s d.nsb).out.xn_b d.nmodes b K (K * d.nfp) sel cosA sinA
      (squares d.nfp K sel c t) := by
  classical
  refine ⟨fun k => modeM d.N k, fun k => modeN d.N k * d.nfp, fun k => c (modeM d.N k) (modeN d.N k * d.nfp),
    fun k => t (modeM d.N k) (modeN d.N k * d.nfp), fun k hk => ⟨Vec.rdN_tab hk, Vec.rdN_tab hk, hc k hk, hs k hk⟩, ?_⟩
  rw [← filter_filter, sum_filter]
  have := (sum_modes d h.mboz_ge h.nfp_pos hKM hKN fun m n => if sel m n then
    (if m = 0 ∧ n = 0 then (1 : ℝ) else 1 / 2) * (c m n ^ 2 + t m n ^ 2) else 0).symm
  exact this

/-- From the squares of the integrals to those of the outputs. -/
theorem squares_quad {I : Inputs ℝ} {d : Dims} (h : RunReady I d) (hp : FieldPeriodic I d.nfp) {js : ℕ}
    (hreg : (surface I d.asym js).Regular) {p : ℕ} (hp1 : 1 ≤ p) (K : ℕ) (sel : ℤ → ℤ → Prop) :
    let S := surface I d.asym js
    ∃ C, 0 ≤ C ∧ ∀ q ∈ S.quantities, ∀ nt nz : ℕ, 1 ≤ nt → 1 ≤ nz →
      |squares d.nfp K sel (S.quadCos nt nz d.nfp q) (S.quadSin nt nz d.nfp q) -
        squares d.nfp K sel (S.integralCos q) (S.integralSin q)| ≤ C * ((1 / (nt : ℝ)) ^ p + (1 / (nz : ℝ)) ^ p) := by
  intro S
  have hCe : ∀ k : ℤ × ℤ, ∃ C, 0 ≤ C ∧ ∀ q ∈ S.quantities, ∀ nt nz : ℕ, 1 ≤ nt → 1 ≤ nz →
      |S.quadCos nt nz d.nfp q k.1 (k.2 * d.nfp) - S.integralCos q k.1 (k.2 * d.nfp)| ≤
        C * ((1 / (nt : ℝ)) ^ p + (1 / (nz : ℝ)) ^ p) ∧
      |S.quadSin nt nz d.nfp q k.1 (k.2 * d.nfp) - S.integralSin q k.1 (k.2 * d.nfp)| ≤
        C * ((1 / (nt : ℝ)) ^ p + (1 / (nz : ℝ)) ^ p) := fun k =>
    surface_error h hp hreg (m := k.1) (dvd_mul_left (d.nfp : ℤ) k.2) hp1
  choose C hC0 hC using hCe
  let T : (ℝ → ℝ → ℝ) → ℝ := fun q => ∑ k ∈ modesUpTo K,
    (C k * (2 * |S.integralCos q k.1 (k.2 * d.nfp)| + 2 * C k) + C k * (2 * |S.integralSin q k.1 (k.2 * d.nfp)| + 2 * C k))
  have hT0 : ∀ q, 0 ≤ T q := fun q => sum_nonneg fun k _ => by
    have := hC0 k
    positivity
  refine ⟨T S.B + T S.R + T S.Z + T S.nu + T S.jacobian, by linarith [hT0 S.B, hT0 S.R, hT0 S.Z, hT0 S.nu, hT0 S.jacobian],
    fun q hq nt nz ht hz => ?_⟩
  have he0 : 0 ≤ (1 / (nt : ℝ)) ^ p + (1 / (nz : ℝ)) ^ p := by positivity
  have one : ∀ n : ℕ, 1 ≤ n → (1 / (n : ℝ)) ^ p ≤ 1 := fun n hn => by
    refine pow_le_one₀ (by positivity) ?_
    rw [div_le_one (by positivity)]
    exact_mod_cast hn
  have a := squares_error (sel := sel) (K := K) (nfp := d.nfp) hC0 he0 (by linarith [one nt ht, one nz hz])
    (fun k _ => (hC k q hq nt nz ht hz).1) fun k _ => (hC k q hq nt nz ht hz).2
  refine a.trans (mul_le_mul_of_nonneg_right ?_ he0)
  show T q ≤ _
  have b1 := hT0 S.B
  have b2 := hT0 S.R
  have b3 := hT0 S.Z
  have b4 := hT0 S.nu
  have b5 := hT0 S.jacobian
  unfold Surface.quantities at hq
  simp only [List.mem_cons, List.not_mem_nil, or_false] at hq
  rcases hq with rfl | rfl | rfl | rfl | rfl <;> linarith

/-- The function which expresses a quantity in Boozer angles. -/
theorem express_q {I : Inputs ℝ} {d : Dims} (h : RunReady I d) (hp : FieldPeriodic I d.nfp) {js : ℕ}
    (hreg : (surface I d.asym js).Regular) (hd : ∀ θ ζ, (surface I d.asym js).det θ ζ ≠ 0) :
    ∀ q ∈ (surface I d.asym js).quantities,
    ∃ f, (surface I d.asym js).Expresses f q ∧ Smooth (uncurry f) ∧ PerF d.nfp f ∧ TorusFn f := by
  obtain ⟨pl, pw, pR, pZ, pB⟩ := surf_per h hp d.asym js
  have hs := smooth_surface I d.asym js
  have one : ∀ q, PerF d.nfp q → Smooth (uncurry q) →
      ∃ f, (surface I d.asym js).Expresses f q ∧ Smooth (uncurry f) ∧ PerF d.nfp f ∧ TorusFn f := by
    intro q hq1 hq2
    obtain ⟨f, ⟨hf, sf, p1, p2⟩, -⟩ := (boozer_coordinates h hp js hd).express q hq2 hq1.1 hq1.2
    have pf : PerF d.nfp f := ⟨p1, p2⟩
    have := pf.torus h.nfp_pos
    exact ⟨f, hf, sf, pf, p1, fun t z => by simpa using this.2 (t, z)⟩
  intro q hq
  unfold Surface.quantities at hq
  simp only [List.mem_cons, List.not_mem_nil, or_false] at hq
  rcases hq with rfl | rfl | rfl | rfl | rfl
  · exact one _ pB hs.B
  · exact one _ pR hs.R
  · exact one _ pZ hs.Z
  · exact one _ (nu_per pl pw) hs.nu
  · exact one _ (jac_per pB) (hs.jacobian hreg.2)

/-- **C105, mean squares.** For fixed data, every order `p` and every `ε > 0` there is a `K0`, and for every `K ≥ K0` a
constant `C`, such that after every run with `mboz > K`, `nboz ≥ K` the sum of the squares of the harmonics of |B| with
`m ≤ K`, `|n| ≤ K nfp` (halved except for (0, 0)) is within `ε + C (1/ntheta^p + 1/nzeta^p)` of the mean of |B|² over the
Boozer angles; likewise for R, Z, ν and the Jacobian. -/
theorem C105_mean_squares {s : St ℝ} {d : Dims} (h : RunReady s.inp d) (hp : FieldPeriodic s.inp d.nfp)
    (ho : OriginOnce s.inp) {b : ℕ} (hb : b < d.nsb) (hreg : (surface s.inp d.asym (selected s.inp b)).Regular)
    (hdet : ∀ θ ζ, (surface s.inp d.asym (selected s.inp b)).det θ ζ ≠ 0)
    {p : ℕ} (hp1 : 1 ≤ p) {ε : ℝ} (hε : 0 < ε) :
    ∃ K0 : ℕ, ∀ K, K0 ≤ K → ∃ C,
    ∀ (M N : ℕ) (s1 : St ℝ) (dbg : Bool), K < M → K ≤ N → s1.inp = { s.inp with mboz := M, nboz := N } →
      RunReady s1.inp { d with M := M, N := N } →
      ∃ s' r, run dbg s1 = .ok (s', r) ∧
        MeanSquares s'.out (surface s.inp d.asym (selected s.inp b)) d.asym (numModes M N) b K (K * d.nfp)
          (ε + C * gridError M N p) := by
  let S := surface s.inp d.asym (selected s.inp b)
  have hK : ∀ q ∈ S.quantities, ∃ K0 : ℕ, ∀ K, K0 ≤ K →
      |S.average (fun θ ζ => q θ ζ ^ 2) - squares d.nfp K (fun _ _ => True) (S.integralCos q) (S.integralSin q)| ≤ ε := by
    intro q hq
    obtain ⟨f, hf, sf, pf, tf⟩ := express_q h hp hreg hdet q hq
    have e : S.average (fun θ ζ => q θ ζ ^ 2) = mean2 τ τ fun x => uncurry f x * uncurry f x := by
      refine average_expressed h hp _ (f := fun t z => f t z * f t z) (sf.continuous.mul sf.continuous)
        ⟨fun t z => by beta_reduce; rw [tf.1], fun t z => by beta_reduce; rw [tf.2]⟩ fun θ ζ => ?_
      show f _ _ * f _ _ = q θ ζ ^ 2
      rw [hf θ ζ, sq]
    rw [e]
    refine squares_series h hp sf pf tf hf (w := fun _ => 1) ?_ (fun _ => rfl) (fun k => ⟨fun _ => rfl, fun hn => absurd trivial hn⟩) hε
    simp only [one_mul]
    exact parseval sf tf.dper
  have hK' : ∀ q, ∃ K0 : ℕ, q ∈ S.quantities → ∀ K, K0 ≤ K →
      |S.average (fun θ ζ => q θ ζ ^ 2) - squares d.nfp K (fun _ _ => True) (S.integralCos q) (S.integralSin q)| ≤ ε := by
    intro q
    by_cases hq : q ∈ S.quantities
    · obtain ⟨K0, h0⟩ := hK q hq
      exact ⟨K0, fun _ => h0⟩
    · exact ⟨0, fun hq' => absurd hq' hq⟩
  choose K0 hK0 using hK'
  refine ⟨K0 S.B + K0 S.R + K0 S.Z + K0 S.nu + K0 S.jacobian, fun K hKK => ?_⟩
  obtain ⟨C, -, hC⟩ := squares_quad h hp hreg hp1 K fun _ _ => True
  refine ⟨C, fun M N s1 dbg hKM hKN e h1 => ?_⟩
  have hp' : FieldPeriodic s1.inp ({ d with M := M, N := N } : Dims).nfp := by rw [e]; exact hp
  have ho' : OriginOnce s1.inp := by rw [e]; exact ho
  refine ⟨_, _, run_real h1 fun _ => originOnce_first h1 ho', ?_⟩
  have eS : surface s1.inp ({ d with M := M, N := N } : Dims).asym (selected s1.inp b) = S := by rw [e]; rfl
  have := outputs_each h1 hp' ho' (b := b) hb (P := fun cosA sinA q =>
    ∃ x, SquareSum (runSt { d with M := M, N := N } s1 d.nsb).out.xm_b (runSt { d with M := M, N := N } s1 d.nsb).out.xn_b
      (numModes M N) b K (K * d.nfp) (fun _ _ => True) cosA sinA x ∧
      |S.average (fun θ ζ => q θ ζ ^ 2) - x| ≤ ε + C * gridError M N p)
  rw [eS] at this
  refine this fun cosA sinA q hq h2 h3 => ⟨_, squareSum_run h1 hKM hKN _ h2 h3, ?_⟩
  have hKq : K0 q ≤ K := by
    have hq' := hq
    unfold Surface.quantities at hq'
    simp only [List.mem_cons, List.not_mem_nil, or_false] at hq'
    rcases hq' with rfl | rfl | rfl | rfl | rfl <;> omega
  have a1 := hK0 q hq K hKq
  have a2 := hC q hq (ntheta M) (nzeta N) (ntheta_pos M) (nzeta_pos N)
  rw [abs_sub_comm] at a2
  exact (abs_sub_le _ _ _).trans (add_le_add a1 a2)

/-- **C105, distance from symmetry.** On a processed surface there is a function of `Mh θ_B − Nh ζ_B` closest to |B| in
mean square over the Boozer angles; call the mean square distance `Q`. The sum of half the squares of the output
harmonics of |B| that break the symmetry tends to `Q`: for every order `p` and `ε > 0` there is a `K0`, and for every
`K ≥ K0` a constant `C`, such that after every run with `mboz > K`, `nboz ≥ K` the sum over the modes with `m ≤ K`,
`|n| ≤ K nfp` that are not multiples of (Mh, Nh) is within `ε + C (1/ntheta^p + 1/nzeta^p)` of `Q`. -/
theorem C105_asymmetry {s : St ℝ} {d : Dims} (h : RunReady s.inp d) (hp : FieldPeriodic s.inp d.nfp)
    (ho : OriginOnce s.inp) {b : ℕ} (hb : b < d.nsb) (hreg : (surface s.inp d.asym (selected s.inp b)).Regular)
    (hdet : ∀ θ ζ, (surface s.inp d.asym (selected s.inp b)).det θ ζ ≠ 0) {Mh Nh : ℤ} (hMN : ¬ (Mh = 0 ∧ Nh = 0)) :
    ∃ Q, (surface s.inp d.asym (selected s.inp b)).Asymmetry Mh Nh Q ∧
    ∀ p, 1 ≤ p → ∀ ε : ℝ, 0 < ε → ∃ K0 : ℕ, ∀ K, K0 ≤ K → ∃ C,
    ∀ (M N : ℕ) (s1 : St ℝ) (dbg : Bool), K < M → K ≤ N → s1.inp = { s.inp with mboz := M, nboz := N } →
      RunReady s1.inp { d with M := M, N := N } →
      ∃ s' r, run dbg s1 = .ok (s', r) ∧ ∃ x, SquareSum s'.out.xm_b s'.out.xn_b (numModes M N) b K (K * d.nfp)
        (fun m n => m * Nh ≠ n * Mh) (some s'.out.spec.bmnc_b) (if d.asym then some s'.out.spec.bmns_b else none) x ∧
        |Q - x| ≤ ε + C * gridError M N p := by
  let S := surface s.inp d.asym (selected s.inp b)
  have hqB : S.B ∈ S.quantities := List.mem_cons_self
  obtain ⟨f, hf, sf, pf, tf⟩ := express_q h hp hreg hdet S.B hqB
  obtain ⟨Q, hsum, ⟨g0, cg0, pg0, hg0, e0⟩, hmin⟩ := closest sf tf.dper hMN
  have dist : ∀ g : ℝ → ℝ → ℝ, Continuous (uncurry g) → TorusFn g → S.distance2 S.B g =
      mean2 τ τ fun x => (uncurry f x - uncurry g x) * (uncurry f x - uncurry g x) := by
    intro g cg tg
    refine average_expressed h hp _ (f := fun t z => (f t z - g t z) * (f t z - g t z))
      ((sf.continuous.sub cg).mul (sf.continuous.sub cg)) ⟨fun t z => by beta_reduce; rw [tf.1, tg.1], fun t z => by beta_reduce; rw [tf.2, tg.2]⟩
      fun θ ζ => ?_
    show (f _ _ - g _ _) * (f _ _ - g _ _) = _
    rw [hf θ ζ, sq]
  refine ⟨Q, ⟨⟨curry g0, ⟨cg0, ⟨fun t z => ?_, fun t z => ?_⟩, fun t z t' z' e => hg0 (t, z) (t', z') e⟩, ?_⟩, ?_⟩, ?_⟩
  · have := pg0.1 (t, z)
    simpa [τ] using this
  · have := pg0.2 (t, z)
    simpa [τ] using this
  · rw [dist (curry g0) cg0 ⟨fun t z => by simpa [τ] using pg0.1 (t, z), fun t z => by simpa [τ] using pg0.2 (t, z)⟩]
    exact e0
  · intro g hg
    rw [dist g hg.1 hg.2.1]
    exact hmin _ hg.1 hg.2.1.dper fun x y e => hg.2.2 x.1 x.2 y.1 y.2 e
  · intro p hp1 ε hε
    obtain ⟨K0, hK0⟩ := squares_series h hp sf pf tf hf (sel := fun m n => m * Nh ≠ n * Mh) hsum (breaks_neg Mh Nh)
      (fun k => ⟨fun hk => if_pos hk, fun hk => if_neg hk⟩) hε
    refine ⟨K0, fun K hK => ?_⟩
    obtain ⟨C, -, hC⟩ := squares_quad h hp hreg hp1 K fun m n => m * Nh ≠ n * Mh
    refine ⟨C, fun M N s1 dbg hKM hKN e h1 => ?_⟩
    have hp' : FieldPeriodic s1.inp ({ d with M := M, N := N } : Dims).nfp := by rw [e]; exact hp
    have ho' : OriginOnce s1.inp := by rw [e]; exact ho
    refine ⟨_, _, run_real h1 fun _ => originOnce_first h1 ho', ?_⟩
    have eS : surface s1.inp ({ d with M := M, N := N } : Dims).asym (selected s1.inp b) = S := by rw [e]; rfl
    have := outputs_each h1 hp' ho' (b := b) hb (P := fun cosA sinA q =>
      ∃ x, SquareSum (runSt { d with M := M, N := N } s1 d.nsb).out.xm_b (runSt { d with M := M, N := N } s1 d.nsb).out.xn_b
        (numModes M N) b K (K * d.nfp) (fun m n => m * Nh ≠ n * Mh) cosA sinA x ∧
        |squares d.nfp K (fun m n => m * Nh ≠ n * Mh) (S.integralCos q) (S.integralSin q) - x| ≤ C * gridError M N p)
    rw [eS] at this
    obtain ⟨x, hx, hxe⟩ := (this fun cosA sinA q hq h2 h3 => ⟨_, squareSum_run h1 hKM hKN _ h2 h3, by
      have a2 := hC q hq (ntheta M) (nzeta N) (ntheta_pos M) (nzeta_pos N)
      rw [abs_sub_comm] at a2
      exact a2⟩).1
    exact ⟨x, hx, (abs_sub_le _ _ _).trans (add_le_add (hK0 K hK) hxe)⟩

/-- The least distance is zero exactly for quasisymmetric |B|. -/
theorem C105_zero {I : Inputs ℝ} {d : Dims} (h : RunReady I d) (hp : FieldPeriodic I d.nfp) {js : ℕ}
    (hdet : ∀ θ ζ, (surface I d.asym js).det θ ζ ≠ 0) {Mh Nh : ℤ} {Q : ℝ} (hQ : (surface I d.asym js).Asymmetry Mh Nh Q) :
    0 ≤ Q ∧ (Q = 0 ↔ (surface I d.asym js).Quasisymmetric Mh Nh) := by
  let S := surface I d.asym js
  obtain ⟨f, hf, sf, pf, tf⟩ := express_B h hp hdet
  have hsurj := (boozer_coordinates h hp js hdet).bijective.2
  have dist : ∀ g : ℝ → ℝ → ℝ, Continuous (uncurry g) → TorusFn g → S.distance2 S.B g =
      mean2 τ τ fun x => (uncurry f x - uncurry g x) * (uncurry f x - uncurry g x) := by
    intro g cg tg
    refine average_expressed h hp _ (f := fun t z => (f t z - g t z) * (f t z - g t z))
      ((sf.continuous.sub cg).mul (sf.continuous.sub cg)) ⟨fun t z => by beta_reduce; rw [tf.1, tg.1],
        fun t z => by beta_reduce; rw [tf.2, tg.2]⟩ fun θ ζ => ?_
    show (f _ _ - g _ _) * (f _ _ - g _ _) = _
    rw [hf θ ζ, sq]
  obtain ⟨⟨g, hg, e⟩, hmin⟩ := hQ
  have hQ0 : 0 ≤ Q := by
    rw [← e, dist g hg.1 hg.2.1]
    exact mean_sq_nonneg fun x => uncurry f x - uncurry g x
  refine ⟨hQ0, fun h0 => ?_, fun hq => le_antisymm ?_ hQ0⟩
  · rw [h0, dist g hg.1 hg.2.1] at e
    have cD : Continuous fun x => uncurry f x - uncurry g x := sf.continuous.sub hg.1
    have pD : DPer τ τ fun x => uncurry f x - uncurry g x := tf.dper.sub hg.2.1.dper
    have fg : ∀ x, uncurry f x = uncurry g x := fun x =>
      sub_eq_zero.1 (mul_self_eq_zero.1 (mean_pos (pD.mul pD) (cD.mul cD) (fun x => mul_self_nonneg _) e x))
    intro θ ζ θ' ζ' hx
    have e1 := fg (S.thetaB θ ζ, S.zetaB θ ζ)
    have e2 := fg (S.thetaB θ' ζ', S.zetaB θ' ζ')
    have e3 := hg.2.2 _ _ _ _ hx
    change f _ _ = g _ _ at e1 e2
    rw [hf] at e1 e2
    rw [e1, e2, e3]
  · have := hmin f ⟨sf.continuous, tf, fun t z t' z' hx => ?_⟩
    · rw [dist f sf.continuous tf] at this
      simp only [sub_self, mul_zero] at this
      rwa [mean2_zero] at this
    · obtain ⟨a, ha⟩ := hsurj (t, z)
      obtain ⟨a', ha'⟩ := hsurj (t', z')
      obtain ⟨a1, a2⟩ := Prod.mk.inj ha
      obtain ⟨a1', a2'⟩ := Prod.mk.inj ha'
      rw [← a1, ← a2, ← a1', ← a2', hf, hf]
      refine hq _ _ _ _ ?_
      rw [a1, a2, a1', a2']
      exact hx

/-! ### Non-vacuity -/

/-- The three theorems apply to the example with small λ and w. -/
example (asym : Bool) : (∃ K0 : ℕ, ∀ K, K0 ≤ K → ∃ C,
      ∀ (M N : ℕ) (s1 : St ℝ) (dbg : Bool), K < M → K ≤ N → s1.inp = { (Ex.gentle asym).inp with mboz := M, nboz := N } →
      RunReady s1.inp { Ex.dims asym with M := M, N := N } →
      ∃ s' r, run dbg s1 = .ok (s', r) ∧
        MeanSquares s'.out (surface (Ex.gentle asym).inp asym (selected (Ex.gentle asym).inp 1)) asym (numModes M N) 1 K (K * 2)
          (1 / 1000 + C * gridError M N 4)) ∧
    ∃ Q, (surface (Ex.gentle asym).inp asym (selected (Ex.gentle asym).inp 1)).Asymmetry 1 2 Q ∧ 0 ≤ Q := by
  have hj := Ex.selected_lt asym 1 (by decide)
  have hd : ∀ θ ζ, (surface (Ex.gentle asym).inp asym (selected (Ex.gentle asym).inp 1)).det θ ζ ≠ 0 :=
    fun θ ζ => (lt_trans (by norm_num) (Ex.gentle_det asym hj θ ζ)).ne'
  refine ⟨C105_mean_squares (d := Ex.dims asym) (Ex.gentle_ready asym) (Ex.fieldPeriodic (α := ℝ) asym) (Ex.originOnce (α := ℝ) asym)
    (by show 1 < 2; omega) (Ex.gentle_regular asym hj) hd (by norm_num) (by norm_num), ?_⟩
  obtain ⟨Q, hQ, -⟩ := C105_asymmetry (d := Ex.dims asym) (Ex.gentle_ready asym) (Ex.fieldPeriodic (α := ℝ) asym)
    (Ex.originOnce (α := ℝ) asym) (b := 1) (by show 1 < 2; omega) (Ex.gentle_regular asym hj) hd (Mh := 1) (Nh := 2) (by simp)
  exact ⟨Q, hQ, (C105_zero (d := Ex.dims asym) (Ex.gentle_ready asym) (Ex.fieldPeriodic (α := ℝ) asym) hd hQ).1⟩

/-- For the axisymmetric example the distance is zero with helicity (1, 0) and positive with helicity (0, 1). -/
example : let S := surface (Ex.axi false).inp false (selected (Ex.axi false).inp 0)
    S.Asymmetry 1 0 0 ∧ ∃ Q, S.Asymmetry 0 1 Q ∧ 0 < Q := by
  have hj := Ex.selected_lt false 0 (by decide)
  have hr := Ex.axi_ready false (M := 1) le_rfl (by norm_num)
  have hd := fun θ ζ => Ex.axi_det false (js := selected (Ex.axi false).inp 0) hj θ ζ
  have ex := fun {Mh Nh : ℤ} (hMN : ¬ (Mh = 0 ∧ Nh = 0)) => C105_asymmetry
    (s := { Ex.axi false with inp := { (Ex.axi false).inp with mboz := (1 : ℕ), nboz := 0 } })
    (d := { Ex.dims false with M := 1, N := 0 }) hr (Ex.axi_periodic false) (Ex.axi_origin false) (b := 0)
    (by show 0 < 2; omega) (Ex.axi_regular false hj) hd hMN
  constructor
  · obtain ⟨Q, hQ, -⟩ := ex (Mh := 1) (Nh := 0) (by simp)
    have := (C105_zero (d := { Ex.dims false with M := 1, N := 0 }) hr (Ex.axi_periodic false) hd hQ).2.2
      (axi_quasi hr (Ex.axi_periodic false) (Ex.axi_axisymmetric false) hd)
    rw [this] at hQ
    exact hQ
  · obtain ⟨Q, hQ, -⟩ := ex (Mh := 0) (Nh := 1) (by simp)
    obtain ⟨h0, h1⟩ := C105_zero (d := { Ex.dims false with M := 1, N := 0 }) hr (Ex.axi_periodic false) hd hQ
    exact ⟨Q, hQ, lt_of_le_of_ne h0 fun e => Ex.axi_not_quasi hj (h1.1 e.symm)⟩

end Booz
