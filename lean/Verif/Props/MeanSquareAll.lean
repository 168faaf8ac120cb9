import Verif.Lemmas.ParsevalFinite
import Verif.Props.MeanSquare
import Verif.Props.Uniform

/-!
# C105, sums of squares over all output harmonics
-/

namespace Booz
open Spec Trapezoid Finset Function

/-- The output modes with their toroidal numbers. -/
noncomputable def fullModes (nfp M N : ℕ) : Finset (ℤ × ℤ) := (outputModes M N).image fun k => (k.1, k.2 * (nfp : ℤ))

theorem mode_injective {nfp : ℕ} (hp : 1 ≤ nfp) : Injective fun k : ℤ × ℤ => (k.1, k.2 * (nfp : ℤ)) := by
  have hp0 : (nfp : ℤ) ≠ 0 := by omega
  rintro ⟨a, b⟩ ⟨c, d⟩ e
  simp only [Prod.mk.injEq] at e
  exact Prod.ext e.1 (mul_right_cancel₀ hp0 e.2)

theorem sum_fullModes {nfp : ℕ} (hp : 1 ≤ nfp) (M N : ℕ) (g : ℤ × ℤ → ℝ) :
    ∑ k ∈ fullModes nfp M N, g k = ∑ k ∈ outputModes M N, g (k.1, k.2 * nfp) :=
  sum_image fun _ _ _ _ e => mode_injective hp e

theorem fullModes_half {nfp : ℕ} (hp : 1 ≤ nfp) (M N : ℕ) :
    ∀ k ∈ fullModes nfp M N, ∀ l ∈ fullModes nfp M N, k = -l → l = 0 := by
  have hp0 : (0 : ℤ) < nfp := by omega
  intro k hk l hl e
  unfold fullModes at hk hl
  obtain ⟨k', hk', rfl⟩ := mem_image.1 hk
  obtain ⟨l', hl', rfl⟩ := mem_image.1 hl
  unfold outputModes at hk' hl'
  rw [mem_filter, mem_product, mem_Ico] at hk' hl'
  obtain ⟨e1, e2⟩ := Prod.mk.inj e
  simp only at e1 e2
  have h1 : l'.1 = 0 := by have := hk'.1.1.1; have := hl'.1.1.1; omega
  have h2 := hl'.2 h1
  have h3 := hk'.2 (by omega)
  have h4 : 0 ≤ k'.2 * (nfp : ℤ) := mul_nonneg h3 hp0.le
  have h5 : 0 ≤ l'.2 * (nfp : ℤ) := mul_nonneg h2 hp0.le
  exact Prod.ext h1 (by show l'.2 * (nfp : ℤ) = 0; omega)

theorem outputSeries_trig {nfp : ℕ} (hp : 1 ≤ nfp) (M N : ℕ) (c s : ℤ → ℤ → ℝ) (t z : ℝ) :
    outputSeries nfp M N c s t z = trig (fullModes nfp M N) (fun k => c k.1 k.2) (fun k => s k.1 k.2) (t, z) := by
  unfold trig
  rw [sum_fullModes hp]
  rfl

open Classical in
/-- Sum of squares over the selected output modes. -/
noncomputable def allSquares (nfp M N : ℕ) (sel : ℤ → ℤ → Prop) (c s : ℤ → ℤ → ℝ) : ℝ :=
  ∑ k ∈ (fullModes nfp M N).filter (fun k => sel k.1 k.2),
    (if k = 0 then 1 else 1 / 2) * (c k.1 k.2 ^ 2 + s k.1 k.2 ^ 2)

theorem allSquares_nonneg (nfp M N : ℕ) (sel : ℤ → ℤ → Prop) (c s : ℤ → ℤ → ℝ) : 0 ≤ allSquares nfp M N sel c s :=
  sum_nonneg fun k _ => mul_nonneg (by split <;> norm_num) (add_nonneg (sq_nonneg _) (sq_nonneg _))

/-- Sums of squares of all outputs of a run. -/
theorem squareSum_all {s : St ℝ} {d : Dims} (h : RunReady s.inp d) {b : ℕ}
    {cosA sinA : Option (Mat ℝ)} {c t : ℤ → ℤ → ℝ} (sel : ℤ → ℤ → Prop)
    (hc : ∀ k < d.nmodes, Coefficient cosA k b (c (modeM d.N k) (modeN d.N k * d.nfp)))
    (hs : ∀ k < d.nmodes, Coefficient sinA k b (t (modeM d.N k) (modeN d.N k * d.nfp))) :
    SquareSum (runSt d s d.nsb).out.xm_b (runSt d s d.nsb).out.xn_b d.nmodes b d.M (d.N * d.nfp) sel cosA sinA
      (allSquares d.nfp d.M d.N sel c t) := by
  classical
  refine ⟨fun k => modeM d.N k, fun k => modeN d.N k * d.nfp, fun k => c (modeM d.N k) (modeN d.N k * d.nfp),
    fun k => t (modeM d.N k) (modeN d.N k * d.nfp), fun k hk => ⟨Vec.rdN_tab hk, Vec.rdN_tab hk, hc k hk, hs k hk⟩, ?_⟩
  rw [← filter_filter, sum_filter]
  unfold allSquares
  rw [sum_filter, sum_fullModes h.nfp_pos]
  have := (sum_all d h.mboz_ge h.nfp_pos fun m n => if sel m n then
    (if m = 0 ∧ n = 0 then (1 : ℝ) else 1 / 2) * (c m n ^ 2 + t m n ^ 2) else 0).symm
  refine Eq.trans (sum_congr rfl fun k _ => ?_) this
  have e : ((k.1, k.2 * (d.nfp : ℤ)) = (0 : ℤ × ℤ)) ↔ (k.1 = 0 ∧ k.2 * (d.nfp : ℤ) = 0) := Prod.mk_eq_zero
  simp only [e]

theorem quadSin_zero (S : Surface) (nt nz nfp : ℕ) (q : ℝ → ℝ → ℝ) : S.quadSin nt nz nfp q 0 0 = 0 := by
  unfold Surface.quadSin
  simp

/-- The quantity as a function on the torus is near the sum of all output harmonics. -/
theorem near_trig {I : Inputs ℝ} {d : Dims} (h : RunReady I d) (hp : FieldPeriodic I d.nfp) {js : ℕ}
    (hd : ∀ θ ζ, (surface I d.asym js).det θ ζ ≠ 0) {q f : ℝ → ℝ → ℝ} (hf : (surface I d.asym js).Expresses f q)
    {M N : ℕ} {c s : ℤ → ℤ → ℝ} {δ : ℝ}
    (he : let S := surface I d.asym js
      ∀ θ ζ, |q θ ζ - outputSeries d.nfp M N c s (S.thetaB θ ζ) (S.zetaB θ ζ)| ≤ δ) (x : ℝ × ℝ) :
    |uncurry f x - trig (fullModes d.nfp M N) (fun k => c k.1 k.2) (fun k => s k.1 k.2) x| ≤ δ := by
  obtain ⟨y, rfl⟩ := (boozer_coordinates h hp js hd).bijective.2 x
  have := he y.1 y.2
  rw [← hf y.1 y.2, outputSeries_trig h.nfp_pos] at this
  exact this

/-- **C105, all harmonics.** Let `c ≥ 0`, `ρ < 1` and the order `p` be arbitrary. For the runs with `mboz = M ≥ 1`,
`nboz = N ≥ 1`, `M ≤ c N`, `N ≤ c M` whose grid resolves the change of angles on a processed surface, the sum over *all*
output modes of the squares of the harmonics is within `C / M^p` of the mean square of |B|, R, Z, ν and the Jacobian over
the Boozer angles. -/
theorem C105_all_mean_squares {s : St ℝ} {d : Dims} (h : RunReady s.inp d) (hp : FieldPeriodic s.inp d.nfp)
    (ho : OriginOnce s.inp) {b : ℕ} (hb : b < d.nsb) (hreg : (surface s.inp d.asym (selected s.inp b)).Regular)
    (hdet : ∀ θ ζ, (surface s.inp d.asym (selected s.inp b)).det θ ζ ≠ 0)
    {c : ℝ} (hc : 0 ≤ c) {ρ : ℝ} (hρ : ρ < 1) (p : ℕ) :
    ∃ C, ∀ (M N : ℕ) (s1 : St ℝ) (dbg : Bool), 1 ≤ N → (M : ℝ) ≤ c * N → (N : ℝ) ≤ c * M →
      s1.inp = { s.inp with mboz := M, nboz := N } → RunReady s1.inp { d with M := M, N := N } →
      (surface s.inp d.asym (selected s.inp b)).ResolvedBy d.nfp M N ρ →
      ∃ s' r, run dbg s1 = .ok (s', r) ∧
        MeanSquares s'.out (surface s.inp d.asym (selected s.inp b)) d.asym (numModes M N) b M (N * d.nfp)
          (C * (1 / (M : ℝ)) ^ p) := by
  let S := surface s.inp d.asym (selected s.inp b)
  obtain ⟨C, hC, hrate⟩ := surface_rate h hp hreg hdet hc hρ p
  let mq : (ℝ → ℝ → ℝ) → ℝ := fun q => S.average fun θ ζ => q θ ζ ^ 2
  let T : (ℝ → ℝ → ℝ) → ℝ := fun q => C * (C + 1 + (mq q + C * (C + 1 + mq q)))
  have key : ∀ q ∈ S.quantities, 0 ≤ mq q ∧ ∀ M N : ℕ, 1 ≤ M → 1 ≤ N → (M : ℝ) ≤ c * N → (N : ℝ) ≤ c * M →
      S.ResolvedBy d.nfp M N ρ → |mq q - allSquares d.nfp M N (fun _ _ => True)
        (S.quadCos (ntheta M) (nzeta N) d.nfp q) (S.quadSin (ntheta M) (nzeta N) d.nfp q)| ≤ T q * (1 / (M : ℝ)) ^ p := by
    intro q hq
    obtain ⟨f, hf, sf, pf, tf⟩ := express_q h hp hreg hdet q hq
    have e : mq q = mean2 τ τ fun x => uncurry f x * uncurry f x := by
      refine average_expressed h hp _ (f := fun t z => f t z * f t z) (sf.continuous.mul sf.continuous)
        ⟨fun t z => by beta_reduce; rw [tf.1], fun t z => by beta_reduce; rw [tf.2]⟩ fun θ ζ => ?_
      show f _ _ * f _ _ = q θ ζ ^ 2
      rw [hf θ ζ, sq]
    have e0 : 0 ≤ mq q := by rw [e]; exact mean_sq_nonneg _
    refine ⟨e0, fun M N hM hN hMN hNM hr => ?_⟩
    set A := fullModes d.nfp M N
    set a : ℤ × ℤ → ℝ := fun k => S.quadCos (ntheta M) (nzeta N) d.nfp q k.1 k.2
    set t : ℤ × ℤ → ℝ := fun k => S.quadSin (ntheta M) (nzeta N) d.nfp q k.1 k.2
    have hn : ∀ x, |uncurry f x - trig A a t x| ≤ C * (1 / (M : ℝ)) ^ p :=
      near_trig h hp hdet hf fun θ ζ => hrate q hq M N hM hN hMN hNM hr θ ζ
    have hx : allSquares d.nfp M N (fun _ _ => True) (S.quadCos (ntheta M) (nzeta N) d.nfp q)
        (S.quadSin (ntheta M) (nzeta N) d.nfp q) = mean2 τ τ fun x => trig A a t x * trig A a t x := by
      rw [trig_sq (fullModes_half h.nfp_pos M N) (quadSin_zero S _ _ _ q)]
      unfold allSquares
      rw [sum_filter]
      exact sum_congr rfl fun k _ => if_pos trivial
    have cT := trig_continuous A a t
    have n1 := near_sq (G := fun _ => 0) sf.continuous cT continuous_const hn
    have n2 := near_sq (G := fun _ => 0) cT sf.continuous continuous_const fun x => by rw [abs_sub_comm]; exact hn x
    simp only [sub_zero] at n1 n2
    rw [← hx, ← e] at n1 n2
    refine near_numbers e0 hC (by positivity) ?_ (allSquares_nonneg _ _ _ _ _ _) n1 n2
    refine pow_le_one₀ (by positivity) ?_
    rw [div_le_one (by positivity)]
    exact_mod_cast hM
  have hT0 : ∀ q ∈ S.quantities, 0 ≤ T q := fun q hq => by
    have := (key q hq).1
    positivity
  have mem : S.B ∈ S.quantities ∧ S.R ∈ S.quantities ∧ S.Z ∈ S.quantities ∧ S.nu ∈ S.quantities ∧
      S.jacobian ∈ S.quantities := by
    unfold Surface.quantities
    simp only [List.mem_cons, true_or, or_true, and_self]
  have b1 := hT0 _ mem.1
  have b2 := hT0 _ mem.2.1
  have b3 := hT0 _ mem.2.2.1
  have b4 := hT0 _ mem.2.2.2.1
  have b5 := hT0 _ mem.2.2.2.2
  refine ⟨T S.B + T S.R + T S.Z + T S.nu + T S.jacobian, fun M N s1 dbg hN hMN hNM e h1 hr => ?_⟩
  have hp' : FieldPeriodic s1.inp ({ d with M := M, N := N } : Dims).nfp := by rw [e]; exact hp
  have ho' : OriginOnce s1.inp := by rw [e]; exact ho
  refine ⟨_, _, run_real h1 fun _ => originOnce_first h1 ho', ?_⟩
  have eS : surface s1.inp ({ d with M := M, N := N } : Dims).asym (selected s1.inp b) = S := by rw [e]; rfl
  have := outputs_each h1 hp' ho' (b := b) hb (P := fun cosA sinA q =>
    ∃ x, SquareSum (runSt { d with M := M, N := N } s1 d.nsb).out.xm_b (runSt { d with M := M, N := N } s1 d.nsb).out.xn_b
      (numModes M N) b M (N * d.nfp) (fun _ _ => True) cosA sinA x ∧
      |mq q - x| ≤ (T S.B + T S.R + T S.Z + T S.nu + T S.jacobian) * (1 / (M : ℝ)) ^ p)
  rw [eS] at this
  refine this fun cosA sinA q hq h2 h3 => ⟨_, squareSum_all h1 _ h2 h3, ?_⟩
  refine ((key q hq).2 M N h1.mboz_ge hN hMN hNM hr).trans (mul_le_mul_of_nonneg_right ?_ (by positivity))
  unfold Surface.quantities at hq
  simp only [List.mem_cons, List.not_mem_nil, or_false] at hq
  rcases hq with rfl | rfl | rfl | rfl | rfl <;> linarith

/-- **C105, all harmonics, distance from symmetry.** For the same runs, the sum of half the squares of *all* output
harmonics of |B| that break the symmetry with helicity (Mh, Nh) is within `C / M^p` of the least mean square distance `Q`
of |B| from functions of `Mh θ_B − Nh ζ_B`. -/
theorem C105_all_asymmetry {s : St ℝ} {d : Dims} (h : RunReady s.inp d) (hp : FieldPeriodic s.inp d.nfp)
    (ho : OriginOnce s.inp) {b : ℕ} (hb : b < d.nsb) (hreg : (surface s.inp d.asym (selected s.inp b)).Regular)
    (hdet : ∀ θ ζ, (surface s.inp d.asym (selected s.inp b)).det θ ζ ≠ 0) {Mh Nh : ℤ} (hMN : ¬ (Mh = 0 ∧ Nh = 0))
    {Q : ℝ} (hQ : (surface s.inp d.asym (selected s.inp b)).Asymmetry Mh Nh Q)
    {c : ℝ} (hc : 0 ≤ c) {ρ : ℝ} (hρ : ρ < 1) (p : ℕ) :
    ∃ C, ∀ (M N : ℕ) (s1 : St ℝ) (dbg : Bool), 1 ≤ N → (M : ℝ) ≤ c * N → (N : ℝ) ≤ c * M →
      s1.inp = { s.inp with mboz := M, nboz := N } → RunReady s1.inp { d with M := M, N := N } →
      (surface s.inp d.asym (selected s.inp b)).ResolvedBy d.nfp M N ρ →
      ∃ s' r, run dbg s1 = .ok (s', r) ∧ ∃ x, SquareSum s'.out.xm_b s'.out.xn_b (numModes M N) b M (N * d.nfp)
        (fun m n => m * Nh ≠ n * Mh) (some s'.out.spec.bmnc_b) (if d.asym then some s'.out.spec.bmns_b else none) x ∧
        |Q - x| ≤ C * (1 / (M : ℝ)) ^ p := by
  let S := surface s.inp d.asym (selected s.inp b)
  have hqB : S.B ∈ S.quantities := List.mem_cons_self
  obtain ⟨C, hC, hrate⟩ := surface_rate h hp hreg hdet hc hρ p
  obtain ⟨f, hf, sf, pf, tf⟩ := express_q h hp hreg hdet S.B hqB
  have hQ0 := (C105_zero h hp hdet hQ).1
  have dist : ∀ g : ℝ → ℝ → ℝ, Continuous (uncurry g) → TorusFn g → S.distance2 S.B g =
      mean2 τ τ fun x => (uncurry f x - uncurry g x) * (uncurry f x - uncurry g x) := by
    intro g cg tg
    refine average_expressed h hp _ (f := fun t z => (f t z - g t z) * (f t z - g t z))
      ((sf.continuous.sub cg).mul (sf.continuous.sub cg)) ⟨fun t z => by beta_reduce; rw [tf.1, tg.1],
        fun t z => by beta_reduce; rw [tf.2, tg.2]⟩ fun θ ζ => ?_
    show (f _ _ - g _ _) * (f _ _ - g _ _) = _
    rw [hf θ ζ, sq]
  obtain ⟨⟨g0, hg0, eg0⟩, hmin⟩ := hQ
  rw [dist g0 hg0.1 hg0.2.1] at eg0
  refine ⟨C * (C + 1 + (Q + C * (C + 1 + Q))), fun M N s1 dbg hN hMN' hNM e h1 hr => ?_⟩
  have hp' : FieldPeriodic s1.inp ({ d with M := M, N := N } : Dims).nfp := by rw [e]; exact hp
  have ho' : OriginOnce s1.inp := by rw [e]; exact ho
  refine ⟨_, _, run_real h1 fun _ => originOnce_first h1 ho', ?_⟩
  have eS : surface s1.inp ({ d with M := M, N := N } : Dims).asym (selected s1.inp b) = S := by rw [e]; rfl
  have := outputs_each h1 hp' ho' (b := b) hb (P := fun cosA sinA q =>
    SquareSum (runSt { d with M := M, N := N } s1 d.nsb).out.xm_b (runSt { d with M := M, N := N } s1 d.nsb).out.xn_b
      (numModes M N) b M (N * d.nfp) (fun m n => m * Nh ≠ n * Mh) cosA sinA (allSquares d.nfp M N (fun m n => m * Nh ≠ n * Mh)
        (S.quadCos (ntheta M) (nzeta N) d.nfp q) (S.quadSin (ntheta M) (nzeta N) d.nfp q)))
  rw [eS] at this
  refine ⟨_, (this fun cosA sinA q hq h2 h3 => squareSum_all h1 _ h2 h3).1, ?_⟩
  set A := fullModes d.nfp M N
  set a : ℤ × ℤ → ℝ := fun k => S.quadCos (ntheta M) (nzeta N) d.nfp S.B k.1 k.2
  set t : ℤ × ℤ → ℝ := fun k => S.quadSin (ntheta M) (nzeta N) d.nfp S.B k.1 k.2
  have hn : ∀ x, |uncurry f x - trig A a t x| ≤ C * (1 / (M : ℝ)) ^ p :=
    near_trig h hp hdet hf fun θ ζ => hrate S.B hqB M N h1.mboz_ge hN hMN' hNM hr θ ζ
  have cT := trig_continuous A a t
  set x := allSquares d.nfp M N (fun m n => m * Nh ≠ n * Mh)
        (S.quadCos (ntheta M) (nzeta N) d.nfp S.B) (S.quadSin (ntheta M) (nzeta N) d.nfp S.B) with hx
  obtain ⟨⟨g1, cg1, pg1, hg1, eg1⟩, hmin1⟩ := trig_closest (A := A) (a := a) (b := t) (fullModes_half h.nfp_pos M N)
    (quadSin_zero S _ _ _ S.B) hMN (x := x) (by
      rw [hx]
      unfold allSquares
      exact sum_congr (filter_congr_decidable _ _ _) fun _ _ => rfl)
  have n1 := near_sq sf.continuous cT cg1 hn
  have n2 := near_sq cT sf.continuous hg0.1 fun x => by rw [abs_sub_comm]; exact hn x
  rw [eg1] at n1
  rw [eg0] at n2
  have tg1 : TorusFn (curry g1) :=
    ⟨fun t z => by simpa [τ] using pg1.1 (t, z), fun t z => by simpa [τ] using pg1.2 (t, z)⟩
  have m1 := hmin (curry g1) ⟨cg1, tg1, fun t z t' z' hxy => hg1 (t, z) (t', z') hxy⟩
  have m2 := hmin1 (uncurry g0) hg0.1 hg0.2.1.dper fun x y hxy => hg0.2.2 x.1 x.2 y.1 y.2 hxy
  rw [dist (curry g1) cg1 tg1] at m1
  refine near_numbers hQ0 hC (by positivity) ?_ (allSquares_nonneg _ _ _ _ _ _) (m1.trans n1) (m2.trans n2)
  refine pow_le_one₀ (by positivity) ?_
  rw [div_le_one (by have := h1.mboz_ge; positivity)]
  exact_mod_cast h1.mboz_ge

/-- Both apply to the example with small λ and w, for all resolutions with `M ≤ 2 N`, `N ≤ 2 M` up to the size at which
int overflows. -/
example (asym : Bool) : ∃ C Q, (surface (Ex.gentle asym).inp asym (selected (Ex.gentle asym).inp 1)).Asymmetry 1 2 Q ∧
    ∀ (M N : ℕ), 1 ≤ M → M ≤ 2 * N → N ≤ 2 * M → (4 * M + 2) * (4 * N + 2) < 2 ^ 30 → ∀ out g dbg,
    let s1 : St ℝ := { Ex.gentle asym with inp := { (Ex.gentle asym).inp with mboz := M, nboz := N }, out := out, grid := g }
    ∃ s' r, run dbg s1 = .ok (s', r) ∧
      MeanSquares s'.out (surface (Ex.gentle asym).inp asym (selected (Ex.gentle asym).inp 1)) asym (numModes M N) 1 M
        (N * 2) (C * (1 / (M : ℝ)) ^ 7) ∧
      ∃ x, SquareSum s'.out.xm_b s'.out.xn_b (numModes M N) 1 M (N * 2)
        (fun m n => m * 2 ≠ n * 1) (some s'.out.spec.bmnc_b) (if asym then some s'.out.spec.bmns_b else none) x ∧
        |Q - x| ≤ C * (1 / (M : ℝ)) ^ 7 := by
  have hj := Ex.selected_lt asym 1 (by decide)
  have hd : ∀ θ ζ, (surface (Ex.gentle asym).inp asym (selected (Ex.gentle asym).inp 1)).det θ ζ ≠ 0 :=
    fun θ ζ => (lt_trans (by norm_num) (Ex.gentle_det asym hj θ ζ)).ne'
  obtain ⟨Q, hQ, -⟩ := C105_asymmetry (d := Ex.dims asym) (Ex.gentle_ready asym) (Ex.fieldPeriodic (α := ℝ) asym)
    (Ex.originOnce (α := ℝ) asym) (b := 1) (by show 1 < 2; omega) (Ex.gentle_regular asym hj) hd (Mh := 1) (Nh := 2) (by simp)
  obtain ⟨C1, h1⟩ := C105_all_mean_squares (d := Ex.dims asym) (Ex.gentle_ready asym) (Ex.fieldPeriodic (α := ℝ) asym)
    (Ex.originOnce (α := ℝ) asym) (b := 1) (by show 1 < 2; omega) (Ex.gentle_regular asym hj) hd
    (c := 2) (by norm_num) (ρ := 1 / 2) (by norm_num) 7
  obtain ⟨C2, h2⟩ := C105_all_asymmetry (d := Ex.dims asym) (Ex.gentle_ready asym) (Ex.fieldPeriodic (α := ℝ) asym)
    (Ex.originOnce (α := ℝ) asym) (b := 1) (by show 1 < 2; omega) (Ex.gentle_regular asym hj) hd (Mh := 1) (Nh := 2) (by simp)
    hQ (c := 2) (by norm_num) (ρ := 1 / 2) (by norm_num) 7
  refine ⟨max C1 C2, Q, hQ, fun M N hM k1 k2 hf out g dbg => ?_⟩
  intro s1
  have hN : 1 ≤ N := by omega
  have k1' : (M : ℝ) ≤ 2 * N := by exact_mod_cast k1
  have k2' : (N : ℝ) ≤ 2 * M := by exact_mod_cast k2
  have hr : RunReady s1.inp { Ex.dims asym with M := M, N := N } := Ex.gentle_ready_res asym hM hf
  have e0 : (0 : ℝ) ≤ (1 / (M : ℝ)) ^ 7 := by positivity
  have m1 : C1 * (1 / (M : ℝ)) ^ 7 ≤ max C1 C2 * (1 / (M : ℝ)) ^ 7 := mul_le_mul_of_nonneg_right (le_max_left _ _) e0
  have m2 : C2 * (1 / (M : ℝ)) ^ 7 ≤ max C1 C2 * (1 / (M : ℝ)) ^ 7 := mul_le_mul_of_nonneg_right (le_max_right _ _) e0
  obtain ⟨s', r, ok, a⟩ := h1 M N s1 dbg hN k1' k2' rfl hr (Ex.gentle_resolved asym hj k1 k2)
  obtain ⟨s2, r2, ok2, x, hx, hxe⟩ := h2 M N s1 dbg hN k1' k2' rfl hr (Ex.gentle_resolved asym hj k1 k2)
  rw [ok] at ok2
  obtain ⟨rfl, rfl⟩ := Prod.mk.inj (Except.ok.inj ok2)
  refine ⟨s', r, ok, ?_, x, hx, hxe.trans m2⟩
  obtain ⟨⟨x1, a1, b1⟩, ⟨x2, a2, b2⟩, ⟨x3, a3, b3⟩, ⟨x4, a4, b4⟩, ⟨x5, a5, b5⟩⟩ := a
  exact ⟨⟨x1, a1, b1.trans m1⟩, ⟨x2, a2, b2.trans m1⟩, ⟨x3, a3, b3.trans m1⟩, ⟨x4, a4, b4.trans m1⟩, ⟨x5, a5, b5.trans m1⟩⟩

end Booz
