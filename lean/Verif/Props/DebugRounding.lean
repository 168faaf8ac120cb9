import Mathlib.Analysis.Real.Pi.Bounds
import Verif.Spec.RoundingDebug
import Verif.Lemmas.ChkReal
import Verif.Props.RunRounding

/-!
# C72: the assertions of the debug build hold in floating-point arithmetic
-/

namespace Booz
open Spec

section
variable {α : Type} [Arith α] {fin : α → Prop} {val : α → ℝ} {u : ℝ} (R : Relative α fin val u)
include R

theorem relative_twopi : fin (twopi : α) ∧ |val (twopi : α) - 2 * val (Arith.pi : α)| ≤ 8 * u ∧
    3 ≤ val (Arith.pi : α) ∧ val (Arith.pi : α) ≤ 4 := by
  obtain ⟨p1, p2⟩ := R.pi
  obtain ⟨t1, t2⟩ := R.ofInt 2 (by decide)
  have h3 := Real.pi_gt_three
  have h4 := Real.pi_lt_d2
  rw [abs_le] at p2
  have a1 : 3 ≤ val (Arith.pi : α) := by
    have := Real.pi_gt_d2
    linarith
  have a2 : val (Arith.pi : α) ≤ 4 := by linarith
  have t2' : val (ofInt 2 : α) = 2 := by rw [t2]; norm_num
  have e : |val (ofInt 2 : α) * val (Arith.pi : α)| = 2 * val (Arith.pi : α) := by
    rw [t2', abs_of_pos (by linarith)]
  obtain ⟨m1, m2⟩ := R.mul _ _ t1 p1 (Or.inr ⟨by rw [e]; norm_num; linarith, by rw [e]; norm_num; linarith⟩)
  refine ⟨m1, ?_, a1, a2⟩
  rw [e, t2'] at m2
  have := R.u_nonneg
  refine m2.trans ?_
  nlinarith

/-- A node of a grid with `2 a f` intervals, a half period away from the origin. -/
theorem relative_node {a f : ℤ} (ha : 1 ≤ a) (hf : 1 ≤ f) (hN : f * (2 * a) < 2 ^ 31) :
    fin (ofInt a * (twopi / ofInt (f * (2 * a))) : α) ∧
      |val (ofInt a * (twopi / ofInt (f * (2 * a))) : α) - val (Arith.pi : α) / f| ≤ 15 * u := by
  obtain ⟨t1, t2, p1, p2⟩ := relative_twopi R
  have hu := R.u_nonneg
  have hu' : u ≤ 1 / 1000 := R.u_le.trans (by norm_num)
  have ha' : a < 2 ^ 31 := by nlinarith
  obtain ⟨i1, i2⟩ := R.ofInt a (by rw [abs_of_pos (by omega)]; exact ha')
  obtain ⟨n1, n2⟩ := R.ofInt (f * (2 * a)) (by rw [abs_of_pos (by positivity)]; exact hN)
  have ra : (1 : ℝ) ≤ a := by exact_mod_cast ha
  have rf : (1 : ℝ) ≤ f := by exact_mod_cast hf
  have rN : ((f * (2 * a) : ℤ) : ℝ) < 2 ^ 31 := by exact_mod_cast hN
  have eN : ((f * (2 * a) : ℤ) : ℝ) = f * (2 * a) := by push_cast; ring
  rw [eN] at rN n2
  set P := val (Arith.pi : α)
  set T := val (twopi : α)
  rw [abs_le] at t2
  have T1 : 5 ≤ T := by linarith
  have T2 : T ≤ 9 := by linarith
  have hpos : (0 : ℝ) < f * (2 * a) := by positivity
  have q1 : T / (f * (2 * a)) ≤ 9 / 2 := by
    rw [div_le_iff₀ hpos]
    nlinarith
  have q0 : 1 / 2 ^ 40 ≤ T / (f * (2 * a)) := by
    rw [div_le_div_iff₀ (by positivity) hpos]
    nlinarith
  have qa : |T / (f * (2 * a))| = T / (f * (2 * a)) := abs_of_pos (by positivity)
  obtain ⟨d1, d2⟩ := R.div _ _ t1 n1 (by rw [n2]; positivity)
    (by rw [n2, qa]; exact ⟨le_trans (by norm_num) q0, q1.trans (by norm_num)⟩)
  rw [n2, qa] at d2
  set D := val (twopi / ofInt (f * (2 * a)) : α)
  have aq : (a : ℝ) * (T / (f * (2 * a))) = T / (2 * f) := by field_simp
  have aq1 : T / (2 * f) ≤ 9 / 2 := by
    rw [div_le_iff₀ (by positivity)]
    nlinarith
  have aq0 : 0 < T / (2 * f) := by positivity
  have b : |a * D - T / (2 * f)| ≤ u * (T / (2 * f)) := by
    rw [← aq, ← mul_sub, abs_mul, abs_of_pos (by linarith : (0 : ℝ) < a)]
    nlinarith
  have b' := abs_le.1 b
  have g1 : a * D ≤ 5 := by nlinarith
  have rf2 : (f : ℝ) < 2 ^ 31 := by nlinarith
  have q2 : 1 / 2 ^ 40 ≤ T / (2 * f) := by
    rw [div_le_div_iff₀ (by positivity) (by positivity)]
    nlinarith
  have g0 : 1 / 2 ^ 41 ≤ a * D := by
    have : T / (2 * f) * (1 / 2) ≤ a * D := by nlinarith
    linarith [show (1 : ℝ) / 2 ^ 41 = 1 / 2 ^ 40 * (1 / 2) by norm_num]
  have ga : |(a : ℝ) * D| = a * D := abs_of_pos (lt_of_lt_of_le (by norm_num) g0)
  obtain ⟨m1, m2⟩ := R.mul _ _ i1 d1 (Or.inr (by
    rw [i2]
    exact ⟨by rw [ga]; exact le_trans (by norm_num) g0, by rw [ga]; exact g1.trans (by norm_num)⟩))
  refine ⟨m1, ?_⟩
  rw [i2] at m2
  rw [ga] at m2
  have e1 : |T / (2 * f) - P / f| ≤ 4 * u := by
    have : T / (2 * f) - P / f = (T - 2 * P) / (2 * f) := by field_simp
    rw [this, abs_div, abs_of_pos (by positivity : (0 : ℝ) < 2 * f), div_le_iff₀ (by positivity)]
    have : |T - 2 * P| ≤ 8 * u := abs_le.2 ⟨by linarith, by linarith⟩
    nlinarith
  have := abs_sub_le (val (ofInt a * (twopi / ofInt (f * (2 * a))) : α)) (a * D) (P / f)
  have h2 := abs_sub_le (a * D) (T / (2 * f)) (P / f)
  nlinarith

theorem relative_near {a b : α} (ha : fin a) (hb : fin b) (h : |val a - val b| ≤ 20 * u) :
    Arith.absTiny (a - b) = true := by
  have hu := R.u_nonneg
  have hu' := R.u_le
  obtain ⟨s1, s2⟩ := R.sub a b ha hb (h.trans (by linarith [show (20 : ℝ) * (1 / 2 ^ 52) ≤ 2 ^ 64 by norm_num]))
  refine R.absTiny _ s1 ?_
  have h1 : |val (a - b)| ≤ |val a - val b| + u * |val a - val b| := by
    have := abs_sub_abs_le_abs_sub (val (a - b)) (val a - val b)
    linarith
  have h2 : u * |val a - val b| ≤ 1 * |val a - val b| :=
    mul_le_mul_of_nonneg_right (hu'.trans (by norm_num)) (abs_nonneg _)
  have h3 : (40 : ℝ) * (1 / 2 ^ 52) ≤ 9 / 10 ^ 14 := by norm_num
  linarith

theorem chkAsserts_relative {d : Dims} (hp : 1 ≤ d.nfp) (hM : d.nt < 2147483648)
    (hz : d.nfp * d.nz < 2147483648) : ChkAsserts d α := by
  have hu := R.u_nonneg
  obtain ⟨z1, z2⟩ := R.ofInt 0 (by decide)
  obtain ⟨t1, t2, p1, p2⟩ := relative_twopi R
  have z2' : val (ofInt 0 : α) = 0 := by rw [z2]; simp
  have nzp := nz_pos d
  have zero : ∀ {x : α}, fin x → fin (ofInt ((0 : ℕ) : ℤ) * x : α) ∧ val (ofInt ((0 : ℕ) : ℤ) * x : α) = 0 := by
    intro x hx
    have := R.mul (ofInt 0) x z1 hx (Or.inl (by rw [z2', zero_mul]))
    refine ⟨this.1, ?_⟩
    have h := this.2
    rw [z2', zero_mul, abs_zero, mul_zero, sub_zero] at h
    exact abs_nonpos_iff.1 h
  have quo : ∀ n : ℤ, 1 ≤ n → n < 2 ^ 31 → fin (twopi / ofInt n : α) := by
    intro n h1 h2
    obtain ⟨n1, n2⟩ := R.ofInt n (by rw [abs_of_pos (by omega)]; exact h2)
    have r1 : (1 : ℝ) ≤ n := by exact_mod_cast h1
    have r2 : (n : ℝ) < 2 ^ 31 := by exact_mod_cast h2
    have hu' : u ≤ 1 / 1000 := R.u_le.trans (by norm_num)
    rw [abs_le] at t2
    refine (R.div _ _ t1 n1 (by rw [n2]; positivity) ?_).1
    rw [n2, abs_of_pos (by apply div_pos <;> linarith)]
    constructor
    · rw [div_le_div_iff₀ (by positivity) (by positivity)]
      nlinarith
    · rw [div_le_iff₀ (by positivity)]
      nlinarith
  have hT : fin (dTheta d : α) := quo _ (by unfold Dims.nt; omega) (by exact_mod_cast hM)
  have hZ : fin (dZeta d : α) := quo _ (by
    have : 1 ≤ d.nfp * d.nz := Nat.mul_pos hp nzp
    exact_mod_cast this) (by exact_mod_cast hz)
  have hhalf : d.nz / 2 < d.nz := by omega
  have e : d.nt / 2 = 2 * d.M + 1 := by unfold Dims.nt; omega
  -- the two values of the poloidal angle
  have T0 : ∀ j, j / d.nz = 0 → Arith.absTiny (gridT d j - ofInt 0 : α) = true := by
    intro j hj
    unfold gridT
    rw [hj]
    obtain ⟨a1, a2⟩ := zero hT
    exact relative_near R a1 z1 (by rw [a2, z2', sub_zero, abs_zero]; positivity)
  have T1 : ∀ j, j / d.nz = 2 * d.M + 1 → Arith.absTiny (gridT d j - Arith.pi : α) = true := by
    intro j hj
    unfold gridT dTheta
    rw [hj]
    obtain ⟨a1, a2⟩ := relative_node R (a := ((2 * d.M + 1 : ℕ) : ℤ)) (f := 1) (by omega) le_rfl
      (by unfold Dims.nt at hM; omega)
    have e' : (1 : ℤ) * (2 * ((2 * d.M + 1 : ℕ) : ℤ)) = (d.nt : ℤ) := by unfold Dims.nt; push_cast; ring
    rw [e'] at a1 a2
    exact relative_near R a1 R.pi.1 (by rw [Int.cast_one, div_one] at a2; linarith)
  -- the two values of the toroidal angle
  have Z0 : ∀ j, j % d.nz = 0 → Arith.absTiny (gridZ d j - ofInt 0 : α) = true := by
    intro j hj
    unfold gridZ
    rw [hj]
    obtain ⟨a1, a2⟩ := zero hZ
    exact relative_near R a1 z1 (by rw [a2, z2', sub_zero, abs_zero]; positivity)
  have Z1 : ∀ j, j % d.nz = d.nz / 2 → Arith.absTiny
      (gridZ d j - (if (d.nz : Int) > 1 then Arith.pi / ofInt (d.nfp : Int) else ofInt 0) : α) = true := by
    intro j hj
    by_cases h0 : d.N = 0
    · have h1 : d.nz = 1 := by simp [Dims.nz, h0]
      rw [if_neg (by omega)]
      exact Z0 j (by omega)
    · have e1 : d.nz = 2 * (2 * d.N + 1) := by simp [Dims.nz, h0]
      rw [if_pos (by omega)]
      unfold gridZ dZeta
      rw [hj, show d.nz / 2 = 2 * d.N + 1 by omega]
      obtain ⟨a1, a2⟩ := relative_node R (a := ((2 * d.N + 1 : ℕ) : ℤ)) (f := d.nfp) (by omega) (by omega)
        (by rw [e1] at hz; exact_mod_cast hz)
      have e' : (d.nfp : ℤ) * (2 * ((2 * d.N + 1 : ℕ) : ℤ)) = (d.nfp * d.nz : ℤ) := by rw [e1]; push_cast; ring
      rw [e'] at a1 a2
      have hf : (d.nfp : ℤ) < 2 ^ 31 := by
        have : d.nfp * 1 ≤ d.nfp * d.nz := Nat.mul_le_mul_left _ nzp
        omega
      obtain ⟨n1, n2⟩ := R.ofInt (d.nfp : ℤ) (by rw [abs_of_pos (by omega)]; exact hf)
      have r1 : (1 : ℝ) ≤ ((d.nfp : ℤ) : ℝ) := by exact_mod_cast hp
      have r2 : ((d.nfp : ℤ) : ℝ) < 2 ^ 31 := by exact_mod_cast hf
      have q0 : 0 < val (Arith.pi : α) / ((d.nfp : ℤ) : ℝ) := by apply div_pos <;> linarith
      have q1 : val (Arith.pi : α) / ((d.nfp : ℤ) : ℝ) ≤ 4 := by
        rw [div_le_iff₀ (by linarith)]
        nlinarith
      obtain ⟨b1, b2⟩ := R.div _ _ R.pi.1 n1 (by rw [n2]; linarith) (by
        rw [n2, abs_of_pos q0]
        refine ⟨?_, q1.trans (by norm_num)⟩
        rw [div_le_div_iff₀ (by positivity) (by linarith)]
        nlinarith)
      rw [n2, abs_of_pos q0] at b2
      refine relative_near R a1 b1 ?_
      have := abs_sub_le (val (ofInt ((2 * d.N + 1 : ℕ) : ℤ) * (twopi / ofInt (d.nfp * d.nz : ℤ)) : α))
        (val (Arith.pi : α) / ((d.nfp : ℤ) : ℝ)) (val (Arith.pi / ofInt (d.nfp : ℤ) : α))
      rw [abs_sub_comm] at b2
      nlinarith
  have i1 : d.nt / 2 * d.nz / d.nz = 2 * d.M + 1 := by rw [e]; exact Nat.mul_div_cancel _ nzp
  have i2 : (d.nt / 2 * d.nz + d.nz / 2) / d.nz = 2 * d.M + 1 := by rw [e]; exact Mat.idx_div hhalf
  exact ⟨⟨T0 _ (Nat.zero_div _), Z0 _ (Nat.zero_mod _)⟩, ⟨T1 _ i1, Z0 _ (Nat.mul_mod_left _ _)⟩,
    ⟨T0 _ (Nat.div_eq_of_lt hhalf), Z1 _ (Nat.mod_eq_of_lt hhalf)⟩, T1 _ i2, Z1 _ (Mat.idx_mod hhalf)⟩

/-- **C72.**  In every arithmetic with a relative error of at most `2^-52` the assertions of the debug build hold:
whatever the (well-formed) inputs, resolution and verbosity, `run()` returns, with the same result as in the
release build. -/
theorem C72_debug {s : St α} {d : Dims} (h : RunReady s.inp d) (h0 : OriginFirst s.inp) :
    ∃ r, run false s = .ok r ∧ run true s = .ok r :=
  ⟨_, run_ok h (by simp) (by simp), run_ok h (fun _ => h0) fun _ _ => chkAsserts_relative R h.nfp_pos h.fit_theta h.fit_nfp⟩

end

/-- **C69, debug build.**  On machines that moreover have a small relative error, the debug build returns finite
outputs within `C u` of the exact ones as well. -/
theorem C72_rounding_debug {s₀ : St ℝ} {d : Dims} (h : RunReady s₀.inp d) (hp : FieldPeriodic s₀.inp d.nfp)
    (ho : OriginOnce s₀.inp) (hreg : ∀ b < d.nsb, (surface s₀.inp d.asym (selected s₀.inp b)).Regular)
    {K : ℝ} (hK : 0 ≤ K) :
    ∃ C u₀, 0 < u₀ ∧ ∀ (α : Type) [Arith α] (fin : α → Prop) (val : α → ℝ) (u v : ℝ), Precision α fin val u → u ≤ u₀ →
      Relative α fin val v → ∀ s : St α, RunReady s.inp d → InputsNear fin val d (K * u) s.inp s₀.inp →
        ∃ s' r s₀' r₀, run true s = .ok (s', r) ∧ run true s₀ = .ok (s₀', r₀) ∧
          OutputsNear fin val d (C * u) s'.out s₀'.out := by
  obtain ⟨C, u₀, p, H⟩ := C69_rounding h hp ho hreg hK
  refine ⟨C, u₀, p, fun α _ fin val u v hu hle R s hs hn => ?_⟩
  obtain ⟨s', r, s₀', r₀, h1, h2, h3⟩ := H α fin val u hu hle s hs hn
  have first := originOnce_first h ho
  have first' : OriginFirst s.inp := by
    unfold OriginFirst at first ⊢
    rwa [hn.xm_nyq, hn.xn_nyq]
  obtain ⟨q, q1, q2⟩ := C72_debug R hs first'
  refine ⟨s', r, s₀', r₀, by rw [q2, ← q1, h1], ?_, h3⟩
  rw [run_real h fun _ => first, ← run_real (dbg := false) h (by simp), h2]

/-! Non-vacuity: binary floating point with at least 53 bits. -/

theorem Ex.rnd_int (p : ℕ) (n : ℤ) (h : |n| < 2 ^ p) : Ex.rnd p n = n := by
  unfold Ex.rnd
  by_cases h0 : n = 0
  · subst h0
    simp
  have hn : (0 : ℝ) < |(n : ℝ)| := abs_pos.2 (by exact_mod_cast h0)
  have h1 : Int.log 2 |(n : ℝ)| < p := by
    refine (Int.lt_zpow_iff_log_lt (by norm_num) hn).1 ?_
    have : ((|n| : ℤ) : ℝ) < 2 ^ p := by exact_mod_cast h
    push_cast at this
    rw [zpow_natCast]
    exact_mod_cast this
  set e := Int.log 2 |(n : ℝ)|
  obtain ⟨k, hk⟩ : ∃ k : ℕ, e - p = -(k : ℤ) := ⟨(p - e).toNat, by omega⟩
  rw [hk, zpow_neg, div_inv_eq_mul, zpow_natCast]
  have : (n : ℝ) * 2 ^ k = ((n * 2 ^ k : ℤ) : ℝ) := by push_cast; ring
  rw [this, round_intCast]
  push_cast
  field_simp

theorem Ex.flp_relative (p : ℕ) (hp : 52 ≤ p) : Relative (Ex.Flp p) (fun _ => True) Ex.Flp.val (1 / 2 ^ p) where
  u_nonneg := by positivity
  u_le := by
    have : (2 : ℝ) ^ 52 ≤ 2 ^ p := pow_le_pow_right₀ (by norm_num) hp
    exact one_div_le_one_div_of_le (by positivity) this
  ofInt n hn := ⟨trivial, Ex.rnd_int p n (hn.trans_le (pow_le_pow_right₀ (by norm_num) (by omega)))⟩
  pi := ⟨trivial, by
    refine (Ex.rnd_error p Real.pi).trans ?_
    rw [abs_of_pos Real.pi_pos]
    have h1 := Real.pi_le_four
    have h2 : (1 : ℝ) / 2 ^ p ≤ 1 / 2 ^ 52 :=
      one_div_le_one_div_of_le (by positivity) (pow_le_pow_right₀ (by norm_num) hp)
    have h3 : (0 : ℝ) ≤ 1 / 2 ^ p := by positivity
    nlinarith⟩
  mul a b _ _ _ := ⟨trivial, Ex.rnd_error p _⟩
  div a b _ _ _ _ := ⟨trivial, Ex.rnd_error p _⟩
  sub a b _ _ _ := ⟨trivial, Ex.rnd_error p _⟩
  absTiny a _ h := by
    show decide (|a.val| < 1 / 10 ^ 13) = true
    rw [decide_eq_true_eq]
    exact h.trans_lt (by norm_num)

/-- The example, verbose, in 53-bit floating point: the debug build returns. -/
example (asym : Bool) : ∃ r,
    run true ({ Ex.st asym with inp := { Ex.inputs asym with verbose := 2 } } : St (Ex.Flp 52)) = .ok r := by
  obtain ⟨r, _, h⟩ := C72_debug (Ex.flp_relative 52 le_rfl) (d := Ex.dims asym)
    (s := { Ex.st asym with inp := { Ex.inputs asym with verbose := 2 } }) { Ex.ready (α := Ex.Flp 52) asym with } ⟨rfl, rfl⟩
  exact ⟨r, h⟩

/-- The debug build of the example in floating point tends to the exact one. -/
example (asym : Bool) (flux : Flux ℝ) (grid : Grid ℝ) (out : Outputs ℝ) :
    ∃ C p₀, ∀ p ≥ p₀, ∀ (fl : Flux (Ex.Flp p)) (g : Grid (Ex.Flp p)) (o : Outputs (Ex.Flp p)),
      ∃ s' r s₀' r₀,
        run true (⟨Ex.mapI (fun x => (⟨Ex.rnd p x⟩ : Ex.Flp p)) (Ex.inputs asym), fl, g, o⟩ : St (Ex.Flp p)) =
          .ok (s', r) ∧
        run true (⟨Ex.inputs asym, flux, grid, out⟩ : St ℝ) = .ok (s₀', r₀) ∧
        OutputsNear (fun _ => True) Ex.Flp.val (Ex.dims asym) (C * (4 / 2 ^ p)) s'.out s₀'.out := by
  obtain ⟨K, hK, near⟩ := Ex.mapI_near (Ex.ready (α := ℝ) asym)
  obtain ⟨C, u₀, h0, H⟩ := C72_rounding_debug (s₀ := ⟨Ex.inputs asym, flux, grid, out⟩) (d := Ex.dims asym)
    (Ex.ready (α := ℝ) asym) (Ex.fieldPeriodic (α := ℝ) asym) (Ex.originOnce (α := ℝ) asym)
    (fun b hb => Ex.regular asym (Ex.selected_lt asym b hb)) hK
  obtain ⟨p₀, hp₀⟩ := exists_pow_lt_of_lt_one (show 0 < u₀ / 4 by linarith) (show (1 : ℝ) / 2 < 1 by norm_num)
  refine ⟨C, max 52 p₀, fun p hp fl g o => ?_⟩
  refine H (Ex.Flp p) (fun _ => True) Ex.Flp.val (4 / 2 ^ p) (1 / 2 ^ p) (Ex.flp_precision p) ?_
    (Ex.flp_relative p (le_trans (le_max_left _ _) hp)) _ (Ex.mapI_ready _ (Ex.ready (α := ℝ) asym)) (near p)
  have h1 : ((1 : ℝ) / 2) ^ p ≤ (1 / 2) ^ p₀ :=
    pow_le_pow_of_le_one (by norm_num) (by norm_num) (le_trans (le_max_right _ _) hp)
  have h2 : (4 : ℝ) / 2 ^ p = 4 * (1 / 2) ^ p := by rw [div_pow, one_pow]; ring
  rw [h2]
  linarith

end Booz
