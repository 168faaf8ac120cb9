import Mathlib.Analysis.SpecialFunctions.Complex.Circle
import Mathlib.Tactic.Linarith
import Mathlib.Tactic.Positivity
import Verif.Spec.Rounding
import Verif.Lemmas.InitTrig

/-!
# Rounding errors of the angle-addition recurrence
-/

namespace Booz
variable {α : Type} [Arith α]
open Spec

/-- Error of `x ± y` computed from inexact `x`, `y`. -/
theorem round_sum {u η X Y x y z : ℝ} (hu : 0 ≤ u) (hη : 0 ≤ η)
    (hx : |x - X| ≤ u * |X| + η) (hy : |y - Y| ≤ u * |Y| + η) (hz : |z - (x + y)| ≤ u * |x + y|) :
    |z - (X + Y)| ≤ (2 * u + u ^ 2) * (|X| + |Y|) + 2 * η * (1 + u) := by
  have h1 : |x| ≤ |X| + (u * |X| + η) := by
    calc |x| = |X + (x - X)| := by ring_nf
      _ ≤ |X| + |x - X| := abs_add_le _ _
      _ ≤ _ := by linarith
  have h2 : |y| ≤ |Y| + (u * |Y| + η) := by
    calc |y| = |Y + (y - Y)| := by ring_nf
      _ ≤ |Y| + |y - Y| := abs_add_le _ _
      _ ≤ _ := by linarith
  have h3 : |x + y| ≤ |x| + |y| := abs_add_le _ _
  have h4 : u * |x + y| ≤ u * (|X| + (u * |X| + η) + (|Y| + (u * |Y| + η))) :=
    mul_le_mul_of_nonneg_left (by linarith) hu
  calc |z - (X + Y)| = |(z - (x + y)) + ((x - X) + (y - Y))| := by ring_nf
    _ ≤ |z - (x + y)| + |(x - X) + (y - Y)| := abs_add_le _ _
    _ ≤ |z - (x + y)| + (|x - X| + |y - Y|) := by linarith [abs_add_le (x - X) (y - Y)]
    _ ≤ u * (|X| + (u * |X| + η) + (|Y| + (u * |Y| + η))) + ((u * |X| + η) + (u * |Y| + η)) := by linarith
    _ = (2 * u + u ^ 2) * (|X| + |Y|) + 2 * η * (1 + u) := by ring

theorem cross_le (a b c d : ℝ) : |a * c| + |b * d| ≤ ‖(⟨a, b⟩ : ℂ)‖ * ‖(⟨c, d⟩ : ℂ)‖ := by
  apply abs_le_of_sq_le_sq' _ (by positivity) |>.2
  rw [mul_pow, Complex.sq_norm, Complex.sq_norm, Complex.normSq_apply, Complex.normSq_apply, abs_mul, abs_mul]
  simp only
  have e1 := abs_mul_abs_self a
  have e2 := abs_mul_abs_self b
  have e3 := abs_mul_abs_self c
  have e4 := abs_mul_abs_self d
  rw [← e1, ← e2, ← e3, ← e4]
  nlinarith [sq_nonneg (|a| * |d| - |b| * |c|)]

/-- One step of the recurrence, in complex notation. -/
theorem step_norm {E u η : ℝ} {zh z1h zm z w : ℂ} (hu : 0 ≤ u) (hu8 : u ≤ 1 / 8) (hη : 0 ≤ η) (hz : ‖z‖ = 1)
    (hE : ‖zh - zm‖ ≤ E) (hm : ‖zm‖ = 1) (h1 : ‖z1h - z‖ ≤ 2 * u)
    (hw : ‖w - zh * z1h‖ ≤ 2 * ((2 * u + u ^ 2) * (‖zh‖ * ‖z1h‖) + 2 * η * (1 + u))) :
    ‖w - zm * z‖ ≤ (1 + E) * (1 + 8 * u) + 5 * η - 1 := by
  have hE0 : 0 ≤ E := (norm_nonneg _).trans hE
  have a1 : ‖zh‖ ≤ 1 + E := by
    calc ‖zh‖ = ‖zm + (zh - zm)‖ := by ring_nf
      _ ≤ ‖zm‖ + ‖zh - zm‖ := norm_add_le _ _
      _ ≤ 1 + E := by linarith
  have a2 : ‖z1h‖ ≤ 1 + 2 * u := by
    calc ‖z1h‖ = ‖z + (z1h - z)‖ := by ring_nf
      _ ≤ ‖z‖ + ‖z1h - z‖ := norm_add_le _ _
      _ ≤ 1 + 2 * u := by linarith
  have a3 : ‖zh‖ * ‖z1h‖ ≤ (1 + E) * (1 + 2 * u) := by gcongr
  have a4 : ‖zh * (z1h - z)‖ ≤ (1 + E) * (2 * u) := by
    rw [norm_mul]
    gcongr
  have a5 : ‖(zh - zm) * z‖ ≤ E := by
    rw [norm_mul, hz, mul_one]
    exact hE
  have a6 : (2 * u + u ^ 2) * (‖zh‖ * ‖z1h‖) ≤ (2 * u + u ^ 2) * ((1 + E) * (1 + 2 * u)) := by gcongr
  have a7 : ‖w - zm * z‖ ≤ ‖w - zh * z1h‖ + (‖zh * (z1h - z)‖ + ‖(zh - zm) * z‖) := by
    calc ‖w - zm * z‖ = ‖(w - zh * z1h) + (zh * (z1h - z) + (zh - zm) * z)‖ := by ring_nf
      _ ≤ ‖w - zh * z1h‖ + ‖zh * (z1h - z) + (zh - zm) * z‖ := norm_add_le _ _
      _ ≤ _ := by linarith [norm_add_le (zh * (z1h - z)) ((zh - zm) * z)]
  have u2 : u ^ 2 ≤ u / 8 := by nlinarith
  have u3 : u ^ 3 ≤ u / 64 := by nlinarith
  have key : 2 * u + 2 * (2 * u + u ^ 2) * (1 + 2 * u) ≤ 8 * u := by nlinarith
  have key' : (1 + E) * (2 * u + 2 * (2 * u + u ^ 2) * (1 + 2 * u)) ≤ (1 + E) * (8 * u) := by gcongr
  have eta : 2 * (2 * η * (1 + u)) ≤ 5 * η := by nlinarith
  nlinarith

/-- The bound on the error of column `m`. -/
noncomputable def trigBound (u η : ℝ) (m : ℕ) : ℝ := (1 + 8 * u) ^ m * (1 + 5 * (m * η)) - 1

theorem trigBound_mono {u η : ℝ} (hu : 0 ≤ u) (hη : 0 ≤ η) {m k : ℕ} (h : m ≤ k) :
    trigBound u η m ≤ trigBound u η k := by
  unfold trigBound
  have h1 : (1 + 8 * u) ^ m ≤ (1 + 8 * u) ^ k := pow_le_pow_right₀ (by linarith) h
  have h2 : (1 + 5 * ((m : ℝ) * η)) ≤ 1 + 5 * (k * η) := by
    have : (m : ℝ) ≤ k := by exact_mod_cast h
    nlinarith
  have h3 : 0 ≤ (m : ℝ) * η := by positivity
  have : (1 + 8 * u) ^ m * (1 + 5 * (m * η)) ≤ (1 + 8 * u) ^ k * (1 + 5 * (k * η)) := by
    gcongr
  linarith

theorem trigBound_step {u η : ℝ} (hu : 0 ≤ u) (hη : 0 ≤ η) (m : ℕ) :
    (1 + trigBound u η m) * (1 + 8 * u) + 5 * η - 1 ≤ trigBound u η (m + 1) := by
  unfold trigBound
  have h1 : 1 ≤ (1 + 8 * u) ^ (m + 1) := one_le_pow₀ (by linarith)
  push_cast
  rw [show (1 + ((1 + 8 * u) ^ m * (1 + 5 * (m * η)) - 1)) * (1 + 8 * u) + 5 * η - 1 =
    (1 + 8 * u) ^ (m + 1) * (1 + 5 * (m * η)) + 5 * η - 1 by ring]
  nlinarith

/-- Complex number of a computed pair. -/
def cval (val : α → ℝ) (p : α × α) : ℂ := ⟨val p.1, val p.2⟩

theorem exp_cs (t : ℝ) : Complex.exp (t * Complex.I) = ⟨Real.cos t, Real.sin t⟩ := by
  apply Complex.ext
  · rw [Complex.exp_ofReal_mul_I_re]
  · rw [Complex.exp_ofReal_mul_I_im]

theorem trigCol_error {fin : α → Prop} {val : α → ℝ} {u η : ℝ} (R : Rounded α fin val u η) {c1 s1 s0 : α}
    {φ : ℝ} (hs0 : fin s0 ∧ val s0 = 0) (hc1 : fin c1 ∧ |val c1 - Real.cos φ| ≤ u)
    (hs1 : fin s1 ∧ |val s1 - Real.sin φ| ≤ u) (m : ℕ) (hb : trigBound u η m ≤ 1) :
    fin (trigCol c1 s1 s0 m).1 ∧ fin (trigCol c1 s1 s0 m).2 ∧
    ‖cval val (trigCol c1 s1 s0 m) - Complex.exp ((m * φ : ℝ) * Complex.I)‖ ≤ trigBound u η m := by
  have hu := R.u_nonneg
  have hη := R.eta_nonneg
  have h1 : ‖cval val (c1, s1) - Complex.exp (φ * Complex.I)‖ ≤ 2 * u := by
    refine (Complex.norm_le_abs_re_add_abs_im _).trans ?_
    rw [exp_cs]
    simp only [cval, Complex.sub_re, Complex.sub_im]
    linarith [hc1.2, hs1.2]
  induction m with
  | zero =>
    refine ⟨R.one.1, hs0.1, ?_⟩
    have e : cval val (trigCol c1 s1 s0 0) = 1 := by
      apply Complex.ext
      · exact R.one.2
      · exact hs0.2
    rw [e]
    simp [trigBound]
  | succ k ih =>
    rcases k with _ | k
    · refine ⟨hc1.1, hs1.1, ?_⟩
      have e : (((0 + 1 : ℕ) : ℝ) * φ) = φ := by norm_num
      rw [e]
      refine h1.trans ?_
      unfold trigBound
      push_cast
      nlinarith [mul_nonneg hu hη]
    · have hb' : trigBound u η (k + 1) ≤ 1 := (trigBound_mono hu hη (by omega)).trans hb
      obtain ⟨f1, f2, hE⟩ := ih hb'
      generalize hp : trigCol c1 s1 s0 (k + 1) = p at f1 f2 hE
      have hstep : trigCol c1 s1 s0 (k + 2) = (p.1 * c1 - p.2 * s1, p.2 * c1 + p.1 * s1) := by
        rw [← hp]; rfl
      rw [hstep]
      have nz : ∀ t : ℝ, ‖Complex.exp (t * Complex.I)‖ = 1 := Complex.norm_exp_ofReal_mul_I
      have nA : ‖cval val p‖ ≤ 2 := by
        calc ‖cval val p‖ = ‖Complex.exp (((k + 1 : ℕ) * φ : ℝ) * Complex.I) +
              (cval val p - Complex.exp (((k + 1 : ℕ) * φ : ℝ) * Complex.I))‖ := by ring_nf
          _ ≤ 1 + trigBound u η (k + 1) := (norm_add_le _ _).trans (by rw [nz]; linarith)
          _ ≤ 2 := by linarith
      have n1 : ‖cval val (c1, s1)‖ ≤ 2 := by
        calc ‖cval val (c1, s1)‖ = ‖Complex.exp (φ * Complex.I) +
              (cval val (c1, s1) - Complex.exp (φ * Complex.I))‖ := by ring_nf
          _ ≤ 1 + 2 * u := (norm_add_le _ _).trans (by rw [nz]; linarith)
          _ ≤ 2 := by linarith [R.u_le]
      have b1 : |val p.1| ≤ 2 := (Complex.abs_re_le_norm (cval val p)).trans nA
      have b2 : |val p.2| ≤ 2 := (Complex.abs_im_le_norm (cval val p)).trans nA
      have b3 : |val c1| ≤ 2 := (Complex.abs_re_le_norm (cval val (c1, s1))).trans n1
      have b4 : |val s1| ≤ 2 := (Complex.abs_im_le_norm (cval val (c1, s1))).trans n1
      have big : ∀ {a b x : ℝ}, |a| ≤ 2 → |b| ≤ 2 → |x - a * b| ≤ u * |a * b| + η → |x| ≤ 8 := by
        intro a b x ha hb hx
        have h4 : |a * b| ≤ 4 := by
          rw [abs_mul]
          nlinarith [abs_nonneg a, abs_nonneg b]
        have h5 : |x| ≤ |a * b| + |x - a * b| := by
          calc |x| = |a * b + (x - a * b)| := by ring_nf
            _ ≤ _ := abs_add_le _ _
        have h6 : u * |a * b| ≤ 1 / 8 * 4 := mul_le_mul R.u_le h4 (abs_nonneg _) (by norm_num)
        linarith [R.eta_le]
      obtain ⟨g1, m1⟩ := R.mul p.1 c1 f1 hc1.1 b1 b3
      obtain ⟨g2, m2⟩ := R.mul p.2 s1 f2 hs1.1 b2 b4
      obtain ⟨g3, m3⟩ := R.mul p.2 c1 f2 hc1.1 b2 b3
      obtain ⟨g4, m4⟩ := R.mul p.1 s1 f1 hs1.1 b1 b4
      obtain ⟨k1, e1⟩ := R.sub _ _ g1 g2 (big b1 b3 m1) (big b2 b4 m2)
      obtain ⟨k2, e2⟩ := R.add _ _ g3 g4 (big b2 b3 m3) (big b1 b4 m4)
      refine ⟨k1, k2, ?_⟩
      have r1 := round_sum (X := val p.1 * val c1) (Y := -(val p.2 * val s1)) (x := val (p.1 * c1))
        (y := -val (p.2 * s1)) (z := val (p.1 * c1 - p.2 * s1)) hu hη m1
        (by rw [abs_neg]; rw [show -val (p.2 * s1) - -(val p.2 * val s1) =
              -(val (p.2 * s1) - val p.2 * val s1) by ring, abs_neg]; exact m2)
        (by rw [← sub_eq_add_neg]; exact e1)
      have r2 := round_sum (X := val p.2 * val c1) (Y := val p.1 * val s1) hu hη m3 m4 e2
      rw [abs_neg] at r1
      have c1' := cross_le (val p.1) (val p.2) (val c1) (val s1)
      have c2' : |val p.2 * val c1| + |val p.1 * val s1| ≤
          ‖(⟨val p.1, val p.2⟩ : ℂ)‖ * ‖(⟨val c1, val s1⟩ : ℂ)‖ := by
        have := cross_le (val p.1) (val p.2) (val s1) (val c1)
        have en : ‖(⟨val s1, val c1⟩ : ℂ)‖ = ‖(⟨val c1, val s1⟩ : ℂ)‖ := by
          have : ‖(⟨val s1, val c1⟩ : ℂ)‖ ^ 2 = ‖(⟨val c1, val s1⟩ : ℂ)‖ ^ 2 := by
            rw [Complex.sq_norm, Complex.sq_norm, Complex.normSq_mk, Complex.normSq_mk]
            ring
          exact (pow_left_inj₀ (norm_nonneg _) (norm_nonneg _) (by norm_num)).1 this
        rw [en] at this
        linarith
      have hk : 0 ≤ 2 * u + u ^ 2 := by positivity
      have hw : ‖cval val (p.1 * c1 - p.2 * s1, p.2 * c1 + p.1 * s1) - cval val p * cval val (c1, s1)‖ ≤
          2 * ((2 * u + u ^ 2) * (‖cval val p‖ * ‖cval val (c1, s1)‖) + 2 * η * (1 + u)) := by
        refine (Complex.norm_le_abs_re_add_abs_im _).trans ?_
        simp only [cval, Complex.sub_re, Complex.sub_im, Complex.mul_re, Complex.mul_im]
        have q1 := mul_le_mul_of_nonneg_left c1' hk
        have q2 := mul_le_mul_of_nonneg_left c2' hk
        rw [← sub_eq_add_neg] at r1
        rw [add_comm (val p.2 * val c1)] at r2
        linarith
      have fin := step_norm hu R.u_le hη (nz φ) hE (nz _) h1 hw
      have ez : Complex.exp (((k + 1 + 1 : ℕ) * φ : ℝ) * Complex.I) =
          Complex.exp (((k + 1 : ℕ) * φ : ℝ) * Complex.I) * Complex.exp (φ * Complex.I) := by
        rw [← Complex.exp_add]
        congr 1
        push_cast
        ring
      rw [ez]
      exact fin.trans (trigBound_step hu hη (k + 1))

end Booz
