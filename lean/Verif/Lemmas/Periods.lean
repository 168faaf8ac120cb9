import Verif.Lemmas.QuadMore
import Verif.Lemmas.Orthogonal

/-!
# Quadratures over several field periods
-/

open Finset

namespace Booz
open Spec

/-- A sum of cosines and of sines over equidistant angles around the circle. -/
theorem turn_sum {k : ℕ} (hk : 1 ≤ k) {n : ℤ} (hn : ¬ (k : ℤ) ∣ n) (φ : ℝ) :
    ∑ t ∈ range k, Real.cos (φ - n * t * (2 * Real.pi) / k) = 0 ∧
    ∑ t ∈ range k, Real.sin (φ - n * t * (2 * Real.pi) / k) = 0 := by
  have h := root_sum hk (-n)
  rw [if_neg (by rwa [Int.dvd_neg])] at h
  have h2 : ∑ t ∈ range k, Complex.exp (((φ - n * t * (2 * Real.pi) / k : ℝ) : ℂ) * Complex.I) = 0 := by
    rw [← mul_zero (Complex.exp (φ * Complex.I)), ← h, mul_sum]
    refine sum_congr rfl fun t _ => ?_
    rw [← Complex.exp_add]
    congr 1
    push_cast
    ring
  constructor
  · have := congrArg Complex.re h2
    rw [Complex.re_sum] at this
    simpa only [Complex.exp_ofReal_mul_I_re, Complex.zero_re] using this
  · have := congrArg Complex.im h2
    rw [Complex.im_sum] at this
    simpa only [Complex.exp_ofReal_mul_I_im, Complex.zero_im] using this

section
variable {S : Surface} {nfp : ℕ}

theorem PerF.turns {f : ℝ → ℝ → ℝ} (h : PerF nfp f) (t : ℕ) (θ ζ : ℝ) : f θ (ζ + t * (2 * Real.pi / nfp)) = f θ ζ := by
  induction t with
  | zero => simp
  | succ t ih =>
    rw [show ζ + ((t + 1 : ℕ) : ℝ) * (2 * Real.pi / nfp) = (ζ + t * (2 * Real.pi / nfp)) + 2 * Real.pi / nfp by push_cast; ring,
      h.2, ih]

/-- The angle of any mode after `t` field periods. -/
theorem angle_turns (hl : PerF nfp S.lam) (hw : PerF nfp S.w) (m : ℤ) (n : ℝ) (t : ℕ) (θ ζ : ℝ) :
    (m : ℝ) * S.thetaB θ (ζ + t * (2 * Real.pi / nfp)) - n * S.zetaB θ (ζ + t * (2 * Real.pi / nfp)) =
      (m * S.thetaB θ ζ - n * S.zetaB θ ζ) - n * (t * (2 * Real.pi / nfp)) := by
  have hn := nu_per hl hw
  unfold Surface.thetaB Surface.zetaB
  rw [hl.turns, hn.turns]
  ring

/-- The grid sum over `k` field periods, period by period. -/
theorem gridSum_turns {nt nz k f : ℕ} (hz : 1 ≤ nz) (hk : 1 ≤ k) (hf : 1 ≤ f) (F : ℝ → ℝ → ℝ) :
    gridSum nt (k * nz) f F = ∑ a ∈ range nt, ∑ b ∈ range nz, ∑ t ∈ range k,
      F (2 * Real.pi * a / nt) (2 * Real.pi * b / ((k * f : ℕ) * nz) + t * (2 * Real.pi / (k * f : ℕ))) := by
  unfold gridSum
  refine sum_congr rfl fun a _ => ?_
  rw [sum_comm, ← sum_range_div_mod k nz hz fun t b =>
    F (2 * Real.pi * a / nt) (2 * Real.pi * b / ((k * f : ℕ) * nz) + t * (2 * Real.pi / (k * f : ℕ)))]
  refine sum_congr rfl fun j _ => ?_
  congr 1
  have e : (j : ℝ) = nz * (j / nz : ℕ) + (j % nz : ℕ) := by exact_mod_cast (Nat.div_add_mod j nz).symm
  have hz' : (nz : ℝ) ≠ 0 := by positivity
  have hk' : (k : ℝ) ≠ 0 := by positivity
  have hf' : (f : ℝ) ≠ 0 := by positivity
  rw [e]
  push_cast
  field_simp
  ring

/-- **Quadratures over `k` field periods.**  They are those over one field period for modes with the
symmetry of the field, and 0 for the others. -/
theorem quad_turns {nt nz k f : ℕ} (hz : 1 ≤ nz) (hk : 1 ≤ k) (hf : 1 ≤ f) (hl : PerF (k * f) S.lam)
    (hw : PerF (k * f) S.w) {q : ℝ → ℝ → ℝ} (hq : PerF (k * f) q) (m n : ℤ) :
    (S.quadCos nt (k * nz) f q m (n * f) = if (k : ℤ) ∣ n then S.quadCos nt nz (k * f) q m (n * f) else 0) ∧
    (S.quadSin nt (k * nz) f q m (n * f) = if (k : ℤ) ∣ n then S.quadSin nt nz (k * f) q m (n * f) else 0) := by
  have hd := det_per hl hw
  have hz' : (nz : ℝ) ≠ 0 := by positivity
  have hk' : (k : ℝ) ≠ 0 := by positivity
  have hf' : (f : ℝ) ≠ 0 := by positivity
  have sh : ∀ t : ℕ, ((n * f : ℤ) : ℝ) * (t * (2 * Real.pi / (k * f : ℕ))) = n * t * (2 * Real.pi) / k := by
    intro t
    push_cast
    field_simp
  rw [quadCos_eq, quadSin_eq, gridSum_turns hz hk hf, gridSum_turns hz hk hf]
  simp only [intC, intS, hq.turns, hd.turns, angle_turns hl hw, sh]
  by_cases hn : (k : ℤ) ∣ n
  · rw [if_pos hn, if_pos hn, quadCos_eq, quadSin_eq]
    obtain ⟨c, rfl⟩ := hn
    have e : ∀ t : ℕ, ((k * c : ℤ) : ℝ) * t * (2 * Real.pi) / k = (c * t : ℤ) * (2 * Real.pi) := by
      intro t
      push_cast
      field_simp
    simp only [e, Real.cos_sub_int_mul_two_pi, Real.sin_sub_int_mul_two_pi, sum_const, card_range, nsmul_eq_mul, ← mul_sum]
    unfold gridSum intC intS
    push_cast
    constructor <;>
    · field_simp
  · rw [if_neg hn, if_neg hn]
    simp only [← mul_sum, (turn_sum hk hn _).1, (turn_sum hk hn _).2, mul_zero, sum_const_zero, and_self]

end

/-- Every mode of the half plane within the resolution is in the list. -/
theorem mode_listed {M N : ℕ} (hM : 1 ≤ M) {m : ℕ} {n : ℤ} (hm : m < M) (hn : n.natAbs ≤ N) (h0 : m = 0 → 0 ≤ n) :
    ∃ i < numModes M N, modeM N i = m ∧ modeN N i = n := by
  have hpos : 0 ≤ (m : ℤ) * (2 * N + 1) + n := by
    rcases Nat.eq_zero_or_pos m with h | h
    · subst h; simpa using h0 rfl
    · have : (1 : ℤ) * (2 * N + 1) ≤ m * (2 * N + 1) := by
        apply mul_le_mul_of_nonneg_right (by exact_mod_cast h) (by positivity)
      omega
  obtain ⟨i, hi⟩ := Int.eq_ofNat_of_zero_le hpos
  have e : i + N = (2 * N + 1) * m + (n + N).toNat := by
    zify
    rw [Int.toNat_of_nonneg (by omega), ← hi]
    ring
  have hlt : (n + N).toNat < 2 * N + 1 := by omega
  refine ⟨i, ?_, ?_, ?_⟩
  · unfold numModes
    have : (2 * N + 1) * m ≤ (2 * N + 1) * (M - 1) := Nat.mul_le_mul_left _ (by omega)
    omega
  · unfold modeM
    rw [e, Nat.mul_add_div (by omega), Nat.div_eq_of_lt hlt, add_zero]
  · unfold modeN
    rw [e, Nat.mul_add_mod, Nat.mod_eq_of_lt hlt]
    omega

end Booz
