import Verif.Spec.Alias
import Mathlib.Tactic.Push
import Mathlib.Analysis.SpecialFunctions.Complex.Circle
import Mathlib.Algebra.Field.GeomSum
import Mathlib.Tactic.FieldSimp
import Mathlib.Tactic.LinearCombination

/-!
# Discrete orthogonality on the uniform grid
-/

open Finset

namespace Booz
open Spec

/-- Sum of the powers of a root of unity. -/
theorem root_sum {n : ℕ} (hn : 0 < n) (p : ℤ) :
    ∑ a ∈ range n, Complex.exp (2 * Real.pi * Complex.I * (p * a / n)) = if (n : ℤ) ∣ p then (n : ℂ) else 0 := by
  have hn' : (n : ℂ) ≠ 0 := by exact_mod_cast hn.ne'
  set x := Complex.exp (2 * Real.pi * Complex.I * (p / n)) with hx
  have e : ∀ a ∈ range n, Complex.exp (2 * Real.pi * Complex.I * (p * a / n)) = x ^ a := by
    intro a _
    rw [hx, ← Complex.exp_nat_mul]
    congr 1
    ring
  rw [Finset.sum_congr rfl e]
  have hroot : x ^ n = 1 := by
    rw [hx, ← Complex.exp_nat_mul, Complex.exp_eq_one_iff]
    refine ⟨p, ?_⟩
    field_simp
  by_cases hd : (n : ℤ) ∣ p
  · rw [if_pos hd]
    obtain ⟨c, rfl⟩ := hd
    have : x = 1 := by
      rw [hx, Complex.exp_eq_one_iff]
      refine ⟨c, ?_⟩
      push_cast
      field_simp
    simp [this]
  · rw [if_neg hd]
    have h1 : x ≠ 1 := by
      intro h
      rw [hx, Complex.exp_eq_one_iff] at h
      obtain ⟨c, hc⟩ := h
      apply hd
      refine ⟨c, ?_⟩
      have h2 : (2 * Real.pi * Complex.I : ℂ) ≠ 0 := Complex.two_pi_I_ne_zero
      have h3 : (p : ℂ) / n = c := by
        apply mul_left_cancel₀ h2
        rw [hc]; ring
      have h4 : (p : ℂ) = n * c := by
        rw [div_eq_iff hn'] at h3
        rw [h3]; ring
      exact_mod_cast h4
    rw [geom_sum_eq h1, hroot]
    simp

theorem alias_iff {nt nz nfp : ℕ} {p q m n : ℤ} :
    ((nt : ℤ) ∣ p - m ∧ (nfp * nz : ℤ) ∣ q - n) ↔ Alias nt nz nfp p q m n := by
  unfold Alias
  push_cast
  rfl

theorem alias_neg_iff {nt nz nfp : ℕ} {p q m n : ℤ} :
    ((nt : ℤ) ∣ p + m ∧ (nfp * nz : ℤ) ∣ q + n) ↔ Alias nt nz nfp p q (-m) (-n) := by
  unfold Alias
  push_cast
  rw [sub_neg_eq_add, sub_neg_eq_add]

theorem grid_exp {nt nz nfp : ℕ} (ht : 0 < nt) (hz : 0 < nz) (hf : 0 < nfp) {p q : ℤ} (hq : (nfp : ℤ) ∣ q) :
    ∑ a ∈ range nt, ∑ b ∈ range nz,
      Complex.exp (((p * (2 * Real.pi * a / nt) - q * (2 * Real.pi * b / (nfp * nz)) : ℝ) : ℂ) * Complex.I) =
      if (nt : ℤ) ∣ p ∧ (nfp * nz : ℤ) ∣ q then (nt * nz : ℂ) else 0 := by
  obtain ⟨q', rfl⟩ := hq
  have hf' : (nfp : ℂ) ≠ 0 := by exact_mod_cast hf.ne'
  have hz' : (nz : ℂ) ≠ 0 := by exact_mod_cast hz.ne'
  have e : ∀ a ∈ range nt, ∀ b ∈ range nz,
      Complex.exp (((p * (2 * Real.pi * a / nt) - (nfp * q' : ℤ) * (2 * Real.pi * b / (nfp * nz)) : ℝ) : ℂ) *
        Complex.I) =
      Complex.exp (2 * Real.pi * Complex.I * (p * a / nt)) *
        Complex.exp (2 * Real.pi * Complex.I * ((-q' : ℤ) * b / nz)) := by
    intro a _ b _
    rw [← Complex.exp_add]
    congr 1
    push_cast
    field_simp
    ring
  rw [Finset.sum_congr rfl fun a ha => Finset.sum_congr rfl (e a ha), ← Finset.sum_mul_sum,
    root_sum ht, root_sum hz]
  have h1 : (nz : ℤ) ∣ -q' ↔ (nfp * nz : ℤ) ∣ nfp * q' := by
    rw [dvd_neg, mul_dvd_mul_iff_left (by exact_mod_cast hf.ne')]
  simp only [← h1]
  by_cases ha : (nt : ℤ) ∣ p <;> by_cases hb : (nz : ℤ) ∣ -q' <;> simp only [ha, hb, and_self, and_true,
    and_false, if_true, if_false, mul_zero, zero_mul]

section
variable {nt nz nfp : ℕ} (ht : 0 < nt) (hz : 0 < nz) (hf : 0 < nfp)
include ht hz hf

theorem grid_cos {p q : ℤ} (hq : (nfp : ℤ) ∣ q) :
    ∑ a ∈ range nt, ∑ b ∈ range nz,
      Real.cos (p * (2 * Real.pi * a / nt) - q * (2 * Real.pi * b / (nfp * nz))) =
      if (nt : ℤ) ∣ p ∧ (nfp * nz : ℤ) ∣ q then (nt * nz : ℝ) else 0 := by
  have h := congrArg Complex.re (grid_exp ht hz hf (p := p) hq)
  rw [Complex.re_sum] at h
  simp only [Complex.re_sum, Complex.exp_ofReal_mul_I_re] at h
  rw [h]
  split
  · rw [← Complex.ofReal_natCast, ← Complex.ofReal_natCast, ← Complex.ofReal_mul, Complex.ofReal_re]
  · simp

theorem grid_sin {p q : ℤ} (hq : (nfp : ℤ) ∣ q) :
    ∑ a ∈ range nt, ∑ b ∈ range nz,
      Real.sin (p * (2 * Real.pi * a / nt) - q * (2 * Real.pi * b / (nfp * nz))) = 0 := by
  have h := congrArg Complex.im (grid_exp ht hz hf (p := p) hq)
  rw [Complex.im_sum] at h
  simp only [Complex.im_sum, Complex.exp_ofReal_mul_I_im] at h
  rw [h]
  split
  · rw [← Complex.ofReal_natCast, ← Complex.ofReal_natCast, ← Complex.ofReal_mul, Complex.ofReal_im]
  · simp

/-- Cosine times cosine over the grid. -/
theorem grid_cos_cos {p q m n : ℤ} (hq : (nfp : ℤ) ∣ q) (hn : (nfp : ℤ) ∣ n) :
    ∑ a ∈ range nt, ∑ b ∈ range nz,
      Real.cos (p * (2 * Real.pi * a / nt) - q * (2 * Real.pi * b / (nfp * nz))) *
      Real.cos (m * (2 * Real.pi * a / nt) - n * (2 * Real.pi * b / (nfp * nz))) =
      nt * nz / 2 * ((if Alias nt nz nfp p q m n then 1 else 0) +
        (if Alias nt nz nfp p q (-m) (-n) then 1 else 0)) := by
  have h1 := grid_cos ht hz hf (p := p - m) (dvd_sub hq hn)
  have h2 := grid_cos ht hz hf (p := p + m) (dvd_add hq hn)
  have e : ∀ a ∈ range nt, ∀ b ∈ range nz,
      Real.cos (p * (2 * Real.pi * a / nt) - q * (2 * Real.pi * b / (nfp * nz))) *
      Real.cos (m * (2 * Real.pi * a / nt) - n * (2 * Real.pi * b / (nfp * nz))) =
      1 / 2 * (Real.cos ((p - m : ℤ) * (2 * Real.pi * a / nt) - (q - n : ℤ) * (2 * Real.pi * b / (nfp * nz))) +
        Real.cos ((p + m : ℤ) * (2 * Real.pi * a / nt) - (q + n : ℤ) * (2 * Real.pi * b / (nfp * nz)))) := by
    intro a _ b _
    push_cast
    generalize 2 * Real.pi * a / nt = x
    generalize 2 * Real.pi * b / (nfp * nz) = y
    rw [show ((p : ℝ) - m) * x - (q - n) * y = (p * x - q * y) - (m * x - n * y) by ring,
      show ((p : ℝ) + m) * x - (q + n) * y = (p * x - q * y) + (m * x - n * y) by ring,
      Real.cos_sub (_ - _) (_ - _), Real.cos_add (_ - _) (_ - _)]
    ring
  rw [Finset.sum_congr rfl fun a ha => Finset.sum_congr rfl (e a ha)]
  simp only [← Finset.mul_sum, Finset.sum_add_distrib]
  rw [h1, h2]
  simp only [alias_iff, alias_neg_iff]
  split <;> split <;> ring

/-- Sine times sine over the grid. -/
theorem grid_sin_sin {p q m n : ℤ} (hq : (nfp : ℤ) ∣ q) (hn : (nfp : ℤ) ∣ n) :
    ∑ a ∈ range nt, ∑ b ∈ range nz,
      Real.sin (p * (2 * Real.pi * a / nt) - q * (2 * Real.pi * b / (nfp * nz))) *
      Real.sin (m * (2 * Real.pi * a / nt) - n * (2 * Real.pi * b / (nfp * nz))) =
      nt * nz / 2 * ((if Alias nt nz nfp p q m n then 1 else 0) -
        (if Alias nt nz nfp p q (-m) (-n) then 1 else 0)) := by
  have h1 := grid_cos ht hz hf (p := p - m) (dvd_sub hq hn)
  have h2 := grid_cos ht hz hf (p := p + m) (dvd_add hq hn)
  have e : ∀ a ∈ range nt, ∀ b ∈ range nz,
      Real.sin (p * (2 * Real.pi * a / nt) - q * (2 * Real.pi * b / (nfp * nz))) *
      Real.sin (m * (2 * Real.pi * a / nt) - n * (2 * Real.pi * b / (nfp * nz))) =
      1 / 2 * (Real.cos ((p - m : ℤ) * (2 * Real.pi * a / nt) - (q - n : ℤ) * (2 * Real.pi * b / (nfp * nz))) -
        Real.cos ((p + m : ℤ) * (2 * Real.pi * a / nt) - (q + n : ℤ) * (2 * Real.pi * b / (nfp * nz)))) := by
    intro a _ b _
    push_cast
    generalize 2 * Real.pi * a / nt = x
    generalize 2 * Real.pi * b / (nfp * nz) = y
    rw [show ((p : ℝ) - m) * x - (q - n) * y = (p * x - q * y) - (m * x - n * y) by ring,
      show ((p : ℝ) + m) * x - (q + n) * y = (p * x - q * y) + (m * x - n * y) by ring,
      Real.cos_sub (_ - _) (_ - _), Real.cos_add (_ - _) (_ - _)]
    ring
  rw [Finset.sum_congr rfl fun a ha => Finset.sum_congr rfl (e a ha)]
  simp only [← Finset.mul_sum, Finset.sum_sub_distrib]
  rw [h1, h2]
  simp only [alias_iff, alias_neg_iff]
  split <;> split <;> ring

/-- Sine times cosine over the grid. -/
theorem grid_sin_cos {p q m n : ℤ} (hq : (nfp : ℤ) ∣ q) (hn : (nfp : ℤ) ∣ n) :
    ∑ a ∈ range nt, ∑ b ∈ range nz,
      Real.sin (p * (2 * Real.pi * a / nt) - q * (2 * Real.pi * b / (nfp * nz))) *
      Real.cos (m * (2 * Real.pi * a / nt) - n * (2 * Real.pi * b / (nfp * nz))) = 0 := by
  have h1 := grid_sin ht hz hf (p := p - m) (dvd_sub hq hn)
  have h2 := grid_sin ht hz hf (p := p + m) (dvd_add hq hn)
  have e : ∀ a ∈ range nt, ∀ b ∈ range nz,
      Real.sin (p * (2 * Real.pi * a / nt) - q * (2 * Real.pi * b / (nfp * nz))) *
      Real.cos (m * (2 * Real.pi * a / nt) - n * (2 * Real.pi * b / (nfp * nz))) =
      1 / 2 * (Real.sin ((p - m : ℤ) * (2 * Real.pi * a / nt) - (q - n : ℤ) * (2 * Real.pi * b / (nfp * nz))) +
        Real.sin ((p + m : ℤ) * (2 * Real.pi * a / nt) - (q + n : ℤ) * (2 * Real.pi * b / (nfp * nz)))) := by
    intro a _ b _
    push_cast
    generalize 2 * Real.pi * a / nt = x
    generalize 2 * Real.pi * b / (nfp * nz) = y
    rw [show ((p : ℝ) - m) * x - (q - n) * y = (p * x - q * y) - (m * x - n * y) by ring,
      show ((p : ℝ) + m) * x - (q + n) * y = (p * x - q * y) + (m * x - n * y) by ring,
      Real.sin_sub (_ - _) (_ - _), Real.sin_add (_ - _) (_ - _)]
    ring
  rw [Finset.sum_congr rfl fun a ha => Finset.sum_congr rfl (e a ha)]
  simp only [← Finset.mul_sum, Finset.sum_add_distrib]
  rw [h1, h2]
  ring

/-- Quadrature of a series against a cosine, with the original angles. -/
theorem quadCos_series {S : Surface} (hθ : ∀ θ ζ, S.thetaB θ ζ = θ) (hζ : ∀ θ ζ, S.zetaB θ ζ = ζ)
    (hdet : ∀ θ ζ, S.det θ ζ = 1) {K : ℕ} {ms ns : ℕ → ℤ} (hper : ∀ k < K, (nfp : ℤ) ∣ ns k)
    (c s : ℕ → ℝ) {m n : ℤ} (hn : (nfp : ℤ) ∣ n) :
    S.quadCos nt nz nfp (series K ms ns c s) m n = foldCos nt nz nfp K ms ns c m n := by
  have ht' : (nt : ℝ) ≠ 0 := by exact_mod_cast ht.ne'
  have hz' : (nz : ℝ) ≠ 0 := by exact_mod_cast hz.ne'
  have e : (∑ a ∈ range nt, ∑ b ∈ range nz, series K ms ns c s (2 * Real.pi * a / nt) (2 * Real.pi * b / (nfp * nz)) *
      Real.cos (m * (2 * Real.pi * a / nt) - n * (2 * Real.pi * b / (nfp * nz)))) =
      ∑ k ∈ range K, c k * (nt * nz / 2 * ((if Alias nt nz nfp (ms k) (ns k) m n then 1 else 0) +
        (if Alias nt nz nfp (ms k) (ns k) (-m) (-n) then 1 else 0))) := by
    unfold series
    simp only [Finset.sum_mul, add_mul, mul_assoc]
    rw [Finset.sum_congr rfl fun a _ => Finset.sum_comm, Finset.sum_comm]
    refine Finset.sum_congr rfl fun k hk => ?_
    have hk := Finset.mem_range.1 hk
    simp only [Finset.sum_add_distrib, ← Finset.mul_sum]
    have h1 := grid_cos_cos ht hz hf (p := ms k) (m := m) (hper k hk) hn
    have h2 := grid_sin_cos ht hz hf (p := ms k) (m := m) (hper k hk) hn
    simp only [mul_assoc] at h1 h2
    rw [h1, h2]
    ring
  unfold Surface.quadCos foldCos
  simp only [hθ, hζ, hdet, mul_one]
  rw [e, Finset.mul_sum]
  refine Finset.sum_congr rfl fun k _ => ?_
  by_cases h0 : m = 0 ∧ n = 0
  · obtain ⟨rfl, rfl⟩ := h0
    simp only [and_self, if_true, neg_zero]
    split
    · field_simp
      ring
    · ring
  · simp only [if_neg h0]
    split <;> split <;> field_simp <;> ring

/-- Quadrature of a series against a sine. -/
theorem quadSin_series {S : Surface} (hθ : ∀ θ ζ, S.thetaB θ ζ = θ) (hζ : ∀ θ ζ, S.zetaB θ ζ = ζ)
    (hdet : ∀ θ ζ, S.det θ ζ = 1) {K : ℕ} {ms ns : ℕ → ℤ} (hper : ∀ k < K, (nfp : ℤ) ∣ ns k)
    (c s : ℕ → ℝ) {m n : ℤ} (hn : (nfp : ℤ) ∣ n) :
    S.quadSin nt nz nfp (series K ms ns c s) m n = foldSin nt nz nfp K ms ns s m n := by
  have ht' : (nt : ℝ) ≠ 0 := by exact_mod_cast ht.ne'
  have hz' : (nz : ℝ) ≠ 0 := by exact_mod_cast hz.ne'
  have e : (∑ a ∈ range nt, ∑ b ∈ range nz, series K ms ns c s (2 * Real.pi * a / nt) (2 * Real.pi * b / (nfp * nz)) *
      Real.sin (m * (2 * Real.pi * a / nt) - n * (2 * Real.pi * b / (nfp * nz)))) =
      ∑ k ∈ range K, s k * (nt * nz / 2 * ((if Alias nt nz nfp (ms k) (ns k) m n then 1 else 0) -
        (if Alias nt nz nfp (ms k) (ns k) (-m) (-n) then 1 else 0))) := by
    unfold series
    simp only [Finset.sum_mul, add_mul, mul_assoc]
    rw [Finset.sum_congr rfl fun a _ => Finset.sum_comm, Finset.sum_comm]
    refine Finset.sum_congr rfl fun k hk => ?_
    have hk := Finset.mem_range.1 hk
    simp only [Finset.sum_add_distrib, ← Finset.mul_sum]
    have h1 := grid_sin_sin ht hz hf (p := ms k) (m := m) (hper k hk) hn
    have h2 : ∑ a ∈ range nt, ∑ b ∈ range nz,
      Real.cos (ms k * (2 * Real.pi * a / nt) - ns k * (2 * Real.pi * b / (nfp * nz))) *
      Real.sin (m * (2 * Real.pi * a / nt) - n * (2 * Real.pi * b / (nfp * nz))) = 0 := by
      rw [← grid_sin_cos ht hz hf (p := m) (m := ms k) hn (hper k hk)]
      exact Finset.sum_congr rfl fun a _ => Finset.sum_congr rfl fun b _ => mul_comm _ _
    simp only [mul_assoc] at h1 h2
    rw [h1, h2]
    ring
  unfold Surface.quadSin foldSin
  simp only [hθ, hζ, hdet, mul_one]
  rw [e, Finset.mul_sum]
  refine Finset.sum_congr rfl fun k _ => ?_
  by_cases h0 : m = 0 ∧ n = 0
  · obtain ⟨rfl, rfl⟩ := h0
    simp
  · simp only [if_neg h0]
    split <;> split <;> field_simp <;> ring

end

end Booz
