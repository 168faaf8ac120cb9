import Mathlib.Analysis.Calculus.Deriv.MeanValue
import Mathlib.Analysis.Calculus.Deriv.Pow
import Mathlib.Analysis.Calculus.Deriv.Add
import Mathlib.Analysis.Calculus.Deriv.Mul
import Verif.Spec.Interp

/-!
# Errors of the mean of two neighbours and of linear extrapolation
-/

open Set

namespace Booz
open Spec

theorem bends_sided {f f' : ℝ → ℝ} {K e p x : ℝ} (he : e = 1 ∨ e = -1)
    (hd : ∀ s ∈ Icc (0 : ℝ) 1, HasDerivWithinAt f (f' s) (Icc 0 1) s)
    (hl : ∀ s ∈ Icc (0 : ℝ) 1, ∀ t ∈ Icc (0 : ℝ) 1, |f' s - f' t| ≤ K * |s - t|)
    (hp : p ∈ Icc (0 : ℝ) 1) (hx : x ∈ Icc (0 : ℝ) 1) :
    0 ≤ K / 2 * (x - p) ^ 2 + e * (f x - f p - f' p * (x - p)) := by
  set g : ℝ → ℝ := fun y => K / 2 * (y - p) ^ 2 + e * (f y - f p - f' p * (y - p)) with hg
  have gd : ∀ y ∈ Icc (0 : ℝ) 1, HasDerivWithinAt g (K * (y - p) + e * (f' y - f' p)) (Icc 0 1) y := by
    intro y hy
    have h0 : HasDerivWithinAt (fun y : ℝ => y - p) 1 (Icc 0 1) y := (hasDerivWithinAt_id y _).sub_const p
    have h1 := (h0.pow 2).const_mul (K / 2)
    have h2 := (((hd y hy).sub_const (f p)).sub (h0.const_mul (f' p))).const_mul e
    refine (h1.add h2).congr_deriv ?_
    push_cast
    ring
  have gc : ContinuousOn g (Icc 0 1) := fun y hy => (gd y hy).continuousWithinAt
  have ga : ∀ y ∈ Ioo (0 : ℝ) 1, HasDerivAt g (K * (y - p) + e * (f' y - f' p)) y := fun y hy =>
    (gd y (Ioo_subset_Icc_self hy)).hasDerivAt (Icc_mem_nhds hy.1 hy.2)
  have bound : ∀ y ∈ Icc (0 : ℝ) 1, |e * (f' y - f' p)| ≤ K * |y - p| := by
    intro y hy
    rw [abs_mul]
    have : |e| = 1 := by rcases he with rfl | rfl <;> simp
    rw [this, one_mul]
    exact hl y hy p hp
  have g0 : g p = 0 := by simp [hg]
  have key : g p ≤ g x := by
    rcases le_total p x with h | h
    · have hm : MonotoneOn g (Icc p 1) := by
        have hs : interior (Icc p 1) ⊆ Ioo 0 1 := by
          rw [interior_Icc]; exact Ioo_subset_Ioo_left hp.1
        refine monotoneOn_of_deriv_nonneg (convex_Icc p 1) (gc.mono (Icc_subset_Icc_left hp.1))
          (fun y hy => (ga y (hs hy)).differentiableAt.differentiableWithinAt) fun y hy => ?_
        rw [(ga y (hs hy)).deriv]
        have b := bound y (Ioo_subset_Icc_self (hs hy))
        rw [interior_Icc] at hy
        rw [abs_of_nonneg (by linarith [hy.1] : 0 ≤ y - p)] at b
        linarith [neg_abs_le (e * (f' y - f' p))]
      exact hm ⟨le_rfl, hp.2⟩ ⟨h, hx.2⟩ h
    · have hm : AntitoneOn g (Icc 0 p) := by
        have hs : interior (Icc 0 p) ⊆ Ioo 0 1 := by
          rw [interior_Icc]; exact Ioo_subset_Ioo_right hp.2
        refine antitoneOn_of_deriv_nonpos (convex_Icc 0 p) (gc.mono (Icc_subset_Icc_right hp.2))
          (fun y hy => (ga y (hs hy)).differentiableAt.differentiableWithinAt) fun y hy => ?_
        rw [(ga y (hs hy)).deriv]
        have b := bound y (Ioo_subset_Icc_self (hs hy))
        rw [interior_Icc] at hy
        rw [abs_of_nonpos (by linarith [hy.2] : y - p ≤ 0)] at b
        linarith [le_abs_self (e * (f' y - f' p))]
      exact hm ⟨hx.1, h⟩ ⟨hp.1, le_rfl⟩ h
  rw [g0] at key
  exact key

/-- Taylor's formula for such profiles. -/
theorem bends_taylor {f f' : ℝ → ℝ} {K p x : ℝ}
    (hd : ∀ s ∈ Icc (0 : ℝ) 1, HasDerivWithinAt f (f' s) (Icc 0 1) s)
    (hl : ∀ s ∈ Icc (0 : ℝ) 1, ∀ t ∈ Icc (0 : ℝ) 1, |f' s - f' t| ≤ K * |s - t|)
    (hp : p ∈ Icc (0 : ℝ) 1) (hx : x ∈ Icc (0 : ℝ) 1) :
    |f x - f p - f' p * (x - p)| ≤ K / 2 * (x - p) ^ 2 := by
  have h1 := bends_sided (Or.inl rfl) hd hl hp hx
  have h2 := bends_sided (Or.inr rfl) hd hl hp hx
  rw [abs_le]
  constructor <;> linarith

/-- The mean of two neighbours. -/
theorem bends_mean {f : ℝ → ℝ} {K p h : ℝ} (H : Bends f K) (h1 : p - h ∈ Icc (0 : ℝ) 1)
    (h2 : p + h ∈ Icc (0 : ℝ) 1) : |(f (p - h) + f (p + h)) / 2 - f p| ≤ K / 2 * h ^ 2 := by
  obtain ⟨f', hd, hl⟩ := H
  have hp : p ∈ Icc (0 : ℝ) 1 := ⟨by linarith [h1.1, h2.1], by linarith [h1.2, h2.2]⟩
  have a := bends_taylor hd hl hp h1
  have b := bends_taylor hd hl hp h2
  have e1 : p - h - p = -h := by ring
  have e2 : p + h - p = h := by ring
  rw [e1, neg_sq] at a
  rw [e2] at b
  rw [abs_le] at a b ⊢
  constructor <;> linarith [a.1, a.2, b.1, b.2]

/-- Linear extrapolation from two points. -/
theorem bends_extrapolate {f : ℝ → ℝ} {K h : ℝ} (H : Bends f K) (h0 : 0 ≤ h) (h1 : 2 * h ≤ 1) :
    |(3 / 2 * f h - 1 / 2 * f (2 * h)) - f (h / 2)| ≤ 3 / 8 * K * h ^ 2 := by
  obtain ⟨f', hd, hl⟩ := H
  have hp : h ∈ Icc (0 : ℝ) 1 := ⟨h0, by linarith⟩
  have a := bends_taylor hd hl hp (x := h / 2) ⟨by linarith, by linarith⟩
  have b := bends_taylor hd hl hp (x := 2 * h) ⟨by linarith, h1⟩
  have e1 : h / 2 - h = -(h / 2) := by ring
  have e2 : 2 * h - h = h := by ring
  rw [e1, neg_sq] at a
  rw [e2] at b
  rw [abs_le] at a b ⊢
  constructor <;> nlinarith [a.1, a.2, b.1, b.2]

theorem bends_nonneg {f : ℝ → ℝ} {K : ℝ} (H : Bends f K) : 0 ≤ K := by
  obtain ⟨f', _, hl⟩ := H
  have := hl 0 ⟨le_rfl, zero_le_one⟩ 1 ⟨zero_le_one, le_rfl⟩
  have h0 := abs_nonneg (f' 0 - f' 1)
  simp at this
  linarith
end Booz
