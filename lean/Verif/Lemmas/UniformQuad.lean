import Verif.Lemmas.NonStationary

/-!
# Quadrature of oscillating functions of two angles, uniformly in the mode
-/

namespace Booz.Trapezoid
open Finset Function

variable {ι : Type*} {F : ℝ × ℝ → ℝ} {P Q : ℝ}

/-- Slices of a smooth doubly periodic function. -/
theorem Bdd.slice1 (hP : 0 < P) (hQ : 0 < Q) (p : ℕ) :
    ∀ {F : ℝ × ℝ → ℝ}, DPer P Q F → Smooth F → ∀ z : ι → ℝ, Bdd p fun i x => F (x, z i) := by
  induction p with
  | zero =>
    intro F h hs z
    obtain ⟨C, hC⟩ := h.bounded hP hQ hs.continuous
    exact ⟨C, fun i x => hC _⟩
  | succ p ih =>
    intro F h hs z
    obtain ⟨C, hC⟩ := h.bounded hP hQ hs.continuous
    exact ⟨⟨C, fun i x => hC _⟩, _, fun i x => hs.hasDeriv1 x (z i), ih h.d1 hs.d1 z⟩

theorem Bdd.slice2 (hP : 0 < P) (hQ : 0 < Q) (p : ℕ) :
    ∀ {F : ℝ × ℝ → ℝ}, DPer P Q F → Smooth F → ∀ t : ι → ℝ, Bdd p fun i x => F (t i, x) := by
  induction p with
  | zero =>
    intro F h hs t
    obtain ⟨C, hC⟩ := h.bounded hP hQ hs.continuous
    exact ⟨C, fun i x => hC _⟩
  | succ p ih =>
    intro F h hs t
    obtain ⟨C, hC⟩ := h.bounded hP hQ hs.continuous
    exact ⟨⟨C, fun i x => hC _⟩, _, fun i x => hs.hasDeriv2 (t i) x, ih h.d2 hs.d2 t⟩

/-- Two angles on a torus with periods `P`, `Q`: smooth, with doubly periodic derivatives. -/
structure Angles (P Q : ℝ) (A Z : ℝ × ℝ → ℝ) : Prop where
  sA : Smooth A
  sZ : Smooth Z
  pA1 : DPer P Q (D1 A)
  pA2 : DPer P Q (D2 A)
  pZ1 : DPer P Q (D1 Z)
  pZ2 : DPer P Q (D2 Z)

/-- The phase `m A - n Z + φ`. -/
noncomputable def phase (A Z : ℝ × ℝ → ℝ) (m n φ : ℝ) (x : ℝ × ℝ) : ℝ := m * A x - n * Z x + φ

/-- Grids and modes for which the mode is resolved: its numbers are at most `c` times those of the grid, the phase
increases by multiples of 2π over the periods, and its derivatives are at most `ρ` times the frequency of the grid. -/
structure Resolved (P Q : ℝ) (A Z : ℝ × ℝ → ℝ) (c ρ : ℝ) (n1 n2 : ℕ) (m n : ℝ) : Prop where
  pos1 : 1 ≤ n1
  pos2 : 1 ≤ n2
  m1 : |m| ≤ c * n1
  m2 : |m| ≤ c * n2
  k1 : |n| ≤ c * n1
  k2 : |n| ≤ c * n2
  per1 : ∀ φ x, Complex.exp (phase A Z m n φ (x + (P, 0)) * Complex.I) = Complex.exp (phase A Z m n φ x * Complex.I)
  per2 : ∀ φ x, Complex.exp (phase A Z m n φ (x + (0, Q)) * Complex.I) = Complex.exp (phase A Z m n φ x * Complex.I)
  d1 : ∀ x, |m * D1 A x - n * D1 Z x| * P ≤ ρ * (2 * Real.pi * n1)
  d2 : ∀ x, |m * D2 A x - n * D2 Z x| * Q ≤ ρ * (2 * Real.pi * n2)

/-- **Quadrature of `g cos (m A - n Z + φ)`, with one constant for all grids and all modes resolved by them.** -/
theorem grid_uniform (hP : 0 < P) (hQ : 0 < Q) {A Z g : ℝ × ℝ → ℝ} (hA : Angles P Q A Z) (pg : DPer P Q g) (sg : Smooth g)
    (c : ℝ) {ρ : ℝ} (hρ : ρ < 1) {p : ℕ} (hp : 2 ≤ p) :
    ∃ C, 0 ≤ C ∧ ∀ (n1 n2 : ℕ) (m n φ : ℝ), Resolved P Q A Z c ρ n1 n2 m n →
      |gridMean P Q n1 n2 (fun x => g x * Real.cos (phase A Z m n φ x)) -
        mean2 P Q (fun x => g x * Real.cos (phase A Z m n φ x))| ≤ C * ((1 / (n1 : ℝ)) ^ p + (1 / (n2 : ℝ)) ^ p) := by
  let J := {t : (ℕ × ℕ) × (ℝ × ℝ) × ℝ × ℝ // Resolved P Q A Z c ρ t.1.1 t.1.2 t.2.1.1 t.2.1.2}
  have hpi := Real.pi_pos
  have q1 : ∀ j : J, (0 : ℝ) < j.1.1.1 := fun j => by exact_mod_cast j.2.pos1
  have q2 : ∀ j : J, (0 : ℝ) < j.1.1.2 := fun j => by exact_mod_cast j.2.pos2
  have ratio : ∀ (x : ℝ) (y : ℝ) (f : ℝ), 0 < y → 0 < f → |x| ≤ c * y → |f / (2 * Real.pi * y) * x| ≤ f / (2 * Real.pi) * c := by
    intro x y f hy hf h
    rw [abs_mul, abs_of_pos (by positivity)]
    calc _ ≤ f / (2 * Real.pi * y) * (c * y) := mul_le_mul_of_nonneg_left h (by positivity)
      _ = _ := by field_simp
  have small : ∀ (d y f : ℝ), 0 < y → 0 < f → |d| * f ≤ ρ * (2 * Real.pi * y) → |f / (2 * Real.pi * y) * d| ≤ ρ := by
    intro d y f hy hf h
    rw [abs_mul, abs_of_pos (by positivity), div_mul_eq_mul_div, div_le_iff₀ (by positivity), mul_comm f]
    exact h
  obtain ⟨C1, hC1, h1⟩ := trap_uniform (ι := J) hP
    (ψ := fun j x => phase A Z j.1.2.1.1 j.1.2.1.2 j.1.2.2.1 (x, j.1.2.2.2))
    (u := fun j x => (P / (2 * Real.pi * j.1.1.1) * j.1.2.1.1) * D1 A (x, j.1.2.2.2) +
      (P / (2 * Real.pi * j.1.1.1) * -j.1.2.1.2) * D1 Z (x, j.1.2.2.2))
    (g := fun j x => g (x, j.1.2.2.2)) (n := fun j => j.1.1.1) hρ (fun j => j.2.pos1)
    (fun j x => by
      have := (((hA.sA.hasDeriv1 x j.1.2.2.2).const_mul j.1.2.1.1).sub
        ((hA.sZ.hasDeriv1 x j.1.2.2.2).const_mul j.1.2.1.2)).add_const j.1.2.2.1
      refine this.congr_deriv ?_
      have := q1 j
      field_simp
      ring)
    (fun j x => by simpa using j.2.per1 j.1.2.2.1 (x, j.1.2.2.2))
    (fun p => ((Bdd.const (fun j : J => ratio _ _ P (q1 j) hP j.2.m1) p).mul (Bdd.slice1 hP hQ p hA.pA1 hA.sA.d1 _)).add
      ((Bdd.const (fun j : J => ratio _ _ P (q1 j) hP (by rw [abs_neg]; exact j.2.k1)) p).mul
        (Bdd.slice1 hP hQ p hA.pZ1 hA.sZ.d1 _)))
    (fun j x => by
      have a := hA.pA1.slice1 j.1.2.2.2 x
      have b := hA.pZ1.slice1 j.1.2.2.2 x
      simp only at a b ⊢
      rw [a, b])
    (fun j x => by
      have := small _ _ P (q1 j) hP (j.2.d1 (x, j.1.2.2.2))
      refine le_of_eq_of_le (congrArg _ ?_) this
      ring)
    (fun p => Bdd.slice1 hP hQ p pg sg _) (fun j => pg.slice1 _) hp
  obtain ⟨C2, hC2, h2⟩ := trap_uniform (ι := J) hQ
    (ψ := fun j x => phase A Z j.1.2.1.1 j.1.2.1.2 j.1.2.2.1 (j.1.2.2.2, x))
    (u := fun j x => (Q / (2 * Real.pi * j.1.1.2) * j.1.2.1.1) * D2 A (j.1.2.2.2, x) +
      (Q / (2 * Real.pi * j.1.1.2) * -j.1.2.1.2) * D2 Z (j.1.2.2.2, x))
    (g := fun j x => g (j.1.2.2.2, x)) (n := fun j => j.1.1.2) hρ (fun j => j.2.pos2)
    (fun j x => by
      have := (((hA.sA.hasDeriv2 j.1.2.2.2 x).const_mul j.1.2.1.1).sub
        ((hA.sZ.hasDeriv2 j.1.2.2.2 x).const_mul j.1.2.1.2)).add_const j.1.2.2.1
      refine this.congr_deriv ?_
      have := q2 j
      field_simp
      ring)
    (fun j x => by simpa using j.2.per2 j.1.2.2.1 (j.1.2.2.2, x))
    (fun p => ((Bdd.const (fun j : J => ratio _ _ Q (q2 j) hQ j.2.m2) p).mul (Bdd.slice2 hP hQ p hA.pA2 hA.sA.d2 _)).add
      ((Bdd.const (fun j : J => ratio _ _ Q (q2 j) hQ (by rw [abs_neg]; exact j.2.k2)) p).mul
        (Bdd.slice2 hP hQ p hA.pZ2 hA.sZ.d2 _)))
    (fun j x => by
      have a := hA.pA2.slice2 j.1.2.2.2 x
      have b := hA.pZ2.slice2 j.1.2.2.2 x
      simp only at a b ⊢
      rw [a, b])
    (fun j x => by
      have := small _ _ Q (q2 j) hQ (j.2.d2 (j.1.2.2.2, x))
      refine le_of_eq_of_le (congrArg _ ?_) this
      ring)
    (fun p => Bdd.slice2 hP hQ p pg sg _) (fun j => pg.slice2 _) hp
  refine ⟨max C1 C2, le_max_of_le_left hC1, fun n1 n2 m n φ hr => ?_⟩
  have cF : Continuous fun x => g x * Real.cos (phase A Z m n φ x) := by
    refine sg.continuous.mul (Real.continuous_cos.comp ?_)
    unfold phase
    exact ((continuous_const.mul hA.sA.continuous).sub (continuous_const.mul hA.sZ.continuous)).add continuous_const
  have := grid_combine (n1 := n1) (Q := Q) (e1 := C1 * (1 / (n1 : ℝ)) ^ p) (e2 := C2 * (1 / (n2 : ℝ)) ^ p) hP hr.pos2 cF
    (fun ζ => h1 ⟨((n1, n2), (m, n), φ, ζ), hr⟩) (fun θ => h2 ⟨((n1, n2), (m, n), φ, θ), hr⟩)
  refine this.trans ?_
  rw [mul_add]
  exact add_le_add (mul_le_mul_of_nonneg_right (le_max_left _ _) (by positivity))
    (mul_le_mul_of_nonneg_right (le_max_right _ _) (by positivity))

end Booz.Trapezoid
