import Mathlib.Data.Real.Basic
import Verif.Model.State

/-!
# Specification: entrywise relations between arrays
-/

namespace Booz

/-- The array with every (initialised) entry multiplied by `c`. -/
def Mat.scale (c : ℝ) (a : Mat ℝ) : Mat ℝ := { a with data := a.data.map (Option.map (c * ·)) }

namespace Spec

/-- Entries of `B` are `f` of the entries of `A`, for the first `K` rows and `n` columns; all of them
are initialised. -/
def Mapped (K n : ℕ) (f : ℝ → ℝ) (A B : Mat ℝ) : Prop :=
  ∀ k < K, ∀ j < n, ∃ x, A.rdN k j = .ok x ∧ B.rdN k j = .ok (f x)

/-- Entries of `C` are `x a + y b`, for the first `K` rows and `n` columns; all are initialised. -/
def LinComb (K n : ℕ) (x y : ℝ) (A B C : Mat ℝ) : Prop :=
  ∀ k < K, ∀ j < n, ∃ a b, A.rdN k j = .ok a ∧ B.rdN k j = .ok b ∧ C.rdN k j = .ok (x * a + y * b)

end Spec

theorem Mat.val_scale (c : ℝ) (a : Mat ℝ) (i j : ℕ) : (a.scale c).val 0 i j = c * a.val 0 i j := by
  unfold Mat.scale Mat.val Vec.val
  simp only [Array.getElem?_map]
  cases h : a.data[j * a.rows + i]? with
  | none => simp
  | some o => cases o <;> simp

theorem Mat.Full.scale {a : Mat ℝ} {r n : ℕ} (h : a.Full r n) (c : ℝ) : (a.scale c).Full r n := by
  obtain ⟨h1, h2, h3, h4⟩ := h
  refine ⟨h1, h2, by simp [Mat.scale, h3], ?_⟩
  intro i hi
  obtain ⟨x, hx⟩ := h4 i hi
  exact ⟨c * x, by simp [Mat.scale, hx]⟩

end Booz
