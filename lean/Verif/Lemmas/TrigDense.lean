import Verif.Spec.Theory
import Verif.Lemmas.Smooth
import Mathlib.Analysis.Fourier.AddCircleMulti

/-!
# Continuous doubly periodic functions are uniform limits of finite Fourier series
-/

namespace Booz.Trapezoid
open Finset Function Spec

/-- Finite Fourier series. -/
def IsTrig (f : ℝ → ℝ → ℝ) : Prop :=
  ∃ (K : ℕ) (m n : ℕ → ℤ) (c s : ℕ → ℝ), ∀ θ ζ, f θ ζ = series K m n c s θ ζ

theorem IsTrig.zero : IsTrig fun _ _ => 0 := ⟨0, 0, 0, 0, 0, fun θ ζ => by simp [series]⟩

theorem IsTrig.single (m n : ℤ) (c s : ℝ) :
    IsTrig fun θ ζ => c * Real.cos (m * θ - n * ζ) + s * Real.sin (m * θ - n * ζ) :=
  ⟨1, fun _ => m, fun _ => n, fun _ => c, fun _ => s, fun θ ζ => by simp [series]⟩

theorem IsTrig.add {f g : ℝ → ℝ → ℝ} (hf : IsTrig f) (hg : IsTrig g) : IsTrig fun θ ζ => f θ ζ + g θ ζ := by
  obtain ⟨K, m, n, c, s, h⟩ := hf
  obtain ⟨K', m', n', c', s', h'⟩ := hg
  refine ⟨K + K', fun k => if k < K then m k else m' (k - K), fun k => if k < K then n k else n' (k - K),
    fun k => if k < K then c k else c' (k - K), fun k => if k < K then s k else s' (k - K), fun θ ζ => ?_⟩
  show f θ ζ + g θ ζ = _
  rw [h, h']
  unfold series
  rw [sum_range_add]
  congr 1
  · exact sum_congr rfl fun k hk => by simp only [mem_range.1 hk, if_true]
  · refine sum_congr rfl fun k _ => ?_
    have : ¬ K + k < K := by omega
    simp only [this, if_false, Nat.add_sub_cancel_left]

/-- The covering of the torus by pairs of angles in units of 2π. -/
def cover : (Fin 2 → ℝ) → UnitAddTorus (Fin 2) := Pi.map fun _ => (fun x : ℝ => (x : UnitAddCircle))

theorem cover_quot : IsOpenQuotientMap cover := IsOpenQuotientMap.piMap fun _ => QuotientAddGroup.isOpenQuotientMap_mk

theorem cover_eq {x y : Fin 2 → ℝ} (h : cover x = cover y) : ∃ k : Fin 2 → ℤ, ∀ i, x i = y i + k i := by
  have : ∀ i, ∃ k : ℤ, x i = y i + k := by
    intro i
    have e : ((x i : ℝ) : UnitAddCircle) = (y i : UnitAddCircle) := congrFun h i
    obtain ⟨k, hk⟩ := AddSubgroup.mem_zmultiples_iff.1 ((QuotientAddGroup.eq_iff_sub_mem).1 e)
    refine ⟨k, ?_⟩
    simp only [zsmul_eq_mul, mul_one] at hk
    linarith
  choose k hk using this
  exact ⟨k, hk⟩

theorem trig_of_span {p : C(UnitAddTorus (Fin 2), ℂ)}
    (hp : p ∈ Submodule.span ℂ (Set.range (UnitAddTorus.mFourier (d := Fin 2)))) (a : ℂ) :
    IsTrig fun θ ζ => (a * p (cover ![θ / (2 * Real.pi), ζ / (2 * Real.pi)])).re := by
  induction hp using Submodule.span_induction generalizing a with
  | mem x hx =>
    obtain ⟨k, rfl⟩ := hx
    have := IsTrig.single (k 0) (-k 1) a.re (-a.im)
    convert this using 3 with θ ζ
    have e : UnitAddTorus.mFourier k (cover ![θ / (2 * Real.pi), ζ / (2 * Real.pi)]) =
        Complex.exp ((((k 0 : ℤ) : ℝ) * θ - ((-k 1 : ℤ) : ℝ) * ζ : ℝ) * Complex.I) := by
      show ∏ i, fourier (k i) (cover ![θ / (2 * Real.pi), ζ / (2 * Real.pi)] i) = _
      rw [Fin.prod_univ_two]
      show fourier (k 0) ((θ / (2 * Real.pi) : ℝ) : UnitAddCircle) * fourier (k 1) ((ζ / (2 * Real.pi) : ℝ) : UnitAddCircle) = _
      rw [fourier_coe_apply, fourier_coe_apply, ← Complex.exp_add]
      congr 1
      have : (Real.pi : ℂ) ≠ 0 := by exact_mod_cast Real.pi_ne_zero
      push_cast
      field_simp
      ring
    rw [e, Complex.mul_re, Complex.exp_ofReal_mul_I_re, Complex.exp_ofReal_mul_I_im]
    ring
  | zero => simpa using IsTrig.zero
  | add x y _ _ hx hy =>
    have := (hx a).add (hy a)
    simpa [mul_add] using this
  | smul b x _ hx =>
    have := hx (a * b)
    simpa [mul_assoc] using this

theorem per_int {g : ℝ × ℝ → ℝ} (hp : DPer (2 * Real.pi) (2 * Real.pi) g) (a b : ℤ) (x : ℝ × ℝ) :
    g (x.1 + a * (2 * Real.pi), x.2 + b * (2 * Real.pi)) = g x := by
  have h1 := (hp.slice1 (x.2 + b * (2 * Real.pi))).int_mul a x.1
  have h2 := (hp.slice2 x.1).int_mul b x.2
  exact h1.trans h2

theorem trig_dense {g : ℝ × ℝ → ℝ} (hc : Continuous g) (hp : DPer (2 * Real.pi) (2 * Real.pi) g) {ε : ℝ} (hε : 0 < ε) :
    ∃ (K : ℕ) (m n : ℕ → ℤ) (c s : ℕ → ℝ), ∀ x, |g x - series K m n c s x.1 x.2| ≤ ε := by
  let h : (Fin 2 → ℝ) → ℝ := fun y => g (y 0 * (2 * Real.pi), y 1 * (2 * Real.pi))
  have hh : Continuous h := hc.comp (by fun_prop)
  let G0 : UnitAddTorus (Fin 2) → ℝ := fun u => h (surjInv cover_quot.surjective u)
  have hG : ∀ y, G0 (cover y) = h y := by
    intro y
    obtain ⟨k, hk⟩ := cover_eq (surjInv_eq cover_quot.surjective (cover y))
    show h (surjInv cover_quot.surjective (cover y)) = h y
    show g _ = g _
    rw [hk 0, hk 1, add_mul, add_mul]
    exact per_int hp (k 0) (k 1) (y 0 * (2 * Real.pi), y 1 * (2 * Real.pi))
  have hGc : Continuous G0 := by
    rw [← cover_quot.continuous_comp_iff]
    exact hh.congr fun y => (hG y).symm
  let G : C(UnitAddTorus (Fin 2), ℂ) := ⟨fun u => (G0 u : ℂ), Complex.continuous_ofReal.comp hGc⟩
  have hmem : G ∈ (Submodule.span ℂ (Set.range (UnitAddTorus.mFourier (d := Fin 2)))).topologicalClosure := by
    rw [UnitAddTorus.span_mFourier_closure_eq_top]
    trivial
  obtain ⟨p, hp, hd⟩ := Metric.mem_closure_iff.1 hmem ε hε
  obtain ⟨K, m, n, c, s, ht⟩ := trig_of_span hp 1
  refine ⟨K, m, n, c, s, fun x => ?_⟩
  rw [← ht]
  simp only [one_mul]
  have e : g x = G0 (cover ![x.1 / (2 * Real.pi), x.2 / (2 * Real.pi)]) := by
    rw [hG]
    show g x = g _
    have hpi := Real.pi_ne_zero
    congr 1
    refine Prod.ext ?_ ?_
    · show x.1 = x.1 / (2 * Real.pi) * (2 * Real.pi)
      field_simp
    · show x.2 = x.2 / (2 * Real.pi) * (2 * Real.pi)
      field_simp
  have hd' : ‖(G - p) (cover ![x.1 / (2 * Real.pi), x.2 / (2 * Real.pi)])‖ ≤ ε :=
    ((G - p).norm_coe_le_norm _).trans (by rw [← dist_eq_norm]; exact hd.le)
  rw [e]
  have := (Complex.abs_re_le_norm _).trans hd'
  simpa [G] using this

end Booz.Trapezoid
