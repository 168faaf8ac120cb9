import Verif.Lemmas.RunOk
import Verif.Lemmas.Congr
import Verif.Lemmas.RealTrig
import Mathlib.MeasureTheory.Integral.IntervalIntegral.FundThmCalculus
import Mathlib.Analysis.SpecialFunctions.Integrals.Basic

/-!
# What is computed for a surface depends only on the functions its harmonics describe
-/

namespace Booz
open Spec Finset

/-! ### The function `w` from the covariant components -/

theorem int_cos (x : ℝ) (k : ℤ) :
    ∫ t in (0 : ℝ)..2 * Real.pi, Real.cos (x + k * t) = if k = 0 then 2 * Real.pi * Real.cos x else 0 := by
  split
  · rename_i h
    subst h
    simp
  · rename_i h
    have hk : (k : ℝ) ≠ 0 := by exact_mod_cast h
    have hd : ∀ t ∈ Set.uIcc (0 : ℝ) (2 * Real.pi),
        HasDerivAt (fun t : ℝ => Real.sin (x + k * t) / k) (Real.cos (x + k * t)) t := by
      intro t _
      have h0 : HasDerivAt (fun t : ℝ => x + (k : ℝ) * t) (k : ℝ) t := by
        simpa using ((hasDerivAt_id t).const_mul (k : ℝ)).const_add x
      refine (h0.sin.div_const (k : ℝ)).congr_deriv ?_
      field_simp
    rw [intervalIntegral.integral_eq_sub_of_hasDerivAt hd (Continuous.intervalIntegrable (by fun_prop) _ _)]
    have : Real.sin (x + k * (2 * Real.pi)) = Real.sin x := Real.sin_add_int_mul_two_pi x k
    rw [this, mul_zero, add_zero, sub_self]

theorem int_sin (x : ℝ) (k : ℤ) :
    ∫ t in (0 : ℝ)..2 * Real.pi, Real.sin (x + k * t) = if k = 0 then 2 * Real.pi * Real.sin x else 0 := by
  have := int_cos (x - Real.pi / 2) k
  have e : ∀ y, Real.cos (y - Real.pi / 2) = Real.sin y := Real.cos_sub_pi_div_two
  rw [e] at this
  rw [← this]
  refine intervalIntegral.integral_congr fun t _ => ?_
  show _ = Real.cos (x - Real.pi / 2 + k * t)
  rw [← e]
  congr 1
  ring

/-- Antiderivative with mean zero, of functions without constant part. -/
theorem int_ramp_cos (x : ℝ) (k : ℤ) :
    ∫ t in (0 : ℝ)..2 * Real.pi, (t - Real.pi) * Real.cos (x + k * t) =
      if k = 0 then 0 else 2 * Real.pi * (Real.sin x / k) := by
  split
  · rename_i h
    subst h
    simp only [Int.cast_zero, zero_mul, add_zero, intervalIntegral.integral_mul_const]
    rw [intervalIntegral.integral_sub (by simp) (by simp), integral_id, intervalIntegral.integral_const, smul_eq_mul]
    ring
  · rename_i h
    have hk : (k : ℝ) ≠ 0 := by exact_mod_cast h
    have hd : ∀ t ∈ Set.uIcc (0 : ℝ) (2 * Real.pi),
        HasDerivAt (fun t : ℝ => (t - Real.pi) * (Real.sin (x + k * t) / k) + Real.cos (x + k * t) / k ^ 2)
          ((t - Real.pi) * Real.cos (x + k * t)) t := by
      intro t _
      have h0 : HasDerivAt (fun t : ℝ => x + (k : ℝ) * t) (k : ℝ) t := by
        simpa using ((hasDerivAt_id t).const_mul (k : ℝ)).const_add x
      have h1 := (((hasDerivAt_id t).sub_const Real.pi).mul (h0.sin.div_const (k : ℝ))).add
        (h0.cos.div_const ((k : ℝ) ^ 2))
      refine h1.congr_deriv ?_
      simp only [id]
      field_simp
      ring
    rw [intervalIntegral.integral_eq_sub_of_hasDerivAt hd (Continuous.intervalIntegrable (by fun_prop) _ _)]
    have e1 : Real.sin (x + k * (2 * Real.pi)) = Real.sin x := Real.sin_add_int_mul_two_pi x k
    have e2 : Real.cos (x + k * (2 * Real.pi)) = Real.cos x := Real.cos_add_int_mul_two_pi x k
    rw [e1, e2, mul_zero, add_zero]
    ring

theorem int_ramp_sin (x : ℝ) (k : ℤ) :
    ∫ t in (0 : ℝ)..2 * Real.pi, (t - Real.pi) * Real.sin (x + k * t) =
      if k = 0 then 0 else 2 * Real.pi * (-Real.cos x / k) := by
  have := int_ramp_cos (x - Real.pi / 2) k
  have e : ∀ y, Real.cos (y - Real.pi / 2) = Real.sin y := Real.cos_sub_pi_div_two
  rw [Real.sin_sub_pi_div_two] at this
  rw [← this]
  refine intervalIntegral.integral_congr fun t _ => ?_
  show _ = (t - Real.pi) * Real.cos (x - Real.pi / 2 + k * t)
  rw [← e]
  congr 2
  ring

/-- The mean of a function over the first angle. -/
noncomputable def meanT (f : ℝ → ℝ → ℝ) (ζ : ℝ) : ℝ := 1 / (2 * Real.pi) * ∫ t in (0 : ℝ)..2 * Real.pi, f t ζ

/-- The function `w` as an integral transform of the two covariant components. -/
noncomputable def wOf (f g : ℝ → ℝ → ℝ) (θ ζ : ℝ) : ℝ :=
  1 / (2 * Real.pi) * (∫ t in (0 : ℝ)..2 * Real.pi, (t - Real.pi) * f (θ + t) ζ) +
    1 / (2 * Real.pi) * ∫ u in (0 : ℝ)..2 * Real.pi, (u - Real.pi) * meanT g (ζ + u)

theorem meanT_series (K : ℕ) (m n : ℕ → ℤ) (c s : ℕ → ℝ) (ζ : ℝ) :
    meanT (series K m n c s) ζ = ∑ k ∈ range K, if m k = 0 then c k * Real.cos (n k * ζ) - s k * Real.sin (n k * ζ) else 0 := by
  unfold meanT series
  rw [intervalIntegral.integral_finsetSum, mul_sum]
  · refine sum_congr rfl fun k _ => ?_
    rw [intervalIntegral.integral_add (Continuous.intervalIntegrable (by fun_prop) _ _)
      (Continuous.intervalIntegrable (by fun_prop) _ _), intervalIntegral.integral_const_mul,
      intervalIntegral.integral_const_mul]
    have e1 := int_cos (-(n k * ζ)) (m k)
    have e2 := int_sin (-(n k * ζ)) (m k)
    simp only [neg_add_eq_sub] at e1 e2
    rw [e1, e2]
    split
    · rw [Real.cos_neg, Real.sin_neg]
      field_simp
      ring
    · ring
  · intro k _
    exact Continuous.intervalIntegrable (by fun_prop) _ _

theorem wOf_series (K : ℕ) (m n : ℕ → ℤ) (c s c' s' : ℕ → ℝ) (θ ζ : ℝ) :
    series K m n (fun k => wCos (m k) (n k) (s k) (s' k)) (fun k => wSin (m k) (n k) (c k) (c' k)) θ ζ =
      wOf (series K m n c s) (series K m n c' s') θ ζ := by
  unfold wOf
  have h1 : (∫ t in (0 : ℝ)..2 * Real.pi, (t - Real.pi) * series K m n c s (θ + t) ζ) =
      ∑ k ∈ range K, (c k * (if m k = 0 then 0 else 2 * Real.pi * (Real.sin (m k * θ - n k * ζ) / m k)) +
        s k * (if m k = 0 then 0 else 2 * Real.pi * (-Real.cos (m k * θ - n k * ζ) / m k))) := by
    unfold series
    simp only [mul_sum]
    rw [intervalIntegral.integral_finsetSum]
    · refine sum_congr rfl fun k _ => ?_
      rw [← int_ramp_cos, ← int_ramp_sin, ← intervalIntegral.integral_const_mul, ← intervalIntegral.integral_const_mul,
        ← intervalIntegral.integral_add (Continuous.intervalIntegrable (by fun_prop) _ _)
          (Continuous.intervalIntegrable (by fun_prop) _ _)]
      refine intervalIntegral.integral_congr fun t _ => ?_
      have : (m k : ℝ) * (θ + t) - n k * ζ = m k * θ - n k * ζ + m k * t := by ring
      simp only [this]
      ring
    · intro k _
      exact Continuous.intervalIntegrable (by fun_prop) _ _
  have h2 : (∫ u in (0 : ℝ)..2 * Real.pi, (u - Real.pi) * meanT (series K m n c' s') (ζ + u)) =
      ∑ k ∈ range K, if m k = 0 then
        (c' k * (if n k = 0 then 0 else 2 * Real.pi * (Real.sin (n k * ζ) / n k)) -
        s' k * (if n k = 0 then 0 else 2 * Real.pi * (-Real.cos (n k * ζ) / n k))) else 0 := by
    simp only [meanT_series, mul_sum]
    rw [intervalIntegral.integral_finsetSum]
    · refine sum_congr rfl fun k _ => ?_
      by_cases hm : m k = 0
      · simp only [hm, if_true]
        rw [← int_ramp_cos, ← int_ramp_sin, ← intervalIntegral.integral_const_mul,
          ← intervalIntegral.integral_const_mul,
          ← intervalIntegral.integral_sub (Continuous.intervalIntegrable (by fun_prop) _ _)
            (Continuous.intervalIntegrable (by fun_prop) _ _)]
        refine intervalIntegral.integral_congr fun u _ => ?_
        simp only [mul_add]
        ring
      · simp [hm]
    · intro k _
      by_cases hm : m k = 0
      · simp only [hm, if_true]
        exact Continuous.intervalIntegrable (by fun_prop) _ _
      · simp [hm]
  rw [h1, h2, mul_sum, mul_sum, ← sum_add_distrib]
  unfold series
  refine sum_congr rfl fun k _ => ?_
  have hpi : Real.pi ≠ 0 := Real.pi_ne_zero
  by_cases hm : m k = 0
  · by_cases hn : n k = 0
    · simp [hm, hn, wCos, wSin]
    · have hn' : (n k : ℝ) ≠ 0 := by exact_mod_cast hn
      have a1 : Real.cos ((m k : ℝ) * θ - n k * ζ) = Real.cos (n k * ζ) := by
        rw [hm, Int.cast_zero, zero_mul, zero_sub, Real.cos_neg]
      have a2 : Real.sin ((m k : ℝ) * θ - n k * ζ) = -Real.sin (n k * ζ) := by
        rw [hm, Int.cast_zero, zero_mul, zero_sub, Real.sin_neg]
      rw [a1, a2]
      simp only [hm, hn, wCos, wSin, ne_eq, not_true_eq_false, not_false_eq_true, if_true, if_false, mul_zero, add_zero,
        zero_add]
      field_simp
      ring
  · have hm' : (m k : ℝ) ≠ 0 := by exact_mod_cast hm
    simp only [hm, wCos, wSin, ne_eq, not_false_eq_true, if_true, if_false, mul_zero, add_zero]
    field_simp
    ring

/-- Mean over both angles. -/
theorem mean_series (K : ℕ) (m n : ℕ → ℤ) (c s : ℕ → ℝ) :
    1 / (2 * Real.pi) * (∫ u in (0 : ℝ)..2 * Real.pi, meanT (series K m n c s) u) =
      ∑ k ∈ range K, if m k = 0 ∧ n k = 0 then c k else 0 := by
  simp only [meanT_series]
  rw [intervalIntegral.integral_finsetSum, mul_sum]
  · refine sum_congr rfl fun k _ => ?_
    by_cases hm : m k = 0
    · simp only [hm, if_true, true_and]
      rw [intervalIntegral.integral_sub (Continuous.intervalIntegrable (by fun_prop) _ _)
        (Continuous.intervalIntegrable (by fun_prop) _ _), intervalIntegral.integral_const_mul,
        intervalIntegral.integral_const_mul]
      have e1 := int_cos 0 (n k)
      have e2 := int_sin 0 (n k)
      simp only [zero_add] at e1 e2
      rw [e1, e2]
      split
      · rw [Real.cos_zero, Real.sin_zero]
        field_simp
        ring
      · ring
    · simp [hm]
  · intro k _
    by_cases hm : m k = 0
    · simp only [hm, if_true]
      exact Continuous.intervalIntegrable (by fun_prop) _ _
    · simp [hm]

/-! ### Congruence -/

/-- The sizes that matter for the values, given the functions. -/
structure DimFn (d₁ d₂ : Dims) : Prop where
  asym : d₁.asym = d₂.asym
  M : d₁.M = d₂.M
  N : d₁.N = d₂.N
  nfp : d₁.nfp = d₂.nfp

namespace DimFn
variable {α : Type} [Arith α] {d₁ d₂ : Dims} (h : DimFn d₁ d₂)
include h
theorem nt : d₁.nt = d₂.nt := by unfold Dims.nt; rw [h.M]
theorem nz : d₁.nz = d₂.nz := by unfold Dims.nz; rw [h.N]
theorem nu2 : d₁.nu2 = d₂.nu2 := by unfold Dims.nu2; rw [h.M]
theorem nu3 : d₁.nu3 = d₂.nu3 := by unfold Dims.nu3; rw [h.asym, h.nt, h.nu2]
theorem np : d₁.np = d₂.np := by unfold Dims.np; rw [h.nu3, h.nz]
theorem nmodes : d₁.nmodes = d₂.nmodes := by unfold Dims.nmodes; rw [h.M, h.N]
theorem gridT : (Booz.gridT d₁ : Nat → α) = Booz.gridT d₂ := by
  funext j; unfold Booz.gridT dTheta; rw [h.nz, h.nt]
theorem gridZ : (Booz.gridZ d₁ : Nat → α) = Booz.gridZ d₂ := by
  funext j; unfold Booz.gridZ dZeta; rw [h.nz, h.nfp]
theorem wt : (Booz.wt d₁ : Nat → α → α) = Booz.wt d₂ := by
  funext j x; unfold Booz.wt; rw [h.asym, h.nz, h.nu2]
theorem facK : (Booz.facK d₁ : Nat → α) = Booz.facK d₂ := by
  funext k; unfold Booz.facK fac0; rw [h.asym, h.nt, h.nz, h.nu2]
theorem chkIdx : Booz.chkIdx d₁ = Booz.chkIdx d₂ := by
  funext c; unfold Booz.chkIdx; rw [h.nt, h.nz]
end DimFn

/-- Agreement of the functions evaluated for a surface. -/
structure FnAgree {α : Type} [Arith α] (d₁ d₂ : Dims) (I₁ I₂ : Inputs α) (j₁ j₂ : Nat) : Prop where
  iota : iotaV I₁ j₁ = iotaV I₂ j₂
  cI : curI I₁ d₁ j₁ = curI I₂ d₂ j₂
  cG : curG I₁ d₁ j₁ = curG I₂ d₂ j₂
  r : rP I₁ d₁ j₁ d₁.mnmax = rP I₂ d₂ j₂ d₂.mnmax
  z : zP I₁ d₁ j₁ d₁.mnmax = zP I₂ d₂ j₂ d₂.mnmax
  l : lP I₁ d₁ j₁ d₁.mnmax = lP I₂ d₂ j₂ d₂.mnmax
  lt : ltP I₁ d₁ j₁ d₁.mnmax = ltP I₂ d₂ j₂ d₂.mnmax
  lz : lzP I₁ d₁ j₁ d₁.mnmax = lzP I₂ d₂ j₂ d₂.mnmax
  w : wP I₁ d₁ j₁ d₁.mnq = wP I₂ d₂ j₂ d₂.mnq
  wt : wtP I₁ d₁ j₁ d₁.mnq = wtP I₂ d₂ j₂ d₂.mnq
  wz : wzP I₁ d₁ j₁ d₁.mnq = wzP I₂ d₂ j₂ d₂.mnq
  b : bP I₁ d₁ j₁ d₁.mnq = bP I₂ d₂ j₂ d₂.mnq

namespace FnAgree
variable {α : Type} [Arith α] {d₁ d₂ : Dims} {I₁ I₂ : Inputs α} {j₁ j₂ : Nat} (h : FnAgree d₁ d₂ I₁ I₂ j₁ j₂)
include h
theorem gi : Booz.gi I₁ d₁ j₁ = Booz.gi I₂ d₂ j₂ := by
  unfold Booz.gi; rw [h.cG, h.iota, h.cI]
theorem nuV : Booz.nuV I₁ d₁ j₁ = Booz.nuV I₂ d₂ j₂ := by
  funext θ ζ
  unfold Booz.nuV oneOverGI; rw [h.gi, h.w, h.l, h.cI]
theorem thB : Booz.thB I₁ d₁ j₁ = Booz.thB I₂ d₂ j₂ := by
  funext θ ζ
  unfold Booz.thB; rw [h.nuV, h.l, h.iota]
theorem zeB : Booz.zeB I₁ d₁ j₁ = Booz.zeB I₂ d₂ j₂ := by
  funext θ ζ
  unfold Booz.zeB; rw [h.nuV]
theorem dBdV : Booz.dBdV I₁ d₁ j₁ = Booz.dBdV I₂ d₂ j₂ := by
  funext θ ζ
  unfold Booz.dBdV nuZ nuT oneOverGI
  rw [h.gi, h.wz, h.wt, h.lz, h.lt, h.iota, h.cI]
theorem jacB : Booz.jacB I₁ d₁ j₁ = Booz.jacB I₂ d₂ j₂ := by
  funext θ ζ
  unfold Booz.jacB; rw [h.gi, h.b]
variable (hd : DimFn d₁ d₂)
include hd
theorem tC : Booz.tC I₁ d₁ j₁ = Booz.tC I₂ d₂ j₂ := by
  funext k j
  unfold Booz.tC
  rw [h.thB, h.zeB, h.dBdV, hd.gridT, hd.gridZ, hd.wt, hd.facK, hd.N, hd.nfp]
theorem tS : Booz.tS I₁ d₁ j₁ = Booz.tS I₂ d₂ j₂ := by
  funext k j
  unfold Booz.tS
  rw [h.thB, h.zeB, h.dBdV, hd.gridT, hd.gridZ, hd.wt, hd.facK, hd.N, hd.nfp]
theorem chkTC : Booz.chkTC I₁ d₁ j₁ = Booz.chkTC I₂ d₂ j₂ := by
  funext c k
  unfold Booz.chkTC chkC chkS chkS0 chkT chkZ
  rw [h.thB, h.zeB, hd.gridT, hd.gridZ, hd.wt, hd.N, hd.nfp, hd.chkIdx]
theorem chkTS : Booz.chkTS I₁ d₁ j₁ = Booz.chkTS I₂ d₂ j₂ := by
  funext c k
  unfold Booz.chkTS chkC chkS chkS0 chkT chkZ
  rw [h.thB, h.zeB, hd.gridT, hd.gridZ, hd.wt, hd.N, hd.nfp, hd.chkIdx]
theorem chkV : Booz.chkV I₁ d₁ j₁ = Booz.chkV I₂ d₂ j₂ := by
  funext c
  unfold Booz.chkV
  rw [h.b, hd.gridT, hd.gridZ, hd.chkIdx]
end FnAgree

section
variable {α : Type} [Arith α] {d₁ d₂ : Dims} {I₁ I₂ : Inputs α}

/-- Column of the outputs. -/
theorem outF_fn (hd : DimFn d₁ d₂) {b : Nat} (h : FnAgree d₁ d₂ I₁ I₂ (surf I₁ b) (surf I₂ b)) (hb₁ : b < d₁.nsb)
    (hb₂ : b < d₂.nsb) (k : Nat) :
    (outF I₁ d₁ d₁.nsb).bc k b = (outF I₂ d₂ d₂.nsb).bc k b ∧
    (outF I₁ d₁ d₁.nsb).rc k b = (outF I₂ d₂ d₂.nsb).rc k b ∧
    (outF I₁ d₁ d₁.nsb).zs k b = (outF I₂ d₂ d₂.nsb).zs k b ∧
    (outF I₁ d₁ d₁.nsb).ns k b = (outF I₂ d₂ d₂.nsb).ns k b ∧
    (outF I₁ d₁ d₁.nsb).gc k b = (outF I₂ d₂ d₂.nsb).gc k b ∧
    (outF I₁ d₁ d₁.nsb).bs k b = (outF I₂ d₂ d₂.nsb).bs k b ∧
    (outF I₁ d₁ d₁.nsb).rs k b = (outF I₂ d₂ d₂.nsb).rs k b ∧
    (outF I₁ d₁ d₁.nsb).zc k b = (outF I₂ d₂ d₂.nsb).zc k b ∧
    (outF I₁ d₁ d₁.nsb).nc k b = (outF I₂ d₂ d₂.nsb).nc k b ∧
    (outF I₁ d₁ d₁.nsb).gs k b = (outF I₂ d₂ d₂.nsb).gs k b := by
  have e : ∀ {T₁ T₂ : Nat → Nat → α} {v₁ v₂ : α → α → α}, T₁ = T₂ → v₁ = v₂ →
      coefF d₁ T₁ v₁ (ofInt 0) k = coefF d₂ T₂ v₂ (ofInt 0) k := by
    rintro T₁ _ v₁ _ rfl rfl
    unfold coefF
    rw [hd.np, hd.gridT, hd.gridZ]
  unfold outF
  simp only [hb₁, hb₂, if_true]
  exact ⟨e (h.tC hd) h.b, e (h.tC hd) h.r, e (h.tS hd) h.z, e (h.tS hd) h.nuV, e (h.tC hd) h.jacB,
    e (h.tS hd) h.b, e (h.tS hd) h.r, e (h.tC hd) h.z, e (h.tC hd) h.nuV, e (h.tS hd) h.jacB⟩

/-- The report of a surface. -/
theorem runReport_fn (hd : DimFn d₁ d₂) {b : Nat} (h : FnAgree d₁ d₂ I₁ I₂ (surf I₁ b) (surf I₂ b))
    (hs : surf I₁ b = surf I₂ b) (hb₁ : b < d₁.nsb) (hb₂ : b < d₂.nsb) : runReport I₁ d₁ b = runReport I₂ d₂ b := by
  have e : ∀ c, chkB I₁ d₁ (surf I₁ b) b (outF I₁ d₁ d₁.nsb) c d₁.nmodes =
      chkB I₂ d₂ (surf I₂ b) b (outF I₂ d₂ d₂.nsb) c d₂.nmodes := by
    intro c
    unfold chkB
    rw [h.chkTC hd, h.chkTS hd, hd.nmodes, hd.asym]
    refine acc2_congr' (fun k _ => ?_) (fun _ k _ => ?_)
    · rw [(outF_fn hd h hb₁ hb₂ k).1]
    · rw [(outF_fn hd h hb₁ hb₂ k).2.2.2.2.2.1]
  unfold runReport reportOf
  simp only [e, h.chkV hd]
  rw [hs]

end

end Booz
