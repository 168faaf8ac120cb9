import Verif.Lemmas.QuadCoef

/-!
# The four check points in exact arithmetic
-/

open Finset

namespace Booz
open Spec

/-- Poloidal angle of check point `c`. -/
noncomputable def ptT (c : ℕ) : ℝ := if c = 1 ∨ c = 3 then Real.pi else 0
/-- Toroidal angle of check point `c`. -/
noncomputable def ptZ (d : Dims) (c : ℕ) : ℝ := if (c = 2 ∨ c = 3) ∧ d.N ≠ 0 then Real.pi / d.nfp else 0

theorem chk_gridT (d : Dims) {c : ℕ} (hc : c < 4) : (gridT d (chkIdx d c) : ℝ) = ptT c := by
  have hz := nz_pos d
  rw [gridT_real]
  have e : d.nt / 2 = 2 * d.M + 1 := by unfold Dims.nt; omega
  have e' : (d.nt : ℝ) = 2 * ((2 * d.M + 1 : ℕ) : ℝ) := by unfold Dims.nt; push_cast; ring
  have hh : ((2 * d.M + 1 : ℕ) : ℝ) ≠ 0 := by positivity
  have hhalf : d.nz / 2 < d.nz := by omega
  unfold chkIdx ptT
  rw [e]
  have c4 : c = 0 ∨ c = 1 ∨ c = 2 ∨ c = 3 := by omega
  rcases c4 with rfl | rfl | rfl | rfl
  · simp
  · simp only [one_ne_zero, if_false, if_true, true_or]
    rw [Nat.mul_div_cancel _ (by omega), e']
    field_simp
  · simp only [OfNat.ofNat_ne_zero, OfNat.ofNat_ne_one, if_false, if_true]
    rw [Nat.div_eq_of_lt hhalf]
    simp
  · simp only [OfNat.ofNat_ne_zero, OfNat.ofNat_ne_one, if_false, or_true, if_true,
      show ¬ (3 : ℕ) = 2 by omega]
    rw [Mat.idx_div hhalf, e']
    field_simp

theorem chk_gridZ (d : Dims) (hp : 1 ≤ d.nfp) {c : ℕ} (hc : c < 4) :
    (gridZ d (chkIdx d c) : ℝ) = ptZ d c := by
  have hz := nz_pos d
  rw [gridZ_real]
  have hhalf : d.nz / 2 < d.nz := by omega
  have hp' : (d.nfp : ℝ) ≠ 0 := by positivity
  have hq : 2 * Real.pi * ((d.nz / 2 : ℕ) : ℝ) / (d.nfp * d.nz) =
      if d.N ≠ 0 then Real.pi / d.nfp else 0 := by
    by_cases h0 : d.N = 0
    · have : d.nz = 1 := by simp [Dims.nz, h0]
      simp [h0, this]
    · have e1 : d.nz / 2 = 2 * d.N + 1 := by simp [Dims.nz, h0]
      have e2 : (d.nz : ℝ) = 2 * ((2 * d.N + 1 : ℕ) : ℝ) := by
        simp only [Dims.nz, h0, if_false]; push_cast; ring
      have hh : ((2 * d.N + 1 : ℕ) : ℝ) ≠ 0 := by positivity
      rw [e1, e2, if_pos h0]
      field_simp
  unfold chkIdx ptZ
  have c4 : c = 0 ∨ c = 1 ∨ c = 2 ∨ c = 3 := by omega
  rcases c4 with rfl | rfl | rfl | rfl
  · simp
  · simp
  · simp only [OfNat.ofNat_ne_zero, OfNat.ofNat_ne_one, if_false, if_true, true_or, true_and]
    rw [Nat.mod_eq_of_lt hhalf, hq]
  · simp only [OfNat.ofNat_ne_zero, OfNat.ofNat_ne_one, if_false, or_true, true_and,
      show ¬ (3 : ℕ) = 2 by omega]
    rw [Mat.idx_mod hhalf, hq]

theorem chkAsserts_real (d : Dims) (hp : 1 ≤ d.nfp) : ChkAsserts d ℝ := by
  have tiny : (Arith.absTiny (0 : ℝ)) = true := by
    show decide (|(0 : ℝ)| < 1 / 10 ^ 13) = true
    simp
  have hza : (if (d.nz : Int) > 1 then (Arith.pi : ℝ) / ofInt (d.nfp : Int) else ofInt 0) =
      if d.N ≠ 0 then Real.pi / d.nfp else 0 := by
    by_cases h0 : d.N = 0
    · simp [Dims.nz, h0]
    · have : (d.nz : Int) > 1 := by simp only [Dims.nz, h0, if_false]; omega
      simp [this, h0]
  unfold ChkAsserts
  simp only [hza, chk_gridT d (show 0 < 4 by omega), chk_gridT d (show 1 < 4 by omega),
    chk_gridT d (show 2 < 4 by omega), chk_gridT d (show 3 < 4 by omega),
    chk_gridZ d hp (show 0 < 4 by omega), chk_gridZ d hp (show 1 < 4 by omega),
    chk_gridZ d hp (show 2 < 4 by omega), chk_gridZ d hp (show 3 < 4 by omega)]
  simp [ptT, ptZ, tiny]

/-- `run` in exact arithmetic, in any build. -/
theorem run_real {dbg : Bool} {s : St ℝ} {d : Dims} (h : RunReady s.inp d)
    (h0 : dbg = true → OriginFirst s.inp) :
    run dbg s = .ok (runSt d s d.nsb, runReports s.inp d d.nsb) :=
  run_ok h h0 fun _ _ => chkAsserts_real d h.nfp_pos

theorem originOnce_first {I : Inputs ℝ} {d : Dims} (h : RunReady I d) (ho : OriginOnce I) :
    OriginFirst I := by
  have h1 := h.mnmax_nyq_ge
  have := (ho 0 (by rw [h.xm_nyq.1]; omega)).mpr rfl
  exact this

end Booz
