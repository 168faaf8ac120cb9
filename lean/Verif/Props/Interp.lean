import Verif.Lemmas.Bends
import Verif.Props.LoadReal
import Verif.Props.LoadRounding
import Verif.Props.Uniform
import Verif.Props.Covariance

/-!
# C112: accuracy of the radial interpolation of R and Z
-/

open Function

namespace Booz
open Spec

/-- What is loaded for one harmonic. -/
theorem interp_error {ns : Int} {A : VmecArgs ℝ} {s s' : St ℝ} {z : Sizes} {u : Unit}
    (hg : Given A s.inp z) (h : initFromVmec ns A s = .ok u s') {a b : Mat ℝ}
    (hp : (a, b) ∈ Spec.rzPairs z.asym A s'.inp) {j k : Nat} (hj : (j : Int) < z.mnmax)
    (hk : (k : Int) < ns - 1) {m : Int} (hm : s.inp.xm.rdN j = .ok m) {x : ℝ → ℝ} {K : ℝ}
    (hx : RegularProfile m x K)
    (ha : ∀ i : Nat, (i : Int) < ns → a.rdN j i = .ok (x (sFull ns i))) :
    ∃ v, b.rdN j k = .ok v ∧ |v - x (sHalfPt ns k)| ≤ 3 / 8 * K / ((ns : ℝ) - 1) ^ 2 ∧
      (m ≠ 1 ∨ k ≠ 0 → |v - x (sHalfPt ns k)| ≤ 1 / 8 * K / ((ns : ℝ) - 1) ^ 2) := by
  obtain ⟨_, _, C, L⟩ := vmec_inv hg h
  have hns := C.ns_ge
  have h2 : (2 : ℝ) ≤ ns := by exact_mod_cast hns
  set D : ℝ := (ns : ℝ) - 1 with hD
  have hDp : 0 < D := by rw [hD]; linarith
  have hk1 : (k : ℝ) + 1 ≤ D := by
    have : (k : ℤ) + 1 ≤ ns - 1 := by omega
    rw [hD]; exact_mod_cast this
  have k0 : (0 : ℝ) ≤ k := Nat.cast_nonneg k
  have eL : sHalfPt ns k - 1 / (2 * D) = sFull ns k := by
    unfold sHalfPt sFull; rw [← hD]; field_simp; ring
  have eR : sHalfPt ns k + 1 / (2 * D) = sFull ns (k + 1) := by
    unfold sHalfPt sFull; rw [← hD]; push_cast; field_simp; ring
  have mL : sFull ns k ∈ Set.Icc (0 : ℝ) 1 := by
    unfold sFull; rw [← hD]
    exact ⟨by positivity, by rw [div_le_one hDp]; linarith⟩
  have mR : sFull ns (k + 1) ∈ Set.Icc (0 : ℝ) 1 := by
    unfold sFull; rw [← hD]; push_cast
    exact ⟨by positivity, by rw [div_le_one hDp]; linarith⟩
  have mH : sHalfPt ns k ∈ Set.Icc (0 : ℝ) 1 := by
    unfold sHalfPt; rw [← hD]
    exact ⟨by positivity, by rw [div_le_one hDp]; linarith⟩
  have mean : ∀ {f : ℝ → ℝ}, Bends f K →
      |(f (sFull ns k) + f (sFull ns (k + 1))) / 2 - f (sHalfPt ns k)| ≤ 1 / 8 * K / D ^ 2 := by
    intro f H
    have := bends_mean H (p := sHalfPt ns k) (h := 1 / (2 * D)) (by rw [eL]; exact mL) (by rw [eR]; exact mR)
    rw [eL, eR] at this
    refine this.trans (le_of_eq ?_)
    field_simp
    norm_num
  have weak : ∀ {y : ℝ}, 0 ≤ K → y ≤ 1 / 8 * K / D ^ 2 → y ≤ 3 / 8 * K / D ^ 2 := by
    intro y hK hy
    refine hy.trans ?_
    have : 0 ≤ K / D ^ 2 := by positivity
    have e1 : 1 / 8 * K / D ^ 2 = 1 / 8 * (K / D ^ 2) := by ring
    have e2 : 3 / 8 * K / D ^ 2 = 3 / 8 * (K / D ^ 2) := by ring
    rw [e1, e2]; linarith
  rcases hx with ⟨he, H⟩ | ⟨ho, g, H, hz, hxg⟩
  · obtain ⟨p, q, v, h1, h3, h4, h5, _⟩ := C10_even_modes hg h hp hj hk hm he
    rw [ha k (by omega)] at h1
    rw [ha (k + 1) (by omega)] at h3
    have b1 := mean H
    rw [Except.ok.inj h1, Except.ok.inj h3, ← h5] at b1
    exact ⟨v, h4, weak (bends_nonneg H) b1, fun _ => b1⟩
  · obtain ⟨q, h1, h3⟩ := C11_odd_formula hg h hp hj hk hm ho
    have hq : ∀ i : Nat, (i : Int) < ns → q i = x (sFull ns i) := by
      intro i hi
      have e := h1 i hi
      rw [ha i hi] at e
      exact (Except.ok.inj e).symm
    have mem : ∀ i : Nat, (i : Int) < ns → sFull ns i ∈ Set.Icc (0 : ℝ) 1 := by
      intro i hi
      have hi' : (i : ℝ) ≤ D := by
        have : (i : ℤ) ≤ ns - 1 := by omega
        rw [hD]; exact_mod_cast this
      unfold sFull; rw [← hD]
      exact ⟨by positivity, by rw [div_le_one hDp]; exact hi'⟩
    have hdiv : ∀ i : Nat, i ≠ 0 → (i : Int) < ns → q i / Real.sqrt (sFull ns i) = g (sFull ns i) := by
      intro i h0 hi
      rw [hq i hi, hxg _ (mem i hi)]
      exact mul_div_cancel_left₀ _ (Real.sqrt_pos.mpr (sFull_pos hns h0)).ne'
    have key : ∀ {w e : ℝ}, |w - g (sHalfPt ns k)| ≤ e →
        |Real.sqrt (sHalfPt ns k) * w - x (sHalfPt ns k)| ≤ e := by
      intro w e hw
      have : Real.sqrt (sHalfPt ns k) * w - x (sHalfPt ns k) = Real.sqrt (sHalfPt ns k) * (w - g (sHalfPt ns k)) := by
        rw [hxg _ mH]; ring
      rw [this, abs_mul, abs_of_nonneg (Real.sqrt_nonneg _)]
      have s1 : Real.sqrt (sHalfPt ns k) ≤ 1 := by rw [← Real.sqrt_one]; exact Real.sqrt_le_sqrt mH.2
      exact (mul_le_of_le_one_left (abs_nonneg _) s1).trans hw
    refine ⟨_, h3, ?_⟩
    by_cases hk0 : k = 0
    · subst hk0
      have f0 : sFull ns 0 = 0 := by unfold sFull; simp
      rw [if_pos rfl]
      by_cases hm1 : m = 1
      · rw [if_pos hm1]
        have hm' : s.inp.xm.val 0 j = 1 := by
          have := hg.lists.xm.rdN 0 (i := j) (by have := C.modes.xm_len; omega)
          rw [this] at hm
          rw [Except.ok.inj hm, hm1]
        have h3s : (3 : ℤ) ≤ ns := L.axis j (by have := C.modes.xm_len; omega) hm'
        rw [hdiv 1 one_ne_zero (by omega), hdiv 2 two_ne_zero (by omega)]
        refine ⟨key ?_, fun hc => absurd hc (by simp [hm1])⟩
        have e1 : sFull ns 1 = 1 / D := by unfold sFull; rw [← hD]; simp
        have e2 : sFull ns 2 = 2 * (1 / D) := by unfold sFull; rw [← hD]; push_cast; ring
        have e3 : sHalfPt ns 0 = 1 / D / 2 := by unfold sHalfPt; rw [← hD]; push_cast; field_simp; norm_num
        have h3r : (3 : ℝ) ≤ ns := by exact_mod_cast h3s
        have := bends_extrapolate H (h := 1 / D) (by positivity) (by
          rw [← e2]; exact (mem 2 (by omega)).2)
        rw [e1, e2, e3]
        refine this.trans (le_of_eq ?_)
        field_simp
      · rw [if_neg hm1]
        have b1 := mean H
        rw [f0, hz hm1] at b1
        have q0 : q 0 = 0 := by
          rw [hq 0 (by omega), hxg _ (mem 0 (by omega)), f0]; simp
        rw [q0, hdiv 1 one_ne_zero (by omega)]
        exact ⟨weak (bends_nonneg H) (key b1), fun _ => key b1⟩
    · rw [if_neg hk0, hdiv k hk0 (by omega), hdiv (k + 1) (by omega) (by omega)]
      exact ⟨weak (bends_nonneg H) (key (mean H)), fun _ => key (mean H)⟩

/-- **C112, harmonics.**  If the arguments of a load hold, on the full grid of `ns` surfaces, harmonics of R and Z
that are regular at the axis with second derivatives bounded by `K`, every loaded harmonic is within
`3/8 K/(ns-1)²` of the exact one at its half-grid point, and within `1/8 K/(ns-1)²` except for `m = 1` on the innermost
surface. -/
theorem C112_harmonics {ns : Int} {A : VmecArgs ℝ} {s s' : St ℝ} {z : Sizes} {u : Unit}
    (hg : Given A s.inp z) (h : initFromVmec ns A s = .ok u s') {P : FluxShape} {K : ℝ}
    (hP : P.Regular s.inp.xm z.asym K) (hA : P.Stored ns s.inp.xm.size z.asym A) :
    ∀ p ∈ [(P.rc, s'.inp.rmnc), (P.zs, s'.inp.zmns)] ++
        (if z.asym = true then [(P.rs, s'.inp.rmns), (P.zc, s'.inp.zmnc)] else []),
      ∀ j < s.inp.xm.size, ∀ k : ℕ, (k : ℤ) < ns - 1 →
        ∃ v, p.2.rdN j k = .ok v ∧
          |v - p.1 j (((k : ℝ) + 1 / 2) / ((ns : ℝ) - 1))| ≤ 3 / 8 * K / ((ns : ℝ) - 1) ^ 2 ∧
          (s.inp.xm.val 0 j ≠ 1 ∨ k ≠ 0 →
            |v - p.1 j (((k : ℝ) + 1 / 2) / ((ns : ℝ) - 1))| ≤ 1 / 8 * K / ((ns : ℝ) - 1) ^ 2) := by
  intro p hp j hj k hk
  obtain ⟨_, _, C, _⟩ := vmec_inv hg h
  have hl := C.modes.xm_len
  have hm := hg.lists.xm.rdN 0 (i := j) hj
  have go : ∀ {x : ℕ → ℝ → ℝ} {a b : Mat ℝ}, (a, b) ∈ Spec.rzPairs z.asym A s'.inp →
      (∀ j < s.inp.xm.size, RegularProfile (s.inp.xm.val 0 j) (x j) K) → OnFullGrid ns s.inp.xm.size x a →
      ∃ v, b.rdN j k = .ok v ∧
          |v - x j (((k : ℝ) + 1 / 2) / ((ns : ℝ) - 1))| ≤ 3 / 8 * K / ((ns : ℝ) - 1) ^ 2 ∧
          (s.inp.xm.val 0 j ≠ 1 ∨ k ≠ 0 →
            |v - x j (((k : ℝ) + 1 / 2) / ((ns : ℝ) - 1))| ≤ 1 / 8 * K / ((ns : ℝ) - 1) ^ 2) :=
    fun hab hx hon => interp_error hg h hab (by omega) hk hm (hx j hj) fun i hi => hon j hj i hi
  rcases List.mem_append.mp hp with hp | hp
  · rcases List.mem_cons.mp hp with rfl | hp
    · exact go (List.mem_append_left _ (by simp)) hP.rc hA.rc
    · rw [List.mem_singleton] at hp; subst hp
      exact go (List.mem_append_left _ (by simp)) hP.zs hA.zs
  · split at hp
    · next ha =>
      rcases List.mem_cons.mp hp with rfl | hp
      · exact go (List.mem_append_right _ (by rw [if_pos ha]; simp)) (hP.rs ha) (hA.rs ha)
      · rw [List.mem_singleton] at hp; subst hp
        exact go (List.mem_append_right _ (by rw [if_pos ha]; simp)) (hP.zc ha) (hA.zc ha)
    · exact absurd hp List.not_mem_nil

/-- Series with nearby coefficients. -/
theorem series_within {K : ℕ} {m n : ℕ → ℤ} {a b a' b' : ℕ → ℝ} {e : ℝ} (ha : ∀ k < K, |a k - a' k| ≤ e)
    (hb : ∀ k < K, |b k - b' k| ≤ e) (θ ζ : ℝ) :
    |series K m n a b θ ζ - series K m n a' b' θ ζ| ≤ 2 * K * e := by
  unfold series
  rw [← Finset.sum_sub_distrib]
  refine (Finset.abs_sum_le_sum_abs _ _).trans ?_
  have : ∀ k ∈ Finset.range K, |a k * Real.cos (m k * θ - n k * ζ) + b k * Real.sin (m k * θ - n k * ζ) -
      (a' k * Real.cos (m k * θ - n k * ζ) + b' k * Real.sin (m k * θ - n k * ζ))| ≤ 2 * e := by
    intro k hk
    have hk := Finset.mem_range.mp hk
    have e1 : a k * Real.cos (m k * θ - n k * ζ) + b k * Real.sin (m k * θ - n k * ζ) -
        (a' k * Real.cos (m k * θ - n k * ζ) + b' k * Real.sin (m k * θ - n k * ζ)) =
        (a k - a' k) * Real.cos (m k * θ - n k * ζ) + (b k - b' k) * Real.sin (m k * θ - n k * ζ) := by ring
    rw [e1]
    refine (abs_add_le _ _).trans ?_
    rw [abs_mul, abs_mul]
    have h1 := mul_le_of_le_one_right (abs_nonneg (a k - a' k)) (Real.abs_cos_le_one (m k * θ - n k * ζ))
    have h2 := mul_le_of_le_one_right (abs_nonneg (b k - b' k)) (Real.abs_sin_le_one (m k * θ - n k * ζ))
    linarith [ha k hk, hb k hk]
  refine (Finset.sum_le_sum this).trans (le_of_eq ?_)
  rw [Finset.sum_const, Finset.card_range, nsmul_eq_mul]
  ring

theorem loaded_modes {ns : Int} {A : VmecArgs ℝ} {s s' : St ℝ} {z : Sizes} {u : Unit}
    (hg : Given A s.inp z) (h : initFromVmec ns A s = .ok u s') : s'.inp.xm = s.inp.xm ∧ s'.inp.xn = s.inp.xn := by
  rw [vmec_result hg h]
  exact ⟨rfl, rfl⟩

/-- **C112, surfaces.**  The surface described by the loaded harmonics is within `3/4 K mnmax/(ns-1)²` of the exact one
at its half-grid point, in R and in Z, for all angles. -/
theorem C112_surfaces {ns : Int} {A : VmecArgs ℝ} {s s' : St ℝ} {z : Sizes} {u : Unit}
    (hg : Given A s.inp z) (h : initFromVmec ns A s = .ok u s') {P : FluxShape} {K : ℝ}
    (hP : P.Regular s.inp.xm z.asym K) (hA : P.Stored ns s.inp.xm.size z.asym A) {k : ℕ} (hk : (k : ℤ) < ns - 1) (θ ζ : ℝ) :
    |(surface s'.inp z.asym k).R θ ζ - P.R s.inp z.asym (((k : ℝ) + 1 / 2) / ((ns : ℝ) - 1)) θ ζ| ≤
      3 / 4 * K * z.mnmax / ((ns : ℝ) - 1) ^ 2 ∧
    |(surface s'.inp z.asym k).Z θ ζ - P.Z s.inp z.asym (((k : ℝ) + 1 / 2) / ((ns : ℝ) - 1)) θ ζ| ≤
      3 / 4 * K * z.mnmax / ((ns : ℝ) - 1) ^ 2 := by
  obtain ⟨_, _, C, _⟩ := vmec_inv hg h
  have hl := C.modes.xm_len
  have H := C112_harmonics hg h hP hA
  obtain ⟨em, en⟩ := loaded_modes hg h
  have near : ∀ {x : ℕ → ℝ → ℝ} {b : Mat ℝ}, (x, b) ∈ [(P.rc, s'.inp.rmnc), (P.zs, s'.inp.zmns)] ++
        (if z.asym = true then [(P.rs, s'.inp.rmns), (P.zc, s'.inp.zmnc)] else []) → ∀ j < s.inp.xm.size,
      |entry b j k - x j (((k : ℝ) + 1 / 2) / ((ns : ℝ) - 1))| ≤ 3 / 8 * K / ((ns : ℝ) - 1) ^ 2 := by
    intro x b hb j hj
    obtain ⟨v, h1, h2, _⟩ := H _ hb j hj k hk
    have : entry b j k = v := Mat.val_of_rdN 0 h1
    rwa [this]
  have only : ∀ {x : ℕ → ℝ → ℝ} {b : Mat ℝ}, (z.asym = true → ∀ j < s.inp.xm.size,
      |entry b j k - x j (((k : ℝ) + 1 / 2) / ((ns : ℝ) - 1))| ≤ 3 / 8 * K / ((ns : ℝ) - 1) ^ 2) →
      ∀ j < s.inp.xm.size, |onlyIf z.asym (entry b j k) -
        onlyIf z.asym (x j (((k : ℝ) + 1 / 2) / ((ns : ℝ) - 1)))| ≤ 3 / 8 * K / ((ns : ℝ) - 1) ^ 2 := by
    intro x b hb j hj
    unfold onlyIf
    split
    · next ha => exact hb ha j hj
    · rw [sub_self, abs_zero]
      have n1 := near (x := P.rc) (b := s'.inp.rmnc) (List.mem_append_left _ (by simp)) j hj
      exact (abs_nonneg _).trans n1
  have e : (2 : ℝ) * (s.inp.xm.size : ℕ) * (3 / 8 * K / ((ns : ℝ) - 1) ^ 2) = 3 / 4 * K * z.mnmax / ((ns : ℝ) - 1) ^ 2 := by
    have : ((s.inp.xm.size : ℕ) : ℝ) = (z.mnmax : ℝ) := by exact_mod_cast hl
    rw [this]; ring
  rw [← e]
  unfold surface FluxShape.R FluxShape.Z
  dsimp only
  rw [em, en]
  constructor
  · exact series_within (near (List.mem_append_left _ (by simp)))
      (only fun ha => near (List.mem_append_right _ (by rw [if_pos ha]; simp))) θ ζ
  · exact series_within (only fun ha => near (List.mem_append_right _ (by rw [if_pos ha]; simp)))
      (near (List.mem_append_left _ (by simp))) θ ζ

theorem gridSum_near {nt nz nfp : ℕ} {F : ℝ → ℝ → ℝ} {e : ℝ} (h : ∀ θ ζ, |F θ ζ| ≤ e) :
    |gridSum nt nz nfp F| ≤ nt * nz * e := by
  unfold gridSum
  refine (Finset.abs_sum_le_sum_abs _ _).trans ?_
  have : ∀ a ∈ Finset.range nt, |∑ b ∈ Finset.range nz, F (2 * Real.pi * a / nt) (2 * Real.pi * b / (nfp * nz))| ≤ nz * e := by
    intro a _
    refine (Finset.abs_sum_le_sum_abs _ _).trans ((Finset.sum_le_sum fun b _ => h _ _).trans (le_of_eq ?_))
    rw [Finset.sum_const, Finset.card_range, nsmul_eq_mul]
  refine (Finset.sum_le_sum this).trans (le_of_eq ?_)
  rw [Finset.sum_const, Finset.card_range, nsmul_eq_mul]
  ring

theorem factor_grid {nt nz : ℕ} (ht : 1 ≤ nt) (hz : 1 ≤ nz) (m n : ℤ) {G e : ℝ} (h : |G| ≤ nt * nz * e) :
    |(if m = 0 ∧ n = 0 then 1 else 2) / ((nt : ℝ) * nz) * G| ≤ 2 * e := by
  have h1 : (0 : ℝ) < nt := by exact_mod_cast ht
  have h2 : (0 : ℝ) < nz := by exact_mod_cast hz
  have h3 : |(if m = 0 ∧ n = 0 then 1 else 2 : ℝ)| ≤ 2 := by split <;> norm_num
  rw [abs_mul, abs_div, abs_of_pos (mul_pos h1 h2)]
  calc _ ≤ 2 / ((nt : ℝ) * nz) * (nt * nz * e) := by gcongr
    _ = 2 * e := by field_simp

theorem quad_near {S : Surface} {nt nz nfp : ℕ} (ht : 1 ≤ nt) (hz : 1 ≤ nz) {J e : ℝ} (hJ : ∀ θ ζ, |S.det θ ζ| ≤ J)
    (he : 0 ≤ e) {q q' : ℝ → ℝ → ℝ} (hq : ∀ θ ζ, |q θ ζ - q' θ ζ| ≤ e) (m n : ℤ) :
    |S.quadCos nt nz nfp q m n - S.quadCos nt nz nfp q' m n| ≤ 2 * (J * e) ∧
    |S.quadSin nt nz nfp q m n - S.quadSin nt nz nfp q' m n| ≤ 2 * (J * e) := by
  have hJ0 : 0 ≤ J := (abs_nonneg _).trans (hJ 0 0)
  have hd : q = fun θ ζ => q' θ ζ + (q θ ζ - q' θ ζ) := by funext θ ζ; ring
  have prod : ∀ θ ζ t, |t| ≤ 1 → |(q θ ζ - q' θ ζ) * S.det θ ζ * t| ≤ J * e := by
    intro θ ζ t h1
    rw [abs_mul, abs_mul]
    calc _ ≤ e * J * 1 := by gcongr; exacts [hq θ ζ, hJ θ ζ]
      _ = J * e := by ring
  constructor
  · have e1 : S.quadCos nt nz nfp q m n - S.quadCos nt nz nfp q' m n =
        S.quadCos nt nz nfp (fun θ ζ => q θ ζ - q' θ ζ) m n := by
      conv_lhs => rw [hd]
      rw [quadCos_add]; ring
    rw [e1, quadCos_eq]
    exact factor_grid ht hz m n (gridSum_near fun θ ζ => prod θ ζ _ (Real.abs_cos_le_one _))
  · have e1 : S.quadSin nt nz nfp q m n - S.quadSin nt nz nfp q' m n =
        S.quadSin nt nz nfp (fun θ ζ => q θ ζ - q' θ ζ) m n := by
      conv_lhs => rw [hd]
      rw [quadSin_add]; ring
    rw [e1, quadSin_eq]
    exact factor_grid ht hz m n (gridSum_near fun θ ζ => prod θ ζ _ (Real.abs_sin_le_one _))

/-- **C112, outputs.**  Loading and transforming: every harmonic of R and Z in the output is within
`3/2 J K mnmax/(ns-1)²` of the one obtained on the same grid from the exact surface, where `J` bounds the determinant of
the Boozer angles (it does not depend on R and Z). -/
theorem C112_outputs {ns : Int} {A : VmecArgs ℝ} {s s' : St ℝ} {z : Sizes} {u : Unit}
    (hg : Given A s.inp z) (h : initFromVmec ns A s = .ok u s') {P : FluxShape} {K : ℝ}
    (hP : P.Regular s.inp.xm z.asym K) (hA : P.Stored ns s.inp.xm.size z.asym A)
    {V : Vec ℤ} {M N v : ℤ} {d : Dims} (hr : RunReady (settings V M N v s').inp d)
    (hp : FieldPeriodic s'.inp d.nfp) (ho : OriginOnce s'.inp)
    (_hreg : ∀ b < d.nsb, (surface s'.inp d.asym (V.val 0 b).toNat).Regular) {J : ℝ}
    (hJ : ∀ b < d.nsb, ∀ θ ζ, |(surface s'.inp d.asym (V.val 0 b).toNat).det θ ζ| ≤ J) (dbg : Bool) :
    ∃ t r, run dbg (settings V M N v s') = .ok (t, r) ∧
      ∀ b < d.nsb, ∀ k < numModes d.M d.N,
        let T := surface s'.inp d.asym (V.val 0 b).toNat
        let σ := (((V.val 0 b).toNat : ℝ) + 1 / 2) / ((ns : ℝ) - 1)
        let C := T.quadCos (ntheta d.M) (nzeta d.N) d.nfp
        let D := T.quadSin (ntheta d.M) (nzeta d.N) d.nfp
        let e := 3 / 2 * J * K * z.mnmax / ((ns : ℝ) - 1) ^ 2
        ∃ m n, t.out.xm_b.rdN k = .ok m ∧ t.out.xn_b.rdN k = .ok n ∧
          (∃ x, t.out.spec.rmnc_b.rdN k b = .ok x ∧ |x - C (P.R s.inp z.asym σ) m n| ≤ e) ∧
          (∃ x, t.out.spec.zmns_b.rdN k b = .ok x ∧ |x - D (P.Z s.inp z.asym σ) m n| ≤ e) ∧
          (z.asym = true →
            (∃ x, t.out.spec.rmns_b.rdN k b = .ok x ∧ |x - D (P.R s.inp z.asym σ) m n| ≤ e) ∧
            (∃ x, t.out.spec.zmnc_b.rdN k b = .ok x ∧ |x - C (P.Z s.inp z.asym σ) m n| ≤ e)) := by
  obtain ⟨_, ha, hns, -, -⟩ := ready_loaded hg h hg h ⟨rfl, rfl, rfl, rfl, rfl⟩ hr
  refine ⟨_, _, originFirst_of hr ho dbg, fun b hb k hk => ?_⟩
  intro T σ C D e
  have hb' : (V.val 0 b).toNat < d.ns := sel_lt (s := settings V M N v s') hr hb
  have SP := spectrum_at (s := settings V M N v s') hr hp ho hb hk
  have hsf := C112_surfaces hg h hP hA (k := (V.val 0 b).toNat) (by omega)
  rw [← ha] at hsf
  have hD : (0 : ℝ) ≤ 3 / 4 * K * z.mnmax / ((ns : ℝ) - 1) ^ 2 := (abs_nonneg _).trans (hsf 0 0).1
  have qR := quad_near (S := T) (nfp := d.nfp) (ntheta_pos d.M) (nzeta_pos d.N) (hJ b hb) hD (fun θ ζ => (hsf θ ζ).1)
    (modeM d.N k) (modeN d.N k * d.nfp)
  have qZ := quad_near (S := T) (nfp := d.nfp) (ntheta_pos d.M) (nzeta_pos d.N) (hJ b hb) hD (fun θ ζ => (hsf θ ζ).2)
    (modeM d.N k) (modeN d.N k * d.nfp)
  have ee : 2 * (J * (3 / 4 * K * z.mnmax / ((ns : ℝ) - 1) ^ 2)) = e := by
    show _ = 3 / 2 * J * K * z.mnmax / ((ns : ℝ) - 1) ^ 2
    ring
  rw [ee] at qR qZ
  have hm : (runSt d (settings V M N v s') d.nsb).out.xm_b.rdN k = .ok (modeM d.N k : ℤ) := Vec.rdN_tab hk
  have hn : (runSt d (settings V M N v s') d.nsb).out.xn_b.rdN k = .ok (modeN d.N k * d.nfp) := Vec.rdN_tab hk
  rw [← ha]
  exact ⟨_, _, hm, hn, ⟨_, SP.2.1, qR.1⟩, ⟨_, SP.2.2.1, qZ.2⟩, fun hx =>
    ⟨⟨_, (SP.2.2.2.2.2 hx).2.1, qR.2⟩, ⟨_, (SP.2.2.2.2.2 hx).2.2.1, qZ.1⟩⟩⟩

/-- The determinant is bounded on every surface. -/
theorem det_bounded {s : St ℝ} {d : Dims} (h : RunReady s.inp d) (hp : FieldPeriodic s.inp d.nfp) (n : ℕ) :
    ∃ J, ∀ b < n, ∀ θ ζ, |(surface s.inp d.asym (selected s.inp b)).det θ ζ| ≤ J := by
  induction n with
  | zero => exact ⟨0, fun b hb => absurd hb (Nat.not_lt_zero b)⟩
  | succ n ih =>
    obtain ⟨J, hJ⟩ := ih
    obtain ⟨hl, hw, -⟩ := surf_per h hp d.asym (selected s.inp n)
    have pd : PerF d.nfp (surface s.inp d.asym (selected s.inp n)).det := det_per hl hw
    have h1 : (0 : ℝ) < d.nfp := by exact_mod_cast h.nfp_pos
    obtain ⟨J', hJ'⟩ := pd.dper.bounded (by positivity) (by positivity)
      (ContDiff.continuous (smooth_surface s.inp d.asym (selected s.inp n)).det)
    refine ⟨max J J', fun b hb θ ζ => ?_⟩
    rcases Nat.lt_succ_iff_lt_or_eq.mp hb with hb | rfl
    · exact (hJ b hb θ ζ).trans (le_max_left _ _)
    · exact (hJ' (θ, ζ)).trans (le_max_right _ _)

/-! ### Non-vacuity -/

/-- A shape with curved profiles: `10 + s²` and `s²` for the modes with `m = 0`, `√s (1 + s²)` for the mode with
`m = 1`. -/
noncomputable def Ex.curved : FluxShape where
  rc j s := if j = 2 then Real.sqrt s * (1 + s ^ 2) else if j = 0 then 10 + s ^ 2 else s ^ 2
  rs _ _ := 0
  zc _ _ := 0
  zs j s := if j = 2 then Real.sqrt s * (2 + s ^ 2) else s ^ 2

theorem Ex.bends_square (c : ℝ) : Bends (fun s => c + s ^ 2) 2 := by
  refine ⟨fun s => 2 * s, fun s _ => ?_, fun s _ t _ => ?_⟩
  · refine (((hasDerivWithinAt_id s _).pow 2).const_add c).congr_deriv ?_
    push_cast
    simp
  · rw [← mul_sub, abs_mul, abs_of_pos (by norm_num : (0 : ℝ) < 2)]

theorem Ex.bends_square0 : Bends (fun s => s ^ 2) 2 := by
  have := Ex.bends_square 0
  simpa using this

/-- Arguments that hold this shape on four surfaces. -/
noncomputable def Ex.vmecCurved : VmecArgs ℝ :=
  { Ex.vmec with
    rmnc := Mat.tab 3 4 fun j i => Ex.curved.rc j (sFull 4 i)
    zmns := Mat.tab 3 4 fun j i => Ex.curved.zs j (sFull 4 i) }

theorem Ex.curved_regular : Ex.curved.Regular (Ex.vst (α := ℝ) false).inp.xm false 2 := by
  have val : ∀ j < 3, (Ex.vst (α := ℝ) false).inp.xm.val 0 j = if j = 2 then 1 else 0 := by decide
  refine ⟨fun j hj => ?_, fun j hj => ?_, fun h => absurd h (by decide), fun h => absurd h (by decide)⟩
  · have hj : j < 3 := hj
    rw [val j hj]
    match j, hj with
    | 0, _ => exact Or.inl ⟨by decide, Ex.bends_square 10⟩
    | 1, _ => exact Or.inl ⟨by decide, Ex.bends_square0⟩
    | 2, _ => exact Or.inr ⟨by decide, _, Ex.bends_square 1, by decide, fun s _ => rfl⟩
  · have hj : j < 3 := hj
    rw [val j hj]
    match j, hj with
    | 0, _ => exact Or.inl ⟨by decide, Ex.bends_square0⟩
    | 1, _ => exact Or.inl ⟨by decide, Ex.bends_square0⟩
    | 2, _ => exact Or.inr ⟨by decide, _, Ex.bends_square 2, by decide, fun s _ => rfl⟩

theorem Ex.curved_stored : Ex.curved.Stored 4 (Ex.vst (α := ℝ) false).inp.xm.size false Ex.vmecCurved := by
  refine ⟨fun j hj i hi => ?_, fun j hj i hi => ?_, fun h => absurd h (by decide), fun h => absurd h (by decide)⟩
  · exact Mat.rdN_tab (r := 3) (c := 4) (f := fun j i => Ex.curved.rc j (sFull 4 i)) hj (by omega)
  · exact Mat.rdN_tab (r := 3) (c := 4) (f := fun j i => Ex.curved.zs j (sFull 4 i)) hj (by omega)

theorem Ex.curved_given : Given Ex.vmecCurved (Ex.vst (α := ℝ) false).inp (Ex.sizes false) := by
  have f1 : Ex.vmecCurved.rmnc.Full 3 4 := by unfold Ex.vmecCurved; dsimp only; exact Mat.full_tab 3 4 _
  have f2 : Ex.vmecCurved.zmns.Full 3 4 := by unfold Ex.vmecCurved; dsimp only; exact Mat.full_tab 3 4 _
  exact ⟨(Ex.given false).sized, Ex.lists false, { Ex.args with rmnc := f1, zmns := f2 }⟩

theorem Ex.curved_loads : ∃ s', initFromVmec 4 Ex.vmecCurved (Ex.vst false) = .ok () s' := by
  have C : Consistent 4 Ex.vmecCurved (Ex.vst (α := ℝ) false).inp (Ex.sizes false) :=
    { Ex.consistent false with rmnc := ⟨rfl, rfl⟩, zmns := ⟨rfl, rfl⟩ }
  have L : Loadable 4 Ex.vmecCurved (Ex.vst (α := ℝ) false).inp (Ex.sizes false) :=
    { Ex.loadable false with print := Or.inl (by show (1 : Int) ≤ 1; decide) }
  exact ⟨_, vmec_ok (by decide) Ex.curved_given (Ex.computable false) C L⟩

/-- The innermost loaded value of the `m = 1` harmonic of R is within `3/8 · 2/3²` of the exact one, the others within
`1/8 · 2/3²`; the surface and the outputs are close to the exact ones. -/
example : ∃ s' v w, initFromVmec 4 Ex.vmecCurved (Ex.vst false) = .ok () s' ∧
    s'.inp.rmnc.rdN 2 0 = .ok v ∧ |v - Real.sqrt (1 / 6) * (1 + (1 / 6) ^ 2)| ≤ 1 / 12 ∧
    s'.inp.rmnc.rdN 2 1 = .ok w ∧ |w - Real.sqrt (1 / 2) * (1 + (1 / 2) ^ 2)| ≤ 1 / 36 ∧
    (∀ θ ζ, |(surface s'.inp false 0).R θ ζ - Ex.curved.R (Ex.vst false).inp false (1 / 6) θ ζ| ≤ 1 / 2) ∧
    ∃ J t r m n x, (∀ θ ζ, |(surface s'.inp false 0).det θ ζ| ≤ J) ∧
      run false (settings (Ex.vec [2, 0]) 2 1 0 s') = .ok (t, r) ∧ t.out.xm_b.rdN 1 = .ok m ∧
      t.out.xn_b.rdN 1 = .ok n ∧ t.out.spec.rmnc_b.rdN 1 1 = .ok x ∧
      |x - (surface s'.inp false 0).quadCos (ntheta 2) (nzeta 1) 2 (Ex.curved.R (Ex.vst false).inp false (1 / 6)) m n| ≤
        J := by
  obtain ⟨s', h⟩ := Ex.curved_loads
  have hg := Ex.curved_given
  have H := C112_harmonics hg h Ex.curved_regular Ex.curved_stored
  obtain ⟨v, v1, v2, -⟩ := H _ (List.mem_append_left _ (List.mem_cons_self)) 2 (by decide) 0 (by decide)
  obtain ⟨w, w1, -, w2⟩ := H _ (List.mem_append_left _ (List.mem_cons_self)) 2 (by decide) 1 (by decide)
  have w2 := w2 (Or.inr (by decide))
  refine ⟨s', v, w, h, v1, ?_, w1, ?_, fun θ ζ => ?_, ?_⟩
  · have e : (((0 : ℕ) : ℝ) + 1 / 2) / (((4 : ℤ) : ℝ) - 1) = 1 / 6 := by norm_num
    rw [e] at v2
    refine (show |v - Real.sqrt (1 / 6) * (1 + (1 / 6) ^ 2)| ≤ _ from v2).trans ?_
    norm_num
  · have e : (((1 : ℕ) : ℝ) + 1 / 2) / (((4 : ℤ) : ℝ) - 1) = 1 / 2 := by norm_num
    rw [e] at w2
    refine (show |w - Real.sqrt (1 / 2) * (1 + (1 / 2) ^ 2)| ≤ _ from w2).trans ?_
    norm_num
  · have e : (((0 : ℕ) : ℝ) + 1 / 2) / (((4 : ℤ) : ℝ) - 1) = 1 / 6 := by norm_num
    have G := (C112_surfaces hg h Ex.curved_regular Ex.curved_stored (k := 0) (by decide) θ ζ).1
    rw [e] at G
    refine (show |(surface s'.inp false 0).R θ ζ - Ex.curved.R (Ex.vst false).inp false (1 / 6) θ ζ| ≤ _ from G).trans ?_
    show 3 / 4 * 2 * (((3 : ℤ)) : ℝ) / (((4 : ℤ) : ℝ) - 1) ^ 2 ≤ 1 / 2
    norm_num
  · obtain ⟨s₀', h₀⟩ := Ex.loads (α := ℝ) false
    have hr := (ready_loaded (Ex.given false) h₀ hg h ⟨rfl, rfl, rfl, rfl, rfl⟩ (Ex.loaded_ready h₀)).1
    have e := vmec_result hg h
    have e5 : s'.inp.xm_nyq = Ex.vec [0, 0, 1, 2] := by subst e; rfl
    have e6 : s'.inp.xn_nyq = Ex.vec [0, 2, 0, 2] := by subst e; rfl
    have e7 : s'.inp.xn = Ex.vec [0, 2, 2] := by subst e; rfl
    have hs : ∀ b < 2, ((Ex.vec [(2 : ℤ), 0]).val 0 b).toNat < 3 := by decide
    have hp : FieldPeriodic s'.inp 2 := by
      unfold FieldPeriodic
      rw [e6, e7]
      decide
    have ho : OriginOnce s'.inp := by
      unfold OriginOnce
      rw [e5, e6]
      decide
    have hreg : ∀ js < 3, (surface s'.inp false js).Regular := by
      intro js hj
      subst e
      exact Ex.regular_of rfl rfl rfl rfl rfl rfl hj
    obtain ⟨J, hJ⟩ := det_bounded (s := settings (Ex.vec [2, 0]) 2 1 0 s') hr hp Ex.ldims.nsb
    obtain ⟨t, r, h1, h2⟩ := C112_outputs hg h Ex.curved_regular Ex.curved_stored hr hp ho
      (fun b hb => hreg _ (hs b hb)) hJ false
    obtain ⟨m, n, k1, k2, ⟨x, k3, k4⟩, -⟩ := h2 1 (by decide) 1 (by decide)
    refine ⟨J, t, r, m, n, x, hJ 1 (by decide), h1, k1, k2, k3, ?_⟩
    have e : (((0 : ℕ) : ℝ) + 1 / 2) / (((4 : ℤ) : ℝ) - 1) = 1 / 6 := by norm_num
    have k5 : |x - (surface s'.inp false 0).quadCos (ntheta 2) (nzeta 1) 2 (Ex.curved.R (Ex.vst false).inp false
        ((((0 : ℕ) : ℝ) + 1 / 2) / (((4 : ℤ) : ℝ) - 1))) m n| ≤ 3 / 2 * J * 2 * ((3 : ℤ) : ℝ) / (((4 : ℤ) : ℝ) - 1) ^ 2 := k4
    rw [e] at k5
    refine k5.trans (le_of_eq ?_)
    norm_num
    ring

end Booz
