import Verif.Props.LargestModes
import Verif.Props.FieldLine

/-!
# Separated harmonics are ranked exactly (C117)
-/

namespace Booz
open Spec Plots Function

/-- A list ranked up to errors `e` below the gaps of `S` is `S`. -/
theorem ranking_unique {β : Type} {A : β → ℝ} {may : β → Prop} {δ e : ℝ} (h0 : 0 ≤ e) (he : e < δ) {S ms : List β}
    (s1 : S.Pairwise fun p q => A q + δ ≤ A p) (s2 : ∀ p ∈ S, may p)
    (s3 : ∀ p ∈ S, ∀ q, may q → q ∉ S → A q + δ ≤ A p)
    (m0 : ms.length = S.length) (m1 : ms.Nodup) (m2 : ∀ p ∈ ms, may p) (m3 : ms.Pairwise fun p q => A q ≤ A p + e)
    (m4 : ∀ p ∈ ms, ∀ q, may q → q ∉ ms → A q ≤ A p + e) : ms = S := by
  have hS : S.Nodup := s1.imp fun {p q} h hpq => by rw [hpq] at h; linarith
  have sub : S ⊆ ms := by
    intro p hp
    by_contra hn
    have : ∃ q ∈ ms, q ∉ S := by
      by_contra hall
      push Not at hall
      have perm := (List.subperm_of_subset m1 hall).perm_of_length_le m0.ge
      exact hn (perm.mem_iff.2 hp)
    obtain ⟨q, q1, q2⟩ := this
    have h1 := m4 q q1 p (s2 p hp) hn
    have h2 := s3 p hp q (m2 q q1) q2
    linarith
  have perm : S.Perm ms := (List.subperm_of_subset hS sub).perm_of_length_le m0.le
  have far : ∀ p ∈ S, ∀ q ∈ S, p ≠ q → A q + δ ≤ A p ∨ A p + δ ≤ A q := by
    haveI : Std.Symm fun p q : β => p ≠ q → A q + δ ≤ A p ∨ A p + δ ≤ A q := ⟨fun p q h hne => (h hne.symm).symm⟩
    have := List.Pairwise.forall_of_forall (R := fun p q => p ≠ q → A q + δ ≤ A p ∨ A p + δ ≤ A q)
      (fun p _ hne => absurd rfl hne) (s1.imp fun {p q} h _ => Or.inl h)
    exact fun p hp q hq => this hp hq
  refine List.Perm.eq_of_pairwise (le := fun p q => A q ≤ A p + e) (fun p q hp hq h1 h2 => ?_) m3
    (s1.imp fun {p q} h => by linarith) perm.symm
  by_contra hne
  rcases far p (perm.mem_iff.2 hp) q hq hne with h | h <;> linarith

/-- **C117, exactly.**  Let |B| on the last selected surface be the function `f` of the Boozer angles, and let the modes in `S`
be those with the largest coefficients (harmonics of the removed helicity counted as zero, (0,0) left out unless `B0`), in
decreasing order, separated from each other and from all others by `δ` at least.  Then for all sufficiently high resolutions
(M, N) with `M ≤ c N`, `N ≤ c M`, that resolve the angles of this surface and have `S` among their modes, and on all machines
of sufficient precision, the legend of `modeplot` with `nmodes` the length of `S` is `S`. -/
theorem C117_exact {s₀ : St ℝ} {d : Dims} (h : RunReady s₀.inp d) (hp : FieldPeriodic s₀.inp d.nfp)
    (ho : OriginOnce s₀.inp) (hreg : ∀ b < d.nsb, (surface s₀.inp d.asym (selected s₀.inp b)).Regular) (hnb : 1 ≤ d.nsb)
    {f : ℝ → ℝ → ℝ} (cf : Continuous (uncurry f)) (tf : TorusFn f)
    (ef : (surface s₀.inp d.asym (selected s₀.inp (d.nsb - 1))).Expresses f
      (surface s₀.inp d.asym (selected s₀.inp (d.nsb - 1))).B)
    (remove : Option (Int × Int)) (B0 : Bool) {S : List (ℤ × ℤ)} {δ : ℝ} (hδ : 0 < δ)
    (hS : S.Pairwise fun p q => shownValue remove true q.1 q.2 (fourierCos f q.1 q.2) + δ ≤
      shownValue remove true p.1 p.2 (fourierCos f p.1 p.2))
    (hrest : ∀ p ∈ S, ∀ M N q, MayShow M N d.nfp B0 q → q ∉ S →
      shownValue remove true q.1 q.2 (fourierCos f q.1 q.2) + δ ≤ shownValue remove true p.1 p.2 (fourierCos f p.1 p.2))
    (c : ℝ) {ρ : ℝ} (hρ : ρ < 1) :
    ∃ M₀, ∀ M N : ℕ, M₀ ≤ M → M₀ ≤ N → (M : ℝ) ≤ c * N → (N : ℝ) ≤ c * M →
      (surface s₀.inp d.asym (selected s₀.inp (d.nsb - 1))).ResolvedBy d.nfp M N ρ → (∀ p ∈ S, MayShow M N d.nfp B0 p) →
      RunReady { s₀.inp with mboz := M, nboz := N } { d with M := M, N := N } → ∀ K : ℝ, 0 ≤ K →
      ∃ u₀, 0 < u₀ ∧
        ∀ (α : Type) [Arith α] (fin : α → Prop) (val : α → ℝ) (u : ℝ), Precision α fin val u → Compares α fin val → u ≤ u₀ →
        ∀ le : α → α → Prop, (∀ x y, fin x → fin y → le x y → val x ≤ val y) →
        ∀ s : St α, RunReady s.inp { d with M := M, N := N } →
          InputsNear fin val { d with M := M, N := N } (K * u) s.inp s₀.inp →
          ∃ t r, run false s = .ok (t, r) ∧ ∀ (disk : Disk α) (argsort : List α → List ℕ),
            (∀ keys, IsArgsort le keys (argsort keys)) → ∀ (ymin : Option α) (sqrts log : Bool),
            ∃ fig, modeplot argsort disk (.object t) ⟨S.length, ymin, sqrts, log, B0, remove⟩ [] = .ok () fig ∧
              modeLabels fig = S := by
  obtain ⟨C, hC, H⟩ := C117_largest h hp ho hreg hnb c hρ (p := 2) le_rfl
  obtain ⟨M₁, hM₁⟩ := exists_nat_gt (8 * C / δ)
  refine ⟨M₁ + 1, fun M N hM hN hMN hNM hres hmem hr K hK => ?_⟩
  obtain ⟨D, u₀, hD, h0, G⟩ := H M N (by omega) hMN hNM hres hr K hK
  have hu1 : 0 < δ / (8 * (D + 1)) := by positivity
  refine ⟨min u₀ (δ / (8 * (D + 1))), lt_min h0 hu1, fun α _ fin val u hu hab hle le hcmp s hs hn => ?_⟩
  obtain ⟨t, r, g1, g2⟩ := G α fin val u hu hab (hle.trans (min_le_left _ _)) le hcmp s hs hn
  refine ⟨t, r, g1, fun disk argsort hsort ymin sqrts log => ?_⟩
  have up := hu.u_pos
  -- the error is below the gap
  have small : ∀ k : ℕ, M₁ + 1 ≤ k → (1 / (k : ℝ)) ^ 2 ≤ 1 / (M₁ + 1 : ℝ) := by
    intro k hk
    have hk' : (M₁ + 1 : ℝ) ≤ k := by exact_mod_cast hk
    have pos : (0 : ℝ) < M₁ + 1 := by positivity
    have a1 : 1 / (k : ℝ) ≤ 1 / (M₁ + 1 : ℝ) := one_div_le_one_div_of_le pos hk'
    have a2 : 1 / (M₁ + 1 : ℝ) ≤ 1 := by
      rw [div_le_one pos]
      linarith [(Nat.cast_nonneg M₁ : (0 : ℝ) ≤ M₁)]
    have a3 : 0 ≤ 1 / (k : ℝ) := by positivity
    nlinarith
  have hg : gridError M N 2 ≤ 2 / (M₁ + 1 : ℝ) := by
    unfold gridError
    have b1 := small (ntheta M) (by unfold ntheta; omega)
    have b2 := small (nzeta N) (by unfold nzeta; split <;> omega)
    calc _ ≤ 1 / (M₁ + 1 : ℝ) + 1 / (M₁ + 1 : ℝ) := add_le_add b1 b2
      _ = _ := by ring
  have hg0 : 0 ≤ gridError M N 2 := by unfold gridError; positivity
  have q1 : C * gridError M N 2 ≤ δ / 4 := by
    have pos : (0 : ℝ) < M₁ + 1 := by positivity
    have : 8 * C < δ * (M₁ + 1) := by
      rw [div_lt_iff₀ hδ] at hM₁
      nlinarith
    calc _ ≤ C * (2 / (M₁ + 1 : ℝ)) := mul_le_mul_of_nonneg_left hg hC
      _ ≤ δ / 4 := by
        rw [← mul_div_assoc, div_le_iff₀ pos]
        linarith
  have q2 : D * u ≤ δ / 8 := by
    have k1 := hle.trans (min_le_right _ _)
    rw [le_div_iff₀ (by positivity)] at k1
    nlinarith
  have eq0 : 0 ≤ 2 * (C * gridError M N 2 + D * u) := by positivity
  -- there are enough modes
  have hSn : S.Nodup := hS.imp fun {p q} k hpq => by rw [hpq] at k; linarith
  obtain ⟨F1, F2, F3, F4⟩ := modes_by_index hs g1
  change ∀ q, IsMode M N d.nfp q → ∃ k < numModes M N, (outM t k, outN t k) = q at F3
  have count : S.length ≤ numModes M N - (if B0 then 0 else 1) := by
    have sub : S.toFinset ⊆ (Finset.Ico (if B0 then 0 else 1) (numModes M N)).image fun k => (outM t k, outN t k) := by
      intro q hq
      rw [List.mem_toFinset] at hq
      obtain ⟨k, hk, rfl⟩ := F3 q (hmem q hq).1
      refine Finset.mem_image.2 ⟨k, Finset.mem_Ico.2 ⟨?_, hk⟩, rfl⟩
      cases hB : B0 with
      | true => simp
      | false =>
        have hne := (hmem _ hq).2 hB
        have : k ≠ 0 := fun k0 => hne (by rw [k0]; exact F4)
        simp
        omega
    calc S.length = S.toFinset.card := (List.toFinset_card_of_nodup hSn).symm
      _ ≤ _ := (Finset.card_le_card sub).trans Finset.card_image_le
      _ = _ := by rw [Nat.card_Ico]
  have hpos : 1 ≤ numModes M N := by
    have : 1 ≤ M := hs.mboz_ge
    unfold numModes
    omega
  obtain ⟨fig, k1, k2, k3, k4, k5, k6⟩ := g2 f cf tf ef disk argsort hsort ⟨S.length, ymin, sqrts, log, B0, remove⟩
    (by simp) (by
      show (S.length : ℤ) ≤ _
      cases B0 <;> simp at count ⊢ <;> omega)
  refine ⟨fig, k1, ?_⟩
  exact ranking_unique (A := fun q => shownValue remove true q.1 q.2 (fourierCos f q.1 q.2)) (may := MayShow M N d.nfp B0) eq0
    (by linarith) hS hmem (fun p hp q hq => hrest p hp M N q hq) (Int.ofNat_inj.1 k2) k3 k4 k5 k6

/-- Coefficients of a constant. -/
theorem fourierCos_const (a : ℝ) (m n : ℤ) : fourierCos (fun _ _ => a) m n = if m = 0 ∧ n = 0 then a else 0 := by
  have pi := Real.pi_pos
  have one : ∀ (k : ℤ) (x : ℝ), k ≠ 0 → ∫ z in (0 : ℝ)..2 * Real.pi, a * Real.cos (x - k * z) = 0 := by
    intro k x hk
    have hk' : (k : ℝ) ≠ 0 := by exact_mod_cast hk
    rw [intervalIntegral.integral_const_mul, intervalIntegral.integral_comp_sub_mul (fun y => Real.cos y) hk', integral_cos,
      Real.sin_sub_int_mul_two_pi, mul_zero, sub_zero, sub_self, smul_zero, mul_zero]
  unfold fourierCos
  by_cases hn : n = 0
  · subst hn
    by_cases hm : m = 0
    · subst hm
      simp
      field_simp
      norm_num
    · have e := one (-m) 0 (by omega)
      simp only [Int.cast_neg, neg_mul, zero_sub, neg_neg] at e
      simp only [hm, false_and, if_false, Int.cast_zero, zero_mul, sub_zero, intervalIntegral.integral_const, smul_eq_mul,
        intervalIntegral.integral_const_mul] at e ⊢
      rw [mul_left_comm a, e]
      simp
  · simp only [hn, and_false, if_false, one n _ hn]
    simp

/-- The cylinder, where |B| is constant: asked for one curve, `modeplot` shows (0,0). -/
example (asym : Bool) : ∃ M₀, ∀ M : ℕ, M₀ ≤ M → (4 * M + 2) * (4 * M + 2) < 2 ^ 30 → ∃ p₀, ∀ p ≥ p₀,
    ∃ t r, run false ({ Ex.st asym with
      inp := Ex.mapI (fun x => (⟨Ex.rnd p x⟩ : Ex.Flp p)) { (Ex.cyl asym).inp with mboz := M, nboz := M } }) =
        .ok (t, r) ∧
      ∀ (disk : Disk (Ex.Flp p)) (argsort : List (Ex.Flp p) → List ℕ),
        (∀ keys, IsArgsort (fun x y => x.val ≤ y.val) keys (argsort keys)) →
        ∃ fig, modeplot argsort disk (.object t) ⟨1, none, true, true, true, none⟩ [] = .ok () fig ∧
          modeLabels fig = [(0, 0)] := by
  have hs : ∀ b < 2, selected (Ex.cyl asym).inp b < 2 := fun b hb => Ex.polar_sel asym (1 / 16) b hb
  obtain ⟨M₀, H⟩ := C117_exact (s₀ := Ex.cyl asym) (d := Ex.dims asym) (f := fun _ _ => 5 / 4) (Ex.cyl_ready asym)
    (Ex.polar_periodic asym (1 / 16)) (Ex.polar_origin asym (1 / 16)) (fun b hb => Ex.cyl_regular asym (hs b hb))
    (by show 1 ≤ 2; omega) continuous_const ⟨fun _ _ => rfl, fun _ _ => rfl⟩
    (fun θ ζ => (Ex.cyl_B asym (hs 1 (by omega)) θ ζ).symm) none true (S := [(0, 0)]) (δ := 1) one_pos
    (List.pairwise_singleton _ _)
    (by
      intro p hp M N q hq hn
      simp only [List.mem_singleton] at hp hn
      subst hp
      have hq0 : ¬ (q.1 = 0 ∧ q.2 = 0) := fun k => hn (Prod.ext k.1 k.2)
      rw [fourierCos_const, fourierCos_const, if_neg hq0]
      norm_num [shownValue]) 1 (ρ := 1 / 2) (by norm_num)
  refine ⟨M₀ + 1, fun M hM hfit => ?_⟩
  have hr := Ex.cyl_ready_res asym (M := M) (N := M) (by omega) hfit
  obtain ⟨K, hK, near⟩ := Ex.mapI_near hr
  obtain ⟨u₀, h0, G⟩ := H M M (by omega) (by omega) (by simp) (by simp) (Ex.cyl_resolved asym (b := 1) (by omega) M)
    (by
      intro p hp
      simp only [List.mem_singleton] at hp
      subst hp
      exact ⟨⟨le_rfl, by simp only; omega, 0, by simp, by simp, by simp, by simp⟩, by simp⟩) hr K hK
  obtain ⟨p₀, hp₀⟩ := Ex.bits h0
  refine ⟨p₀, fun p hp => ?_⟩
  obtain ⟨t, r, g1, g2⟩ := G (Ex.Flp p) (fun _ => True) Ex.Flp.val (4 / 2 ^ p) (Ex.flp_precision p) (Ex.flp_compares p)
    (hp₀ p hp) (fun x y => x.val ≤ y.val) (fun _ _ _ _ q => q) { Ex.st asym with
      inp := Ex.mapI (fun x => (⟨Ex.rnd p x⟩ : Ex.Flp p)) { (Ex.cyl asym).inp with mboz := M, nboz := M } }
    (Ex.mapI_ready _ hr) { near p with }
  exact ⟨t, r, g1, fun disk argsort hsort => g2 disk argsort hsort none true true⟩

end Booz
