import Verif.Lemmas.Shift

/-!
# Mean squares of functions on the torus

Parseval's identity for smooth functions, Bessel's inequality for continuous ones, and the closest function with a
given helical symmetry.
-/

namespace Booz.Trapezoid
open Finset Function Spec

variable {F G : ℝ × ℝ → ℝ}

/-- Squares of the coefficients of a mode. -/
noncomputable def en (F : ℝ × ℝ → ℝ) (k : ℤ × ℤ) : ℝ := cc F k ^ 2 + sc F k ^ 2

theorem en_nonneg (F : ℝ × ℝ → ℝ) (k : ℤ × ℤ) : 0 ≤ en F k := add_nonneg (sq_nonneg _) (sq_nonneg _)
theorem en_neg (F : ℝ × ℝ → ℝ) (k : ℤ × ℤ) : en F (-k) = en F k := by
  unfold en
  rw [cc_neg, sc_neg, neg_sq]

theorem mean_sq_nonneg (F : ℝ × ℝ → ℝ) : 0 ≤ mean2 τ τ fun x => F x * F x := by
  have hm : ∀ {P : ℝ} {f : ℝ → ℝ}, 0 < P → (∀ x, 0 ≤ f x) → 0 ≤ mean P f := by
    intro P f hP hf
    unfold mean
    exact div_nonneg (intervalIntegral.integral_nonneg hP.le fun x _ => hf x) hP.le
  unfold mean2
  exact hm tau_pos fun θ => hm tau_pos fun ζ => mul_self_nonneg _

theorem mean_mul_term (cG : Continuous G) (F : ℝ × ℝ → ℝ) (k : ℤ × ℤ) :
    mean2 τ τ (fun x => term F k x * G x) = cc F k * cc G k + sc F k * sc G k := by
  have e : (fun x => term F k x * G x) = fun x => cc F k * (G x * cosM k x) + sc F k * (G x * sinM k x) := by
    funext x
    unfold term
    ring
  rw [e, mean_lin2 (f := fun x => G x * cosM k x) (g := fun x => G x * sinM k x) _ _ (cG.mul (cosM_smooth k).continuous)
    (cG.mul (sinM_smooth k).continuous)]
  rfl

/-- Means of uniformly convergent series. -/
theorem mean_series {f : ℤ × ℤ → ℝ × ℝ → ℝ} {u : ℤ × ℤ → ℝ} (hf : ∀ k, Continuous (f k)) (hu : Summable u)
    (hb : ∀ k x, ‖f k x‖ ≤ u k) {E : ℝ × ℝ → ℝ} (cE : Continuous E) {B : ℝ} (hE : ∀ x, |E x| ≤ B) :
    HasSum (fun k => mean2 τ τ fun x => f k x * E x) (mean2 τ τ fun x => (∑' k, f k x) * E x) := by
  have hB : 0 ≤ B := (abs_nonneg _).trans (hE 0)
  have cg : Continuous fun x => ∑' k, f k x := continuous_tsum hf hu hb
  rw [HasSum, SummationFilter.unconditional_filter, Metric.tendsto_nhds]
  intro ε hε
  have := Metric.tendstoUniformly_iff.1 (tendstoUniformly_tsum hu hb) (ε / (2 * (B + 1))) (by positivity)
  refine this.mono fun s hs => ?_
  have k1 : ∀ k, Continuous fun x => f k x * E x := fun k => (hf k).mul cE
  have k2 : Continuous fun x => (∑' k, f k x) * E x := cg.mul cE
  have k3 : Continuous fun x => ∑ k ∈ s, f k x * E x := continuous_finsetSum _ fun k _ => k1 k
  rw [dist_comm, Real.dist_eq, ← mean2_sum s k1, ← mean2_sub k2 k3]
  have e : ε / (2 * (B + 1)) * B < ε := by
    rw [div_mul_eq_mul_div, div_lt_iff₀ (by positivity)]
    nlinarith
  refine lt_of_le_of_lt (mean2_abs_le tau_pos tau_pos fun x => ?_) e
  rw [← sum_mul, ← sub_mul, abs_mul]
  have h1 := (hs x).le
  rw [Real.dist_eq] at h1
  exact mul_le_mul h1 (hE x) (abs_nonneg _) (by positivity)

/-- The function whose harmonics are those of `F` times the weights `w`. -/
noncomputable def weighted (w : ℤ × ℤ → ℝ) (F : ℝ × ℝ → ℝ) (x : ℝ × ℝ) : ℝ := ∑' k, w k * term F k x

section weights
variable {w : ℤ × ℤ → ℝ}

theorem weighted_bound (sF : Smooth F) (pF : DPer τ τ F) (hw : ∀ k, |w k| ≤ 1) :
    ∃ u : ℤ × ℤ → ℝ, Summable u ∧ ∀ k x, ‖w k * term F k x‖ ≤ u k := by
  obtain ⟨u, hu, hb⟩ := term_bound sF pF
  refine ⟨u, hu, fun k x => ?_⟩
  rw [norm_mul]
  exact (mul_le_of_le_one_left (norm_nonneg _) (hw k)).trans (hb k x)

theorem weighted_continuous (sF : Smooth F) (pF : DPer τ τ F) (hw : ∀ k, |w k| ≤ 1) : Continuous (weighted w F) := by
  obtain ⟨u, hu, hb⟩ := weighted_bound sF pF hw
  exact continuous_tsum (fun k => continuous_const.mul (term_continuous F k)) hu hb

theorem weighted_per (w : ℤ × ℤ → ℝ) (F : ℝ × ℝ → ℝ) : DPer τ τ (weighted w F) :=
  ⟨fun x => tsum_congr fun k => by rw [(term_per F k).1 x], fun x => tsum_congr fun k => by rw [(term_per F k).2 x]⟩

theorem hasSum_single (a : ℤ × ℤ) (v : ℤ × ℤ → ℝ) : HasSum (fun k => v k * (if k = a then 1 else 0)) (v a) := by
  have := hasSum_ite_eq a (v a)
  have e : (fun k => v k * (if k = a then 1 else 0)) = fun k => if k = a then v a else 0 := by
    funext k
    split
    · next h => rw [h, mul_one]
    · rw [mul_zero]
  rw [e]
  exact this

theorem weighted_cc (sF : Smooth F) (pF : DPer τ τ F) (hw : ∀ k, |w k| ≤ 1) (hs : ∀ k, w (-k) = w k) (l : ℤ × ℤ) :
    cc (weighted w F) l = w l * cc F l := by
  obtain ⟨u, hu, hb⟩ := weighted_bound sF pF hw
  have h1 := mean_series (f := fun k x => w k * term F k x) (fun k => continuous_const.mul (term_continuous F k)) hu hb
    (cosM_smooth l).continuous fun x => Real.abs_cos_le_one _
  have h2 := ((hasSum_single l fun k => w k * cc F k).add (hasSum_single (-l) fun k => w k * cc F k)).div_const 2
  have e : (fun k => mean2 τ τ fun x => w k * term F k x * cosM l x) =
      fun k => (w k * cc F k * (if k = l then 1 else 0) + w k * cc F k * (if k = -l then 1 else 0)) / 2 := by
    funext k
    simp only [mul_assoc (w k)]
    rw [mean2_smul, mean_term_cos]
    ring
  rw [e] at h1
  have h3 := h1.unique h2
  rw [cc_neg, hs] at h3
  show mean2 τ τ _ = _
  unfold weighted
  rw [h3]
  ring

theorem weighted_sc (sF : Smooth F) (pF : DPer τ τ F) (hw : ∀ k, |w k| ≤ 1) (hs : ∀ k, w (-k) = w k) (l : ℤ × ℤ) :
    sc (weighted w F) l = w l * sc F l := by
  obtain ⟨u, hu, hb⟩ := weighted_bound sF pF hw
  have h1 := mean_series (f := fun k x => w k * term F k x) (fun k => continuous_const.mul (term_continuous F k)) hu hb
    (sinM_smooth l).continuous fun x => Real.abs_sin_le_one _
  have h2 := ((hasSum_single l fun k => w k * sc F k).sub (hasSum_single (-l) fun k => w k * sc F k)).div_const 2
  have e : (fun k => mean2 τ τ fun x => w k * term F k x * sinM l x) =
      fun k => (w k * sc F k * (if k = l then 1 else 0) - w k * sc F k * (if k = -l then 1 else 0)) / 2 := by
    funext k
    simp only [mul_assoc (w k)]
    rw [mean2_smul, mean_term_sin]
    ring
  rw [e] at h1
  have h3 := h1.unique h2
  rw [sc_neg, hs] at h3
  show mean2 τ τ _ = _
  unfold weighted
  rw [h3]
  ring

/-- Parseval's identity. -/
theorem weighted_parseval (sF : Smooth F) (pF : DPer τ τ F) (hw : ∀ k, |w k| ≤ 1) (hs : ∀ k, w (-k) = w k) :
    HasSum (fun k => w k ^ 2 * en F k) (mean2 τ τ fun x => weighted w F x * weighted w F x) := by
  obtain ⟨u, hu, hb⟩ := weighted_bound sF pF hw
  have cW := weighted_continuous sF pF hw
  obtain ⟨B, hB⟩ := (weighted_per w F).bounded tau_pos tau_pos cW
  have h1 := mean_series (f := fun k x => w k * term F k x) (fun k => continuous_const.mul (term_continuous F k)) hu hb cW hB
  have e : (fun k => mean2 τ τ fun x => w k * term F k x * weighted w F x) = fun k => w k ^ 2 * en F k := by
    funext k
    simp only [mul_assoc (w k)]
    rw [mean2_smul, mean_mul_term cW, weighted_cc sF pF hw hs, weighted_sc sF pF hw hs]
    unfold en
    ring
  rw [e] at h1
  exact h1

theorem weighted_one (sF : Smooth F) (pF : DPer τ τ F) : weighted (fun _ => 1) F = F := by
  funext x
  unfold weighted
  simp only [one_mul]
  exact series_sum sF pF x

theorem weighted_compl (sF : Smooth F) (pF : DPer τ τ F) (hw : ∀ k, |w k| ≤ 1) (x : ℝ × ℝ) :
    weighted (fun k => 1 - w k) F x = F x - weighted w F x := by
  obtain ⟨u, hu, hb⟩ := weighted_bound sF pF hw
  obtain ⟨u1, hu1, hb1⟩ := term_bound sF pF
  have a := Summable.of_norm_bounded hu (hb · x)
  have a1 := Summable.of_norm_bounded hu1 (hb1 · x)
  rw [← series_sum sF pF x]
  unfold weighted
  rw [← a1.tsum_sub a]
  exact tsum_congr fun k => by ring

end weights

/-- Parseval's identity. -/
theorem parseval (sF : Smooth F) (pF : DPer τ τ F) : HasSum (en F) (mean2 τ τ fun x => F x * F x) := by
  have := weighted_parseval (w := fun _ => 1) sF pF (fun _ => by norm_num) fun _ => rfl
  rw [weighted_one sF pF] at this
  simpa using this

/-- Bessel's inequality. -/
theorem bessel (cG : Continuous G) {A : Finset (ℤ × ℤ)} (hA : ∀ k ∈ A, -k ∈ A) :
    ∑ k ∈ A, en G k ≤ mean2 τ τ fun x => G x * G x := by
  have cT : Continuous fun x => ∑ k ∈ A, term G k x := continuous_finsetSum _ fun k _ => term_continuous G k
  have ind : ∀ (v : ℤ × ℤ → ℝ) (l : ℤ × ℤ), l ∈ A → ∑ k ∈ A, v k * (if k = l then (1 : ℝ) else 0) = v l := by
    intro v l hl
    simp only [mul_ite, mul_one, mul_zero]
    rw [Finset.sum_ite_eq' A l v, if_pos hl]
  have tcc : ∀ l ∈ A, cc (fun x => ∑ k ∈ A, term G k x) l = cc G l := by
    intro l hl
    unfold cc
    simp only [sum_mul]
    rw [mean2_sum A (f := fun k x => term G k x * cosM l x) fun k => (term_continuous G k).mul (cosM_smooth l).continuous]
    simp only [mean_term_cos]
    rw [← sum_div]
    simp only [mul_add]
    rw [sum_add_distrib, ind _ l hl, ind _ (-l) (hA l hl), cc_neg]
    show (cc G l + cc G l) / 2 = cc G l
    ring
  have tsc : ∀ l ∈ A, sc (fun x => ∑ k ∈ A, term G k x) l = sc G l := by
    intro l hl
    unfold sc
    simp only [sum_mul]
    rw [mean2_sum A (f := fun k x => term G k x * sinM l x) fun k => (term_continuous G k).mul (sinM_smooth l).continuous]
    simp only [mean_term_sin]
    rw [← sum_div]
    simp only [mul_sub]
    rw [sum_sub_distrib, ind _ l hl, ind _ (-l) (hA l hl), sc_neg]
    show (sc G l - -sc G l) / 2 = sc G l
    ring
  have e1 : mean2 τ τ (fun x => (∑ k ∈ A, term G k x) * G x) = ∑ k ∈ A, en G k := by
    simp only [sum_mul]
    rw [mean2_sum A (f := fun k x => term G k x * G x) fun k => (term_continuous G k).mul cG]
    refine sum_congr rfl fun k _ => ?_
    rw [mean_mul_term cG]
    unfold en
    ring
  have e2 : mean2 τ τ (fun x => (∑ k ∈ A, term G k x) * ∑ k ∈ A, term G k x) = ∑ k ∈ A, en G k := by
    have : (fun x => (∑ k ∈ A, term G k x) * ∑ k ∈ A, term G k x) =
        fun x => ∑ l ∈ A, term G l x * (fun y => ∑ k ∈ A, term G k y) x := by
      funext x
      rw [sum_mul]
    rw [this, mean2_sum A (f := fun l x => term G l x * (fun y => ∑ k ∈ A, term G k y) x) fun k => (term_continuous G k).mul cT]
    refine sum_congr rfl fun k hk => ?_
    rw [mean_mul_term cT, tcc k hk, tsc k hk]
    unfold en
    ring
  have h0 := mean_sq_nonneg fun x => G x - ∑ k ∈ A, term G k x
  have e3 : (fun x => (G x - ∑ k ∈ A, term G k x) * (G x - ∑ k ∈ A, term G k x)) =
      fun x => (G x * G x - (∑ k ∈ A, term G k x) * G x) -
        ((∑ k ∈ A, term G k x) * G x - (∑ k ∈ A, term G k x) * ∑ k ∈ A, term G k x) := by
    funext x
    ring
  rw [e3, mean2_sub (F := fun x => G x * G x - (∑ k ∈ A, term G k x) * G x)
      (G := fun x => (∑ k ∈ A, term G k x) * G x - (∑ k ∈ A, term G k x) * ∑ k ∈ A, term G k x)
      ((cG.mul cG).sub (cT.mul cG)) ((cT.mul cG).sub (cT.mul cT)),
    mean2_sub (F := fun x => G x * G x) (G := fun x => (∑ k ∈ A, term G k x) * G x) (cG.mul cG) (cT.mul cG),
    mean2_sub (F := fun x => (∑ k ∈ A, term G k x) * G x) (G := fun x => (∑ k ∈ A, term G k x) * ∑ k ∈ A, term G k x)
      (cT.mul cG) (cT.mul cT), e1, e2] at h0
  linarith

/-- Weights of the modes which break the symmetry with helicity (M, N). -/
noncomputable def breaks (M N : ℤ) (k : ℤ × ℤ) : ℝ := if k.1 * N ≠ k.2 * M then 1 else 0

theorem breaks_abs (M N : ℤ) (k : ℤ × ℤ) : |breaks M N k| ≤ 1 := by
  unfold breaks
  split <;> norm_num

theorem breaks_sq (M N : ℤ) (k : ℤ × ℤ) : breaks M N k ^ 2 = breaks M N k := by
  unfold breaks
  split <;> norm_num

theorem breaks_neg (M N : ℤ) (k : ℤ × ℤ) : breaks M N (-k) = breaks M N k := by
  unfold breaks
  have : (-k).1 * N ≠ (-k).2 * M ↔ k.1 * N ≠ k.2 * M := by
    simp only [Prod.fst_neg, Prod.snd_neg, neg_mul, ne_eq, neg_inj]
  by_cases h : k.1 * N ≠ k.2 * M
  · rw [if_pos h, if_pos (this.2 h)]
  · rw [if_neg h, if_neg fun h' => h (this.1 h')]

/-- The closest function of `M t − N z`. -/
theorem closest (sF : Smooth F) (pF : DPer τ τ F) {M N : ℤ} (hMN : ¬ (M = 0 ∧ N = 0)) :
    ∃ Q, HasSum (fun k => breaks M N k * en F k) Q ∧
    (∃ g : ℝ × ℝ → ℝ, Continuous g ∧ DPer τ τ g ∧
      (∀ x y : ℝ × ℝ, M * x.1 - N * x.2 = M * y.1 - N * y.2 → g x = g y) ∧
      mean2 τ τ (fun x => (F x - g x) * (F x - g x)) = Q) ∧
    ∀ g : ℝ × ℝ → ℝ, Continuous g → DPer τ τ g →
      (∀ x y : ℝ × ℝ, M * x.1 - N * x.2 = M * y.1 - N * y.2 → g x = g y) →
      Q ≤ mean2 τ τ fun x => (F x - g x) * (F x - g x) := by
  have hw' : ∀ k, |1 - breaks M N k| ≤ 1 := by
    intro k
    unfold breaks
    split <;> norm_num
  have hs' : ∀ k, (1 - breaks M N (-k)) = 1 - breaks M N k := fun k => by rw [breaks_neg]
  have cF := sF.continuous
  have hsum := weighted_parseval (w := breaks M N) sF pF (breaks_abs M N) (breaks_neg M N)
  simp only [breaks_sq] at hsum
  have cg := weighted_continuous (w := fun k => 1 - breaks M N k) sF pF hw'
  refine ⟨_, hsum, ⟨weighted (fun k => 1 - breaks M N k) F, cg, weighted_per _ F, ?_, ?_⟩, fun g cg pg hg => ?_⟩
  · refine (helical_iff cg (weighted_per _ F) hMN).2 fun k hk => ?_
    rw [weighted_cc sF pF hw' hs', weighted_sc sF pF hw' hs']
    have : breaks M N k = 1 := if_pos hk
    rw [this]
    simp
  · have e : ∀ x, F x - weighted (fun k => 1 - breaks M N k) F x = weighted (breaks M N) F x := fun x => by
      rw [weighted_compl sF pF (breaks_abs M N)]
      ring
    simp only [e]
  · have cD : Continuous fun x => F x - g x := cF.sub cg
    refine hasSum_le_of_sum_le hsum fun A => ?_
    classical
    have hA : ∀ k ∈ A ∪ A.image fun k => -k, -k ∈ A ∪ A.image fun k => -k := by
      intro k hk
      rw [mem_union, mem_image] at hk ⊢
      rcases hk with hk | ⟨l, hl, rfl⟩
      · exact Or.inr ⟨k, hk, rfl⟩
      · exact Or.inl (by rwa [neg_neg])
    refine le_trans ?_ (bessel cD hA)
    refine le_trans (sum_le_sum (g := en fun x => F x - g x) fun k _ => ?_)
      (sum_le_sum_of_subset_of_nonneg subset_union_left fun k _ _ => en_nonneg _ k)
    unfold breaks
    split
    · next hk =>
      obtain ⟨z1, z2⟩ := (helical_iff cg pg hMN).1 hg k hk
      rw [one_mul]
      refine le_of_eq ?_
      have l1 : cc (fun x => F x - g x) k = cc F k - cc g k := by
        unfold cc
        simp only [sub_mul]
        exact mean2_sub (F := fun x => F x * cosM k x) (G := fun x => g x * cosM k x) (cF.mul (cosM_smooth k).continuous)
          (cg.mul (cosM_smooth k).continuous)
      have l2 : sc (fun x => F x - g x) k = sc F k - sc g k := by
        unfold sc
        simp only [sub_mul]
        exact mean2_sub (F := fun x => F x * sinM k x) (G := fun x => g x * sinM k x) (cF.mul (sinM_smooth k).continuous)
          (cg.mul (sinM_smooth k).continuous)
      unfold en
      rw [l1, l2, z1, z2, sub_zero, sub_zero]
    · rw [zero_mul]
      exact en_nonneg _ k

/-- Sums over growing squares of modes with toroidal numbers that are multiples of `nfp`. -/
theorem sum_halves {v : ℤ × ℤ → ℝ} {Q : ℝ} (hv : HasSum v Q) (hn : ∀ k, v (-k) = v k) {nfp : ℕ} (hp : 1 ≤ nfp)
    (hz : ∀ k : ℤ × ℤ, ¬ (nfp : ℤ) ∣ k.2 → v k = 0) {ε : ℝ} (hε : 0 < ε) :
    ∃ K0 : ℕ, ∀ K, K0 ≤ K → |Q - ∑ k ∈ half K, (if k = 0 then 1 else 2) * v (k.1, k.2 * nfp)| ≤ ε := by
  have hp0 : (nfp : ℤ) ≠ 0 := by omega
  have inj : Injective fun k : ℤ × ℤ => (k.1, k.2 * (nfp : ℤ)) := by
    rintro ⟨a, b⟩ ⟨c, d⟩ e
    simp only [Prod.mk.injEq] at e
    exact Prod.ext e.1 (mul_right_cancel₀ hp0 e.2)
  have hs : HasSum (v ∘ fun k : ℤ × ℤ => (k.1, k.2 * (nfp : ℤ))) Q := by
    refine (inj.hasSum_iff fun k hk => hz k fun hd => hk ?_).2 hv
    obtain ⟨j, hj⟩ := hd
    exact ⟨(k.1, j), Prod.ext rfl (by rw [hj]; simp only; ring)⟩
  have hmono : Filter.Tendsto box Filter.atTop Filter.atTop := by
    refine Filter.tendsto_atTop_finset_of_monotone ?_ fun k => ⟨max k.1.natAbs k.2.natAbs, ?_⟩
    · intro K L hKL k hk
      rw [mem_box] at hk ⊢
      have : (K : ℤ) ≤ L := by exact_mod_cast hKL
      exact ⟨hk.1.trans this, hk.2.trans this⟩
    · rw [mem_box, Int.abs_eq_natAbs, Int.abs_eq_natAbs]
      exact ⟨by exact_mod_cast le_max_left _ _, by exact_mod_cast le_max_right _ _⟩
  rw [HasSum, SummationFilter.unconditional_filter] at hs
  obtain ⟨K0, hK0⟩ := Filter.eventually_atTop.1 (Metric.tendsto_nhds.1 (hs.comp hmono) ε hε)
  refine ⟨K0, fun K hK => ?_⟩
  have := (hK0 K hK).le
  rw [dist_comm, Real.dist_eq, comp_apply, box_sum _ fun k => ?_] at this
  · exact this
  · show v (-k.1, -k.2 * nfp) = v (k.1, k.2 * nfp)
    rw [neg_mul]
    exact hn (k.1, k.2 * nfp)

end Booz.Trapezoid
