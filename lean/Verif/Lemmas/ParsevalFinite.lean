import Verif.Lemmas.Parseval

/-!
# Mean squares of trigonometric polynomials and of functions near them
-/

namespace Booz.Trapezoid
open Finset Function Spec

variable {F G T : ℝ × ℝ → ℝ}

theorem mean2_nonneg (h0 : ∀ x, 0 ≤ F x) : 0 ≤ mean2 τ τ F := by
  have hm : ∀ {P : ℝ} {f : ℝ → ℝ}, 0 < P → (∀ x, 0 ≤ f x) → 0 ≤ mean P f := by
    intro P f hP hf
    unfold mean
    exact div_nonneg (intervalIntegral.integral_nonneg hP.le fun x _ => hf x) hP.le
  unfold mean2
  exact hm tau_pos fun θ => hm tau_pos fun ζ => h0 _

theorem mean2_mono (cF : Continuous F) (cG : Continuous G) (h : ∀ x, F x ≤ G x) : mean2 τ τ F ≤ mean2 τ τ G := by
  have := mean2_nonneg (F := fun x => G x - F x) fun x => sub_nonneg.2 (h x)
  rw [mean2_sub cG cF] at this
  linarith

/-- Mean square distances from nearby functions. -/
theorem near_sq (cF : Continuous F) (cT : Continuous T) (cG : Continuous G) {δ : ℝ} (hd : ∀ x, |F x - T x| ≤ δ) :
    mean2 τ τ (fun x => (F x - G x) * (F x - G x)) ≤
      mean2 τ τ (fun x => (T x - G x) * (T x - G x)) + δ * (δ + 1 + mean2 τ τ fun x => (T x - G x) * (T x - G x)) := by
  have h0 : 0 ≤ δ := (abs_nonneg _).trans (hd 0)
  have c1 : Continuous fun x => (F x - G x) * (F x - G x) := (cF.sub cG).mul (cF.sub cG)
  have c2 : Continuous fun x => (T x - G x) * (T x - G x) := (cT.sub cG).mul (cT.sub cG)
  have c3 : Continuous fun x => (δ * (δ + 1)) * 1 + (1 + δ) * ((T x - G x) * (T x - G x)) :=
    continuous_const.add (continuous_const.mul c2)
  have := mean2_mono c1 c3 fun x => ?_
  · rw [mean_lin2 (f := fun _ => 1) _ _ continuous_const c2, mean2_one tau_pos tau_pos] at this
    linarith
  · obtain ⟨l, u⟩ := abs_le.1 (hd x)
    have e : F x - G x = (F x - T x) + (T x - G x) := by ring
    rw [e]
    set D := F x - T x
    set E := T x - G x
    have a1 : D * D ≤ δ * δ := by nlinarith
    have a2 : 2 * (D * E) ≤ δ * (1 + E * E) := by
      have : |2 * E| ≤ 1 + E * E := by
        rw [abs_le]
        constructor <;> nlinarith [sq_nonneg (E - 1), sq_nonneg (E + 1)]
      calc 2 * (D * E) = D * (2 * E) := by ring
        _ ≤ |D| * |2 * E| := by rw [← abs_mul]; exact le_abs_self _
        _ ≤ δ * (1 + E * E) := mul_le_mul (hd x) this (abs_nonneg _) h0
    nlinarith

/-! ### Trigonometric polynomials -/

theorem mean_cos_cos (k l : ℤ × ℤ) : mean2 τ τ (fun x => cosM k x * cosM l x) =
    ((if k = l then 1 else 0) + if k = -l then 1 else 0) / 2 := by
  have e : (fun x => cosM k x * cosM l x) = fun x => (1 / 2) * cosM (k - l) x + (1 / 2) * cosM (k + l) x := by
    funext x
    rw [cosM_mul_cosM]
    ring
  rw [e, mean_lin2 _ _ (cosM_smooth _).continuous (cosM_smooth _).continuous, mean_cosM, mean_cosM]
  simp only [sub_eq_zero, add_eq_zero_iff_eq_neg]
  ring

theorem mean_sin_sin (k l : ℤ × ℤ) : mean2 τ τ (fun x => sinM k x * sinM l x) =
    ((if k = l then 1 else 0) - if k = -l then 1 else 0) / 2 := by
  have e : (fun x => sinM k x * sinM l x) = fun x => (1 / 2) * cosM (k - l) x + (-(1 / 2)) * cosM (k + l) x := by
    funext x
    rw [sinM_mul_sinM]
    ring
  rw [e, mean_lin2 _ _ (cosM_smooth _).continuous (cosM_smooth _).continuous, mean_cosM, mean_cosM]
  simp only [sub_eq_zero, add_eq_zero_iff_eq_neg]
  ring

theorem mean_sin_cos (k l : ℤ × ℤ) : mean2 τ τ (fun x => sinM k x * cosM l x) = 0 := by
  have e : (fun x => sinM k x * cosM l x) = fun x => (1 / 2) * sinM (k - l) x + (1 / 2) * sinM (k + l) x := by
    funext x
    rw [sinM_mul_cosM]
    ring
  rw [e, mean_lin2 _ _ (sinM_smooth _).continuous (sinM_smooth _).continuous, mean_sinM, mean_sinM]
  ring

/-- Trigonometric polynomial. -/
noncomputable def trig (A : Finset (ℤ × ℤ)) (a b : ℤ × ℤ → ℝ) (x : ℝ × ℝ) : ℝ := ∑ k ∈ A, (a k * cosM k x + b k * sinM k x)

section
variable {A : Finset (ℤ × ℤ)} {a b : ℤ × ℤ → ℝ}

theorem trig_term_continuous (a b : ℤ × ℤ → ℝ) (k : ℤ × ℤ) : Continuous fun x => a k * cosM k x + b k * sinM k x :=
  (continuous_const.mul (cosM_smooth k).continuous).add (continuous_const.mul (sinM_smooth k).continuous)

theorem trig_continuous (A : Finset (ℤ × ℤ)) (a b : ℤ × ℤ → ℝ) : Continuous (trig A a b) :=
  continuous_finsetSum _ fun k _ => trig_term_continuous a b k

theorem trig_per (A : Finset (ℤ × ℤ)) (a b : ℤ × ℤ → ℝ) : DPer τ τ (trig A a b) :=
  ⟨fun x => sum_congr rfl fun k _ => by rw [(cosM_per k).1, (sinM_per k).1],
   fun x => sum_congr rfl fun k _ => by rw [(cosM_per k).2, (sinM_per k).2]⟩

theorem mean_trig (cG : Continuous G) (A : Finset (ℤ × ℤ)) (a b : ℤ × ℤ → ℝ) :
    mean2 τ τ (fun x => trig A a b x * G x) = ∑ k ∈ A, (a k * cc G k + b k * sc G k) := by
  have e : (fun x => trig A a b x * G x) = fun x => ∑ k ∈ A, (a k * (G x * cosM k x) + b k * (G x * sinM k x)) := by
    funext x
    unfold trig
    rw [sum_mul]
    exact sum_congr rfl fun k _ => by ring
  have c1 : ∀ k, Continuous fun x => G x * cosM k x := fun k => cG.mul (cosM_smooth k).continuous
  have c2 : ∀ k, Continuous fun x => G x * sinM k x := fun k => cG.mul (sinM_smooth k).continuous
  rw [e, mean2_sum A (f := fun k x => a k * (G x * cosM k x) + b k * (G x * sinM k x))
    fun k => (continuous_const.mul (c1 k)).add (continuous_const.mul (c2 k))]
  refine sum_congr rfl fun k _ => ?_
  rw [mean_lin2 _ _ (c1 k) (c2 k)]
  rfl

theorem trig_coeff (hA : ∀ k ∈ A, ∀ l ∈ A, k = -l → l = 0) {l : ℤ × ℤ} (hl : l ∈ A) :
    cc (trig A a b) l = a l * (if l = 0 then 1 else 1 / 2) ∧ sc (trig A a b) l = b l * (if l = 0 then 0 else 1 / 2) := by
  have sum1 : ∀ (v : ℤ × ℤ → ℝ) (y : ℝ), (∑ k ∈ A, if k = l then v k * y else 0) = v l * y := fun v y => by
    rw [Finset.sum_ite_eq' A l, if_pos hl]
  constructor
  · show mean2 τ τ (fun x => trig A a b x * cosM l x) = _
    rw [mean_trig (cosM_smooth l).continuous, ← sum1 a]
    refine sum_congr rfl fun k hk => ?_
    have e1 : cc (cosM l) k = ((if l = k then 1 else 0) + if l = -k then 1 else 0) / 2 := mean_cos_cos l k
    have e2 : sc (cosM l) k = 0 := by
      have := mean_sin_cos k l
      unfold sc
      simp only [mul_comm (cosM l _)]
      exact this
    rw [e1, e2, mul_zero, add_zero]
    by_cases h : k = l
    · subst h
      by_cases h0 : k = 0
      · subst h0
        simp
      · have : ¬ k = -k := fun e => h0 (hA k hk k hk e)
        simp [h0, this]
    · have h2 : ¬ l = -k := fun e => by
        have z1 := hA l hl k hk e
        rw [z1] at e
        exact h (by rw [z1, e]; simp)
      have h3 : ¬ l = k := fun e => h e.symm
      simp [h, h2, h3]
  · show mean2 τ τ (fun x => trig A a b x * sinM l x) = _
    rw [mean_trig (sinM_smooth l).continuous, ← sum1 b]
    refine sum_congr rfl fun k hk => ?_
    have e1 : sc (sinM l) k = ((if l = k then 1 else 0) - if l = -k then 1 else 0) / 2 := mean_sin_sin l k
    have e2 : cc (sinM l) k = 0 := mean_sin_cos l k
    rw [e1, e2, mul_zero, zero_add]
    by_cases h : k = l
    · subst h
      by_cases h0 : k = 0
      · subst h0
        simp
      · have : ¬ k = -k := fun e => h0 (hA k hk k hk e)
        simp [h0, this]
    · have h2 : ¬ l = -k := fun e => by
        have z1 := hA l hl k hk e
        rw [z1] at e
        exact h (by rw [z1, e]; simp)
      have h3 : ¬ l = k := fun e => h e.symm
      simp [h, h2, h3]

theorem trig_sq (hA : ∀ k ∈ A, ∀ l ∈ A, k = -l → l = 0) (h0 : b 0 = 0) :
    mean2 τ τ (fun x => trig A a b x * trig A a b x) = ∑ k ∈ A, (if k = 0 then 1 else 1 / 2) * (a k ^ 2 + b k ^ 2) := by
  rw [mean_trig (trig_continuous A a b)]
  refine sum_congr rfl fun k hk => ?_
  obtain ⟨e1, e2⟩ := trig_coeff (a := a) (b := b) hA hk
  rw [e1, e2]
  split
  · next h =>
    rw [h, h0]
    ring
  · ring

/-- Distance of a trigonometric polynomial from functions of `M t − N z`. -/
theorem trig_closest (hA : ∀ k ∈ A, ∀ l ∈ A, k = -l → l = 0) (h0 : b 0 = 0) {M N : ℤ} (hMN : ¬ (M = 0 ∧ N = 0))
    {x : ℝ} (hx : x = ∑ k ∈ A.filter (fun k => k.1 * N ≠ k.2 * M), (if k = 0 then 1 else 1 / 2) * (a k ^ 2 + b k ^ 2)) :
    (∃ g : ℝ × ℝ → ℝ, Continuous g ∧ DPer τ τ g ∧
      (∀ x y : ℝ × ℝ, M * x.1 - N * x.2 = M * y.1 - N * y.2 → g x = g y) ∧
      mean2 τ τ (fun y => (trig A a b y - g y) * (trig A a b y - g y)) = x) ∧
    ∀ g : ℝ × ℝ → ℝ, Continuous g → DPer τ τ g →
      (∀ x y : ℝ × ℝ, M * x.1 - N * x.2 = M * y.1 - N * y.2 → g x = g y) →
      x ≤ mean2 τ τ fun y => (trig A a b y - g y) * (trig A a b y - g y) := by
  set B := A.filter fun k => k.1 * N ≠ k.2 * M with hB
  set B' := A.filter fun k => ¬ k.1 * N ≠ k.2 * M with hB'
  have split : ∀ y, trig A a b y = trig B a b y + trig B' a b y := fun y => by
    unfold trig
    exact (sum_filter_add_sum_filter_not A _ _).symm
  have hBA : ∀ k ∈ B, ∀ l ∈ B, k = -l → l = 0 := fun k hk l hl => hA k (mem_filter.1 hk).1 l (mem_filter.1 hl).1
  have hsq : mean2 τ τ (fun y => trig B a b y * trig B a b y) = x := by rw [trig_sq hBA h0, hx]
  have hel : ∀ x y : ℝ × ℝ, M * x.1 - N * x.2 = M * y.1 - N * y.2 → trig B' a b x = trig B' a b y := by
    intro x y hxy
    unfold trig
    refine sum_congr rfl fun k hk => ?_
    have hk : k.1 * N = k.2 * M := not_not.1 (mem_filter.1 hk).2
    have hkr : (k.1 : ℝ) * N = k.2 * M := by exact_mod_cast hk
    have e : ph k x = ph k y := by
      unfold ph
      by_cases hM : M = 0
      · have hN : (N : ℝ) ≠ 0 := by
          have : N ≠ 0 := fun hN => hMN ⟨hM, hN⟩
          exact_mod_cast this
        rw [hM] at hxy hkr
        push_cast at hxy hkr
        have k1 : (k.1 : ℝ) = 0 := by
          rw [mul_zero] at hkr
          exact (mul_eq_zero.1 hkr).resolve_right hN
        have : x.2 = y.2 := mul_left_cancel₀ hN (by linarith)
        rw [k1, this]
        ring
      · have hM : (M : ℝ) ≠ 0 := by exact_mod_cast hM
        apply mul_left_cancel₀ hM
        linear_combination (k.1 : ℝ) * hxy + (x.2 - y.2) * hkr
    unfold cosM sinM
    rw [e]
  refine ⟨⟨trig B' a b, trig_continuous _ _ _, trig_per _ _ _, hel, ?_⟩, fun g cg pg hg => ?_⟩
  · rw [← hsq]
    congr 1
    funext y
    rw [split]
    ring
  · set H : ℝ × ℝ → ℝ := fun y => trig B' a b y - g y with hH
    have cH : Continuous H := (trig_continuous _ _ _).sub cg
    have pH : DPer τ τ H := (trig_per _ _ _).sub pg
    have hHel : ∀ x y : ℝ × ℝ, M * x.1 - N * x.2 = M * y.1 - N * y.2 → H x = H y := fun x y hxy => by
      simp only [hH]
      rw [hel x y hxy, hg x y hxy]
    have z : mean2 τ τ (fun y => trig B a b y * H y) = 0 := by
      rw [mean_trig cH]
      refine sum_eq_zero fun k hk => ?_
      obtain ⟨z1, z2⟩ := (helical_iff cH pH hMN).1 hHel k (mem_filter.1 hk).2
      rw [z1, z2]
      ring
    have c0 := trig_continuous B a b
    have c1 : Continuous fun y => trig B a b y * trig B a b y := c0.mul c0
    have c2 : Continuous fun y => trig B a b y * H y := c0.mul cH
    have c3 : Continuous fun y => H y * H y := cH.mul cH
    have c4 : Continuous fun y => 2 * (trig B a b y * H y) + 1 * (H y * H y) :=
      (continuous_const.mul c2).add (continuous_const.mul c3)
    have e : (fun y => (trig A a b y - g y) * (trig A a b y - g y)) =
        fun y => 1 * (trig B a b y * trig B a b y) + 1 * (2 * (trig B a b y * H y) + 1 * (H y * H y)) := by
      funext y
      rw [split]
      simp only [hH]
      ring
    rw [e, mean_lin2 _ _ c1 c4, mean_lin2 _ _ c2 c3, z, hsq]
    have := mean_sq_nonneg H
    linarith

end

/-- Two nearby numbers. -/
theorem near_numbers {Q x C r : ℝ} (hQ : 0 ≤ Q) (hC : 0 ≤ C) (hr0 : 0 ≤ r) (hr : r ≤ 1) (hx : 0 ≤ x)
    (h1 : Q ≤ x + C * r * (C * r + 1 + x)) (h2 : x ≤ Q + C * r * (C * r + 1 + Q)) :
    |Q - x| ≤ C * (C + 1 + (Q + C * (C + 1 + Q))) * r := by
  have hd : C * r ≤ C := mul_le_of_le_one_right hC hr
  have hd0 : 0 ≤ C * r := mul_nonneg hC hr0
  have hX : x ≤ Q + C * (C + 1 + Q) := by
    have : C * r * (C * r + 1 + Q) ≤ C * (C + 1 + Q) := mul_le_mul hd (by linarith) (by positivity) hC
    linarith
  have hp : 0 ≤ C * (C + 1 + Q) := by positivity
  have b1 : C * r * (C * r + 1 + x) ≤ C * r * (C + 1 + (Q + C * (C + 1 + Q))) :=
    mul_le_mul_of_nonneg_left (by linarith) hd0
  have b2 : C * r * (C * r + 1 + Q) ≤ C * r * (C + 1 + (Q + C * (C + 1 + Q))) :=
    mul_le_mul_of_nonneg_left (by linarith) hd0
  rw [abs_le]
  constructor <;> nlinarith

end Booz.Trapezoid
