import Verif.Lemmas.FourierTorus

/-!
# Translations of the torus, and functions of one helical angle
-/

namespace Booz.Trapezoid
open Finset Function Spec

variable {F : ℝ × ℝ → ℝ}

theorem const_map (v : ℝ × ℝ) : TorusMap (fun _ => v.1) (fun _ => v.2) :=
  ⟨contDiff_const, contDiff_const, ⟨fun _ => rfl, fun _ => rfl⟩, ⟨fun _ => rfl, fun _ => rfl⟩⟩

theorem mean2_shift (hc : Continuous F) (hp : DPer τ τ F) (v : ℝ × ℝ) :
    mean2 τ τ (fun x => F (x + v)) = mean2 τ τ F := by
  rw [← (const_map v).mean_new hc hp]
  congr 1
  funext x
  have : newDet (fun _ => v.1) (fun _ => v.2) x = 1 := by simp [newDet, D1, D2]
  rw [this, mul_one]
  rfl

theorem ph_add (k : ℤ × ℤ) (x v : ℝ × ℝ) : ph k (x + v) = ph k x + ph k v := by
  unfold ph
  simp only [Prod.fst_add, Prod.snd_add]
  ring

/-- Coefficients of a translate. -/
theorem coeff_shift (hc : Continuous F) (hp : DPer τ τ F) (v : ℝ × ℝ) (k : ℤ × ℤ) :
    cc (fun x => F (x + v)) k = Real.cos (ph k v) * cc F k + Real.sin (ph k v) * sc F k ∧
    sc (fun x => F (x + v)) k = Real.cos (ph k v) * sc F k - Real.sin (ph k v) * cc F k := by
  have hcos : Continuous fun x => F x * cosM k x := hc.mul (cosM_smooth k).continuous
  have hsin : Continuous fun x => F x * sinM k x := hc.mul (sinM_smooth k).continuous
  have e : ∀ x, ph k x = ph k (x + v) - ph k v := fun x => by rw [ph_add]; ring
  constructor
  · have e1 : (fun x => F (x + v) * cosM k x) =
        fun x => (fun y => Real.cos (ph k v) * (F y * cosM k y) + Real.sin (ph k v) * (F y * sinM k y)) (x + v) := by
      funext x
      unfold cosM sinM
      rw [e x, Real.cos_sub]
      ring
    unfold cc sc
    rw [e1, mean2_shift (F := fun y => Real.cos (ph k v) * (F y * cosM k y) + Real.sin (ph k v) * (F y * sinM k y))
      ((hcos.const_mul _).add (hsin.const_mul _)), mean_lin2 _ _ hcos hsin]
    have p1 := hp.mul (cosM_per k)
    have p2 := hp.mul (sinM_per k)
    exact ⟨fun x => congrArg₂ (fun a b => Real.cos (ph k v) * a + Real.sin (ph k v) * b) (p1.1 x) (p2.1 x),
      fun x => congrArg₂ (fun a b => Real.cos (ph k v) * a + Real.sin (ph k v) * b) (p1.2 x) (p2.2 x)⟩
  · have e1 : (fun x => F (x + v) * sinM k x) =
        fun x => (fun y => Real.cos (ph k v) * (F y * sinM k y) + -Real.sin (ph k v) * (F y * cosM k y)) (x + v) := by
      funext x
      unfold cosM sinM
      rw [e x, Real.sin_sub]
      ring
    unfold cc sc
    rw [e1, mean2_shift (F := fun y => Real.cos (ph k v) * (F y * sinM k y) + -Real.sin (ph k v) * (F y * cosM k y))
      ((hsin.const_mul _).add (hcos.const_mul _)), mean_lin2 _ _ hsin hcos]
    · ring
    have p1 := hp.mul (cosM_per k)
    have p2 := hp.mul (sinM_per k)
    exact ⟨fun x => congrArg₂ (fun a b => Real.cos (ph k v) * a + -Real.sin (ph k v) * b) (p2.1 x) (p1.1 x),
      fun x => congrArg₂ (fun a b => Real.cos (ph k v) * a + -Real.sin (ph k v) * b) (p2.2 x) (p1.2 x)⟩

/-- A function which a translation leaves alone has only coefficients whose phase it leaves alone. -/
theorem coeff_zero_of_invariant (hc : Continuous F) (hp : DPer τ τ F) {v : ℝ × ℝ} (hv : ∀ x, F (x + v) = F x) {k : ℤ × ℤ}
    (hk : Real.cos (ph k v) ≠ 1) : cc F k = 0 ∧ sc F k = 0 := by
  obtain ⟨h1, h2⟩ := coeff_shift hc hp v k
  have e : (fun x => F (x + v)) = F := funext hv
  rw [e] at h1 h2
  have hlt : Real.cos (ph k v) < 1 := lt_of_le_of_ne (Real.cos_le_one _) hk
  have hs := Real.sin_sq_add_cos_sq (ph k v)
  set C := Real.cos (ph k v)
  set D := Real.sin (ph k v)
  have a1 : (1 - C) * (cc F k ^ 2 + sc F k ^ 2) = 0 := by
    have : cc F k * ((1 - C) * cc F k - D * sc F k) = 0 := by rw [show (1 - C) * cc F k - D * sc F k = 0 by linarith]; ring
    have : sc F k * ((1 - C) * sc F k + D * cc F k) = 0 := by rw [show (1 - C) * sc F k + D * cc F k = 0 by linarith]; ring
    linarith
  have a2 : cc F k ^ 2 + sc F k ^ 2 = 0 := by
    rcases mul_eq_zero.1 a1 with h | h
    · linarith
    · exact h
  constructor <;> nlinarith [sq_nonneg (cc F k), sq_nonneg (sc F k)]

/-- A continuous function on the torus is a function of `M t − N z` iff its coefficients vanish for all modes which
are not parallel to (M, N). -/
theorem helical_iff (hc : Continuous F) (hp : DPer τ τ F) {M N : ℤ} (hMN : ¬ (M = 0 ∧ N = 0)) :
    (∀ x y : ℝ × ℝ, M * x.1 - N * x.2 = M * y.1 - N * y.2 → F x = F y) ↔
      ∀ k : ℤ × ℤ, k.1 * N ≠ k.2 * M → cc F k = 0 ∧ sc F k = 0 := by
  constructor
  · intro h k hk
    have ha : ((k.1 * N - k.2 * M : ℤ) : ℝ) ≠ 0 := by
      have : k.1 * N - k.2 * M ≠ 0 := by omega
      exact_mod_cast this
    refine coeff_zero_of_invariant hc hp (v := (N * (Real.pi / (k.1 * N - k.2 * M : ℤ)), M * (Real.pi / (k.1 * N - k.2 * M : ℤ))))
      (fun x => h _ _ ?_) ?_
    · simp only [Prod.fst_add, Prod.snd_add]
      ring
    · have : ph k (N * (Real.pi / (k.1 * N - k.2 * M : ℤ)), M * (Real.pi / (k.1 * N - k.2 * M : ℤ))) = Real.pi := by
        unfold ph
        field_simp
        push_cast
        ring
      rw [this, Real.cos_pi]
      norm_num
  · intro h x y hxy
    have hn : (0 : ℝ) < (M : ℝ) ^ 2 + (N : ℝ) ^ 2 := by
      have : 0 < M ^ 2 + N ^ 2 := by
        by_cases h0 : M = 0
        · have : N ≠ 0 := fun h1 => hMN ⟨h0, h1⟩
          positivity
        · positivity
      exact_mod_cast this
    obtain ⟨ε, h1, h2⟩ : ∃ ε : ℝ, y.1 = x.1 + N * ε ∧ y.2 = x.2 + M * ε := by
      refine ⟨(N * (y.1 - x.1) + M * (y.2 - x.2)) / ((M : ℝ) ^ 2 + (N : ℝ) ^ 2), ?_, ?_⟩
      · field_simp
        linear_combination -(M : ℝ) * hxy
      · field_simp
        linear_combination (N : ℝ) * hxy
    set v : ℝ × ℝ := (N * ε, M * ε)
    have ey : y = x + v := Prod.ext h1 h2
    have cG : Continuous fun x => F (x + v) := hc.comp (continuous_id.add continuous_const)
    have pG : DPer τ τ fun x => F (x + v) :=
      ⟨fun x => by show F (x + _ + v) = F (x + v); rw [add_right_comm]; exact hp.1 _,
       fun x => by show F (x + _ + v) = F (x + v); rw [add_right_comm]; exact hp.2 _⟩
    have lin : ∀ {G E : ℝ × ℝ → ℝ}, Continuous G → Continuous E →
        mean2 τ τ (fun x => (G x - F x) * E x) = mean2 τ τ (fun x => G x * E x) - mean2 τ τ (fun x => F x * E x) := by
      intro G E hG hE
      rw [← mean2_sub (F := fun x => G x * E x) (G := fun x => F x * E x) (hG.mul hE) (hc.mul hE)]
      congr 1
      funext x
      simp only [sub_mul]
    have z : ∀ k, cc (fun x => F (x + v) - F x) k = 0 ∧ sc (fun x => F (x + v) - F x) k = 0 := by
      intro k
      obtain ⟨s1, s2⟩ := coeff_shift hc hp v k
      have c1 : cc (fun x => F (x + v) - F x) k = cc (fun x => F (x + v)) k - cc F k := lin cG (cosM_smooth k).continuous
      have c2 : sc (fun x => F (x + v) - F x) k = sc (fun x => F (x + v)) k - sc F k := lin cG (sinM_smooth k).continuous
      rw [c1, c2, s1, s2]
      by_cases hk : k.1 * N = k.2 * M
      · have : ph k v = 0 := by
          have e : (k.1 : ℝ) * N = k.2 * M := by exact_mod_cast hk
          show (k.1 : ℝ) * (N * ε) - k.2 * (M * ε) = 0
          linear_combination ε * e
        rw [this, Real.cos_zero, Real.sin_zero]
        constructor <;> ring
      · rw [(h k hk).1, (h k hk).2]
        constructor <;> ring
    have := zero_of_coeffs (F := fun x => F (x + v) - F x) (pG.sub hp) (cG.sub hc) (fun k => (z k).1) (fun k => (z k).2) x
    rw [ey]
    linarith

end Booz.Trapezoid
