import Verif.Lemmas.RealTrig

/-!
# Parity folding and the quadrature form of the output harmonics
-/

open Finset

namespace Booz
open Spec

/-! ### Sums -/

theorem sum_range_div_mod (A B : ℕ) (hB : 0 < B) (f : ℕ → ℕ → ℝ) :
    ∑ j ∈ range (A * B), f (j / B) (j % B) = ∑ a ∈ range A, ∑ b ∈ range B, f a b := by
  induction A with
  | zero => simp
  | succ A ih =>
    rw [Nat.succ_mul, sum_range_add, ih, sum_range_succ]
    congr 1
    apply sum_congr rfl
    intro b hb
    have hb := mem_range.mp hb
    rw [Nat.mul_comm A B, Nat.mul_add_div hB, Nat.div_eq_of_lt hb, Nat.mul_add_mod,
      Nat.mod_eq_of_lt hb, Nat.add_zero]

theorem sum_range_refl {n : ℕ} (h : ℕ → ℝ) (h0 : h n = h 0) :
    ∑ b ∈ range n, h (n - b) = ∑ b ∈ range n, h b := by
  have e1 : ∑ b ∈ range n, h (n - b) = ∑ b ∈ range n, h (b + 1) := by
    rw [← sum_range_reflect]
    apply sum_congr rfl
    intro b hb
    have hb := mem_range.mp hb
    congr 1
    omega
  rw [e1]
  have e2 := sum_range_succ h n
  rw [sum_range_succ'] at e2
  linarith

theorem sum_fold {h : ℕ} (hh : 1 ≤ h) (G : ℕ → ℝ) (hG : ∀ a ≤ 2 * h, G (2 * h - a) = G a) :
    ∑ a ∈ range (h + 1), (if a < 1 ∨ h ≤ a then 1 / 2 * G a else G a) =
      1 / 2 * ∑ a ∈ range (2 * h), G a := by
  have e1 : ∑ a ∈ range (h + 1), (if a < 1 ∨ h ≤ a then 1 / 2 * G a else G a) =
      ∑ a ∈ range h, G a - 1 / 2 * G 0 + 1 / 2 * G h := by
    rw [sum_range_succ]
    obtain ⟨p, rfl⟩ := Nat.exists_eq_add_of_le hh
    rw [Nat.add_comm 1 p, sum_range_succ', sum_range_succ' G]
    have : ∑ a ∈ range p, (if a + 1 < 1 ∨ p + 1 ≤ a + 1 then 1 / 2 * G (a + 1) else G (a + 1)) =
        ∑ a ∈ range p, G (a + 1) := by
      apply sum_congr rfl
      intro a ha
      have ha := mem_range.mp ha
      rw [if_neg (by omega)]
    rw [this, if_pos (by omega), if_pos (by omega)]
    ring
  have e2 : ∑ a ∈ range (2 * h), G a = ∑ a ∈ range h, G a + ∑ a ∈ range h, G (h + a) := by
    rw [two_mul, sum_range_add]
  have e3 : ∑ a ∈ range h, G (h + a) = ∑ a ∈ range h, G a - G 0 + G h := by
    have : ∑ a ∈ range h, G (h + a) = ∑ a ∈ range h, G (a + 1) := by
      rw [← sum_range_reflect]
      apply sum_congr rfl
      intro a ha
      have ha := mem_range.mp ha
      rw [← hG (a + 1) (by omega)]
      congr 1
      omega
    rw [this]
    have e := sum_range_succ G h
    rw [sum_range_succ'] at e
    linarith
  rw [e1, e2, e3]
  ring

/-- Double sum of a doubly periodic even function: half the grid with end weights 1/2 is half of the
full grid. -/
theorem fold_grid {F : ℝ → ℝ → ℝ} {P : ℝ} {h nz : ℕ} (hh : 1 ≤ h) (hnz : 1 ≤ nz)
    (he : ∀ θ ζ, F (-θ) (-ζ) = F θ ζ) (ht : ∀ θ ζ, F (θ + 2 * Real.pi) ζ = F θ ζ)
    (hz : ∀ θ ζ, F θ (ζ + P) = F θ ζ) :
    ∑ a ∈ range (h + 1), ∑ b ∈ range nz, (if a < 1 ∨ h ≤ a then
        1 / 2 * F (2 * Real.pi * a / (2 * h)) (P * b / nz) else F (2 * Real.pi * a / (2 * h)) (P * b / nz)) =
      1 / 2 * ∑ a ∈ range (2 * h), ∑ b ∈ range nz, F (2 * Real.pi * a / (2 * h)) (P * b / nz) := by
  have hh' : (h : ℝ) ≠ 0 := by positivity
  have hz' : (nz : ℝ) ≠ 0 := by positivity
  rw [← sum_fold hh (fun a => ∑ b ∈ range nz, F (2 * Real.pi * a / (2 * h)) (P * b / nz))]
  · apply sum_congr rfl
    intro a _
    split
    · rw [mul_sum]
    · rfl
  · intro a ha
    rw [← sum_range_refl (fun b => F (2 * Real.pi * a / (2 * h)) (P * b / nz))]
    · apply sum_congr rfl
      intro b hb
      have hb := mem_range.mp hb
      rw [← he, ← ht, ← hz]
      congr 1
      · push_cast [Nat.cast_sub ha]
        field_simp
        ring
      · push_cast [Nat.cast_sub hb.le]
        field_simp
        ring
    · have := hz (2 * Real.pi * a / (2 * h)) 0
      rw [show P * (nz : ℝ) / nz = 0 + P by field_simp; ring, this]
      simp

/-! ### Periodicity and parity of the specification functions -/

/-- Even and odd functions of two angles. -/
def EvenF (f : ℝ → ℝ → ℝ) : Prop := ∀ θ ζ, f (-θ) (-ζ) = f θ ζ
def OddF (f : ℝ → ℝ → ℝ) : Prop := ∀ θ ζ, f (-θ) (-ζ) = -f θ ζ
/-- 2π-periodic in the first, 2π/nfp-periodic in the second angle. -/
def PerF (nfp : ℕ) (f : ℝ → ℝ → ℝ) : Prop :=
  (∀ θ ζ, f (θ + 2 * Real.pi) ζ = f θ ζ) ∧ (∀ θ ζ, f θ (ζ + 2 * Real.pi / nfp) = f θ ζ)

theorem series_per {K nfp : ℕ} (hp : 1 ≤ nfp) {m n : ℕ → ℤ} (hn : ∀ k < K, (nfp : ℤ) ∣ n k)
    (c s : ℕ → ℝ) : PerF nfp (series K m n c s) := by
  have hp' : (nfp : ℝ) ≠ 0 := by positivity
  constructor
  · intro θ ζ
    unfold series
    apply sum_congr rfl
    intro k _
    rw [show (m k : ℝ) * (θ + 2 * Real.pi) - n k * ζ = (m k * θ - n k * ζ) + m k * (2 * Real.pi) by ring,
      Real.cos_add_int_mul_two_pi, Real.sin_add_int_mul_two_pi]
  · intro θ ζ
    unfold series
    apply sum_congr rfl
    intro k hk
    obtain ⟨q, hq⟩ := hn k (mem_range.mp hk)
    rw [show (m k : ℝ) * θ - n k * (ζ + 2 * Real.pi / nfp) =
      (m k * θ - n k * ζ) - q * (2 * Real.pi) by rw [hq]; push_cast; field_simp; ring,
      Real.cos_sub_int_mul_two_pi, Real.sin_sub_int_mul_two_pi]

theorem series_even {K : ℕ} {m n : ℕ → ℤ} {c s : ℕ → ℝ} (h : ∀ k < K, s k = 0) :
    EvenF (series K m n c s) := by
  intro θ ζ
  unfold series
  apply sum_congr rfl
  intro k hk
  rw [h k (mem_range.mp hk), show (m k : ℝ) * -θ - n k * -ζ = -(m k * θ - n k * ζ) by ring,
    Real.cos_neg]
  ring

theorem series_odd {K : ℕ} {m n : ℕ → ℤ} {c s : ℕ → ℝ} (h : ∀ k < K, c k = 0) :
    OddF (series K m n c s) := by
  intro θ ζ
  unfold series
  rw [← sum_neg_distrib]
  apply sum_congr rfl
  intro k hk
  rw [h k (mem_range.mp hk), show (m k : ℝ) * -θ - n k * -ζ = -(m k * θ - n k * ζ) by ring,
    Real.sin_neg]
  ring

section sym
variable {S : Surface} {nfp : ℕ}

theorem nu_per (hl : PerF nfp S.lam) (hw : PerF nfp S.w) : PerF nfp S.nu := by
  constructor <;> intro θ ζ <;> unfold Surface.nu
  · rw [hl.1, hw.1]
  · rw [hl.2, hw.2]

theorem det_per (hl : PerF nfp S.lam) (hw : PerF nfp S.w) : PerF nfp S.det := by
  have hn := nu_per hl hw
  constructor <;> intro θ ζ <;> unfold Surface.det
  · have e1 : ∀ t, S.thetaB t ζ = S.thetaB (t + 2 * Real.pi) ζ - 2 * Real.pi := by
      intro t; unfold Surface.thetaB; rw [hl.1, hn.1]; ring
    have e2 : (fun z => S.zetaB (θ + 2 * Real.pi) z) = fun z => S.zetaB θ z := by
      funext z; unfold Surface.zetaB; rw [hn.1]
    have e3 : (fun z => S.thetaB (θ + 2 * Real.pi) z) = fun z => S.thetaB θ z + 2 * Real.pi := by
      funext z; unfold Surface.thetaB; rw [hl.1, hn.1]; ring
    have e4 : ∀ t, S.zetaB t ζ = S.zetaB (t + 2 * Real.pi) ζ := by
      intro t; unfold Surface.zetaB; rw [hn.1]
    have d1 : deriv (fun t => S.thetaB t ζ) (θ + 2 * Real.pi) = deriv (fun t => S.thetaB t ζ) θ := by
      conv_rhs => rw [show (fun t => S.thetaB t ζ) =
        fun t => (fun u => S.thetaB u ζ) (t + 2 * Real.pi) - 2 * Real.pi from funext e1]
      rw [deriv_sub_const]
      exact (deriv_comp_add_const (fun u => S.thetaB u ζ) _ _).symm
    have d4 : deriv (fun t => S.zetaB t ζ) (θ + 2 * Real.pi) = deriv (fun t => S.zetaB t ζ) θ := by
      conv_rhs => rw [show (fun t => S.zetaB t ζ) =
        fun t => (fun u => S.zetaB u ζ) (t + 2 * Real.pi) from funext e4]
      exact (deriv_comp_add_const (fun u => S.zetaB u ζ) _ _).symm
    rw [d1, d4, e2, e3, deriv_add_const]
  · have e1 : (fun t => S.thetaB t (ζ + 2 * Real.pi / nfp)) = fun t => S.thetaB t ζ := by
      funext t; unfold Surface.thetaB; rw [hl.2, hn.2]
    have e2 : ∀ z, S.zetaB θ z = S.zetaB θ (z + 2 * Real.pi / nfp) - 2 * Real.pi / nfp := by
      intro z; unfold Surface.zetaB; rw [hn.2]; ring
    have e3 : ∀ z, S.thetaB θ z = S.thetaB θ (z + 2 * Real.pi / nfp) := by
      intro z; unfold Surface.thetaB; rw [hl.2, hn.2]
    have e4 : (fun t => S.zetaB t (ζ + 2 * Real.pi / nfp)) =
        fun t => S.zetaB t ζ + 2 * Real.pi / nfp := by
      funext t; unfold Surface.zetaB; rw [hn.2]; ring
    have d2 : deriv (fun z => S.zetaB θ z) (ζ + 2 * Real.pi / nfp) = deriv (fun z => S.zetaB θ z) ζ := by
      conv_rhs => rw [show (fun z => S.zetaB θ z) =
        fun z => (fun u => S.zetaB θ u) (z + 2 * Real.pi / nfp) - 2 * Real.pi / nfp from funext e2]
      rw [deriv_sub_const, deriv_comp_add_const]
    have d3 : deriv (fun z => S.thetaB θ z) (ζ + 2 * Real.pi / nfp) = deriv (fun z => S.thetaB θ z) ζ := by
      conv_rhs => rw [show (fun z => S.thetaB θ z) =
        fun z => (fun u => S.thetaB θ u) (z + 2 * Real.pi / nfp) from funext e3]
      rw [deriv_comp_add_const]
    rw [d2, d3, e1, e4, deriv_add_const]

theorem nu_odd (hl : OddF S.lam) (hw : OddF S.w) : OddF S.nu := by
  intro θ ζ
  unfold Surface.nu
  rw [hl, hw]
  ring

theorem thetaB_odd (hl : OddF S.lam) (hw : OddF S.w) : OddF S.thetaB := by
  intro θ ζ
  unfold Surface.thetaB
  rw [hl, nu_odd hl hw]
  ring

theorem zetaB_odd (hl : OddF S.lam) (hw : OddF S.w) : OddF S.zetaB := by
  intro θ ζ
  unfold Surface.zetaB
  rw [nu_odd hl hw]
  ring

theorem deriv_odd1 {f : ℝ → ℝ → ℝ} (hf : OddF f) (θ ζ : ℝ) :
    deriv (fun t => f t (-ζ)) (-θ) = deriv (fun t => f t ζ) θ := by
  have e : (fun t => f t (-ζ)) = fun t => -(fun u => f u ζ) (-t) := by
    funext t
    have := hf (-t) ζ
    simp only [neg_neg] at this
    exact this
  rw [e, deriv.fun_neg]
  have := deriv_comp_neg (fun u => f u ζ) (-θ)
  rw [neg_neg] at this
  rw [this, neg_neg]

theorem deriv_odd2 {f : ℝ → ℝ → ℝ} (hf : OddF f) (θ ζ : ℝ) :
    deriv (fun z => f (-θ) z) (-ζ) = deriv (fun z => f θ z) ζ :=
  deriv_odd1 (f := fun a b => f b a) (fun a b => hf b a) ζ θ

theorem det_even (hl : OddF S.lam) (hw : OddF S.w) : EvenF S.det := by
  intro θ ζ
  unfold Surface.det
  rw [deriv_odd1 (thetaB_odd hl hw), deriv_odd2 (thetaB_odd hl hw), deriv_odd1 (zetaB_odd hl hw),
    deriv_odd2 (zetaB_odd hl hw)]

/-- The integrand of `quadCos`. -/
noncomputable def intC (S : Surface) (q : ℝ → ℝ → ℝ) (m n : ℤ) (θ ζ : ℝ) : ℝ :=
  q θ ζ * S.det θ ζ * Real.cos (m * S.thetaB θ ζ - n * S.zetaB θ ζ)
/-- The integrand of `quadSin`. -/
noncomputable def intS (S : Surface) (q : ℝ → ℝ → ℝ) (m n : ℤ) (θ ζ : ℝ) : ℝ :=
  q θ ζ * S.det θ ζ * Real.sin (m * S.thetaB θ ζ - n * S.zetaB θ ζ)

theorem angle_shift_t (hl : PerF nfp S.lam) (hw : PerF nfp S.w) (m n : ℤ) (θ ζ : ℝ) :
    (m : ℝ) * S.thetaB (θ + 2 * Real.pi) ζ - n * S.zetaB (θ + 2 * Real.pi) ζ =
      (m * S.thetaB θ ζ - n * S.zetaB θ ζ) + m * (2 * Real.pi) := by
  have hn := nu_per hl hw
  unfold Surface.thetaB Surface.zetaB
  rw [hl.1, hn.1]; ring

theorem angle_shift_z (hp : 1 ≤ nfp) (hl : PerF nfp S.lam) (hw : PerF nfp S.w) (m q : ℤ) (θ ζ : ℝ) :
    (m : ℝ) * S.thetaB θ (ζ + 2 * Real.pi / nfp) -
        ((q * nfp : ℤ) : ℝ) * S.zetaB θ (ζ + 2 * Real.pi / nfp) =
      (m * S.thetaB θ ζ - ((q * nfp : ℤ) : ℝ) * S.zetaB θ ζ) - q * (2 * Real.pi) := by
  have hn := nu_per hl hw
  have hp' : (nfp : ℝ) ≠ 0 := by positivity
  unfold Surface.thetaB Surface.zetaB
  rw [hl.2, hn.2]; push_cast; field_simp; ring

theorem intC_per (hp : 1 ≤ nfp) (hl : PerF nfp S.lam) (hw : PerF nfp S.w) {q : ℝ → ℝ → ℝ}
    (hq : PerF nfp q) (m n : ℤ) (hn : (nfp : ℤ) ∣ n) : PerF nfp (intC S q m n) := by
  obtain ⟨r, rfl⟩ := hn
  have hd := det_per hl hw
  rw [mul_comm]
  constructor <;> intro θ ζ <;> unfold intC
  · rw [hq.1, hd.1, angle_shift_t hl hw, Real.cos_add_int_mul_two_pi]
  · rw [hq.2, hd.2, angle_shift_z hp hl hw, Real.cos_sub_int_mul_two_pi]

theorem intS_per (hp : 1 ≤ nfp) (hl : PerF nfp S.lam) (hw : PerF nfp S.w) {q : ℝ → ℝ → ℝ}
    (hq : PerF nfp q) (m n : ℤ) (hn : (nfp : ℤ) ∣ n) : PerF nfp (intS S q m n) := by
  obtain ⟨r, rfl⟩ := hn
  have hd := det_per hl hw
  rw [mul_comm]
  constructor <;> intro θ ζ <;> unfold intS
  · rw [hq.1, hd.1, angle_shift_t hl hw, Real.sin_add_int_mul_two_pi]
  · rw [hq.2, hd.2, angle_shift_z hp hl hw, Real.sin_sub_int_mul_two_pi]

theorem angle_neg (hl : OddF S.lam) (hw : OddF S.w) (m n : ℤ) (θ ζ : ℝ) :
    (m : ℝ) * S.thetaB (-θ) (-ζ) - n * S.zetaB (-θ) (-ζ) =
      -(m * S.thetaB θ ζ - n * S.zetaB θ ζ) := by
  rw [thetaB_odd hl hw, zetaB_odd hl hw]; ring

theorem intC_even (hl : OddF S.lam) (hw : OddF S.w) {q : ℝ → ℝ → ℝ} (hq : EvenF q) (m n : ℤ) :
    EvenF (intC S q m n) := by
  intro θ ζ
  unfold intC
  rw [hq, det_even hl hw, angle_neg hl hw, Real.cos_neg]

theorem intS_even (hl : OddF S.lam) (hw : OddF S.w) {q : ℝ → ℝ → ℝ} (hq : OddF q) (m n : ℤ) :
    EvenF (intS S q m n) := by
  intro θ ζ
  unfold intS
  rw [hq, det_even hl hw, angle_neg hl hw, Real.sin_neg]
  ring

theorem intC_odd (hl : OddF S.lam) (hw : OddF S.w) {q : ℝ → ℝ → ℝ} (hq : OddF q) (m n : ℤ) :
    OddF (intC S q m n) := by
  intro θ ζ
  unfold intC
  rw [hq, det_even hl hw, angle_neg hl hw, Real.cos_neg]
  ring

theorem intS_odd (hl : OddF S.lam) (hw : OddF S.w) {q : ℝ → ℝ → ℝ} (hq : EvenF q) (m n : ℤ) :
    OddF (intS S q m n) := by
  intro θ ζ
  unfold intS
  rw [hq, det_even hl hw, angle_neg hl hw, Real.sin_neg]
  ring

end sym

end Booz
