import Mathlib.Analysis.SpecialFunctions.Trigonometric.Bounds
import Verif.Lemmas.RunOk
import Verif.Lemmas.RealTrig
import Verif.Spec.Rounding

/-!
# Forward error of the closed forms

`Stable X r`: the quantity `X`, computed by any machine of precision `u` from inputs within `K u` of fixed
real inputs, is within `C u` of `r` once `u` is small enough.
-/

namespace Booz
open Spec

/-- A machine. -/
structure Machine where
  α : Type
  inst : Arith α
  fin : α → Prop
  val : α → ℝ
  u : ℝ
  ok : Precision α fin val u

instance (M : Machine) : Arith M.α := M.inst

section
variable {ι : Type 1} {π : ι → Machine}

/-- The computed `X` tends to `r` at least linearly in the precision. -/
def Stable (X : ∀ M : ι, (π M).α) (r : ℝ) : Prop :=
  ∃ C u0, 0 ≤ C ∧ 0 < u0 ∧ ∀ M : ι, (π M).u ≤ u0 → (π M).fin (X M) ∧ |(π M).val (X M) - r| ≤ C * (π M).u

namespace Stable

theorem op2 {f : ℝ → ℝ → ℝ} {g : ∀ M : ι, (π M).α → (π M).α → (π M).α} {X Y : ∀ M : ι, (π M).α}
    {r s L δ : ℝ} (hδ : 0 < δ) (hL : 0 ≤ L)
    (hf : ∀ x y, |x - r| ≤ δ → |y - s| ≤ δ → |f x y - f r s| ≤ L * (|x - r| + |y - s|))
    (hg : ∀ (M : ι) a b, (π M).fin a → (π M).fin b → |(π M).val a - r| ≤ δ → |(π M).val b - s| ≤ δ →
      |f ((π M).val a) ((π M).val b)| ≤ 1 / (π M).u →
      (π M).fin (g M a b) ∧ |(π M).val (g M a b) - f ((π M).val a) ((π M).val b)| ≤
        (π M).u * (1 + |f ((π M).val a) ((π M).val b)|))
    (hX : Stable X r) (hY : Stable Y s) : Stable (fun M => g M (X M) (Y M)) (f r s) := by
  obtain ⟨C1, u1, c1, p1, h1⟩ := hX
  obtain ⟨C2, u2, c2, p2, h2⟩ := hY
  set T := |f r s| + L * (C1 + C2) with hT
  have T0 : 0 ≤ T := by positivity
  refine ⟨L * (C1 + C2) + (1 + T), min (min u1 u2) (min (min 1 (1 / (T + 1)))
      (min (δ / (C1 + 1)) (δ / (C2 + 1)))), by positivity, by positivity, ?_⟩
  intro M hM
  have hu := (π M).ok.u_pos
  have a1 : (π M).u ≤ u1 := hM.trans ((min_le_left _ _).trans (min_le_left _ _))
  have a2 : (π M).u ≤ u2 := hM.trans ((min_le_left _ _).trans (min_le_right _ _))
  have a3 : (π M).u ≤ 1 := hM.trans ((min_le_right _ _).trans ((min_le_left _ _).trans (min_le_left _ _)))
  have a4 : (π M).u ≤ 1 / (T + 1) :=
    hM.trans ((min_le_right _ _).trans ((min_le_left _ _).trans (min_le_right _ _)))
  have a5 : (π M).u ≤ δ / (C1 + 1) :=
    hM.trans ((min_le_right _ _).trans ((min_le_right _ _).trans (min_le_left _ _)))
  have a6 : (π M).u ≤ δ / (C2 + 1) :=
    hM.trans ((min_le_right _ _).trans ((min_le_right _ _).trans (min_le_right _ _)))
  obtain ⟨f1, e1⟩ := h1 M a1
  obtain ⟨f2, e2⟩ := h2 M a2
  have d1 : |(π M).val (X M) - r| ≤ δ := by
    refine e1.trans ?_
    rw [le_div_iff₀ (by linarith)] at a5
    nlinarith
  have d2 : |(π M).val (Y M) - s| ≤ δ := by
    refine e2.trans ?_
    rw [le_div_iff₀ (by linarith)] at a6
    nlinarith
  have k1 := hf _ _ d1 d2
  have k2 : |f ((π M).val (X M)) ((π M).val (Y M)) - f r s| ≤ L * (C1 + C2) * (π M).u := by
    refine k1.trans ?_
    have : L * (|(π M).val (X M) - r| + |(π M).val (Y M) - s|) ≤ L * (C1 * (π M).u + C2 * (π M).u) :=
      mul_le_mul_of_nonneg_left (add_le_add e1 e2) hL
    linarith
  have k3 : |f ((π M).val (X M)) ((π M).val (Y M))| ≤ T := by
    have h := abs_sub_abs_le_abs_sub (f ((π M).val (X M)) ((π M).val (Y M))) (f r s)
    have : L * (C1 + C2) * (π M).u ≤ L * (C1 + C2) := mul_le_of_le_one_right (by positivity) a3
    linarith
  have k4 : |f ((π M).val (X M)) ((π M).val (Y M))| ≤ 1 / (π M).u := by
    refine k3.trans ?_
    rw [le_div_iff₀ hu]
    rw [le_div_iff₀ (by linarith)] at a4
    nlinarith
  obtain ⟨g1, g2⟩ := hg M _ _ f1 f2 d1 d2 k4
  refine ⟨g1, ?_⟩
  have tri := abs_sub_le ((π M).val (g M (X M) (Y M))) (f ((π M).val (X M)) ((π M).val (Y M))) (f r s)
  have : (π M).u * (1 + |f ((π M).val (X M)) ((π M).val (Y M))|) ≤ (π M).u * (1 + T) :=
    mul_le_mul_of_nonneg_left (by linarith) hu.le
  linarith

variable {X Y : ∀ M : ι, (π M).α} {r s : ℝ}

theorem add (hX : Stable X r) (hY : Stable Y s) : Stable (fun M => X M + Y M) (r + s) := by
  refine op2 (f := fun x y => x + y) (g := fun M a b => a + b) one_pos zero_le_one ?_ ?_ hX hY
  · intro x y _ _
    rw [one_mul, show x + y - (r + s) = (x - r) + (y - s) by ring]
    exact abs_add_le _ _
  · intro M a b ha hb _ _ h
    exact (π M).ok.add a b ha hb h

theorem sub (hX : Stable X r) (hY : Stable Y s) : Stable (fun M => X M - Y M) (r - s) := by
  refine op2 (f := fun x y => x - y) (g := fun M a b => a - b) one_pos zero_le_one ?_ ?_ hX hY
  · intro x y _ _
    rw [one_mul, show x - y - (r - s) = (x - r) - (y - s) by ring]
    exact abs_sub _ _
  · intro M a b ha hb _ _ h
    exact (π M).ok.sub a b ha hb h

theorem mul (hX : Stable X r) (hY : Stable Y s) : Stable (fun M => X M * Y M) (r * s) := by
  refine op2 (f := fun x y => x * y) (g := fun M a b => a * b) (L := |r| + |s| + 1) one_pos
    (by positivity) ?_ ?_ hX hY
  · intro x y hx hy
    have hy' : |y| ≤ |s| + 1 := by
      have := abs_sub_abs_le_abs_sub y s
      linarith
    calc |x * y - r * s| = |(x - r) * y + r * (y - s)| := by ring_nf
      _ ≤ |(x - r) * y| + |r * (y - s)| := abs_add_le _ _
      _ = |x - r| * |y| + |r| * |y - s| := by rw [abs_mul, abs_mul]
      _ ≤ _ := by
        have h1 := abs_nonneg (x - r)
        have h2 := abs_nonneg (y - s)
        have h3 := abs_nonneg r
        have h4 := abs_nonneg s
        nlinarith [mul_le_mul_of_nonneg_left hy' h1, mul_nonneg h3 h1, mul_nonneg h4 h2]
  · intro M a b ha hb _ _ h
    exact (π M).ok.mul a b ha hb h

theorem div (hX : Stable X r) (hY : Stable Y s) (hs : s ≠ 0) :
    Stable (fun M => X M / Y M) (r / s) := by
  have s0 : 0 < |s| := abs_pos.2 hs
  have big : ∀ y : ℝ, |y - s| ≤ |s| / 2 → |s| / 2 ≤ |y| := by
    intro y hy
    have h := abs_sub_abs_le_abs_sub s y
    rw [abs_sub_comm] at h
    linarith
  refine op2 (f := fun x y => x / y) (g := fun M a b => a / b) (δ := |s| / 2)
    (L := (|s| + |r|) / (|s| / 2 * |s|)) (by positivity) (by positivity) ?_ ?_ hX hY
  · intro x y hx hy
    have hb := big y hy
    have y0 : y ≠ 0 := by
      intro h
      rw [h, abs_zero] at hb
      linarith
    have e : x / y - r / s = ((x - r) * s - r * (y - s)) / (y * s) := by
      field_simp
      ring
    show |x / y - r / s| ≤ _
    rw [e, abs_div, abs_mul, div_mul_eq_mul_div]
    refine div_le_div₀ (by positivity) ?_ (by positivity) (mul_le_mul_of_nonneg_right hb s0.le)
    refine (abs_sub _ _).trans ?_
    rw [abs_mul, abs_mul]
    have h1 := abs_nonneg (x - r)
    have h2 := abs_nonneg (y - s)
    have h3 := abs_nonneg r
    nlinarith [mul_nonneg h3 h1, mul_nonneg s0.le h2]
  · intro M a b ha hb _ hd h
    refine (π M).ok.div a b ha hb ?_ h
    intro h0
    have := big _ hd
    rw [h0, abs_zero] at this
    linarith

theorem neg (hX : Stable X r) : Stable (fun M => -X M) (-r) := by
  obtain ⟨C, u0, c, p, h⟩ := hX
  refine ⟨C, u0, c, p, fun M hM => ?_⟩
  obtain ⟨h1, h2⟩ := h M hM
  obtain ⟨h3, h4⟩ := (π M).ok.neg _ h1
  refine ⟨h3, ?_⟩
  rw [h4, show -(π M).val (X M) - -r = -((π M).val (X M) - r) by ring, abs_neg]
  exact h2

theorem cos (hX : Stable X r) : Stable (fun M => Arith.cos (X M)) (Real.cos r) := by
  obtain ⟨C, u0, c, p, h⟩ := hX
  refine ⟨C + 1, u0, by linarith, p, fun M hM => ?_⟩
  obtain ⟨h1, h2⟩ := h M hM
  obtain ⟨h3, h4⟩ := (π M).ok.cos _ h1
  refine ⟨h3, ?_⟩
  have := abs_sub_le ((π M).val (Arith.cos (X M))) (Real.cos ((π M).val (X M))) (Real.cos r)
  have := Real.abs_cos_sub_cos_le ((π M).val (X M)) r
  linarith

theorem sin (hX : Stable X r) : Stable (fun M => Arith.sin (X M)) (Real.sin r) := by
  obtain ⟨C, u0, c, p, h⟩ := hX
  refine ⟨C + 1, u0, by linarith, p, fun M hM => ?_⟩
  obtain ⟨h1, h2⟩ := h M hM
  obtain ⟨h3, h4⟩ := (π M).ok.sin _ h1
  refine ⟨h3, ?_⟩
  have := abs_sub_le ((π M).val (Arith.sin (X M))) (Real.sin ((π M).val (X M))) (Real.sin r)
  have := Real.abs_sin_sub_sin_le ((π M).val (X M)) r
  linarith

theorem sqrt (hX : Stable X r) (hr : 0 < r) : Stable (fun M => Arith.sqrt (X M)) (√r) := by
  have s0 := Real.sqrt_pos.2 hr
  refine op2 (f := fun x _ => √x) (g := fun M a _ => Arith.sqrt a) (δ := r) (L := 1 / √r) hr (by positivity)
    ?_ ?_ hX hX
  · intro x y hx _
    have x0 : 0 ≤ x := by have := (abs_le.1 hx).1; linarith
    have e : √x - √r = (x - r) / (√x + √r) := by
      rw [eq_div_iff (by positivity), ← Real.sq_sqrt x0, ← Real.sq_sqrt hr.le, Real.sqrt_sq (Real.sqrt_nonneg x),
        Real.sqrt_sq s0.le]
      ring
    show |√x - √r| ≤ _
    rw [e, abs_div, abs_of_pos (show 0 < √x + √r by positivity), one_div_mul_eq_div]
    refine div_le_div₀ (by positivity) (le_add_of_nonneg_right (abs_nonneg _)) s0 ?_
    exact le_add_of_nonneg_left (Real.sqrt_nonneg x)
  · intro M a b ha _ hd _ h
    have a0 : 0 ≤ (π M).val a := by have := (abs_le.1 hd).1; linarith
    have h' := (π M).ok.sqrt a ha a0 ((le_abs_self _).trans h)
    exact ⟨h'.1, h'.2.trans (mul_le_mul_of_nonneg_left (by
      have := le_abs_self (√((π M).val a))
      linarith) (π M).ok.u_pos.le)⟩

theorem int (n : ℤ) : Stable (fun M : ι => (ofInt n : (π M).α)) (n : ℝ) := by
  have h0 := abs_nonneg (n : ℝ)
  refine ⟨1 + |(n : ℝ)|, 1 / (1 + |(n : ℝ)|), by positivity, by positivity, fun M hM => ?_⟩
  have hu := (π M).ok.u_pos
  have := (π M).ok.ofInt n (by
    rw [le_div_iff₀ hu]
    rw [le_div_iff₀ (by linarith)] at hM
    nlinarith)
  exact ⟨this.1, by rw [mul_comm]; exact this.2⟩

theorem half : Stable (fun M : ι => (Arith.half : (π M).α)) (1 / 2) :=
  ⟨1, 1, zero_le_one, one_pos, fun M _ => ⟨(π M).ok.half.1, by rw [one_mul]; exact (π M).ok.half.2⟩⟩

theorem threeHalves : Stable (fun M : ι => (Arith.threeHalves : (π M).α)) (3 / 2) :=
  ⟨1, 1, zero_le_one, one_pos, fun M _ => ⟨(π M).ok.threeHalves.1, by rw [one_mul]; exact (π M).ok.threeHalves.2⟩⟩

theorem pi : Stable (fun M : ι => (Arith.pi : (π M).α)) Real.pi :=
  ⟨1, 1, zero_le_one, one_pos, fun M _ => ⟨(π M).ok.pi.1, by rw [one_mul]; exact (π M).ok.pi.2⟩⟩

theorem of_near {K : ℝ} (hK : 0 ≤ K) (h : ∀ M : ι, (π M).fin (X M) ∧ |(π M).val (X M) - r| ≤ K * (π M).u) : Stable X r :=
  ⟨K, 1, hK, one_pos, fun M _ => h M⟩

/-! ## Running sums and the recurrence -/

theorem foldAdd {z : ∀ M : ι, (π M).α} {z0 : ℝ} {f : ∀ M : ι, ℕ → (π M).α} {g : ℕ → ℝ}
    (hz : Stable z z0) : ∀ n, (∀ k < n, Stable (fun M => f M k) (g k)) →
    Stable (fun M => Booz.foldAdd (z M) (f M) n) (Booz.foldAdd z0 g n)
  | 0, _ => hz
  | n + 1, h => (foldAdd hz n fun k hk => h k (Nat.lt_succ_of_lt hk)).add (h n (Nat.lt_succ_self n))

theorem acc2 {asym : Bool} {x y : ∀ M : ι, ℕ → (π M).α} {x0 y0 : ℕ → ℝ} :
    ∀ n, (∀ k < n, Stable (fun M => x M k) (x0 k)) →
      (asym = true → ∀ k < n, Stable (fun M => y M k) (y0 k)) →
    Stable (fun M => Booz.acc2 asym (x M) (y M) n) (Booz.acc2 asym x0 y0 n)
  | 0, _, _ => int 0
  | n + 1, hx, hy => by
    have ih := acc2 (asym := asym) n (fun k hk => hx k (Nat.lt_succ_of_lt hk))
      fun ha k hk => hy ha k (Nat.lt_succ_of_lt hk)
    cases asym with
    | false => exact ih.add (hx n (Nat.lt_succ_self n))
    | true => exact (ih.add (hx n (Nat.lt_succ_self n))).add (hy rfl n (Nat.lt_succ_self n))

theorem trigCol {c s z : ∀ M : ι, (π M).α} {c0 s0 z0 : ℝ} (hc : Stable c c0) (hs : Stable s s0)
    (hz : Stable z z0) : ∀ m, Stable (fun M => (Booz.trigCol (c M) (s M) (z M) m).1) (Booz.trigCol c0 s0 z0 m).1 ∧
      Stable (fun M => (Booz.trigCol (c M) (s M) (z M) m).2) (Booz.trigCol c0 s0 z0 m).2
  | 0 => ⟨int 1, hz⟩
  | 1 => ⟨hc, hs⟩
  | m + 2 => by
    obtain ⟨h1, h2⟩ := trigCol hc hs hz (m + 1)
    exact ⟨(h1.mul hc).sub (h2.mul hs), (h2.mul hc).add (h1.mul hs)⟩

theorem cosT (hX : Stable X r) (m : ℕ) : Stable (fun M => Booz.cosT (X M) m) (Booz.cosT r m) :=
  (trigCol hX.cos hX.sin (int 0) m).1

theorem sinT (hX : Stable X r) (m : ℕ) : Stable (fun M => Booz.sinT (X M) m) (Booz.sinT r m) :=
  (trigCol hX.cos hX.sin (int 0) m).2

theorem bC (nfp : ℕ) (m n : ℤ) (hX : Stable X r) (hY : Stable Y s) :
    Stable (fun M => Booz.bC nfp m n (X M) (Y M)) (Booz.bC nfp m n r s) :=
  ((hX.cosT _).mul (((int _).mul hY).cosT _)).add
    (((hX.sinT _).mul (((int _).mul hY).sinT _)).mul (int _))

theorem bS (nfp : ℕ) (m n : ℤ) (hX : Stable X r) (hY : Stable Y s) :
    Stable (fun M => Booz.bS nfp m n (X M) (Y M)) (Booz.bS nfp m n r s) :=
  ((hX.sinT _).mul (((int _).mul hY).cosT _)).sub
    (((hX.cosT _).mul (((int _).mul hY).sinT _)).mul (int _))

/-! ## The grid -/

theorem gridT (e : Dims) (j : ℕ) :
    Stable (fun M : ι => (Booz.gridT e j : (π M).α)) (Booz.gridT e j) := by
  have h : ((e.nt : ℤ) : ℝ) ≠ 0 := by
    have : 0 < e.nt := by unfold Dims.nt; omega
    exact_mod_cast this.ne'
  exact (int _).mul (((int 2).mul pi).div (int _) h)

theorem gridZ (e : Dims) (he : 1 ≤ e.nfp) (j : ℕ) :
    Stable (fun M : ι => (Booz.gridZ e j : (π M).α)) (Booz.gridZ e j) := by
  have h : ((e.nfp * e.nz : ℤ) : ℝ) ≠ 0 := by
    have : 0 < e.nz := by unfold Dims.nz; split <;> omega
    have : 0 < e.nfp * e.nz := Nat.mul_pos he this
    exact_mod_cast this.ne'
  exact (int _).mul (((int 2).mul pi).div (int _) h)

end Stable

/-! ## Finitely many quantities at once -/

/-- `P` holds with an error proportional to the precision. -/
def Linear (π : ι → Machine) (P : ι → ℝ → Prop) : Prop :=
  ∃ C u0, 0 ≤ C ∧ 0 < u0 ∧ ∀ M : ι, (π M).u ≤ u0 → P M (C * (π M).u)

/-- `P` may be weakened to larger errors. -/
def Grows (P : ι → ℝ → Prop) : Prop := ∀ M e e', e ≤ e' → P M e → P M e'

theorem Linear.and {P Q : ι → ℝ → Prop} (hP : Linear π P ∧ Grows P) (hQ : Linear π Q ∧ Grows Q) :
    Linear π (fun M e => P M e ∧ Q M e) ∧ Grows (fun M e => P M e ∧ Q M e) := by
  obtain ⟨⟨C, u0, c, p, h⟩, mP⟩ := hP
  obtain ⟨⟨D, v0, c', p', h'⟩, mQ⟩ := hQ
  refine ⟨⟨max C D, min u0 v0, le_max_of_le_left c, lt_min p p', fun M hM => ⟨?_, ?_⟩⟩, ?_⟩
  · exact mP M _ _ (mul_le_mul_of_nonneg_right (le_max_left _ _) (π M).ok.u_pos.le) (h M (hM.trans (min_le_left _ _)))
  · exact mQ M _ _ (mul_le_mul_of_nonneg_right (le_max_right _ _) (π M).ok.u_pos.le) (h' M (hM.trans (min_le_right _ _)))
  · exact fun M e e' he hh => ⟨mP M e e' he hh.1, mQ M e e' he hh.2⟩

theorem Linear.all {P : ℕ → ι → ℝ → Prop} (n : ℕ) (h : ∀ i < n, Linear π (P i) ∧ Grows (P i)) :
    Linear π (fun M e => ∀ i < n, P i M e) ∧ Grows (fun M e => ∀ i < n, P i M e) := by
  refine ⟨?_, fun M e e' he hh i hi => (h i hi).2 M e e' he (hh i hi)⟩
  induction n with
  | zero => exact ⟨0, 1, le_rfl, one_pos, fun M _ i hi => absurd hi (Nat.not_lt_zero i)⟩
  | succ n ih =>
    have h1 := ih fun i hi => h i (Nat.lt_succ_of_lt hi)
    obtain ⟨C, u0, c, p, hC⟩ := (Linear.and ⟨h1, fun M e e' he hh i hi =>
      (h i (Nat.lt_succ_of_lt hi)).2 M e e' he (hh i hi)⟩ (h n (Nat.lt_succ_self n))).1
    refine ⟨C, u0, c, p, fun M hM i hi => ?_⟩
    rcases Nat.lt_succ_iff_lt_or_eq.1 hi with hi | rfl
    · exact (hC M hM).1 i hi
    · exact (hC M hM).2

theorem Linear.imp {P : ι → ℝ → Prop} {q : Prop} (h : q → Linear π P ∧ Grows P) :
    Linear π (fun M e => q → P M e) ∧ Grows (fun M e => q → P M e) := by
  by_cases hq : q
  · obtain ⟨⟨C, u0, c, p, hC⟩, m⟩ := h hq
    exact ⟨⟨C, u0, c, p, fun M hM _ => hC M hM⟩, fun M e e' he hh _ => m M e e' he (hh hq)⟩
  · exact ⟨⟨0, 1, le_rfl, one_pos, fun M _ h => absurd h hq⟩, fun M e e' he _ h => absurd h hq⟩

theorem Stable.vec {n : ℕ} {f : ∀ M : ι, ℕ → (π M).α} {g : ℕ → ℝ}
    (h : ∀ i < n, Stable (fun M => f M i) (g i)) :
    Linear π (fun M e => VecNear (π M).fin (π M).val n e (Vec.tab n (f M)) (Vec.tab n g)) ∧
      Grows (fun M : ι => fun e => VecNear (π M).fin (π M).val n e (Vec.tab n (f M)) (Vec.tab n g)) := by
  refine Linear.all n fun i hi => ⟨?_, ?_⟩
  · obtain ⟨C, u0, c, p, hC⟩ := h i hi
    exact ⟨C, u0, c, p, fun M hM => ⟨_, _, Vec.rdN_tab hi, Vec.rdN_tab hi, hC M hM⟩⟩
  · rintro M e e' he ⟨x, y, h1, h2, h3, h4⟩
    exact ⟨x, y, h1, h2, h3, h4.trans he⟩

theorem Stable.mat {r c : ℕ} {f : ∀ M : ι, ℕ → ℕ → (π M).α} {g : ℕ → ℕ → ℝ}
    (h : ∀ i < r, ∀ j < c, Stable (fun M => f M i j) (g i j)) :
    Linear π (fun M e => MatNear (π M).fin (π M).val r c e (Mat.tab r c (f M)) (Mat.tab r c g)) ∧
      Grows (fun M : ι => fun e => MatNear (π M).fin (π M).val r c e (Mat.tab r c (f M)) (Mat.tab r c g)) := by
  refine Linear.all r fun i hi => Linear.all c fun j hj => ⟨?_, ?_⟩
  · obtain ⟨C, u0, cc, p, hC⟩ := h i hi j hj
    exact ⟨C, u0, cc, p, fun M hM => ⟨_, _, Mat.rdN_tab hi hj, Mat.rdN_tab hi hj, hC M hM⟩⟩
  · rintro M e e' he ⟨x, y, h1, h2, h3, h4⟩
    exact ⟨x, y, h1, h2, h3, h4.trans he⟩

/-- A machine with the inputs it is given. -/
structure Mach (J : Inputs ℝ) (d : Dims) (K : ℝ) extends Machine where
  I : Inputs α
  ready : RunReady I d
  near : InputsNear fin val d (K * u) I J

end

section
variable {J : Inputs ℝ} {d : Dims} {K : ℝ}

/-! ## The inputs -/

theorem Mach.xm (M : Mach J d K) : M.I.xm = J.xm := M.near.xm
theorem Mach.xn (M : Mach J d K) : M.I.xn = J.xn := M.near.xn
theorem Mach.xm_nyq (M : Mach J d K) : M.I.xm_nyq = J.xm_nyq := M.near.xm_nyq
theorem Mach.xn_nyq (M : Mach J d K) : M.I.xn_nyq = J.xn_nyq := M.near.xn_nyq

theorem VecNear.val {α : Type} {fin : α → Prop} {val : α → ℝ} {n : ℕ} {e : ℝ} {v : Vec α} {w : Vec ℝ}
    (h : VecNear fin val n e v w) (hv : v.Full n) (hw : w.Full n) (x0 : α) (y0 : ℝ) {i : ℕ} (hi : i < n) :
    fin (v.val x0 i) ∧ |val (v.val x0 i) - w.val y0 i| ≤ e := by
  obtain ⟨x, y, h1, h2, h3⟩ := h i hi
  rw [hv.rdN x0 hi] at h1
  rw [hw.rdN y0 hi] at h2
  cases h1
  cases h2
  exact h3

theorem MatNear.val {α : Type} {fin : α → Prop} {val : α → ℝ} {r c : ℕ} {e : ℝ} {a : Mat α} {b : Mat ℝ}
    (h : MatNear fin val r c e a b) (ha : a.Full r c) (hb : b.Full r c) (x0 : α) (y0 : ℝ) {i j : ℕ}
    (hi : i < r) (hj : j < c) :
    fin (a.val x0 i j) ∧ |val (a.val x0 i j) - b.val y0 i j| ≤ e := by
  obtain ⟨x, y, h1, h2, h3⟩ := h i hi j hj
  rw [ha.eq_tab x0, Mat.rdN_tab hi hj] at h1
  rw [hb.eq_tab y0, Mat.rdN_tab hi hj] at h2
  cases h1
  cases h2
  exact h3

end
end Booz
