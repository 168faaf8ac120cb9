import Verif.Props.BoozerAngles

/-!
# C65: the amplitudes printed in the theory section and the output harmonics
-/

namespace Booz
open Spec Trapezoid Finset Function

variable {S : Surface} {nfp : ℕ}

theorem integral_printed (S : Surface) (q : ℝ → ℝ → ℝ) (m n : ℤ) :
    S.integralCos q m n = (if m = 0 ∧ n = 0 then 1 else 2) * S.printedCos q m n ∧
    S.integralSin q m n = (if m = 0 ∧ n = 0 then 1 else 2) * S.printedSin q m n := by
  unfold Surface.integralCos Surface.integralSin Surface.printedCos Surface.printedSin Surface.thetaB Surface.zetaB
  simp only [mul_comm (S.det _ _) (q _ _)]
  constructor <;> ring

theorem printed_neg (S : Surface) (q : ℝ → ℝ → ℝ) (m n : ℤ) :
    S.printedCos q (-m) (-n) = S.printedCos q m n ∧ S.printedSin q (-m) (-n) = - S.printedSin q m n := by
  unfold Surface.printedCos Surface.printedSin
  have e : ∀ a b : ℝ, ((-m : ℤ) : ℝ) * a - ((-n : ℤ) : ℝ) * b = -(m * a - n * b) := fun a b => by push_cast; ring
  simp only [e, Real.cos_neg, Real.sin_neg, mul_neg, intervalIntegral.integral_neg]
  simp

/-- The sum over all modes with the printed amplitudes is the sum over the half plane with the doubled ones. -/
theorem full_series (hp : 1 ≤ nfp) (S : Surface) (q : ℝ → ℝ → ℝ) (K : ℕ) (t z : ℝ) :
    fullSeries nfp K (S.printedCos q) (S.printedSin q) t z = truncated nfp K (S.integralCos q) (S.integralSin q) t z := by
  let f : ℤ × ℤ → ℝ := fun k => S.printedSin q k.1 (k.2 * nfp) * Real.sin (k.1 * t - (k.2 * nfp : ℤ) * z) +
    S.printedCos q k.1 (k.2 * nfp) * Real.cos (k.1 * t - (k.2 * nfp : ℤ) * z)
  have hf : ∀ k, f (-k) = f k := by
    intro k
    have e : (-k).2 * (nfp : ℤ) = -(k.2 * nfp) := by rw [Prod.snd_neg]; ring
    have e' : ((-k.1 : ℤ) : ℝ) * t - ((-(k.2 * nfp) : ℤ) : ℝ) * z = -(k.1 * t - (k.2 * nfp : ℤ) * z) := by push_cast; ring
    simp only [f]
    rw [e, Prod.fst_neg, (printed_neg S q _ _).1, (printed_neg S q _ _).2, e', Real.cos_neg, Real.sin_neg]
    ring
  have h1 : fullSeries nfp K (S.printedCos q) (S.printedSin q) t z = ∑ k ∈ box K, f k := by
    unfold fullSeries box
    rw [sum_product]
  rw [h1, box_sum f hf]
  unfold truncated
  rw [modes_half]
  refine sum_congr rfl fun k _ => ?_
  have hk : k = 0 ↔ (k.1 = 0 ∧ k.2 * (nfp : ℤ) = 0) := by
    have h0 : nfp ≠ 0 := by omega
    rw [Prod.ext_iff]
    simp [h0]
  rw [(integral_printed S q _ _).1, (integral_printed S q _ _).2]
  simp only [hk, f]
  ring

/-- **C65, the equations.** With the sum over all positive and negative m, n — not over the modes of the output —
equation `Fourier_Boozer` with the amplitudes as printed in `change_variables` holds for |B|, R, Z, ν and the
Jacobian, wherever the Boozer angles are coordinates. -/
theorem C65_full_series {I : Inputs ℝ} {d : Dims} (h : RunReady I d) (hp : FieldPeriodic I d.nfp) {js : ℕ}
    (hreg : (surface I d.asym js).Regular) (hd : ∀ θ ζ, (surface I d.asym js).det θ ζ ≠ 0) {ε : ℝ} (hε : 0 < ε) :
    let S := surface I d.asym js
    ∃ K0 : ℕ, ∀ q ∈ S.quantities, ∀ K, K0 ≤ K → ∀ θ ζ,
      |q θ ζ - fullSeries d.nfp K (S.printedCos q) (S.printedSin q) (S.thetaB θ ζ) (S.zetaB θ ζ)| ≤ ε := by
  intro S
  obtain ⟨K0, hK⟩ := series_of_integrals h hp hreg hd hε
  refine ⟨K0, fun q hq K hK0 θ ζ => ?_⟩
  rw [full_series h.nfp_pos]
  exact hK q hq K hK0 θ ζ

/-- **C65, the part that holds.** The limits of the output harmonics with growing resolution are the printed
amplitudes times 1 for (m, n) = (0, 0) and times 2 for all other modes.  Missing: equality with the printed
amplitudes, which is false (`C65_false`). -/
theorem C65_partial {I : Inputs ℝ} {d : Dims} (h : RunReady I d) (hp : FieldPeriodic I d.nfp) {js : ℕ}
    (hreg : (surface I d.asym js).Regular) {m n : ℤ} (hn : (d.nfp : ℤ) ∣ n) :
    let S := surface I d.asym js
    ∀ q ∈ S.quantities,
      Filter.Tendsto (fun x : ℕ × ℕ => S.quadCos (ntheta x.1) (nzeta x.2) d.nfp q m n) Filter.atTop
        (nhds ((if m = 0 ∧ n = 0 then 1 else 2) * S.printedCos q m n)) ∧
      Filter.Tendsto (fun x : ℕ × ℕ => S.quadSin (ntheta x.1) (nzeta x.2) d.nfp q m n) Filter.atTop
        (nhds ((if m = 0 ∧ n = 0 then 1 else 2) * S.printedSin q m n)) := by
  intro S q hq
  rw [← (integral_printed S q m n).1, ← (integral_printed S q m n).2]
  exact C52_limit h hp hreg hn q hq

/-! ### The counterexample -/

/-- |B| of the symmetric example in Boozer angles. -/
theorem Ex.plain_B {js : ℕ} (hj : js < 2) (θ ζ : ℝ) : (surface (Ex.plain false).inp false js).B θ ζ =
    (7 + js) * cosM (0, 0) (θ, ζ) + 1 * cosM (0, 2) (θ, ζ) + 1 * cosM (1, 0) (θ, ζ) + 1 * cosM (2, -2) (θ, ζ) := by
  have v : ∀ k < 4, entry (Ex.plain false).inp.bmnc k js = ofInt (if k = 0 then 7 + (js : ℤ) else 1) :=
    fun k hk => Mat.val_tab hk hj
  show series 4 ((Ex.vec (β := ℤ) [0, 0, 1, 2]).val 0) ((Ex.vec (β := ℤ) [0, 2, 0, -2]).val 0)
    (fun k => entry (Ex.plain false).inp.bmnc k js) (fun k => onlyIf false (entry (Ex.plain false).inp.bmns k js)) θ ζ = _
  unfold series
  rw [sum_range_succ, sum_range_succ, sum_range_succ, sum_range_succ, sum_range_zero]
  simp only []
  rw [v 0 (by omega), v 1 (by omega), v 2 (by omega), v 3 (by omega)]
  rw [show (Ex.vec (β := ℤ) [0, 0, 1, 2]).val 0 0 = 0 from rfl, show (Ex.vec (β := ℤ) [0, 0, 1, 2]).val 0 1 = 0 from rfl,
    show (Ex.vec (β := ℤ) [0, 0, 1, 2]).val 0 2 = 1 from rfl, show (Ex.vec (β := ℤ) [0, 0, 1, 2]).val 0 3 = 2 from rfl,
    show (Ex.vec (β := ℤ) [0, 2, 0, -2]).val 0 0 = 0 from rfl, show (Ex.vec (β := ℤ) [0, 2, 0, -2]).val 0 1 = 2 from rfl,
    show (Ex.vec (β := ℤ) [0, 2, 0, -2]).val 0 2 = 0 from rfl, show (Ex.vec (β := ℤ) [0, 2, 0, -2]).val 0 3 = -2 from rfl]
  simp only [real_ofInt, onlyIf, cosM, ph, if_true, if_false, one_ne_zero, Bool.false_eq_true, zero_mul, add_zero, zero_add,
    show (2 : ℕ) ≠ 0 by omega, show (3 : ℕ) ≠ 0 by omega]
  push_cast
  ring

theorem mean_cos_cos (c : ℝ) (k l : ℤ × ℤ) : mean2 τ τ (fun x => c * cosM k x * cosM l x) =
    c * ((if k - l = 0 then 1 else 0) + if k + l = 0 then 1 else 0) / 2 := by
  have e : (fun x => c * cosM k x * cosM l x) = fun x => c / 2 * cosM (k - l) x + c / 2 * cosM (k + l) x := by
    funext x
    rw [mul_assoc, cosM_mul_cosM]
    ring
  rw [e, mean_lin2 _ _ (cosM_smooth _).continuous (cosM_smooth _).continuous, mean_cosM, mean_cosM]
  ring

theorem Ex.plain_printed {js : ℕ} (hj : js < 2) :
    (surface (Ex.plain false).inp false js).printedCos (surface (Ex.plain false).inp false js).B 1 0 = 1 / 2 := by
  have hb := Ex.plain_boozer false hj
  unfold Surface.printedCos
  simp only [hb.det, hb.lam, hb.nu, Ex.plain_B hj]
  have e : ∀ θ ζ : ℝ, (1 : ℝ) * ((7 + js) * cosM (0, 0) (θ, ζ) + 1 * cosM (0, 2) (θ, ζ) + 1 * cosM (1, 0) (θ, ζ) +
      1 * cosM (2, -2) (θ, ζ)) * Real.cos (((1 : ℤ) : ℝ) * (θ + 0 + (surface (Ex.plain false).inp false js).iota * 0) -
        ((0 : ℤ) : ℝ) * (ζ + 0)) =
      (fun x : ℝ × ℝ => (((7 + js) * cosM (0, 0) x * cosM (1, 0) x + 1 * cosM (0, 2) x * cosM (1, 0) x) +
        1 * cosM (1, 0) x * cosM (1, 0) x) + 1 * cosM (2, -2) x * cosM (1, 0) x) (θ, ζ) := by
    intro θ ζ
    have : Real.cos (((1 : ℤ) : ℝ) * (θ + 0 + (surface (Ex.plain false).inp false js).iota * 0) -
        ((0 : ℤ) : ℝ) * (ζ + 0)) = cosM (1, 0) (θ, ζ) := by
      unfold cosM ph
      congr 1
      push_cast
      ring
    rw [this]
    ring
  simp only [e]
  have cc : ∀ (c : ℝ) (k : ℤ × ℤ), Continuous fun x => c * cosM k x * cosM (1, 0) x := fun c k =>
    (continuous_const.mul (cosM_smooth k).continuous).mul (cosM_smooth (1, 0)).continuous
  have a1 := cc (7 + js) (0, 0)
  have a2 := cc 1 (0, 2)
  have a3 := cc 1 (1, 0)
  have a4 := cc 1 (2, -2)
  have b1 : Continuous fun x => (7 + (js : ℝ)) * cosM (0, 0) x * cosM (1, 0) x + 1 * cosM (0, 2) x * cosM (1, 0) x := a1.add a2
  have b2 : Continuous fun x => (7 + (js : ℝ)) * cosM (0, 0) x * cosM (1, 0) x + 1 * cosM (0, 2) x * cosM (1, 0) x +
    1 * cosM (1, 0) x * cosM (1, 0) x := b1.add a3
  refine (mean2_tau (fun x : ℝ × ℝ => (((7 + js) * cosM (0, 0) x * cosM (1, 0) x + 1 * cosM (0, 2) x * cosM (1, 0) x) +
    1 * cosM (1, 0) x * cosM (1, 0) x) + 1 * cosM (2, -2) x * cosM (1, 0) x)).symm.trans ?_
  rw [mean2_add b2 a4, mean2_add b1 a3, mean2_add a1 a2, mean_cos_cos, mean_cos_cos, mean_cos_cos, mean_cos_cos]
  norm_num

/-- **C65 is false**: the output harmonics do not tend to the amplitudes printed in the theory section. -/
theorem C65_false : ¬ ∀ (I : Inputs ℝ) (d : Dims) (js : ℕ) (m n : ℤ), RunReady I d → FieldPeriodic I d.nfp →
    (surface I d.asym js).Regular → (d.nfp : ℤ) ∣ n →
    Filter.Tendsto (fun x : ℕ × ℕ => (surface I d.asym js).quadCos (ntheta x.1) (nzeta x.2) d.nfp (surface I d.asym js).B m n)
      Filter.atTop (nhds ((surface I d.asym js).printedCos (surface I d.asym js).B m n)) := by
  intro H
  have a := H _ (Ex.plainDims false) 0 1 0 (Ex.plain_ready false) (Ex.fieldPeriodic (α := ℝ) false)
    (Ex.plain_regular false (by omega)) (dvd_zero _)
  have b := (C65_partial (d := Ex.plainDims false) (js := 0) (m := 1) (n := 0) (Ex.plain_ready false)
    (Ex.fieldPeriodic (α := ℝ) false) (Ex.plain_regular false (by omega)) (dvd_zero _) _ List.mem_cons_self).1
  have e := tendsto_nhds_unique a b
  have v : (surface (Ex.plain false).inp (Ex.plainDims false).asym 0).printedCos
      (surface (Ex.plain false).inp (Ex.plainDims false).asym 0).B 1 0 = 1 / 2 := Ex.plain_printed (by omega)
  rw [v] at e
  norm_num at e

/-- A run without any discretisation error (the input is band-limited and in Boozer angles) in which the output
harmonic is 1 and the printed amplitude 1/2. -/
theorem C65_false_run (dbg : Bool) : ∃ s' r, run dbg (Ex.plain false) = .ok (s', r) ∧ ∃ k < numModes 3 1,
    s'.out.xm_b.rdN k = .ok 1 ∧ s'.out.xn_b.rdN k = .ok 0 ∧ s'.out.spec.bmnc_b.rdN k 0 = .ok 1 ∧
    (surface (Ex.plain false).inp false (selected (Ex.plain false).inp 0)).printedCos
      (surface (Ex.plain false).inp false (selected (Ex.plain false).inp 0)).B 1 0 = 1 / 2 := by
  have hlt : ∀ b < 2, selected (Ex.plain false).inp b < 2 := Ex.selected_lt false
  obtain ⟨s', r, hr, H⟩ := C21_harmonic (dbg := dbg) (s := Ex.plain false) (Ex.plain_ready false)
    (Ex.fieldPeriodic (α := ℝ) false) (Ex.originOnce (α := ℝ) false) (fun b hb => Ex.plain_regular false (hlt b hb))
  have e := run_real (dbg := dbg) (Ex.plain_ready false) fun _ => originOnce_first (Ex.plain_ready false) (Ex.originOnce (α := ℝ) false)
  rw [e] at hr
  obtain ⟨rfl, rfl⟩ := Prod.mk.inj (Except.ok.inj hr)
  have gen : ∀ (d : Dims) (s : St ℝ), ∀ k < d.nmodes, (runSt d s d.nsb).out.xm_b.rdN k = .ok (modeM d.N k : ℤ) ∧
      (runSt d s d.nsb).out.xn_b.rdN k = .ok (modeN d.N k * d.nfp) := fun d s k hk => ⟨Vec.rdN_tab hk, Vec.rdN_tab hk⟩
  have x1 : (runSt (Ex.plainDims false) (Ex.plain false) (Ex.plainDims false).nsb).out.xm_b.rdN 3 = .ok (modeM 1 3 : ℤ) :=
    gen _ _ 3 (by decide) |>.1
  have x2 : (runSt (Ex.plainDims false) (Ex.plain false) (Ex.plainDims false).nsb).out.xn_b.rdN 3 = .ok (modeN 1 3 * (2 : ℕ)) :=
    gen _ _ 3 (by decide) |>.2
  rw [show (modeM 1 3 : ℤ) = 1 by decide] at x1
  rw [show (modeN 1 3 * (2 : ℕ) : ℤ) = 0 by decide] at x2
  refine ⟨_, _, e, 3, by decide, x1, x2, ?_, Ex.plain_printed (hlt 0 (by omega))⟩
  have h3 := ((H 0 (by decide) (Ex.plain_boozer false (hlt 0 (by omega)))) 3 (by decide) 1 0 x1 x2).1 2 (by decide) rfl rfl (by decide)
  rw [h3.1]
  show (Mat.tab 4 2 fun k j => (ofInt (if k = 0 then 7 + (j : ℤ) else 1) : ℝ)).rdN 2 1 = _
  rw [Mat.rdN_tab (by decide) (by decide)]
  simp

/-! Non-vacuity. -/

example (asym : Bool) : ∃ K0 : ℕ, ∀ q ∈ (surface (Ex.gentle asym).inp asym 0).quantities, ∀ K, K0 ≤ K → ∀ θ ζ,
    |q θ ζ - fullSeries 2 K ((surface (Ex.gentle asym).inp asym 0).printedCos q)
      ((surface (Ex.gentle asym).inp asym 0).printedSin q) ((surface (Ex.gentle asym).inp asym 0).thetaB θ ζ)
      ((surface (Ex.gentle asym).inp asym 0).zetaB θ ζ)| ≤ 1 / 1000 :=
  C65_full_series (d := Ex.dims asym) (Ex.gentle_ready asym) (Ex.fieldPeriodic (α := ℝ) asym)
    (Ex.gentle_regular asym (by omega)) (fun θ ζ => (lt_trans (by norm_num) (Ex.gentle_det asym (by omega) θ ζ)).ne')
    (by norm_num)

example (asym : Bool) : Filter.Tendsto (fun x : ℕ × ℕ => (surface (Ex.inputs asym) asym 0).quadCos (ntheta x.1)
    (nzeta x.2) 2 (surface (Ex.inputs asym) asym 0).B 1 2) Filter.atTop
    (nhds ((if (1 : ℤ) = 0 ∧ (2 : ℤ) = 0 then 1 else 2) *
      (surface (Ex.inputs asym) asym 0).printedCos (surface (Ex.inputs asym) asym 0).B 1 2)) :=
  (C65_partial (d := Ex.dims asym) (Ex.ready asym) (Ex.fieldPeriodic asym) (Ex.regular asym (by omega))
    ⟨1, rfl⟩ _ List.mem_cons_self).1

end Booz
