import Verif.RealArith
import Verif.Lemmas.RunOk
import Verif.Spec.Theory
import Mathlib.Algebra.BigOperators.Intervals
import Mathlib.Tactic.FieldSimp
import Mathlib.Tactic.LinearCombination

/-!
# Closed forms in exact real arithmetic
-/

open Finset

namespace Booz
open Spec

theorem trigCol_real (x : ℝ) (m : Nat) :
    trigCol (Arith.cos x) (Arith.sin x) (ofInt 0) m = (Real.cos (m * x), Real.sin (m * x)) := by
  induction m with
  | zero => simp [trigCol]
  | succ m ih =>
    cases m with
    | zero => simp [trigCol]
    | succ k =>
      simp only [trigCol, ih]
      push_cast
      rw [Prod.mk.injEq, real_cos, real_sin]
      constructor
      · rw [show ((k : ℝ) + 1 + 1) * x = ((k : ℝ) + 1) * x + x by ring, Real.cos_add]
      · rw [show ((k : ℝ) + 1 + 1) * x = ((k : ℝ) + 1) * x + x by ring, Real.sin_add]

theorem cosT_real (x : ℝ) (m : Nat) : cosT x m = Real.cos (m * x) := by
  rw [cosT, trigCol_real]
theorem sinT_real (x : ℝ) (m : Nat) : sinT x m = Real.sin (m * x) := by
  rw [sinT, trigCol_real]

theorem signOf_mul {n : Int} {nfp : Nat} (hp : 1 ≤ nfp) (h : (nfp : Int) ∣ n) :
    signOf n * ((n.natAbs / nfp : Nat) : Int) * nfp = n := by
  obtain ⟨q, rfl⟩ := h
  rw [Int.natAbs_mul, Int.natAbs_natCast, Nat.mul_div_cancel_left _ (by omega)]
  have hp' : (0 : Int) < nfp := by omega
  unfold signOf
  by_cases hq : q < 0
  · rw [if_pos (Int.mul_neg_of_pos_of_neg hp' hq)]
    have : ((q.natAbs : Nat) : Int) = -q := by omega
    rw [this]; ring
  · have : ¬ ((nfp : Int) * q < 0) := by
      have := Int.mul_nonneg (Int.le_of_lt hp') (Int.not_lt.mp hq)
      omega
    rw [if_neg this]
    have : ((q.natAbs : Nat) : Int) = q := by omega
    rw [this]; ring

theorem signOf_cases (n : Int) : signOf n = 1 ∨ signOf n = -1 := by
  unfold signOf; split <;> simp

/-- With toroidal numbers that are multiples of `nfp` the code's expression is `cos(mθ - nζ)`. -/
theorem cos_combine {n : Int} {nfp : Nat} (hp : 1 ≤ nfp) (h : (nfp : Int) ∣ n) (m : ℕ) (θ ζ : ℝ) :
    Real.cos (m * θ) * Real.cos ((n.natAbs / nfp : Nat) * ((nfp : Int) * ζ)) +
      Real.sin (m * θ) * Real.sin ((n.natAbs / nfp : Nat) * ((nfp : Int) * ζ)) * (signOf n : ℝ) =
    Real.cos (m * θ - n * ζ) := by
  have hn := signOf_mul hp h
  generalize n.natAbs / nfp = a at *
  have hn' : (n : ℝ) = (signOf n : ℝ) * (a : ℝ) * (nfp : ℝ) := by
    have e := congrArg (fun z : ℤ => (z : ℝ)) hn
    push_cast at e
    exact e.symm
  rw [hn', Real.cos_sub]
  rcases signOf_cases n with hs | hs <;> rw [hs]
  · push_cast
    rw [show (1 : ℝ) * (a : ℝ) * nfp * ζ = (a : ℝ) * (nfp * ζ) by ring]
    ring
  · push_cast
    rw [show (-1 : ℝ) * (a : ℝ) * nfp * ζ =
      -((a : ℝ) * (nfp * ζ)) by ring, Real.cos_neg, Real.sin_neg]
    ring

theorem sin_combine {n : Int} {nfp : Nat} (hp : 1 ≤ nfp) (h : (nfp : Int) ∣ n) (m : ℕ) (θ ζ : ℝ) :
    Real.sin (m * θ) * Real.cos ((n.natAbs / nfp : Nat) * ((nfp : Int) * ζ)) -
      Real.cos (m * θ) * Real.sin ((n.natAbs / nfp : Nat) * ((nfp : Int) * ζ)) * (signOf n : ℝ) =
    Real.sin (m * θ - n * ζ) := by
  have hn := signOf_mul hp h
  generalize n.natAbs / nfp = a at *
  have hn' : (n : ℝ) = (signOf n : ℝ) * (a : ℝ) * (nfp : ℝ) := by
    have e := congrArg (fun z : ℤ => (z : ℝ)) hn
    push_cast at e
    exact e.symm
  rw [hn', Real.sin_sub]
  rcases signOf_cases n with hs | hs <;> rw [hs]
  · push_cast
    rw [show (1 : ℝ) * (a : ℝ) * nfp * ζ = (a : ℝ) * (nfp * ζ) by ring]
    ring
  · push_cast
    rw [show (-1 : ℝ) * (a : ℝ) * nfp * ζ =
      -((a : ℝ) * (nfp * ζ)) by ring, Real.cos_neg, Real.sin_neg]
    ring

theorem bC_real {m n : Int} {nfp : Nat} (hm : 0 ≤ m) (hp : 1 ≤ nfp) (h : (nfp : Int) ∣ n) (θ ζ : ℝ) :
    bC nfp m n θ ζ = Real.cos (m * θ - n * ζ) := by
  unfold bC
  simp only [cosT_real, sinT_real, real_ofInt]
  have e : ((m.toNat : ℕ) : ℝ) = (m : ℝ) := by exact_mod_cast Int.toNat_of_nonneg hm
  have := cos_combine hp h m.toNat θ ζ
  rw [← e]
  exact this

theorem bS_real {m n : Int} {nfp : Nat} (hm : 0 ≤ m) (hp : 1 ≤ nfp) (h : (nfp : Int) ∣ n) (θ ζ : ℝ) :
    bS nfp m n θ ζ = Real.sin (m * θ - n * ζ) := by
  unfold bS
  simp only [cosT_real, sinT_real, real_ofInt]
  have e : ((m.toNat : ℕ) : ℝ) = (m : ℝ) := by exact_mod_cast Int.toNat_of_nonneg hm
  have := sin_combine hp h m.toNat θ ζ
  rw [← e]
  exact this

theorem acc2_real (asym : Bool) (x y : ℕ → ℝ) (K : ℕ) :
    acc2 asym x y K = ∑ k ∈ range K, (x k + if asym then y k else 0) := by
  induction K with
  | zero => simp [acc2]
  | succ K ih =>
    rw [sum_range_succ, ← ih]
    cases asym <;> simp [acc2] <;> ring

theorem foldAdd_real (z : ℝ) (f : ℕ → ℝ) (K : ℕ) : foldAdd z f K = z + ∑ k ∈ range K, f k := by
  induction K with
  | zero => simp [foldAdd]
  | succ K ih => rw [sum_range_succ, ← add_assoc, ← ih]; rfl

theorem acc2_congr {asym : Bool} {x y x' y' : ℕ → ℝ} {K : ℕ} (hx : ∀ k < K, x k = x' k)
    (hy : asym = true → ∀ k < K, y k = y' k) : acc2 asym x y K = acc2 asym x' y' K := by
  rw [acc2_real, acc2_real]
  apply sum_congr rfl
  intro k hk
  rw [hx k (mem_range.mp hk)]
  cases h : asym with
  | false => rfl
  | true => rw [hy h k (mem_range.mp hk)]

section surface
variable {I : Inputs ℝ} {d : Dims}

theorem rP_real (h : RunReady I d) (hp : FieldPeriodic I d.nfp) (js : ℕ) (θ ζ : ℝ) :
    rP I d js d.mnmax θ ζ = (surface I d.asym js).R θ ζ := by
  unfold rP surface series
  rw [acc2_real, h.xm.1]
  apply sum_congr rfl
  intro k hk
  have hk := mem_range.mp hk
  have hx := (h.xm_range k hk).1
  have hn := hp.1 k (by rw [h.xn.1]; exact hk)
  rw [bC_real hx h.nfp_pos hn, bS_real hx h.nfp_pos hn]
  cases d.asym <;> simp [onlyIf, ev] <;> ring

theorem zP_real (h : RunReady I d) (hp : FieldPeriodic I d.nfp) (js : ℕ) (θ ζ : ℝ) :
    zP I d js d.mnmax θ ζ = (surface I d.asym js).Z θ ζ := by
  unfold zP surface series
  rw [acc2_real, h.xm.1]
  apply sum_congr rfl
  intro k hk
  have hk := mem_range.mp hk
  have hx := (h.xm_range k hk).1
  have hn := hp.1 k (by rw [h.xn.1]; exact hk)
  rw [bC_real hx h.nfp_pos hn, bS_real hx h.nfp_pos hn]
  cases d.asym <;> simp [onlyIf, ev] <;> ring

theorem lP_real (h : RunReady I d) (hp : FieldPeriodic I d.nfp) (js : ℕ) (θ ζ : ℝ) :
    lP I d js d.mnmax θ ζ = (surface I d.asym js).lam θ ζ := by
  unfold lP surface series
  rw [acc2_real, h.xm.1]
  apply sum_congr rfl
  intro k hk
  have hk := mem_range.mp hk
  have hx := (h.xm_range k hk).1
  have hn := hp.1 k (by rw [h.xn.1]; exact hk)
  rw [bC_real hx h.nfp_pos hn, bS_real hx h.nfp_pos hn]
  cases d.asym <;> simp [onlyIf, ev] <;> ring

theorem bP_real (h : RunReady I d) (hp : FieldPeriodic I d.nfp) (js : ℕ) (θ ζ : ℝ) :
    bP I d js d.mnq θ ζ = (surface I d.asym js).B θ ζ := by
  unfold bP surface series
  rw [acc2_real, h.xm_nyq.1]
  apply sum_congr rfl
  intro k hk
  have hk := mem_range.mp hk
  have hx := (h.xm_nyq_range k hk).1
  have hn := hp.2 k (by rw [h.xn_nyq.1]; exact hk)
  rw [bC_real hx h.nfp_pos hn, bS_real hx h.nfp_pos hn]
  cases d.asym <;> simp [onlyIf, ev] <;> ring

theorem wP_real (h : RunReady I d) (hp : FieldPeriodic I d.nfp) (js : ℕ) (θ ζ : ℝ) :
    wP I d js d.mnq θ ζ = (surface I d.asym js).w θ ζ := by
  unfold wP surface series
  rw [acc2_real, h.xm_nyq.1]
  apply sum_congr rfl
  intro k hk
  have hk := mem_range.mp hk
  have hx := (h.xm_nyq_range k hk).1
  have hn := hp.2 k (by rw [h.xn_nyq.1]; exact hk)
  rw [bC_real hx h.nfp_pos hn, bS_real hx h.nfp_pos hn]
  have e1 : wS I js k = wSin (I.xm_nyq.val 0 k) (I.xn_nyq.val 0 k) (entry I.bsubumnc k js)
      (entry I.bsubvmnc k js) := by simp [wS, wSin, ev, entry]
  have e2 : wC I js k = wCos (I.xm_nyq.val 0 k) (I.xn_nyq.val 0 k) (entry I.bsubumns k js)
      (entry I.bsubvmns k js) := by simp [wC, wCos, ev, entry]
  rw [e1, e2]
  cases d.asym <;> simp [onlyIf] <;> ring

/-- Term-by-term derivative in the first angle. -/
theorem series_deriv_theta (K : ℕ) (m n : ℕ → ℤ) (c s : ℕ → ℝ) (θ ζ : ℝ) :
    HasDerivAt (fun t => series K m n c s t ζ)
      (series K m n (fun k => m k * s k) (fun k => -(m k * c k)) θ ζ) θ := by
  unfold series
  apply HasDerivAt.fun_sum
  intro k _
  have h0 : HasDerivAt (fun t : ℝ => (m k : ℝ) * t - n k * ζ) (m k) θ := by
    simpa using ((hasDerivAt_id θ).const_mul (m k : ℝ)).sub_const (n k * ζ)
  have h1 := (h0.cos.const_mul (c k)).add (h0.sin.const_mul (s k))
  refine h1.congr_deriv ?_
  ring

/-- Term-by-term derivative in the second angle. -/
theorem series_deriv_zeta (K : ℕ) (m n : ℕ → ℤ) (c s : ℕ → ℝ) (θ ζ : ℝ) :
    HasDerivAt (fun z => series K m n c s θ z)
      (series K m n (fun k => -(n k * s k)) (fun k => n k * c k) θ ζ) ζ := by
  unfold series
  apply HasDerivAt.fun_sum
  intro k _
  have h0 : HasDerivAt (fun z : ℝ => (m k : ℝ) * θ - n k * z) (-(n k)) ζ := by
    simpa using ((hasDerivAt_id ζ).const_mul (n k : ℝ)).const_sub (m k * θ)
  have h1 := (h0.cos.const_mul (c k)).add (h0.sin.const_mul (s k))
  refine h1.congr_deriv ?_
  ring

theorem ltP_real (h : RunReady I d) (hp : FieldPeriodic I d.nfp) (js : ℕ) (θ ζ : ℝ) :
    HasDerivAt (fun t => (surface I d.asym js).lam t ζ) (ltP I d js d.mnmax θ ζ) θ := by
  refine (series_deriv_theta _ _ _ _ _ θ ζ).congr_deriv ?_
  unfold ltP series
  rw [acc2_real, h.xm.1]
  apply sum_congr rfl
  intro k hk
  have hk := mem_range.mp hk
  have hx := (h.xm_range k hk).1
  have hn := hp.1 k (by rw [h.xn.1]; exact hk)
  rw [bC_real hx h.nfp_pos hn, bS_real hx h.nfp_pos hn]
  cases d.asym <;> simp [onlyIf, ev] <;> ring

theorem lzP_real (h : RunReady I d) (hp : FieldPeriodic I d.nfp) (js : ℕ) (θ ζ : ℝ) :
    HasDerivAt (fun z => (surface I d.asym js).lam θ z) (lzP I d js d.mnmax θ ζ) ζ := by
  refine (series_deriv_zeta _ _ _ _ _ θ ζ).congr_deriv ?_
  unfold lzP series
  rw [acc2_real, h.xm.1]
  apply sum_congr rfl
  intro k hk
  have hk := mem_range.mp hk
  have hx := (h.xm_range k hk).1
  have hn := hp.1 k (by rw [h.xn.1]; exact hk)
  rw [bC_real hx h.nfp_pos hn, bS_real hx h.nfp_pos hn]
  cases d.asym <;> simp [onlyIf, ev] <;> ring

theorem wtP_real (h : RunReady I d) (hp : FieldPeriodic I d.nfp) (js : ℕ) (θ ζ : ℝ) :
    HasDerivAt (fun t => (surface I d.asym js).w t ζ) (wtP I d js d.mnq θ ζ) θ := by
  refine (series_deriv_theta _ _ _ _ _ θ ζ).congr_deriv ?_
  unfold wtP series
  rw [acc2_real, h.xm_nyq.1]
  apply sum_congr rfl
  intro k hk
  have hk := mem_range.mp hk
  have hx := (h.xm_nyq_range k hk).1
  have hn := hp.2 k (by rw [h.xn_nyq.1]; exact hk)
  rw [bC_real hx h.nfp_pos hn, bS_real hx h.nfp_pos hn]
  have e1 : wS I js k = wSin (I.xm_nyq.val 0 k) (I.xn_nyq.val 0 k) (entry I.bsubumnc k js)
      (entry I.bsubvmnc k js) := by simp [wS, wSin, ev, entry]
  have e2 : wC I js k = wCos (I.xm_nyq.val 0 k) (I.xn_nyq.val 0 k) (entry I.bsubumns k js)
      (entry I.bsubvmns k js) := by simp [wC, wCos, ev, entry]
  rw [e1, e2]
  cases d.asym <;> simp [onlyIf] <;> ring

theorem wzP_real (h : RunReady I d) (hp : FieldPeriodic I d.nfp) (js : ℕ) (θ ζ : ℝ) :
    HasDerivAt (fun z => (surface I d.asym js).w θ z) (wzP I d js d.mnq θ ζ) ζ := by
  refine (series_deriv_zeta _ _ _ _ _ θ ζ).congr_deriv ?_
  unfold wzP series
  rw [acc2_real, h.xm_nyq.1]
  apply sum_congr rfl
  intro k hk
  have hk := mem_range.mp hk
  have hx := (h.xm_nyq_range k hk).1
  have hn := hp.2 k (by rw [h.xn_nyq.1]; exact hk)
  rw [bC_real hx h.nfp_pos hn, bS_real hx h.nfp_pos hn]
  have e1 : wS I js k = wSin (I.xm_nyq.val 0 k) (I.xn_nyq.val 0 k) (entry I.bsubumnc k js)
      (entry I.bsubvmnc k js) := by simp [wS, wSin, ev, entry]
  have e2 : wC I js k = wCos (I.xm_nyq.val 0 k) (I.xn_nyq.val 0 k) (entry I.bsubumns k js)
      (entry I.bsubvmns k js) := by simp [wC, wCos, ev, entry]
  rw [e1, e2]
  cases d.asym <;> simp [onlyIf] <;> ring

theorem lastZero_first {α : Type} [Arith α] {I : Inputs α} (ho : OriginOnce I) (f : ℕ → α) (z : α) {K : ℕ} (h1 : 1 ≤ K)
    (hK : K ≤ I.xm_nyq.size) : lastZero I f z K = f 0 := by
  induction K with
  | zero => omega
  | succ K ih =>
    by_cases h0 : K = 0
    · subst h0
      have := (ho 0 (by omega)).mpr rfl
      simp [lastZero, this]
    · have := mt (ho K (by omega)).mp h0
      simp only [lastZero, this, if_false]
      exact ih (by omega) (by omega)

theorem curI_real (h : RunReady I d) (ho : OriginOnce I) (js : ℕ) :
    curI I d js = (surface I d.asym js).I := by
  unfold curI
  rw [lastZero_first ho _ _ h.mnmax_nyq_ge (by rw [h.xm_nyq.1])]
  simp [surface, ev]

theorem curG_real (h : RunReady I d) (ho : OriginOnce I) (js : ℕ) :
    curG I d js = (surface I d.asym js).G := by
  unfold curG
  rw [lastZero_first ho _ _ h.mnmax_nyq_ge (by rw [h.xm_nyq.1])]
  simp [surface, ev]

theorem gi_real (h : RunReady I d) (ho : OriginOnce I) (js : ℕ) :
    gi I d js = (surface I d.asym js).G + (surface I d.asym js).iota * (surface I d.asym js).I := by
  unfold gi
  rw [curI_real h ho, curG_real h ho]
  simp [surface, iotaV]

theorem nuV_real (h : RunReady I d) (hp : FieldPeriodic I d.nfp) (ho : OriginOnce I) (js : ℕ) (θ ζ : ℝ) :
    nuV I d js θ ζ = (surface I d.asym js).nu θ ζ := by
  unfold nuV oneOverGI Surface.nu
  rw [gi_real h ho, wP_real h hp, lP_real h hp, curI_real h ho, real_ofInt]
  push_cast
  ring

theorem thB_real (h : RunReady I d) (hp : FieldPeriodic I d.nfp) (ho : OriginOnce I) (js : ℕ) (θ ζ : ℝ) :
    thB I d js θ ζ = (surface I d.asym js).thetaB θ ζ := by
  unfold thB Surface.thetaB
  rw [nuV_real h hp ho, lP_real h hp]
  simp [surface, iotaV]

theorem zeB_real (h : RunReady I d) (hp : FieldPeriodic I d.nfp) (ho : OriginOnce I) (js : ℕ) (θ ζ : ℝ) :
    zeB I d js θ ζ = (surface I d.asym js).zetaB θ ζ := by
  unfold zeB Surface.zetaB
  rw [nuV_real h hp ho]

theorem nuT_real (h : RunReady I d) (hp : FieldPeriodic I d.nfp) (ho : OriginOnce I) (js : ℕ) (θ ζ : ℝ) :
    HasDerivAt (fun t => (surface I d.asym js).nu t ζ) (nuT I d js θ ζ) θ := by
  unfold Surface.nu
  refine (((wtP_real h hp js θ ζ).sub ((ltP_real h hp js θ ζ).const_mul _)).div_const _).congr_deriv ?_
  unfold nuT oneOverGI
  rw [gi_real h ho, curI_real h ho, real_ofInt]
  push_cast
  ring

theorem nuZ_real (h : RunReady I d) (hp : FieldPeriodic I d.nfp) (ho : OriginOnce I) (js : ℕ) (θ ζ : ℝ) :
    HasDerivAt (fun z => (surface I d.asym js).nu θ z) (nuZ I d js θ ζ) ζ := by
  unfold Surface.nu
  refine (((wzP_real h hp js θ ζ).sub ((lzP_real h hp js θ ζ).const_mul _)).div_const _).congr_deriv ?_
  unfold nuZ oneOverGI
  rw [gi_real h ho, curI_real h ho, real_ofInt]
  push_cast
  ring

theorem dBdV_real (h : RunReady I d) (hp : FieldPeriodic I d.nfp) (ho : OriginOnce I) (js : ℕ) (θ ζ : ℝ) :
    dBdV I d js θ ζ = (surface I d.asym js).det θ ζ := by
  set S := surface I d.asym js with hS
  have e1 : HasDerivAt (fun t => S.thetaB t ζ)
      (1 + ltP I d js d.mnmax θ ζ + S.iota * nuT I d js θ ζ) θ :=
    ((hasDerivAt_id θ).add (ltP_real h hp js θ ζ)).add ((nuT_real h hp ho js θ ζ).const_mul S.iota)
  have e2 : HasDerivAt (fun z => S.zetaB θ z) (1 + nuZ I d js θ ζ) ζ :=
    (hasDerivAt_id ζ).add (nuZ_real h hp ho js θ ζ)
  have e3 : HasDerivAt (fun z => S.thetaB θ z)
      (lzP I d js d.mnmax θ ζ + S.iota * nuZ I d js θ ζ) ζ :=
    ((lzP_real h hp js θ ζ).const_add θ).add ((nuZ_real h hp ho js θ ζ).const_mul S.iota)
  have e4 : HasDerivAt (fun t => S.zetaB t ζ) (nuT I d js θ ζ) θ :=
    (nuT_real h hp ho js θ ζ).const_add ζ
  unfold Surface.det
  rw [e1.deriv, e2.deriv, e3.deriv, e4.deriv]
  unfold dBdV
  have : iotaV I js = S.iota := by simp [hS, surface, iotaV]
  rw [this, real_ofInt]
  push_cast
  ring

theorem jacB_real (h : RunReady I d) (hp : FieldPeriodic I d.nfp) (ho : OriginOnce I) (js : ℕ) (θ ζ : ℝ) :
    jacB I d js θ ζ = (surface I d.asym js).jacobian θ ζ := by
  unfold jacB Surface.jacobian
  rw [gi_real h ho, bP_real h hp]
  ring

end surface

end Booz
