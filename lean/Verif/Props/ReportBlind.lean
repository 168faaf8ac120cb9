import Verif.Props.AlreadyBoozer
import Verif.Props.Uniform

/-!
# C75: what a clean accuracy report means

The report compares |B| at four points only.  For every resolution there are inputs for which all reported errors
vanish although the |B| series of the output is wrong by half its mean value elsewhere.  Conversely a reported error
is always an error.
-/

open Finset

namespace Booz
open Spec

/-- An even number, `mboz` or `mboz + 1`: a poloidal mode number just beyond the output. -/
def Ex.beyond (M : ℕ) : ℕ := 2 * ((M + 1) / 2)

/-- Inputs whose angles are already Boozer angles, with |B| = 2 + cos(m θ)/2 - t cos((m+2) θ), m even and ≥ mboz. -/
noncomputable def Ex.blind (M N : ℕ) (t : ℝ) : St ℝ :=
  { Ex.st false with inp := { Ex.inputs false with
      mboz := M
      nboz := N
      mpol_nyq := some ((Ex.beyond M + 2 : ℕ) : ℤ)
      mnmax_nyq := some 3
      xm_nyq := Ex.vec [0, (Ex.beyond M : ℤ), (Ex.beyond M : ℤ) + 2]
      xn_nyq := Ex.vec [0, 0, 0]
      lmns := Mat.tab 3 2 fun _ _ => 0
      bmnc := Mat.tab 3 2 fun k _ => if k = 0 then 2 else if k = 1 then 1 / 2 else -t
      bsubumnc := Mat.tab 3 2 fun _ _ => 0
      bsubvmnc := Mat.tab 3 2 fun k _ => if k = 0 then 20 else 0 } }

/-- Its sizes. -/
def Ex.blindDims (M N : ℕ) : Dims := { Ex.dims false with M := M, N := N, mq := Ex.beyond M + 2, mnq := 3 }

theorem Ex.beyond_le (M : ℕ) : M ≤ Ex.beyond M ∧ Ex.beyond M ≤ M + 1 := by
  unfold Ex.beyond
  omega

theorem Ex.blind_ready {M N : ℕ} (t : ℝ) (hM : 1 ≤ M) (h : (4 * M + 2) * (4 * N + 2) < 2 ^ 30) :
    RunReady (Ex.blind M N t).inp (Ex.blindDims M N) := by
  have b := Ex.ready_res false hM h
  have hb := Ex.beyond_le M
  have a2 : (4 * M + 2) * 1 ≤ (4 * M + 2) * (4 * N + 2) := Nat.mul_le_mul le_rfl (by omega)
  have c3 : ∀ k, k < 3 → k = 0 ∨ k = 1 ∨ k = 2 := by omega
  exact { b with
    mpol_nyq := rfl
    mpol_nyq_ge := by show 1 ≤ Ex.beyond M + 2; omega
    mnmax_nyq := rfl
    mnmax_nyq_ge := (by decide : (1 : ℕ) ≤ 3)
    xm_nyq := Ex.full_vec _
    xm_nyq_range := by
      intro k hk
      show 0 ≤ (Ex.vec (β := ℤ) [0, (Ex.beyond M : ℤ), (Ex.beyond M : ℤ) + 2]).val 0 k ∧
        (Ex.vec (β := ℤ) [0, (Ex.beyond M : ℤ), (Ex.beyond M : ℤ) + 2]).val 0 k ≤ ((Ex.beyond M + 2 : ℕ) : ℤ)
      rcases c3 k hk with rfl | rfl | rfl
      · show (0 : ℤ) ≤ 0 ∧ (0 : ℤ) ≤ _
        omega
      · show (0 : ℤ) ≤ Ex.beyond M ∧ (Ex.beyond M : ℤ) ≤ _
        omega
      · show (0 : ℤ) ≤ (Ex.beyond M : ℤ) + 2 ∧ (Ex.beyond M : ℤ) + 2 ≤ _
        omega
    xn_nyq := Ex.full_vec _
    xn_nyq_range := (by decide : ∀ k, k < 3 → (Vec.val 0 (Ex.vec (β := ℤ) [0, 0, 0]) k).natAbs / 2 ≤ 1)
    xn_nyq_int := (by decide : ∀ k, k < 3 → (Vec.val 0 (Ex.vec (β := ℤ) [0, 0, 0]) k).natAbs < 2147483648)
    lmns := Mat.full_tab 3 2 _
    bmnc := Mat.full_tab 3 2 _
    bsubumnc := Mat.full_tab 3 2 _
    bsubvmnc := Mat.full_tab 3 2 _
    bmns := fun h => by cases h
    bsubumns := fun h => by cases h
    bsubvmns := fun h => by cases h
    fit_mq := by show Ex.beyond M + 2 < _; omega }

theorem Ex.blind_xm (M N : ℕ) (t : ℝ) : (Ex.blind M N t).inp.xm_nyq.val 0 0 = 0 ∧
    (Ex.blind M N t).inp.xm_nyq.val 0 1 = Ex.beyond M ∧ (Ex.blind M N t).inp.xm_nyq.val 0 2 = Ex.beyond M + 2 :=
  ⟨rfl, rfl, rfl⟩

theorem Ex.blind_xn (M N : ℕ) (t : ℝ) : (Ex.blind M N t).inp.xn_nyq.val 0 0 = 0 ∧
    (Ex.blind M N t).inp.xn_nyq.val 0 1 = 0 ∧ (Ex.blind M N t).inp.xn_nyq.val 0 2 = 0 :=
  ⟨rfl, rfl, rfl⟩

theorem Ex.blind_periodic (M N : ℕ) (t : ℝ) : FieldPeriodic (Ex.blind M N t).inp 2 :=
  ⟨(Ex.fieldPeriodic (α := ℝ) false).1, (by decide : ∀ k < 3, (2 : ℤ) ∣ Vec.val 0 (Ex.vec (β := ℤ) [0, 0, 0]) k)⟩

theorem Ex.blind_origin {M : ℕ} (N : ℕ) (t : ℝ) (hM : 1 ≤ M) : OriginOnce (Ex.blind M N t).inp := by
  have hb := Ex.beyond_le M
  obtain ⟨x0, x1, x2⟩ := Ex.blind_xm M N t
  obtain ⟨y0, y1, y2⟩ := Ex.blind_xn M N t
  intro k hk
  have hk : k < 3 := hk
  have c3 : k = 0 ∨ k = 1 ∨ k = 2 := by omega
  rcases c3 with rfl | rfl | rfl
  · rw [x0, y0]; simp
  · rw [x1, y1]; omega
  · rw [x2, y2]; omega

theorem Ex.blind_boozer {M : ℕ} (N : ℕ) (t : ℝ) {js : ℕ} (hj : js < 2) : AlreadyBoozer (Ex.blind M N t).inp false js where
  lmns k hk := Mat.val_tab hk hj
  lmnc h := by cases h
  bsubumnc k hk _ := Mat.val_tab hk hj
  bsubvmnc k hk h := by
    refine (Mat.val_tab hk hj).trans (if_neg ?_)
    rintro rfl
    exact h ⟨rfl, rfl⟩
  bsubumns h := by cases h
  bsubvmns h := by cases h

theorem Ex.blind_b (M N : ℕ) (t : ℝ) {js : ℕ} (hj : js < 2) : entry (Ex.blind M N t).inp.bmnc 0 js = 2 ∧
    entry (Ex.blind M N t).inp.bmnc 1 js = 1 / 2 ∧ entry (Ex.blind M N t).inp.bmnc 2 js = -t :=
  ⟨(Mat.val_tab (by decide) hj).trans (by norm_num), (Mat.val_tab (by decide) hj).trans (by norm_num),
    (Mat.val_tab (by decide) hj).trans (by norm_num)⟩

/-- |B| of these inputs. -/
theorem Ex.blind_B (M N : ℕ) (t : ℝ) {js : ℕ} (hj : js < 2) (θ ζ : ℝ) : (surface (Ex.blind M N t).inp false js).B θ ζ =
    2 + Real.cos (Ex.beyond M * θ) / 2 - t * Real.cos ((Ex.beyond M + 2) * θ) := by
  obtain ⟨x0, x1, x2⟩ := Ex.blind_xm M N t
  obtain ⟨y0, y1, y2⟩ := Ex.blind_xn M N t
  obtain ⟨b0, b1, b2⟩ := Ex.blind_b M N t hj
  show series 3 ((Ex.blind M N t).inp.xm_nyq.val 0) ((Ex.blind M N t).inp.xn_nyq.val 0)
    (fun k => entry (Ex.blind M N t).inp.bmnc k js) (fun k => onlyIf false (entry (Ex.blind M N t).inp.bmns k js)) θ ζ = _
  unfold series onlyIf
  rw [sum_range_succ, sum_range_succ, sum_range_succ, sum_range_zero]
  beta_reduce
  rw [x0, x1, x2, y0, y1, y2, b0, b1, b2]
  push_cast
  simp only [zero_mul, sub_zero, Real.cos_zero, Bool.false_eq_true, if_false]
  ring

theorem Ex.blind_B_bounds (M N : ℕ) {t : ℝ} (ht : 0 ≤ t ∧ t ≤ 1 / 2) {js : ℕ} (hj : js < 2) (θ ζ : ℝ) :
    1 ≤ (surface (Ex.blind M N t).inp false js).B θ ζ ∧ (surface (Ex.blind M N t).inp false js).B θ ζ ≤ 3 := by
  rw [Ex.blind_B M N t hj]
  have h1 := abs_le.1 (Real.abs_cos_le_one (Ex.beyond M * θ))
  have h2 := abs_le.1 (Real.abs_cos_le_one ((Ex.beyond M + 2) * θ))
  constructor <;> nlinarith

theorem Ex.blind_regular (M N : ℕ) {t : ℝ} (ht : 0 ≤ t ∧ t ≤ 1 / 2) {js : ℕ} (hj : js < 2) : (surface (Ex.blind M N t).inp false js).Regular := by
  constructor
  · have e1 : (surface (Ex.blind M N t).inp false js).G = 20 := (Mat.val_tab (by decide) hj).trans (by simp)
    have e2 : (surface (Ex.blind M N t).inp false js).I = 0 := Mat.val_tab (by decide) hj
    rw [e1, e2]
    norm_num
  · intro θ ζ
    linarith [(Ex.blind_B_bounds M N ht hj θ ζ).1]

/-- At the points of the report |B| equals its mean value. -/
theorem Ex.blind_B_check (M N : ℕ) {js : ℕ} (hj : js < 2) (c : ℕ) (ζ : ℝ) :
    (surface (Ex.blind M N (1 / 2)).inp false js).B (checkTheta c) ζ = 2 := by
  rw [Ex.blind_B M N _ hj]
  have : Real.cos ((Ex.beyond M + 2) * checkTheta c) = Real.cos (Ex.beyond M * checkTheta c) := by
    unfold checkTheta
    split
    · rw [add_mul, Real.cos_add_two_pi]
    · rw [mul_zero, mul_zero]
  rw [this]
  ring

/-- Half way between them it does not. -/
theorem Ex.blind_B_off (M N : ℕ) {js : ℕ} (hj : js < 2) (ζ : ℝ) :
    |(surface (Ex.blind M N (1 / 2)).inp false js).B (Real.pi / 2) ζ - 2| = 1 := by
  rw [Ex.blind_B M N _ hj]
  unfold Ex.beyond
  generalize (M + 1) / 2 = j
  have e1 : ((2 * j : ℕ) : ℝ) * (Real.pi / 2) = j * Real.pi := by push_cast; ring
  have e2 : (((2 * j : ℕ) : ℝ) + 2) * (Real.pi / 2) = j * Real.pi + Real.pi := by push_cast; ring
  rw [e1, e2, Real.cos_add_pi, Real.cos_nat_mul_pi]
  rcases neg_one_pow_eq_or ℝ j with h | h <;> rw [h] <;> norm_num

/-- The grid attributes to the output modes the constant only. -/
theorem Ex.blind_fold {M N : ℕ} (t : ℝ) (hM : 1 ≤ M) {js : ℕ} (hj : js < 2) {m n' : ℤ} (hm : 0 ≤ m) (hm' : m < M)
    (hn : -(N : ℤ) ≤ n' ∧ n' ≤ N) :
    foldCos (ntheta M) (nzeta N) 2 3 ((Ex.blind M N t).inp.xm_nyq.val 0) ((Ex.blind M N t).inp.xn_nyq.val 0)
      (fun i => entry (Ex.blind M N t).inp.bmnc i js) m (n' * 2) = if m = 0 ∧ n' * 2 = 0 then 2 else 0 := by
  obtain ⟨x0, x1, x2⟩ := Ex.blind_xm M N t
  obtain ⟨y0, y1, y2⟩ := Ex.blind_xn M N t
  obtain ⟨b0, b1, b2⟩ := Ex.blind_b M N t hj
  obtain ⟨hb1, hb2⟩ := Ex.beyond_le M
  have key : ∀ p m' : ℤ, p ≠ m' → (p - m').natAbs < 4 * M + 2 → ∀ q n : ℤ, ¬ Alias (ntheta M) (nzeta N) 2 p q m' n := by
    rintro p m' hne hlt q n ⟨h1, -⟩
    have := Int.eq_zero_of_abs_lt_dvd h1 (by rw [Int.abs_eq_natAbs]; unfold ntheta; exact_mod_cast hlt)
    omega
  have zero : ¬ (m = 0 ∧ n' * 2 = 0) → ∀ e : ℤ, e = 1 ∨ e = -1 → ¬ Alias (ntheta M) (nzeta N) 2 0 0 (e * m) (e * (n' * 2)) := by
    intro h0 e he
    by_cases h : m = 0
    · rintro ⟨-, h2⟩
      have hn0 : n' ≠ 0 := by
        rintro rfl
        exact h0 ⟨h, by ring⟩
      have hN : N ≠ 0 := by
        rintro rfl
        omega
      have hz : nzeta N = 4 * N + 2 := by unfold nzeta; rw [if_neg hN]
      have := Int.eq_zero_of_abs_lt_dvd h2 (by
        rw [abs_lt, hz]
        rcases he with rfl | rfl <;> push_cast <;> constructor <;> omega)
      rcases he with rfl | rfl <;> omega
    · refine key 0 (e * m) ?_ ?_ _ _ <;> rcases he with rfl | rfl <;> omega
  unfold foldCos
  rw [sum_range_succ, sum_range_succ, sum_range_succ, sum_range_zero]
  beta_reduce
  rw [x0, x1, x2, y0, y1, y2, b0, b1, b2]
  by_cases h0 : m = 0 ∧ n' * 2 = 0
  · simp only [if_pos h0]
    rw [if_neg (key (Ex.beyond M) 0 (by omega) (by omega) _ _), if_neg (key (Ex.beyond M + 2) 0 (by omega) (by omega) _ _),
      if_pos ⟨by simp, by simp⟩]
    norm_num
  · simp only [if_neg h0]
    have z1 := zero h0 1 (Or.inl rfl)
    have z2 := zero h0 (-1) (Or.inr rfl)
    rw [one_mul, one_mul] at z1
    rw [neg_one_mul, neg_one_mul] at z2
    rw [if_neg (key (Ex.beyond M) m (by omega) (by omega) _ _), if_neg (key (Ex.beyond M + 2) m (by omega) (by omega) _ _),
      if_neg (key (Ex.beyond M) (-m) (by omega) (by omega) _ _),
      if_neg (key (Ex.beyond M + 2) (-m) (by omega) (by omega) _ _), if_neg z1, if_neg z2]
    norm_num

/-- The run for these inputs: the output has the constant only. -/
theorem Ex.blind_run {M N : ℕ} (hM : 1 ≤ M) (hf : (4 * M + 2) * (4 * N + 2) < 2 ^ 30) {t : ℝ} (ht : 0 ≤ t ∧ t ≤ 1 / 2)
    (dbg : Bool) : ∃ s' rs, run dbg (Ex.blind M N t) = .ok (s', rs) ∧ rs.length = 2 ∧ ∀ b < 2,
      (∀ x z, outputB s'.out false b x z = 2) ∧ ∃ rep, rs[b]? = some rep ∧ ∀ c < 4,
        let v := (surface (Ex.blind M N t).inp false (selected (Ex.blind M N t).inp b)).B (checkTheta c) (checkZeta N 2 c)
        rep.err.rdN c = .ok (|2 - v| / max 2 v) := by
  have rd := Ex.blind_ready t hM hf
  have fp : FieldPeriodic (Ex.blind M N t).inp (Ex.blindDims M N).nfp := Ex.blind_periodic M N t
  have oo := Ex.blind_origin N t hM
  have lt : ∀ b < (Ex.blindDims M N).nsb, selected (Ex.blind M N t).inp b < 2 := Ex.selected_lt false
  have reg : ∀ b < (Ex.blindDims M N).nsb,
      (surface (Ex.blind M N t).inp (Ex.blindDims M N).asym (selected (Ex.blind M N t).inp b)).Regular :=
    fun b hb => Ex.blind_regular M N ht (lt b hb)
  obtain ⟨s', rs, hr, hl, hrep⟩ := C30_report (dbg := dbg) rd fp oo reg (by show (1 : ℤ) > 0; decide)
  obtain ⟨s2, r2, hr2, H⟩ := C21_aliasing (dbg := dbg) rd fp oo reg
  obtain ⟨rfl, rfl⟩ := Prod.mk.inj (Except.ok.inj (hr.symm.trans hr2))
  have hr' := hr
  rw [run_real rd fun _ => originOnce_first rd oo] at hr'
  obtain ⟨rfl, -⟩ := Prod.mk.inj (Except.ok.inj hr')
  refine ⟨_, rs, hr, hl, fun b hb => ?_⟩
  have ab : AlreadyBoozer (Ex.blind M N t).inp (Ex.blindDims M N).asym (selected (Ex.blind M N t).inp b) :=
    Ex.blind_boozer N t (lt b hb)
  have out2 : ∀ x z, outputB (runSt (Ex.blindDims M N) (Ex.blind M N t) (Ex.blindDims M N).nsb).out (Ex.blindDims M N).asym b x z
      = 2 := by
    intro x z
    have hsz : (runSt (Ex.blindDims M N) (Ex.blind M N t) (Ex.blindDims M N).nsb).out.xm_b.size = numModes M N :=
      Vec.size_tab _ _
    have val : ∀ k < numModes M N, ∃ m n : ℤ,
        (runSt (Ex.blindDims M N) (Ex.blind M N t) (Ex.blindDims M N).nsb).out.xm_b.val 0 k = m ∧
        (runSt (Ex.blindDims M N) (Ex.blind M N t) (Ex.blindDims M N).nsb).out.xn_b.val 0 k = n ∧
        m = modeM N k ∧ n = modeN N k * 2 ∧
        entry (runSt (Ex.blindDims M N) (Ex.blind M N t) (Ex.blindDims M N).nsb).out.spec.bmnc_b k b =
          if m = 0 ∧ n = 0 then 2 else 0 := by
      intro k hk
      obtain ⟨m, n, h1, h2, -, h3, -⟩ := H b hb ab k hk
      have em : m = modeM N k := (Except.ok.inj ((Vec.rdN_tab hk (f := fun k => (modeM N k : ℤ))).symm.trans h1)).symm
      have en : n = modeN N k * 2 :=
        (Except.ok.inj ((Vec.rdN_tab hk (f := fun k => modeN N k * (2 : ℕ))).symm.trans h2)).symm
      refine ⟨m, n, Vec.val_of_rdN 0 h1, Vec.val_of_rdN 0 h2, em, en, (Mat.val_of_rdN 0 h3).trans ?_⟩
      have ml : modeM N k < M := modeM_lt (d := Ex.blindDims M N) hM hk
      rw [em, en]
      exact Ex.blind_fold t hM (lt b hb) (by omega) (by exact_mod_cast ml) (modeN_bound N k)
    unfold outputB series
    rw [hsz, sum_eq_single 0]
    · obtain ⟨m, n, e1, e2, e3, e4, e5⟩ := val 0 (by unfold numModes; omega)
      have m0 : m = 0 := by rw [e3]; unfold modeM; rw [Nat.div_eq_of_lt (by omega)]; rfl
      have n0 : n = 0 := by
        rw [e4]; unfold modeN
        rw [Nat.mod_eq_of_lt (by omega)]
        simp
      beta_reduce
      rw [e1, e2, e5, if_pos ⟨m0, n0⟩, m0, n0]
      show _ + 0 * _ = _
      simp
    · intro k hk hk0
      obtain ⟨m, n, e1, e2, e3, e4, e5⟩ := val k (mem_range.1 hk)
      have : ¬ (m = 0 ∧ n = 0) := by
        rintro ⟨rfl, rfl⟩
        have := modePair_lex (Ex.blindDims M N) (by decide : 1 ≤ 2) (Nat.pos_of_ne_zero hk0)
        have e0 : modeM N 0 = 0 := by unfold modeM; exact Nat.div_eq_of_lt (by omega)
        have e0' : modeN N 0 = 0 := by
          unfold modeN
          rw [Nat.mod_eq_of_lt (by omega)]
          simp
        have e4' : modeN N k * 2 = 0 := e4.symm
        unfold Spec.Lex at this
        simp only [show (Ex.blindDims M N).N = N from rfl, show ((Ex.blindDims M N).nfp : ℤ) = 2 from rfl, ← e3, e4',
          e0, e0'] at this
        simp at this
      beta_reduce
      rw [e5, if_neg this]
      show _ + 0 * _ = _
      simp
    · intro h
      exact absurd (mem_range.2 (by unfold numModes; omega)) h
  refine ⟨out2, ?_⟩
  obtain ⟨rep, e1, -, -, e2⟩ := hrep b hb
  refine ⟨rep, e1, fun c hc => ?_⟩
  intro v'
  obtain ⟨v, x, -, -, e3, e4, e5⟩ := e2 c hc
  have hv : v = v' := e4
  rw [out2] at e5
  rw [e3, hv, e5]

/-- **C75 is false of the code**: whatever the resolution, there are (stellarator-symmetric, regular) inputs with
1 ≤ |B| ≤ 3 for which all errors in the report are exactly zero on all surfaces, although the |B| series of the
output is off by 1 at some point of each surface. -/
theorem C75_false {M N : ℕ} (hM : 1 ≤ M) (hf : (4 * M + 2) * (4 * N + 2) < 2 ^ 30) :
    ∃ (s : St ℝ) (d : Dims), d.M = M ∧ d.N = N ∧ 0 < d.nsb ∧ RunReady s.inp d ∧ FieldPeriodic s.inp d.nfp ∧
      OriginOnce s.inp ∧ s.inp.verbose > 0 ∧
      (∀ b < d.nsb, let S := surface s.inp d.asym (selected s.inp b)
        S.Regular ∧ (∀ θ ζ, 1 ≤ S.B θ ζ ∧ S.B θ ζ ≤ 3) ∧ ∀ θ ζ, S.det θ ζ ≠ 0) ∧
      ∀ dbg, ∃ s' rs, run dbg s = .ok (s', rs) ∧ rs.length = d.nsb ∧ ∀ b < d.nsb,
        (∃ rep, rs[b]? = some rep ∧ ∀ c < 4, rep.err.rdN c = .ok 0) ∧
        let S := surface s.inp d.asym (selected s.inp b)
        ∃ θ ζ, |S.B θ ζ - outputB s'.out d.asym b (S.thetaB θ ζ) (S.zetaB θ ζ)| = 1 := by
  have lt : ∀ b < 2, selected (Ex.blind M N (1 / 2)).inp b < 2 := Ex.selected_lt false
  refine ⟨Ex.blind M N (1 / 2), Ex.blindDims M N, rfl, rfl, (by decide : 0 < 2), Ex.blind_ready _ hM hf,
    Ex.blind_periodic M N _, Ex.blind_origin N _ hM, (by show (1 : ℤ) > 0; decide),
    fun b hb => ⟨Ex.blind_regular M N (by norm_num) (lt b hb), Ex.blind_B_bounds M N (by norm_num) (lt b hb), fun θ ζ => ?_⟩,
    fun dbg => ?_⟩
  · have : (surface (Ex.blind M N (1 / 2)).inp false (selected (Ex.blind M N (1 / 2)).inp b)).det θ ζ = 1 :=
      (Ex.blind_boozer N _ (lt b hb)).det θ ζ
    show (surface (Ex.blind M N (1 / 2)).inp false (selected (Ex.blind M N (1 / 2)).inp b)).det θ ζ ≠ 0
    rw [this]
    norm_num
  obtain ⟨s', rs, hr, hl, H⟩ := Ex.blind_run hM hf (t := 1 / 2) (by norm_num) dbg
  refine ⟨s', rs, hr, hl, fun b hb => ?_⟩
  obtain ⟨out2, rep, e1, e2⟩ := H b hb
  constructor
  · refine ⟨rep, e1, fun c hc => ?_⟩
    have := e2 c hc
    rw [Ex.blind_B_check M N (lt b hb)] at this
    simpa using this
  · intro S
    refine ⟨Real.pi / 2, 0, ?_⟩
    rw [show outputB s'.out (Ex.blindDims M N).asym b _ _ = 2 from out2 _ _]
    exact Ex.blind_B_off M N (lt b hb) 0

/-- **C75 (what holds).** A reported error is an error: if an error in the report for a surface exceeds `E / β`, where
`β > 0` is a lower bound of |B| on it, the harmonics of the output do not reconstruct the surface within `E`. -/
theorem C75_partial {s : St ℝ} {d : Dims} {dbg : Bool} (h : RunReady s.inp d) (hp : FieldPeriodic s.inp d.nfp)
    (ho : OriginOnce s.inp) (hreg : ∀ b < d.nsb, (surface s.inp d.asym (selected s.inp b)).Regular)
    (hv : s.inp.verbose > 0) {s' : St ℝ} {rs : List (Report ℝ)} (hr : run dbg s = .ok (s', rs)) {b c : ℕ}
    (hb : b < d.nsb) (hc : c < 4) {rep : Report ℝ} (hrep : rs[b]? = some rep) {e E β : ℝ} (he : rep.err.rdN c = .ok e)
    (hβ : 0 < β) (hB : ∀ θ ζ, β ≤ (surface s.inp d.asym (selected s.inp b)).B θ ζ) (hE : E / β < e) :
    ¬ Reconstructs s'.out (surface s.inp d.asym (selected s.inp b)) d.asym (numModes d.M d.N) b d.M (d.N * d.nfp) E := by
  intro hrec
  obtain ⟨s2, r2, hr2, -, H⟩ := C74_report (dbg := dbg) h hp ho hreg hv
  obtain ⟨rfl, rfl⟩ := Prod.mk.inj (Except.ok.inj (hr.symm.trans hr2))
  obtain ⟨rep', e1, H⟩ := H b hb
  obtain rfl := Option.some.inj (hrep.symm.trans e1)
  obtain ⟨e', e2, e3⟩ := H E β hβ hB hrec c hc
  obtain rfl := Except.ok.inj (he.symm.trans e2)
  exact absurd e3 (not_le.2 hE)

/-- With the last coefficient zero the report shows errors of 1/5, and indeed |B| is not reconstructed within 19/100. -/
example {M N : ℕ} (hM : 1 ≤ M) (hf : (4 * M + 2) * (4 * N + 2) < 2 ^ 30) (dbg : Bool) {b : ℕ} (hb : b < 2) :
    ∃ s' rs, run dbg (Ex.blind M N 0) = .ok (s', rs) ∧
      ¬ Reconstructs s'.out (surface (Ex.blind M N 0).inp false (selected (Ex.blind M N 0).inp b)) false (numModes M N) b
        M (N * 2) (19 / 100) := by
  have lt : ∀ b < 2, selected (Ex.blind M N 0).inp b < 2 := Ex.selected_lt false
  obtain ⟨s', rs, hr, -, H⟩ := Ex.blind_run hM hf (t := 0) (by norm_num) dbg
  obtain ⟨-, rep, e1, e2⟩ := H b hb
  refine ⟨s', rs, hr, C75_partial (d := Ex.blindDims M N) (Ex.blind_ready _ hM hf) (Ex.blind_periodic M N _)
    (Ex.blind_origin N _ hM) (fun b hb => Ex.blind_regular M N (by norm_num) (lt b hb)) (by show (1 : ℤ) > 0; decide) hr hb
    (by decide : 0 < 4) e1 (e2 0 (by decide)) one_pos
    (fun θ ζ => (Ex.blind_B_bounds M N (by norm_num) (lt b hb) θ ζ).1) ?_⟩
  rw [Ex.blind_B M N _ (lt b hb), show checkTheta 0 = 0 from if_neg (by decide), mul_zero, Real.cos_zero, zero_mul, sub_zero,
    max_eq_right (by norm_num), abs_of_nonpos (by norm_num)]
  norm_num

end Booz
