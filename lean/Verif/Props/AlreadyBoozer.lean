import Verif.Lemmas.Orthogonal
import Verif.Props.Symmetry

/-!
# C21: coordinates that are already Boozer are left alone
-/

open Finset

namespace Booz
open Spec

/-! ### The surface -/

section
variable {I : Inputs ℝ} {asym : Bool} {js : ℕ}

theorem onlyIf_zero {asym : Bool} {x : ℝ} (h : asym = true → x = 0) : onlyIf asym x = 0 := by
  unfold onlyIf
  split
  · next ha => exact h ha
  · rfl

theorem series_zero {K : ℕ} {m n : ℕ → ℤ} {c s : ℕ → ℝ} (hc : ∀ k < K, c k = 0) (hs : ∀ k < K, s k = 0)
    (θ ζ : ℝ) : series K m n c s θ ζ = 0 := by
  unfold series
  refine Finset.sum_eq_zero fun k hk => ?_
  have hk := Finset.mem_range.1 hk
  rw [hc k hk, hs k hk]
  ring

theorem Spec.AlreadyBoozer.lam (h : AlreadyBoozer I asym js) (θ ζ : ℝ) : (surface I asym js).lam θ ζ = 0 :=
  series_zero (fun k hk => onlyIf_zero fun ha => h.lmnc ha k hk) (fun k hk => h.lmns k hk) θ ζ

theorem Spec.AlreadyBoozer.w (h : AlreadyBoozer I asym js) (θ ζ : ℝ) : (surface I asym js).w θ ζ = 0 := by
  refine series_zero (fun k hk => onlyIf_zero fun ha => ?_) (fun k hk => ?_) θ ζ
  · unfold wCos
    by_cases h0 : I.xm_nyq.val 0 k = 0 ∧ I.xn_nyq.val 0 k = 0
    · simp [h0.1, h0.2]
    · rw [h.bsubumns ha k hk h0, h.bsubvmns ha k hk h0]
      simp
  · unfold wSin
    by_cases h0 : I.xm_nyq.val 0 k = 0 ∧ I.xn_nyq.val 0 k = 0
    · simp [h0.1, h0.2]
    · rw [h.bsubumnc k hk h0, h.bsubvmnc k hk h0]
      simp

theorem Spec.AlreadyBoozer.nu (h : AlreadyBoozer I asym js) (θ ζ : ℝ) : (surface I asym js).nu θ ζ = 0 := by
  unfold Surface.nu
  rw [h.lam, h.w]
  simp

theorem Spec.AlreadyBoozer.thetaB (h : AlreadyBoozer I asym js) (θ ζ : ℝ) : (surface I asym js).thetaB θ ζ = θ := by
  unfold Surface.thetaB
  rw [h.lam, h.nu]
  ring

theorem Spec.AlreadyBoozer.zetaB (h : AlreadyBoozer I asym js) (θ ζ : ℝ) : (surface I asym js).zetaB θ ζ = ζ := by
  unfold Surface.zetaB
  rw [h.nu]
  ring

theorem Spec.AlreadyBoozer.det (h : AlreadyBoozer I asym js) (θ ζ : ℝ) : (surface I asym js).det θ ζ = 1 := by
  unfold Surface.det
  simp only [h.thetaB, h.zetaB, deriv_id'', deriv_const]
  ring

end

/-! ### Folding -/

theorem foldCos_zero {nt nz nfp K : ℕ} {ms ns : ℕ → ℤ} {c : ℕ → ℝ} (h : ∀ k < K, c k = 0) (m n : ℤ) :
    foldCos nt nz nfp K ms ns c m n = 0 := by
  refine Finset.sum_eq_zero fun k hk => ?_
  rw [h k (Finset.mem_range.1 hk)]
  simp

theorem foldSin_zero {nt nz nfp K : ℕ} {ms ns : ℕ → ℤ} {c : ℕ → ℝ} (h : ∀ k < K, c k = 0) (m n : ℤ) :
    foldSin nt nz nfp K ms ns c m n = 0 := by
  refine Finset.sum_eq_zero fun k hk => ?_
  rw [h k (Finset.mem_range.1 hk)]
  simp

theorem eq_of_dvd_sub {L : ℕ} {a b : ℤ} (hd : (L : ℤ) ∣ a - b) (h : a.natAbs + b.natAbs < L) : a = b := by
  have h1 : |a - b| < (L : ℤ) := by
    rw [abs_lt]
    omega
  have := Int.eq_zero_of_abs_lt_dvd hd h1
  omega

/-- Modes within the output resolution are told apart by the grid. -/
theorem alias_eq {M N nfp : ℕ} (hp : 1 ≤ nfp) {p q m n : ℤ} (hpm : p.natAbs < M)
    (hq : q.natAbs ≤ N * nfp) (hm : m.natAbs < M) (hn : n.natAbs ≤ N * nfp) :
    Alias (ntheta M) (nzeta N) nfp p q m n ↔ p = m ∧ q = n := by
  constructor
  · rintro ⟨h1, h2⟩
    refine ⟨eq_of_dvd_sub h1 (by unfold ntheta; omega), ?_⟩
    by_cases h0 : N = 0
    · subst h0
      omega
    · refine eq_of_dvd_sub h2 ?_
      unfold nzeta
      rw [if_neg h0]
      have : nfp * (4 * N + 2) = 4 * (N * nfp) + 2 * nfp := by ring
      omega
  · rintro ⟨rfl, rfl⟩
    exact ⟨by simp, by simp⟩

theorem foldCos_fits {M N nfp K : ℕ} (hp : 1 ≤ nfp) {ms ns : ℕ → ℤ} (hf : Fits M N nfp K ms ns)
    (c : ℕ → ℝ) {m n : ℤ} (hm : m.natAbs < M) (hn : n.natAbs ≤ N * nfp) :
    foldCos (ntheta M) (nzeta N) nfp K ms ns c m n = ∑ k ∈ range K,
      if m = 0 ∧ n = 0 then (if ms k = 0 ∧ ns k = 0 then c k else 0)
      else (if ms k = m ∧ ns k = n then c k else 0) + (if ms k = -m ∧ ns k = -n then c k else 0) := by
  refine Finset.sum_congr rfl fun k hk => ?_
  obtain ⟨h1, h2⟩ := hf k (Finset.mem_range.1 hk)
  simp only [alias_eq hp h1 h2 hm hn, alias_eq (m := -m) (n := -n) hp h1 h2 (by omega) (by omega),
    alias_eq (m := 0) (n := 0) hp h1 h2 (by omega) (by omega)]

theorem foldSin_fits {M N nfp K : ℕ} (hp : 1 ≤ nfp) {ms ns : ℕ → ℤ} (hf : Fits M N nfp K ms ns)
    (c : ℕ → ℝ) {m n : ℤ} (hm : m.natAbs < M) (hn : n.natAbs ≤ N * nfp) :
    foldSin (ntheta M) (nzeta N) nfp K ms ns c m n = ∑ k ∈ range K,
      if m = 0 ∧ n = 0 then 0
      else (if ms k = m ∧ ns k = n then c k else 0) - (if ms k = -m ∧ ns k = -n then c k else 0) := by
  refine Finset.sum_congr rfl fun k hk => ?_
  obtain ⟨h1, h2⟩ := hf k (Finset.mem_range.1 hk)
  simp only [alias_eq hp h1 h2 hm hn, alias_eq (m := -m) (n := -n) hp h1 h2 (by omega) (by omega)]

/-- One input mode that nothing else is aliased to. -/
theorem foldCos_single {nt nz nfp K : ℕ} {ms ns : ℕ → ℤ} (c : ℕ → ℝ) {m n : ℤ} {k₀ : ℕ} (hk₀ : k₀ < K)
    (hm : ms k₀ = m) (hn : ns k₀ = n) (hs : ¬ (m = 0 ∧ n = 0) → ¬ Alias nt nz nfp m n (-m) (-n))
    (h : ∀ k < K, k ≠ k₀ → ¬ Alias nt nz nfp (ms k) (ns k) m n ∧ ¬ Alias nt nz nfp (ms k) (ns k) (-m) (-n)) :
    foldCos nt nz nfp K ms ns c m n = c k₀ := by
  unfold foldCos
  have hself : Alias nt nz nfp m n m n := ⟨by simp, by simp⟩
  rw [Finset.sum_eq_single_of_mem k₀ (Finset.mem_range.2 hk₀)]
  · rw [hm, hn]
    by_cases h0 : m = 0 ∧ n = 0
    · rw [if_pos h0]
      obtain ⟨rfl, rfl⟩ := h0
      rw [if_pos hself]
    · rw [if_neg h0, if_pos hself, if_neg (hs h0), add_zero]
  · intro k hk hne
    obtain ⟨h1, h2⟩ := h k (Finset.mem_range.1 hk) hne
    by_cases h0 : m = 0 ∧ n = 0
    · rw [if_pos h0]
      obtain ⟨rfl, rfl⟩ := h0
      rw [if_neg h1]
    · rw [if_neg h0, if_neg h1, if_neg h2, add_zero]

theorem foldSin_single {nt nz nfp K : ℕ} {ms ns : ℕ → ℤ} (c : ℕ → ℝ) {m n : ℤ} {k₀ : ℕ} (hk₀ : k₀ < K)
    (hm : ms k₀ = m) (hn : ns k₀ = n) (h0 : ¬ (m = 0 ∧ n = 0)) (hs : ¬ Alias nt nz nfp m n (-m) (-n))
    (h : ∀ k < K, k ≠ k₀ → ¬ Alias nt nz nfp (ms k) (ns k) m n ∧ ¬ Alias nt nz nfp (ms k) (ns k) (-m) (-n)) :
    foldSin nt nz nfp K ms ns c m n = c k₀ := by
  unfold foldSin
  have hself : Alias nt nz nfp m n m n := ⟨by simp, by simp⟩
  rw [Finset.sum_eq_single_of_mem k₀ (Finset.mem_range.2 hk₀)]
  · rw [hm, hn, if_neg h0, if_pos hself, if_neg hs, sub_zero]
  · intro k hk hne
    obtain ⟨h1, h2⟩ := h k (Finset.mem_range.1 hk) hne
    rw [if_neg h0, if_neg h1, if_neg h2, sub_zero]

/-- Adding up the folded coefficients over a half-plane of modes gives the series back. -/
theorem series_fold {M N nfp K J : ℕ} (hp : 1 ≤ nfp) {ms ns mj nj : ℕ → ℤ} (hf : Fits M N nfp K ms ns)
    (hj : Fits M N nfp J mj nj)
    (hhalf : ∀ j < J, 0 ≤ mj j ∧ (mj j = 0 → 0 ≤ nj j))
    (hinj : ∀ i < J, ∀ j < J, mj i = mj j → nj i = nj j → i = j)
    (hall : ∀ k < K, ∃ j < J, (mj j = ms k ∧ nj j = ns k) ∨ (mj j = -ms k ∧ nj j = -ns k))
    (c s : ℕ → ℝ) (θ ζ : ℝ) :
    series J mj nj (fun j => foldCos (ntheta M) (nzeta N) nfp K ms ns c (mj j) (nj j))
      (fun j => foldSin (ntheta M) (nzeta N) nfp K ms ns s (mj j) (nj j)) θ ζ = series K ms ns c s θ ζ := by
  unfold series
  have e : ∀ j ∈ range J, foldCos (ntheta M) (nzeta N) nfp K ms ns c (mj j) (nj j) *
        Real.cos (mj j * θ - nj j * ζ) +
      foldSin (ntheta M) (nzeta N) nfp K ms ns s (mj j) (nj j) * Real.sin (mj j * θ - nj j * ζ) =
      ∑ k ∈ range K, ((if mj j = 0 ∧ nj j = 0 then (if ms k = 0 ∧ ns k = 0 then c k else 0)
        else (if ms k = mj j ∧ ns k = nj j then c k else 0) +
          (if ms k = -mj j ∧ ns k = -nj j then c k else 0)) * Real.cos (mj j * θ - nj j * ζ) +
        (if mj j = 0 ∧ nj j = 0 then 0 else (if ms k = mj j ∧ ns k = nj j then s k else 0) -
          (if ms k = -mj j ∧ ns k = -nj j then s k else 0)) * Real.sin (mj j * θ - nj j * ζ)) := by
    intro j hjm
    obtain ⟨h1, h2⟩ := hj j (Finset.mem_range.1 hjm)
    rw [foldCos_fits hp hf c h1 h2, foldSin_fits hp hf s h1 h2, Finset.sum_mul, Finset.sum_mul,
      ← Finset.sum_add_distrib]
  rw [Finset.sum_congr rfl e, Finset.sum_comm]
  refine Finset.sum_congr rfl fun k hk => ?_
  obtain ⟨j, hjJ, hpm⟩ := hall k (Finset.mem_range.1 hk)
  rw [Finset.sum_eq_single_of_mem j (Finset.mem_range.2 hjJ)]
  · by_cases h0 : mj j = 0 ∧ nj j = 0
    · obtain ⟨h1, h2⟩ : ms k = 0 ∧ ns k = 0 := by omega
      rw [if_pos h0, if_pos h0, if_pos ⟨h1, h2⟩, h0.1, h0.2, h1, h2]
      simp
    · rw [if_neg h0, if_neg h0]
      rcases hpm with ⟨h1, h2⟩ | ⟨h1, h2⟩
      · have x1 : ms k = mj j ∧ ns k = nj j := by omega
        have x2 : ¬ (ms k = -mj j ∧ ns k = -nj j) := by omega
        simp only [if_pos x1, if_neg x2]
        rw [h1, h2]
        ring
      · have x1 : ¬ (ms k = mj j ∧ ns k = nj j) := by omega
        have x2 : ms k = -mj j ∧ ns k = -nj j := by omega
        simp only [if_neg x1, if_pos x2]
        rw [h1, h2]
        push_cast
        rw [show -(ms k : ℝ) * θ - -(ns k : ℝ) * ζ = -(ms k * θ - ns k * ζ) by ring, Real.cos_neg,
          Real.sin_neg]
        ring
  · intro i hi hne
    have hiJ := Finset.mem_range.1 hi
    have n1 := hinj i hiJ j hjJ
    have a1 := hhalf i hiJ
    have a2 := hhalf j hjJ
    have x1 : ¬ (ms k = mj i ∧ ns k = nj i) := by
      rintro ⟨u1, u2⟩
      exact hne (n1 (by omega) (by omega))
    have x2 : ¬ (ms k = -mj i ∧ ns k = -nj i) := by
      rintro ⟨u1, u2⟩
      exact hne (n1 (by omega) (by omega))
    have x3 : mj i = 0 ∧ nj i = 0 → ¬ (ms k = 0 ∧ ns k = 0) := by
      rintro ⟨u1, u2⟩ ⟨u3, u4⟩
      exact hne (n1 (by omega) (by omega))
    simp only [if_neg x1, if_neg x2]
    by_cases h0 : mj i = 0 ∧ nj i = 0
    · simp only [if_pos h0, if_neg (x3 h0)]
      ring
    · simp only [if_neg h0]
      ring

/-! ### C21 -/

section
variable {s : St ℝ} {d : Dims}

/-- **C21, aliasing formula.**  On a surface whose angles are already Boozer angles ν vanishes and every
output harmonic is the sum of the input harmonics that the grid cannot tell from it. -/
theorem C21_aliasing {dbg : Bool} (h : RunReady s.inp d) (hp : FieldPeriodic s.inp d.nfp)
    (ho : OriginOnce s.inp) (_hreg : ∀ b < d.nsb, (surface s.inp d.asym (selected s.inp b)).Regular) :
    ∃ s' r, run dbg s = .ok (s', r) ∧ ∀ b < d.nsb,
      let I := s.inp
      let o := s'.out
      let js := selected I b
      let FC := foldCos (ntheta d.M) (nzeta d.N) d.nfp
      let FS := foldSin (ntheta d.M) (nzeta d.N) d.nfp
      AlreadyBoozer I d.asym js → ∀ k < numModes d.M d.N, ∃ m n : ℤ,
        o.xm_b.rdN k = .ok m ∧ o.xn_b.rdN k = .ok n ∧
        o.spec.numns_b.rdN k b = .ok 0 ∧
        o.spec.bmnc_b.rdN k b = .ok
          (FC I.xm_nyq.size (I.xm_nyq.val 0) (I.xn_nyq.val 0) (fun i => entry I.bmnc i js) m n) ∧
        o.spec.rmnc_b.rdN k b = .ok
          (FC I.xm.size (I.xm.val 0) (I.xn.val 0) (fun i => entry I.rmnc i js) m n) ∧
        o.spec.zmns_b.rdN k b = .ok
          (FS I.xm.size (I.xm.val 0) (I.xn.val 0) (fun i => entry I.zmns i js) m n) ∧
        (d.asym = true →
          o.spec.numnc_b.rdN k b = .ok 0 ∧
          o.spec.bmns_b.rdN k b = .ok
            (FS I.xm_nyq.size (I.xm_nyq.val 0) (I.xn_nyq.val 0) (fun i => entry I.bmns i js) m n) ∧
          o.spec.rmns_b.rdN k b = .ok
            (FS I.xm.size (I.xm.val 0) (I.xn.val 0) (fun i => entry I.rmns i js) m n) ∧
          o.spec.zmnc_b.rdN k b = .ok
            (FC I.xm.size (I.xm.val 0) (I.xn.val 0) (fun i => entry I.zmnc i js) m n)) := by
  refine ⟨_, _, originFirst_of h ho dbg, fun b hb => ?_⟩
  intro I o js FC FS hA k hk
  have hk : k < d.nmodes := hk
  have e1 : I.xm.size = I.xn.size := by rw [h.xm.1, h.xn.1]
  have e2 : I.xm_nyq.size = I.xn_nyq.size := by rw [h.xm_nyq.1, h.xn_nyq.1]
  have p1 : ∀ k < I.xm.size, (d.nfp : ℤ) ∣ I.xn.val 0 k := fun k hk => hp.1 k (e1 ▸ hk)
  have p2 : ∀ k < I.xm_nyq.size, (d.nfp : ℤ) ∣ I.xn_nyq.val 0 k := fun k hk => hp.2 k (e2 ▸ hk)
  have ht : 0 < ntheta d.M := by unfold ntheta; omega
  have hz : 0 < nzeta d.N := by unfold nzeta; split <;> omega
  obtain ⟨m, n, hm, hn, bc, rc, zs, ns, -, has⟩ := isSpectrum_runSt h hp ho hb k hk
  have hdv : (d.nfp : ℤ) ∣ n := by
    have e : o.xn_b.rdN k = .ok (modeN d.N k * d.nfp) := Vec.rdN_tab hk
    rw [show (runSt d s d.nsb).out.xn_b.rdN k = _ from e] at hn
    cases hn
    exact dvd_mul_left _ _
  have qC : ∀ {K : ℕ} {ms ns : ℕ → ℤ} (c t : ℕ → ℝ), (∀ k < K, (d.nfp : ℤ) ∣ ns k) →
      (surface I d.asym js).quadCos (ntheta d.M) (nzeta d.N) d.nfp (series K ms ns c t) m n =
        FC K ms ns c m n := fun c t hper =>
    quadCos_series ht hz h.nfp_pos hA.thetaB hA.zetaB hA.det hper c t hdv
  have qS : ∀ {K : ℕ} {ms ns : ℕ → ℤ} (c t : ℕ → ℝ), (∀ k < K, (d.nfp : ℤ) ∣ ns k) →
      (surface I d.asym js).quadSin (ntheta d.M) (nzeta d.N) d.nfp (series K ms ns c t) m n =
        FS K ms ns t m n := fun c t hper =>
    quadSin_series ht hz h.nfp_pos hA.thetaB hA.zetaB hA.det hper c t hdv
  have nuz : (surface I d.asym js).nu = fun _ _ => 0 := by
    funext θ ζ
    exact hA.nu θ ζ
  refine ⟨m, n, hm, hn, ns.trans ?_, bc.trans (congrArg _ (qC _ _ p2)), rc.trans (congrArg _ (qC _ _ p1)),
    zs.trans (congrArg _ (qS _ _ p1)), fun ha => ?_⟩
  · rw [nuz]
    simp [Surface.quadSin]
  · obtain ⟨bs, rs, zc, nc, -⟩ := has ha
    have on : ∀ x, onlyIf d.asym x = x := fun x => by rw [ha]; rfl
    refine ⟨nc.trans ?_, bs.trans (congrArg _ ((qS _ _ p2).trans ?_)),
      rs.trans (congrArg _ ((qS _ _ p1).trans ?_)), zc.trans (congrArg _ ((qC _ _ p1).trans ?_))⟩
    · rw [nuz]
      simp [Surface.quadCos]
    all_goals simp only [on]; rfl

/-- **C21.**  In exact arithmetic, on every selected surface whose angles are already Boozer angles and
whose harmonics fit in the output resolution: ν is zero and the output series of |B|, R and Z are the
input series, at all angles. -/
theorem C21_identity {dbg : Bool} (h : RunReady s.inp d) (hp : FieldPeriodic s.inp d.nfp)
    (ho : OriginOnce s.inp) (hreg : ∀ b < d.nsb, (surface s.inp d.asym (selected s.inp b)).Regular)
    (hf : Fits d.M d.N d.nfp s.inp.xm.size (s.inp.xm.val 0) (s.inp.xn.val 0))
    (hfq : Fits d.M d.N d.nfp s.inp.xm_nyq.size (s.inp.xm_nyq.val 0) (s.inp.xn_nyq.val 0)) :
    ∃ s' r, run dbg s = .ok (s', r) ∧ ∀ b < d.nsb,
      let S := surface s.inp d.asym (selected s.inp b)
      let o := s'.out
      let K := numModes d.M d.N
      let opt : Mat ℝ → Option (Mat ℝ) := fun A => if d.asym then some A else none
      AlreadyBoozer s.inp d.asym (selected s.inp b) →
        (∀ k < K, o.spec.numns_b.rdN k b = .ok 0 ∧ (d.asym = true → o.spec.numnc_b.rdN k b = .ok 0)) ∧
        HasSeries o.xm_b o.xn_b K b (some o.spec.bmnc_b) (opt o.spec.bmns_b) S.B ∧
        HasSeries o.xm_b o.xn_b K b (some o.spec.rmnc_b) (opt o.spec.rmns_b) S.R ∧
        HasSeries o.xm_b o.xn_b K b (opt o.spec.zmnc_b) (some o.spec.zmns_b) S.Z := by
  obtain ⟨s', r, hr, H⟩ := C21_aliasing (dbg := dbg) h hp ho hreg
  refine ⟨s', r, hr, fun b hb => ?_⟩
  intro S o K opt hA
  have H := H b hb hA
  have e' : s' = runSt d s d.nsb := by
    rw [originFirst_of h ho dbg] at hr
    cases hr
    rfl
  have e1 : s.inp.xm.size = s.inp.xn.size := by rw [h.xm.1, h.xn.1]
  have e2 : s.inp.xm_nyq.size = s.inp.xn_nyq.size := by rw [h.xm_nyq.1, h.xn_nyq.1]
  have hM : 1 ≤ d.M := h.mboz_ge
  have xm : ∀ k < K, o.xm_b.rdN k = .ok ((modeM d.N k : ℤ)) := fun k hk => by
    show s'.out.xm_b.rdN k = _
    rw [e']
    exact Vec.rdN_tab hk
  have xn : ∀ k < K, o.xn_b.rdN k = .ok (modeN d.N k * d.nfp) := fun k hk => by
    show s'.out.xn_b.rdN k = _
    rw [e']
    exact Vec.rdN_tab hk
  have isM : ∀ k < K, IsMode d.M d.N d.nfp ((modeM d.N k : ℤ), modeN d.N k * d.nfp) := fun k hk =>
    (modePair_mem d hM h.nfp_pos _).1 ⟨k, hk, rfl⟩
  have natb : ∀ n' : ℤ, -(d.N : ℤ) ≤ n' → n' ≤ d.N → (n' * d.nfp).natAbs ≤ d.N * d.nfp := by
    intro n' h1 h2
    rw [Int.natAbs_mul]
    exact Nat.mul_le_mul (by omega) (by simp)
  have hj : Fits d.M d.N d.nfp K (fun k => (modeM d.N k : ℤ)) (fun k => modeN d.N k * d.nfp) := by
    intro k hk
    obtain ⟨a1, a2, n', a3, a4, a5, -⟩ := isM k hk
    exact ⟨by simpa using a2, by
      show (modeN d.N k * (d.nfp : ℤ)).natAbs ≤ _
      rw [show modeN d.N k * (d.nfp : ℤ) = n' * d.nfp from a3]
      exact natb n' a4 a5⟩
  have hhalf : ∀ j < K, 0 ≤ (modeM d.N j : ℤ) ∧ ((modeM d.N j : ℤ) = 0 → 0 ≤ modeN d.N j * (d.nfp : ℤ)) := by
    intro j hj
    obtain ⟨a1, a2, n', a3, a4, a5, a6⟩ := isM j hj
    refine ⟨a1, fun h0 => ?_⟩
    rw [show modeN d.N j * (d.nfp : ℤ) = n' * d.nfp from a3]
    exact mul_nonneg (a6 h0) (by positivity)
  have hinj : ∀ i < K, ∀ j < K, (modeM d.N i : ℤ) = modeM d.N j →
      modeN d.N i * (d.nfp : ℤ) = modeN d.N j * d.nfp → i = j := by
    intro i _ j _ u v
    rcases Nat.lt_trichotomy i j with hlt | rfl | hlt
    · have := modePair_lex d h.nfp_pos hlt
      unfold Spec.Lex at this
      simp only at this
      omega
    · rfl
    · have := modePair_lex d h.nfp_pos hlt
      unfold Spec.Lex at this
      simp only at this
      omega
  have hall : ∀ {Kq : ℕ} {ms ns : ℕ → ℤ}, Fits d.M d.N d.nfp Kq ms ns → (∀ k < Kq, (d.nfp : ℤ) ∣ ns k) →
      ∀ k < Kq, ∃ j < K, ((modeM d.N j : ℤ) = ms k ∧ modeN d.N j * (d.nfp : ℤ) = ns k) ∨
        ((modeM d.N j : ℤ) = -ms k ∧ modeN d.N j * (d.nfp : ℤ) = -ns k) := by
    intro Kq ms ns hF hd k hk
    obtain ⟨b1, b2⟩ := hF k hk
    obtain ⟨n', hn'⟩ := hd k hk
    have hb3 : n'.natAbs ≤ d.N := by
      rw [hn', Int.natAbs_mul, Int.natAbs_natCast, Nat.mul_comm] at b2
      exact Nat.le_of_mul_le_mul_right b2 h.nfp_pos
    have mem := fun p => (modePair_mem d hM h.nfp_pos p).2
    by_cases hpos : 0 < ms k ∨ (ms k = 0 ∧ 0 ≤ n')
    · obtain ⟨j, hjK, e⟩ := mem (ms k, ns k) ⟨by simp only; omega, by simp only; omega, n',
        by rw [hn']; ring, by omega, by omega, by simp only; omega⟩
      rw [Prod.mk.injEq] at e
      exact ⟨j, hjK, .inl e⟩
    · obtain ⟨j, hjK, e⟩ := mem (-ms k, -ns k) ⟨by simp only; omega, by simp only; omega, -n',
        by rw [hn']; ring, by omega, by omega, by simp only; omega⟩
      rw [Prod.mk.injEq] at e
      exact ⟨j, hjK, .inr e⟩
  have p1 : ∀ k < s.inp.xm.size, (d.nfp : ℤ) ∣ s.inp.xn.val 0 k := fun k hk => hp.1 k (e1 ▸ hk)
  have p2 : ∀ k < s.inp.xm_nyq.size, (d.nfp : ℤ) ∣ s.inp.xn_nyq.val 0 k := fun k hk => hp.2 k (e2 ▸ hk)
  have vals : ∀ k < K, ∀ m n, o.xm_b.rdN k = .ok m → o.xn_b.rdN k = .ok n →
      m = modeM d.N k ∧ n = modeN d.N k * d.nfp := by
    intro k hk m n h1 h2
    rw [xm k hk] at h1
    rw [xn k hk] at h2
    cases h1
    cases h2
    exact ⟨rfl, rfl⟩
  have optC : ∀ {A : Mat ℝ} {k : ℕ} {Kq : ℕ} {ms ns : ℕ → ℤ} {c : ℕ → ℝ} {m n : ℤ},
      (d.asym = true → A.rdN k b = .ok (foldCos (ntheta d.M) (nzeta d.N) d.nfp Kq ms ns c m n)) →
      Coefficient (opt A) k b (foldCos (ntheta d.M) (nzeta d.N) d.nfp Kq ms ns
        (fun i => onlyIf d.asym (c i)) m n) := by
    intro A k Kq ms ns c m n hA
    show Coefficient (if d.asym then some A else none) k b _
    cases ha : d.asym
    · exact foldCos_zero (fun _ _ => rfl) m n
    · exact hA ha
  have optS : ∀ {A : Mat ℝ} {k : ℕ} {Kq : ℕ} {ms ns : ℕ → ℤ} {c : ℕ → ℝ} {m n : ℤ},
      (d.asym = true → A.rdN k b = .ok (foldSin (ntheta d.M) (nzeta d.N) d.nfp Kq ms ns c m n)) →
      Coefficient (opt A) k b (foldSin (ntheta d.M) (nzeta d.N) d.nfp Kq ms ns
        (fun i => onlyIf d.asym (c i)) m n) := by
    intro A k Kq ms ns c m n hA
    show Coefficient (if d.asym then some A else none) k b _
    cases ha : d.asym
    · exact foldSin_zero (fun _ _ => rfl) m n
    · exact hA ha
  refine ⟨fun k hk => ?_, ?_, ?_, ?_⟩
  · obtain ⟨m, n, -, -, x, -, -, -, y⟩ := H k hk
    exact ⟨x, fun ha => (y ha).1⟩
  · refine ⟨_, _, _, _, fun k hk => ?_, fun θ ζ => series_fold h.nfp_pos hfq hj hhalf hinj (hall hfq p2)
      (fun i => entry s.inp.bmnc i (selected s.inp b))
      (fun i => onlyIf d.asym (entry s.inp.bmns i (selected s.inp b))) θ ζ⟩
    obtain ⟨m, n, hm, hn, -, x, -, -, y⟩ := H k hk
    obtain ⟨rfl, rfl⟩ := vals k hk m n hm hn
    exact ⟨hm, hn, x, optS fun ha => (y ha).2.1⟩
  · refine ⟨_, _, _, _, fun k hk => ?_, fun θ ζ => series_fold h.nfp_pos hf hj hhalf hinj (hall hf p1)
      (fun i => entry s.inp.rmnc i (selected s.inp b))
      (fun i => onlyIf d.asym (entry s.inp.rmns i (selected s.inp b))) θ ζ⟩
    obtain ⟨m, n, hm, hn, -, -, x, -, y⟩ := H k hk
    obtain ⟨rfl, rfl⟩ := vals k hk m n hm hn
    exact ⟨hm, hn, x, optS fun ha => (y ha).2.2.1⟩
  · refine ⟨_, _, _, _, fun k hk => ?_, fun θ ζ => series_fold h.nfp_pos hf hj hhalf hinj (hall hf p1)
      (fun i => onlyIf d.asym (entry s.inp.zmnc i (selected s.inp b)))
      (fun i => entry s.inp.zmns i (selected s.inp b)) θ ζ⟩
    obtain ⟨m, n, hm, hn, -, -, -, x, y⟩ := H k hk
    obtain ⟨rfl, rfl⟩ := vals k hk m n hm hn
    exact ⟨hm, hn, optC fun ha => (y ha).2.2.2, x⟩

/-- **C21, one harmonic.**  If no other input mode is aliased to an output mode or its opposite, the
output harmonic is the input harmonic, whether or not the other modes fit. -/
theorem C21_harmonic {dbg : Bool} (h : RunReady s.inp d) (hp : FieldPeriodic s.inp d.nfp)
    (ho : OriginOnce s.inp) (hreg : ∀ b < d.nsb, (surface s.inp d.asym (selected s.inp b)).Regular) :
    ∃ s' r, run dbg s = .ok (s', r) ∧ ∀ b < d.nsb,
      let I := s.inp
      let o := s'.out
      let js := selected I b
      let Al := Alias (ntheta d.M) (nzeta d.N) d.nfp
      AlreadyBoozer I d.asym js → ∀ k < numModes d.M d.N, ∀ m n : ℤ,
        o.xm_b.rdN k = .ok m → o.xn_b.rdN k = .ok n →
        (∀ i < I.xm_nyq.size, I.xm_nyq.val 0 i = m → I.xn_nyq.val 0 i = n →
          (∀ i' < I.xm_nyq.size, i' ≠ i → ¬ Al (I.xm_nyq.val 0 i') (I.xn_nyq.val 0 i') m n ∧
            ¬ Al (I.xm_nyq.val 0 i') (I.xn_nyq.val 0 i') (-m) (-n)) →
          o.spec.bmnc_b.rdN k b = I.bmnc.rdN i js ∧
          (d.asym = true → ¬ (m = 0 ∧ n = 0) → o.spec.bmns_b.rdN k b = I.bmns.rdN i js)) ∧
        (∀ i < I.xm.size, I.xm.val 0 i = m → I.xn.val 0 i = n →
          (∀ i' < I.xm.size, i' ≠ i → ¬ Al (I.xm.val 0 i') (I.xn.val 0 i') m n ∧
            ¬ Al (I.xm.val 0 i') (I.xn.val 0 i') (-m) (-n)) →
          o.spec.rmnc_b.rdN k b = I.rmnc.rdN i js ∧
          (¬ (m = 0 ∧ n = 0) → o.spec.zmns_b.rdN k b = I.zmns.rdN i js) ∧
          (d.asym = true → o.spec.zmnc_b.rdN k b = I.zmnc.rdN i js ∧
            (¬ (m = 0 ∧ n = 0) → o.spec.rmns_b.rdN k b = I.rmns.rdN i js))) := by
  obtain ⟨s', r, hr, H⟩ := C21_aliasing (dbg := dbg) h hp ho hreg
  refine ⟨s', r, hr, fun b hb => ?_⟩
  intro I o js Al hA k hk m n hm hn
  obtain ⟨m', n', hm', hn', -, bc, rc, zs, has⟩ := H b hb hA k hk
  have em : m = m' := by
    have := hm.symm.trans hm'
    injection this
  have en : n = n' := by
    have := hn.symm.trans hn'
    injection this
  subst em
  subst en
  have hjs : js < d.ns := sel_lt h hb
  have hself : ¬ (m = 0 ∧ n = 0) → ¬ Al m n (-m) (-n) := by
    intro h0 hal
    have e' : s' = runSt d s d.nsb := by
      rw [originFirst_of h ho dbg] at hr
      cases hr
      rfl
    have hk' : k < d.nmodes := hk
    have e1 : o.xm_b.rdN k = .ok ((modeM d.N k : ℤ)) := by
      show s'.out.xm_b.rdN k = _
      rw [e']
      exact Vec.rdN_tab hk'
    have e2 : o.xn_b.rdN k = .ok (modeN d.N k * d.nfp) := by
      show s'.out.xn_b.rdN k = _
      rw [e']
      exact Vec.rdN_tab hk'
    rw [e1] at hm
    rw [e2] at hn
    cases hm
    cases hn
    obtain ⟨a1, a2, n', a3, a4, a5, -⟩ := (modePair_mem d h.mboz_ge h.nfp_pos _).1 ⟨k, hk', rfl⟩
    have b1 : (modeM d.N k : ℤ).natAbs < d.M := by simpa using a2
    have b2 : (modeN d.N k * (d.nfp : ℤ)).natAbs ≤ d.N * d.nfp := by
      rw [show modeN d.N k * (d.nfp : ℤ) = n' * d.nfp from a3, Int.natAbs_mul]
      exact Nat.mul_le_mul (by omega) (by simp)
    have := (alias_eq h.nfp_pos b1 b2 (m := -(modeM d.N k : ℤ)) (n := -(modeN d.N k * (d.nfp : ℤ)))
      (by omega) (by omega)).1 hal
    omega
  constructor
  · intro i hi h1 h2 hno
    have hi' : i < d.mnq := by rw [← h.xm_nyq.1]; exact hi
    refine ⟨?_, fun ha h0 => ?_⟩
    · rw [bc, foldCos_single _ hi h1 h2 hself hno]
      exact (h.bmnc.rdN 0 hi' hjs).symm
    · rw [(has ha).2.1, foldSin_single _ hi h1 h2 h0 (hself h0) hno]
      exact ((h.bmns ha).rdN 0 hi' hjs).symm
  · intro i hi h1 h2 hno
    have hi' : i < d.mnmax := by rw [← h.xm.1]; exact hi
    refine ⟨?_, fun h0 => ?_, fun ha => ⟨?_, fun h0 => ?_⟩⟩
    · rw [rc, foldCos_single _ hi h1 h2 hself hno]
      exact (h.rmnc.rdN 0 hi' hjs).symm
    · rw [zs, foldSin_single _ hi h1 h2 h0 (hself h0) hno]
      exact (h.zmns.rdN 0 hi' hjs).symm
    · rw [(has ha).2.2.2, foldCos_single _ hi h1 h2 hself hno]
      exact ((h.zmnc ha).rdN 0 hi' hjs).symm
    · rw [(has ha).2.2.1, foldSin_single _ hi h1 h2 h0 (hself h0) hno]
      exact ((h.rmns ha).rdN 0 hi' hjs).symm

end

/-! ### A concrete case -/

/-- The example with angles that are Boozer angles, and one more poloidal mode number in the output. -/
noncomputable def Ex.plain (asym : Bool) : St ℝ :=
  { Ex.st asym with inp := { Ex.inputs asym with
      mboz := 3
      lmns := Mat.tab 3 2 fun _ _ => 0
      lmnc := Mat.tab 3 2 fun _ _ => 0
      bsubumnc := Mat.tab 4 2 fun k _ => if k = 0 then 1 else 0
      bsubvmnc := Mat.tab 4 2 fun k _ => if k = 0 then 20 else 0
      bsubumns := Mat.tab 4 2 fun _ _ => 0
      bsubvmns := Mat.tab 4 2 fun _ _ => 0 } }

/-- Its sizes. -/
def Ex.plainDims (asym : Bool) : Dims := { Ex.dims asym with M := 3 }

theorem Ex.plain_ready (asym : Bool) : RunReady (Ex.plain asym).inp (Ex.plainDims asym) :=
  { Ex.ready (α := ℝ) asym with
    mboz := rfl
    mboz_ge := (by decide : (1 : ℕ) ≤ 3)
    lmns := Mat.full_tab 3 2 _
    lmnc := fun _ => Mat.full_tab 3 2 _
    bsubumnc := Mat.full_tab 4 2 _
    bsubvmnc := Mat.full_tab 4 2 _
    bsubumns := fun _ => Mat.full_tab 4 2 _
    bsubvmns := fun _ => Mat.full_tab 4 2 _
    fit_theta := (by decide : (14 : ℕ) < 2147483648)
    fit_pts := by
      have : (Ex.plainDims asym).np ≤ 84 := by cases asym <;> decide
      omega }

theorem Ex.plain_boozer (asym : Bool) {js : ℕ} (hj : js < 2) : AlreadyBoozer (Ex.plain asym).inp asym js := by
  have key : ∀ k < 4, ¬ ((Ex.vec (β := ℤ) [0, 0, 1, 2]).val 0 k = 0 ∧ (Ex.vec (β := ℤ) [0, 2, 0, -2]).val 0 k = 0) →
      k ≠ 0 := by
    intro k _ h hk
    subst hk
    exact h (by decide)
  refine ⟨fun k hk => Mat.val_tab hk hj, fun _ k hk => Mat.val_tab hk hj, fun k hk h0 => ?_, fun k hk h0 => ?_,
    fun _ k hk _ => Mat.val_tab hk hj, fun _ k hk _ => Mat.val_tab hk hj⟩
  · refine (Mat.val_tab hk hj).trans ?_
    rw [if_neg (key k hk h0)]
  · refine (Mat.val_tab hk hj).trans ?_
    rw [if_neg (key k hk h0)]

theorem Ex.plain_regular (asym : Bool) {js : ℕ} (hj : js < 2) : (surface (Ex.plain asym).inp asym js).Regular := by
  constructor
  · have e1 : (surface (Ex.plain asym).inp asym js).G = 20 := (Mat.val_tab (by decide) hj).trans (by simp)
    have e2 : (surface (Ex.plain asym).inp asym js).I = 1 := (Mat.val_tab (by decide) hj).trans (by simp)
    have e3 : (surface (Ex.plain asym).inp asym js).iota = (((js : ℤ) + 1 : ℤ) : ℝ) := by
      show (Vec.tab 2 fun j => (ofInt ((j : ℤ) + 1) : ℝ)).val 0 js = _
      rw [Vec.val_tab hj, real_ofInt]
    rw [e1, e2, e3]
    push_cast
    positivity
  · intro θ ζ
    have : 1 ≤ (surface (Ex.plain asym).inp asym js).B θ ζ := Ex.B_ge asym hj θ ζ
    linarith

/-- The conclusion holds for both surfaces of the example, in both symmetries. -/
example (dbg asym : Bool) : ∃ s' r, run dbg (Ex.plain asym) = .ok (s', r) ∧ ∀ b < 2,
    HasSeries s'.out.xm_b s'.out.xn_b 8 b (some s'.out.spec.bmnc_b) (if asym then some s'.out.spec.bmns_b else none)
      (surface (Ex.plain asym).inp asym (selected (Ex.plain asym).inp b)).B := by
  have hlt : ∀ b < 2, selected (Ex.plain asym).inp b < 2 := Ex.selected_lt asym
  obtain ⟨s', r, hr, H⟩ := C21_identity (dbg := dbg) (s := Ex.plain asym) (Ex.plain_ready asym)
    (Ex.fieldPeriodic (α := ℝ) asym) (Ex.originOnce (α := ℝ) asym) (fun b hb => Ex.plain_regular asym (hlt b hb))
    (by
      show ∀ k < 3, ((Ex.vec (β := ℤ) [0, 0, 1]).val 0 k).natAbs < 3 ∧
        ((Ex.vec (β := ℤ) [0, 2, -2]).val 0 k).natAbs ≤ 1 * 2
      decide)
    (by
      show ∀ k < 4, ((Ex.vec (β := ℤ) [0, 0, 1, 2]).val 0 k).natAbs < 3 ∧
        ((Ex.vec (β := ℤ) [0, 2, 0, -2]).val 0 k).natAbs ≤ 1 * 2
      decide)
  exact ⟨s', r, hr, fun b hb => (H b hb (Ex.plain_boozer asym (hlt b hb))).2.1⟩

/-- The hypothesis of `C21_harmonic` on a mode of the example, (m,n) = (1,0), also at a resolution at
which other input modes do not fit. -/
example : ∀ i' < 4, i' ≠ 2 → ¬ Alias (ntheta 2) (nzeta 0) 2 ((Ex.vec (β := ℤ) [0, 0, 1, 2]).val 0 i')
      ((Ex.vec (β := ℤ) [0, 2, 0, -2]).val 0 i') 1 0 ∧
    ¬ Alias (ntheta 2) (nzeta 0) 2 ((Ex.vec (β := ℤ) [0, 0, 1, 2]).val 0 i')
      ((Ex.vec (β := ℤ) [0, 2, 0, -2]).val 0 i') (-1) 0 := by
  decide

end Booz
