import Verif.Spec.Periods
import Verif.Lemmas.Periods
import Verif.Props.Translation
import Verif.Props.Convergence

/-!
# C88: the declared number of field periods
-/

open Finset

namespace Booz
open Spec

theorem modeN_nonneg {N j : ℕ} (h : modeM N j = 0) : 0 ≤ modeN N j := by
  unfold modeM at h
  have : j + N < 2 * N + 1 := by
    by_contra hc
    have := Nat.div_pos (Nat.le_of_not_lt hc) (by omega)
    omega
  unfold modeN
  rw [Nat.mod_eq_of_lt this]
  omega

theorem nzeta_turns {k N N' : ℕ} (hN : 1 ≤ N) (h : 2 * N' + 1 = k * (2 * N + 1)) : nzeta N' = k * nzeta N := by
  have hk : 1 ≤ k := by
    rcases Nat.eq_zero_or_pos k with h0 | h0
    · rw [h0] at h; omega
    · exact h0
  have hN' : N' ≠ 0 := by
    have : 1 * (2 * N + 1) ≤ k * (2 * N + 1) := Nat.mul_le_mul_right _ hk
    omega
  unfold nzeta
  rw [if_neg hN', if_neg (by omega), show 4 * N + 2 = 2 * (2 * N + 1) by omega, mul_left_comm, ← h]
  omega

/-- **C88, exactly.**  Let the equilibrium have `nfp = k f` field periods, `k` odd.  A run that declares only
`f` of them, at the toroidal resolution with `2 N' + 1 = k (2 N + 1)`, gives the spectrum of the run that declares
all of them, padded with zeros: its modes whose toroidal number is a multiple of `nfp` are modes of the other run and have
the same amplitudes, all others have amplitudes exactly 0; no mode of the other run is missing; the profiles are the same. -/
theorem C88_exact {s s' : St ℝ} {d : Dims} {dbg : Bool} {k f nt nq N' : ℕ} (h : RunReady s.inp d)
    (hp : FieldPeriodic s.inp d.nfp) (ho : OriginOnce s.inp)
    (_hreg : ∀ b < d.nsb, (surface s.inp d.asym (selected s.inp b)).Regular) (hN : 1 ≤ d.N)
    (hk : d.nfp = k * f) (hN' : 2 * N' + 1 = k * (2 * d.N + 1)) (hs : Redeclares s s' f nt nq N')
    (h' : RunReady s'.inp { d with nfp := f, ntor := nt, nq := nq, N := N' }) :
    ∃ s₁ r₁ s₂ r₂, run dbg s = .ok (s₁, r₁) ∧ run dbg s' = .ok (s₂, r₂) ∧ SameProfiles s₁.out s₂.out ∧
      (∀ j < numModes d.M N', ∃ m n, ListsMode s₂.out j m n ∧
        ((d.nfp : ℤ) ∣ n → ∃ i < numModes d.M d.N, ListsMode s₁.out i m n ∧ ∀ b < d.nsb,
          (amplitudes s₂.out d.asym).map (fun A => A.rdN j b) = (amplitudes s₁.out d.asym).map (fun A => A.rdN i b)) ∧
        (¬ (d.nfp : ℤ) ∣ n → ∀ b < d.nsb, ∀ A ∈ amplitudes s₂.out d.asym, A.rdN j b = .ok 0)) ∧
      (∀ i < numModes d.M d.N, ∀ m n, ListsMode s₁.out i m n → ∃ j < numModes d.M N', ListsMode s₂.out j m n) := by
  unfold Redeclares at hs
  have hkpos : 1 ≤ k := by
    rcases Nat.eq_zero_or_pos k with h0 | h0
    · have := h.nfp_pos; rw [hk, h0] at this; omega
    · exact h0
  have hf : 1 ≤ f := h'.nfp_pos
  have hf0 : (f : ℤ) ≠ 0 := by positivity
  have hk0 : (k : ℤ) ≠ 0 := by positivity
  have ho' : OriginOnce s'.inp := by rw [hs]; exact ho
  have hp' : FieldPeriodic s'.inp f := by
    rw [hs]
    have : (f : ℤ) ∣ d.nfp := ⟨k, by rw [hk]; push_cast; ring⟩
    exact ⟨fun i hi => this.trans (hp.1 i hi), fun i hi => this.trans (hp.2 i hi)⟩
  have sS : ∀ b, surface s'.inp d.asym (selected s'.inp b) = surface s.inp d.asym (selected s.inp b) := by
    intro b; rw [hs]; rfl
  have x1 : ∀ i < numModes d.M d.N, ListsMode (runSt d s d.nsb).out i (modeM d.N i) (modeN d.N i * d.nfp) :=
    fun i hi => ⟨Vec.rdN_tab hi, Vec.rdN_tab hi⟩
  have x2 : ∀ j < numModes d.M N', ListsMode (runSt { d with nfp := f, ntor := nt, nq := nq, N := N' } s' d.nsb).out j
      (modeM N' j) (modeN N' j * f) := fun j hj => ⟨Vec.rdN_tab hj, Vec.rdN_tab hj⟩
  have sel : ∀ b, surf s'.inp b = surf s.inp b := by intro b; rw [hs]; rfl
  refine ⟨_, _, _, _, originFirst_of h ho dbg, originFirst_of h' ho' dbg, ?_, fun j hj => ?_, fun i hi m n hmn => ?_⟩
  · have e1 : ∀ js, curI s'.inp { d with nfp := f, ntor := nt, nq := nq, N := N' } js = curI s.inp d js := by
      intro js
      rw [curI_real h' ho', curI_real h ho, hs]
      rfl
    have e2 : ∀ js, curG s'.inp { d with nfp := f, ntor := nt, nq := nq, N := N' } js = curG s.inp d js := by
      intro js
      rw [curG_real h' ho', curG_real h ho, hs]
      rfl
    unfold SameProfiles runSt initSt
    simp only [e1, e2, sel]
    rw [hs]
    simp only [and_self]
  · refine ⟨_, _, x2 j hj, ?_⟩
    have dv : (d.nfp : ℤ) ∣ modeN N' j * f ↔ (k : ℤ) ∣ modeN N' j := by
      rw [hk]
      push_cast
      exact mul_dvd_mul_iff_right hf0
    rw [dv]
    -- the harmonics of the second run
    have quad : ∀ b < d.nsb, ∀ q, PerF d.nfp q →
        let S := surface s.inp d.asym (selected s.inp b)
        (S.quadCos (ntheta d.M) (nzeta N') f q (modeM N' j) (modeN N' j * f) =
          if (k : ℤ) ∣ modeN N' j then S.quadCos (ntheta d.M) (nzeta d.N) d.nfp q (modeM N' j) (modeN N' j * f) else 0) ∧
        (S.quadSin (ntheta d.M) (nzeta N') f q (modeM N' j) (modeN N' j * f) =
          if (k : ℤ) ∣ modeN N' j then S.quadSin (ntheta d.M) (nzeta d.N) d.nfp q (modeM N' j) (modeN N' j * f) else 0) := by
      intro b hb q hq S
      obtain ⟨pl, pw, -⟩ := surf_per h hp d.asym (selected s.inp b)
      rw [nzeta_turns hN hN']
      rw [hk] at pl pw hq ⊢
      exact quad_turns (nzeta_pos d.N) hkpos hf pl pw hq _ _
    constructor
    · intro hd
      obtain ⟨n0, hn0⟩ := hd
      have hb1 := modeN_natAbs_le N' j
      have nb : n0.natAbs ≤ d.N := by
        rw [hn0, Int.natAbs_mul, Int.natAbs_natCast] at hb1
        by_contra hc
        have : k * (d.N + 1) ≤ k * n0.natAbs := Nat.mul_le_mul_left _ (by omega)
        have e1 : k * (2 * d.N + 1) = 2 * (k * d.N) + k := by ring
        have e2 : k * (d.N + 1) = k * d.N + k := by ring
        omega
      have hm : modeM N' j < d.M :=
        modeM_lt (d := { d with nfp := f, ntor := nt, nq := nq, N := N' }) h.mboz_ge hj
      obtain ⟨i, hi, im, iN⟩ := mode_listed h.mboz_ge hm nb (fun h0 => by
        have := modeN_nonneg h0
        rw [hn0] at this
        exact nonneg_of_mul_nonneg_right this (by positivity))
      have en : modeN d.N i * d.nfp = modeN N' j * f := by
        rw [iN, hn0, hk]
        push_cast
        ring
      have y := x1 i hi
      rw [im, en] at y
      refine ⟨i, hi, y, fun b hb => ?_⟩
      have a := spectrum_at h hp ho hb hi
      have c := spectrum_at (b := b) (k := j) h' hp' ho' hb hj
      simp only at a c
      rw [sS] at c
      rw [im, en] at a
      obtain ⟨a1, a2, a3, a4, a5, a6⟩ := a
      obtain ⟨c1, c2, c3, c4, c5, c6⟩ := c
      obtain ⟨pl, pw, pR, pZ, pB⟩ := surf_per h hp d.asym (selected s.inp b)
      have Q := quad b hb
      simp only [if_pos (show (k : ℤ) ∣ modeN N' j from ⟨n0, hn0⟩)] at Q
      have q1 := Q _ pB
      have q2 := Q _ pR
      have q3 := Q _ pZ
      have q4 := Q _ (nu_per pl pw)
      have q5 := Q _ (jac_per pB)
      have ok : ∀ {x y : ℝ}, x = y → (Except.ok x : Res ℝ) = .ok y := fun e => congrArg _ e
      exact amplitudes_map id (c1.trans ((ok q1.1).trans a1.symm)) (c2.trans ((ok q2.1).trans a2.symm))
        (c3.trans ((ok q3.2).trans a3.symm)) (c4.trans ((ok q4.2).trans a4.symm)) (c5.trans ((ok q5.1).trans a5.symm)) fun has => by
        obtain ⟨a6, a7, a8, a9, a10⟩ := a6 has
        obtain ⟨c6, c7, c8, c9, c10⟩ := c6 has
        exact ⟨c6.trans ((ok q1.2).trans a6.symm), c7.trans ((ok q2.2).trans a7.symm), c8.trans ((ok q3.1).trans a8.symm),
          c9.trans ((ok q4.1).trans a9.symm), c10.trans ((ok q5.2).trans a10.symm)⟩
    · intro hd b hb A hA
      have c := spectrum_at (b := b) (k := j) h' hp' ho' hb hj
      simp only at c
      rw [sS] at c
      obtain ⟨c1, c2, c3, c4, c5, c6⟩ := c
      obtain ⟨pl, pw, pR, pZ, pB⟩ := surf_per h hp d.asym (selected s.inp b)
      have Q := quad b hb
      simp only [if_neg hd] at Q
      have q1 := Q _ pB
      have q2 := Q _ pR
      have q3 := Q _ pZ
      have q4 := Q _ (nu_per pl pw)
      have q5 := Q _ (jac_per pB)
      have ok : ∀ {x y : ℝ}, x = y → (Except.ok x : Res ℝ) = .ok y := fun e => congrArg _ e
      unfold amplitudes at hA
      rw [List.mem_append] at hA
      rcases hA with hA | hA
      · simp only [List.mem_cons, List.not_mem_nil, or_false] at hA
        rcases hA with rfl | rfl | rfl | rfl | rfl
        · exact c1.trans (ok q1.1)
        · exact c2.trans (ok q2.1)
        · exact c3.trans (ok q3.2)
        · exact c4.trans (ok q4.2)
        · exact c5.trans (ok q5.1)
      · split at hA
        · rename_i has
          obtain ⟨c6, c7, c8, c9, c10⟩ := c6 has
          simp only [List.mem_cons, List.not_mem_nil, or_false] at hA
          rcases hA with rfl | rfl | rfl | rfl | rfl
          · exact c6.trans (ok q1.2)
          · exact c7.trans (ok q2.2)
          · exact c8.trans (ok q3.1)
          · exact c9.trans (ok q4.1)
          · exact c10.trans (ok q5.2)
        · cases hA
  · obtain ⟨y1, y2⟩ := x1 i hi
    have e1 : m = (modeM d.N i : ℤ) := Except.ok.inj (hmn.1.symm.trans y1)
    have e2 : n = modeN d.N i * d.nfp := Except.ok.inj (hmn.2.symm.trans y2)
    have hb1 := modeN_natAbs_le d.N i
    have hm : modeM d.N i < d.M := modeM_lt h.mboz_ge hi
    obtain ⟨j, hj, jm, jN⟩ := mode_listed (N := N') (n := modeN d.N i * k) h.mboz_ge hm (by
      rw [Int.natAbs_mul, Int.natAbs_natCast]
      have : (modeN d.N i).natAbs * k ≤ d.N * k := Nat.mul_le_mul_right _ hb1
      have e1 : k * (2 * d.N + 1) = 2 * (d.N * k) + k := by ring
      omega) (fun h0 => mul_nonneg (modeN_nonneg h0) (by positivity))
    have y := x2 j hj
    rw [jm, jN] at y
    refine ⟨j, hj, ?_⟩
    rw [e1, e2, hk]
    have : modeN d.N i * ((k * f : ℕ) : ℤ) = modeN d.N i * k * f := by push_cast; ring
    rw [this]
    exact y

/-! ### Any ratio, in the limit -/

/-- The integrals that the amplitudes approximate, in the same order. -/
noncomputable def targets (S : Surface) (asym : Bool) (m n : ℤ) : List ℝ :=
  [S.integralCos S.B m n, S.integralCos S.R m n, S.integralSin S.Z m n, S.integralSin S.nu m n,
      S.integralCos S.jacobian m n] ++
    if asym then [S.integralSin S.B m n, S.integralSin S.R m n, S.integralCos S.Z m n, S.integralCos S.nu m n,
      S.integralSin S.jacobian m n] else []

theorem approx_list {o : Outputs ℝ} {S : Surface} {asym : Bool} {k b : ℕ} {m n : ℤ} {e : ℝ}
    (h : Approximates o S asym k b m n e) :
    List.Forall₂ (fun A y => Near A k b y e) (amplitudes o asym) (targets S asym m n) := by
  unfold amplitudes targets
  cases asym with
  | false => exact .cons h.bmnc (.cons h.rmnc (.cons h.zmns (.cons h.numns (.cons h.gmnc .nil))))
  | true =>
    exact .cons h.bmnc (.cons h.rmnc (.cons h.zmns (.cons h.numns (.cons h.gmnc (.cons (h.bmns rfl) (.cons (h.rmns rfl)
      (.cons (h.zmnc rfl) (.cons (h.numnc rfl) (.cons (h.gmns rfl) .nil)))))))))

/-- A number bounded by an error term for arbitrarily fine grids is 0. -/
theorem zero_of_grid {x C : ℝ} {k : ℕ} (hk : 1 ≤ k)
    (h : ∀ nt nz : ℕ, 1 ≤ nt → 1 ≤ nz → |x| ≤ C * ((1 / (nt : ℝ)) ^ 1 + (1 / ((k * nz : ℕ) : ℝ)) ^ 1)) : x = 0 := by
  by_contra hx
  have hx : 0 < |x| := abs_pos.mpr hx
  obtain ⟨n, hn⟩ := exists_nat_gt (2 * |C| / |x|)
  have hn0 : 0 < (n : ℝ) := lt_of_le_of_lt (by positivity) hn
  have hn1 : 1 ≤ n := by exact_mod_cast hn0
  have h1 := h n n hn1 hn1
  have h2 : (1 : ℝ) / ((k * n : ℕ) : ℝ) ≤ 1 / n := by
    apply one_div_le_one_div_of_le hn0
    have : 1 * n ≤ k * n := Nat.mul_le_mul_right _ hk
    rw [one_mul] at this
    exact_mod_cast this
  rw [pow_one, pow_one] at h1
  have h3 : C * (1 / (n : ℝ) + 1 / ((k * n : ℕ) : ℝ)) ≤ |C| * (2 / n) := by
    have e : (0 : ℝ) ≤ 1 / (n : ℝ) + 1 / ((k * n : ℕ) : ℝ) := by positivity
    refine (mul_le_mul_of_nonneg_right (le_abs_self C) e).trans (mul_le_mul_of_nonneg_left ?_ (abs_nonneg C))
    calc _ ≤ 1 / (n : ℝ) + 1 / n := by linarith
      _ = 2 / n := by ring
  rw [div_lt_iff₀ hx] at hn
  have : |x| ≤ |C| * (2 / n) := h1.trans h3
  have h4 : |x| * n ≤ |C| * 2 := by
    calc |x| * n ≤ |C| * (2 / n) * n := mul_le_mul_of_nonneg_right this hn0.le
      _ = |C| * 2 := by field_simp
  linarith

/-- **C88, any number of field periods.**  Let the equilibrium have `nfp = k f` field periods, `k` even or odd, and consider
runs that declare `nfp` of them and runs that declare `f` of them.  For every order `p` and every mode (m, n) there is one
constant `C` such that at every resolution (the toroidal ones chosen independently) the amplitudes of
the two runs differ by at most `C` times the sum of the two quadrature errors, and for toroidal numbers that are no multiples
of `nfp` the amplitudes of the second are at most `C` times its quadrature error. -/
theorem C88_limit {s : St ℝ} {d : Dims} {k f nt nq : ℕ} (h : RunReady s.inp d)
    (hp : FieldPeriodic s.inp d.nfp) (ho : OriginOnce s.inp)
    (hreg : ∀ b < d.nsb, (surface s.inp d.asym (selected s.inp b)).Regular) (hk : d.nfp = k * f)
    {s0 : St ℝ} (hs0 : Redeclares s s0 f nt nq d.N) (h0 : RunReady s0.inp { d with nfp := f, ntor := nt, nq := nq })
    (m n : ℤ) {p : ℕ} (hp1 : 1 ≤ p) :
    ∃ C, ∀ (M N N' : ℕ) (s1 s2 : St ℝ) (dbg : Bool), s1.inp = { s.inp with mboz := M, nboz := N } →
      Redeclares s1 s2 f nt nq N' → RunReady s1.inp { d with M := M, N := N } →
      RunReady s2.inp { d with nfp := f, ntor := nt, nq := nq, M := M, N := N' } →
      ∃ s₁ r₁ s₂ r₂, run dbg s1 = .ok (s₁, r₁) ∧ run dbg s2 = .ok (s₂, r₂) ∧
        ∀ b < d.nsb, ∀ j < numModes M N', ListsMode s₂.out j m n →
          ((d.nfp : ℤ) ∣ n → ∀ i < numModes M N, ListsMode s₁.out i m n →
            AmplitudesNear s₁.out s₂.out d.asym i j b (C * (gridError M N p + gridError M N' p))) ∧
          (¬ (d.nfp : ℤ) ∣ n → ∀ A ∈ amplitudes s₂.out d.asym, Near A j b 0 (C * gridError M N' p)) := by
  unfold Redeclares at hs0
  have hkpos : 1 ≤ k := by
    rcases Nat.eq_zero_or_pos k with h0 | h0
    · have := h.nfp_pos; rw [hk, h0] at this; omega
    · exact h0
  have hf : 1 ≤ f := h0.nfp_pos
  have hf0 : (f : ℤ) ≠ 0 := by positivity
  have ho0 : OriginOnce s0.inp := by rw [hs0]; exact ho
  have hp0 : FieldPeriodic s0.inp f := by
    rw [hs0]
    have : (f : ℤ) ∣ d.nfp := ⟨k, by rw [hk]; push_cast; ring⟩
    exact ⟨fun i hi => this.trans (hp.1 i hi), fun i hi => this.trans (hp.2 i hi)⟩
  have sS : ∀ b, surface s0.inp d.asym (selected s0.inp b) = surface s.inp d.asym (selected s.inp b) := by
    intro b; rw [hs0]; rfl
  have hreg0 : ∀ b < d.nsb, (surface s0.inp d.asym (selected s0.inp b)).Regular := fun b hb => by
    rw [sS]; exact hreg b hb
  obtain ⟨C1, -, H1⟩ := C52_convergence h hp ho hreg m n hp1
  obtain ⟨C2, -, H2⟩ := C52_convergence (d := { d with nfp := f, ntor := nt, nq := nq }) h0 hp0 ho0 hreg0 m n hp1
  obtain ⟨C3, H3, -⟩ := C52_convergence (d := { d with nfp := f, ntor := nt, nq := nq }) h0 hp0 ho0 hreg0 m n (le_refl 1)
  refine ⟨max |C1| |C2|, fun M N N' s1 s2 dbg e1 e2 r1 r2 => ?_⟩
  obtain ⟨s₁, rp₁, g1, G1⟩ := H1 M N s1 dbg e1 r1
  obtain ⟨s₂, rp₂, g2, G2⟩ := H2 M N' s2 dbg (by unfold Redeclares at e2; rw [e2, e1, hs0]) r2
  refine ⟨s₁, rp₁, s₂, rp₂, g1, g2, fun b hb j hj hl => ⟨fun _ i hi hi' => ?_, fun hd => ?_⟩⟩
  · have a1 := approx_list (G1 b hb i hi hi'.1 hi'.2)
    have a2 := approx_list (G2 b hb j hj hl.1 hl.2)
    rw [sS] at a2
    intro t A A' hA hA'
    obtain ⟨l1, k1⟩ := List.forall₂_iff_get.mp a1
    obtain ⟨l2, k2⟩ := List.forall₂_iff_get.mp a2
    obtain ⟨t1, rfl⟩ := List.getElem?_eq_some_iff.mp hA
    obtain ⟨t2, rfl⟩ := List.getElem?_eq_some_iff.mp hA'
    obtain ⟨x, hx, bx⟩ := k1 t t1 (l1 ▸ t1)
    obtain ⟨x', hx', bx'⟩ := k2 t t2 (l1 ▸ t1)
    refine ⟨x, x', hx, hx', ?_⟩
    have p1 : 0 ≤ gridError M N p := by unfold gridError; positivity
    have p2 : 0 ≤ gridError M N' p := by unfold gridError; positivity
    have u1 : C1 * gridError M N p ≤ max |C1| |C2| * gridError M N p :=
      mul_le_mul_of_nonneg_right ((le_abs_self _).trans (le_max_left _ _)) p1
    have u2 : C2 * gridError M N' p ≤ max |C1| |C2| * gridError M N' p :=
      mul_le_mul_of_nonneg_right ((le_abs_self _).trans (le_max_right _ _)) p2
    rw [mul_add]
    rw [abs_le] at bx bx' ⊢
    simp only [List.get_eq_getElem] at bx bx'
    constructor <;> linarith [bx.1, bx.2, bx'.1, bx'.2]
  · have hfn : (f : ℤ) ∣ n := by
      have : s₂.out.xn_b.rdN j = .ok (modeN N' j * f) := (run_modes r2 (by
        unfold Redeclares at e2; rw [e2, e1]; exact ho) g2 hj).2
      have e : n = modeN N' j * f := Except.ok.inj (hl.2.symm.trans this)
      exact ⟨_, e.trans (mul_comm _ _)⟩
    obtain ⟨n1, rfl⟩ := hfn
    have hd' : ¬ (k : ℤ) ∣ n1 := by
      intro hc
      apply hd
      rw [hk]
      push_cast
      rw [mul_comm]
      exact mul_dvd_mul_left _ hc
    obtain ⟨pl, pw, pR, pZ, pB⟩ := surf_per h hp d.asym (selected s.inp b)
    have key : ∀ q ∈ [(surface s.inp d.asym (selected s.inp b)).B, (surface s.inp d.asym (selected s.inp b)).R,
          (surface s.inp d.asym (selected s.inp b)).Z, (surface s.inp d.asym (selected s.inp b)).nu,
          (surface s.inp d.asym (selected s.inp b)).jacobian], PerF d.nfp q →
        (surface s.inp d.asym (selected s.inp b)).integralCos q m (f * n1) = 0 ∧
        (surface s.inp d.asym (selected s.inp b)).integralSin q m (f * n1) = 0 := by
      intro q hq hper
      have K := H3 b hb ⟨n1, rfl⟩
      simp only at K
      rw [sS] at K
      have K := K q hq
      have Z : ∀ nt nz : ℕ, 1 ≤ nz → _ := fun nt nz hz =>
        quad_turns (S := surface s.inp d.asym (selected s.inp b)) (nt := nt) (nz := nz) (q := q) hz hkpos hf
          (by rw [← hk]; exact pl) (by rw [← hk]; exact pw) (by rw [← hk]; exact hper) m n1
      simp only [if_neg hd', mul_comm n1 (f : ℤ)] at Z
      constructor
      · refine zero_of_grid (C := C3) hkpos fun nt nz h1 h2 => ?_
        have := (K nt (k * nz) h1 (Nat.mul_pos hkpos h2)).1
        rwa [(Z nt nz h2).1, zero_sub, abs_neg] at this
      · refine zero_of_grid (C := C3) hkpos fun nt nz h1 h2 => ?_
        have := (K nt (k * nz) h1 (Nat.mul_pos hkpos h2)).2
        rwa [(Z nt nz h2).2, zero_sub, abs_neg] at this
    have a2 := approx_list (G2 b hb j hj hl.1 hl.2)
    rw [sS] at a2
    have k1 := key _ (by simp) pB
    have k2 := key _ (by simp) pR
    have k3 := key _ (by simp) pZ
    have k4 := key _ (by simp) (nu_per pl pw)
    have k5 := key _ (by simp) (jac_per pB)
    have z : ∀ y ∈ targets (surface s.inp d.asym (selected s.inp b)) d.asym m (f * n1), y = 0 := by
      intro y hy
      unfold targets at hy
      rw [List.mem_append] at hy
      rcases hy with hy | hy
      · simp only [List.mem_cons, List.not_mem_nil, or_false, k1, k2, k3, k4, k5, or_self] at hy
        exact hy
      · split at hy
        · simp only [List.mem_cons, List.not_mem_nil, or_false, k1, k2, k3, k4, k5, or_self] at hy
          exact hy
        · cases hy
    intro A hA
    obtain ⟨l2, K2⟩ := List.forall₂_iff_get.mp a2
    obtain ⟨t, ht, rfl⟩ := List.mem_iff_getElem.mp hA
    obtain ⟨x, hx, bx⟩ := K2 t ht (l2 ▸ ht)
    refine ⟨x, hx, ?_⟩
    rw [z _ (List.get_mem _ _)] at bx
    have p2 : 0 ≤ gridError M N' p := by unfold gridError; positivity
    exact bx.trans (mul_le_mul_of_nonneg_right ((le_abs_self _).trans (le_max_right _ _)) p2)

/-! ### Non-vacuity -/

namespace Ex

/-- The example with three field periods, declared as `f` of them. -/
noncomputable def triple (asym : Bool) (f r N : ℕ) : St ℝ :=
  { Ex.st asym with inp := { Ex.inputs asym with
      nfp := some (f : ℤ), ntor := some (r : ℤ), ntor_nyq := some (r : ℤ), nboz := N,
      xn := vec [0, 3, -3], xn_nyq := vec [0, 3, 0, -3] } }

def tripleDims (asym : Bool) (f r N : ℕ) : Dims := { Ex.dims asym with nfp := f, ntor := r, nq := r, N := N }

theorem triple_ready (asym : Bool) : RunReady (triple asym 3 1 1).inp (tripleDims asym 3 1 1) := by
  have b := Ex.ready (α := ℝ) asym
  exact { b with
    nfp := rfl, nfp_pos := by show 1 ≤ 3; omega
    ntor := rfl, ntor_nyq := rfl, nboz := rfl
    xn := full_vec _, xn_nyq := full_vec _
    xn_range := (by decide : ∀ k, k < 3 → (Vec.val 0 (vec (β := Int) [0, 3, -3]) k).natAbs / 3 ≤ 1)
    xn_int := (by decide : ∀ k, k < 3 → (Vec.val 0 (vec (β := Int) [0, 3, -3]) k).natAbs < 2147483648)
    xn_nyq_range := (by decide : ∀ k, k < 4 → (Vec.val 0 (vec (β := Int) [0, 3, 0, -3]) k).natAbs / 3 ≤ 1)
    xn_nyq_int := (by decide : ∀ k, k < 4 → (Vec.val 0 (vec (β := Int) [0, 3, 0, -3]) k).natAbs < 2147483648)
    fit_ntor := by show 1 < 2147483647; omega
    fit_nq := by show 1 < 2147483647; omega
    fit_zeta := by show 2 * (2 * 1 + 1) < 2147483648; omega
    fit_pts := by cases asym <;> decide
    fit_nfp := by show 3 * 6 < 2147483648; omega }

theorem triple_ready' (asym : Bool) : RunReady (triple asym 1 3 4).inp (tripleDims asym 1 3 4) := by
  have b := Ex.ready (α := ℝ) asym
  exact { b with
    nfp := rfl, nfp_pos := le_rfl
    ntor := rfl, ntor_nyq := rfl, nboz := rfl
    xn := full_vec _, xn_nyq := full_vec _
    xn_range := (by decide : ∀ k, k < 3 → (Vec.val 0 (vec (β := Int) [0, 3, -3]) k).natAbs / 1 ≤ 3)
    xn_int := (by decide : ∀ k, k < 3 → (Vec.val 0 (vec (β := Int) [0, 3, -3]) k).natAbs < 2147483648)
    xn_nyq_range := (by decide : ∀ k, k < 4 → (Vec.val 0 (vec (β := Int) [0, 3, 0, -3]) k).natAbs / 1 ≤ 3)
    xn_nyq_int := (by decide : ∀ k, k < 4 → (Vec.val 0 (vec (β := Int) [0, 3, 0, -3]) k).natAbs < 2147483648)
    fit_ntor := by show 3 < 2147483647; omega
    fit_nq := by show 3 < 2147483647; omega
    fit_zeta := by show 2 * (2 * 4 + 1) < 2147483648; omega
    fit_pts := by cases asym <;> decide
    fit_nfp := by show 1 * 18 < 2147483648; omega }

theorem triple_periodic (asym : Bool) (f r N : ℕ) : FieldPeriodic (triple asym f r N).inp 3 :=
  ⟨(by decide : ∀ k < 3, (3 : Int) ∣ Vec.val 0 (vec (β := Int) [0, 3, -3]) k),
   (by decide : ∀ k < 4, (3 : Int) ∣ Vec.val 0 (vec (β := Int) [0, 3, 0, -3]) k)⟩

theorem triple_origin (asym : Bool) (f r N : ℕ) : OriginOnce (triple asym f r N).inp :=
  (by decide : ∀ k < 4, (Vec.val 0 (vec (β := Int) [0, 0, 1, 2]) k = 0 ∧
    Vec.val 0 (vec (β := Int) [0, 3, 0, -3]) k = 0) ↔ k = 0)

/-- |B| is that of the example at another toroidal angle. -/
theorem triple_regular (asym : Bool) (f r N : ℕ) {js : ℕ} (hj : js < 2) :
    (surface (triple asym f r N).inp asym js).Regular := by
  obtain ⟨h1, h2⟩ := Ex.regular asym hj
  refine ⟨h1, fun θ ζ => ?_⟩
  have e : (surface (triple asym f r N).inp asym js).B θ ζ =
      (surface (Ex.inputs (α := ℝ) asym) asym js).B θ (3 / 2 * ζ) := by
    have n3 : ∀ k < 4, ((Vec.val 0 (vec (β := ℤ) [0, 3, 0, -3]) k : ℤ) : ℝ) * ζ =
        ((Vec.val 0 (vec (β := ℤ) [0, 2, 0, -2]) k : ℤ) : ℝ) * (3 / 2 * ζ) := by
      intro k hk
      have e : 2 * Vec.val 0 (vec (β := ℤ) [0, 3, 0, -3]) k = 3 * Vec.val 0 (vec (β := ℤ) [0, 2, 0, -2]) k :=
        (by decide : ∀ k < 4, 2 * Vec.val 0 (vec (β := ℤ) [0, 3, 0, -3]) k = 3 * Vec.val 0 (vec (β := ℤ) [0, 2, 0, -2]) k) k hk
      have e : (2 : ℝ) * ((Vec.val 0 (vec (β := ℤ) [0, 3, 0, -3]) k : ℤ) : ℝ) =
        3 * ((Vec.val 0 (vec (β := ℤ) [0, 2, 0, -2]) k : ℤ) : ℝ) := by exact_mod_cast e
      linear_combination (ζ / 2) * e
    have e3 : (triple asym f r N).inp.xn_nyq = vec [0, 3, 0, -3] := rfl
    have e2 : (Ex.inputs (α := ℝ) asym).xn_nyq = vec [0, 2, 0, -2] := rfl
    have e4 : Array.size (triple asym f r N).inp.xm_nyq = 4 := rfl
    have e5 : Array.size (Ex.inputs (α := ℝ) asym).xm_nyq = 4 := rfl
    simp only [surface, series, e2, e3, e4, e5]
    refine sum_congr rfl fun k hk => ?_
    rw [n3 k (mem_range.1 hk)]
    rfl
  rw [e]
  exact h2 θ _

end Ex

/-- Three field periods declared as one. -/
example (asym dbg : Bool) : ∃ s₁ r₁ s₂ r₂, run dbg (Ex.triple asym 3 1 1) = .ok (s₁, r₁) ∧
    run dbg (Ex.triple asym 1 3 4) = .ok (s₂, r₂) ∧ SameProfiles s₁.out s₂.out ∧
    ∀ j < numModes 2 4, ∃ m n, ListsMode s₂.out j m n ∧
      ((3 : ℤ) ∣ n → ∃ i < numModes 2 1, ListsMode s₁.out i m n ∧ ∀ b < 2,
        (amplitudes s₂.out asym).map (fun A => A.rdN j b) = (amplitudes s₁.out asym).map (fun A => A.rdN i b)) ∧
      (¬ (3 : ℤ) ∣ n → ∀ b < 2, ∀ A ∈ amplitudes s₂.out asym, A.rdN j b = .ok 0) := by
  obtain ⟨s₁, r₁, s₂, r₂, h1, h2, h3, h4, -⟩ := C88_exact (dbg := dbg) (s' := Ex.triple asym 1 3 4) (k := 3) (f := 1) (nt := 3) (nq := 3)
    (N' := 4) (Ex.triple_ready asym) (Ex.triple_periodic asym 3 1 1) (Ex.triple_origin asym 3 1 1)
    (fun b hb => Ex.triple_regular asym 3 1 1 (Ex.selected_lt asym b hb)) le_rfl rfl rfl rfl (Ex.triple_ready' asym)
  exact ⟨s₁, r₁, s₂, r₂, h1, h2, h3, h4⟩

/-- The example declared as having one field period. -/
theorem Ex.one_ready (asym : Bool) {M N : ℕ} (hM : 1 ≤ M) (h : (4 * M + 2) * (4 * N + 2) < 2 ^ 30) :
    RunReady { Ex.inputs (α := ℝ) asym with nfp := some ((1 : ℕ) : ℤ), ntor := some ((2 : ℕ) : ℤ), ntor_nyq := some ((2 : ℕ) : ℤ), mboz := M, nboz := N }
      { Ex.dims asym with nfp := 1, ntor := 2, nq := 2, M := M, N := N } := by
  have b := Ex.ready_res asym hM h
  exact { b with
    nfp := rfl, nfp_pos := le_rfl
    ntor := rfl, ntor_nyq := rfl
    xn_range := (by decide : ∀ k, k < 3 → (Vec.val 0 (vec (β := Int) [0, 2, -2]) k).natAbs / 1 ≤ 2)
    xn_nyq_range := (by decide : ∀ k, k < 4 → (Vec.val 0 (vec (β := Int) [0, 2, 0, -2]) k).natAbs / 1 ≤ 2)
    fit_ntor := by show 2 < 2147483647; omega
    fit_nq := by show 2 < 2147483647; omega
    fit_nfp := by
      have := b.fit_nfp
      have e : 2 * ({ Ex.dims asym with M := M, N := N } : Dims).nz < 2147483648 := this
      show 1 * ({ Ex.dims asym with M := M, N := N } : Dims).nz < 2147483648
      omega }

/-- Two field periods declared as one, at independent toroidal resolutions: modes with odd n die out. -/
example (asym : Bool) : ∃ C, ∀ (M N N' : ℕ), 1 ≤ M → (4 * M + 2) * (4 * N + 2) < 2 ^ 30 → (4 * M + 2) * (4 * N' + 2) < 2 ^ 30 → ∀ dbg,
    let s1 : St ℝ := { Ex.st asym with inp := { Ex.inputs asym with mboz := M, nboz := N } }
    let s2 : St ℝ := { s1 with inp := { s1.inp with nfp := some ((1 : ℕ) : ℤ), ntor := some ((2 : ℕ) : ℤ), ntor_nyq := some ((2 : ℕ) : ℤ), nboz := N' } }
    ∃ s₁ r₁ s₂ r₂, run dbg s1 = .ok (s₁, r₁) ∧ run dbg s2 = .ok (s₂, r₂) ∧
      ∀ b < 2, ∀ j < numModes M N', ListsMode s₂.out j 1 3 →
        ∀ A ∈ amplitudes s₂.out asym, Near A j b 0 (C * gridError M N' 7) := by
  obtain ⟨C, hC⟩ := C88_limit (s := Ex.st asym) (d := Ex.dims asym) (k := 2) (f := 1) (nt := 2) (nq := 2) (Ex.ready asym)
    (Ex.fieldPeriodic asym) (Ex.originOnce asym) (fun b hb => Ex.regular asym (Ex.selected_lt asym b hb)) rfl
    (s0 := { Ex.st asym with inp := { Ex.inputs asym with
      nfp := some ((1 : ℕ) : ℤ), ntor := some ((2 : ℕ) : ℤ), ntor_nyq := some ((2 : ℕ) : ℤ), nboz := (1 : ℕ) } })
    rfl (Ex.one_ready asym (M := 2) (N := 1) (by omega) (by norm_num)) 1 3 (p := 7) (by omega)
  refine ⟨C, fun M N N' hM hf hf' dbg => ?_⟩
  intro s1 s2
  obtain ⟨s₁, r₁, s₂, r₂, h1, h2, H⟩ := hC M N N' s1 s2 dbg rfl rfl (Ex.ready_res asym hM hf) (Ex.one_ready asym hM hf')
  exact ⟨s₁, r₁, s₂, r₂, h1, h2, fun b hb j hj hl => (H b hb j hj hl).2 (by
    show ¬ ((2 : ℕ) : ℤ) ∣ 3
    decide)⟩

end Booz
