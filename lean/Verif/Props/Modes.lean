import Verif.Examples
import Verif.Lemmas.QuadCoef

/-!
# C02, C03, C04: output mode list and integration grid
-/

namespace Booz
variable {α : Type} [Arith α]

/-! ### The final state of `run`, for use in the property files -/

theorem run_false {s s' : St α} {d : Dims} {r : List (Report α)} (h : RunReady s.inp d)
    (hr : run false s = .ok (s', r)) : s' = runSt d s d.nsb ∧ r = runReports s.inp d d.nsb := by
  rw [run_ok h (by simp) (by simp)] at hr
  cases hr
  exact ⟨rfl, rfl⟩

/-- Specification of the output modes: `(m, n)` with `0 ≤ m < mboz`, `n = n' nfp`, `|n'| ≤ nboz` and
`n' ≥ 0` when `m = 0`. -/
def Spec.IsMode (M N nfp : ℕ) (p : ℤ × ℤ) : Prop :=
  0 ≤ p.1 ∧ p.1 < M ∧ ∃ n' : ℤ, p.2 = n' * nfp ∧ -N ≤ n' ∧ n' ≤ N ∧ (p.1 = 0 → 0 ≤ n')

/-- Strict lexicographic order. -/
def Spec.Lex (p q : ℤ × ℤ) : Prop := p.1 < q.1 ∨ p.1 = q.1 ∧ p.2 < q.2

/-- Number of output modes. -/
def Spec.numModes (M N : ℕ) : ℕ := (2 * N + 1) * (M - 1) + N + 1

theorem modePair_lex (d : Dims) (hp : 1 ≤ d.nfp) {i j : ℕ} (hij : i < j) :
    Spec.Lex ((modeM d.N i : ℤ), modeN d.N i * d.nfp) ((modeM d.N j : ℤ), modeN d.N j * d.nfp) := by
  unfold Spec.Lex modeM modeN
  simp only
  have e1 := Nat.div_add_mod (i + d.N) (2 * d.N + 1)
  have e2 := Nat.div_add_mod (j + d.N) (2 * d.N + 1)
  have hle : (i + d.N) / (2 * d.N + 1) ≤ (j + d.N) / (2 * d.N + 1) :=
    Nat.div_le_div_right (by omega)
  rcases Nat.lt_or_eq_of_le hle with h | h
  · left; exact_mod_cast h
  · right
    refine ⟨by exact_mod_cast h, ?_⟩
    rw [h] at e1
    have hp' : (0 : ℤ) < d.nfp := by omega
    apply Int.mul_lt_mul_of_pos_right _ hp'
    generalize (2 * d.N + 1) * ((j + d.N) / (2 * d.N + 1)) = X at *
    generalize (i + d.N) % (2 * d.N + 1) = u at *
    generalize (j + d.N) % (2 * d.N + 1) = v at *
    omega

theorem modePair_mem (d : Dims) (hM : 1 ≤ d.M) (hp : 1 ≤ d.nfp) (p : ℤ × ℤ) :
    (∃ j < d.nmodes, ((modeM d.N j : ℤ), modeN d.N j * d.nfp) = p) ↔ Spec.IsMode d.M d.N d.nfp p := by
  constructor
  · rintro ⟨j, hj, rfl⟩
    have h1 := modeM_lt hM hj
    have h2 := modeN_bound d.N j
    refine ⟨by positivity, by simpa using h1, modeN d.N j, rfl, h2.1, h2.2, ?_⟩
    intro h0
    have h0 : (modeM d.N j : ℤ) = 0 := h0
    have h0 : modeM d.N j = 0 := by exact_mod_cast h0
    unfold modeM at h0
    have hlt := (Nat.div_eq_zero_iff_lt (by omega)).mp h0
    unfold modeN
    rw [Nat.mod_eq_of_lt hlt]
    omega
  · obtain ⟨m, n⟩ := p
    rintro ⟨h0, h1, n', h2, h3, h4, h5⟩
    simp only at h0 h1 h2 h5
    obtain ⟨m, rfl⟩ := Int.eq_ofNat_of_zero_le h0
    have hm : m < d.M := by exact_mod_cast h1
    let k : ℕ := if m = 0 then n'.toNat else (n' + d.N).toNat
    have hk : if m = 0 then k ≤ d.N else k < 2 * d.N + 1 := by
      show if m = 0 then k ≤ d.N else k < 2 * d.N + 1
      by_cases hm0 : m = 0
      · simp only [hm0, if_true, k]; omega
      · simp only [hm0, if_false, k]; omega
    have e1 := modeM_off hk
    have e2 := modeN_off hk
    refine ⟨modeOff d.N m + k, ?_, ?_⟩
    · rw [← modeOff_nmodes d hM]
      have h6 : modeOff d.N (m + 1) ≤ modeOff d.N d.M := modeOff_le hm
      rw [modeOff_succ] at h6
      by_cases hm0 : m = 0
      · subst hm0
        simp only [if_true] at hk
        simp only [modeOff, if_true]
        simp only [Nat.zero_mul] at h6
        unfold modeOff at h6
        omega
      · simp only [hm0, if_false] at hk
        have h7 := modeOff_add d.N m hm0
        omega
    · rw [e1, e2, h2]
      have : (if m = 0 then 0 else -(d.N : ℤ)) + k = n' := by
        by_cases hm0 : m = 0
        · simp only [hm0, if_true, k]
          have := h5 (by rw [hm0]; rfl)
          omega
        · simp only [hm0, if_false, k]; omega
      rw [this]

/-- **C02.** After `run()` the mode numbers are exactly those of the half-plane, each once, in
lexicographic order, starting with (0,0); their number is `mnboz = (2 nboz + 1)(mboz - 1) + nboz + 1`. -/
theorem C02_mode_list {s s' : St α} {d : Dims} {r : List (Report α)} (h : RunReady s.inp d)
    (hr : run false s = .ok (s', r)) :
    ∃ l : List (ℤ × ℤ), s'.out.xm_b = (l.map fun p => some p.1).toArray ∧
      s'.out.xn_b = (l.map fun p => some p.2).toArray ∧
      l.length = Spec.numModes d.M d.N ∧ s'.out.mnboz = some (Spec.numModes d.M d.N : ℤ) ∧
      l.head? = some (0, 0) ∧ l.Nodup ∧ l.Pairwise Spec.Lex ∧
      ∀ p, p ∈ l ↔ Spec.IsMode d.M d.N d.nfp p := by
  obtain ⟨rfl, -⟩ := run_false h hr
  have hlex : ((List.range d.nmodes).map
      fun j => ((modeM d.N j : ℤ), modeN d.N j * d.nfp)).Pairwise Spec.Lex := by
    rw [List.pairwise_map]
    exact List.pairwise_lt_range.imp fun hij => modePair_lex d h.nfp_pos hij
  refine ⟨(List.range d.nmodes).map fun j => ((modeM d.N j : ℤ), modeN d.N j * d.nfp), ?_, ?_, ?_,
    rfl, ?_, ?_, hlex, ?_⟩
  · have : (runSt d s d.nsb).out.xm_b = Vec.tab d.nmodes fun j => (modeM d.N j : ℤ) := rfl
    rw [this]
    apply Array.ext
    · simp [Vec.tab]
    · intro i h1 h2; simp [Vec.tab]
  · have : (runSt d s d.nsb).out.xn_b = Vec.tab d.nmodes fun j => modeN d.N j * d.nfp := rfl
    rw [this]
    apply Array.ext
    · simp [Vec.tab]
    · intro i h1 h2; simp [Vec.tab]
  · simp [Dims.nmodes, Spec.numModes]
  · have : ((modeM d.N 0 : ℤ) = 0 ∧ modeN d.N 0 * d.nfp = 0) := (mode_zero_iff h.nfp_pos).mpr rfl
    have h2 : d.nmodes = ((2 * d.N + 1) * (d.M - 1) + d.N) + 1 := rfl
    rw [h2, List.range_succ_eq_map]
    simp only [List.map_cons, List.head?_cons, this.1, this.2]
  · refine hlex.imp ?_
    intro p q hpq e
    subst e
    unfold Spec.Lex at hpq
    omega
  · intro p
    rw [← modePair_mem d h.mboz_ge h.nfp_pos]
    simp

/-- The hypotheses of C02 are met by the example object, with 5 modes. -/
example : ∃ s' r, run false (Ex.st (α := α) true) = .ok (s', r) ∧
    s'.out.mnboz = some (5 : ℤ) :=
  ⟨_, _, run_ok (s := Ex.st true) (Ex.ready true) (by simp) (by simp), rfl⟩

/-- **C03 is false of the code**, for every resolution: no output mode has `m = mboz`. -/
theorem C03_false {s s' : St α} {d : Dims} {r : List (Report α)} (h : RunReady s.inp d)
    (hr : run false s = .ok (s', r)) : ∀ k x, s'.out.xm_b.rdN k = .ok x → x ≠ s'.inp.mboz := by
  obtain ⟨rfl, -⟩ := run_false h hr
  intro k x hx
  have hk : k < d.nmodes := by
    by_contra hge
    have : (runSt d s d.nsb).out.xm_b.rdN k = ub "index out of range" :=
      Vec.rdN_oob (by simp [runSt, initSt, Vec.tab]; omega)
    rw [this] at hx; cases hx
  have e : (runSt d s d.nsb).out.xm_b.rdN k = .ok (modeM d.N k : ℤ) := Vec.rdN_tab hk
  rw [e] at hx
  cases hx
  have h1 := modeM_lt h.mboz_ge hk
  have h2 : (runSt d s d.nsb).inp.mboz = (d.M : ℤ) := h.mboz
  omega

example : ∃ s' r, run false (Ex.st (α := α) false) = .ok (s', r) ∧
    s'.inp.mboz = 2 ∧ s'.out.xm_b.rdN 4 = .ok 1 := by
  refine ⟨_, _, run_ok (s := Ex.st false) (Ex.ready false) (by simp) (by simp), rfl, ?_⟩
  exact (Vec.rdN_tab (f := fun j => (modeM (Ex.dims false).N j : ℤ))
    (show 4 < (Ex.dims false).nmodes by decide)).trans rfl

/-- **C03, the part that holds** (the full statement has `mboz` for `mboz - 1`): the largest poloidal
mode number is `mboz - 1`, attained; the toroidal numbers range up to `nboz nfp`, attained. -/
theorem C03_partial {s s' : St α} {d : Dims} {r : List (Report α)} (h : RunReady s.inp d)
    (hr : run false s = .ok (s', r)) :
    (∀ k x, s'.out.xm_b.rdN k = .ok x → x ≤ s'.inp.mboz - 1) ∧
    (∃ k, s'.out.xm_b.rdN k = .ok (s'.inp.mboz - 1)) ∧
    (∀ k x, s'.out.xn_b.rdN k = .ok x → x.natAbs ≤ (d.N * d.nfp : ℕ)) ∧
    (∃ k, s'.out.xn_b.rdN k = .ok (d.N * d.nfp : ℤ)) := by
  obtain ⟨rfl, -⟩ := run_false h hr
  have hmb : (runSt d s d.nsb).inp.mboz = (d.M : ℤ) := h.mboz
  have exm : ∀ k, k < d.nmodes → (runSt d s d.nsb).out.xm_b.rdN k = .ok (modeM d.N k : ℤ) :=
    fun k hk => Vec.rdN_tab hk
  have exn : ∀ k, k < d.nmodes → (runSt d s d.nsb).out.xn_b.rdN k = .ok (modeN d.N k * d.nfp) :=
    fun k hk => Vec.rdN_tab hk
  have hlt : ∀ k x, (runSt d s d.nsb).out.xm_b.rdN k = .ok x → k < d.nmodes := by
    intro k x hx
    by_contra hge
    have : (runSt d s d.nsb).out.xm_b.rdN k = ub "index out of range" :=
      Vec.rdN_oob (by simp [runSt, initSt, Vec.tab]; omega)
    rw [this] at hx; cases hx
  have hltn : ∀ k x, (runSt d s d.nsb).out.xn_b.rdN k = .ok x → k < d.nmodes := by
    intro k x hx
    by_contra hge
    have : (runSt d s d.nsb).out.xn_b.rdN k = ub "index out of range" :=
      Vec.rdN_oob (by simp [runSt, initSt, Vec.tab]; omega)
    rw [this] at hx; cases hx
  refine ⟨?_, ?_, ?_, ?_⟩
  · intro k x hx
    have hk := hlt k x hx
    rw [exm k hk] at hx
    cases hx
    have := modeM_lt h.mboz_ge hk
    omega
  · obtain ⟨k, hk, e⟩ := (modePair_mem d h.mboz_ge h.nfp_pos ((d.M : ℤ) - 1, 0)).mpr
      ⟨by have := h.mboz_ge; simp only; omega, by simp only; omega, 0, by simp, by omega, by omega,
        fun _ => Int.le_refl 0⟩
    simp only [Prod.mk.injEq] at e
    exact ⟨k, by rw [exm k hk, hmb, e.1]⟩
  · intro k x hx
    have hk := hltn k x hx
    rw [exn k hk] at hx
    cases hx
    rw [Int.natAbs_mul, Int.natAbs_natCast]
    exact Nat.mul_le_mul_right _ (modeN_natAbs_le d.N k)
  · obtain ⟨k, hk, e⟩ := (modePair_mem d h.mboz_ge h.nfp_pos (0, d.N * d.nfp)).mpr
      ⟨Int.le_refl 0, by have := h.mboz_ge; simp only; omega, d.N, rfl, by omega, by omega, fun _ => by omega⟩
    simp only [Prod.mk.injEq] at e
    exact ⟨k, by rw [exn k hk, e.2]⟩

example : ∃ s' r, run false (Ex.st (α := α) true) = .ok (s', r) :=
  ⟨_, _, run_ok (s := Ex.st true) (Ex.ready true) (by simp) (by simp)⟩

/-- **C04.** The integration grid (exact arithmetic): point `a * nzeta + b` is
`θ = 2π a / ntheta`, `ζ = 2π b / (nfp nzeta)`, with `ntheta = 4 mboz + 2`, `nzeta = 4 nboz + 2` (1 if
`nboz = 0`); `a` runs over the full circle if `asym` and over `0, ..., ntheta/2` otherwise, and there
are no other points. -/
theorem C04_grid {s s' : St ℝ} {d : Dims} {r : List (Report ℝ)} (h : RunReady s.inp d)
    (hr : run false s = .ok (s', r)) :
    let nt := 4 * d.M + 2
    let nz := if d.N = 0 then 1 else 4 * d.N + 2
    let A := if d.asym then nt else nt / 2 + 1
    s'.grid.theta_grid.size = A * nz ∧ s'.grid.zeta_grid.size = A * nz ∧
    ∀ a < A, ∀ b < nz,
      s'.grid.theta_grid.rdN (a * nz + b) = .ok (2 * Real.pi * a / nt) ∧
      s'.grid.zeta_grid.rdN (a * nz + b) = .ok (2 * Real.pi * b / (d.nfp * nz)) := by
  intro nt nz A
  obtain ⟨rfl, -⟩ := run_false h hr
  have hnz : d.nz = nz := nz_eq d
  have hnt : d.nt = nt := nt_eq d
  have hA : d.nu3 = A := by
    show (if d.asym then d.nt else d.nu2) = if d.asym then nt else nt / 2 + 1
    rw [hnt]
    split
    · rfl
    · show 2 * d.M + 2 = (4 * d.M + 2) / 2 + 1
      omega
  have hnp : d.np = A * nz := by unfold Dims.np; rw [hA, hnz]
  have et : (runSt d s d.nsb).grid.theta_grid = Vec.tab d.np (gridT d) := rfl
  have ez : (runSt d s d.nsb).grid.zeta_grid = Vec.tab d.np (gridZ d) := rfl
  rw [et, ez]
  refine ⟨by rw [Vec.size_tab, hnp], by rw [Vec.size_tab, hnp], ?_⟩
  intro a ha b hb
  have hlt : a * nz + b < d.np := by
    rw [hnp]
    have : (a + 1) * nz ≤ A * nz := Nat.mul_le_mul_right _ ha
    rw [Nat.add_mul, Nat.one_mul] at this
    omega
  rw [Vec.rdN_tab hlt, Vec.rdN_tab hlt, gridT_real, gridZ_real, hnz, hnt]
  rw [Mat.idx_mod hb, Mat.idx_div hb]
  exact ⟨rfl, rfl⟩

example : ∃ s' r, run false (Ex.st (α := ℝ) false) = .ok (s', r) ∧
    s'.grid.theta_grid.size = 36 :=
  ⟨_, _, run_ok (s := Ex.st false) (Ex.ready false) (by simp) (by simp), by
    show (Vec.tab (Ex.dims false).np _).size = 36
    rw [Vec.size_tab]; rfl⟩

end Booz
