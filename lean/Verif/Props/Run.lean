import Verif.Props.Modes
import Verif.Lemmas.ChkReal
import Verif.Lemmas.RunInv
import Verif.Lemmas.Congr

/-!
# C05, C15, C24, C27, C28, C45, C46, C47: safety and history of `run`
-/

namespace Booz
open Spec
variable {α : Type} [Arith α]

/-! ### C05 -/

/-- **C05.** On well-formed input `run()` completes: no out-of-range access, no read of an
indeterminate value, no integer division by zero, no signed overflow.  (Release build, any
arithmetic.) -/
theorem C05_run_safe {s : St α} {d : Dims} (h : RunReady s.inp d) :
    ∃ s' reports, run false s = .ok (s', reports) :=
  ⟨_, _, run_ok h (by simp) (by simp)⟩

/-- **C05, debug build.** In exact arithmetic, if the first Nyquist mode is (0,0), no assertion
fails either.  (In rounded arithmetic the assertions compare grid angles with `1e-13`.) -/
theorem C05_run_safe_debug {dbg : Bool} {s : St ℝ} {d : Dims} (h : RunReady s.inp d)
    (h0 : OriginFirst s.inp) : ∃ s' reports, run dbg s = .ok (s', reports) :=
  ⟨_, _, run_real h fun _ => h0⟩

/-- **C05, debug build, any arithmetic**: with `verbose = 0` (no accuracy check). -/
theorem C05_run_safe_debug_quiet {dbg : Bool} {s : St α} {d : Dims} (h : RunReady s.inp d)
    (h0 : OriginFirst s.inp) (hv : s.inp.verbose ≤ 0) : ∃ s' reports, run dbg s = .ok (s', reports) :=
  ⟨_, _, run_ok h (fun _ => h0) fun _ hv' => by omega⟩

example (asym : Bool) : ∃ s' reports, run false (Ex.st (α := α) asym) = .ok (s', reports) :=
  C05_run_safe (Ex.ready asym)
example (asym : Bool) : ∃ s' reports, run true (Ex.st (α := ℝ) asym) = .ok (s', reports) :=
  C05_run_safe_debug (Ex.ready asym) (Ex.originFirst asym)

/-! ### C15 -/

/-- **C15.** `Boozer_I_all`, `Boozer_G_all` are the first rows of the covariant harmonics on every
input surface, and `Boozer_I[k]`, `Boozer_G[k]` are their values at `compute_surfs[k]` when (0,0) is
exactly the first Nyquist mode. -/
theorem C15_flux_functions {s s' : St α} {d : Dims} {r : List (Report α)} (h : RunReady s.inp d)
    (ho : OriginOnce s.inp) (hr : run false s = .ok (s', r)) :
    s'.out.boozer_I_all.size = d.ns ∧ s'.out.boozer_G_all.size = d.ns ∧
    s'.out.boozer_I.size = d.nsb ∧ s'.out.boozer_G.size = d.nsb ∧
    (∀ j < d.ns, s'.out.boozer_I_all.rdN j = s.inp.bsubumnc.rdN 0 j ∧
      s'.out.boozer_G_all.rdN j = s.inp.bsubvmnc.rdN 0 j) ∧
    (∀ b < d.nsb, s'.out.boozer_I.rdN b = s.inp.bsubumnc.rdN 0 (selected s.inp b) ∧
      s'.out.boozer_G.rdN b = s.inp.bsubvmnc.rdN 0 (selected s.inp b)) := by
  obtain ⟨rfl, -⟩ := run_false h hr
  have hq := h.mnmax_nyq_ge
  have e1 := h.bsubumnc.eq_tab (ofInt 0)
  have e2 := h.bsubvmnc.eq_tab (ofInt 0)
  refine ⟨Vec.size_tab _ _, Vec.size_tab _ _, Vec.size_tab _ _, Vec.size_tab _ _, ?_, ?_⟩
  · intro j hj
    rw [e1, e2, Mat.rdN_tab (by omega) hj, Mat.rdN_tab (by omega) hj]
    exact ⟨Vec.rdN_tab hj, Vec.rdN_tab hj⟩
  · intro b hb
    have hs := h.surfs_range b hb
    have hlt : selected s.inp b < d.ns := by unfold selected; omega
    rw [e1, e2, Mat.rdN_tab (by omega) hlt, Mat.rdN_tab (by omega) hlt]
    have hI : (runSt d s d.nsb).out.boozer_I.rdN b = .ok (if b < d.nsb then
      curI s.inp d (surf s.inp b) else ofInt 0) := Vec.rdN_tab hb
    have hG : (runSt d s d.nsb).out.boozer_G.rdN b = .ok (if b < d.nsb then
      curG s.inp d (surf s.inp b) else ofInt 0) := Vec.rdN_tab hb
    rw [hI, hG, if_pos hb, if_pos hb]
    unfold curI curG
    rw [lastZero_first ho _ _ hq (by rw [h.xm_nyq.1]), lastZero_first ho _ _ hq (by rw [h.xm_nyq.1])]
    exact ⟨rfl, rfl⟩

example : ∃ s' r, run false (Ex.st (α := α) true) = .ok (s', r) ∧
    s'.out.boozer_I.rdN 0 = (Ex.inputs (α := α) true).bsubumnc.rdN 0 1 := by
  obtain ⟨s', r, hr⟩ := C05_run_safe (s := Ex.st (α := α) true) (Ex.ready true)
  exact ⟨s', r, hr, ((C15_flux_functions (s := Ex.st true) (Ex.ready true) (Ex.originOnce true) hr).2.2.2.2.2 0
    (by decide)).1⟩

/-! ### C24 -/

/-- Dropping the asymmetric part of the inputs keeps them well-formed. -/
theorem RunReady.symmetric {I : Inputs α} {d : Dims} (h : RunReady I d) :
    RunReady { I with asym := some false } { d with asym := false } where
  asym := rfl
  nfp := h.nfp
  nfp_pos := h.nfp_pos
  mpol := h.mpol
  mpol_ge := h.mpol_ge
  ntor := h.ntor
  mnmax := h.mnmax
  mpol_nyq := h.mpol_nyq
  mpol_nyq_ge := h.mpol_nyq_ge
  ntor_nyq := h.ntor_nyq
  mnmax_nyq := h.mnmax_nyq
  mnmax_nyq_ge := h.mnmax_nyq_ge
  ns_in := h.ns_in
  mboz := h.mboz
  mboz_ge := h.mboz_ge
  nboz := h.nboz
  xm := h.xm
  xm_range := h.xm_range
  xn := h.xn
  xn_range := h.xn_range
  xn_int := h.xn_int
  xm_nyq := h.xm_nyq
  xm_nyq_range := h.xm_nyq_range
  xn_nyq := h.xn_nyq
  xn_nyq_range := h.xn_nyq_range
  xn_nyq_int := h.xn_nyq_int
  s_in := h.s_in
  iota := h.iota
  rmnc := h.rmnc
  zmns := h.zmns
  lmns := h.lmns
  bmnc := h.bmnc
  bsubumnc := h.bsubumnc
  bsubvmnc := h.bsubvmnc
  rmns := by simp
  zmnc := by simp
  lmnc := by simp
  bmns := by simp
  bsubumns := by simp
  bsubvmns := by simp
  surfs := h.surfs
  surfs_range := h.surfs_range
  fit_theta := h.fit_theta
  fit_zeta := h.fit_zeta
  fit_pts := by
    have h1 : d.nu2 ≤ d.nu3 := nu2_le_nu3 d h.mboz_ge
    have h2 : d.nu2 * d.nz ≤ d.np := Nat.mul_le_mul_right _ h1
    have h3 := h.fit_pts
    show d.nu2 * d.nz < 2147483648
    omega
  fit_nfp := h.fit_nfp
  fit_ntor := h.fit_ntor
  fit_mq := h.fit_mq
  fit_nq := h.fit_nq
  fit_mpol := h.fit_mpol

/-- **C24 is false of the code**: for every asymmetric configuration, run it, switch the object to
`asym = false` and run again: the asymmetric spectra of the first run are still there, nonempty. -/
theorem C24_false {s : St α} {d : Dims} (h : RunReady s.inp d) (ha : d.asym = true) :
    ∃ s1 r1 s2 r2, run false s = .ok (s1, r1) ∧
      run false { s1 with inp := { s1.inp with asym := some false } } = .ok (s2, r2) ∧
      s2.inp.asym = some false ∧
      s2.out.spec.bmns_b = s1.out.spec.bmns_b ∧ s2.out.spec.gmns_b = s1.out.spec.gmns_b ∧
      s2.out.spec.rmns_b = s1.out.spec.rmns_b ∧ s2.out.spec.zmnc_b = s1.out.spec.zmnc_b ∧
      s2.out.spec.numnc_b = s1.out.spec.numnc_b ∧ s2.out.spec.bmns_b.rows = numModes d.M d.N ∧
      0 < s2.out.spec.bmns_b.rows := by
  have r1 := run_ok (dbg := false) h (by simp) (by simp)
  have h2 : RunReady { (runSt d s d.nsb).inp with asym := some false } { d with asym := false } :=
    RunReady.symmetric (I := (runSt d s d.nsb).inp) h
  have r2 := run_ok (dbg := false) (s := { runSt d s d.nsb with
    inp := { (runSt d s d.nsb).inp with asym := some false } }) h2 (by simp) (by simp)
  have e : (runSt d s d.nsb).out.spec.bmns_b.rows = numModes d.M d.N := by
    show (specTab d (outF s.inp d d.nsb) s.out.spec).bmns_b.rows = _
    unfold specTab
    rw [if_pos ha]
    rfl
  refine ⟨_, _, _, _, r1, r2, rfl, rfl, rfl, rfl, rfl, rfl, e, ?_⟩
  exact lt_of_lt_of_eq (by unfold numModes; omega : 0 < numModes d.M d.N) e.symm

example : RunReady (Ex.st (α := α) true).inp (Ex.dims true) ∧ (Ex.dims true).asym = true :=
  ⟨Ex.ready true, rfl⟩

/-- **C24, the part that holds** (the full statement has no condition on the object's history): a
symmetric run does not touch the asymmetric spectra, so they are empty after it if they were
before, in particular on an object that has not been used for an asymmetric run. -/
theorem C24_partial {s s' : St α} {d : Dims} {r : List (Report α)} (h : RunReady s.inp d)
    (ha : d.asym = false) (hr : run false s = .ok (s', r)) :
    s'.out.spec.bmns_b = s.out.spec.bmns_b ∧ s'.out.spec.gmns_b = s.out.spec.gmns_b ∧
    s'.out.spec.rmns_b = s.out.spec.rmns_b ∧ s'.out.spec.zmnc_b = s.out.spec.zmnc_b ∧
    s'.out.spec.numnc_b = s.out.spec.numnc_b := by
  obtain ⟨rfl, -⟩ := run_false h hr
  have e : (runSt d s d.nsb).out.spec = specTab d (outF s.inp d d.nsb) s.out.spec := rfl
  rw [e]
  unfold specTab
  rw [if_neg (by simp [ha])]
  exact ⟨rfl, rfl, rfl, rfl, rfl⟩

/-- For a fresh object: the asymmetric spectra are 0 x 0 after a symmetric run. -/
example : ∃ s' r, run false (Ex.st (α := α) false) = .ok (s', r) ∧ s'.out.spec.bmns_b = Mat.empty := by
  obtain ⟨s', r, hr⟩ := C05_run_safe (s := Ex.st (α := α) false) (Ex.ready false)
  exact ⟨s', r, hr, (C24_partial (s := Ex.st false) (Ex.ready false) rfl hr).1⟩

/-! ### C27, C28 -/

/-- The outputs that a run defines: everything, except the asymmetric spectra of a symmetric run,
which the code leaves alone (C24). -/
def Spec.SameOutputs (asym : Bool) (o₁ o₂ : Outputs α) : Prop :=
  o₁.ns_b = o₂.ns_b ∧ o₁.s_b = o₂.s_b ∧ o₁.mnboz = o₂.mnboz ∧ o₁.xm_b = o₂.xm_b ∧ o₁.xn_b = o₂.xn_b ∧
  o₁.boozer_G = o₂.boozer_G ∧ o₁.boozer_I = o₂.boozer_I ∧ o₁.boozer_G_all = o₂.boozer_G_all ∧
  o₁.boozer_I_all = o₂.boozer_I_all ∧ o₁.spec.bmnc_b = o₂.spec.bmnc_b ∧
  o₁.spec.rmnc_b = o₂.spec.rmnc_b ∧ o₁.spec.zmns_b = o₂.spec.zmns_b ∧
  o₁.spec.numns_b = o₂.spec.numns_b ∧ o₁.spec.gmnc_b = o₂.spec.gmnc_b ∧
  (asym = true → o₁.spec = o₂.spec)

theorem specTab_same (d : Dims) (F : SpecF α) (o₁ o₂ : Spectra α) :
    (specTab d F o₁).bmnc_b = (specTab d F o₂).bmnc_b ∧
    (specTab d F o₁).rmnc_b = (specTab d F o₂).rmnc_b ∧
    (specTab d F o₁).zmns_b = (specTab d F o₂).zmns_b ∧
    (specTab d F o₁).numns_b = (specTab d F o₂).numns_b ∧
    (specTab d F o₁).gmnc_b = (specTab d F o₂).gmnc_b ∧
    (d.asym = true → specTab d F o₁ = specTab d F o₂) := by
  unfold specTab
  cases d.asym
  · exact ⟨rfl, rfl, rfl, rfl, rfl, by simp⟩
  · exact ⟨rfl, rfl, rfl, rfl, rfl, fun _ => rfl⟩

/-- **C27.** Two objects with the same inputs give the same outputs and the same report, whatever
they held before (other profiles, grids, results). -/
theorem C27_history_free {s₁ s₂ s₁' s₂' : St α} {d : Dims} {r₁ r₂ : List (Report α)}
    (h : RunReady s₁.inp d) (hI : s₁.inp = s₂.inp) (hr₁ : run false s₁ = .ok (s₁', r₁))
    (hr₂ : run false s₂ = .ok (s₂', r₂)) :
    SameOutputs d.asym s₁'.out s₂'.out ∧ r₁ = r₂ := by
  obtain ⟨i₁, f₁, g₁, o₁⟩ := s₁
  obtain ⟨i₂, f₂, g₂, o₂⟩ := s₂
  cases hI
  obtain ⟨rfl, rfl⟩ := run_false h hr₁
  obtain ⟨rfl, rfl⟩ := run_false (s := ⟨i₁, f₂, g₂, o₂⟩) h hr₂
  obtain ⟨a, b, c, e, f, g⟩ := specTab_same d (outF i₁ d d.nsb) o₁.spec o₂.spec
  exact ⟨⟨rfl, rfl, rfl, rfl, rfl, rfl, rfl, rfl, rfl, a, b, c, e, f, g⟩, rfl⟩

/-- **C27.** `run(); run()` leaves exactly the object that `run()` leaves, and prints the same. -/
theorem C27_idempotent {s s' : St α} {d : Dims} {r : List (Report α)} (h : RunReady s.inp d)
    (hr : run false s = .ok (s', r)) : run false s' = .ok (s', r) := by
  obtain ⟨rfl, rfl⟩ := run_false h hr
  rw [run_ok (s := runSt d s d.nsb) (d := d) h (by simp) (by simp)]
  have e : runSt d (runSt d s d.nsb) d.nsb = runSt d s d.nsb := by
    have : specTab d (outF s.inp d d.nsb) (specTab d (outF s.inp d d.nsb) s.out.spec) =
        specTab d (outF s.inp d d.nsb) s.out.spec := by
      unfold specTab; cases d.asym <;> rfl
    show St.mk _ _ _ _ = St.mk _ _ _ _
    rw [St.mk.injEq]
    refine ⟨rfl, rfl, rfl, ?_⟩
    show Outputs.mk _ _ _ _ _ _ _ _ _ _ = Outputs.mk _ _ _ _ _ _ _ _ _ _
    rw [Outputs.mk.injEq]
    exact ⟨rfl, rfl, rfl, rfl, rfl, this, rfl, rfl, rfl, rfl⟩
  rw [e]
  rfl

/-- **C27.** `run()` does not modify inputs or profiles. -/
theorem C27_inputs_kept {s s' : St α} {d : Dims} {r : List (Report α)} (h : RunReady s.inp d)
    (hr : run false s = .ok (s', r)) : s'.inp = s.inp ∧ s'.flux = s.flux := by
  obtain ⟨rfl, rfl⟩ := run_false h hr
  exact ⟨rfl, rfl⟩

/-- An asymmetric object that has just run a symmetric configuration, and a fresh one. -/
example : ∃ s s₁ r₁, run false (Ex.st (α := α) false) = .ok (s, r₁) ∧
    ({ s with inp := Ex.inputs true } : St α).inp = (Ex.st (α := α) true).inp ∧
    RunReady ({ s with inp := Ex.inputs true } : St α).inp (Ex.dims true) ∧
    run false (Ex.st (α := α) true) = .ok s₁ := by
  obtain ⟨s, r, hr⟩ := C05_run_safe (s := Ex.st (α := α) false) (Ex.ready false)
  obtain ⟨s₁, r₁, hr₁⟩ := C05_run_safe (s := Ex.st (α := α) true) (Ex.ready true)
  exact ⟨s, (s₁, r₁), r, hr, rfl, Ex.ready true, hr₁⟩

/-- **C28.** The numerical results do not depend on `verbose`; the report is printed exactly when
`verbose > 0`. -/
theorem C28_verbose {s s₁ s₂ : St α} {d : Dims} {r₁ r₂ : List (Report α)} {v₁ v₂ : Int}
    (h : RunReady s.inp d)
    (hr₁ : run false { s with inp := { s.inp with verbose := v₁ } } = .ok (s₁, r₁))
    (hr₂ : run false { s with inp := { s.inp with verbose := v₂ } } = .ok (s₂, r₂)) :
    s₁.out = s₂.out ∧ s₁.grid = s₂.grid ∧ s₁.flux = s₂.flux ∧
      s₁.inp = { s₂.inp with verbose := v₁ } ∧ (r₁.length = if 0 < v₁ then d.nsb else 0) := by
  have h1 : ∀ v, RunReady { s.inp with verbose := v } d := fun v =>
    ⟨⟨h.asym, h.nfp, h.nfp_pos, h.mpol, h.mpol_ge, h.ntor, h.mnmax, h.mpol_nyq, h.mpol_nyq_ge,
      h.ntor_nyq, h.mnmax_nyq, h.mnmax_nyq_ge, h.ns_in, h.mboz, h.mboz_ge, h.nboz, h.xm, h.xm_range,
      h.xn, h.xn_range, h.xn_int, h.xm_nyq, h.xm_nyq_range, h.xn_nyq, h.xn_nyq_range, h.xn_nyq_int,
      h.s_in, h.iota, h.rmnc, h.zmns, h.lmns, h.bmnc, h.bsubumnc, h.bsubvmnc, h.rmns, h.zmnc, h.lmnc,
      h.bmns, h.bsubumns, h.bsubvmns, h.surfs, h.surfs_range, h.fit_ntor, h.fit_mq, h.fit_nq,
      h.fit_mpol⟩, h.fit_theta, h.fit_zeta, h.fit_pts, h.fit_nfp⟩
  obtain ⟨rfl, rfl⟩ := run_false (s := { s with inp := { s.inp with verbose := v₁ } }) (h1 v₁) hr₁
  obtain ⟨rfl, rfl⟩ := run_false (s := { s with inp := { s.inp with verbose := v₂ } }) (h1 v₂) hr₂
  have hd : DimAgree d d := ⟨rfl, rfl, rfl, rfl, rfl, rfl⟩
  have hv : ∀ j, ValAgree d { s.inp with verbose := v₁ } { s.inp with verbose := v₂ } j j := fun j =>
    ⟨rfl, rfl, rfl, rfl, rfl, fun _ _ => rfl, fun _ _ => rfl, fun _ _ => rfl, fun _ _ => rfl,
      fun _ _ => rfl, fun _ _ => rfl, fun _ _ _ => rfl, fun _ _ _ => rfl, fun _ _ _ => rfl,
      fun _ _ _ => rfl, fun _ _ _ => rfl, fun _ _ _ => rfl⟩
  have hs : specTab d (outF { s.inp with verbose := v₁ } d d.nsb) s.out.spec =
      specTab d (outF { s.inp with verbose := v₂ } d d.nsb) s.out.spec := by
    have key := fun (k : Nat) (_ : k < d.nmodes) (b : Nat) (hb : b < d.nsb) =>
      outF_congr (I₁ := { s.inp with verbose := v₁ }) (I₂ := { s.inp with verbose := v₂ }) hd
        (b₁ := b) (b₂ := b) (hv (surf s.inp b)) hb hb k
    exact specTab_congr (fun k hk b hb => (key k hk b hb).1) (fun k hk b hb => (key k hk b hb).2.1)
      (fun k hk b hb => (key k hk b hb).2.2.1) (fun k hk b hb => (key k hk b hb).2.2.2.1)
      (fun k hk b hb => (key k hk b hb).2.2.2.2.1) (fun k hk b hb => (key k hk b hb).2.2.2.2.2.1)
      (fun k hk b hb => (key k hk b hb).2.2.2.2.2.2.1)
      (fun k hk b hb => (key k hk b hb).2.2.2.2.2.2.2.1)
      (fun k hk b hb => (key k hk b hb).2.2.2.2.2.2.2.2.1)
      (fun k hk b hb => (key k hk b hb).2.2.2.2.2.2.2.2.2)
  refine ⟨?_, rfl, rfl, rfl, ?_⟩
  · show Outputs.mk _ _ _ _ _ _ _ _ _ _ = Outputs.mk _ _ _ _ _ _ _ _ _ _
    rw [Outputs.mk.injEq]
    refine ⟨rfl, rfl, rfl, rfl, rfl, hs, ?_, rfl, ?_, rfl⟩
    · have : ∀ j, curG { s.inp with verbose := v₁ } d j = curG { s.inp with verbose := v₂ } d j :=
        fun j => curG_congr hd (hv j)
      show Vec.tab _ _ = Vec.tab _ _
      congr 1
      funext b
      show (if b < d.nsb then curG _ _ _ else _) = _
      rw [this]
      rfl
    · have : ∀ j, curI { s.inp with verbose := v₁ } d j = curI { s.inp with verbose := v₂ } d j :=
        fun j => curI_congr hd (hv j)
      show Vec.tab _ _ = Vec.tab _ _
      congr 1
      funext b
      show (if b < d.nsb then curI _ _ _ else _) = _
      rw [this]
      rfl
  unfold runReports
  show (if v₁ > 0 then _ else _ : List (Report α)).length = _
  split <;> simp

example (v : Int) : ∃ s' r, run false ({ Ex.st (α := α) true with
    inp := { Ex.inputs true with verbose := v } }) = .ok (s', r) := by
  obtain ⟨x, hx⟩ : ∃ x, run false ({ Ex.st (α := α) true with
    inp := { Ex.inputs true with verbose := v } }) = .ok x := ⟨_, run_ok (d := Ex.dims true) (by
      have h := Ex.ready (α := α) true
      exact ⟨⟨h.asym, h.nfp, h.nfp_pos, h.mpol, h.mpol_ge, h.ntor, h.mnmax, h.mpol_nyq, h.mpol_nyq_ge,
      h.ntor_nyq, h.mnmax_nyq, h.mnmax_nyq_ge, h.ns_in, h.mboz, h.mboz_ge, h.nboz, h.xm, h.xm_range,
      h.xn, h.xn_range, h.xn_int, h.xm_nyq, h.xm_nyq_range, h.xn_nyq, h.xn_nyq_range, h.xn_nyq_int,
      h.s_in, h.iota, h.rmnc, h.zmns, h.lmns, h.bmnc, h.bsubumnc, h.bsubvmnc, h.rmns, h.zmnc, h.lmnc,
      h.bmns, h.bsubumns, h.bsubvmns, h.surfs, h.surfs_range, h.fit_ntor, h.fit_mq, h.fit_nq,
      h.fit_mpol⟩, h.fit_theta, h.fit_zeta, h.fit_pts, h.fit_nfp⟩) (by simp) (by simp)⟩
  exact ⟨x.1, x.2, hx⟩

/-! ### C45, C46 -/

theorem np_pos (d : Dims) : 1 ≤ d.np := by
  have hz := nz_pos d
  have h3 : 1 ≤ d.nu3 := by unfold Dims.nu3 Dims.nt Dims.nu2; split <;> omega
  exact Nat.mul_le_mul h3 hz

/-- **C45 is false of the code**: an object whose `mpol` is the largest poloidal mode number of its
arrays, as the header documents, has undefined behaviour in `run()` as soon as one surface is
selected. -/
theorem C45_false {s : St α} {M N nfp K k : ℕ} {asym : Bool} {p q : Int}
    (hM : s.inp.mboz = (M : Int)) (hN : s.inp.nboz = (N : Int)) (hnfp : s.inp.nfp = some (nfp : Int))
    (ha : s.inp.asym = some asym) (hp : s.inp.mpol = some p) (hq : s.inp.mpol_nyq = some q)
    (hK : s.inp.mnmax = some (K : Int)) (hk : k < K) (hm : s.inp.xm.rdN k = .ok p)
    (hs : 1 ≤ s.inp.compute_surfs.size) : ∃ w, run false s = ub w := by
  apply run_ub_of_not_ok
  intro r hr
  obtain ⟨s3, hi, hl⟩ := run_inv hr
  obtain ⟨s1, s2, h1, h2, h3⟩ := init_inv hi
  obtain ⟨-, -, -, -, e1, e2, e3⟩ := initGrid_inv (d := ⟨asym, M, N, nfp, 0, 0, 0, 0, 0, 0, 0, 0⟩) h1 hM hN hnfp ha
  obtain ⟨f1, f2, f3, f4, f5, f6⟩ := initTables_inv (p := p) (q := q) h2 e3 (np_pos _)
    (by rw [e1]; exact hp) (by rw [e1]; exact hq)
  obtain ⟨g1, g2⟩ := initOutputs_inv h3
  have hinp : s3.inp = s.inp := by rw [g1, f5, e1]
  rw [hinp] at hl
  obtain ⟨a, b, ha', hb⟩ := loop_iter hl (i := 0) (by omega)
  cases ha'
  obtain ⟨x, hx, hb⟩ := bind_ok hb
  obtain ⟨js, wmns, wmnc, rz, wb, j1, j2, j3⟩ := surfaceSolve_inv hx
  have := vcoordsRZ_inv j2 (np_pos _) (by rw [g2, f6]; exact e2) (by rw [hinp]; exact hK) hk
    (m := p) (by rw [hinp]; exact hm)
  rw [g2, f3] at this
  omega

/-- The example object with `mpol` set to the largest poloidal mode number, 2. -/
example : ∃ w, run false ({ Ex.st (α := α) false with
    inp := { Ex.inputs false with xm := Ex.vec [0, 1, 2] } }) = ub w :=
  C45_false (M := 2) (N := 1) (nfp := 2) (K := 3) (k := 2) (asym := false) (p := 2) (q := 2) rfl rfl rfl
    rfl rfl rfl rfl (by decide) rfl (by show 1 ≤ 2; decide)

/-- **C45, what does hold**: an otherwise well-formed object is safe to run once `mpol` is set to one
more than the largest poloidal mode number `p` (`p ≥ 1`).  Missing: the documented value `p` itself,
refuted above. -/
theorem C45_partial {s : St α} {d : Dims} (h : RunReady s.inp d) {p : ℕ} (hp : 1 ≤ p)
    (hint : p < 2147483647) (hm : ∀ k < d.mnmax, s.inp.xm.val 0 k ≤ p) :
    ∃ s' r, run false { s with inp := { s.inp with mpol := some ((p : Int) + 1) } } = .ok (s', r) := by
  refine C05_run_safe (d := { d with mpol := p + 1 }) ?_
  exact { h with
    mpol := by simp
    mpol_ge := by simp only; omega
    xm_range := fun k hk => ⟨(h.xm_range k hk).1, by have := hm k hk; simp only; push_cast; omega⟩
    fit_mpol := by simp only; omega }

example : ∃ s' r, run false ({ Ex.st (α := α) false with
    inp := { Ex.inputs false with mpol := some (((1 : ℕ) : Int) + 1) } }) = .ok (s', r) :=
  C45_partial (s := Ex.st false) (p := 1) (Ex.ready (α := α) false) (by decide) (by decide) fun k hk => by
    have := (Ex.ready (α := α) false).xm_range k hk
    have e : ((Ex.dims false).mpol : ℤ) = 2 := rfl
    show (Ex.inputs (α := α) false).xm.val 0 k ≤ _
    omega

/-- **C46 is false of the code**: an input with only m = 0 modes, described by `mpol = 1` or by
`mpol_nyq = 0`, has undefined behaviour in `run()`. -/
theorem C46_false {s : St α} {M N nfp : ℕ} {asym : Bool} {p q : Int}
    (hM : s.inp.mboz = (M : Int)) (hN : s.inp.nboz = (N : Int)) (hnfp : s.inp.nfp = some (nfp : Int))
    (ha : s.inp.asym = some asym) (hp : s.inp.mpol = some p) (hq : s.inp.mpol_nyq = some q)
    (h0 : p = 1 ∨ q = 0) : ∃ w, run false s = ub w := by
  apply run_ub_of_not_ok
  intro r hr
  obtain ⟨s3, hi, hl⟩ := run_inv hr
  obtain ⟨s1, s2, h1, h2, h3⟩ := init_inv hi
  obtain ⟨-, -, -, -, e1, e2, e3⟩ := initGrid_inv (d := ⟨asym, M, N, nfp, 0, 0, 0, 0, 0, 0, 0, 0⟩) h1 hM hN hnfp ha
  obtain ⟨f1, f2, -⟩ := initTables_inv (p := p) (q := q) h2 e3 (np_pos _)
    (by rw [e1]; exact hp) (by rw [e1]; exact hq)
  omega

/-- An axisymmetric cylinder-like input with a single harmonic. -/
example : ∃ w, run false ({ Ex.st (α := α) false with
    inp := { Ex.inputs false with mpol := some 1, mnmax := some 1, xm := Ex.vec [0], xn := Ex.vec [0] } }) =
      ub w :=
  C46_false (M := 2) (N := 1) (nfp := 2) (asym := false) (p := 1) (q := 2) rfl rfl rfl rfl rfl rfl (.inl rfl)

/-- **C46, what does hold**: such an input is safe to run once it is declared with one poloidal mode
more than it has (`mpol = 2`, `mpol_nyq = 1`).  Missing: the natural declaration, refuted above. -/
theorem C46_partial {s : St α} {d : Dims} (h : RunReady s.inp d)
    (hm : ∀ k < d.mnmax, s.inp.xm.val 0 k = 0) (hq : ∀ k < d.mnq, s.inp.xm_nyq.val 0 k = 0) :
    ∃ s' r, run false { s with inp := { s.inp with mpol := some 2, mpol_nyq := some 1 } } =
      .ok (s', r) := by
  refine C05_run_safe (d := { d with mpol := 2, mq := 1 }) ?_
  exact { h with
    mpol := rfl
    mpol_ge := Nat.le_refl _
    mpol_nyq := rfl
    mpol_nyq_ge := Nat.le_refl _
    xm_range := fun k hk => by rw [hm k hk]; simp
    xm_nyq_range := fun k hk => by rw [hq k hk]; simp
    fit_mpol := by simp only; omega
    fit_mq := by simp only; omega }

/-- The example object with all poloidal mode numbers set to 0. -/
example : ∃ s' r, run false ({ Ex.st (α := α) false with
    inp := { Ex.inputs (α := α) false with
      xm := Vec.tab 3 fun _ => 0
      xm_nyq := Vec.tab 4 fun _ => 0
      mpol := some 2
      mpol_nyq := some 1 } }) = .ok (s', r) := by
  have e3 : ∀ k < 3, (Vec.tab 3 fun _ => (0 : Int)).val 0 k = 0 := fun k hk => Vec.val_tab hk
  have e4 : ∀ k < 4, (Vec.tab 4 fun _ => (0 : Int)).val 0 k = 0 := fun k hk => Vec.val_tab hk
  refine C46_partial (d := Ex.dims false) (s := { Ex.st (α := α) false with
    inp := { Ex.inputs (α := α) false with
      xm := Vec.tab 3 fun _ => 0
      xm_nyq := Vec.tab 4 fun _ => 0 } }) ?_ e3 e4
  exact { Ex.ready (α := α) false with
    xm := Vec.full_tab 3 _
    xm_nyq := Vec.full_tab 4 _
    xm_range := fun k hk => by
      show 0 ≤ (Vec.tab 3 fun _ => (0 : Int)).val 0 k ∧ (Vec.tab 3 fun _ => (0 : Int)).val 0 k < 2
      rw [e3 k hk]; decide
    xm_nyq_range := fun k hk => by
      show 0 ≤ (Vec.tab 4 fun _ => (0 : Int)).val 0 k ∧ (Vec.tab 4 fun _ => (0 : Int)).val 0 k ≤ 2
      rw [e4 k hk]; decide }


/-! ### C47 -/

/-- The sizes of the integration grid and their products fit in a 32-bit `int`. -/
def Spec.GridFits (asym : Bool) (M N nfp : ℕ) : Prop :=
  let nt := 4 * M + 2
  let nz := if N = 0 then 1 else 4 * N + 2
  let A := if asym then nt else nt / 2 + 1
  nt < 2 ^ 31 ∧ 4 * N + 2 < 2 ^ 31 ∧ A * nz < 2 ^ 31 ∧ nfp * nz < 2 ^ 31

theorem gridFits_iff (d : Dims) : GridFits d.asym d.M d.N d.nfp ↔
    d.nt < 2147483648 ∧ 2 * (2 * d.N + 1) < 2147483648 ∧ d.np < 2147483648 ∧
      d.nfp * d.nz < 2147483648 := by
  have e1 : d.nt = 4 * d.M + 2 := by unfold Dims.nt; omega
  have e2 : d.nz = if d.N = 0 then 1 else 4 * d.N + 2 := by unfold Dims.nz; split <;> omega
  have e3 : d.nu3 = if d.asym then 4 * d.M + 2 else (4 * d.M + 2) / 2 + 1 := by
    unfold Dims.nu3 Dims.nu2; rw [e1]; split <;> omega
  unfold GridFits Dims.np
  simp only
  rw [← e1, e1, ← e2, ← e3]
  norm_num
  omega

/-- **C47.** For well-formed input, `run()` succeeds exactly when the grid sizes fit in 32 bits: no
other integer quantity it computes overflows first. -/
theorem C47_fits {s : St α} {d : Dims} (h : RunShape s.inp d) :
    (∃ r, run false s = .ok r) ↔ GridFits d.asym d.M d.N d.nfp := by
  rw [gridFits_iff]
  constructor
  · rintro ⟨r, hr⟩
    obtain ⟨s3, hi, hl⟩ := run_inv hr
    obtain ⟨s1, s2, h1, -, -⟩ := init_inv hi
    obtain ⟨a, b, c, e, -⟩ := initGrid_inv h1 h.mboz h.nboz h.nfp h.asym
    exact ⟨a, b, c, e⟩
  · rintro ⟨a, b, c, e⟩
    exact ⟨_, run_ok (s := s) ⟨h, a, b, c, e⟩ (by simp) (by simp)⟩

/-- **C47.** Otherwise the size computation overflows, which is undefined behaviour. -/
theorem C47_overflow {s : St α} {d : Dims} (h : RunShape s.inp d)
    (hf : ¬ GridFits d.asym d.M d.N d.nfp) : ∃ w, run false s = ub w :=
  run_ub_of_not_ok fun r hr => hf ((C47_fits h).mp ⟨r, hr⟩)

example : RunShape (Ex.inputs (α := α) true) (Ex.dims true) ∧ GridFits true 2 1 2 :=
  ⟨(Ex.ready true).toRunShape, by unfold GridFits; decide⟩

end Booz
