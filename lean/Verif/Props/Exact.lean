import Verif.Props.Run
import Verif.Lemmas.RunExact
import Verif.Lemmas.LoadMain
import Verif.ExamplesLoad

/-!
# Exactly when `run` is safe, and running what was loaded: C56, C57
-/

namespace Booz
open Spec
variable {α : Type} [Arith α]

theorem prepared_shape {I : Inputs α} {c : Contents} (hp : Prepared I c) (hr : InRange I c)
    (hN : 0 ≤ I.nboz) : RunShape I (c.dims I.mboz I.nboz) := by
  have e1 : ((c.mpol.toNat : Nat) : Int) = c.mpol := by have := hr.mpol; omega
  have e2 : ((c.ntor.toNat : Nat) : Int) = c.ntor := by have := hr.ntor_nonneg; omega
  have e3 : ((c.mpol_nyq.toNat : Nat) : Int) = c.mpol_nyq := by have := hr.mpol_nyq; omega
  have e4 : ((c.ntor_nyq.toNat : Nat) : Int) = c.ntor_nyq := by have := hr.ntor_nyq_nonneg; omega
  have f1 := hr.fit_ntor.2
  have f2 := hr.fit_mpol_nyq.2
  have f3 := hr.fit_ntor_nyq.2
  have f4 := hp.mpol_int
  have f5 := hr.mpol
  have f6 := hr.mpol_nyq
  have f7 := hr.mboz
  exact
  { asym := hp.asym
    nfp := hp.nfp
    nfp_pos := hp.nfp_pos
    mpol := by rw [hp.mpol]; exact congrArg some e1.symm
    mpol_ge := by simp only [Contents.dims]; omega
    ntor := by rw [hp.ntor]; exact congrArg some e2.symm
    mnmax := hp.mnmax
    mpol_nyq := by rw [hp.mpol_nyq]; exact congrArg some e3.symm
    mpol_nyq_ge := by simp only [Contents.dims]; omega
    ntor_nyq := by rw [hp.ntor_nyq]; exact congrArg some e4.symm
    mnmax_nyq := hp.mnmax_nyq
    mnmax_nyq_ge := hp.mnmax_nyq_pos
    ns_in := hp.ns_in
    mboz := by simp only [Contents.dims]; omega
    mboz_ge := by simp only [Contents.dims]; omega
    nboz := by simp only [Contents.dims]; omega
    xm := hp.xm
    xm_range := fun k hk => by simp only [Contents.dims]; rw [e1]; exact hr.xm k hk
    xn := hp.xn
    xn_range := fun k hk => by
      have h := (hr.xn k hk).2
      rw [← e2] at h
      exact_mod_cast h
    xn_int := fun k hk => (hr.xn k hk).1
    xm_nyq := hp.xm_nyq
    xm_nyq_range := fun k hk => by simp only [Contents.dims]; rw [e3]; exact hr.xm_nyq k hk
    xn_nyq := hp.xn_nyq
    xn_nyq_range := fun k hk => by
      have h := hr.xn_nyq k hk
      rw [← e4] at h
      exact_mod_cast h
    xn_nyq_int := hp.xn_nyq_int
    s_in := hp.s_in
    iota := hp.iota
    rmnc := hp.rmnc
    zmns := hp.zmns
    lmns := hp.lmns
    bmnc := hp.bmnc
    bsubumnc := hp.bsubumnc
    bsubvmnc := hp.bsubvmnc
    rmns := hp.rmns
    zmnc := hp.zmnc
    lmnc := hp.lmnc
    bmns := hp.bmns
    bsubumns := hp.bsubumns
    bsubvmns := hp.bsubvmns
    surfs := hp.surfs
    surfs_range := hr.surfs
    fit_ntor := by simp only [Contents.dims]; omega
    fit_mq := by simp only [Contents.dims]; omega
    fit_nq := by simp only [Contents.dims]; omega
    fit_mpol := by simp only [Contents.dims]; omega }

/-- A successful run of a prepared object used only numbers in range. -/
theorem inRange_of_run {s : St α} {c : Contents} (hp : Prepared s.inp c) (hN : 0 ≤ s.inp.nboz)
    {r : St α × List (Report α)} (hr : run false s = .ok r) :
    InRange s.inp c ∧ GridFits c.asym s.inp.mboz.toNat s.inp.nboz.toNat c.nfp := by
  obtain ⟨s3, hi, hl⟩ := run_inv hr
  obtain ⟨s1, s2, h1, h2, h3⟩ := init_inv hi
  have hM := initGrid_mboz h1 hN
  have eM : s.inp.mboz = ((s.inp.mboz.toNat : Nat) : Int) := by omega
  have eN : s.inp.nboz = ((s.inp.nboz.toNat : Nat) : Int) := by omega
  obtain ⟨i1, i2, i3, i4, e1, e2, e3⟩ := initGrid_inv (d := c.dims s.inp.mboz s.inp.nboz) h1 eM eN hp.nfp hp.asym
  have hnp := np_pos (c.dims s.inp.mboz s.inp.nboz)
  obtain ⟨f1, f2, f3, f4, f5, f6⟩ := initTables_inv (p := c.mpol) (q := c.mpol_nyq) h2 e3 hnp
    (by rw [e1]; exact hp.mpol) (by rw [e1]; exact hp.mpol_nyq)
  obtain ⟨n1, n2, n3, n4, n5, n6, n7⟩ := initTables_invN h2 e3 hnp
    (by rw [e1]; exact hp.ntor) (by rw [e1]; exact hp.mpol_nyq) (by rw [e1]; exact hp.ntor_nyq)
  obtain ⟨g1, g2⟩ := initOutputs_inv h3
  have hinp2 : s2.inp = s.inp := by rw [f5, e1]
  have hinp : s3.inp = s.inp := by rw [g1, hinp2]
  have hgn : s3.grid.n_theta_zeta = some (((c.dims s.inp.mboz s.inp.nboz).np : Nat) : Int) := by
    rw [g2, f6, e2]
  rw [hinp] at hl
  have hsz : s.inp.compute_surfs.size = c.nsb := hp.surfs.1
  obtain ⟨st, b, ha, hb⟩ := loop_iter hl (i := 0) (by rw [hsz]; exact hp.surfs_pos)
  cases ha
  obtain ⟨⟨s4, rep⟩, hs, -⟩ := bind_ok hb
  have hmb := surfaceSolve_mboz hs hnp hgn
  obtain ⟨js, wmns, wmnc, rz, wb, -, hrz, hw⟩ := surfaceSolve_inv hs
  rw [hinp] at hmb hrz hw
  refine ⟨?_, ?_⟩
  · exact
    { mboz := hmb
      mpol := f1
      mpol_nyq := f2
      xm := fun k hk => by
        obtain ⟨a1, a2, -, -⟩ := vcoordsRZ_invN hrz hnp hgn hp.nfp hp.mnmax hk
          (Vec.Full.rdN 0 hp.xm hk) (Vec.Full.rdN 0 hp.xn hk)
        rw [g2, f3] at a2
        exact ⟨a1, by omega⟩
      xn := fun k hk => by
        obtain ⟨-, -, a3, a4⟩ := vcoordsRZ_invN hrz hnp hgn hp.nfp hp.mnmax hk
          (Vec.Full.rdN 0 hp.xm hk) (Vec.Full.rdN 0 hp.xn hk)
        rw [g2, n6] at a4
        refine ⟨a3, ?_⟩
        have : (((s.inp.xn.val 0 k).natAbs / c.nfp : Nat) : Int) ≤ c.ntor := by omega
        exact_mod_cast this
      xm_nyq := fun k hk => by
        obtain ⟨a1, a2, -⟩ := vcoordsW_inv hw hnp hgn hp.nfp hp.mnmax_nyq hk
          (Vec.Full.rdN 0 hp.xm_nyq hk) (Vec.Full.rdN 0 hp.xn_nyq hk)
        rw [g2, f4] at a2
        exact ⟨a1, by omega⟩
      xn_nyq := fun k hk => by
        obtain ⟨-, -, a4⟩ := vcoordsW_inv hw hnp hgn hp.nfp hp.mnmax_nyq hk
          (Vec.Full.rdN 0 hp.xm_nyq hk) (Vec.Full.rdN 0 hp.xn_nyq hk)
        rw [g2, n7] at a4
        have : (((s.inp.xn_nyq.val 0 k).natAbs / c.nfp : Nat) : Int) ≤ c.ntor_nyq := by omega
        exact_mod_cast this
      surfs := fun k hk => by
        have := initOutputs_surfs h3 (k := k) (by rw [hinp2, hsz]; exact hk)
          (by rw [hinp2]; exact Vec.Full.rdN 0 hp.surfs hk)
        rw [hinp2, hp.s_in.1] at this
        exact ⟨this.1, by omega⟩
      ntor_nonneg := n1
      ntor_nyq_nonneg := n2
      fit_ntor := n3
      fit_mpol_nyq := n4
      fit_ntor_nyq := n5 }
  · exact (gridFits_iff (c.dims s.inp.mboz s.inp.nboz)).mpr ⟨i1, i2, i3, i4⟩

/-- **C57.**  For an object whose members are assigned and whose arrays have the declared lengths,
`run()` returns exactly when every number it holds is in range and the grid sizes are
representable. -/
theorem C57_exact {s : St α} {c : Contents} (hp : Prepared s.inp c) (hN : 0 ≤ s.inp.nboz) :
    (∃ r, run false s = .ok r) ↔
      InRange s.inp c ∧ GridFits c.asym s.inp.mboz.toNat s.inp.nboz.toNat c.nfp := by
  constructor
  · rintro ⟨r, hr⟩
    exact inRange_of_run hp hN hr
  · rintro ⟨hr, hg⟩
    exact (C47_fits (prepared_shape hp hr hN)).mpr hg

/-- **C57.**  In every other case the call has undefined behaviour: there is no exception and no
error message. -/
theorem C57_otherwise {s : St α} {c : Contents} (hp : Prepared s.inp c) (hN : 0 ≤ s.inp.nboz)
    (h : ¬ (InRange s.inp c ∧ GridFits c.asym s.inp.mboz.toNat s.inp.nboz.toNat c.nfp)) :
    ∃ w, run false s = ub w :=
  run_ub_of_not_ok fun r hr => h ((C57_exact hp hN).mp ⟨r, hr⟩)

/-- The contents of the example object. -/
def Ex.contents (asym : Bool) : Contents :=
  { asym := asym, nfp := 2, mpol := 2, ntor := 1, mpol_nyq := 2, ntor_nyq := 1, mnmax := 3, mnmax_nyq := 4, ns := 2, nsb := 2 }

theorem Ex.prepared (asym : Bool) : Prepared (Ex.inputs (α := α) asym) (Ex.contents asym) :=
  let h := Ex.ready (α := α) asym
  { asym := rfl
    nfp := rfl
    nfp_pos := h.nfp_pos
    mpol := rfl
    mpol_int := by show (2 : Int) < 2147483648; decide
    ntor := rfl
    mpol_nyq := rfl
    ntor_nyq := rfl
    mnmax := rfl
    mnmax_nyq := rfl
    mnmax_nyq_pos := h.mnmax_nyq_ge
    ns_in := rfl
    xm := h.xm
    xn := h.xn
    xm_nyq := h.xm_nyq
    xn_nyq := h.xn_nyq
    xn_nyq_int := h.xn_nyq_int
    s_in := h.s_in
    iota := h.iota
    rmnc := h.rmnc
    zmns := h.zmns
    lmns := h.lmns
    bmnc := h.bmnc
    bsubumnc := h.bsubumnc
    bsubvmnc := h.bsubvmnc
    rmns := h.rmns
    zmnc := h.zmnc
    lmnc := h.lmnc
    bmns := h.bmns
    bsubumns := h.bsubumns
    bsubvmns := h.bsubvmns
    surfs := h.surfs
    surfs_pos := by show 1 ≤ 2; decide }

/-- The example is in range; with the surface index 2 (of surfaces 0, 1) it is not, and `run()` has
undefined behaviour. -/
example (asym : Bool) : InRange (Ex.inputs (α := α) asym) (Ex.contents asym) ∧
    GridFits asym 2 1 2 :=
  (C57_exact (s := Ex.st asym) (Ex.prepared asym) (by show (0 : Int) ≤ 1; decide)).mp
    ⟨_, run_ok (s := Ex.st asym) (Ex.ready asym) (by simp) (by simp)⟩
example : ∃ w, run false ({ Ex.st (α := α) false with
    inp := { Ex.inputs false with compute_surfs := Ex.vec [1, 2] } }) = ub w := by
  have hp : Prepared { Ex.inputs (α := α) false with compute_surfs := Ex.vec [1, 2] } (Ex.contents false) :=
    { Ex.prepared (α := α) false with surfs := Ex.full_vec [1, 2] }
  refine C57_otherwise (c := Ex.contents false) hp (by show (0 : Int) ≤ 1; decide) ?_
  rintro ⟨h, -⟩
  have h2 : (2 : Int) < 2 := (h.surfs 1 (by show 1 < 2; decide)).2
  omega

/-! ### C58 -/

/-- **C58 is false of the code**: with `mboz = nboz = -1` a stellarator-symmetric object is
"transformed" without any error; the result claims two harmonics, both labelled (0,0), with zero
amplitude. -/
theorem C58_false : ∃ s' : St α, run false { Ex.st (α := α) false with
      inp := { Ex.inputs (α := α) false with verbose := 0, mboz := -1, nboz := -1 } } = .ok (s', []) ∧
    s'.out.mnboz = some 2 ∧ s'.out.xm_b = #[some 0, some 0] ∧ s'.out.xn_b = #[some 0, some 0] ∧
    s'.out.spec.bmnc_b.rdN 0 0 = .ok (ofInt 0) ∧ s'.out.spec.rmnc_b.rdN 0 0 = .ok (ofInt 0) :=
  ⟨_, rfl, rfl, rfl, rfl, rfl, rfl⟩

/-- **C58, what does hold**: unless both are negative, a resolution below `mboz = 1`, `nboz = 0` never
gives a result.  Missing: both negative, refuted above; and instead of an exception there is undefined
behaviour. -/
theorem C58_partial {s : St α} {c : Contents} (hp : Prepared s.inp c)
    (h : (s.inp.mboz < 1 ∧ 0 ≤ s.inp.nboz) ∨ (s.inp.nboz < 0 ∧ 0 ≤ s.inp.mboz)) :
    ∃ w, run false s = ub w := by
  refine run_ub_of_not_ok fun r hr => ?_
  rcases h with ⟨h1, h2⟩ | ⟨h1, h2⟩
  · have := (inRange_of_run hp h2 hr).1.mboz
    omega
  · obtain ⟨s3, hi, -⟩ := run_inv hr
    obtain ⟨s1, s2, hg, -, -⟩ := init_inv hi
    have := initGrid_nboz hg h2
    omega

/-- The example with `mboz = 0`. -/
example (asym : Bool) : ∃ w, run false ({ Ex.st (α := α) asym with
    inp := { Ex.inputs asym with mboz := 0 } }) = ub w :=
  C58_partial (c := Ex.contents asym) { Ex.prepared (α := α) asym with }
    (.inl ⟨by show (0 : Int) < 1; decide, by show (0 : Int) ≤ 1; decide⟩)

/-! ### C56 -/

/-- The mode numbers respect the declared maxima (`mq` being `mpol_nyq`).  `init_from_vmec` checks
the first and last entries of the lists only. -/
structure Spec.ModesWithin (I : Inputs α) (z : Sizes) (mq : Int) : Prop where
  mpol : 2 ≤ z.mpol
  mpol_nyq : 1 ≤ mq
  xm : ∀ k, k < I.xm.size → 0 ≤ I.xm.val 0 k ∧ I.xm.val 0 k < z.mpol
  xn : ∀ k, k < I.xn.size → (I.xn.val 0 k).natAbs < 2147483648 ∧
    ((I.xn.val 0 k).natAbs : Int) / z.nfp ≤ z.ntor
  xm_nyq : ∀ k, k < I.xm_nyq.size → 0 ≤ I.xm_nyq.val 0 k ∧ I.xm_nyq.val 0 k ≤ mq
  xn_nyq : ∀ k, k < I.xn_nyq.size → ((I.xn_nyq.val 0 k).natAbs : Int) / z.nfp ≤ z.ntor_nyq
  fit_mpol_nyq : FitsInt (mq + 1)
  fit_ntor_nyq : FitsInt (z.ntor_nyq + 1)

/-- The contents of an object loaded from `ns` surfaces, with `nsb` of them selected. -/
def loadedContents (ns : Int) (z : Sizes) (mq : Int) (nsb : Nat) : Contents where
  asym := z.asym
  nfp := z.nfp.toNat
  mpol := z.mpol
  ntor := z.ntor
  mpol_nyq := mq
  ntor_nyq := z.ntor_nyq
  mnmax := z.mnmax.toNat
  mnmax_nyq := z.mnmax_nyq.toNat
  ns := (ns - 1).toNat
  nsb := nsb

/-- A loaded object is prepared, whatever nonempty selection of surfaces and resolution is assigned
to it. -/
theorem loaded_prepared {ns : Int} {A : VmecArgs α} {I : Inputs α} {z : Sizes} {mq : Int}
    (hg : Given A I z) (hc : Computable z) (C : Consistent ns A I z) (L : Loadable ns A I z)
    (hq : I.mpol_nyq = some mq)
    (hi : ∀ k, k < I.xn_nyq.size → (I.xn_nyq.val 0 k).natAbs < 2147483648)
    (vb M N : Int) {v : Vec Int} {nsb : Nat} (hv : v.Full nsb) (hn : 1 ≤ nsb) :
    Prepared { loadedInp ns A I z with verbose := vb, mboz := M, nboz := N, compute_surfs := v }
      (loadedContents ns z mq nsb) := by
  have k1 := C.modes.xm_len
  have k2 := C.modes.xn_len
  have k3 := C.modes_nyq.xm_len
  have k4 := C.modes_nyq.xn_len
  have e1 : I.xm.size = z.mnmax.toNat := by omega
  have e2 : I.xn.size = z.mnmax.toNat := by omega
  have e3 : I.xm_nyq.size = z.mnmax_nyq.toNat := by omega
  have e4 : I.xn_nyq.size = z.mnmax_nyq.toNat := by omega
  have f1 := C.nfp_ge
  have f2 := C.ns_ge
  have f3 := hc.modes_nyq
  have f4 := L.fit_m.2
  exact
  { asym := hg.sized.asym
    nfp := by
      show I.nfp = _
      rw [hg.sized.nfp]; simp only [loadedContents]; congr 1; omega
    nfp_pos := by simp only [loadedContents]; omega
    mpol := hg.sized.mpol
    mpol_int := by simp only [loadedContents]; omega
    ntor := hg.sized.ntor
    mpol_nyq := hq
    ntor_nyq := hg.sized.ntor_nyq
    mnmax := by
      show I.mnmax = _
      rw [hg.sized.mnmax]; simp only [loadedContents]; congr 1; omega
    mnmax_nyq := by
      show I.mnmax_nyq = _
      rw [hg.sized.mnmax_nyq]; simp only [loadedContents]; congr 1; omega
    mnmax_nyq_pos := by simp only [loadedContents]; omega
    ns_in := by
      show some (ns - 1) = _
      simp only [loadedContents]; congr 1; omega
    xm := show I.xm.Full z.mnmax.toNat from e1 ▸ hg.lists.xm
    xn := show I.xn.Full z.mnmax.toNat from e2 ▸ hg.lists.xn
    xm_nyq := show I.xm_nyq.Full z.mnmax_nyq.toNat from e3 ▸ hg.lists.xm_nyq
    xn_nyq := show I.xn_nyq.Full z.mnmax_nyq.toNat from e4 ▸ hg.lists.xn_nyq
    xn_nyq_int := fun k hk => hi k (hk.trans_eq e4.symm)
    s_in := Vec.full_tab _ _
    iota := Vec.full_tab _ _
    rmnc := Mat.full_tab _ _ _
    zmns := Mat.full_tab _ _ _
    lmns := Mat.full_tab _ _ _
    bmnc := Mat.full_tab _ _ _
    bsubumnc := Mat.full_tab _ _ _
    bsubvmnc := Mat.full_tab _ _ _
    rmns := fun (h : z.asym = true) => by simp only [loadedInp, if_pos h]; exact Mat.full_tab _ _ _
    zmnc := fun (h : z.asym = true) => by simp only [loadedInp, if_pos h]; exact Mat.full_tab _ _ _
    lmnc := fun (h : z.asym = true) => by simp only [loadedInp, if_pos h]; exact Mat.full_tab _ _ _
    bmns := fun (h : z.asym = true) => by simp only [loadedInp, if_pos h]; exact Mat.full_tab _ _ _
    bsubumns := fun (h : z.asym = true) => by simp only [loadedInp, if_pos h]; exact Mat.full_tab _ _ _
    bsubvmns := fun (h : z.asym = true) => by simp only [loadedInp, if_pos h]; exact Mat.full_tab _ _ _
    surfs := hv
    surfs_pos := hn }

/-- For a loaded object, `InRange` is `ModesWithin` and a legal choice of resolution and
surfaces. -/
theorem loaded_inRange {ns : Int} {A : VmecArgs α} {I : Inputs α} {z : Sizes} {mq : Int}
    (hc : Computable z) (C : Consistent ns A I z) (L : Loadable ns A I z)
    (vb M N : Int) (v : Vec Int) (nsb : Nat) :
    InRange { loadedInp ns A I z with verbose := vb, mboz := M, nboz := N, compute_surfs := v }
        (loadedContents ns z mq nsb) ↔
      ModesWithin I z mq ∧ 1 ≤ M ∧ ∀ k, k < nsb → 0 ≤ v.val 0 k ∧ v.val 0 k < ns - 1 := by
  have k1 := C.modes.xm_len
  have k2 := C.modes.xn_len
  have k3 := C.modes_nyq.xm_len
  have k4 := C.modes_nyq.xn_len
  have e1 : I.xm.size = z.mnmax.toNat := by omega
  have e2 : I.xn.size = z.mnmax.toNat := by omega
  have e3 : I.xm_nyq.size = z.mnmax_nyq.toNat := by omega
  have e4 : I.xn_nyq.size = z.mnmax_nyq.toNat := by omega
  have f1 := C.nfp_ge
  have f2 := C.ns_ge
  have ep : ((z.nfp.toNat : Nat) : Int) = z.nfp := by omega
  have es : (((ns - 1).toNat : Nat) : Int) = ns - 1 := by omega
  constructor
  · intro h
    refine ⟨⟨h.mpol, h.mpol_nyq, fun k hk => h.xm k (hk.trans_eq e1), fun k hk => ?_,
      fun k hk => h.xm_nyq k (hk.trans_eq e3), fun k hk => ?_, h.fit_mpol_nyq, h.fit_ntor_nyq⟩, h.mboz,
      fun k hk => ?_⟩
    · have := h.xn k (hk.trans_eq e2)
      simp only [loadedContents, ep] at this
      exact this
    · have := h.xn_nyq k (hk.trans_eq e4)
      simp only [loadedContents, ep] at this
      exact this
    · have := h.surfs k hk
      simp only [loadedContents, es] at this
      exact this
  · rintro ⟨h, hM, hs⟩
    have g1 := hc.modes
    have g2 := hc.modes_nyq
    have n1 : 0 ≤ z.ntor := by
      have := (h.xn 0 (by omega)).2
      rw [C.modes.first_n] at this
      simpa using this
    have n2 : 0 ≤ z.ntor_nyq := by
      have := h.xn_nyq 0 (by omega)
      rw [C.modes_nyq.first_n] at this
      simpa using this
    exact
    { mboz := hM
      mpol := h.mpol
      mpol_nyq := h.mpol_nyq
      xm := fun k hk => h.xm k (hk.trans_eq e1.symm)
      xn := fun k hk => by simp only [loadedContents, ep]; exact h.xn k (hk.trans_eq e2.symm)
      xm_nyq := fun k hk => h.xm_nyq k (hk.trans_eq e3.symm)
      xn_nyq := fun k hk => by simp only [loadedContents, ep]; exact h.xn_nyq k (hk.trans_eq e4.symm)
      surfs := fun k hk => by simp only [loadedContents, es]; exact hs k hk
      ntor_nonneg := n1
      ntor_nyq_nonneg := n2
      fit_ntor := by
        have := L.fit_n.2
        simp only [loadedContents]
        constructor <;> omega
      fit_mpol_nyq := h.fit_mpol_nyq
      fit_ntor_nyq := h.fit_ntor_nyq }

/-- **C56, any choice.**  After a successful load and an assignment of `verbose`, `mboz`,
`nboz ≥ 0` and a nonempty list of surfaces, `run()` returns exactly when the mode numbers that were
loaded respect the declared maxima, `mboz ≥ 1`, the surfaces exist, and the grid sizes are
representable. -/
theorem C56_load_choose_run {ns : Int} {A : VmecArgs α} {s s' : St α} {z : Sizes} {u : Unit} {mq : Int}
    (hg : Given A s.inp z) (h : initFromVmec ns A s = .ok u s') (hq : s.inp.mpol_nyq = some mq)
    (hi : ∀ k, k < s.inp.xn_nyq.size → (s.inp.xn_nyq.val 0 k).natAbs < 2147483648)
    (vb M N : Int) (hN : 0 ≤ N) {v : Vec Int} {nsb : Nat} (hv : v.Full nsb) (hn : 1 ≤ nsb) :
    (∃ r, run false { s' with inp := { s'.inp with
        verbose := vb
        mboz := M
        nboz := N
        compute_surfs := v } } = .ok r) ↔
      ModesWithin s.inp z mq ∧ 1 ≤ M ∧ (∀ k, k < nsb → 0 ≤ v.val 0 k ∧ v.val 0 k < ns - 1) ∧
        GridFits z.asym M.toNat N.toNat z.nfp.toNat := by
  obtain ⟨hf, hc, C, L⟩ := vmec_inv hg h
  have e := vmec_result hg h
  subst e
  have hg' := given_withNs hg ns
  have hp := loaded_prepared (I := (withNs s ns).inp) hg' hc (consistent_withNs.mpr C)
    (loadable_withNs.mpr L) hq hi vb M N hv hn
  have hr := loaded_inRange (I := (withNs s ns).inp) (mq := mq) hc (consistent_withNs.mpr C)
    (loadable_withNs.mpr L) vb M N v nsb
  refine (C57_exact (s := { s with inp := { loadedInp ns A (withNs s ns).inp z with
      verbose := vb, mboz := M, nboz := N, compute_surfs := v }, flux := fluxV (ns - 1).toNat A })
    hp hN).trans ?_
  rw [hr]
  have hw : ModesWithin (withNs s ns).inp z mq ↔ ModesWithin s.inp z mq :=
    ⟨fun w => ⟨w.1, w.2, w.3, w.4, w.5, w.6, w.7, w.8⟩, fun w => ⟨w.1, w.2, w.3, w.4, w.5, w.6, w.7, w.8⟩⟩
  rw [hw]
  exact ⟨fun w => ⟨w.1.1, w.1.2.1, w.1.2.2, w.2⟩, fun w => ⟨⟨w.1, w.2.1, w.2.2.1⟩, w.2.2.2⟩⟩

/-- **C56.**  A successfully loaded configuration can be transformed with its default settings
exactly when its mode numbers respect the declared maxima and the grid sizes are representable. -/
theorem C56_load_run {ns : Int} {A : VmecArgs α} {s s' : St α} {z : Sizes} {u : Unit} {mq : Int}
    (hg : Given A s.inp z) (h : initFromVmec ns A s = .ok u s') (hq : s.inp.mpol_nyq = some mq)
    (hi : ∀ k, k < s.inp.xn_nyq.size → (s.inp.xn_nyq.val 0 k).natAbs < 2147483648) :
    (∃ r, run false s' = .ok r) ↔
      ModesWithin s.inp z mq ∧
        GridFits z.asym (6 * z.mpol).toNat (max (2 * z.ntor - 1) 0).toNat z.nfp.toNat := by
  obtain ⟨hf, hc, C, L⟩ := vmec_inv hg h
  have e := vmec_result hg h
  have hns := C.ns_ge
  have hx := C56_load_choose_run hg h hq hi s'.inp.verbose (6 * z.mpol) (max (2 * z.ntor - 1) 0)
    (by omega) (Vec.full_tab (ns - 1).toNat fun j => (j : Int)) (by omega)
  have e2 : ({ s' with inp := { s'.inp with
        verbose := s'.inp.verbose
        mboz := 6 * z.mpol
        nboz := max (2 * z.ntor - 1) 0
        compute_surfs := Vec.tab (ns - 1).toNat fun j => (j : Int) } } : St α) = s' := by
    subst e; rfl
  rw [e2] at hx
  rw [hx]
  constructor
  · rintro ⟨a, -, -, b⟩
    exact ⟨a, b⟩
  · rintro ⟨a, b⟩
    refine ⟨a, by have := a.mpol; omega, fun k hk => ?_, b⟩
    rw [Vec.val_tab hk]
    omega

/-- **C56, debug build, exact arithmetic.**  The assertions hold too. -/
theorem C56_load_run_debug {ns : Int} {A : VmecArgs ℝ} {s s' : St ℝ} {z : Sizes} {u : Unit} {mq : Int}
    (hg : Given A s.inp z) (h : initFromVmec ns A s = .ok u s') (hq : s.inp.mpol_nyq = some mq)
    (hi : ∀ k, k < s.inp.xn_nyq.size → (s.inp.xn_nyq.val 0 k).natAbs < 2147483648)
    (hw : ModesWithin s.inp z mq)
    (hf : GridFits z.asym (6 * z.mpol).toNat (max (2 * z.ntor - 1) 0).toNat z.nfp.toNat) :
    ∃ r, run true s' = .ok r := by
  obtain ⟨r, hr⟩ := (C56_load_run hg h hq hi).mpr ⟨hw, hf⟩
  obtain ⟨-, hc, C, L⟩ := vmec_inv hg h
  have e := vmec_result hg h
  have hns := C.ns_ge
  have hg' := given_withNs hg ns
  have C' := (consistent_withNs (s := s) (k := ns)).mpr C
  have L' := (loadable_withNs (s := s) (k := ns)).mpr L
  have hp := loaded_prepared (I := (withNs s ns).inp) hg' hc C' L' hq hi s'.inp.verbose (6 * z.mpol)
    (max (2 * z.ntor - 1) 0) (Vec.full_tab (ns - 1).toNat fun j => (j : Int)) (by omega)
  have hp' : Prepared s'.inp (loadedContents ns z mq (ns - 1).toNat) := by subst e; exact hp
  have hN : 0 ≤ s'.inp.nboz := by subst e; show 0 ≤ max (2 * z.ntor - 1) 0; omega
  obtain ⟨i1, i2⟩ := (C57_exact hp' hN).mp ⟨r, hr⟩
  have hsh := prepared_shape hp' i1 hN
  have hrd : RunReady s'.inp _ := ⟨hsh, ((gridFits_iff _).mp i2).1, ((gridFits_iff _).mp i2).2.1,
    ((gridFits_iff _).mp i2).2.2.1, ((gridFits_iff _).mp i2).2.2.2⟩
  have ho : OriginFirst s'.inp := by
    subst e
    exact ⟨C.modes_nyq.first_m, C.modes_nyq.first_n⟩
  obtain ⟨t, q, hq⟩ := C05_run_safe_debug (dbg := true) hrd ho
  exact ⟨_, hq⟩

theorem Ex.within (asym : Bool) : ModesWithin (Ex.vst (α := α) asym).inp (Ex.sizes asym) 2 where
  mpol := by show (2 : Int) ≤ 2; decide
  mpol_nyq := by decide
  xm := fun k hk => match k, (hk : k < 3) with
    | 0, _ => (by decide : (0 : Int) ≤ 0 ∧ (0 : Int) < 2)
    | 1, _ => (by decide : (0 : Int) ≤ 0 ∧ (0 : Int) < 2)
    | 2, _ => (by decide : (0 : Int) ≤ 1 ∧ (1 : Int) < 2)
  xn := fun k hk => match k, (hk : k < 3) with
    | 0, _ => (by decide : Int.natAbs 0 < 2147483648 ∧ (Int.natAbs 0 : Int) / 2 ≤ 1)
    | 1, _ => (by decide : Int.natAbs 2 < 2147483648 ∧ (Int.natAbs 2 : Int) / 2 ≤ 1)
    | 2, _ => (by decide : Int.natAbs 2 < 2147483648 ∧ (Int.natAbs 2 : Int) / 2 ≤ 1)
  xm_nyq := fun k hk => match k, (hk : k < 4) with
    | 0, _ => (by decide : (0 : Int) ≤ 0 ∧ (0 : Int) ≤ 2)
    | 1, _ => (by decide : (0 : Int) ≤ 0 ∧ (0 : Int) ≤ 2)
    | 2, _ => (by decide : (0 : Int) ≤ 1 ∧ (1 : Int) ≤ 2)
    | 3, _ => (by decide : (0 : Int) ≤ 2 ∧ (2 : Int) ≤ 2)
  xn_nyq := fun k hk => match k, (hk : k < 4) with
    | 0, _ => (by decide : (Int.natAbs 0 : Int) / 2 ≤ 1)
    | 1, _ => (by decide : (Int.natAbs 2 : Int) / 2 ≤ 1)
    | 2, _ => (by decide : (Int.natAbs 0 : Int) / 2 ≤ 1)
    | 3, _ => (by decide : (Int.natAbs 2 : Int) / 2 ≤ 1)
  fit_mpol_nyq := by decide
  fit_ntor_nyq := by show FitsInt (1 + 1); decide

theorem Ex.nyqInt (asym : Bool) : ∀ k, k < (Ex.vst (α := α) asym).inp.xn_nyq.size →
    ((Ex.vst (α := α) asym).inp.xn_nyq.val 0 k).natAbs < 2147483648 :=
  fun k hk => match k, (hk : k < 4) with
    | 0, _ => (by decide : Int.natAbs 0 < 2147483648)
    | 1, _ => (by decide : Int.natAbs 2 < 2147483648)
    | 2, _ => (by decide : Int.natAbs 0 < 2147483648)
    | 3, _ => (by decide : Int.natAbs 2 < 2147483648)

/-- The example is loaded and run with its default settings, mboz = 12 and nboz = 1. -/
example (asym : Bool) : ∃ s' r, initFromVmec 4 (Ex.vmec (α := α)) (Ex.vst asym) = .ok () s' ∧
    run false s' = .ok r := by
  obtain ⟨s', hs⟩ := Ex.loads (α := α) asym
  obtain ⟨r, hr⟩ := (C56_load_run (mq := 2) (Ex.given asym) hs rfl (Ex.nyqInt asym)).mpr
    ⟨Ex.within asym, by cases asym <;> (show GridFits _ 12 1 2; unfold GridFits; decide)⟩
  exact ⟨s', r, hs, hr⟩
/-- ... and in the debug build. -/
example (asym : Bool) : ∃ s' r, initFromVmec 4 (Ex.vmec (α := ℝ)) (Ex.vst asym) = .ok () s' ∧
    run true s' = .ok r := by
  obtain ⟨s', hs⟩ := Ex.loads (α := ℝ) asym
  obtain ⟨r, hr⟩ := C56_load_run_debug (mq := 2) (Ex.given asym) hs rfl (Ex.nyqInt asym)
    (Ex.within asym) (by cases asym <;> (show GridFits _ 12 1 2; unfold GridFits; decide))
  exact ⟨s', r, hs, hr⟩

/-- The example with `mpol_nyq` one too small: the load succeeds, `run()` has undefined
behaviour. -/
example : ∃ s' w, initFromVmec 4 (Ex.vmec (α := α)) { Ex.vst false with
      inp := { (Ex.vst (α := α) false).inp with mpol_nyq := some 1 } } = .ok () s' ∧
    run false s' = ub w := by
  have hg : Given (Ex.vmec (α := α)) { (Ex.vst (α := α) false).inp with mpol_nyq := some 1 } (Ex.sizes false) :=
    ⟨⟨rfl, rfl, rfl, rfl, rfl, rfl, rfl⟩, { Ex.lists (α := α) false with }, Ex.args⟩
  have hc : Consistent 4 (Ex.vmec (α := α)) { (Ex.vst (α := α) false).inp with mpol_nyq := some 1 } (Ex.sizes false) :=
    { Ex.consistent (α := α) false with }
  have hl : Loadable 4 (Ex.vmec (α := α)) { (Ex.vst (α := α) false).inp with mpol_nyq := some 1 } (Ex.sizes false) :=
    { Ex.loadable (α := α) false with }
  obtain ⟨s', hs⟩ : ∃ s', initFromVmec 4 (Ex.vmec (α := α)) { Ex.vst false with
      inp := { (Ex.vst (α := α) false).inp with mpol_nyq := some 1 } } = .ok () s' :=
    ⟨_, vmec_ok (by decide) hg (Ex.computable false) hc hl⟩
  refine ⟨s', ?_⟩
  suffices h : ∃ w, run false s' = ub w from h.imp fun w hw => ⟨hs, hw⟩
  refine run_ub_of_not_ok fun r hr => ?_
  have := ((C56_load_run (mq := 1) hg hs rfl (Ex.nyqInt (α := α) false)).mp ⟨r, hr⟩).1.xm_nyq 3
    (by show 3 < 4; decide)
  have h2 : (2 : Int) ≤ 1 := this.2
  omega

end Booz
