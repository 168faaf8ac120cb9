import Verif.Props.Wires
import Verif.Props.Boozmn

/-!
# C63: plots made from a file
-/

namespace Booz
open Spec Plots
variable {α : Type} [Arith α] {s t : St α}

/-- Two objects that look alike to the plotting functions. -/
structure SameResults (s t : St α) (asym : Bool) : Prop where
  asym_s : s.inp.asym = some asym
  asym_t : t.inp.asym = some asym
  nfp : t.inp.nfp = s.inp.nfp
  mnboz : t.out.mnboz = s.out.mnboz
  ns_b : t.out.ns_b = s.out.ns_b
  xm_b : t.out.xm_b = s.out.xm_b
  xn_b : t.out.xn_b = s.out.xn_b
  s_b : t.out.s_b = s.out.s_b
  bmnc_b : t.out.spec.bmnc_b = s.out.spec.bmnc_b
  rmnc_b : t.out.spec.rmnc_b = s.out.spec.rmnc_b
  zmns_b : t.out.spec.zmns_b = s.out.spec.zmns_b
  numns_b : t.out.spec.numns_b = s.out.spec.numns_b
  asym_spec : asym = true → t.out.spec = s.out.spec

theorem surfplot_same {asym : Bool} (h : SameResults s t asym) (js : Int) (fill : Bool) (nt np nc : Int) :
    surfplotObj t js fill nt np nc = surfplotObj s js fill nt np nc := by
  have e : ∀ th ph, modBStep t js th ph = modBStep s js th ph := by
    intro th ph
    funext k z
    unfold modBStep
    rw [h.asym_t, h.asym_s, h.xm_b, h.xn_b, h.bmnc_b]
    cases asym with
    | false => rfl
    | true => rw [h.asym_spec rfl]
  unfold surfplotObj
  rw [show period t = period s by unfold period; rw [h.nfp], h.xm_b, h.s_b]
  simp only [e]

theorem symplot_same {asym : Bool} (h : SameResults s t asym) (a : SymArgs α) : symplotObj t a = symplotObj s a := by
  unfold symplotObj filtered radial symLegend legendLine firstMode modeAt
  rw [h.xm_b, h.xn_b, h.s_b, h.bmnc_b, h.nfp]
  have : ∀ d r, symStep t a d r = symStep s a d r := by
    intro d r
    unfold symStep
    rw [h.xm_b, h.xn_b, h.nfp]
  simp only [this]

theorem modeplot_same {asym : Bool} (h : SameResults s t asym) (argsort : List α → List Nat) (a : ModeArgs α) :
    modeplotObj argsort t a = modeplotObj argsort s a := by
  unfold modeplotObj filtered radial
  rw [h.xm_b, h.xn_b, h.s_b, h.bmnc_b]
  have : ∀ d r o i, modeplotStep t a d r o i = modeplotStep s a d r o i := by
    intro d r o i
    unfold modeplotStep
    rw [h.xm_b, h.xn_b]
  simp only [this]

theorem wireplot_same {asym : Bool} (h : SameResults s t asym) (a : WireArgs) (ho : a.orig = false) :
    wireplotObj t a = wireplotObj s a := by
  have e : ∀ js th ph, wireStep t js th ph = wireStep s js th ph := by
    intro js th ph
    funext k z
    unfold wireStep
    rw [h.asym_t, h.asym_s, h.xm_b, h.xn_b, h.rmnc_b, h.zmns_b, h.numns_b]
    cases asym with
    | false => rfl
    | true => rw [h.asym_spec rfl]
  unfold wireplotObj
  rw [show wireJs t a = wireJs s a by unfold wireJs; rw [h.ns_b], h.mnboz]
  simp only [e, ho, Bool.false_eq_true, if_false]

/-- Reading a file written after a run gives such an object. -/
theorem file_same {env : Env} {version filename : String} {disk : Disk α} {w : _} {s s' : St α} {d : Dims}
    {r : List (Report α)} (hneg : ∀ x : α, - - x = x) (h : RunReady s.inp d) (hg : HalfGrid s.inp.s_in d.ns)
    (h1 : 1 ≤ d.nsb) (h2 : d.nsb ≤ 2147483644) (h3 : d.ns + 1 ≤ 2147483644) (hf : FluxOk s.flux d.ns)
    (hphi : s.flux.phip.size ≠ 0 → ∃ x, s.flux.phi[d.ns]? = some (some x))
    (hr : run false s = .ok (s', r)) (hv : VersionOk version)
    (hw : writeBoozmn env version filename disk s' = .ok () w) :
    ∃ t, readBoozmn w.core.disk filename construct = .ok () t ∧ SameResults s' t d.asym ∧
      t.inp.mnmax = none ∧ t.inp.compute_surfs = s'.inp.compute_surfs := by
  have hrun := hr
  rw [run_ok h (by simp) (by simp)] at hr
  cases hr
  have hR := run_hasResults h h1 h2 h3 hf
  obtain ⟨t, ht, hb, hfr⟩ := C33_roundtrip hneg hR hv hw hphi construct
  have hs := C33_roundtrip_s_b (t := construct) h hg hrun hb
  refine ⟨t, ht, ⟨hR.asym_eq, hb.asym_eq, hb.nfp, hb.mnboz, hb.ns_b, hb.xm_b, hb.xn_b, hs, hb.bmnc_b, hb.rmnc_b,
    hb.zmns_b, hb.numns_b, hb.asym_spec⟩, ?_, hb.compute_surfs⟩
  rw [hfr.inp]
  rfl

theorem handleB_file {disk : Disk α} {name : String} {t : St α} (h : readBoozmn disk name construct = .ok () t)
    (f : List (Drawn α)) : handleB disk (.file name) f = .ok t f := by
  simp only [handleB, h]

/-- **C63 (partial: without the original curves).**  After a run on VMEC's half grid, the plots made from
the file written by `write_boozmn` are the plots of the object itself, for all parameters (and they
raise the same exceptions). -/
theorem C63_partial {env : Env} {version filename : String} {disk : Disk α} {w : _} {s s' : St α} {d : Dims}
    {r : List (Report α)} (hneg : ∀ x : α, - - x = x) (h : RunReady s.inp d) (hg : HalfGrid s.inp.s_in d.ns)
    (h1 : 1 ≤ d.nsb) (h2 : d.nsb ≤ 2147483644) (h3 : d.ns + 1 ≤ 2147483644) (hf : FluxOk s.flux d.ns)
    (hphi : s.flux.phip.size ≠ 0 → ∃ x, s.flux.phi[d.ns]? = some (some x))
    (hr : run false s = .ok (s', r)) (hv : VersionOk version)
    (hw : writeBoozmn env version filename disk s' = .ok () w) (any : Disk α) :
    (∀ js fill nt np nc, surfplot w.core.disk (.file filename) js fill nt np nc =
      surfplot any (.object s') js fill nt np nc) ∧
    (∀ a, symplot w.core.disk (.file filename) a = symplot any (.object s') a) ∧
    (∀ argsort a, modeplot argsort w.core.disk (.file filename) a = modeplot argsort any (.object s') a) ∧
    (∀ a, a.orig = false → wireplot w.core.disk (.file filename) a = wireplot any (.object s') a) := by
  obtain ⟨t, ht, hs, _, _⟩ := file_same hneg h hg h1 h2 h3 hf hphi hr hv hw
  have hh : ∀ {β : Type} (k : St α → Fig α β), (handleB w.core.disk (.file filename) >>= k) = k t := by
    intro β k
    funext f
    rw [Prog.bind_def, handleB_file ht]
  refine ⟨fun js fill nt np nc => ?_, fun a => ?_, fun argsort a => ?_, fun a ho => ?_⟩
  · unfold surfplot
    rw [hh, surfplot_same hs]
    rfl
  · unfold symplot
    rw [hh, symplot_same hs]
    rfl
  · unfold modeplot
    rw [hh, modeplot_same hs]
    rfl
  · unfold wireplot
    rw [hh, wireplot_same hs a ho]
    rfl

/-- The example object meets the hypotheses of `C63_partial`. -/
example (hneg : ∀ x : α, - - x = x) (asym fl : Bool) : ∃ w,
    writeBoozmn Ex.calm "0.0.1" "boozmn.nc" Ex.disk0 (Ex.done (α := α) asym fl) = .ok () w ∧
    ∀ a, symplot w.core.disk (.file "boozmn.nc") a = symplot Ex.disk0 (.object (Ex.done (α := α) asym fl)) a := by
  obtain ⟨r, hr⟩ := Ex.done_run (α := α) asym fl
  obtain ⟨w, hw⟩ := Ex.done_written (α := α) asym fl
  refine ⟨w, hw, (C63_partial (s := Ex.stF asym fl) (d := Ex.dims asym) hneg (Ex.readyH asym) ⟨Vec.size_tab _ _, fun j hj => ?_⟩
    (by decide : 1 ≤ 2) (by decide : 2 ≤ 2147483644) (by decide : 2 + 1 ≤ 2147483644) (Ex.fluxOk fl)
    (Ex.done_phi asym fl) hr Ex.version hw Ex.disk0).2.1⟩
  show (Vec.tab 2 _)[j]? = _
  rw [Vec.getElem?_tab, if_pos (show j < 2 from hj)]
  rfl

/-- **C51, C63 are false for the original curves of a file**, which are asked for by default: the file
holds no input data, and `wireplot` uses the member `mnmax` that was never set. -/
theorem C63_false {env : Env} {version filename : String} {disk : Disk ℝ} {w : _} {s s' : St ℝ} {d : Dims}
    {r : List (Report ℝ)} (h : RunReady s.inp d) (hg : HalfGrid s.inp.s_in d.ns)
    (h1 : 1 ≤ d.nsb) (h2 : d.nsb ≤ 2147483644) (h3 : d.ns + 1 ≤ 2147483644) (hf : FluxOk s.flux d.ns)
    (hphi : s.flux.phip.size ≠ 0 → ∃ x, s.flux.phi[d.ns]? = some (some x))
    (hr : run false s = .ok (s', r)) (hv : VersionOk version)
    (hw : writeBoozmn env version filename disk s' = .ok () w) (a : WireArgs) {nt np q c : ℕ}
    (hc : Requested d.nsb a.js c) (ht : a.ntheta = nt) (hp : a.nphi = np) (hq : a.refine = q) (ho : a.orig = true)
    (fig : List (Drawn ℝ)) :
    ∃ why, wireplot w.core.disk (.file filename) a fig = .ub why := by
  obtain ⟨t, hrd, hs, hmn, hcs⟩ := file_same neg_neg h hg h1 h2 h3 hf hphi hr hv hw
  rw [run_ok h (by simp) (by simp)] at hr
  cases hr
  have hC := run_computed (s := s) h
  have hCt : Computed t d.nmodes d.nsb d.nfp d.asym :=
    { asym_eq := hs.asym_t
      nfp_eq := by rw [hs.nfp]; exact hC.nfp_eq
      nfp_pos := hC.nfp_pos
      mnboz := by rw [hs.mnboz]; exact hC.mnboz
      ns_b := by rw [hs.ns_b]; exact hC.ns_b
      xm_b := by rw [hs.xm_b]; exact hC.xm_b
      xn_b := by rw [hs.xn_b]; exact hC.xn_b
      s_b := by rw [hs.s_b]; exact hC.s_b
      bmnc_b := by rw [hs.bmnc_b]; exact hC.bmnc_b
      rmnc_b := by rw [hs.rmnc_b]; exact hC.rmnc_b
      zmns_b := by rw [hs.zmns_b]; exact hC.zmns_b
      numns_b := by rw [hs.numns_b]; exact hC.numns_b
      asym_b := fun ha => by rw [hs.asym_spec ha]; exact hC.asym_b ha }
  obtain ⟨js, hcol, he⟩ := wire_data hCt a hc ht hp hq
  simp only [ho, if_true] at he
  have hcsf : t.inp.compute_surfs.Full d.nsb := by rw [hcs]; exact h.surfs
  have e : ∃ why, ∀ th ph, origPart t a js th ph = ub why := by
    obtain ⟨why, hn⟩ : ∃ why, (need (none : Option Int) "mnmax" : Res Int) = ub why := ⟨_, rfl⟩
    refine ⟨why, fun th ph => ?_⟩
    unfold origPart
    rw [at1_col 0 hcsf hcol, hmn, hn]
    rfl
  obtain ⟨why, e⟩ := e
  rw [e] at he
  refine ⟨why, ?_⟩
  unfold wireplot
  rw [Prog.bind_def, handleB_file hrd]
  show Prog.lift (wireplotObj t a) fig = _
  rw [he]
  rfl

/-- Non-vacuity of `C63_false`: the example, with the default parameters of `wireplot`. -/
example : ∃ w why, writeBoozmn Ex.calm "0.0.1" "boozmn.nc" Ex.disk0 (Ex.done (α := ℝ) true true) = .ok () w ∧
    wireplot w.core.disk (.file "boozmn.nc") ⟨none, 30, 80, 3, true, true⟩ [] = .ub why := by
  obtain ⟨r, hr⟩ := Ex.done_run (α := ℝ) true true
  obtain ⟨w, hw⟩ := Ex.done_written (α := ℝ) true true
  obtain ⟨why, hu⟩ := C63_false (s := Ex.stF true true) (d := Ex.dims true) (Ex.readyH true) ⟨Vec.size_tab _ _, fun j hj => by
      show (Vec.tab 2 _)[j]? = _
      rw [Vec.getElem?_tab, if_pos (show j < 2 from hj)]
      rfl⟩
    (by decide : 1 ≤ 2) (by decide : 2 ≤ 2147483644) (by decide : 2 + 1 ≤ 2147483644) (Ex.fluxOk true)
    (Ex.done_phi true true) hr Ex.version hw ⟨none, 30, 80, 3, true, true⟩ (nt := 30) (np := 80) (q := 3) (c := 1)
    rfl rfl rfl rfl rfl []
  exact ⟨w, why, hw, hu⟩

end Booz
