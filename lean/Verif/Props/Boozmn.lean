import Verif.ExamplesBoozmn
import Verif.Lemmas.LoadMain

/-!
# C33-C38, C40-C42: `write_boozmn` and `read_boozmn`
-/

namespace Booz
open Spec
variable {α : Type} [Arith α]

section
variable {env : Env} {version filename : String} {disk : Disk α} {s : St α} {w : WSt α}
  {K nb nc ns : Nat} {asym : Bool}

/-! ### C34 -/

/-- **C34.** A successful `write_boozmn` leaves a file with the documented layout. -/
theorem C34_layout (h : HasResults s K nb nb ns asym) (hv : VersionOk version)
    (hw : writeBoozmn env version filename disk s = .ok () w) :
    ∃ f, w.core.disk filename = .nc f ∧ Layout f version s K nb ns asym := by
  obtain ⟨h1, _⟩ := write_result h hv hw
  exact ⟨_, by rw [h1, put_same], layout_ok h⟩

/-- **C34, total.** Writing an object with results succeeds unless a library call fails; in
particular it never reads past an array and never uses an indeterminate value. -/
theorem C34_total (h : HasResults s K nb nb ns asym) (hv : VersionOk version) :
    (∃ w, writeBoozmn env version filename disk s = .ok () w) ∨
    ((∃ k m, env k = some m) ∧ ∃ m w, writeBoozmn env version filename disk s = .exc m w) :=
  write_total h hv

/-- **C34, after `run`.** The result of every run on well-formed input with a nonempty selection can
be written, and the file describes it. -/
theorem C34_run {s s' : St α} {d : Dims} {r : List (Report α)} (h : RunReady s.inp d)
    (h1 : 1 ≤ d.nsb) (h2 : d.nsb ≤ 2147483644) (h3 : d.ns + 1 ≤ 2147483644)
    (hf : FluxOk s.flux d.ns) (hr : run false s = .ok (s', r)) (hv : VersionOk version)
    (he : NoFailure env) :
    ∃ w f, writeBoozmn env version filename disk s' = .ok () w ∧ w.core.disk filename = .nc f ∧
      Layout f version s' d.nmodes d.nsb d.ns d.asym := by
  rw [run_ok h (by simp) (by simp)] at hr
  cases hr
  have hR := run_hasResults h h1 h2 h3 hf
  rcases C34_total (env := env) (filename := filename) (disk := disk) hR hv with ⟨w, hw⟩ | ⟨⟨k, m, e⟩, _⟩
  · obtain ⟨f, hf, hl⟩ := C34_layout hR hv hw
    exact ⟨w, f, hw, hf, hl⟩
  · rw [he k] at e; cases e

example (asym fl : Bool) : ∃ w f, writeBoozmn Ex.calm "0.0.1" "boozmn.nc" Ex.disk0
    (Ex.done (α := α) asym fl) = .ok () w ∧ w.core.disk "boozmn.nc" = .nc f ∧
    f.dim? "mn_modes" = some 5 := by
  obtain ⟨r, hr⟩ := Ex.done_run (α := α) asym fl
  obtain ⟨w, f, hw, hf, hl⟩ := C34_run (s := Ex.stF asym fl) (d := Ex.dims asym)
    (filename := "boozmn.nc") (disk := Ex.disk0) (Ex.readyH asym) (by decide : 1 ≤ 2)
    (by decide : 2 ≤ 2147483644) (by decide : 2 + 1 ≤ 2147483644) (Ex.fluxOk fl) hr Ex.version
    Ex.noFailure
  exact ⟨w, f, hw, hf, hl.mn_modes⟩

/-! ### C33 -/

/-- **C33.** Writing an object and reading the file into any object `t` restores every member
listed in `ReadBack`, and changes no other member of `t`.  `-(-x) = x` holds for floating-point
numbers. -/
theorem C33_roundtrip (hneg : ∀ x : α, - - x = x) (h : HasResults s K nb nb ns asym)
    (hv : VersionOk version) (hw : writeBoozmn env version filename disk s = .ok () w)
    (hphi : s.flux.phip.size ≠ 0 → ∃ x, s.flux.phi[ns]? = some (some x)) (t : St α) :
    ∃ t', readBoozmn w.core.disk filename t = .ok () t' ∧ ReadBack s t' nb ns asym ∧ ReadFrame t t' := by
  obtain ⟨f, hf, hl⟩ := C34_layout h hv hw
  exact read_layout hneg h hl hf hphi t

/-- **C33, `s_b`.** After a run on VMEC's half grid the grid of the outputs is restored too. -/
theorem C33_roundtrip_s_b {s s' t t' : St α} {d : Dims} {r : List (Report α)} (h : RunReady s.inp d)
    (hs : HalfGrid s.inp.s_in d.ns) (hr : run false s = .ok (s', r))
    (ht : ReadBack s' t' d.nsb d.ns d.asym) : t'.out.s_b = s'.out.s_b := by
  rw [run_ok h (by simp) (by simp)] at hr
  cases hr
  apply Array.ext_getElem?
  intro j
  have e : (runSt d s d.nsb).out.s_b = Vec.tab d.nsb fun j =>
    s.inp.s_in.val (ofInt 0) (s.inp.compute_surfs.val 0 j).toNat := rfl
  rw [e, Vec.getElem?_tab]
  by_cases hj : j < d.nsb
  · obtain ⟨x, hx, hb⟩ := ht.s_b j hj
    have hx' : s.inp.compute_surfs[j]? = some (some x) := hx
    have hrange := h.surfs_range j hj
    have hval : s.inp.compute_surfs.val 0 j = x := by simp [Vec.val, hx']
    rw [hval] at hrange ⊢
    rw [hb, if_pos hj]
    have := hs.2 x.toNat (by omega)
    simp only [Vec.val, this, Option.join_some, Option.getD_some]
    rw [Int.toNat_of_nonneg hrange.1]
  · rw [if_neg hj, Array.getElem?_eq_none (by rw [ht.s_b_size]; omega)]

/-- **C33, VMEC.** Loading VMEC data puts the inputs on that half grid. -/
theorem C33_loaded_grid {ns : Int} {A : VmecArgs α} {s s' : St α} {z : Sizes} {u : Unit}
    (hg : Given A s.inp z) (h : initFromVmec ns A s = .ok u s') :
    HalfGrid s'.inp.s_in (ns - 1).toNat := by
  obtain ⟨_, _, C, _⟩ := vmec_inv hg h
  rw [vmec_result hg h]
  have hns := C.ns_ge
  refine ⟨Vec.size_tab _ _, fun j hj => ?_⟩
  show (Vec.tab (ns - 1).toNat (sinV ns))[j]? = _
  rw [Vec.getElem?_tab, if_pos hj, Int.toNat_of_nonneg (by omega), Int.sub_add_cancel]
  rfl

/-- The example: a write and a read. -/
theorem Ex.readAgain (hneg : ∀ x : α, - - x = x) (asym fl : Bool) (t : St α) : ∃ w t',
    writeBoozmn Ex.calm "0.0.1" "boozmn.nc" Ex.disk0 (Ex.done (α := α) asym fl) = .ok () w ∧
    readBoozmn w.core.disk "boozmn.nc" t = .ok () t' ∧ ReadBack (Ex.done asym fl) t' 2 2 asym ∧
    ReadFrame t t' ∧ t'.out.s_b = (Ex.done (α := α) asym fl).out.s_b := by
  obtain ⟨r, hr⟩ := Ex.done_run (α := α) asym fl
  obtain ⟨w, hw⟩ := Ex.done_written (α := α) asym fl
  obtain ⟨t', h1, h2, h3⟩ := C33_roundtrip hneg (Ex.done_results asym fl) Ex.version hw (Ex.done_phi asym fl) t
  refine ⟨w, t', hw, h1, h2, h3, ?_⟩
  refine C33_roundtrip_s_b (d := Ex.dims asym) (t := t) (Ex.readyH asym) ⟨Vec.size_tab _ _, fun j hj => ?_⟩
    hr h2
  show (Vec.tab 2 _)[j]? = _
  rw [Vec.getElem?_tab, if_pos (show j < 2 from hj)]
  rfl

/-! ### C35 -/

/-- **C35 is false** of the code: when flux profiles are present, `beta_b`, which is described as
"Not implemented ... Just zero", consists of indeterminate values. -/
theorem C35_false : ∃ (s : St α) (w : WSt α) (f : NcFile α) (v : NcVar α) (d : Vec α),
    writeBoozmn Ex.calm "0.0.1" "boozmn.nc" Ex.disk0 s = .ok () w ∧
    w.core.disk "boozmn.nc" = .nc f ∧ f.var? "beta_b" = some v ∧
    v.description = "Not implemented in this version of booz_xform. Just zero." ∧
    v.data = .dbls d ∧ d[0]? = some none := by
  obtain ⟨w, hw⟩ := Ex.done_written (α := α) false true
  obtain ⟨h1, _⟩ := write_result (Ex.done_results false true) Ex.version hw
  have hb : ∃ v, (bzFile "0.0.1" 5 2 2 false (Ex.done (α := α) false true)).var? "beta_b" = some v ∧
      v.description = "Not implemented in this version of booz_xform. Just zero." ∧
      v.data = .dbls (Array.replicate 3 none) := by
    rw [bzFile_eq, decide_eq_true (show (Ex.done (α := α) false true).flux.phip.size ≠ 0 from (by decide : (3 : Nat) ≠ 0))]
    exact ⟨_, file_var 17 rfl rfl, rfl, rfl⟩
  obtain ⟨v, b1, b2, b3⟩ := hb
  exact ⟨Ex.done false true, w, _, v, _, hw, by rw [h1, put_same], b1, b2, b3, rfl⟩

/-- **C35, what holds**: `rmax_b`, `rmin_b` and `betaxis_b` are zero, and `beta_b` is when there are
no flux profiles.  Missing: `beta_b` when there are (false, see above: then it is entirely
indeterminate). -/
theorem C35_partial (h : HasResults s K nb nb ns asym) (hv : VersionOk version)
    (hw : writeBoozmn env version filename disk s = .ok () w) :
    ∃ f, w.core.disk filename = .nc f ∧ HoldsDbl f "rmax_b" (some (ofInt 0)) ∧
      HoldsDbl f "rmin_b" (some (ofInt 0)) ∧ HoldsDbl f "betaxis_b" (some (ofInt 0)) ∧
      (s.flux.phip.size = 0 →
        HoldsVec f "radius" "beta_b" (Array.replicate (ns + 1) (some (ofInt 0)))) ∧
      (s.flux.phip.size ≠ 0 → HoldsVec f "radius" "beta_b" (Array.replicate (ns + 1) none)) := by
  obtain ⟨h1, _⟩ := write_result h hv hw
  refine ⟨_, by rw [h1, put_same], ?_, ?_, ?_, fun h0 => ?_, fun h0 => ?_⟩
  · rw [bzFile_eq]; exact ⟨_, file_var 8 rfl rfl, rfl, rfl⟩
  · rw [bzFile_eq]; exact ⟨_, file_var 9 rfl rfl, rfl, rfl⟩
  · rw [bzFile_eq]; exact ⟨_, file_var 10 rfl rfl, rfl, rfl⟩
  · rw [bzFile_eq, decide_eq_false (by simp [h0])]; exact ⟨_, file_var 17 rfl rfl, rfl, rfl⟩
  · rw [bzFile_eq, decide_eq_true h0]; exact ⟨_, file_var 17 rfl rfl, rfl, rfl⟩

example (asym : Bool) : ∃ w f,
    writeBoozmn Ex.calm "0.0.1" "boozmn.nc" Ex.disk0 (Ex.done (α := α) asym false) = .ok () w ∧
    w.core.disk "boozmn.nc" = .nc f ∧
    HoldsVec f "radius" "beta_b" (Array.replicate 3 (some (ofInt 0))) := by
  obtain ⟨w, hw⟩ := Ex.done_written (α := α) asym false
  obtain ⟨f, h1, _, _, _, h2, _⟩ := C35_partial (Ex.done_results asym false) Ex.version hw
  exact ⟨w, f, hw, h1, h2 rfl⟩

/-! ### C36 -/

/-- **C36 is false** of the code: a successful `write_boozmn` changes `phip[0]`. -/
theorem C36_false (h01 : (ofInt 1 : α) ≠ ofInt 0) : ∃ (s : St α) (w : WSt α),
    writeBoozmn Ex.calm "0.0.1" "boozmn.nc" Ex.disk0 s = .ok () w ∧ w.core.mem.obj ≠ s := by
  obtain ⟨w, hw⟩ := Ex.done_written (α := α) false true
  obtain ⟨_, h2⟩ := write_result (Ex.done_results false true) Ex.version hw
  refine ⟨_, w, hw, ?_⟩
  rw [h2, decide_eq_true (show (Ex.done (α := α) false true).flux.phip.size ≠ 0 from (by decide : (3 : Nat) ≠ 0))]
  intro e
  have : (writtenObj true (Ex.done (α := α) false true)).flux.phip[0]? =
      (Ex.done (α := α) false true).flux.phip[0]? := by rw [e]
  have e1 : (writtenObj true (Ex.done (α := α) false true)).flux.phip[0]? = some (some (ofInt 0)) := rfl
  have e2 : (Ex.done (α := α) false true).flux.phip[0]? = some (some (ofInt 1)) := rfl
  rw [e1, e2] at this
  injection this with this
  injection this with this
  exact h01 this.symm

/-- **C36, what holds**: for every object, file system and pattern of library failures, however
`write_boozmn` ends, the object is unchanged except that `phip[0]` may have become 0 if `phip` was
not empty.  Missing: that exception (false, see above). -/
theorem C36_partial (env : Env) (version filename : String) (disk : Disk α) (s : St α) :
    (∀ w, writeBoozmn env version filename disk s = .ok () w → OnlyPhip s w.core.mem.obj) ∧
    (∀ m w, writeBoozmn env version filename disk s = .exc m w → OnlyPhip s w.core.mem.obj) := by
  have h := write_obj env version filename disk s
  constructor
  · intro w hw; rw [hw] at h; exact h
  · intro m w hw; rw [hw] at h; exact h

example : ∃ w, writeBoozmn Ex.calm "0.0.1" "boozmn.nc" Ex.disk0 (Ex.done (α := α) true false) = .ok () w ∧
    w.core.mem.obj = Ex.done true false := by
  obtain ⟨w, hw⟩ := Ex.done_written (α := α) true false
  refine ⟨w, hw, ?_⟩
  rcases (C36_partial _ _ _ _ _).1 w hw with h | ⟨h, _⟩
  · exact h
  · exact absurd rfl h

/-! ### C40 -/

/-- **C40 is false** of the code, in general: after a run, assigning a nonempty `compute_surfs` of
another length makes `write_boozmn` read past the end of an array. -/
theorem C40_wrong_length (h : HasResults s K nb nb ns asym) (hv : VersionOk version)
    (he : NoFailure env) {v : Vec Int} (h1 : 1 ≤ v.size) (hv1 : v.size ≤ 2147483644)
    (hx : ∀ j < v.size, ∃ x, v[j]? = some (some x) ∧ FitsInt x ∧ FitsInt (x + 2)) (hne : v.size ≠ nb) :
    ∃ what, writeBoozmn env version filename disk
      { s with inp := { s.inp with compute_surfs := v } } = .ub what :=
  write_ub (h.assign hv1 hx) hv h1 hne he

/-- **C40, what holds**: with the length unchanged the computed results are written; `jlist` is
whatever has been assigned.  Missing: other lengths (undefined behaviour, see above), and agreement
of `jlist` with the surfaces of the results when values have been changed (false, see below). -/
theorem C40_partial (h : HasResults s K nb nb ns asym) (hv : VersionOk version) {v : Vec Int}
    (hx : ∀ j < v.size, ∃ x, v[j]? = some (some x) ∧ FitsInt x ∧ FitsInt (x + 2)) (hne : v.size = nb)
    (hw : writeBoozmn env version filename disk
      { s with inp := { s.inp with compute_surfs := v } } = .ok () w) :
    ∃ f, w.core.disk filename = .nc f ∧ HoldsSurfs f nb v ∧
      HoldsMat f K nb "bmnc_b" id s.out.spec.bmnc_b ∧ HoldsMat f K nb "rmnc_b" id s.out.spec.rmnc_b ∧
      HoldsMat f K nb "zmns_b" id s.out.spec.zmns_b ∧
      HoldsMat f K nb "pmns_b" (- ·) s.out.spec.numns_b ∧
      HoldsMat f K nb "gmn_b" id s.out.spec.gmnc_b := by
  have h' := h.assign (v := v) (by rw [hne]; exact h.nc_fit) hx
  rw [hne] at h'
  obtain ⟨f, hf, hl⟩ := C34_layout h' hv hw
  exact ⟨f, hf, hl.jlist, hl.bmnc_b, hl.rmnc_b, hl.zmns_b, hl.pmns_b, hl.gmn_b⟩

theorem Ex.two_surfs {d : Vec Int} (h4 : d.size = 2)
    (h5 : ∀ j < 2, ∃ x, (Ex.vec [0, 0] : Vec Int)[j]? = some (some x) ∧ d[j]? = some (some (x + 2))) :
    d = #[some 2, some 2] := by
  have key : ∀ j < 2, d[j]? = some (some 2) := by
    intro j hj
    obtain ⟨x, e1, e2⟩ := h5 j hj
    have hx : x = 0 := by
      have : j = 0 ∨ j = 1 := by omega
      rcases this with rfl | rfl <;> simp [Ex.vec] at e1 <;> exact e1.symm
    rw [e2, hx]; rfl
  apply Array.ext_getElem?
  intro i
  by_cases hi : i < 2
  · rw [key i hi]
    have : i = 0 ∨ i = 1 := by omega
    rcases this with rfl | rfl <;> rfl
  · rw [Array.getElem?_eq_none (by omega), Array.getElem?_eq_none (by simp; omega)]

/-- **C40 is false**, concretely: run on surfaces 1 and 0, then assign three surfaces: undefined
behaviour; or assign surfaces 0 and 0: the file says both columns are surface 0 (`jlist = [2, 2]`)
although the first holds the results of surface 1. -/
theorem C40_false (asym fl : Bool) :
    (∃ r, run false (Ex.stF (α := α) asym fl) = .ok (Ex.done asym fl, r)) ∧
    (∃ what, writeBoozmn Ex.calm "0.0.1" "boozmn.nc" Ex.disk0
      { Ex.done (α := α) asym fl with
        inp := { (Ex.done asym fl).inp with compute_surfs := Ex.vec [0, 1, 0] } } = .ub what) ∧
    (∃ w f v, writeBoozmn Ex.calm "0.0.1" "boozmn.nc" Ex.disk0
      { Ex.done (α := α) asym fl with
        inp := { (Ex.done asym fl).inp with compute_surfs := Ex.vec [0, 0] } } = .ok () w ∧
      w.core.disk "boozmn.nc" = .nc f ∧ f.var? "jlist" = some v ∧
      v.data = .ints #[some 2, some 2] ∧
      HoldsMat f 5 2 "bmnc_b" id (Ex.done (α := α) asym fl).out.spec.bmnc_b) := by
  refine ⟨Ex.done_run asym fl, ?_, ?_⟩
  · refine C40_wrong_length (Ex.done_results asym fl) Ex.version Ex.noFailure (by simp [Ex.vec])
      (by simp [Ex.vec]) ?_ (by simp [Ex.vec])
    intro j hj
    have : j = 0 ∨ j = 1 ∨ j = 2 := by simp [Ex.vec] at hj; omega
    rcases this with rfl | rfl | rfl
    · exact ⟨0, rfl, by decide, by decide⟩
    · exact ⟨1, rfl, by decide, by decide⟩
    · exact ⟨0, rfl, by decide, by decide⟩
  · have hx : ∀ j < (Ex.vec [0, 0] : Vec Int).size, ∃ x, (Ex.vec [0, 0] : Vec Int)[j]? = some (some x) ∧
        FitsInt x ∧ FitsInt (x + 2) := by
      intro j hj
      have : j = 0 ∨ j = 1 := by simp [Ex.vec] at hj; omega
      rcases this with rfl | rfl <;> exact ⟨0, rfl, by decide, by decide⟩
    have h' := (Ex.done_results (α := α) asym fl).assign (v := Ex.vec [0, 0]) (by simp [Ex.vec]) hx
    rcases C34_total (env := Ex.calm) (filename := "boozmn.nc") (disk := Ex.disk0) h' Ex.version with
      ⟨w, hw⟩ | ⟨⟨k, m, e⟩, _⟩
    · obtain ⟨f, hf, ⟨v, d, h1, _, h3, h4, h5⟩, hb, _⟩ :=
        C40_partial (Ex.done_results (α := α) asym fl) Ex.version hx (by simp [Ex.vec]) hw
      exact ⟨w, f, v, hw, hf, h1, by rw [h3, Ex.two_surfs h4 h5], hb⟩
    · cases e

/-! ### C41 -/

/-- **C41.** With an empty selection `run()` completes, the outputs have no columns, and
`write_boozmn` throws; no complete file results. -/
theorem C41_empty_selection {s : St α} {d : Dims} (h : RunReady s.inp d) (h0 : d.nsb = 0)
    (h3 : d.ns + 1 ≤ 2147483644) (env : Env) (version filename : String) (disk : Disk α) :
    ∃ s' r, run false s = .ok (s', r) ∧ r = [] ∧ s'.out.ns_b = some 0 ∧ s'.out.s_b = #[] ∧
      s'.out.spec.bmnc_b.cols = 0 ∧ s'.out.spec.bmnc_b.data = #[] ∧
      (∃ m w, writeBoozmn env version filename disk s' = .exc m w ∧
        (w.core.disk = disk ∨ w.core.disk filename = .broken)) ∧
      (NoFailure env → ∃ w, writeBoozmn env version filename disk s' =
        .exc "NetCDF: NC_UNLIMITED size already in use" w ∧ w.core.disk filename = .broken) := by
  have hk := nmodes_fit h
  refine ⟨_, _, run_ok h (by simp) (by simp), ?_, ?_, ?_, ?_, ?_, ?_⟩
  · rw [h0]; simp [runReports]
  · show some (d.nsb : Int) = _
    rw [h0]; rfl
  · have e : (runSt d s d.nsb).out.s_b = Vec.tab d.nsb fun j =>
      s.inp.s_in.val (ofInt 0) (s.inp.compute_surfs.val 0 j).toNat := rfl
    rw [e, h0]
    exact Array.eq_empty_of_size_eq_zero (Vec.size_tab _ _)
  · exact (spec_shapes d (outF s.inp d d.nsb) s.out.spec).1.2.1.trans h0
  · exact Array.eq_empty_of_size_eq_zero
      ((spec_shapes d (outF s.inp d d.nsb) s.out.spec).1.2.2.trans (by rw [h0, Nat.mul_zero]))
  · have hE := write_empty (env := env) (version := version) (filename := filename) (disk := disk)
      (s := runSt d s d.nsb) (ns := d.ns) (K := d.nmodes) h.ns_in rfl h3
      (by unfold Dims.nmodes; omega) (by omega) (by rw [← h0]; exact h.surfs.1) 0 []
    have hD := write_disk env version filename disk (runSt d s d.nsb)
    have hexc : ∀ m w, writeBoozmn env version filename disk (runSt d s d.nsb) = .exc m w →
        w.core.disk = disk ∨ w.core.disk filename = .broken := by
      intro m w e
      rw [e] at hD
      rcases hD with ⟨hd, _⟩ | ⟨hd, _⟩
      · exact .inl hd
      · right; rw [hd, put_same]
    constructor
    · rcases hE with ⟨_, m, w, e⟩ | ⟨w, e, hw⟩
      · exact ⟨m, w, e, hexc m w e⟩
      · exact ⟨_, w, e, hexc _ w e⟩
    · intro he
      rcases hE with ⟨⟨k, m, e⟩, _⟩ | ⟨w, e, hw⟩
      · rw [he k] at e; cases e
      · exact ⟨w, e, by rw [hw, put_same]⟩

/-- The example with nothing selected. -/
def Ex.noSurfs (asym : Bool) : St α :=
  { Ex.st asym with inp := { Ex.inputs asym with compute_surfs := #[] } }
theorem Ex.noSurfs_ready (asym : Bool) :
    RunReady (Ex.noSurfs (α := α) asym).inp { Ex.dims asym with nsb := 0 } :=
  { Ex.ready asym with
    surfs := ⟨rfl, fun i hi => absurd hi (by simp)⟩
    surfs_range := fun i hi => absurd hi (by simp) }
example (asym : Bool) : ∃ s' r w, run false (Ex.noSurfs (α := α) asym) = .ok (s', r) ∧
    writeBoozmn Ex.calm "0.0.1" "boozmn.nc" Ex.disk0 s' =
      .exc "NetCDF: NC_UNLIMITED size already in use" w := by
  obtain ⟨s', r, h1, _, _, _, _, _, _, h2⟩ := C41_empty_selection (Ex.noSurfs_ready (α := α) asym) rfl
    (by decide : 2 + 1 ≤ 2147483644) Ex.calm "0.0.1" "boozmn.nc" Ex.disk0
  obtain ⟨w, h3, _⟩ := h2 Ex.noFailure
  exact ⟨s', r, w, h1, h3⟩

/-! ### C42 -/

/-- **C42 is false** of the code, always: during every successful `write_boozmn` there is a moment
(a library call) at which the target is neither the old file nor the new one, but an unreadable
one. -/
theorem C42_window (hw : writeBoozmn env version filename disk s = .ok () w) :
    ∃ d ∈ w.log, d filename = .broken := by
  have h := write_disk env version filename disk s
  rw [hw] at h
  obtain ⟨_, l, hl, _⟩ := h
  exact ⟨disk.put filename .broken, by rw [hl]; simp, put_same _ _ _⟩

/-- If the library fails right after creating the file (as on a full disk), the exception leaves an
unreadable target, whatever it was before. -/
theorem C42_lost {n : Int} {m : String} (h : s.inp.ns_in = some n) (hn : FitsInt (n + 1))
    (h0 : env 0 = none) (h1 : env 1 = some m) :
    ∃ w, writeBoozmn env version filename disk s = .exc m w ∧ w.core.disk filename = .broken := by
  unfold writeBoozmn writeBoozmnW
  rw [Prog.bind_def]
  unfold defineBoozmn defineVars
  rw [Prog.bind_def]
  have e0 : ncCreate env filename (⟨⟨⟨s, {}⟩, disk, ⟨"", [], [], []⟩⟩, 0, []⟩ : WSt α) =
      .ok () ⟨⟨⟨s, {}⟩, disk.put filename .broken, ⟨filename, [], [], []⟩⟩, 1,
        [disk.put filename .broken]⟩ := by
    unfold ncCreate ncCall
    dsimp only
    rw [h0]
  rw [e0]
  dsimp only
  rw [Prog.get_bind]
  dsimp only
  rw [h, show need (some n) "ns_in" = .ok n from rfl, Prog.lift_ok_bind, i32_ok hn, Prog.lift_ok_bind,
    Prog.bind_def]
  have e1 : ∀ eff : Core α → Res (Core α), ncCall env eff
      (⟨⟨⟨s, {}⟩, disk.put filename .broken, ⟨filename, [], [], []⟩⟩, 1,
        [disk.put filename .broken]⟩ : WSt α) = .exc m ⟨⟨⟨s, {}⟩, disk.put filename .broken,
          ⟨filename, [], [], []⟩⟩, 2, [disk.put filename .broken]⟩ := by
    intro eff
    unfold ncCall
    dsimp only
    rw [h1]
  rw [e1]
  exact ⟨_, rfl, put_same _ _ _⟩

/-- **C42 is false**, concretely: the old file was readable, the new one is complete, but a crash in
between leaves neither; and when a library call fails halfway the old file is lost as well. -/
theorem C42_false (asym fl : Bool) :
    (∃ w d, writeBoozmn Ex.calm "0.0.1" "boozmn.nc" Ex.disk0 (Ex.done (α := α) asym fl) = .ok () w ∧
      d ∈ w.log ∧ d "boozmn.nc" ≠ Ex.disk0 "boozmn.nc" ∧ d "boozmn.nc" ≠ w.core.disk "boozmn.nc") ∧
    (∃ m w, writeBoozmn (fun k => if k = 1 then some "No space left on device" else none) "0.0.1"
      "boozmn.nc" Ex.disk0 (Ex.done (α := α) asym fl) = .exc m w ∧
      w.core.disk "boozmn.nc" = .broken) := by
  constructor
  · obtain ⟨w, hw⟩ := Ex.done_written (α := α) asym fl
    obtain ⟨d, hd, hb⟩ := C42_window hw
    obtain ⟨f, hf, _⟩ := C34_layout (Ex.done_results asym fl) Ex.version hw
    refine ⟨w, d, hw, hd, ?_, ?_⟩
    · rw [hb]; intro e; exact absurd e (by simp [Ex.disk0])
    · rw [hb, hf]; intro e; cases e
  · obtain ⟨w, h1, h2⟩ := C42_lost (env := fun k => if k = 1 then some "No space left on device" else none)
      (version := "0.0.1") (filename := "boozmn.nc") (disk := Ex.disk0) (Ex.done_results (α := α) asym fl).ns_in
      (by decide) rfl rfl
    exact ⟨_, w, h1, h2⟩

/-- **C42, what holds**, for every object and every pattern of failures: at every crash point and at
the end, all other files are as before; the target is as before, unreadable, or complete; it is
complete exactly when `write_boozmn` has returned, and as before only if the file could not be
created.  Missing: that the old file survives until the new one is complete (false, see above). -/
theorem C42_partial (env : Env) (version filename : String) (disk : Disk α) (s : St α) :
    (∀ w, writeBoozmn env version filename disk s = .ok () w →
      (∃ f, w.core.disk filename = .nc f) ∧ (∀ p ≠ filename, w.core.disk p = disk p) ∧
      ∃ l, w.log = w.core.disk :: l ∧
        ∀ d ∈ l, d filename = .broken ∧ ∀ p ≠ filename, d p = disk p) ∧
    (∀ m w, writeBoozmn env version filename disk s = .exc m w →
      (w.core.disk = disk ∧ w.log = []) ∨
      (w.core.disk filename = .broken ∧ (∀ p ≠ filename, w.core.disk p = disk p) ∧
        ∀ d ∈ w.log, d filename = .broken ∧ ∀ p ≠ filename, d p = disk p)) := by
  have h := write_disk env version filename disk s
  constructor
  · intro w hw
    rw [hw] at h
    obtain ⟨h1, l, h2, h3⟩ := h
    refine ⟨⟨_, by rw [h1, put_same]⟩, fun p hp => by rw [h1, put_other _ _ hp], _, h2, ?_⟩
    intro d hd
    have : d = disk.put filename .broken := by
      rcases List.mem_cons.1 hd with e | hd
      · exact e
      · exact h3 d hd
    rw [this]
    exact ⟨put_same _ _ _, fun p hp => put_other _ _ hp⟩
  · intro m w hw
    rw [hw] at h
    rcases h with h | ⟨h1, _, h3⟩
    · exact .inl h
    · right
      refine ⟨by rw [h1, put_same], fun p hp => by rw [h1, put_other _ _ hp], fun d hd => ?_⟩
      rw [h3 d hd]
      exact ⟨put_same _ _ _, fun p hp => put_other _ _ hp⟩

example (asym fl : Bool) : ∃ w,
    writeBoozmn Ex.calm "0.0.1" "boozmn.nc" Ex.disk0 (Ex.done (α := α) asym fl) = .ok () w ∧
    w.core.disk "notes" = .other ['x'] := by
  obtain ⟨w, hw⟩ := Ex.done_written (α := α) asym fl
  exact ⟨w, hw, ((C42_partial _ _ _ _ _).1 w hw).2.1 "notes" (by decide)⟩

end

/-! ### C37 -/

section
variable {disk : Disk α} {filename : String} {f : NcFile α} {V : BzVals α} {K nb ns : Nat} {t : St α}
  {x : α}

/-- Without `chi_b` in the file, `chi` is resized and then left alone. -/
theorem read_no_chi (hf : disk filename = .nc f) (h : IsBoozmn f K nb ns V)
    (hc : f.var? "chi_b" = none) (h0 : t.flux.chi.size = 0) (hx : V.phi[ns]? = some (some x)) :
    ∃ t', readBoozmn disk filename t = .ok () t' ∧ t'.flux.chi = Array.replicate (ns + 1) none := by
  refine ⟨_, readBoozmn_ok (chi := Array.replicate (ns + 1) none) hf h (fun old ho => ?_) hx, ?_⟩
  · have e : t.flux.chi = #[] := Array.eq_empty_of_size_eq_zero h0
    rw [e, resize_empty] at ho
    cases ho
    unfold tryGetVec NcFile.getVec NcFile.find
    rw [hc]
    rfl
  · unfold readRes
    by_cases hl : V.lasym ≠ 0
    · simp only [if_pos hl]; rfl
    · simp only [if_neg hl]; rfl

/-- A file without one of its variables. -/
def NcFile.drop (f : NcFile α) (n : String) : NcFile α :=
  { f with vars := f.vars.filter fun v => !(v.name == n) }

omit [Arith α] in
theorem drop_same (f : NcFile α) (n : String) : (f.drop n).var? n = none := by
  unfold NcFile.drop NcFile.var?
  rw [List.find?_eq_none]
  intro v hv
  have := (List.mem_filter.1 hv).2
  simpa using this

omit [Arith α] in
theorem drop_other (f : NcFile α) {n m : String} (h : m ≠ n) : (f.drop n).var? m = f.var? m := by
  unfold NcFile.drop NcFile.var?
  dsimp only
  rw [List.find?_filter]
  congr 1
  funext v
  by_cases e : v.name = m
  · simp [e, h]
  · simp [e]

theorem IsBoozmn.drop_chi (h : IsBoozmn f K nb ns V) : IsBoozmn (f.drop "chi_b") K nb ns V := by
  have gI : ∀ {n : String} {v : Vec Int}, n ≠ "chi_b" → GetsI f n v → GetsI (f.drop "chi_b") n v := by
    rintro n v hn ⟨x, h1, h2⟩
    exact ⟨x, by rw [drop_other f hn]; exact h1, h2⟩
  have gD : ∀ {n : String} {v : Vec α}, n ≠ "chi_b" → GetsD f n v → GetsD (f.drop "chi_b") n v := by
    rintro n v hn ⟨x, h1, h2⟩
    exact ⟨x, by rw [drop_other f hn]; exact h1, h2⟩
  exact { h with
    lasym := gI (by decide) h.lasym
    nfp := gI (by decide) h.nfp
    mboz := gI (by decide) h.mboz
    nboz := gI (by decide) h.nboz
    mnboz := gI (by decide) h.mnboz
    ns_b := gI (by decide) h.ns_b
    ixm := gI (by decide) h.ixm
    ixn := gI (by decide) h.ixn
    jlist := gI (by decide) h.jlist
    iota := gD (by decide) h.iota
    buco := gD (by decide) h.buco
    bvco := gD (by decide) h.bvco
    phi := gD (by decide) h.phi
    phip := gD (by decide) h.phip
    pres := gD (by decide) h.pres
    bmnc := gD (by decide) h.bmnc
    rmnc := gD (by decide) h.rmnc
    zmns := gD (by decide) h.zmns
    pmns := gD (by decide) h.pmns
    gmn := gD (by decide) h.gmn
    asymVars := fun ha => by
      obtain ⟨a1, b1, a2, b2, a3, b3, a4, b4, a5, b5⟩ := h.asymVars ha
      exact ⟨gD (by decide) a1, b1, gD (by decide) a2, b2, gD (by decide) a3, b3, gD (by decide) a4, b4,
        gD (by decide) a5, b5⟩ }

/-- **C37 is false** of the code: a boozmn file without `chi_b` (which the reader accepts) read into a
new object leaves `chi` indeterminate. -/
theorem C37_false : ∃ (disk : Disk α) (t' : St α),
    readBoozmn disk "boozmn.nc" construct = .ok () t' ∧ t'.flux.chi[0]? = some none := by
  have hR := Ex.done_results (α := α) true true
  have hB := layout_isBoozmn hR (layout_ok (version := "0.0.1") hR) rfl
  have hx : (valsOf (Ex.done (α := α) true true) 2 2 true
      (decide ((Ex.done (α := α) true true).flux.phip.size ≠ 0))).phi[2]? = some (some (ofInt 6)) := rfl
  obtain ⟨t', h1, h2⟩ := read_no_chi (disk := fun _ => .nc ((bzFile "0.0.1" 5 2 2 true (Ex.done (α := α) true true)).drop "chi_b"))
    (filename := "boozmn.nc") (t := construct) rfl (IsBoozmn.drop_chi hB) (drop_same _ _) rfl hx
  exact ⟨_, t', h1, by rw [h2]; rfl⟩

omit [Arith α] in
theorem Ex.three (x y z : α) : Vec.Full (#[some x, some y, some z] : Vec α) 3 := by
  refine ⟨rfl, fun i hi => ?_⟩
  have : i = 0 ∨ i = 1 ∨ i = 2 := by omega
  rcases this with rfl | rfl | rfl
  · exact ⟨x, rfl⟩
  · exact ⟨y, rfl⟩
  · exact ⟨z, rfl⟩

/-- **C37, what holds**: from a file holding determinate values for all variables, including
`chi_b`, every member `read_boozmn` sets gets a determinate value, whatever the object held before.
Missing: files without `chi_b` (false, see above). -/
theorem C37_partial (hf : disk filename = .nc f) (h : IsBoozmn f K nb ns V)
    {chi : Vec α} (hc : GetsD f "chi_b" chi) (hchi : chi.Full (ns + 1)) (hV : V.AllKnown K nb ns)
    (t : St α) :
    ∃ t', readBoozmn disk filename t = .ok () t' ∧ Determinate t' K nb ns (decide (V.lasym ≠ 0)) := by
  obtain ⟨x, hx⟩ := hV.phi.2 ns (by omega)
  refine ⟨_, readBoozmn_ok (chi := chi) hf h (fun old ho => ?_) hx, ?_⟩
  · have hos : old.size = ns + 1 := by
      unfold Vec.resize at ho
      rw [if_pos (by omega), Int.toNat_natCast] at ho
      split at ho
      · cases ho; assumption
      · cases ho; simp
    unfold tryGetVec
    rw [hc.vec hchi.1 hos (by omega)]
  · have hneg : ∀ v : Vec α, v.Full (K * nb) → (Mat.neg ⟨K, nb, v⟩).Full K nb := fun v hv =>
      ⟨rfl, rfl, neg_full hv⟩
    unfold readRes
    by_cases hl : V.lasym ≠ 0
    · obtain ⟨a1, a2, a3, a4, a5⟩ := hV.asymVars hl
      simp only [if_pos hl]
      exact {
        asym := ⟨_, rfl⟩, nfp := hV.nfp, mnboz := rfl, ns_b := rfl, ns_in := rfl
        xm_b := hV.ixm, xn_b := hV.ixn, compute_surfs := Vec.full_tab _ _, iota := Vec.full_tab _ _
        boozer_I_all := Vec.full_tab _ _, boozer_G_all := Vec.full_tab _ _, s_b := Vec.full_tab _ _
        phi := hV.phi, phip := hV.phip, chi := hchi, pres := hV.pres, toroidal_flux := ⟨_, rfl⟩
        bmnc_b := ⟨rfl, rfl, hV.bmnc⟩, rmnc_b := ⟨rfl, rfl, hV.rmnc⟩, zmns_b := ⟨rfl, rfl, hV.zmns⟩
        numns_b := hneg _ hV.pmns, gmnc_b := ⟨rfl, rfl, hV.gmn⟩
        asym_b := fun _ => ⟨⟨rfl, rfl, a1⟩, ⟨rfl, rfl, a2⟩, ⟨rfl, rfl, a3⟩, hneg _ a4, ⟨rfl, rfl, a5⟩⟩
        sym_b := fun h0 => absurd hl (by simpa using h0) }
    · simp only [if_neg hl]
      exact {
        asym := ⟨_, rfl⟩, nfp := hV.nfp, mnboz := rfl, ns_b := rfl, ns_in := rfl
        xm_b := hV.ixm, xn_b := hV.ixn, compute_surfs := Vec.full_tab _ _, iota := Vec.full_tab _ _
        boozer_I_all := Vec.full_tab _ _, boozer_G_all := Vec.full_tab _ _, s_b := Vec.full_tab _ _
        phi := hV.phi, phip := hV.phip, chi := hchi, pres := hV.pres, toroidal_flux := ⟨_, rfl⟩
        bmnc_b := ⟨rfl, rfl, hV.bmnc⟩, rmnc_b := ⟨rfl, rfl, hV.rmnc⟩, zmns_b := ⟨rfl, rfl, hV.zmns⟩
        numns_b := hneg _ hV.pmns, gmnc_b := ⟨rfl, rfl, hV.gmn⟩
        asym_b := fun h1 => absurd (by simpa using h1) hl
        sym_b := fun _ => ⟨rfl, rfl, rfl, rfl, rfl⟩ }

/-- The file of the example holds determinate values only. -/
theorem Ex.allKnown (asym : Bool) :
    (valsOf (Ex.done (α := α) asym true) 2 2 asym true).AllKnown 5 2 2 :=
  run_allKnown (s := Ex.stF asym true) (d := Ex.dims asym) (Ex.readyH asym) (Ex.three _ _ _)
    (Ex.three _ _ _) (Ex.three _ _ _)
example (t : St α) : ∃ t', readBoozmn (fun _ => .nc (bzFile "0.0.1" 5 2 2 true (Ex.done true true)))
    "boozmn.nc" t = .ok () t' ∧ Determinate t' 5 2 2 true := by
  have hR := Ex.done_results (α := α) true true
  have hl := layout_ok (version := "0.0.1") hR
  exact C37_partial (K := 5) (nb := 2) (ns := 2) rfl (layout_isBoozmn hR hl (fl := true) rfl)
    (hl.flux (by decide : (3 : Nat) ≠ 0)).1.gets (Ex.three _ _ _) (Ex.allKnown true) t

end

/-! ### C38 -/

section
variable {env env' : Env} {version filename : String} {disk : Disk α} {s t t' : St α} {w w' : WSt α}
  {K nb ns : Nat} {asym : Bool}

/-- **C38, what holds**: write, read into any object, write again: all variables except `aspect_b` and
`beta_b` hold equal data with equal dimensions, and even have equal attributes if there were flux
profiles.  Missing: `aspect_b` and `beta_b` (false, see below). -/
theorem C38_partial (hneg : ∀ x : α, - - x = x) (h : HasResults s K nb nb ns asym)
    (hv : VersionOk version) (hw : writeBoozmn env version filename disk s = .ok () w)
    (hphi : s.flux.phip.size ≠ 0 → ∃ x, s.flux.phi[ns]? = some (some x))
    (hr : readBoozmn w.core.disk filename t = .ok () t')
    (hw' : writeBoozmn env' version filename w.core.disk t' = .ok () w') :
    ∃ f f', w.core.disk filename = .nc f ∧ w'.core.disk filename = .nc f' ∧ f'.dims = f.dims ∧
      ∀ n, n ≠ "aspect_b" → n ≠ "beta_b" →
        ((f'.var? n).map fun v => (v.dims, v.data)) = ((f.var? n).map fun v => (v.dims, v.data)) ∧
        (s.flux.phip.size ≠ 0 → f'.var? n = f.var? n) := by
  obtain ⟨t1, h1, h2, _⟩ := C33_roundtrip hneg h hv hw hphi t
  rw [hr] at h1
  cases h1
  obtain ⟨e1, _⟩ := write_result h hv hw
  obtain ⟨e2, _⟩ := write_result (readBack_hasResults h h2) hv hw'
  exact ⟨bzFile version K nb ns asym s, bzFile version K nb ns asym t', by rw [e1, put_same],
    by rw [e2, put_same], rfl, fun n n1 n2 => second_file h h2 n1 n2⟩

example (hneg : ∀ x : α, - - x = x) (asym fl : Bool) (t : St α) : ∃ w t' w' f f',
    writeBoozmn Ex.calm "0.0.1" "boozmn.nc" Ex.disk0 (Ex.done (α := α) asym fl) = .ok () w ∧
    readBoozmn w.core.disk "boozmn.nc" t = .ok () t' ∧
    writeBoozmn Ex.calm "0.0.1" "boozmn.nc" w.core.disk t' = .ok () w' ∧
    w.core.disk "boozmn.nc" = .nc f ∧ w'.core.disk "boozmn.nc" = .nc f' ∧ f'.dims = f.dims := by
  obtain ⟨w, t', h1, h2, h4, _, _⟩ := Ex.readAgain hneg asym fl t
  have hR := Ex.done_results (α := α) asym fl
  rcases C34_total (env := Ex.calm) (filename := "boozmn.nc") (disk := w.core.disk)
    (readBack_hasResults hR h4) Ex.version with ⟨w', hw'⟩ | ⟨⟨k, m, e⟩, _⟩
  · obtain ⟨f, f', e1, e2, e3, _⟩ := C38_partial hneg hR Ex.version h1 (Ex.done_phi asym fl) h2 hw'
    exact ⟨w, t', w', f, f', h1, h2, hw', e1, e2, e3⟩
  · cases e

/-- **C38 is false** of the code: in the second file `aspect_b` is what the new object's constructor
set, and `beta_b`, which was zero, is indeterminate. -/
theorem C38_false (hneg : ∀ x : α, - - x = x) (h3 : (ofInt 3 : α) ≠ ofInt 0) :
    ∃ (s t' : St α) (w w' : WSt α) (f f' : NcFile α) (v v' : NcVar α),
      writeBoozmn Ex.calm "0.0.1" "boozmn.nc" Ex.disk0 s = .ok () w ∧
      w.core.disk "boozmn.nc" = .nc f ∧
      readBoozmn w.core.disk "boozmn.nc" construct = .ok () t' ∧
      writeBoozmn Ex.calm "0.0.1" "boozmn.nc" w.core.disk t' = .ok () w' ∧
      w'.core.disk "boozmn.nc" = .nc f' ∧
      (f.var? "aspect_b").map (·.data) ≠ (f'.var? "aspect_b").map (·.data) ∧
      f.var? "beta_b" = some v ∧ f'.var? "beta_b" = some v' ∧
      v.data = .dbls (Array.replicate 3 (some (ofInt 0))) ∧ v'.data = .dbls (Array.replicate 3 none) := by
  obtain ⟨w, t', h1, h2, h4, h5, _⟩ := Ex.readAgain hneg false false (construct : St α)
  have hR := Ex.done_results (α := α) false false
  have hR' := readBack_hasResults hR h4
  rcases C34_total (env := Ex.calm) (filename := "boozmn.nc") (disk := w.core.disk) hR' Ex.version with
    ⟨w', hw'⟩ | ⟨⟨k, m, e⟩, _⟩
  · obtain ⟨f, hf, _, _, _, hb, _⟩ := C35_partial hR Ex.version h1
    obtain ⟨g, hg, hl⟩ := C34_layout hR Ex.version h1
    obtain ⟨f', hf', _, _, _, _, hb'⟩ := C35_partial hR' Ex.version hw'
    obtain ⟨g', hg', hl'⟩ := C34_layout hR' Ex.version hw'
    rw [hf] at hg; cases hg
    rw [hf'] at hg'; cases hg'
    obtain ⟨v, b1, _, b3⟩ := hb rfl
    have hne : t'.flux.phip.size ≠ 0 := by
      rw [(h4.no_flux rfl).1]; simp
    obtain ⟨v', b1', _, b3'⟩ := hb' hne
    refine ⟨_, t', w, w', f, f', v, v', h1, hf, h2, hw', hf', ?_, b1, b1', b3, b3'⟩
    obtain ⟨a, a1, _, a3⟩ := hl.aspect_b
    obtain ⟨a', a1', _, a3'⟩ := hl'.aspect_b
    rw [a1, a1', Option.map_some, Option.map_some, a3, a3', h5.inp]
    intro e
    injection e with e
    injection e with e
    have e' := congrArg (fun v : Vec α => v[0]?) e
    have : (some (some (ofInt 3)) : Option (Option α)) = some (some (ofInt 0)) := e'
    injection this with this
    injection this with this
    exact h3 this
  · cases e

end

end Booz
