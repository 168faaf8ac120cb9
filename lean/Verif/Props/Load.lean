import Verif.ExamplesLoad
import Verif.RealArith
import Mathlib.Tactic.Linarith
import Mathlib.Tactic.Ring
import Mathlib.Tactic.FieldSimp
import Mathlib.Tactic.Positivity
import Mathlib.Tactic.IntervalCases

/-!
# C06–C13 and the loading part of C23: `init_from_vmec`

Standing assumption `Spec.Given`: the scalar members have been set and no argument or mode list
contains an uninitialised entry.
-/

namespace Booz
open Spec
variable {α : Type} [Arith α]

/-! ### C06 -/

/-- Consistent data with two surfaces and an `m = 1` mode. -/
def Ex.twoSurf : St α :=
  { construct with inp := { (construct : St α).inp with
      asym := some false, nfp := some 1, mpol := some 2, ntor := some 0, mnmax := some 2
      mpol_nyq := some 1, ntor_nyq := some 0, mnmax_nyq := some 1
      xm := Ex.vec [0, 1], xn := Ex.vec [0, 0], xm_nyq := Ex.vec [0], xn_nyq := Ex.vec [0] } }

/-- Its arguments. -/
def Ex.twoArgs : VmecArgs α :=
  { iotas := Vec.tab 2 fun _ => ofInt 1
    rmnc := Mat.tab 2 2 fun _ _ => ofInt 1, rmns := .empty, zmnc := .empty
    zmns := Mat.tab 2 2 fun _ _ => ofInt 1
    lmnc := .empty, lmns := Mat.tab 2 2 fun _ _ => ofInt 1
    bmnc := Mat.tab 1 2 fun _ _ => ofInt 1, bmns := .empty
    bsubumnc := Mat.tab 1 2 fun _ _ => ofInt 1, bsubumns := .empty
    bsubvmnc := Mat.tab 1 2 fun _ _ => ofInt 1, bsubvmns := .empty }

/-- Its scalars. -/
def Ex.twoSizes : Sizes :=
  { asym := false, nfp := 1, mpol := 2, ntor := 0, mnmax := 2, ntor_nyq := 0, mnmax_nyq := 1 }

theorem Ex.twoGiven : Given (Ex.twoArgs (α := α)) Ex.twoSurf.inp Ex.twoSizes where
  sized := ⟨rfl, rfl, rfl, rfl, rfl, rfl, rfl⟩
  lists := by
    constructor
    case xm => exact vec_full [0, 1] rfl
    case xn => exact vec_full [0, 0] rfl
    case xm_nyq => exact vec_full [0] rfl
    case xn_nyq => exact vec_full [0] rfl
    case surfs => exact vec_full [] rfl
  args := by
    have hm : ∀ (r c : Nat) (f : Nat → Nat → α),
        (Mat.tab r c f).Full (Mat.tab r c f).rows (Mat.tab r c f).cols := fun _ _ _ => Mat.full_tab _ _ _
    have he : (Mat.empty : Mat α).Full (Mat.empty : Mat α).rows (Mat.empty : Mat α).cols :=
      ⟨rfl, rfl, rfl, fun i hi => absurd hi (by simp [Mat.empty])⟩
    have hv : Vec.Full (#[] : Vec α) (#[] : Vec α).size := ⟨rfl, fun i hi => absurd hi (by simp)⟩
    constructor <;> unfold twoArgs <;> dsimp only
    case iotas => exact tab_full _
    all_goals first | exact hm _ _ _ | exact he | exact hv

theorem Ex.twoConsistent : Consistent 2 (Ex.twoArgs (α := α)) Ex.twoSurf.inp Ex.twoSizes where
  ns_ge := by decide
  nfp_ge := by decide
  iotas := by show ((Vec.tab 2 _).size : Int) = 2; rw [Vec.size_tab]; rfl
  flux := fun h => absurd rfl h
  modes := ⟨rfl, rfl, rfl, rfl, rfl⟩
  modes_nyq := ⟨rfl, rfl, rfl, rfl, rfl⟩
  rmnc := ⟨rfl, rfl⟩
  zmns := ⟨rfl, rfl⟩
  lmns := ⟨rfl, rfl⟩
  bmnc := ⟨rfl, rfl⟩
  bsubumnc := ⟨rfl, rfl⟩
  bsubvmnc := ⟨rfl, rfl⟩
  asym := fun h => absurd h (by decide)
  surfs := fun j hj => absurd hj (by show ¬ j < 0; omega)

theorem Ex.twoComputable : Computable Ex.twoSizes := ⟨by decide, by decide, by decide, by decide⟩

/-- Outcomes of accepted arguments: a normal return when they are `Loadable`, undefined behaviour
otherwise; never an exception. -/
theorem vmec_accepted {ns : Int} {A : VmecArgs α} {s : St α} {z : Sizes} (hf : FitsInt (ns - 1))
    (hg : Given A s.inp z) (hc : Computable z) (C : Consistent ns A s.inp z) :
    (Loadable ns A s.inp z ∧ ∃ s', initFromVmec ns A s = .ok () s') ∨
    (¬ Loadable ns A s.inp z ∧ ∃ w, initFromVmec ns A s = .ub w) := by
  by_cases L : Loadable ns A s.inp z
  · exact Or.inl ⟨L, _, vmec_ok hf hg hc C L⟩
  · right
    refine ⟨L, ?_⟩
    cases hi : initFromVmec ns A s with
    | ok u s' => exact absurd (vmec_inv hg hi).2.2.2 L
    | ub w => exact ⟨w, rfl⟩
    | exc m s' =>
      have hg' := given_withNs hg ns
      rw [vmec_eq ns A s hf,
        (validate_iff hg'.sized hg'.lists hc.modes hc.modes_nyq hc.fit hc.fit_nyq).1.mpr
          (consistent_withNs.mpr C)] at hi
      dsimp only at hi
      cases hl : load ns (ns - 1) A (withNs s ns).inp s.flux with
      | error f =>
        obtain ⟨w, rfl⟩ := load_onlyUb _ _ _ _ _ f hl
        rw [hl] at hi; cases hi
      | ok r => rw [hl] at hi; cases hi
    | abort w =>
      have hg' := given_withNs hg ns
      rw [vmec_eq ns A s hf,
        (validate_iff hg'.sized hg'.lists hc.modes hc.modes_nyq hc.fit hc.fit_nyq).1.mpr
          (consistent_withNs.mpr C)] at hi
      dsimp only at hi
      cases hl : load ns (ns - 1) A (withNs s ns).inp s.flux with
      | error f =>
        obtain ⟨w, rfl⟩ := load_onlyUb _ _ _ _ _ f hl
        rw [hl] at hi; cases hi
      | ok r => rw [hl] at hi; cases hi

/-- **C06 is false of the code.**  Consistent data on two surfaces with an `m = 1` mode are accepted
and then read out of range (`rmnc0(j, 2)`, `init_from_vmec.cpp:271`). -/
theorem C06_false : Given (Ex.twoArgs (α := α)) Ex.twoSurf.inp Ex.twoSizes ∧
    Consistent 2 (Ex.twoArgs (α := α)) Ex.twoSurf.inp Ex.twoSizes ∧
    ∃ w, initFromVmec 2 (Ex.twoArgs (α := α)) Ex.twoSurf = .ub w := by
  refine ⟨Ex.twoGiven, Ex.twoConsistent, ?_⟩
  rcases vmec_accepted (by decide) (Ex.twoGiven (α := α)) Ex.twoComputable Ex.twoConsistent with h | h
  · exact absurd (h.1.axis 1 (by show 1 < 2; decide) rfl) (by decide)
  · exact h.2

/-- **C06 is false of the code, second case.**  An empty mode list is not rejected: `xm[0]` is read
(`init_from_vmec.cpp:51`). -/
theorem C06_false_empty : ∃ w, initFromVmec 2 (Ex.twoArgs (α := α))
    { Ex.twoSurf with inp := { Ex.twoSurf.inp with mnmax := some 0, xm := #[], xn := #[] } } = .ub w := by
  refine ⟨"index out of range", ?_⟩
  rw [vmec_eq _ _ _ (by decide)]
  have : validate 2 (Ex.twoArgs (α := α)) (withNs
      { Ex.twoSurf with inp := { Ex.twoSurf.inp with mnmax := some 0, xm := #[], xn := #[] } } 2).inp =
      ub "index out of range" := by
    have h1 : ((Ex.twoArgs (α := α)).iotas.size : Int) = 2 := Ex.twoConsistent.iotas
    unfold validate
    show (do
      check ((2 : Int) ≤ 2) _
      let nfp ← need (some (1 : Int)) _
      _) = _
    rw [check, if_pos (by decide), ok_bind, need_some, ok_bind, check, if_pos (by decide), ok_bind,
      check, if_pos h1, ok_bind]
    rfl
  rw [this]

/-! ### C07 -/

/-- **C07 is false of the code as stated.**  With an empty mode list inconsistent shapes (here
`rmnc0` has two rows for `mnmax = 0`) are not rejected: the behaviour is undefined before the shapes
are looked at. -/
theorem C07_false : ∃ (s : St α) (z : Sizes), Given (Ex.twoArgs (α := α)) s.inp z ∧
    ¬ Consistent 2 (Ex.twoArgs (α := α)) s.inp z ∧
    ∀ m s', initFromVmec 2 (Ex.twoArgs (α := α)) s ≠ .exc m s' := by
  refine ⟨{ Ex.twoSurf with inp := { Ex.twoSurf.inp with mnmax := some 0, xm := #[], xn := #[] } },
    { Ex.twoSizes with mnmax := 0 }, ⟨⟨rfl, rfl, rfl, rfl, rfl, rfl, rfl⟩, ?_, Ex.twoGiven.args⟩, ?_, ?_⟩
  · have := Ex.twoGiven (α := α) |>.lists
    exact ⟨Ex.vec_full [] rfl, Ex.vec_full [] rfl, this.xm_nyq, this.xn_nyq, this.surfs⟩
  · intro C
    have := C.rmnc.1
    exact absurd this (by show ¬ ((2 : Nat) : Int) = 0; decide)
  · intro m s' h
    obtain ⟨w, hw⟩ := C06_false_empty (α := α)
    rw [hw] at h; cases h

/-- **C07 (partial).**  If there is at least one mode of each kind and `nfp*ntor`, `nfp*ntor_nyq`
fit in an `int`, `init_from_vmec` throws exactly on inconsistent arguments.

Missing: the restriction `Computable`, without which the property is false (`C07_false`). -/
theorem C07_partial {ns : Int} {A : VmecArgs α} {s : St α} {z : Sizes} (hf : FitsInt (ns - 1))
    (hg : Given A s.inp z) (hc : Computable z) :
    (∃ m s', initFromVmec ns A s = .exc m s') ↔ ¬ Consistent ns A s.inp z := by
  constructor
  · rintro ⟨m, s', h⟩ C
    rcases vmec_accepted hf hg hc C with ⟨_, t, ht⟩ | ⟨_, w, hw⟩
    · rw [ht] at h; cases h
    · rw [hw] at h; cases h
  · intro hC
    have hg' := given_withNs hg ns
    obtain ⟨hv, ht⟩ := validate_iff (ns := ns) hg'.sized hg'.lists hc.modes hc.modes_nyq hc.fit
      hc.fit_nyq (A := A)
    cases hw : validate ns A (withNs s ns).inp with
    | ok u => exact absurd (consistent_withNs.mp (hv.mp hw)) hC
    | error f =>
      obtain ⟨m, rfl⟩ := ht f hw
      refine ⟨m, withNs s ns, ?_⟩
      rw [vmec_eq ns A s hf, hw]

example (asym : Bool) : ¬ ∃ m s', initFromVmec 4 (Ex.vmec (α := α)) (Ex.vst asym) = .exc m s' :=
  fun h => (C07_partial (by decide) (Ex.given asym) (Ex.computable asym)).mp h (Ex.consistent asym)
/-- Two surfaces declared for four-surface data, with a selection that is too large: rejected. -/
example (asym : Bool) : ∃ m s', initFromVmec 2 (Ex.vmec (α := α)) (Ex.vst asym) = .exc m s' :=
  (C07_partial (by decide) (Ex.given asym) (Ex.computable asym)).mpr fun C =>
    absurd C.rmnc.2 (by show ¬ ((4 : Nat) : Int) = 2; decide)

/-- **C06 (partial), exact condition.**  Arguments that are not rejected are processed without
undefined behaviour exactly when they are `Loadable`: (a) there are three surfaces or no `m = 1`
mode, (b) the printing at `verbose > 1` finds four rows and columns, (c) `6*mpol`, `2*ntor` and
`2*ntor-1` fit in an `int`.

Missing: these conditions and `Computable` are not checked by the code, see `C06_false`,
`C06_false_empty`. -/
theorem C06_partial {ns : Int} {A : VmecArgs α} {s : St α} {z : Sizes} (hf : FitsInt (ns - 1))
    (hg : Given A s.inp z) (hc : Computable z) (hnot : ¬ ∃ m s', initFromVmec ns A s = .exc m s') :
    ((∃ s', initFromVmec ns A s = .ok () s') ↔ Loadable ns A s.inp z) ∧
    ((∃ w, initFromVmec ns A s = .ub w) ↔ ¬ Loadable ns A s.inp z) := by
  have C : Consistent ns A s.inp z := by
    by_contra hC; exact hnot ((C07_partial hf hg hc).mpr hC)
  rcases vmec_accepted hf hg hc C with ⟨L, t, ht⟩ | ⟨L, w', hw'⟩
  · exact ⟨⟨fun _ => L, fun _ => ⟨t, ht⟩⟩,
      ⟨fun hw => (by obtain ⟨w, hw⟩ := hw; rw [hw] at ht; cases ht), fun h => absurd L h⟩⟩
  · exact ⟨⟨fun ht => (by obtain ⟨t, ht⟩ := ht; rw [hw'] at ht; cases ht), fun h => absurd h L⟩,
      ⟨fun _ => L, fun _ => ⟨w', hw'⟩⟩⟩

example (asym : Bool) : ∃ s', initFromVmec 4 (Ex.vmec (α := α)) (Ex.vst asym) = .ok () s' :=
  (C06_partial (by decide) (Ex.given asym) (Ex.computable asym) (fun h =>
    (C07_partial (by decide) (Ex.given asym) (Ex.computable asym)).mp h (Ex.consistent asym))).1.mpr
    (Ex.loadable asym)

/-! ### C08 -/

/-- **C08 is false of the code.**  A rejected call (negative number of surfaces) has already changed
`ns_in` (`init_from_vmec.cpp:30`). -/
theorem C08_false (asym : Bool) : ∃ m s', initFromVmec 0 (Ex.vmec (α := α)) (Ex.vst asym) = .exc m s' ∧
    (Ex.vst (α := α) asym).inp.ns_in = some 2 ∧ s'.inp.ns_in = some (-1) := by
  refine ⟨"ns must be at least 2", withNs (Ex.vst asym) 0, ?_, rfl, rfl⟩
  rw [vmec_eq _ _ _ (by decide)]; rfl

/-- **C08 (partial).**  If `init_from_vmec` throws, the object is as before except that `ns_in` is
`ns - 1`.

Missing: `ns_in` is not restored (`C08_false`). -/
theorem C08_partial {ns : Int} {A : VmecArgs α} {s s' : St α} {m : String}
    (h : initFromVmec ns A s = .exc m s') :
    s' = { s with inp := { s.inp with ns_in := some (ns - 1) } } := by
  by_cases hf : FitsInt (ns - 1)
  · rw [vmec_eq ns A s hf] at h
    cases hv : validate ns A (withNs s ns).inp with
    | error f => rw [hv] at h; cases f <;> cases h; rfl
    | ok u =>
      rw [hv] at h
      dsimp only at h
      cases hl : load ns (ns - 1) A (withNs s ns).inp s.flux with
      | error f => rw [hl] at h; cases f <;> cases h; rfl
      | ok r => rw [hl] at h; cases h
  · unfold initFromVmec at h
    rw [Prog.get_bind, i32, if_neg hf, Prog.lift_ub_bind] at h; cases h

example (asym : Bool) : ∃ m s', initFromVmec 0 (Ex.vmec (α := α)) (Ex.vst asym) = .exc m s' :=
  let ⟨m, s', h, _⟩ := C08_false asym; ⟨m, s', h⟩

/-! ### C09 -/

/-- Column `j` of `b` is column `j+1` of `a`, for `r` rows and `c` columns, and `b` has no others. -/
def Spec.Shifted (a b : Mat α) (r c : Int) : Prop :=
  Shape b r c ∧ ∀ k j : Nat, (k : Int) < r → (j : Int) < c →
    ∃ x, a.rdN k (j + 1) = .ok x ∧ b.rdN k j = .ok x

theorem shifted_of {ns r : Int} {a : Mat α} (hA : a.Full a.rows a.cols) (hs : Shape a r ns)
    (hns : 2 ≤ ns) : Spec.Shifted a (shiftMat r.toNat (ns - 1).toNat a) r (ns - 1) := by
  have h1 := hs.1
  have h2 := hs.2
  refine ⟨⟨?_, ?_⟩, ?_⟩
  · show (r.toNat : Int) = r; omega
  · show ((ns - 1).toNat : Int) = ns - 1; omega
  · intro k j hk hj
    exact ⟨ev a k (j + 1), Mat.Full.rdN' (ofInt 0) hA (by omega) (by omega),
      Mat.rdN_tab (show k < r.toNat by omega) (show j < (ns - 1).toNat by omega)⟩

/-- **C09.**  After a successful load the half-grid quantities are those of the arguments without
their first surface; the asymmetric ones are set only when `asym` is true. -/
theorem C09_half_grid_copies {ns : Int} {A : VmecArgs α} {s s' : St α} {z : Sizes} {u : Unit}
    (hg : Given A s.inp z) (h : initFromVmec ns A s = .ok u s') :
    ((s'.inp.iota.size : Int) = ns - 1 ∧ ∀ j : Nat, (j : Int) < ns - 1 →
      ∃ x, A.iotas.rdN (j + 1) = .ok x ∧ s'.inp.iota.rdN j = .ok x) ∧
    Spec.Shifted A.lmns s'.inp.lmns z.mnmax (ns - 1) ∧
    Spec.Shifted A.bmnc s'.inp.bmnc z.mnmax_nyq (ns - 1) ∧
    Spec.Shifted A.bsubumnc s'.inp.bsubumnc z.mnmax_nyq (ns - 1) ∧
    Spec.Shifted A.bsubvmnc s'.inp.bsubvmnc z.mnmax_nyq (ns - 1) ∧
    (z.asym = true →
      Spec.Shifted A.lmnc s'.inp.lmnc z.mnmax (ns - 1) ∧
      Spec.Shifted A.bmns s'.inp.bmns z.mnmax_nyq (ns - 1) ∧
      Spec.Shifted A.bsubumns s'.inp.bsubumns z.mnmax_nyq (ns - 1) ∧
      Spec.Shifted A.bsubvmns s'.inp.bsubvmns z.mnmax_nyq (ns - 1)) ∧
    (z.asym = false →
      s'.inp.lmnc = s.inp.lmnc ∧ s'.inp.bmns = s.inp.bmns ∧ s'.inp.bsubumns = s.inp.bsubumns ∧
      s'.inp.bsubvmns = s.inp.bsubvmns ∧ s'.inp.rmns = s.inp.rmns ∧ s'.inp.zmnc = s.inp.zmnc) := by
  obtain ⟨_, _, C, _⟩ := vmec_inv hg h
  rw [vmec_result hg h]
  have hns := C.ns_ge
  have hio := C.iotas
  refine ⟨⟨?_, ?_⟩, shifted_of hg.args.lmns C.lmns hns, shifted_of hg.args.bmnc C.bmnc hns,
    shifted_of hg.args.bsubumnc C.bsubumnc hns, shifted_of hg.args.bsubvmnc C.bsubvmnc hns, ?_, ?_⟩
  · show ((Vec.tab (ns - 1).toNat _).size : Int) = _
    rw [Vec.size_tab]; omega
  · intro j hj
    exact ⟨A.iotas.val (ofInt 0) (j + 1), hg.args.iotas.rdN _ (by omega),
      Vec.rdN_tab (show j < (ns - 1).toNat by omega)⟩
  · intro ha
    obtain ⟨_, _, a3, a4, a5, a6⟩ := C.asym ha
    unfold loadedInp
    dsimp only
    simp only [ha, if_true]
    exact ⟨shifted_of hg.args.lmnc a3 hns, shifted_of hg.args.bmns a4 hns,
      shifted_of hg.args.bsubumns a5 hns, shifted_of hg.args.bsubvmns a6 hns⟩
  · intro ha
    unfold loadedInp withNs
    dsimp only
    simp only [ha, Bool.false_eq_true, if_false, and_self]

example (asym : Bool) : ∃ s', initFromVmec 4 (Ex.vmec (α := α)) (Ex.vst asym) = .ok () s' ∧
    Spec.Shifted Ex.vmec.bmnc s'.inp.bmnc 4 3 :=
  let ⟨s', h⟩ := Ex.loads asym
  ⟨s', h, (C09_half_grid_copies (Ex.given asym) h).2.2.1⟩

/-! ### C13 -/

/-- **C13.**  Defaults and profiles after loading, and everything that must not change. -/
theorem C13_defaults {ns : Int} {A : VmecArgs α} {s s' : St α} {z : Sizes} {u : Unit}
    (hg : Given A s.inp z) (h : initFromVmec ns A s = .ok u s') :
    s'.inp.ns_in = some (ns - 1) ∧
    ((s'.inp.compute_surfs.size : Int) = ns - 1 ∧
      ∀ j : Nat, (j : Int) < ns - 1 → s'.inp.compute_surfs.rdN j = .ok (j : Int)) ∧
    s'.inp.mboz = 6 * z.mpol ∧ s'.inp.nboz = max (2 * z.ntor - 1) 0 ∧
    (A.phip.size = 0 → s'.inp.toroidal_flux = some (ofInt 0) ∧
      s'.flux = { phi := #[], phip := #[], chi := #[], pres := #[] }) ∧
    (A.phip.size ≠ 0 → s'.flux.phi = A.phi ∧ s'.flux.chi = A.chi ∧ s'.flux.pres = A.pres ∧
      (∃ t, A.phi.rd (ns - 1) = .ok t ∧ s'.inp.toroidal_flux = some t) ∧
      (s'.flux.phip.size : Int) = ns ∧ ∀ j : Nat, (j : Int) < ns →
        ∃ x, A.phip.rdN j = .ok x ∧ s'.flux.phip.rdN j = .ok (-x / twopi)) ∧
    -- untouched
    s'.inp.verbose = s.inp.verbose ∧ s'.inp.asym = s.inp.asym ∧ s'.inp.nfp = s.inp.nfp ∧
    s'.inp.mpol = s.inp.mpol ∧ s'.inp.ntor = s.inp.ntor ∧ s'.inp.mnmax = s.inp.mnmax ∧
    s'.inp.mpol_nyq = s.inp.mpol_nyq ∧ s'.inp.ntor_nyq = s.inp.ntor_nyq ∧
    s'.inp.mnmax_nyq = s.inp.mnmax_nyq ∧ s'.inp.xm = s.inp.xm ∧ s'.inp.xn = s.inp.xn ∧
    s'.inp.xm_nyq = s.inp.xm_nyq ∧ s'.inp.xn_nyq = s.inp.xn_nyq ∧ s'.inp.aspect = s.inp.aspect ∧
    s'.out = s.out ∧ s'.grid = s.grid := by
  obtain ⟨_, _, C, _⟩ := vmec_inv hg h
  rw [vmec_result hg h]
  have hns := C.ns_ge
  refine ⟨rfl, ⟨?_, ?_⟩, rfl, rfl, ?_, ?_, rfl, rfl, rfl, rfl, rfl, rfl, rfl, rfl, rfl, rfl, rfl, rfl,
    rfl, rfl, rfl, rfl⟩
  · show ((Vec.tab (ns - 1).toNat _).size : Int) = _
    rw [Vec.size_tab]; omega
  · intro j hj
    exact Vec.rdN_tab (show j < (ns - 1).toNat by omega)
  · intro h0
    constructor
    · show some (torFluxV _ A) = _
      unfold torFluxV; rw [if_pos h0]
    · show fluxV _ A = _
      unfold fluxV; rw [if_pos h0]
  · intro h0
    obtain ⟨a1, a2, a3, a4⟩ := C.flux h0
    have e1 : A.phip.size = (ns - 1).toNat + 1 := by omega
    have e2 : A.chi.size = (ns - 1).toNat + 1 := by omega
    have e3 : A.pres.size = (ns - 1).toNat + 1 := by omega
    have e4 : A.phi.size = (ns - 1).toNat + 1 := by omega
    have E1 := hg.args.phip
    have E2 := hg.args.chi
    have E3 := hg.args.pres
    have E4 := hg.args.phi
    rw [e1] at E1
    rw [e2] at E2
    rw [e3] at E3
    rw [e4] at E4
    show (fluxV _ A).phi = _ ∧ (fluxV _ A).chi = _ ∧ (fluxV _ A).pres = _ ∧
      (∃ t, A.phi.rd (ns - 1) = .ok t ∧ some (torFluxV _ A) = some t) ∧
      ((fluxV _ A).phip.size : Int) = ns ∧ ∀ j : Nat, (j : Int) < ns →
        ∃ x, A.phip.rdN j = .ok x ∧ (fluxV _ A).phip.rdN j = .ok (-x / twopi)
    unfold fluxV torFluxV
    rw [if_neg h0, if_neg h0]
    refine ⟨(E4.eq_tab _).symm, (E2.eq_tab _).symm, (E3.eq_tab _).symm, ⟨_, ?_, rfl⟩, ?_, ?_⟩
    · unfold Vec.rd
      rw [if_pos (by omega), E4.rdN (ofInt 0) (by omega)]
    · show ((Vec.tab _ _).size : Int) = _
      rw [Vec.size_tab]; omega
    · intro j hj
      exact ⟨_, E1.rdN (ofInt 0) (show j < (ns - 1).toNat + 1 by omega),
        Vec.rdN_tab (show j < (ns - 1).toNat + 1 by omega)⟩

example (asym : Bool) : ∃ s', initFromVmec 4 (Ex.vmec (α := α)) (Ex.vst asym) = .ok () s' ∧
    s'.inp.mboz = 12 ∧ s'.inp.nboz = 1 ∧ s'.flux.chi = Ex.vmec.chi :=
  let ⟨s', h⟩ := Ex.loads asym
  ⟨s', h, (C13_defaults (Ex.given asym) h).2.2.1, (C13_defaults (Ex.given asym) h).2.2.2.1,
    ((C13_defaults (Ex.given asym) h).2.2.2.2.2.1 (by
      show (Vec.tab 4 _).size ≠ 0; rw [Vec.size_tab]; decide)).2.1⟩

/-! ### C23, loading -/

/-- The same arguments with other asymmetric arrays. -/
def Spec.withAsymArgs (A : VmecArgs α) (rmns zmnc lmnc bmns bsubumns bsubvmns : Mat α) : VmecArgs α :=
  { A with
    rmns := rmns, zmnc := zmnc, lmnc := lmnc, bmns := bmns, bsubumns := bsubumns
    bsubvmns := bsubvmns }

/-- **C23, loading part.**  With `asym = false` the outcome of `init_from_vmec` does not depend on the
asymmetric arguments, which may have any shape. -/
theorem C23_load (ns : Int) (A : VmecArgs α) (s : St α) (ha : s.inp.asym = some false)
    (rmns zmnc lmnc bmns bsubumns bsubvmns : Mat α) :
    initFromVmec ns (Spec.withAsymArgs A rmns zmnc lmnc bmns bsubumns bsubvmns) s =
      initFromVmec ns A s := by
  generalize hA : Spec.withAsymArgs A rmns zmnc lmnc bmns bsubumns bsubvmns = A'
  by_cases hf : FitsInt (ns - 1)
  · have hv : ∀ B : VmecArgs α, validate ns B (withNs s ns).inp = (do
        check (2 ≤ ns) "ns must be at least 2"
        let nfp ← need s.inp.nfp "nfp"
        check (1 ≤ nfp) "nfp must be at least 1"
        check ((B.iotas.size : Int) = ns) "iotas.size() is not ns"
        validateFlux ns B
        let mnmax ← need s.inp.mnmax "mnmax"
        let mnq ← need s.inp.mnmax_nyq "mnmax_nyq"
        validateModes (withNs s ns).inp nfp mnmax mnq
        validateSym ns mnmax mnq B
        validateSurfs ns s.inp.compute_surfs) := by
      intro B
      unfold validate
      have : (withNs s ns).inp.asym = some false := ha
      simp only [this, need_some, ok_bind, whenAsym, Bool.false_eq_true, if_false]
      rfl
    have hp : ∀ (B : VmecArgs α) (val : Mat α → Res α) (j k : Nat) (t : RZ4 α),
        put4 false B val j k t = (do
          let x ← val B.rmnc
          let rmnc ← t.rmnc.wrN j k x
          let x ← val B.zmns
          let zmns ← t.zmns.wrN j k x
          pure ⟨rmnc, zmns, t.rmns, t.zmnc⟩) := by
      intros; unfold put4; simp only [Bool.false_eq_true, if_false]
    have hl : load ns (ns - 1) A' (withNs s ns).inp s.flux =
        load ns (ns - 1) A (withNs s ns).inp s.flux := by
      unfold load
      have : (withNs s ns).inp.asym = some false := ha
      have hi : ∀ sf sh j (t : RZ4 α), interpMode false (ns - 1) A' (withNs s ns).inp.xm sf sh j t = interpMode false (ns - 1) A (withNs s ns).inp.xm sf sh j t := by
        intros; unfold interpMode; simp only [hp, ← hA]; rfl
      have hi' : ∀ sf sh, interpMode false (ns - 1) A' (withNs s ns).inp.xm sf sh = interpMode false (ns - 1) A (withNs s ns).inp.xm sf sh := by
        intro sf sh; funext j t; exact hi sf sh j t
      simp only [this, need_some, ok_bind, whenAsym, Bool.false_eq_true, if_false, hi']
      rw [← hA]
      rfl
    rw [vmec_eq _ _ _ hf, vmec_eq _ _ _ hf, hv, hv, hl, ← hA]
    rfl
  · unfold initFromVmec
    simp only [Prog.get_bind, i32, if_neg hf, Prog.lift_ub_bind]

example : ∃ s', initFromVmec 4
    (Spec.withAsymArgs (Ex.vmec (α := α)) .empty .empty .empty .empty .empty .empty) (Ex.vst false) = .ok () s' := by
  rw [C23_load 4 Ex.vmec (Ex.vst false) rfl]; exact Ex.loads false

end Booz
