import Verif.ExamplesWout
import Verif.Props.Load
import Mathlib.Tactic.ByContra

/-!
# C14 and C39: `read_wout`

Standing assumption `Spec.WoutShapes f z`: the variables that are present in the file have the
documented shapes (which variables are present is not assumed).
-/

namespace Booz
open Spec
variable {α : Type} [Arith α]

/-- The scalars that `init_from_vmec` finds in the object when called by `read_wout`. -/
def Spec.woutSizesOf (f : NcFile α) (z : WoutSizes) : Sizes :=
  { asym := decide (z.lasym ≠ 0), nfp := z.nfp, mpol := z.mpol, ntor := z.ntor, mnmax := z.mnmax
    ntor_nyq := ((intsOf f "xn_nyq").val 0 (z.mnmax_nyq.toNat - 1)).tdiv z.nfp
    mnmax_nyq := z.mnmax_nyq }

section
variable {f : NcFile α} {z : WoutSizes}

theorem dblsOf_full {n : String} {x : Int} (hs : HasDbls f n x) (h : f.var? n ≠ none) :
    (dblsOf f n).Full x.toNat := by
  cases e : f.var? n with
  | none => exact absurd e h
  | some v =>
    obtain ⟨a, ha, hf⟩ := hs v e
    rw [dblsOf_eq e ha]; exact hf

omit [Arith α] in
theorem full_size {β : Type} {v : Vec β} {n : Nat} (h : v.Full n) : v.Full v.size := by
  rw [h.1]; exact h

theorem woutMat_full {n : String} {r c : Int} (hs : HasDbls f n (r * c)) (hr : 1 ≤ r) (hc : 1 ≤ c)
    (h : f.var? n ≠ none) : (woutMat f r c n).Full (woutMat f r c n).rows (woutMat f r c n).cols := by
  have := dblsOf_full hs h
  rw [Int.toNat_mul (by omega) (by omega)] at this
  exact ⟨rfl, rfl, this.1, this.2⟩

omit [Arith α] in
theorem empty_full : (Mat.empty : Mat α).Full (Mat.empty : Mat α).rows (Mat.empty : Mat α).cols :=
  ⟨rfl, rfl, rfl, fun i hi => absurd hi (by simp [Mat.empty])⟩

theorem mem_base {flux asym : Bool} {n : String} (h : n ∈ woutBase) : n ∈ woutRequired flux asym := by
  unfold woutRequired; simp [h]

theorem mem_flux {asym : Bool} {n : String} (h : n ∈ woutFlux) : n ∈ woutRequired true asym := by
  unfold woutRequired; simp [h]

theorem mem_asym {flux : Bool} {n : String} (h : n ∈ woutAsym) : n ∈ woutRequired flux true := by
  unfold woutRequired; simp [h]

/-- A complete file hands only initialised data to `init_from_vmec`. -/
theorem wout_given {flux : Bool} {I : Inputs α} (hz : WoutShapes f z)
    (hp : ∀ n ∈ woutRequired flux (decide (z.lasym ≠ 0)), f.var? n ≠ none)
    (hs : I.compute_surfs.Full I.compute_surfs.size) :
    Given (woutArgs f z flux) (woutInp f z I) (woutSizesOf f z) := by
  have a := hz.ns_pos
  have b := hz.mnmax_pos.1
  have c := hz.mnmax_nyq_pos.1
  have m1 : ∀ n ∈ ["rmnc", "zmns", "lmns"], (woutMat f z.mnmax z.ns n).Full
      (woutMat f z.mnmax z.ns n).rows (woutMat f z.mnmax z.ns n).cols := fun n hn =>
    woutMat_full (hz.mats n ((by decide : ["rmnc", "zmns", "lmns"] ⊆
      ["rmnc", "zmns", "lmns", "rmns", "zmnc", "lmnc"]) hn)) b a
      (hp n (mem_base ((by decide : ["rmnc", "zmns", "lmns"] ⊆ woutBase) hn)))
  have m2 : ∀ n ∈ ["bmnc", "bsubumnc", "bsubvmnc"], (woutMat f z.mnmax_nyq z.ns n).Full
      (woutMat f z.mnmax_nyq z.ns n).rows (woutMat f z.mnmax_nyq z.ns n).cols := fun n hn =>
    woutMat_full (hz.mats_nyq n ((by decide : ["bmnc", "bsubumnc", "bsubvmnc"] ⊆
      ["bmnc", "bsubumnc", "bsubvmnc", "bmns", "bsubumns", "bsubvmns"]) hn)) c a
      (hp n (mem_base ((by decide : ["bmnc", "bsubumnc", "bsubvmnc"] ⊆ woutBase) hn)))
  have e1 : ∀ n ∈ ["rmns", "zmnc", "lmnc"], ∀ M : Mat α,
      M = (if z.lasym ≠ 0 then woutMat f z.mnmax z.ns n else .empty) → M.Full M.rows M.cols := by
    rintro n hn M rfl
    by_cases hl : z.lasym ≠ 0
    · rw [if_pos hl]
      refine woutMat_full (hz.mats n ((by decide : ["rmns", "zmnc", "lmnc"] ⊆
        ["rmnc", "zmns", "lmns", "rmns", "zmnc", "lmnc"]) hn)) b a (hp n ?_)
      rw [decide_eq_true hl]
      exact mem_asym ((by decide : ["rmns", "zmnc", "lmnc"] ⊆ woutAsym) hn)
    · rw [if_neg hl]; exact empty_full
  have e2 : ∀ n ∈ ["bmns", "bsubumns", "bsubvmns"], ∀ M : Mat α,
      M = (if z.lasym ≠ 0 then woutMat f z.mnmax_nyq z.ns n else .empty) → M.Full M.rows M.cols := by
    rintro n hn M rfl
    by_cases hl : z.lasym ≠ 0
    · rw [if_pos hl]
      refine woutMat_full (hz.mats_nyq n ((by decide : ["bmns", "bsubumns", "bsubvmns"] ⊆
        ["bmnc", "bsubumnc", "bsubvmnc", "bmns", "bsubumns", "bsubvmns"]) hn)) c a (hp n ?_)
      rw [decide_eq_true hl]
      exact mem_asym ((by decide : ["bmns", "bsubumns", "bsubvmns"] ⊆ woutAsym) hn)
    · rw [if_neg hl]; exact empty_full
  have pf : ∀ n, n ∈ woutFlux → HasDbls f n z.ns → ∀ v : Vec α,
      v = (if flux = true then dblsOf f n else #[]) → v.Full v.size := by
    rintro n hn hd v rfl
    by_cases hf : flux = true
    · subst hf
      exact full_size (dblsOf_full hd (hp n (mem_flux hn)))
    · rw [if_neg hf]
      exact ⟨rfl, fun i hi => absurd hi (by simp)⟩
  refine ⟨⟨rfl, rfl, rfl, rfl, rfl, rfl, rfl⟩, ⟨?_, ?_, ?_, ?_, hs⟩, ?_⟩
  · exact full_size (intsOf_full hz.xm (hp _ (mem_base (by decide)))).1
  · exact full_size (intsOf_full hz.xn (hp _ (mem_base (by decide)))).1
  · exact full_size (intsOf_full hz.xm_nyq (hp _ (mem_base (by decide)))).1
  · exact full_size (intsOf_full hz.xn_nyq (hp _ (mem_base (by decide)))).1
  · exact
      { iotas := full_size (dblsOf_full hz.iotas (hp _ (mem_base (by decide))))
        rmnc := m1 _ (by decide)
        rmns := e1 _ (by decide) _ rfl
        zmnc := e1 "zmnc" (by decide) _ rfl
        zmns := m1 _ (by decide)
        lmnc := e1 "lmnc" (by decide) _ rfl
        lmns := m1 _ (by decide)
        bmnc := m2 _ (by decide)
        bmns := e2 "bmns" (by decide) _ rfl
        bsubumnc := m2 _ (by decide)
        bsubumns := e2 "bsubumns" (by decide) _ rfl
        bsubvmnc := m2 _ (by decide)
        bsubvmns := e2 "bsubvmns" (by decide) _ rfl
        phip := pf "phipf" (by decide) hz.phipf _ rfl
        chi := pf "chi" (by decide) hz.chi _ rfl
        pres := pf "pres" (by decide) hz.pres _ rfl
        phi := pf "phi" (by decide) hz.phi _ rfl }

end

/-! ### C39 -/

/-- **C39, complete file.**  When every required variable is present, `read_wout` is
`init_from_vmec` with the file's `ns` and arrays, on the object with the file's scalars and mode
lists. -/
theorem C39_loads {disk : Disk α} {path : String} {f : NcFile α} {z : WoutSizes} (flux : Bool)
    (s : St α) (hd : disk path = .nc f) (hz : WoutShapes f z)
    (hp : ∀ n ∈ woutRequired flux (decide (z.lasym ≠ 0)), f.var? n ≠ none) :
    readWout disk path flux s =
      initFromVmec z.ns (woutArgs f z flux) { s with inp := woutInp f z s.inp } := by
  rcases readWout_cases (flux := flux) (s := s) hd hz with ⟨⟨n, hn, hv⟩, -⟩ | ⟨-, h⟩
  · exact absurd hv (hp n hn)
  · exact h

example (lasym : Int) (flux : Bool) (s : St α) : readWout (Ex.woutDisk lasym) "wout.nc" flux s =
    initFromVmec 4 (woutArgs (Ex.wout lasym) (Ex.woutZ lasym) flux)
      { s with inp := woutInp (Ex.wout lasym) (Ex.woutZ lasym) s.inp } :=
  C39_loads flux s (by simp [Ex.woutDisk]) (Ex.shapes lasym) (Ex.wout_present lasym _ _)

/-- **C39, incomplete file.**  When a required variable is missing, `read_wout` throws. -/
theorem C39_missing {disk : Disk α} {path : String} {f : NcFile α} {z : WoutSizes} (flux : Bool)
    (s : St α) (hd : disk path = .nc f) (hz : WoutShapes f z)
    (hm : ∃ n ∈ woutRequired flux (decide (z.lasym ≠ 0)), f.var? n = none) :
    ∃ s', readWout disk path flux s = .exc "NetCDF: Variable not found" s' := by
  rcases readWout_cases (flux := flux) (s := s) hd hz with ⟨-, h⟩ | ⟨h, -⟩
  · exact h
  · obtain ⟨n, hn, hv⟩ := hm
    exact absurd hv (h n hn)

/-- The example file without `bsubvmnc`. -/
def Ex.noBsubv : NcFile α := { Ex.wout (α := α) 0 with
  vars := (Ex.wout (α := α) 0).vars.filter fun v => v.name ≠ "bsubvmnc" }

theorem Ex.noBsubv_shapes : WoutShapes (Ex.noBsubv (α := α)) (Ex.woutZ 0) := by
  have key : ∀ n v, (Ex.noBsubv (α := α)).var? n = some v → (Ex.wout (α := α) 0).var? n = some v := by
    intro n v h
    rw [NcFile.var?] at h
    have h1 := List.find?_some h
    have h2 := List.mem_of_find?_eq_some h
    rw [Ex.noBsubv] at h2
    obtain ⟨i, hi, e⟩ := List.mem_iff_getElem.1 (List.mem_filter.1 h2).1
    exact Ex.wvar 0 i (by rw [List.getElem?_eq_getElem hi, e]) (by simpa using h1)
  have hz := Ex.shapes (α := α) 0
  have s1 : ∀ {n x}, ScalarIs (Ex.wout (α := α) 0) n x → ScalarIs Ex.noBsubv n x :=
    fun h v hv => h v (key _ _ hv)
  have s2 : ∀ {n x}, HasInts (Ex.wout (α := α) 0) n x → HasInts Ex.noBsubv n x :=
    fun h v hv => h v (key _ _ hv)
  have s3 : ∀ {n x}, HasDbls (Ex.wout (α := α) 0) n x → HasDbls Ex.noBsubv n x :=
    fun h v hv => h v (key _ _ hv)
  exact ⟨s1 hz.lasym, s1 hz.ns, s1 hz.nfp, s1 hz.mpol, s1 hz.ntor, s1 hz.mnmax, s1 hz.mnmax_nyq,
    s3 hz.aspect, s3 hz.chi, s3 hz.phipf, s3 hz.pres, s3 hz.phi, s3 hz.iotas, s2 hz.xm, s2 hz.xn,
    s2 hz.xm_nyq, s2 hz.xn_nyq, fun n hn => s3 (hz.mats n hn), fun n hn => s3 (hz.mats_nyq n hn),
    hz.ns_pos, hz.nfp_pos, hz.mnmax_pos, hz.mnmax_nyq_pos⟩

theorem Ex.noBsubv_missing (flux : Bool) :
    ∃ n ∈ woutRequired flux (decide ((Ex.woutZ 0).lasym ≠ 0)), (Ex.noBsubv (α := α)).var? n = none := by
  refine ⟨"bsubvmnc", mem_base (by decide), ?_⟩
  rw [NcFile.var?, List.find?_eq_none]
  intro v hv
  have := (List.mem_filter.1 hv).2
  simpa using this

example : ∃ s', readWout (fun _ => .nc (Ex.noBsubv (α := α))) "x" true construct =
    .exc "NetCDF: Variable not found" s' :=
  C39_missing true construct rfl Ex.noBsubv_shapes (Ex.noBsubv_missing true)

/-- **C39, no readable file.**  A path that is not a NetCDF file makes `read_wout` throw and leaves
the object unchanged. -/
theorem C39_unreadable {disk : Disk α} {path : String} (flux : Bool) (s : St α)
    (hd : ∀ f, disk path ≠ .nc f) : ∃ m, readWout disk path flux s = .exc m s := by
  unfold readWout openRead
  cases h : disk path with
  | nc f => exact absurd h (hd f)
  | absent => exact ⟨_, Prog.lift_throw_bind _ _ _⟩
  | other b => exact ⟨_, Prog.lift_throw_bind _ _ _⟩
  | broken => exact ⟨_, Prog.lift_throw_bind _ _ _⟩

example : ∃ m, readWout (Ex.woutDisk (α := α) 0) "missing.nc" true construct = .exc m construct :=
  C39_unreadable true construct (fun f => by simp [Ex.woutDisk])

/-- **C39, no undefined behaviour.**  If the sizes fit (`Computable`, `Loadable`, see C06) then
`read_wout` returns or throws; in particular it makes no out-of-range access. -/
theorem C39_safe {disk : Disk α} {path : String} {f : NcFile α} {z : WoutSizes} (flux : Bool)
    (s : St α) (hd : disk path = .nc f) (hz : WoutShapes f z) (hf : FitsInt (z.ns - 1))
    (hs : s.inp.compute_surfs.Full s.inp.compute_surfs.size) (hc : Computable (woutSizesOf f z))
    (hl : Loadable z.ns (woutArgs f z flux) (woutInp f z s.inp) (woutSizesOf f z)) :
    (∃ s', readWout disk path flux s = .ok () s') ∨ (∃ m s', readWout disk path flux s = .exc m s') := by
  rcases readWout_cases (flux := flux) (s := s) hd hz with ⟨-, s', h⟩ | ⟨hp, h⟩
  · exact .inr ⟨_, s', h⟩
  · have hg := wout_given (I := s.inp) hz hp hs
    rw [h]
    have hgx : Given (woutArgs f z flux) ({ s with inp := woutInp f z s.inp } : St α).inp
        (woutSizesOf f z) := hg
    rw [vmec_eq _ _ _ hf]
    have hg' := given_withNs hgx z.ns
    obtain ⟨hv, ht⟩ := validate_iff (ns := z.ns) hg'.sized hg'.lists hc.modes hc.modes_nyq hc.fit
      hc.fit_nyq (A := woutArgs f z flux)
    cases hw : validate z.ns (woutArgs f z flux) (withNs { s with inp := woutInp f z s.inp } z.ns).inp with
    | error e =>
      obtain ⟨m, rfl⟩ := ht e hw
      exact .inr ⟨m, _, rfl⟩
    | ok u =>
      rw [load_ok (hv.mp hw) hg'.sized hg'.lists hg'.args (loadable_withNs.mpr hl)]
      exact .inl ⟨_, rfl⟩

/-! ### C14 -/

/-- Same input data: everything agrees except the verbosity and, for stellarator-symmetric data, the
unused asymmetric arrays. -/
def Spec.SameLoaded (asym : Bool) (I J : Inputs α) : Prop :=
  if asym then J = { I with verbose := J.verbose }
  else J = { I with verbose := J.verbose, rmns := J.rmns, zmnc := J.zmnc, lmnc := J.lmnc, bmns := J.bmns
                    bsubumns := J.bsubumns, bsubvmns := J.bsubvmns }

/-- The surface selection left in the object is legal for `ns`. -/
def Spec.SurfsOk (ns : Int) (v : Vec Int) : Prop :=
  v.Full v.size ∧ ∀ j, j < v.size → 0 ≤ v.val 0 j ∧ v.val 0 j < ns - 1

theorem wout_transfer {f : NcFile α} {z : WoutSizes} {flux : Bool} {s t s' : St α}
    (hz : WoutShapes f z) (hp : ∀ n ∈ woutRequired flux (decide (z.lasym ≠ 0)), f.var? n ≠ none)
    (hs : SurfsOk z.ns s.inp.compute_surfs) (ht : SurfsOk z.ns t.inp.compute_surfs)
    (hv : t.inp.verbose ≤ 1 ∨ t.inp.verbose = s.inp.verbose)
    (h : initFromVmec z.ns (woutArgs f z flux) { s with inp := woutInp f z s.inp } = .ok () s') :
    ∃ t', initFromVmec z.ns (woutArgs f z flux) { t with inp := woutInp f z t.inp } = .ok () t' ∧
      SameLoaded (decide (z.lasym ≠ 0)) s'.inp t'.inp ∧ t'.flux = s'.flux := by
  have hgs : Given (woutArgs f z flux) ({ s with inp := woutInp f z s.inp } : St α).inp
      (woutSizesOf f z) := wout_given hz hp hs.1
  have hgt : Given (woutArgs f z flux) ({ t with inp := woutInp f z t.inp } : St α).inp
      (woutSizesOf f z) := wout_given hz hp ht.1
  obtain ⟨hf, hc, C, L⟩ := vmec_inv hgs h
  have C' : Consistent z.ns (woutArgs f z flux) ({ t with inp := woutInp f z t.inp } : St α).inp
      (woutSizesOf f z) :=
    ⟨C.1, C.2, C.3, C.4, C.5, C.6, C.7, C.8, C.9, C.10, C.11, C.12, C.13, ht.2⟩
  have L' : Loadable z.ns (woutArgs f z flux) ({ t with inp := woutInp f z t.inp } : St α).inp
      (woutSizesOf f z) := by
    refine ⟨L.1, ?_, L.3, L.4, L.5⟩
    rcases hv with hv | hv
    · exact .inl hv
    · rcases L.2 with h | h
      · exact .inl (by show t.inp.verbose ≤ 1; rw [hv]; exact h)
      · exact .inr h
  refine ⟨_, vmec_ok hf hgt hc C' L', ?_, ?_⟩
  · rw [vmec_result hgs h]
    unfold SameLoaded
    by_cases hl : z.lasym ≠ 0
    · rw [decide_eq_true hl, if_pos rfl]
      unfold loadedInp
      have e : (woutSizesOf f z).asym = true := decide_eq_true hl
      simp only [e, if_true]
      rfl
    · rw [decide_eq_false hl]
      rfl
  · rw [vmec_result hgs h]

/-- **C14 is false of the code.**  A file that loads into a fresh object is rejected by an object in
which surface 7 had been selected for an earlier, larger equilibrium. -/
theorem C14_false : ∃ (disk : Disk α) (path : String) (used : St α),
    (∃ s', readWout disk path true construct = .ok () s') ∧
    ∃ m s', readWout disk path true used = .exc m s' := by
  have hload : ∀ s : St α, readWout (Ex.woutDisk 0) "wout.nc" true s = _ := fun s =>
    C39_loads true s (by simp [Ex.woutDisk]) (Ex.shapes 0) (Ex.wout_present 0 _ _)
  refine ⟨Ex.woutDisk 0, "wout.nc",
    { construct with inp := { (construct : St α).inp with compute_surfs := Ex.vec [7] } }, ?_, ?_⟩
  · rw [hload]
    refine ⟨_, vmec_ok (z := Ex.sizes false) (by decide) ?_ (Ex.computable false) ?_ ?_⟩
    · rw [Ex.wout_args, Ex.wout_inp]
      exact Ex.sym_given ⟨rfl, fun i hi => absurd hi (by simp [construct])⟩
    · rw [Ex.wout_args, Ex.wout_inp]
      exact Ex.sym_consistent fun j hj => absurd hj (by simp [construct])
    · rw [Ex.wout_args, Ex.wout_inp]
      exact Ex.sym_loadable (by show (1 : Int) ≤ 1; decide)
  · rw [hload, Ex.wout_args, Ex.wout_inp]
    refine (C07_partial (z := Ex.sizes false) (by decide) ?_ (Ex.computable false)).mpr fun C => ?_
    · exact Ex.sym_given (Ex.vec_full [7] rfl)
    · have := (C.surfs 0 (by show 0 < 1; decide)).2
      exact absurd this (by show ¬ (7 : Int) < 4 - 1; decide)

/-- **C14 (partial).**  For two objects whose current surface selections are legal for the file's
`ns` (in particular for a fresh object and any such used one), `read_wout` of the same file succeeds
for both or for neither, and then gives the same input data and flux profiles.

Missing: a left-over selection that is not legal for the new `ns` makes loading fail (`C14_false`);
the data-dependent printing at `verbose > 1` must be the same for both objects. -/
theorem C14_partial {disk : Disk α} {path : String} {f : NcFile α} {z : WoutSizes} (flux : Bool)
    (s t : St α) (hd : disk path = .nc f) (hz : WoutShapes f z)
    (hs : SurfsOk z.ns s.inp.compute_surfs) (ht : SurfsOk z.ns t.inp.compute_surfs)
    (hv : (s.inp.verbose ≤ 1 ∧ t.inp.verbose ≤ 1) ∨ t.inp.verbose = s.inp.verbose) :
    ((∃ s', readWout disk path flux s = .ok () s') ↔ (∃ t', readWout disk path flux t = .ok () t')) ∧
    ∀ s' t', readWout disk path flux s = .ok () s' → readWout disk path flux t = .ok () t' →
      SameLoaded (decide (z.lasym ≠ 0)) s'.inp t'.inp ∧ t'.flux = s'.flux := by
  by_cases hp : ∀ n ∈ woutRequired flux (decide (z.lasym ≠ 0)), f.var? n ≠ none
  · rw [C39_loads flux s hd hz hp, C39_loads flux t hd hz hp]
    refine ⟨⟨fun ⟨s', h⟩ => ?_, fun ⟨t', h⟩ => ?_⟩, fun s' t' h1 h2 => ?_⟩
    · obtain ⟨t', h', -⟩ := wout_transfer hz hp hs ht (hv.imp And.right id) h
      exact ⟨t', h'⟩
    · obtain ⟨s', h', -⟩ := wout_transfer hz hp ht hs (hv.imp And.left Eq.symm) h
      exact ⟨s', h'⟩
    · obtain ⟨t'', h', h3⟩ := wout_transfer hz hp hs ht (hv.imp And.right id) h1
      rw [h'] at h2; cases h2
      exact h3
  · have hm : ∃ n ∈ woutRequired flux (decide (z.lasym ≠ 0)), f.var? n = none := by
      by_contra hc
      exact hp fun n hn hv => hc ⟨n, hn, hv⟩
    obtain ⟨s1, h1⟩ := C39_missing flux s hd hz hm
    obtain ⟨t1, h2⟩ := C39_missing flux t hd hz hm
    rw [h1, h2]
    exact ⟨⟨fun ⟨_, h⟩ => (by cases h), fun ⟨_, h⟩ => (by cases h)⟩, fun _ _ h => (by cases h)⟩

/-- A fresh object and one with surfaces 1 and 0 of an older equilibrium selected. -/
example : (∃ s', readWout (Ex.woutDisk 0) "wout.nc" true (construct : St α) = .ok () s') ↔
    ∃ t', readWout (Ex.woutDisk 0) "wout.nc" true (Ex.vst (α := α) true) = .ok () t' :=
  (C14_partial (z := Ex.woutZ 0) true construct (Ex.vst true) (by simp [Ex.woutDisk]) (Ex.shapes 0)
    ⟨⟨rfl, fun i hi => absurd hi (by simp [construct])⟩, fun j hj => absurd hj (by simp [construct])⟩
    ⟨(Ex.lists true).surfs, (Ex.consistent (α := α) true).surfs⟩ (.inr rfl)).1

example : ∃ t', readWout (Ex.woutDisk 0) "wout.nc" true (Ex.vst (α := α) true) = .ok () t' := by
  rw [C39_loads true (Ex.vst true) (by simp [Ex.woutDisk]) (Ex.shapes 0) (Ex.wout_present 0 _ _)]
  refine ⟨_, vmec_ok (z := Ex.sizes false) (by decide) ?_ (Ex.computable false) ?_ ?_⟩
  · rw [Ex.wout_args, Ex.wout_inp]; exact Ex.sym_given (Ex.lists true).surfs
  · rw [Ex.wout_args, Ex.wout_inp]; exact Ex.sym_consistent (Ex.consistent (α := α) true).surfs
  · rw [Ex.wout_args, Ex.wout_inp]; exact Ex.sym_loadable (by show (1 : Int) ≤ 1; decide)

/-- The hypotheses of `C39_safe` can be met. -/
example : (∃ s', readWout (Ex.woutDisk 0) "wout.nc" true (construct : St α) = .ok () s') ∨
    ∃ m s', readWout (Ex.woutDisk 0) "wout.nc" true (construct : St α) = .exc m s' := by
  have e : woutSizesOf (Ex.wout (α := α) 0) (Ex.woutZ 0) = Ex.sizes false := by
    have h : intsOf (Ex.wout (α := α) 0) "xn_nyq" = Ex.vec [0, 2, 0, 2] := Ex.wout_ints 0 16 rfl rfl rfl
    unfold woutSizesOf
    rw [h]
    rfl
  refine C39_safe (f := Ex.wout 0) (z := Ex.woutZ 0) true construct (by simp [Ex.woutDisk]) (Ex.shapes 0) (by decide)
    ⟨rfl, fun i hi => absurd hi (by simp [construct])⟩ ?_ ?_
  · rw [e]; exact Ex.computable false
  · rw [e, Ex.wout_args, Ex.wout_inp]; exact Ex.sym_loadable (by show (1 : Int) ≤ 1; decide)

end Booz
