import Verif.Spec.OneFile
import Verif.Props.Session
import Verif.Props.Malformed

/-!
# C103: a boozmn file describes one equilibrium
-/

namespace Booz
variable {α : Type} [Arith α]
open Spec

/-! ### `read_wout` leaves the results of an earlier run in the object -/

/-- However the program ends, the results and the grid are those of before. -/
def LeavesResults {β : Type} (p : Prog (St α) β) : Prop :=
  ∀ s, (∀ x s', p s = .ok x s' → s'.out = s.out ∧ s'.grid = s.grid) ∧
    (∀ m s', p s = .exc m s' → s'.out = s.out ∧ s'.grid = s.grid)

omit [Arith α] in
theorem leavesResults_bind {β γ : Type} {p : Prog (St α) β} {q : β → Prog (St α) γ} (hp : LeavesResults p)
    (hq : ∀ x, LeavesResults (q x)) : LeavesResults (p >>= q) := by
  intro s
  rw [Prog.bind_def]
  cases e : p s with
  | ok x t =>
    obtain ⟨e1, e2⟩ := (hp s).1 x t e
    exact ⟨fun y s' h => ⟨((hq x t).1 y s' h).1.trans e1, ((hq x t).1 y s' h).2.trans e2⟩,
      fun m s' h => ⟨((hq x t).2 m s' h).1.trans e1, ((hq x t).2 m s' h).2.trans e2⟩⟩
  | exc m t => exact ⟨fun _ _ h => (by cases h), fun _ _ h => (by cases h; exact (hp s).2 _ _ e)⟩
  | abort _ => exact ⟨fun _ _ h => (by cases h), fun _ _ h => (by cases h)⟩
  | ub _ => exact ⟨fun _ _ h => (by cases h), fun _ _ h => (by cases h)⟩

omit [Arith α] in
theorem leavesResults_pure {β : Type} (x : β) : LeavesResults (pure x : Prog (St α) β) :=
  fun _ => ⟨fun _ _ h => (by cases h; exact ⟨rfl, rfl⟩), fun _ _ h => (by cases h)⟩

omit [Arith α] in
theorem leavesResults_get : LeavesResults (Prog.get : Prog (St α) (St α)) :=
  fun _ => ⟨fun _ _ h => (by cases h; exact ⟨rfl, rfl⟩), fun _ _ h => (by cases h)⟩

omit [Arith α] in
theorem leavesResults_lift {β : Type} (r : Res β) : LeavesResults (Prog.lift r : Prog (St α) β) := by
  intro s
  unfold Prog.lift
  cases r with
  | ok x => exact ⟨fun _ _ h => (by cases h; exact ⟨rfl, rfl⟩), fun _ _ h => (by cases h)⟩
  | error f =>
    cases f with
    | throw m => exact ⟨fun _ _ h => (by cases h), fun _ _ h => (by cases h; exact ⟨rfl, rfl⟩)⟩
    | ub _ => exact ⟨fun _ _ h => (by cases h), fun _ _ h => (by cases h)⟩
    | assertFail _ => exact ⟨fun _ _ h => (by cases h), fun _ _ h => (by cases h)⟩

omit [Arith α] in
theorem leavesResults_setInp (g : Inputs α → Res (Inputs α)) : LeavesResults (setInp g) := by
  intro s
  unfold setInp Prog.modify
  simp only [Prog.bind_def, Prog.get, Prog.lift, Prog.set]
  cases e : g s.inp with
  | ok I => exact ⟨fun _ _ h => (by cases h; exact ⟨rfl, rfl⟩), fun _ _ h => (by cases h)⟩
  | error f =>
    cases f with
    | throw m => exact ⟨fun _ _ h => (by cases h), fun _ _ h => (by cases h; exact ⟨rfl, rfl⟩)⟩
    | ub _ => exact ⟨fun _ _ h => (by cases h), fun _ _ h => (by cases h)⟩
    | assertFail _ => exact ⟨fun _ _ h => (by cases h), fun _ _ h => (by cases h)⟩

/-- What every later state has in common with a given one. -/
def KeptFrom (o : Outputs α) (g : Grid α) {β : Type} (r : Out (St α) β) : Prop :=
  (∀ x s', r = .ok x s' → s'.out = o ∧ s'.grid = g) ∧ (∀ m s', r = .exc m s' → s'.out = o ∧ s'.grid = g)

omit [Arith α] in
theorem keptFrom_lift {β γ : Type} (r : Res β) (q : β → Prog (St α) γ) (s : St α)
    (h : ∀ x, KeptFrom s.out s.grid (q x s)) : KeptFrom s.out s.grid ((Prog.lift r >>= q) s) := by
  cases r with
  | ok x => exact h x
  | error f =>
    cases f with
    | throw m => exact ⟨fun _ _ h => (by cases h), fun _ _ h => (by cases h; exact ⟨rfl, rfl⟩)⟩
    | ub _ => exact ⟨fun _ _ h => (by cases h), fun _ _ h => (by cases h)⟩
    | assertFail _ => exact ⟨fun _ _ h => (by cases h), fun _ _ h => (by cases h)⟩

theorem leavesResults_vmec (ns : Int) (A : VmecArgs α) : LeavesResults (initFromVmec ns A) := by
  intro s
  unfold initFromVmec
  rw [Prog.get_bind]
  refine keptFrom_lift _ _ s fun nsIn => ?_
  rw [Prog.set_bind, Prog.get_bind]
  refine keptFrom_lift _ _ { s with inp := { s.inp with ns_in := some nsIn } } fun _ => ?_
  refine keptFrom_lift _ _ { s with inp := { s.inp with ns_in := some nsIn } } fun q => ?_
  exact ⟨fun _ _ h => (by cases h; exact ⟨rfl, rfl⟩), fun _ _ h => (by cases h)⟩

theorem leavesResults_body (f : NcFile α) (flux : Bool) : LeavesResults (readWoutBody f flux) := by
  unfold readWoutBody
  repeat' first
    | exact leavesResults_lift _
    | exact leavesResults_setInp _
    | exact leavesResults_get
    | exact leavesResults_pure _
    | refine leavesResults_bind ?_ fun _ => ?_

/-- **C103, what `read_wout` leaves.**  Whatever the file and however the call ends, all results of an
earlier run, or of an earlier `read_boozmn`, stay in the object. -/
theorem C103_kept (disk : Disk α) (path : String) (flux : Bool) (s : St α) :
    (∀ s', readWout disk path flux s = .ok () s' → s'.out = s.out) ∧
    (∀ m s', readWout disk path flux s = .exc m s' → s'.out = s.out) := by
  have h : LeavesResults (readWout disk path flux) := by
    unfold readWout
    exact leavesResults_bind (leavesResults_lift _) fun f => leavesResults_bind (leavesResults_body f flux) fun q => leavesResults_vmec _ _
  exact ⟨fun s' e => ((h s).1 _ _ e).1, fun m s' e => ((h s).2 _ _ e).1⟩

/-- Loading a valid file into an object with a legal selection, in closed form. -/
theorem valid_loads {f : NcFile α} {z : WoutSizes} {flux : Bool} (hv : ValidWout f z flux)
    {disk : Disk α} {path : String} (hd : disk path = .nc f) (s : St α)
    (hs : SurfsOk z.ns s.inp.compute_surfs) (hb : s.inp.verbose ≤ 1 ∨ (4 ≤ z.mnmax ∧ 4 ≤ z.ns)) :
    readWout disk path flux s = .ok () { s with
      inp := loadedInp z.ns (woutArgs f z flux)
        (withNs { s with inp := woutInp f z s.inp } z.ns).inp (woutSizesOf f z)
      flux := fluxV (z.ns - 1).toNat (woutArgs f z flux) } := by
  obtain ⟨hp, hf, hg, hc, hl⟩ := valid_given hv s hs.1 hb
  have C0 : Consistent z.ns (woutArgs f z flux) (woutInp f z (construct : St α).inp) (woutSizesOf f z) := by
    obtain ⟨b, hb0⟩ := hv.loads
    rw [C39_loads flux construct (disk := fun _ => .nc f) rfl hv.shapes hp] at hb0
    have hg0 := wout_given (I := (construct : St α).inp) (flux := flux) hv.shapes hp
      ⟨rfl, fun i hi => absurd hi (by simp [construct])⟩
    exact (vmec_inv (s := { (construct : St α) with inp := woutInp f z (construct : St α).inp }) hg0 hb0).2.2.1
  rw [C39_loads flux s hd hv.shapes hp]
  have C : Consistent z.ns (woutArgs f z flux) ({ s with inp := woutInp f z s.inp } : St α).inp (woutSizesOf f z) :=
    ⟨C0.1, C0.2, C0.3, C0.4, C0.5, C0.6, C0.7, C0.8, C0.9, C0.10, C0.11, C0.12, C0.13, hs.2⟩
  exact vmec_ok hf hg hc C hl

/-- **C103 is false** of the code, in general.  An object `a` holds results on all its surfaces; another
`wout` file with as many surfaces is loaded into it, and `write_boozmn` is called.  Nothing fails: the file
combines the spectra of the old equilibrium with `nfp`, iota, the profiles, the resolution and the list of
surfaces of the new one (the values a new object has after loading that file). -/
theorem C103_mixed {a : St α} {disk : Disk α} {K n : Nat} {asym : Bool} (h : HasResults a K n n n asym)
    {f : NcFile α} {z : WoutSizes} {flux : Bool} {path : String} (hd : disk path = .nc f)
    (hv : ValidWout f z flux) (hn : z.ns = (n : Int) + 1) (ha : z.lasym ≠ 0 → asym = true)
    (hs : SurfsOk z.ns a.inp.compute_surfs) (hb : a.inp.verbose ≤ 1 ∨ (4 ≤ z.mnmax ∧ 4 ≤ z.ns))
    {env : Env} {version : String} (hw : VersionOk version) (he : NoFailure env) (out : String) :
    ∃ (w₁ w₂ : Sess α) (b : St α) (g : NcFile α),
      perform (.readWout path flux) ⟨a, disk⟩ = .ok () w₁ ∧
      perform (.write env version out) w₁ = .ok () w₂ ∧ w₂.disk out = .nc g ∧
      readWout (fun _ => .nc f) "" flux construct = .ok () b ∧
      Mixture g a b K n n (decide (z.lasym ≠ 0)) := by
  have hl := valid_loads hv hd a hs hb
  have hl0 := valid_loads hv (disk := fun _ => .nc f) (path := "") rfl (construct : St α)
    ⟨⟨rfl, fun i hi => absurd hi (Nat.not_lt_zero i)⟩, fun j hj => absurd hj (Nat.not_lt_zero j)⟩
    (.inl (by show (1 : Int) ≤ 1; decide))
  have hnn : (z.ns - 1).toNat = n := by omega
  generalize hI : loadedInp z.ns (woutArgs f z flux) (withNs { a with inp := woutInp f z a.inp } z.ns).inp
    (woutSizesOf f z) = I at hl
  have i1 : I.ns_in = some (n : Int) := by rw [← hI]; show some (z.ns - 1) = _; congr 1; omega
  have i2 : I.asym = some (decide (z.lasym ≠ 0)) := by rw [← hI]; rfl
  have i3 : I.compute_surfs = Vec.tab n fun j => (j : Int) := by
    rw [← hI]; show Vec.tab (z.ns - 1).toNat _ = _; rw [hnn]
  have i4 : I.iota.Full n := by
    rw [← hI, ← hnn]; exact Vec.full_tab _ _
  have hfl : FluxOk (fluxV (z.ns - 1).toNat (woutArgs f z flux)) n := by
    have := (fluxFine_fluxV (ns := z.ns) (A := woutArgs f z flux) ({ a with
      flux := fluxV (z.ns - 1).toNat (woutArgs f z flux) } : St α) rfl).1
    rw [hnn] at this ⊢
    exact this
  have hn3 := h.ns_fit
  have hR : HasResults ({ a with inp := I, flux := fluxV (z.ns - 1).toNat (woutArgs f z flux) } : St α) K n n n
      (decide (z.lasym ≠ 0)) :=
    { mnboz := h.mnboz, ns_b := h.ns_b, ns_in := i1, asym_eq := i2, K_pos := h.K_pos, nb_pos := h.nb_pos
      K_fit := h.K_fit, nc_fit := h.nc_fit, ns_fit := h.ns_fit
      surfs_size := by show I.compute_surfs.size = n; rw [i3, Vec.size_tab]
      surfs := fun _ j hj => ⟨(j : Int), by
        show I.compute_surfs[j]? = _
        rw [i3, Vec.getElem?_tab, if_pos hj], by constructor <;> omega⟩
      surfs_int := fun j x hx => by
        have hx : I.compute_surfs[j]? = some (some x) := hx
        rw [i3, Vec.getElem?_tab] at hx
        split at hx
        · cases hx; constructor <;> omega
        · cases hx
      xm_b := h.xm_b, xn_b := h.xn_b, iota := i4, boozer_I := h.boozer_I, boozer_G := h.boozer_G
      bmnc_b := h.bmnc_b, rmnc_b := h.rmnc_b, zmns_b := h.zmns_b, numns_b := h.numns_b, gmnc_b := h.gmnc_b
      asym_b := fun e => h.asym_b (ha (by simpa using e))
      flux := hfl }
  rcases C34_total (env := env) (filename := out) (disk := disk) hR hw with ⟨w, e⟩ | ⟨⟨k, m, e⟩, _⟩
  · obtain ⟨g, hg, L⟩ := C34_layout hR hw e
    refine ⟨⟨{ a with inp := I, flux := fluxV (z.ns - 1).toNat (woutArgs f z flux) }, disk⟩,
      ⟨w.core.mem.obj, w.core.disk⟩, _, g, ?_, ?_, hg, hl0, ?_⟩
    · show Sess.on _ _ = _
      unfold Sess.on
      rw [hl]
    · show Sess.write _ _ _ _ = _
      unfold Sess.write
      rw [e]
    · subst hI
      exact
      { bmnc_b := L.bmnc_b, rmnc_b := L.rmnc_b, zmns_b := L.zmns_b, pmns_b := L.pmns_b, gmn_b := L.gmn_b
        asym_vars := L.asym_vars, ixm_b := L.ixm_b, ixn_b := L.ixn_b, buco_b := L.buco_b, bvco_b := L.bvco_b
        nfp_b := L.nfp_b, mboz_b := L.mboz_b, nboz_b := L.nboz_b, aspect_b := L.aspect_b, iota_b := L.iota_b
        jlist := L.jlist
        flux := fun h0 => ⟨(L.flux h0).1, (L.flux h0).2.1, (L.flux h0).2.2.1⟩ }
  · rw [he k] at e; cases e

/-! ### A concrete session -/

/-- The example `wout` file with another rotational transform. -/
def Ex.twin (x : α) : NcFile α := Ex.patched (Ex.dv "iotas" #[some x, some x, some x, some x])

theorem Ex.twin_dbls (x : α) {n : String} (h : n ≠ "iotas") : dblsOf (Ex.twin x) n = dblsOf (Ex.wout 0) n := by
  unfold dblsOf Ex.twin
  rw [Ex.patched_other _ (by exact h)]

theorem Ex.twin_ints (x : α) {n : String} (h : n ≠ "iotas") : intsOf (Ex.twin x) n = intsOf (Ex.wout (α := α) 0) n := by
  unfold intsOf Ex.twin
  rw [Ex.patched_other _ (by exact h)]

theorem Ex.twin_iotas (x : α) : dblsOf (Ex.twin x) "iotas" = #[some x, some x, some x, some x] := by
  have e : (Ex.twin x).var? "iotas" = some (Ex.dv "iotas" #[some x, some x, some x, some x]) :=
    Ex.patched_same (Ex.dv "iotas" #[some x, some x, some x, some x])
  unfold dblsOf
  rw [e]
  rfl

theorem Ex.twin_args (x : α) : woutArgs (Ex.twin x) (Ex.woutZ 0) false =
    { woutArgs (Ex.wout 0) (Ex.woutZ 0) false with iotas := #[some x, some x, some x, some x] } := by
  simp [woutArgs, woutMat, Ex.twin_iotas, Ex.twin_dbls, Ex.woutZ]

theorem Ex.twin_inp (x : α) (I : Inputs α) :
    woutInp (Ex.twin x) (Ex.woutZ 0) I = woutInp (Ex.wout 0) (Ex.woutZ 0) I := by
  simp [woutInp, Ex.twin_ints, Ex.twin_dbls]

theorem Ex.twin_shapes (x : α) : WoutShapes (Ex.twin x) (Ex.woutZ 0) := by
  have hz := Ex.shapes (α := α) 0
  have sc : ∀ {n : String} {y : Int}, ScalarIs (Ex.wout (α := α) 0) n y → n ≠ "iotas" → ScalarIs (Ex.twin x) n y :=
    fun h hn v hv => h v (by rw [← hv]; exact (Ex.patched_other _ (by exact hn)).symm)
  have si : ∀ {n : String} {y : Int}, HasInts (Ex.wout (α := α) 0) n y → n ≠ "iotas" → HasInts (Ex.twin x) n y :=
    fun h hn v hv => h v (by rw [← hv]; exact (Ex.patched_other _ (by exact hn)).symm)
  have sd : ∀ {n : String} {y : Int}, HasDbls (Ex.wout (α := α) 0) n y → n ≠ "iotas" → HasDbls (Ex.twin x) n y :=
    fun h hn v hv => h v (by rw [← hv]; exact (Ex.patched_other _ (by exact hn)).symm)
  refine ⟨sc hz.lasym (by decide), sc hz.ns (by decide), sc hz.nfp (by decide), sc hz.mpol (by decide),
    sc hz.ntor (by decide), sc hz.mnmax (by decide), sc hz.mnmax_nyq (by decide), sd hz.aspect (by decide),
    sd hz.chi (by decide), sd hz.phipf (by decide), sd hz.pres (by decide), sd hz.phi (by decide), ?_,
    si hz.xm (by decide), si hz.xn (by decide), si hz.xm_nyq (by decide), si hz.xn_nyq (by decide),
    fun n hn => sd (hz.mats n hn) (by rintro rfl; revert hn; decide),
    fun n hn => sd (hz.mats_nyq n hn) (by rintro rfl; revert hn; decide),
    hz.ns_pos, hz.nfp_pos, hz.mnmax_pos, hz.mnmax_nyq_pos⟩
  intro v hv
  have e := (Ex.patched_same (Ex.dv "iotas" #[some x, some x, some x, some x])).symm.trans hv
  cases e
  refine ⟨_, rfl, rfl, fun i hi => ?_⟩
  have hi : i < 4 := hi
  exact ⟨x, by
    match i, hi with
    | 0, _ => rfl
    | 1, _ => rfl
    | 2, _ => rfl
    | 3, _ => rfl⟩

theorem Ex.twin_valid (x : α) : ValidWout (Ex.twin x) (Ex.woutZ 0) false := by
  have hv := Ex.validWout (α := α)
  have hz := Ex.twin_shapes x
  have hs0 : (construct : St α).inp.compute_surfs.Full (construct : St α).inp.compute_surfs.size :=
    ⟨rfl, fun i hi => absurd hi (Nat.not_lt_zero i)⟩
  obtain ⟨hp, hf, hg, hc, hl⟩ := valid_given hv construct hs0 (.inl (by show (1 : Int) ≤ 1; decide))
  have hp' : ∀ n ∈ woutRequired false (decide ((Ex.woutZ 0).lasym ≠ 0)), (Ex.twin x).var? n ≠ none := by
    intro n hn
    by_cases e : n = "iotas"
    · subst e
      have e : (Ex.twin x).var? "iotas" = some (Ex.dv "iotas" #[some x, some x, some x, some x]) :=
        Ex.patched_same (Ex.dv "iotas" #[some x, some x, some x, some x])
      rw [e]
      simp
    · unfold Ex.twin
      rw [Ex.patched_other _ (by exact e)]
      exact hp n hn
  refine ⟨hz, ?_, hv.ns_fit, ?_, ?_⟩
  · rw [C39_loads false construct rfl hz hp']
    have C0 : Consistent (Ex.woutZ 0).ns (woutArgs (Ex.wout (α := α) 0) (Ex.woutZ 0) false)
        (woutInp (Ex.wout 0) (Ex.woutZ 0) (construct : St α).inp) (woutSizesOf (Ex.wout (α := α) 0) (Ex.woutZ 0)) := by
      obtain ⟨b, hb0⟩ := hv.loads
      rw [C39_loads false construct (disk := fun _ => .nc (Ex.wout 0)) rfl hv.shapes hp] at hb0
      exact (vmec_inv (s := { (construct : St α) with inp := woutInp (Ex.wout 0) (Ex.woutZ 0) (construct : St α).inp })
        hg hb0).2.2.1
    have hg' := wout_given (I := (construct : St α).inp) (flux := false) hz hp' hs0
    have es : woutSizesOf (Ex.twin x) (Ex.woutZ 0) = woutSizesOf (Ex.wout (α := α) 0) (Ex.woutZ 0) := by
      simp [woutSizesOf, Ex.twin_ints]
    refine ⟨_, vmec_ok (z := woutSizesOf (Ex.wout (α := α) 0) (Ex.woutZ 0)) hf (by rw [← es]; exact hg') hc ?_ ?_⟩
    · show Consistent _ (woutArgs (Ex.twin x) _ _) (woutInp (Ex.twin x) _ _) _
      rw [Ex.twin_inp, Ex.twin_args]
      exact ⟨C0.1, C0.2, rfl, C0.4, C0.5, C0.6, C0.7, C0.8, C0.9, C0.10, C0.11, C0.12, C0.13, C0.14⟩
    · show Loadable _ (woutArgs (Ex.twin x) _ _) (woutInp (Ex.twin x) _ _) _
      rw [Ex.twin_inp, Ex.twin_args]
      exact ⟨hl.1, hl.2, hl.3, hl.4, hl.5⟩
  · rw [Ex.twin_ints x (by decide)]
    exact hv.nyq_int
  · rw [Ex.twin_inp, Ex.twin_ints x (by decide)]
    have es : woutSizesOf (Ex.twin x) (Ex.woutZ 0) = woutSizesOf (Ex.wout (α := α) 0) (Ex.woutZ 0) := by
      simp [woutSizesOf, Ex.twin_ints]
    rw [es]
    exact hv.modes

/-- The example file loaded, the resolution set and the transformation run on all three surfaces. -/
theorem Ex.threeSurfs {disk : Disk α} (hneg : ∀ x : α, - - x = x) (hd : disk "wout.nc" = .nc (Ex.wout 0)) :
    ∃ (s : St α) (h : History), Reach disk h ⟨s, disk⟩ ∧ h.results = true ∧ HasResults s 11 3 3 3 false ∧
      s.inp.verbose = 1 ∧ s.inp.compute_surfs = #[some 0, some 1, some 2] ∧
      s.inp.iota = Vec.tab 3 (fun j => (Ex.vmec (α := α)).iotas.val (ofInt 0) (j + 1)) := by
  have l1 : Legal .start (⟨construct, disk⟩ : Sess α) (.readWout "wout.nc" false) :=
    ⟨Ex.wout 0, Ex.woutZ 0, hd, Ex.validWout, .inl (by show (1 : Int) ≤ 1; decide)⟩
  have e1 := valid_loads Ex.validWout hd (construct : St α)
    ⟨⟨rfl, fun i hi => absurd hi (Nat.not_lt_zero i)⟩, fun j hj => absurd hj (Nat.not_lt_zero j)⟩
    (.inl (by show (1 : Int) ≤ 1; decide))
  obtain ⟨s1, h1, q1, q2, q3, q4, q5⟩ : ∃ s1 : St α, readWout disk "wout.nc" false construct = .ok () s1 ∧
      s1.inp.asym = some false ∧ s1.inp.nfp = some 2 ∧ s1.inp.ns_in = some 3 ∧ s1.inp.verbose = 1 ∧
      s1.inp.iota = Vec.tab 3 (fun j => (Ex.vmec (α := α)).iotas.val (ofInt 0) (j + 1)) := by
    refine ⟨_, e1, rfl, rfl, rfl, rfl, ?_⟩
    show Vec.tab 3 (fun j => (dblsOf (Ex.wout 0) "iotas").val (ofInt 0) (j + 1)) = _
    rw [Ex.wout_dbls (n := "iotas") (α := α) 0 12 rfl rfl rfl]
  have p1 : perform (.readWout "wout.nc" false) (⟨construct, disk⟩ : Sess α) = .ok () ⟨s1, disk⟩ := by
    show Sess.on _ _ = _
    unfold Sess.on
    rw [h1]
  have r1 := Reach.ok .start l1 p1
  have r2 := Reach.ok (c := .setSurfs [0, 1, 2]) r1 (by show (3 : Nat) ≤ _; decide) rfl
  have r3 := Reach.ok (c := .setMboz 4) r2 (by show (1 : Int) ≤ 4; decide) rfl
  have r4 := Reach.ok (c := .setNboz 1) r3 (by show (0 : Int) ≤ 1; decide) rfl
  obtain ⟨s4, h4, r4', hl4, ha, hf, hns, hm, hn, hc, hv, hi⟩ : ∃ (s4 : St α) (h4 : History),
      Reach disk h4 ⟨s4, disk⟩ ∧ h4.loaded = true ∧ s4.inp.asym = some false ∧ s4.inp.nfp = some 2 ∧
      s4.inp.ns_in = some 3 ∧ s4.inp.mboz = 4 ∧ s4.inp.nboz = 1 ∧
      s4.inp.compute_surfs = #[some 0, some 1, some 2] ∧ s4.inp.verbose = 1 ∧
      s4.inp.iota = Vec.tab 3 (fun j => (Ex.vmec (α := α)).iotas.val (ofInt 0) (j + 1)) :=
    ⟨_, _, r4, rfl, q1, q2, q3, rfl, rfl, rfl, q4, q5⟩
  clear r1 r2 r3 r4
  have l5 : Legal h4 ⟨s4, disk⟩ .run := by
    refine ⟨hl4, ?_, ?_, ?_⟩
    · show s4.inp.compute_surfs.size ≠ 0
      rw [hc]
      decide
    · show ∀ ns, s4.inp.ns_in = some ns → ∀ k, k < s4.inp.compute_surfs.size →
        0 ≤ s4.inp.compute_surfs.val 0 k ∧ s4.inp.compute_surfs.val 0 k < ns
      rw [hns, hc]
      intro ns e k hk
      cases e
      match k, hk with
      | 0, _ => decide
      | 1, _ => decide
      | 2, _ => decide
    · show ∀ asym nfp, s4.inp.asym = some asym → s4.inp.nfp = some nfp →
        GridFits asym s4.inp.mboz.toNat s4.inp.nboz.toNat nfp.toNat
      rw [ha, hf, hm, hn]
      intro a n e1 e2
      cases e1
      cases e2
      constructor <;> decide
  obtain ⟨s5, d, p5, es5, hrd, hnsb, hR, -, -⟩ := run_step (reach_inv hneg r4') l5
  have r5 := Reach.ok r4' l5 p5
  have ei : s5.inp = s4.inp := by rw [es5]; rfl
  have hK : d.nmodes = 11 := by
    have a : s4.inp.mboz = d.M := hrd.mboz
    have b : s4.inp.nboz = d.N := hrd.nboz
    have a' : d.M = 4 := by omega
    have b' : d.N = 1 := by omega
    unfold Dims.nmodes
    rw [a', b']
  have hB : d.nsb = 3 := by
    rw [hnsb]
    show s4.inp.compute_surfs.size = 3
    rw [hc]
    rfl
  have hN : d.ns = 3 := by
    have e := hR.ns_in
    rw [ei, hns] at e
    have e := Option.some.inj e
    omega
  have hA : d.asym = false := by
    have e := hR.asym_eq
    rw [ei, ha] at e
    exact (Option.some.inj e).symm
  rw [hK, hB, hN, hA] at hR
  exact ⟨s5, _, r5, rfl, hR, by rw [ei]; exact hv, by rw [ei]; exact hc, by rw [ei]; exact hi⟩

/-- **C103 is false** of the code, concretely.  Two `wout` files differ in the rotational transform only.  Load the
first, run, load the second, write: the file has the spectra computed from the first, and the iota of
the second. -/
theorem C103_false {disk : Disk α} (hneg : ∀ x : α, - - x = x) (hd : disk "wout.nc" = .nc (Ex.wout 0)) (x : α)
    (hd' : disk "other.nc" = .nc (Ex.twin x)) :
    ∃ (s : St α) (w₁ w₂ : Sess α) (h : History) (g : NcFile α), Reach disk h ⟨s, disk⟩ ∧ h.results = true ∧
      s.inp.iota = Vec.tab 3 (fun j => (Ex.vmec (α := α)).iotas.val (ofInt 0) (j + 1)) ∧
      perform (.readWout "other.nc" false) ⟨s, disk⟩ = .ok () w₁ ∧
      perform (.write Ex.calm "0.0.1" "boozmn.nc") w₁ = .ok () w₂ ∧ w₂.disk "boozmn.nc" = .nc g ∧
      HoldsMat g 11 3 "bmnc_b" id s.out.spec.bmnc_b ∧
      HoldsShifted g 3 "iota_b" (ofInt 0) #[some x, some x, some x] ∧
      HoldsInt g "mboz_b" (some 12) ∧ HoldsInts g "mn_modes" "ixm_b" s.out.xm_b ∧ s.out.mnboz = some 11 := by
  obtain ⟨s, h, hr, hres, hR, hv, hc, hi⟩ := Ex.threeSurfs hneg hd
  obtain ⟨w₁, w₂, b, g, e1, e2, e3, e4, M⟩ := C103_mixed hR hd' (Ex.twin_valid x) (by decide)
    (fun h => absurd rfl h) (by
      rw [hc]
      refine ⟨⟨rfl, fun i hi => ?_⟩, fun j hj => ?_⟩
      · have hi : i < 3 := hi
        match i, hi with
        | 0, _ => exact ⟨0, rfl⟩
        | 1, _ => exact ⟨1, rfl⟩
        | 2, _ => exact ⟨2, rfl⟩
      · have hj : j < 3 := hj
        match j, hj with
        | 0, _ => decide
        | 1, _ => decide
        | 2, _ => decide) (.inl (by rw [hv])) Ex.version Ex.noFailure "boozmn.nc"
  have hb := valid_loads (Ex.twin_valid x) (disk := fun _ => .nc (Ex.twin x)) (path := "") rfl (construct : St α)
    ⟨⟨rfl, fun i hi => absurd hi (Nat.not_lt_zero i)⟩, fun j hj => absurd hj (Nat.not_lt_zero j)⟩
    (.inl (by show (1 : Int) ≤ 1; decide))
  rw [hb] at e4
  injection e4 with _ e4
  have b1 : b.inp.iota = #[some x, some x, some x] := by
    rw [← e4]
    show Vec.tab 3 (fun j => (dblsOf (Ex.twin x) "iotas").val (ofInt 0) (j + 1)) = _
    rw [Ex.twin_iotas]
    rfl
  have b2 : b.inp.mboz = 12 := by rw [← e4]; rfl
  exact ⟨s, w₁, w₂, h, g, hr, hres, hi, e1, e2, e3, M.bmnc_b, by rw [← b1]; exact M.iota_b, by
    rw [← b2]; exact M.mboz_b, M.ixm_b, hR.mnboz⟩

/-- The two files of `C103_false` on one disk; over the reals the iota in the file is not that of the run. -/
example : ∃ (disk : Disk ℝ) (s : St ℝ) (w₁ w₂ : Sess ℝ) (h : History) (g : NcFile ℝ), Reach disk h ⟨s, disk⟩ ∧
    h.results = true ∧ perform (.readWout "other.nc" false) ⟨s, disk⟩ = .ok () w₁ ∧
    perform (.write Ex.calm "0.0.1" "boozmn.nc") w₁ = .ok () w₂ ∧ w₂.disk "boozmn.nc" = .nc g ∧
    HoldsMat g 11 3 "bmnc_b" id s.out.spec.bmnc_b ∧
    HoldsShifted g 3 "iota_b" (ofInt 0) #[some 7, some 7, some 7] ∧ s.inp.iota ≠ #[some 7, some 7, some 7] := by
  obtain ⟨s, w₁, w₂, h, g, a, b, c, d, e, f, k, l, -⟩ := C103_false (α := ℝ)
    (disk := fun p => if p = "wout.nc" then .nc (Ex.wout 0) else .nc (Ex.twin 7)) (fun x => neg_neg x) rfl 7 rfl
  refine ⟨_, s, w₁, w₂, h, g, a, b, d, e, f, k, l, fun h0 => ?_⟩
  have h1 := congrArg (fun v : Vec ℝ => v.val 0 0) (c.symm.trans h0)
  norm_num [Vec.tab, Vec.val, Ex.vmec, Arith.ofInt] at h1

/-! ### What holds -/

/-- The object with another verbosity, and with `phip[0]` possibly set to zero. -/
def Spec.AsidePhip (a b : St α) : Prop :=
  ∃ v : Int, b = { a with inp := { a.inp with verbose := v } } ∨
    b = { a with inp := { a.inp with verbose := v }, flux := { a.flux with phip := a.flux.phip.set! 0 (some (ofInt 0)) } }

theorem passive_aside {a : St α} {w w' : Sess α} {c : Call} (hc : Passive c) (h : AsidePhip a w.obj)
    (hp : perform c w = .ok () w' ∨ ∃ m, perform c w = .exc m w') : AsidePhip a w'.obj := by
  cases hc with
  | verbose v =>
    rcases hp with hp | ⟨m, hp⟩
    · cases hp
      obtain ⟨u, h | h⟩ := h
      · exact ⟨v, .inl (by show ({ w.obj with inp := { w.obj.inp with verbose := v } } : St α) = _; rw [h])⟩
      · exact ⟨v, .inr (by show ({ w.obj with inp := { w.obj.inp with verbose := v } } : St α) = _; rw [h])⟩
    · cases hp
  | write env version path =>
    have ho := write_obj env version path w.disk w.obj
    have key : ∀ o : St α, (o = w.obj ∨ (w.obj.flux.phip.size ≠ 0 ∧ o = { w.obj with flux := { w.obj.flux with
        phip := w.obj.flux.phip.set! 0 (some (ofInt 0)) } })) → AsidePhip a o := by
      rintro o (rfl | ⟨-, rfl⟩)
      · exact h
      · obtain ⟨v, e | e⟩ := h
        · exact ⟨v, .inr (by rw [e])⟩
        · exact ⟨v, .inr (by rw [e]; simp)⟩
    rcases hp with hp | ⟨m, hp⟩
    · have hp : Sess.write env version path w = .ok () w' := hp
      unfold Sess.write at hp
      split at hp
      · next e => cases hp; rw [e] at ho; exact key _ ho
      all_goals cases hp
    · have hp : Sess.write env version path w = .exc m w' := hp
      unfold Sess.write at hp
      split at hp
      · cases hp
      · next e => cases hp; rw [e] at ho; exact key _ ho
      all_goals cases hp

theorem passively_aside {w w' : Sess α} (h : Passively w w') : AsidePhip w.obj w'.obj := by
  induction h with
  | refl => exact ⟨w.obj.inp.verbose, .inl rfl⟩
  | ok _ hc hp ih => exact passive_aside hc ih (.inl hp)
  | exc _ hc hp ih => exact passive_aside hc ih (.inr ⟨_, hp⟩)

/-- **C103, partial.**  If nothing is loaded or assigned between the run and the write (any number of attempts to
write, and changes of `verbose`, are allowed), the file holds the results of that run together with the
inputs of that run.  Missing: the same after `read_wout` or an assignment (`C103_mixed`, `C103_false`). -/
theorem C103_partial {w w₁ w₂ w₃ : Sess α} {d : Dims} (h : RunReady w.obj.inp d) (h1 : 1 ≤ d.nsb)
    (h2 : d.nsb ≤ 2147483644) (h3 : d.ns + 1 ≤ 2147483644) (hf : FluxOk w.obj.flux d.ns)
    (hr : perform .run w = .ok () w₁) (hp : Passively w₁ w₂) {env : Env} {version path : String}
    (hv : VersionOk version) (hw : perform (.write env version path) w₂ = .ok () w₃) :
    ∃ g, w₃.disk path = .nc g ∧ w₁.obj.inp = w.obj.inp ∧ Layout g version w₁.obj d.nmodes d.nsb d.ns d.asym := by
  have e0 : w₁.obj = runSt d w.obj d.nsb := by
    have hr : Sess.run w = .ok () w₁ := hr
    obtain ⟨r, e⟩ : ∃ r, run false w.obj = .ok (runSt d w.obj d.nsb, r) := ⟨_, run_ok h (by simp) (by simp)⟩
    unfold Sess.run at hr
    rw [e] at hr
    cases hr
    rfl
  have hR := run_hasResults h h1 h2 h3 hf
  rw [← e0] at hR
  have ei : w₁.obj.inp = w.obj.inp := by rw [e0]; rfl
  obtain ⟨o2, d2⟩ := w₂
  have ha : AsidePhip w₁.obj o2 := passively_aside hp
  have hw : Sess.write env version path ⟨o2, d2⟩ = .ok () w₃ := hw
  unfold Sess.write at hw
  split at hw
  · next u w' e =>
    cases hw
    obtain ⟨v, rfl | rfl⟩ := ha
    · obtain ⟨g, hg, L⟩ := C34_layout (hasResults_assign hR v w₁.obj.inp.mboz w₁.obj.inp.nboz) hv e
      exact ⟨g, hg, ei, ⟨L.1, L.2, L.3, L.4, L.5, L.6, L.7, L.8, L.9, L.10, L.11, L.12, L.13, L.14, L.15, L.16, L.17,
        L.18, L.19, L.20, L.21, L.22, L.23, L.24, L.25, L.26, L.27, L.28⟩⟩
    · obtain ⟨g, hg, L⟩ := C34_layout (hasResults_phip (hasResults_assign hR v w₁.obj.inp.mboz w₁.obj.inp.nboz) _) hv e
      refine ⟨g, hg, ei, ⟨L.1, L.2, L.3, L.4, L.5, L.6, L.7, L.8, L.9, L.10, L.11, L.12, L.13, L.14, L.15, L.16, L.17,
        L.18, L.19, L.20, L.21, L.22, L.23, L.24, L.25, L.26, fun h0 => ?_, fun h0 => ?_⟩⟩
      · have := L.flux (by simpa using h0)
        simpa using this
      · exact L.no_flux (by simpa using h0)
  all_goals cases hw

/-- Run, set `verbose`, write, and write again: the second file describes the run. -/
example (asym fl : Bool) : ∃ (w₁ w₂ w₃ : Sess α) (g : NcFile α),
    perform .run (⟨Ex.stF asym fl, Ex.disk0⟩ : Sess α) = .ok () w₁ ∧ Passively w₁ w₂ ∧
    perform (.write Ex.calm "0.0.1" "again.nc") w₂ = .ok () w₃ ∧ w₃.disk "again.nc" = .nc g ∧
    Layout g "0.0.1" w₁.obj 5 2 2 asym := by
  obtain ⟨r, hr⟩ := Ex.done_run (α := α) asym fl
  have e1 : perform .run (⟨Ex.stF asym fl, Ex.disk0⟩ : Sess α) = .ok () ⟨Ex.done asym fl, Ex.disk0⟩ := by
    show Sess.run _ = _
    unfold Sess.run
    rw [hr]
  have hR : HasResults ({ Ex.done (α := α) asym fl with inp := { (Ex.done (α := α) asym fl).inp with verbose := 0 } })
      5 2 2 2 asym := hasResults_assign (Ex.done_results asym fl) 0 _ _
  have total : ∀ (s : St α) (disk : Disk α) (p : String), HasResults s 5 2 2 2 asym →
      ∃ w, writeBoozmn Ex.calm "0.0.1" p disk s = .ok () w := fun s disk p h => by
    rcases C34_total (env := Ex.calm) (filename := p) (disk := disk) h Ex.version with ⟨w, e⟩ | ⟨⟨k, m, e⟩, _⟩
    · exact ⟨w, e⟩
    · rw [Ex.noFailure k] at e; cases e
  have wr : ∀ (w : Sess α) (p : String), HasResults w.obj 5 2 2 2 asym →
      ∃ w', perform (.write Ex.calm "0.0.1" p) w = .ok () w' := fun w p h => by
    obtain ⟨v, e⟩ := total w.obj w.disk p h
    refine ⟨⟨v.core.mem.obj, v.core.disk⟩, ?_⟩
    show Sess.write _ _ _ _ = _
    unfold Sess.write
    rw [e]
  have P1 : Passively (⟨Ex.done (α := α) asym fl, Ex.disk0⟩ : Sess α)
      ⟨{ Ex.done asym fl with inp := { (Ex.done asym fl).inp with verbose := 0 } }, Ex.disk0⟩ :=
    .ok (.refl _) (.verbose 0) rfl
  obtain ⟨w2, e2⟩ := wr ⟨{ Ex.done asym fl with inp := { (Ex.done asym fl).inp with verbose := 0 } }, Ex.disk0⟩
    "boozmn.nc" hR
  have P2 := P1.ok (.write _ _ _) e2
  have hR2 : HasResults w2.obj 5 2 2 2 asym := by
    have h : AsidePhip (Ex.done (α := α) asym fl) w2.obj := passively_aside P2
    obtain ⟨v, h | h⟩ := h
    · rw [h]; exact hasResults_assign (Ex.done_results asym fl) v _ _
    · rw [h]; exact hasResults_phip (hasResults_assign (Ex.done_results asym fl) v _ _) _
  obtain ⟨w3, e3⟩ := wr w2 "again.nc" hR2
  obtain ⟨g, h1, -, h2⟩ := C103_partial (w := ⟨Ex.stF asym fl, Ex.disk0⟩) (d := Ex.dims asym) (Ex.readyH asym)
    (by decide : 1 ≤ 2) (by decide : 2 ≤ 2147483644) (by decide : 2 + 1 ≤ 2147483644) (Ex.fluxOk fl) e1 P2
    Ex.version e3
  exact ⟨_, w2, w3, g, e1, P2, e3, h1, h2⟩

end Booz
