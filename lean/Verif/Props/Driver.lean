import Verif.Lemmas.Pipeline
import Verif.ExamplesDriver

/-!
# The command-line drivers: C43, C44, C59, C60, C61
-/

namespace Booz
open Spec
variable {α : Type} [Arith α]

/-! ### Running what was loaded and chosen, and saving it -/

/-- After a load and any legal choice, whatever `run()` completed is well-formed. -/
theorem chosen_ready {ns : Int} {A : VmecArgs α} {s s' : St α} {z : Sizes} {u : Unit} {mq : Int}
    (hg : Given A s.inp z) (h : initFromVmec ns A s = .ok u s') (hq : s.inp.mpol_nyq = some mq)
    (hi : ∀ k, k < s.inp.xn_nyq.size → (s.inp.xn_nyq.val 0 k).natAbs < 2147483648)
    (vb M N : Int) (hN : 0 ≤ N) {v : Vec Int} {nsb : Nat} (hv : v.Full nsb) (hn : 1 ≤ nsb)
    {r : St α × List (Report α)}
    (hr : run false { s' with inp := { s'.inp with
        verbose := vb
        mboz := M
        nboz := N
        compute_surfs := v } } = .ok r) :
    RunReady { s'.inp with
        verbose := vb
        mboz := M
        nboz := N
        compute_surfs := v } ((loadedContents ns z mq nsb).dims M N) := by
  obtain ⟨hf, hc, C, L⟩ := vmec_inv hg h
  have e := vmec_result hg h
  subst e
  have hg' := given_withNs hg ns
  have hp := loaded_prepared (I := (withNs s ns).inp) hg' hc (consistent_withNs.mpr C)
    (loadable_withNs.mpr L) hq hi vb M N hv hn
  obtain ⟨hI, hF⟩ := inRange_of_run (s := { s with inp := { loadedInp ns A (withNs s ns).inp z with
      verbose := vb, mboz := M, nboz := N, compute_surfs := v }, flux := fluxV (ns - 1).toNat A })
    hp hN hr
  have hs := prepared_shape (I := { loadedInp ns A (withNs s ns).inp z with
      verbose := vb, mboz := M, nboz := N, compute_surfs := v }) hp hI hN
  obtain ⟨a, b, c, e⟩ := (gridFits_iff ((loadedContents ns z mq nsb).dims M N)).mp hF
  exact ⟨hs, a, b, c, e⟩

/-! ### C43 -/

/-- The request is carried out: the `wout` file is loaded into a new object, the resolution is the
larger of the default and the requested one, the surfaces are those listed, in ascending order (all if
none are listed), and the result of the transformation is written. -/
def Spec.Carried (env : Env) (version : String) (disk : Disk α) (r : Request) (disk' : Disk α) : Prop :=
  ∃ b v b' rep w,
    readWout disk ("wout_" ++ String.ofList r.ext ++ ".nc") false construct = .ok () b ∧
    ((r.surfs = [] ∧ v = b.inp.compute_surfs) ∨
      (r.surfs ≠ [] ∧ ∃ l : List Int, l.Perm r.surfs ∧ l.Pairwise (· ≤ ·) ∧ v = listVec l)) ∧
    run false { b with inp := { b.inp with
      mboz := max b.inp.mboz r.mboz
      nboz := max b.inp.nboz r.nboz
      compute_surfs := v } } = .ok (b', rep) ∧
    writeBoozmn env version ("boozmn_" ++ String.ofList r.ext ++ ".nc") disk b' = .ok () w ∧
    disk' = w.core.disk

theorem driverMain_eq {content : List Char} {r : Request} {path : String} {w : World α}
    (hp : w.disk path = .other content) (ha : Asks content r) (env : Env) (version : String) :
    ∃ c, driverMain env version path w =
      (calculate env version r >>= fun _ => pure 0) (w.print c) := by
  refine ⟨["This is xbooz_xform " ++ version] ++ saysCpp r, ?_⟩
  unfold driverMain openText
  rw [say_bind, Prog.bind_def, Prog.get_bind]
  simp only [World.print_disk, hp, Content.bytes]
  rw [Prog.pure_apply]
  simp only
  rw [Prog.bind_def, readRequest_ok ha, World.print_print]

theorem requested_carried (r : Request) (b : St α) : ∃ v,
    ((r.surfs = [] ∧ v = b.inp.compute_surfs) ∨
      (r.surfs ≠ [] ∧ ∃ l : List Int, l.Perm r.surfs ∧ l.Pairwise (· ≤ ·) ∧ v = listVec l)) ∧
    requested r b = { b with inp := { b.inp with
      mboz := max b.inp.mboz r.mboz
      nboz := max b.inp.nboz r.nboz
      compute_surfs := v } } := by
  refine ⟨_, ?_, rfl⟩
  by_cases h : r.surfs = []
  · refine .inl ⟨h, ?_⟩
    rw [h]
    rfl
  · exact .inr ⟨h, sorted r.surfs, sorted_perm _, sorted_pairwise _,
      if_pos (List.length_pos_iff.mpr h)⟩

/-- **C43.**  If `xbooz_xform` returns, given an input file that asks for `r`, then it returned 0, the
request was carried out, and no file other than `boozmn_<extension>.nc` was changed. -/
theorem C43_correct {content : List Char} {r : Request} {path prog : String} {w w' : World α}
    {env : Env} {version : String} {code : Int}
    (hp : w.disk path = .other content) (ha : Asks content r)
    (h : driver env version [prog, path] w = .ok code w') :
    code = 0 ∧ Carried env version w.disk r w'.disk ∧
      ∀ p, p ≠ "boozmn_" ++ String.ofList r.ext ++ ".nc" → w'.disk p = w.disk p := by
  obtain ⟨c, e⟩ := driverMain_eq hp ha env version
  replace h : driverMain env version path w = .ok code w' := h
  rw [e] at h
  obtain ⟨_, w1, h1, h2⟩ := prog_bind_ok h
  cases h2
  rw [calculate_eq] at h1
  obtain ⟨b, w2, h3, h4⟩ := prog_bind_ok h1
  obtain ⟨⟨_, h5⟩, rfl⟩ := call_inv h3
  obtain ⟨b', rep, v, h6, h7, h8⟩ := finish_inv h4
  obtain ⟨x, hx, hb⟩ := requested_carried r b
  refine ⟨rfl, ⟨b, x, b', rep, v, h5, hx, hb ▸ h6, h7, h8⟩, fun p hpn => ?_⟩
  rw [h8]
  exact ((C42_partial env version _ w.disk b').1 v h7).2.1 p hpn

example (env : Env) (w' : World α) (code : Int)
    (h : driver env "0.0.1" ["xbooz_xform", "in"] (Ex.world Ex.input) = .ok code w') :
    Carried env "0.0.1" (Ex.world (α := α) Ex.input).disk Ex.request w'.disk :=
  (C43_correct (Ex.world_in _) Ex.input_asks h).2.1

/-- **C43, wrong number of arguments.**  Usage is printed, nothing else happens, and the exit code
is 0. -/
theorem C43_usage {env : Env} {version : String} {args : List String} (h : args.length ≠ 2)
    (w : World α) : ∃ lines, lines ≠ [] ∧ lines.head? = some "Usage:  xbooz_xform <inputfile>" ∧
      driver env version args w = .ok 0 { w with console := w.console ++ lines } := by
  refine ⟨usageCpp, by decide, rfl, ?_⟩
  have e : driver env version args w = (usageCpp.forM say >>= fun _ => pure 0) w := by
    match args, h with
    | [], _ => rfl
    | [_], _ => rfl
    | _ :: _ :: _ :: _, _ => rfl
  rw [e, Prog.bind_def]
  rw [say_list]
  rfl

example (w : World α) : ∃ lines, lines ≠ [] ∧ lines.head? = some "Usage:  xbooz_xform <inputfile>" ∧
    driver Ex.calm "0.0.1" ["xbooz_xform", "a", "b"] w = .ok 0 { w with console := w.console ++ lines } :=
  C43_usage (by decide) w

/-- The `wout` file loads into a new object, and what follows from that. -/
theorem wout_loaded {disk : Disk α} {path : String} {f : NcFile α} {z : WoutSizes} {flux : Bool} {b : St α}
    (hd : disk path = .nc f) (hz : WoutShapes f z)
    (hl : readWout disk path flux construct = .ok () b) :
    Given (woutArgs f z flux) (woutInp f z (construct : St α).inp) (woutSizesOf f z) ∧
    initFromVmec z.ns (woutArgs f z flux) { (construct : St α) with
      inp := woutInp f z (construct : St α).inp } = .ok () b := by
  rcases readWout_cases (flux := flux) (s := construct) hd hz with ⟨-, s', h⟩ | ⟨hp, h⟩
  · rw [h] at hl; cases hl
  · rw [h] at hl
    exact ⟨wout_given (I := (construct : St α).inp) hz hp
      ⟨rfl, fun i hi => absurd hi (by simp [construct])⟩, hl⟩

/-- When the transformation a file asks for can be carried out, given the contents of the `wout`
file: the mode numbers respect the declared maxima, the surfaces exist, and the grid sizes are
representable. -/
def Spec.CanRun (f : NcFile α) (z : WoutSizes) (r : Request) : Prop :=
  ModesWithin (woutInp f z (construct : St α).inp) (woutSizesOf f z)
    ((intsOf f "xm_nyq").val 0 (z.mnmax_nyq.toNat - 1)) ∧
  (∀ j ∈ r.surfs, 0 ≤ j ∧ j < z.ns - 1) ∧
  GridFits (decide (z.lasym ≠ 0)) (max (6 * z.mpol) r.mboz).toNat
    (max (max (2 * z.ntor - 1) 0) r.nboz).toNat z.nfp.toNat

omit [Arith α] in
theorem val_list {l : List Int} {k : Nat} (hk : k < l.length) :
    (listVec l).val 0 k = l[k] := by
  unfold Vec.val listVec
  simp [hk]

/-- The object the driver runs, for a loaded file. -/
theorem requested_run {f : NcFile α} {z : WoutSizes} {b : St α} {r : Request}
    (hg : Given (woutArgs f z false) (woutInp f z (construct : St α).inp) (woutSizesOf f z))
    (hl : initFromVmec z.ns (woutArgs f z false) { (construct : St α) with
      inp := woutInp f z (construct : St α).inp } = .ok () b)
    (hi : ∀ k, k < (intsOf f "xn_nyq").size → ((intsOf f "xn_nyq").val 0 k).natAbs < 2147483648) :
    ∃ l : List Int, (requested r b).inp.compute_surfs = listVec l ∧ 1 ≤ l.length ∧
      (l.length = r.surfs.length ∨ (l.length : Int) = z.ns - 1) ∧
      ((∃ x, run false (requested r b) = .ok x) ↔ CanRun f z r) ∧
      ∀ x, run false (requested r b) = .ok x → ∃ d : Dims, RunReady (requested r b).inp d ∧
        d.nsb = l.length ∧ (d.ns : Int) = z.ns - 1 ∧ d.asym = decide (z.lasym ≠ 0) := by
  obtain ⟨hf, hc, C, L⟩ := vmec_inv hg hl
  have hb := vmec_result hg hl
  have hns := C.ns_ge
  have hM : b.inp.mboz = 6 * z.mpol := by rw [hb]; rfl
  have hN : b.inp.nboz = max (2 * z.ntor - 1) 0 := by rw [hb]; rfl
  have hS : b.inp.compute_surfs = Vec.tab (z.ns - 1).toNat fun j => (j : Int) := by rw [hb]; rfl
  obtain ⟨l, h1, h2, h3, h4⟩ : ∃ l : List Int,
      (requested r b).inp.compute_surfs = listVec l ∧ 1 ≤ l.length ∧
      (l.length = r.surfs.length ∨ (l.length : Int) = z.ns - 1) ∧
      ((∀ k (hk : k < l.length), 0 ≤ l[k] ∧ l[k] < z.ns - 1) ↔ ∀ j ∈ r.surfs, 0 ≤ j ∧ j < z.ns - 1) := by
    unfold requested
    by_cases h0 : r.surfs = []
    · obtain ⟨l, e, hlen⟩ := full_list (Vec.full_tab (z.ns - 1).toNat fun j => (j : Int))
      refine ⟨l, ?_, by omega, .inr (by omega), ?_⟩
      · rw [← e, ← hS, h0]; rfl
      · rw [h0]
        refine ⟨fun _ j hj => absurd hj (by simp), fun _ k hk => ?_⟩
        rw [← val_list hk, ← e, Vec.val_tab (by omega)]
        omega
    · have hlen : (sorted r.surfs).length = r.surfs.length := (sorted_perm _).length_eq
      have hpos := List.length_pos_iff.mpr h0
      refine ⟨sorted r.surfs, if_pos hpos, by omega, .inl hlen, ?_⟩
      rw [← List.forall_mem_iff_forall_getElem (P := fun x => 0 ≤ x ∧ x < z.ns - 1)]
      exact ⟨fun h j hj => h j ((sorted_perm _).mem_iff.mpr hj),
        fun h j hj => h j ((sorted_perm _).mem_iff.mp hj)⟩
  have hv : (listVec l).Full l.length := by
    refine ⟨by simp [listVec], fun k hk => ⟨l[k], ?_⟩⟩
    simp [listVec, hk]
  have e : requested r b = { b with inp := { b.inp with
      verbose := b.inp.verbose
      mboz := max (6 * z.mpol) r.mboz
      nboz := max (max (2 * z.ntor - 1) 0) r.nboz
      compute_surfs := listVec l } } := by
    rw [← h1, ← hM, ← hN]; rfl
  have key := C56_load_choose_run hg hl
    (mq := (intsOf f "xm_nyq").val 0 (z.mnmax_nyq.toNat - 1)) rfl hi b.inp.verbose
    (max (6 * z.mpol) r.mboz) (max (max (2 * z.ntor - 1) 0) r.nboz) (by omega) hv h2
  refine ⟨l, h1, h2, h3, ?_, ?_⟩
  · rw [e, key]
    unfold CanRun
    rw [← h4]
    have hx : (∀ k, k < l.length → 0 ≤ (listVec l).val 0 k ∧
        (listVec l).val 0 k < z.ns - 1) ↔
        ∀ k (hk : k < l.length), 0 ≤ l[k] ∧ l[k] < z.ns - 1 := by
      refine forall_congr' fun k => forall_congr' fun hk => ?_
      rw [val_list hk]
    rw [hx]
    constructor
    · rintro ⟨a, -, c, d⟩
      exact ⟨a, c, d⟩
    · rintro ⟨a, c, d⟩
      have := a.mpol
      have hm : (woutSizesOf f z).mpol = z.mpol := rfl
      exact ⟨a, by omega, c, d⟩
  · intro x hx
    rw [e] at hx ⊢
    refine ⟨_, chosen_ready hg hl
      (mq := (intsOf f "xm_nyq").val 0 (z.mnmax_nyq.toNat - 1)) rfl hi b.inp.verbose
      (max (6 * z.mpol) r.mboz) (max (max (2 * z.ntor - 1) 0) r.nboz) (by omega) hv h2 hx, rfl, ?_, rfl⟩
    simp only [Contents.dims, loadedContents]
    omega

/-- **C43, exactly when it succeeds.**  If the `wout` file loads and the system calls succeed, the
driver returns exactly when the request can be carried out (`CanRun`); then the file it wrote has the
documented layout. -/
theorem C43_exact {content : List Char} {r : Request} {path prog : String} {w : World α}
    {env : Env} {version : String} {f : NcFile α} {z : WoutSizes} {b : St α}
    (hp : w.disk path = .other content) (ha : Asks content r)
    (hd : w.disk ("wout_" ++ String.ofList r.ext ++ ".nc") = .nc f) (hz : WoutShapes f z)
    (hl : readWout w.disk ("wout_" ++ String.ofList r.ext ++ ".nc") false construct = .ok () b)
    (hi : ∀ k, k < (intsOf f "xn_nyq").size → ((intsOf f "xn_nyq").val 0 k).natAbs < 2147483648)
    (hv : VersionOk version) (he : NoFailure env)
    (hs : r.surfs.length ≤ 2147483644) (hns : z.ns ≤ 2147483644) :
    ((∃ w', driver env version [prog, path] w = .ok 0 w') ↔ CanRun f z r) ∧
    (¬ CanRun f z r → ∃ why, driver env version [prog, path] w = .ub why) ∧
    (∀ w', driver env version [prog, path] w = .ok 0 w' → ∃ out b' K nb,
      w'.disk ("boozmn_" ++ String.ofList r.ext ++ ".nc") = .nc out ∧
      Layout out version b' K nb (z.ns - 1).toNat (decide (z.lasym ≠ 0)) ∧
      nb = (if r.surfs = [] then (z.ns - 1).toNat else r.surfs.length) ∧
      b'.inp.mboz = max (6 * z.mpol) r.mboz ∧ b'.inp.nboz = max (max (2 * z.ntor - 1) 0) r.nboz) := by
  obtain ⟨hg, hl'⟩ := wout_loaded hd hz hl
  obtain ⟨l, h1, h2, h3, h4, h5⟩ := requested_run (r := r) hg hl' hi
  obtain ⟨-, -, C, -⟩ := vmec_inv hg hl'
  have hns2 := C.ns_ge
  have hb := vmec_result hg hl'
  obtain ⟨c, e⟩ := driverMain_eq hp ha env version
  have e1 : calculate env version r (w.print c) = finish env version r (requested r b) (w.print c) := by
    rw [calculate_eq, Prog.bind_def, call_ok (w := w.print c) (s' := b) (x := ())]
    exact hl
  obtain ⟨c2, e2⟩ := finish_eq env version r (requested r b) (w.print c) h1
  rw [World.print_print] at e2
  have e3 : driver env version [prog, path] w = (finish env version r (requested r b) >>= fun _ => pure 0)
      (w.print c) := by
    show driverMain env version path w = _
    rw [e, Prog.bind_def, Prog.bind_def, e1]
  rw [e3, Prog.bind_def, e2]
  have hflux : (requested r b).flux = ⟨#[], #[], #[], #[]⟩ := by
    show b.flux = _
    rw [hb]
    rfl
  by_cases hc : CanRun f z r
  · obtain ⟨⟨b', rep⟩, hr⟩ := h4.mpr hc
    obtain ⟨d, hready, d1, d2, d3⟩ := h5 _ hr
    have hfo : FluxOk (requested r b).flux d.ns := by rw [hflux]; exact .inl rfl
    obtain ⟨v, out, hw, hw2, hlay⟩ := C34_run (env := env) (version := version)
      (filename := r.boozmn) (disk := w.disk) hready (by omega) (by omega) (by omega) hfo hr hv he
    have hrun : (callRun (requested r b) >>= fun b => callWrite env version r.boozmn b >>= fun _ =>
        say "Good bye.") (w.print (c ++ c2)) =
        .ok () ({ (w.print (c ++ c2)) with disk := v.core.disk }.print ["Good bye."]) := by
      rw [Prog.bind_def]
      unfold callRun
      rw [hr, Prog.lift_ok_bind, Prog.pure_apply]
      simp only
      rw [Prog.bind_def]
      unfold callWrite
      rw [World.print_disk, hw]
      rfl
    rw [hrun]
    refine ⟨⟨fun _ => hc, fun _ => ⟨_, rfl⟩⟩, fun h => absurd hc h, fun w' hw' => ?_⟩
    cases hw'
    have e5 : b' = runSt d (requested r b) d.nsb := by
      rw [run_ok hready (by simp) (by simp)] at hr
      cases hr
      rfl
    have hdn : d.ns = (z.ns - 1).toNat := by omega
    refine ⟨out, b', d.nmodes, d.nsb, hw2, hdn ▸ d3 ▸ hlay, ?_, ?_, ?_⟩
    · rw [d1]
      split
      · rename_i h0
        rw [h0, List.length_nil] at h3
        omega
      · rename_i h0
        have h6 : (requested r b).inp.compute_surfs = listVec (sorted r.surfs) :=
          if_pos (List.length_pos_iff.mpr h0)
        have h7 := congrArg Array.size (h1.symm.trans h6)
        simp [listVec] at h7
        rw [h7]
        exact (sorted_perm _).length_eq
    · rw [e5]
      show max b.inp.mboz r.mboz = _
      rw [hb]
      rfl
    · rw [e5]
      show max b.inp.nboz r.nboz = _
      rw [hb]
      rfl
  · have hn : ∀ x, run false (requested r b) ≠ .ok x := fun x hx => hc (h4.mp ⟨x, hx⟩)
    obtain ⟨why, hu⟩ := run_ub_of_not_ok hn
    have hrun : (callRun (requested r b) >>= fun b => callWrite env version r.boozmn b >>= fun _ =>
        say "Good bye.") (w.print (c ++ c2)) = .ub why := by
      rw [Prog.bind_def]
      unfold callRun
      rw [hu]
      rfl
    rw [hrun]
    exact ⟨⟨fun ⟨_, h⟩ => (by cases h), fun h => absurd h hc⟩, fun _ => ⟨_, rfl⟩, fun _ h => (by cases h)⟩

theorem Ex.can_run : CanRun (Ex.wout (α := α) 0) (Ex.woutZ 0) Ex.request :=
  ⟨Ex.wout_within, by decide, by show GridFits _ 16 8 2; unfold GridFits; decide⟩

/-- The example file is carried out; so the hypothesis of `C43_correct` can be met, too. -/
example : ∃ w', driver Ex.calm "0.0.1" ["xbooz_xform", "in"] (Ex.world (α := α) Ex.input) = .ok 0 w' := by
  obtain ⟨b, hb⟩ := Ex.wout_loads (α := α) Ex.input
  exact (C43_exact (r := Ex.request) (Ex.world_in _) Ex.input_asks (Ex.world_wout _) (Ex.shapes 0) hb
    Ex.wout_nyq Ex.version Ex.noFailure (by decide) (by decide)).1.mpr Ex.can_run

/-! ### C44 -/

/-- The files, and how a program ends, apart from what it printed. -/
inductive Spec.SameEffect {β : Type} : Out (World α) β → Out (World α) β → Prop
  | ok (x : β) (w w' : World α) (h : w.disk = w'.disk) : SameEffect (.ok x w) (.ok x w')
  | exc (m : String) (w w' : World α) (h : w.disk = w'.disk) : SameEffect (.exc m w) (.exc m w')
  | abort (m : String) : SameEffect (.abort m) (.abort m)
  | ub (m : String) : SameEffect (.ub m) (.ub m)

omit [Arith α] in
theorem SameEffect.bind {β γ : Type} {p p' : Prog (World α) β} {f f' : β → Prog (World α) γ}
    {w w' : World α} (h : SameEffect (p w) (p' w'))
    (hf : ∀ x v v', p w = .ok x v → v.disk = v'.disk → SameEffect (f x v) (f' x v')) :
    SameEffect ((p >>= f) w) ((p' >>= f') w') := by
  rw [Prog.bind_def, Prog.bind_def]
  generalize e : p w = o at h hf
  generalize e' : p' w' = o' at h
  cases h with
  | ok x v v' h => exact hf x v v' rfl h
  | exc m v v' h => exact .exc m v v' h
  | abort m => exact .abort m
  | ub m => exact .ub m

omit [Arith α] in
theorem SameEffect.lift {β : Type} (r : Res β) {w w' : World α} (h : w.disk = w'.disk) :
    SameEffect (Prog.lift r w) (Prog.lift r w') := by
  match r with
  | .ok x => exact .ok x w w' h
  | .error (.throw m) => exact .exc m w w' h
  | .error (.ub m) => exact .ub m
  | .error (.assertFail m) => exact .abort m

omit [Arith α] in
theorem SameEffect.call {β : Type} (p : Prog (St α) β) (s : St α) {w w' : World α}
    (h : w.disk = w'.disk) : SameEffect (call p s w) (call p s w') := by
  unfold Booz.call
  cases p s with
  | ok x s' => exact .ok _ _ _ h
  | exc m s' => exact .exc _ _ _ h
  | abort m => exact .abort _
  | ub m => exact .ub _

theorem SameEffect.write (env : Env) (version filename : String) (b : St α) {w w' : World α}
    (h : w.disk = w'.disk) :
    SameEffect (callWrite env version filename b w) (callWrite env version filename b w') := by
  unfold callWrite
  rw [h]
  cases writeBoozmn env version filename w'.disk b with
  | ok x s' => exact .ok _ _ _ rfl
  | exc m s' => exact .exc _ _ _ rfl
  | abort m => exact .abort _
  | ub m => exact .ub _

omit [Arith α] in
theorem SameEffect.say (x y : String) {w w' : World α} (h : w.disk = w'.disk) :
    SameEffect (say x w) (say y w') := .ok () _ _ h

theorem pyToInt_ok {x : Int} (h : FitsInt x) : pyToInt x = .ok x := if_pos h

theorem pyToIntVec_ok {l : List Int} (h : ∀ x ∈ l, FitsInt x) : pyToIntVec l = .ok (listVec l) := by
  unfold pyToIntVec listVec
  rw [if_pos fun x hx => by have := h x hx; unfold FitsInt at this; omega]
  congr 2
  refine List.map_congr_left fun x hx => ?_
  have := h x hx
  unfold FitsInt at this
  congr 1
  rw [Int.bmod_eq_of_le] <;> omega

/-- The end of the Python driver. -/
def pyFinish (env : Env) (version : String) (r : Request) (b : St α) : Prog (World α) Unit := do
  let l ← Prog.lift (b.inp.compute_surfs.toList.mapM fun x => need x "compute_surfs")
  say ("About to run transformation with compute_surfs = " ++ joined l)
  let b ← callRun b
  callWrite env version r.boozmn b
  say "Good bye."

theorem pyCalculate_eq (env : Env) (version : String) (r : Request) (w : World α) :
    pyCalculate env version r w =
      (call (readWout w.disk r.wout false) construct >>= fun b => do
        let m ← Prog.lift (pyToInt (max b.inp.mboz r.mboz))
        let n ← Prog.lift (pyToInt (max b.inp.nboz r.nboz))
        let b ← pyAssign r { b with inp := { b.inp with mboz := m, nboz := n } }
        pyFinish env version r b) w := (rfl)

/-- Assigning the surfaces. -/
theorem pyAssign_ok (r : Request) (b : St α) (h3 : ∀ j ∈ r.surfs, FitsInt j) (w : World α) :
    ∃ l, pyAssign r { b with inp := { b.inp with
      mboz := max b.inp.mboz r.mboz, nboz := max b.inp.nboz r.nboz } } w =
      .ok (requested r b) (w.print l) := by
  unfold pyAssign requested
  by_cases h0 : r.surfs = []
  · rw [if_pos (by rw [h0]; rfl), say_bind, h0]
    exact ⟨_, rfl⟩
  · rw [if_neg (by simpa using h0)]
    have h1 : ∀ j ∈ sorted r.surfs, FitsInt j := fun j hj => h3 j ((sorted_perm _).mem_iff.mp hj)
    have e : pyToIntVec (r.surfs.mergeSort fun a b => decide (a ≤ b)) = .ok (listVec (sorted r.surfs)) :=
      pyToIntVec_ok h1
    rw [e, Prog.lift_ok_bind, if_pos (List.length_pos_iff.mpr h0)]
    exact ⟨[], by rw [World.print_nil]; rfl⟩

/-- The ends of the two programs. -/
theorem finish_same (env : Env) (version : String) (r : Request) (b : St α) {w w' : World α}
    (hw : w.disk = w'.disk) : SameEffect (finish env version r b w) (pyFinish env version r b w') := by
  unfold finish pyFinish
  rw [Prog.bind_def]
  obtain ⟨l, e⟩ := sayIf_apply (r.surfs.length == 0)
    "No compute_surfs specified, so including all half-grid surfaces." w
  rw [e]
  simp only
  unfold announce
  have assoc : ∀ (p : Prog (World α) (List Int)) (f : List Int → Prog (World α) Unit)
      (g : Unit → Prog (World α) Unit) (v : World α),
      (p >>= f >>= g) v = (p >>= fun x => f x >>= g) v := by
    intro p f g v
    rw [Prog.bind_def, Prog.bind_def, Prog.bind_def]
    cases p v <;> rfl
  rw [assoc]
  refine SameEffect.bind (SameEffect.lift _ (by rw [World.print_disk, hw])) fun x v v' _ hv => ?_
  refine SameEffect.bind (SameEffect.say _ _ hv) fun _ v v' _ hv => ?_
  refine SameEffect.bind (SameEffect.bind (SameEffect.lift _ hv) fun x v v' _ hv => .ok _ _ _ hv)
    fun b v v' _ hv => ?_
  exact SameEffect.bind (SameEffect.write env version _ b hv) fun _ v v' _ hv => SameEffect.say _ _ hv

/-- The two programs do the same with the same request. -/
theorem calculate_same (env : Env) (version : String) (r : Request) (h1 : FitsInt r.mboz)
    (h2 : FitsInt r.nboz) (h3 : ∀ j ∈ r.surfs, FitsInt j) {w w' : World α} (hw : w.disk = w'.disk) :
    SameEffect (calculate env version r w) (pyCalculate env version r w') := by
  rw [calculate_eq, pyCalculate_eq, hw]
  refine SameEffect.bind (SameEffect.call _ _ hw) fun b v v' hb hv => ?_
  obtain ⟨⟨_, e⟩, -⟩ := call_inv hb
  obtain ⟨f1, f2⟩ := readWout_fits _ _ _ _ _ _ e
  have g1 : FitsInt (max b.inp.mboz r.mboz) := by unfold FitsInt at *; omega
  have g2 : FitsInt (max b.inp.nboz r.nboz) := by unfold FitsInt at *; omega
  rw [pyToInt_ok g1, pyToInt_ok g2, Prog.lift_ok_bind, Prog.lift_ok_bind, Prog.bind_def]
  obtain ⟨l, e2⟩ := pyAssign_ok r b h3 v'
  rw [e2]
  exact finish_same env version r _ (by rw [World.print_disk, hv])

theorem pyMain1_eq {content : List Char} {r : Request} {path : String} {w : World α}
    (hp : w.disk path = .other content) (ha : Asks content r) (hn : NoSeparators content)
    (hs : ShortWords content) (env : Env) (version pkg : String) :
    ∃ c, pyMain1 env version pkg path w =
      (pyCalculate env version r >>= fun _ => pure 0) (w.print c) := by
  obtain ⟨st, e⟩ := pyRequest_ok (α := α) ha hn hs path
  refine ⟨["This is xbooz_xform " ++ pkg] ++ saysPy st r, ?_⟩
  unfold pyMain1 pyOpen
  rw [say_bind, Prog.bind_def, Prog.get_bind]
  simp only [World.print_disk, hp, Content.bytes]
  rw [Prog.pure_apply]
  simp only
  rw [Prog.bind_def, e, World.print_print]

theorem lists_fit {ts : List (List Char)} {l : List Int} (h : ListsInts ts l) : ∀ j ∈ l, FitsInt j := by
  induction h with
  | done => exact fun j hj => absurd hj (by simp)
  | stop _ => exact fun j hj => absurd hj (by simp)
  | more h _ ih =>
    intro j hj
    rw [List.mem_cons] at hj
    rcases hj with rfl | hj
    · exact h.2
    · exact ih j hj

/-- **C44, what holds.**  On files whose numbers are plain decimal integers that fit in an `int` (up to
the first word that does not start like a number), without the control characters 0x1c–0x1f, the C++
and the Python driver read the same request; then they end in the same way (same exception or
undefined behaviour, or success) and leave the same files.

Missing: other files, see `C44_false`. -/
theorem C44_partial {content : List Char} {r : Request} {path prog : String} {w : World α}
    (hp : w.disk path = .other content) (ha : Asks content r) (hn : NoSeparators content)
    (hs : ShortWords content) (env : Env) (version pkg : String) :
    (∃ c c', readRequest content w = .ok r (w.print c) ∧
      pyRequest path content w = .ok r (w.print c')) ∧
    SameEffect (driver env version [prog, path] w) (pyMain env version pkg [path] w) := by
  refine ⟨?_, ?_⟩
  · obtain ⟨st, e⟩ := pyRequest_ok (α := α) ha hn hs path
    exact ⟨_, _, readRequest_ok ha w, e w⟩
  · obtain ⟨c, e⟩ := driverMain_eq hp ha env version
    obtain ⟨c', e'⟩ := pyMain1_eq hp ha hn hs env version pkg
    show SameEffect (driverMain env version path w) (pyMain1 env version pkg path w)
    rw [e, e']
    obtain ⟨tm, tn, ts, -, hm, hn', hl⟩ := ha
    exact SameEffect.bind (calculate_same env version r hm.2 hn'.2 (lists_fit hl) rfl)
      fun _ v v' _ hv => .ok _ _ _ hv

example : SameEffect (driver Ex.calm "0.0.1" ["xbooz_xform", "in"] (Ex.world (α := α) Ex.input))
    (pyMain Ex.calm "0.0.1" "0.0.8" ["in"] (Ex.world Ex.input)) :=
  (C44_partial (Ex.world_in _) Ex.input_asks Ex.input_plain Ex.input_short _ _ _).2

/-- **C44, no file.**  Both drivers report that the file cannot be opened and change nothing. -/
theorem C44_no_file {path prog : String} {w : World α} (hp : w.disk path = .absent) (env : Env)
    (version pkg : String) :
    (∃ m w', driver env version [prog, path] w = .exc m w' ∧ w'.disk = w.disk) ∧
    (∃ m w', pyMain env version pkg [path] w = .exc m w' ∧ w'.disk = w.disk) := by
  constructor
  · refine ⟨"Unable to open input file " ++ path, w.print ["This is xbooz_xform " ++ version], ?_, rfl⟩
    show driverMain env version path w = _
    unfold driverMain openText
    rw [say_bind, Prog.bind_def, Prog.get_bind]
    simp only [World.print_disk, hp, Content.bytes]
    rfl
  · refine ⟨"[Errno 2] No such file or directory: '" ++ path ++ "'",
      w.print ["This is xbooz_xform " ++ pkg], ?_, rfl⟩
    show pyMain1 env version pkg path w = _
    unfold pyMain1 pyOpen
    rw [say_bind, Prog.bind_def, Prog.get_bind]
    simp only [World.print_disk, hp, Content.bytes]
    rfl

example : (Ex.world (α := α) Ex.input).disk "other" = .absent := rfl

omit [Arith α] in
/-- What C++ reads. -/
theorem readRequest_eval {content : List Char} {s1 s2 s3 : IStream} {m n : Int} {x : List Char}
    {l : List Int} (h1 : extractInt ⟨content, false, false⟩ = (s1, some m))
    (h2 : extractInt s1 = (s2, some n)) (g2 : s2.fail = false) (h3 : extractWord s2 = (s3, x))
    (g3 : s3.fail = false) (h4 : extractSurfs s3 = l) (w : World α) :
    ∃ c, readRequest content w = .ok ⟨m, n, x, l⟩ (w.print c) := by
  unfold readRequest
  simp only [h1, h2, h3, h4, need_some, g2, g3]
  rw [Prog.lift_ok_bind, Prog.lift_ok_bind, say_bind, throwIf_false, say_bind, throwIf_false,
    say_all_bind, say_bind, say_bind, World.print_print, World.print_print, World.print_print,
    World.print_print, Prog.pure_apply]
  exact ⟨_, rfl⟩

omit [Arith α] in
theorem pySurfs_stop {t : List Char} {ts : List (List Char)} (h : pyInt t = none) (w : World α) :
    pySurfs (t :: ts) w = .ok [] (w.print ["Unable to read more."]) := by
  unfold pySurfs
  simp only [h]
  rfl

omit [Arith α] in
/-- What Python reads. -/
theorem pyRequest_eval {path : String} {content : List Char} {t0 t1 t2 : List Char}
    {ts : List (List Char)} {m n : Int} {l : List Int} (h : pySplit content = t0 :: t1 :: t2 :: ts)
    (h0 : pyInt t0 = some m) (h1 : pyInt t1 = some n)
    (h2 : ∃ c, ∀ v : World α, pySurfs ts v = .ok l (v.print c)) (w : World α) :
    ∃ c, pyRequest path content w = .ok ⟨m, n, t2, l⟩ (w.print c) := by
  obtain ⟨c, h2⟩ := h2
  unfold pyRequest
  simp only [h, h0, h1]
  rw [say_bind, say_bind, Prog.bind_def, h2, World.print_print, World.print_print]
  exact ⟨_, rfl⟩

/-- `16 8 x 5abc` -/
def Ex.text1 : List Char := ['1', '6', ' ', '8', ' ', 'x', ' ', '5', 'a', 'b', 'c']
/-- `1_6 8 x` -/
def Ex.text2 : List Char := ['1', '_', '6', ' ', '8', ' ', 'x']

/-- **C44 is false of the code.**  From `16 8 x 5abc` the C++ driver reads surface 5, the Python
driver no surface (so it transforms all of them).  The file `1_6 8 x` is accepted by Python and
rejected by C++. -/
theorem C44_false (path : String) (w : World α) :
    (∃ c c', readRequest Ex.text1 w = .ok ⟨16, 8, ['x'], [5]⟩ (w.print c) ∧
      pyRequest path Ex.text1 w = .ok ⟨16, 8, ['x'], []⟩ (w.print c')) ∧
    (∃ m c c', readRequest Ex.text2 w = .exc m (w.print c) ∧
      pyRequest path Ex.text2 w = .ok ⟨16, 8, ['x'], []⟩ (w.print c')) := by
  refine ⟨?_, ?_⟩
  · have e : ∃ c, readRequest Ex.text1 w = .ok ⟨16, 8, ['x'], [5]⟩ (w.print c) := by
      refine readRequest_eval (s1 := ⟨[' ', '8', ' ', 'x', ' ', '5', 'a', 'b', 'c'], false, false⟩)
        (s2 := ⟨[' ', 'x', ' ', '5', 'a', 'b', 'c'], false, false⟩)
        (s3 := ⟨[' ', '5', 'a', 'b', 'c'], false, false⟩) rfl rfl rfl rfl rfl ?_ w
      rw [extractSurfs_ok (s' := ⟨['a', 'b', 'c'], false, false⟩) (n := 5) rfl rfl,
        extractSurfs_fail rfl]
    obtain ⟨c, e⟩ := e
    obtain ⟨c', e'⟩ := pyRequest_eval (path := path) (content := Ex.text1) (m := 16) (n := 8)
      (t0 := ['1', '6']) (t1 := ['8']) (t2 := ['x']) (ts := [['5', 'a', 'b', 'c']]) (l := []) (by decide) (by decide) (by decide)
      ⟨["Unable to read more."], fun v => pySurfs_stop (by decide) v⟩ w
    exact ⟨c, c', e, e'⟩
  · obtain ⟨c', e'⟩ := pyRequest_eval (path := path) (content := Ex.text2) (m := 16) (n := 8)
      (t0 := ['1', '_', '6']) (t1 := ['8']) (t2 := ['x']) (ts := []) (l := []) (by decide) (by decide) (by decide) ⟨[], fun v => by rw [World.print_nil]; rfl⟩ w
    exact ⟨"Unable to read mboz and nboz", _, c', rfl, e'⟩

omit [Arith α] in
/-- Python keeps every number. -/
theorem pySurfs_keeps {ts : List (List Char)} {l : List Int} (h : List.Forall₂ IntWord ts l)
    {t : List Char} {n : Int} (ht : Denotes t n) (ts' : List (List Char))
    (hs : ∀ x ∈ ts ++ t :: ts', x.length ≤ 4300) (w : World α) : ∀ l' w',
      pySurfs (ts ++ t :: ts') w = .ok l' w' → ∃ l'', l' = l ++ n :: l'' := by
  induction h generalizing w with
  | nil =>
    intro l' w' e
    rw [List.nil_append, pySurfs, pyInt_word ht (hs _ (by simp))] at e
    obtain ⟨_, w1, -, e⟩ := prog_bind_ok e
    obtain ⟨l2, w2, -, e⟩ := prog_bind_ok e
    cases e
    exact ⟨l2, rfl⟩
  | cons hn _ ih =>
    intro l' w' e
    rw [List.cons_append, pySurfs, pyInt_word hn.1 (hs _ (by simp))] at e
    obtain ⟨_, w1, -, e⟩ := prog_bind_ok e
    obtain ⟨l2, w2, e2, e⟩ := prog_bind_ok e
    cases e
    obtain ⟨l3, rfl⟩ := ih (fun x hx => hs x (by simp only [List.cons_append, List.mem_cons]; exact .inr hx)) w1 l2 _ e2
    exact ⟨l3, rfl⟩

omit [Arith α] in
theorem surfs_huge {ts : List (List Char)} {l : List Int} (h : List.Forall₂ IntWord ts l)
    {t : List Char} (ht : HugeWord t) (ts' : List (List Char)) :
    ∀ {s : IStream}, At s (ts ++ t :: ts') → extractSurfs s = l := by
  induction h with
  | nil =>
    intro s h
    obtain ⟨w, r, rfl, hw, h0, hnb, hr, -⟩ := h.word
    exact extractSurfs_fail (extractInt_huge hw h0 hnb hr ht).1
  | cons hn _ ih =>
    intro s h
    obtain ⟨s', e, h'⟩ := h.int hn
    rw [extractSurfs_ok e h'.good, ih h']

omit [Arith α] in
/-- **C44 is false of the code, numbers that do not fit in an `int`.**  At such a number in the list of
surfaces the C++ driver stops reading and carries on with the surfaces before it, without an error;
the Python driver includes it. -/
theorem C44_range {content : List Char} {tm tn ext t : List Char} {ts ts' : List (List Char)}
    {m n : Int} {l : List Int}
    (hc : IsText content (tm :: tn :: ext :: (ts ++ t :: ts'))) (hm : IntWord tm m) (hn : IntWord tn n)
    (hl : List.Forall₂ IntWord ts l) (ht : HugeWord t) (hsep : NoSeparators content)
    (hs : ShortWords content) (path : String) (w : World α) :
    (∃ c, readRequest content w = .ok ⟨m, n, ext, l⟩ (w.print c)) ∧
    ∀ r w', pyRequest path content w = .ok r w' → ∃ x l', ¬ FitsInt x ∧ r = ⟨m, n, ext, l ++ x :: l'⟩ := by
  constructor
  · obtain ⟨s1, e1, a1⟩ := (At.start hc).int hm
    obtain ⟨s2, e2, a2⟩ := a1.int hn
    obtain ⟨s3, e3, a3⟩ := a2.ext
    exact readRequest_eval e1 e2 a2.good e3 a3.good (surfs_huge hl ht ts' a3) w
  · intro r w' e
    obtain ⟨x, hx, hx'⟩ := ht
    have hlen := hs _ hc
    unfold pyRequest at e
    rw [pySplit_text hc hsep] at e
    simp only at e
    rw [pyInt_word hm.1 (hlen _ (by simp)), pyInt_word hn.1 (hlen _ (by simp))] at e
    simp only at e
    obtain ⟨_, w1, -, e⟩ := prog_bind_ok e
    obtain ⟨_, w2, -, e⟩ := prog_bind_ok e
    obtain ⟨l2, w3, e3, e⟩ := prog_bind_ok e
    cases e
    obtain ⟨l3, rfl⟩ := pySurfs_keeps hl hx ts' (fun y hy => hlen y (by
      simp only [List.mem_cons]; exact .inr (.inr (.inr hy)))) w2 _ _ e3
    exact ⟨x, l3, hx', rfl⟩

/-- `16 8 x 1 3000000000`: surface 1 only in C++. -/
example (w : World α) : ∃ c, readRequest Ex.input1_3e9 w = .ok ⟨16, 8, ['x'], [1]⟩ (w.print c) :=
  (C44_range Ex.input1_3e9_text Ex.word16 (Ex.word1 '8' 8 (Ex.digit '8' 8))
    (.cons (Ex.word1 '1' 1 (Ex.digit '1' 1)) .nil) Ex.word3e9 Ex.input1_3e9_plain Ex.input1_3e9_short "in" w).1

/-! ### C59 -/

/-- **C59 is false of the code.**  When the file has no words, or one number only, or its first word
does not start like a number or is a number that does not fit in an `int`, the C++ driver prints an uninitialised variable: undefined
behaviour instead of the intended exception. -/
theorem C59_false {content : List Char} {ts : List (List Char)} {path prog : String} {w : World α}
    (hp : w.disk path = .other content) (ht : IsText content ts)
    (h : ts = [] ∨ (∃ t n, ts = [t] ∧ IntWord t n) ∨ (∃ t ts', ts = t :: ts' ∧ (NotNumber t ∨ HugeWord t)))
    (env : Env) (version : String) : ∃ why, driver env version [prog, path] w = .ub why := by
  have key : ∃ why, readRequest content (w.print ["This is xbooz_xform " ++ version]) = .ub why := by
    apply readRequest_ub
    have hat := At.start ht
    rcases h with rfl | ⟨t, n, rfl, hn⟩ | ⟨t, ts', rfl, hb⟩
    · exact .inl hat.none.2.1
    · obtain ⟨s', e, h'⟩ := hat.int hn
      refine .inr ?_
      rw [e]
      exact h'.none.2.1
    · obtain ⟨v, r, e, hw, h0, hnb, hr, -⟩ := hat.word
      refine .inr ?_
      rw [e]
      rcases hb with hb | hb
      · exact (extractInt_failed (extractInt_bad hw h0 hnb hr hb).1).2
      · exact (extractInt_failed (extractInt_huge hw h0 hnb hr hb).1).2
  obtain ⟨why, e⟩ := key
  refine ⟨why, ?_⟩
  show driverMain env version path w = _
  unfold driverMain openText
  rw [say_bind, Prog.bind_def, Prog.get_bind]
  simp only [World.print_disk, hp, Content.bytes]
  rw [Prog.pure_apply]
  simp only
  rw [Prog.bind_def, e]

/-- The file that contains only a line end. -/
example : ∃ why, driver Ex.calm "0.0.1" ["xbooz_xform", "in"] (Ex.world (α := α) ['\n']) = .ub why :=
  C59_false (Ex.world_in _) (.blank ['\n'] (by unfold Blank; decide)) (.inl rfl) _ _

/-- The file that contains `3000000000 8 x`. -/
example : ∃ why, driver Ex.calm "0.0.1" ["xbooz_xform", "in"] (Ex.world (α := α) Ex.input3e9) = .ub why :=
  C59_false (Ex.world_in _) Ex.input3e9_text (.inr (.inr ⟨_, _, rfl, .inr Ex.word3e9⟩)) _ _

omit [Arith α] in
/-- **C59, what holds.**  If the first word is an integer and there is a second word, reading the
file ends with a request or with an exception, and no file is touched.  For the Python driver this is
so for every file.

Missing: files with fewer words, or with something else first, in C++ (false, see above). -/
theorem C59_partial {content : List Char} (path : String) (w : World α) :
    (∀ t t' ts m, IsText content (t :: t' :: ts) → IntWord t m →
      (∃ r c, readRequest content w = .ok r (w.print c)) ∨
      (∃ x c, readRequest content w = .exc x (w.print c))) ∧
    ((∃ r c, pyRequest path content w = .ok r (w.print c)) ∨
      (∃ x c, pyRequest path content w = .exc x (w.print c))) := by
  refine ⟨fun t t' ts m ht hm => ?_, pyRequest_safe path content w⟩
  obtain ⟨s1, e1, a1⟩ := (At.start ht).int hm
  obtain ⟨n, hn⟩ := a1.some
  refine readRequest_safe w (m := m) (n := n) (by rw [e1]) ?_
  rw [e1]
  exact hn

example : (∃ r c, readRequest Ex.input (Ex.world (α := α) Ex.input) = .ok r ((Ex.world Ex.input).print c)) ∨
    ∃ x c, readRequest Ex.input (Ex.world (α := α) Ex.input) = .exc x ((Ex.world Ex.input).print c) :=
  (C59_partial "in" _).1 _ _ _ _ Ex.input_text Ex.word16

omit [Arith α] in
/-- **C59, messages.**  `mboz` alone followed by something else or by a number that does not fit in an
`int`, and a file that ends after `nboz`. -/
theorem C59_messages {content : List Char} (w : World α) :
    (∀ t t' ts m, IsText content (t :: t' :: ts) → IntWord t m → NotNumber t' ∨ HugeWord t' →
      ∃ c, readRequest content w = .exc "Unable to read mboz and nboz" (w.print c)) ∧
    (∀ t t' m n, IsText content [t, t'] → IntWord t m → IntWord t' n →
      ∃ c, readRequest content w = .exc "Unable to read extension" (w.print c)) := by
  constructor
  · intro t t' ts m ht hm hb
    obtain ⟨s1, e1, a1⟩ := (At.start ht).int hm
    obtain ⟨v, r, e, hw, h0, hnb, hr, -⟩ := a1.word
    obtain ⟨b1, x, b2⟩ : (extractInt s1).1.fail = true ∧ ∃ x, (extractInt s1).2 = some x := by
      rw [e]
      rcases hb with hb | hb
      · exact ⟨(extractInt_bad hw h0 hnb hr hb).1, _, (extractInt_bad hw h0 hnb hr hb).2⟩
      · exact extractInt_huge hw h0 hnb hr hb
    unfold readRequest
    simp only [e1, b1, b2, need_some]
    rw [Prog.lift_ok_bind, Prog.lift_ok_bind, say_bind, throwIf_true]
    exact ⟨_, rfl⟩
  · intro t t' m n ht hm hn
    obtain ⟨s1, e1, a1⟩ := (At.start ht).int hm
    obtain ⟨s2, e2, a2⟩ := a1.int hn
    unfold readRequest
    simp only [e1, e2, a2.good, a2.none.2.2, need_some]
    rw [Prog.lift_ok_bind, Prog.lift_ok_bind, say_bind, throwIf_false, say_bind, throwIf_true,
      World.print_print]
    exact ⟨_, rfl⟩

/-- `16 8` -/
example (w : World α) : ∃ c,
    readRequest ['1', '6', ' ', '8'] w = .exc "Unable to read extension" (w.print c) :=
  (C59_messages w).2 ['1', '6'] ['8'] 16 8
    (.word [] ['1', '6'] [' ', '8'] _ (by simp) (by decide) (by unfold Blank; decide)
      (.inr ⟨_, _, rfl, by unfold Blank; decide⟩) <|
    .word [' '] ['8'] [] _ (by unfold Blank; decide) (by decide) (by unfold Blank; decide) (.inl rfl) <|
    .blank [] (by simp)) Ex.word16 (Ex.word1 '8' 8 (Ex.digit '8' 8))

/-- `16 x` -/
example (w : World α) : ∃ c,
    readRequest ['1', '6', ' ', 'x'] w = .exc "Unable to read mboz and nboz" (w.print c) :=
  (C59_messages w).1 ['1', '6'] ['x'] [] 16
    (.word [] ['1', '6'] [' ', 'x'] _ (by simp) (by decide) (by unfold Blank; decide)
      (.inr ⟨_, _, rfl, by unfold Blank; decide⟩) <|
    .word [' '] ['x'] [] _ (by unfold Blank; decide) (by decide) (by unfold Blank; decide) (.inl rfl) <|
    .blank [] (by simp)) Ex.word16
    (.inl <| .letter (fun k h => by
      have h1 := h.1
      have h2 : (120 : Nat) = 48 + k := h.2
      omega) (by decide))

/-! ### C60 -/

/-- **C60 is false of the code.**  On every file that asks for something, the two drivers print
different things while reading it; the usage messages differ, too. -/
theorem C60_false :
    (∀ {content : List Char} {r : Request} (path : String) (w : World α), Asks content r →
      NoSeparators content → ShortWords content → ∃ c c',
        readRequest content w = .ok r (w.print c) ∧ pyRequest path content w = .ok r (w.print c') ∧
        c.length ≠ c'.length) ∧
    (∀ (env : Env) (version pkg : String) (w : World α), ∃ c c',
      driver env version [] w = .ok 0 (w.print c) ∧ pyMain env version pkg [] w = .ok 0 (w.print c') ∧
      c ≠ c') := by
  refine ⟨fun path w ha hn hs => ?_, fun env version pkg w => ?_⟩
  · obtain ⟨st, e⟩ := pyRequest_ok (α := α) ha hn hs path
    refine ⟨_, _, readRequest_ok ha w, e w, ?_⟩
    unfold saysCpp saysPy saysPySurfs
    cases st <;> simp
  · refine ⟨usageCpp, usagePy, ?_, ?_, by decide⟩
    · show (usageCpp.forM say >>= fun _ => pure 0) w = _
      rw [Prog.bind_def, say_list]
      rfl
    · show (usagePy.forM say >>= fun _ => pure 0) w = _
      rw [Prog.bind_def, say_list]
      rfl

omit [Arith α] in
/-- **C60, what holds.**  While reading, the C++ driver prints what the Python driver prints, in the
same order, followed by one line or two lines more.

Missing: those lines. -/
theorem C60_partial {content : List Char} {r : Request} (path : String) (w : World α)
    (ha : Asks content r) (hn : NoSeparators content) (hs : ShortWords content) :
    ∃ c extra, pyRequest path content w = .ok r (w.print c) ∧
      readRequest content w = .ok r (w.print (c ++ extra)) ∧
      (extra.length = 1 ∨ extra.length = 2) := by
  obtain ⟨st, e⟩ := pyRequest_ok (α := α) ha hn hs path
  cases st with
  | false =>
    refine ⟨_, ["Unable to read more.", "Read compute_surfs =" ++ spaced r.surfs], e w, ?_, .inr rfl⟩
    rw [readRequest_ok ha w]
    unfold saysCpp saysPy saysPySurfs
    simp only [Bool.false_eq_true, if_false, List.append_nil, List.append_assoc]
  | true =>
    refine ⟨_, ["Read compute_surfs =" ++ spaced r.surfs], e w, ?_, .inl rfl⟩
    rw [readRequest_ok ha w]
    unfold saysCpp saysPy saysPySurfs
    simp only [if_true, List.append_assoc, List.cons_append, List.nil_append]

example : ∃ c extra, pyRequest "in" Ex.input (Ex.world (α := α) Ex.input) =
      .ok Ex.request ((Ex.world Ex.input).print c) ∧
    readRequest Ex.input (Ex.world (α := α) Ex.input) =
      .ok Ex.request ((Ex.world Ex.input).print (c ++ extra)) ∧
    (extra.length = 1 ∨ extra.length = 2) :=
  C60_partial "in" _ Ex.input_asks Ex.input_plain Ex.input_short

/-! ### C61 -/

/-- **C61 is false of the code.**  If a listed surface does not exist in a `wout` file that loads, both
drivers have undefined behaviour: there is no error message. -/
theorem C61_false {content : List Char} {r : Request} {path prog : String} {w : World α}
    {env : Env} {version : String} {f : NcFile α} {z : WoutSizes} {b : St α}
    (hp : w.disk path = .other content) (ha : Asks content r)
    (hd : w.disk ("wout_" ++ String.ofList r.ext ++ ".nc") = .nc f) (hz : WoutShapes f z)
    (hl : readWout w.disk ("wout_" ++ String.ofList r.ext ++ ".nc") false construct = .ok () b)
    (hi : ∀ k, k < (intsOf f "xn_nyq").size → ((intsOf f "xn_nyq").val 0 k).natAbs < 2147483648)
    (hj : ∃ j ∈ r.surfs, j < 0 ∨ z.ns - 1 ≤ j) :
    ∃ why, driver env version [prog, path] w = .ub why := by
  obtain ⟨hg, hl'⟩ := wout_loaded hd hz hl
  obtain ⟨l, h1, -, -, h4, -⟩ := requested_run (r := r) hg hl' hi
  have hn : ∀ x, run false (requested r b) ≠ .ok x := by
    intro x hx
    obtain ⟨j, hj, hb⟩ := hj
    have := (h4.mp ⟨x, hx⟩).2.1 j hj
    omega
  obtain ⟨why, hu⟩ := run_ub_of_not_ok hn
  obtain ⟨c, e⟩ := driverMain_eq hp ha env version
  refine ⟨why, ?_⟩
  show driverMain env version path w = _
  have e1 : calculate env version r (w.print c) = finish env version r (requested r b) (w.print c) := by
    rw [calculate_eq, Prog.bind_def, call_ok (w := w.print c) (s' := b) (x := ())]
    exact hl
  obtain ⟨c2, e2⟩ := finish_eq env version r (requested r b) (w.print c) h1
  rw [e, Prog.bind_def, e1, e2, Prog.bind_def]
  unfold callRun
  rw [hu]
  rfl

/-- The example file has three surfaces; surface 9 is asked for. -/
example : ∃ why, driver Ex.calm "0.0.1" ["xbooz_xform", "in"] (Ex.world (α := α) Ex.input9) = .ub why := by
  obtain ⟨b, hb⟩ := Ex.wout_loads (α := α) Ex.input9
  exact C61_false (r := Ex.request9) (Ex.world_in _) Ex.input9_asks (Ex.world_wout _) (Ex.shapes 0) hb
    Ex.wout_nyq ⟨9, by decide, by decide⟩

/-- **C61, what holds.**  With a surface that does not exist the driver never returns, so no
`boozmn` file is reported as written.

Missing: an exception instead of undefined behaviour. -/
theorem C61_partial {content : List Char} {r : Request} {path prog : String} {w : World α}
    {env : Env} {version : String} {f : NcFile α} {z : WoutSizes} {code : Int} {w' : World α}
    (hp : w.disk path = .other content) (ha : Asks content r)
    (hd : w.disk ("wout_" ++ String.ofList r.ext ++ ".nc") = .nc f) (hz : WoutShapes f z)
    (hi : ∀ k, k < (intsOf f "xn_nyq").size → ((intsOf f "xn_nyq").val 0 k).natAbs < 2147483648)
    (h : driver env version [prog, path] w = .ok code w') :
    ∀ j ∈ r.surfs, 0 ≤ j ∧ j < z.ns - 1 := by
  by_contra hc
  obtain ⟨-, ⟨b, _, _, _, _, hl, -⟩, -⟩ := C43_correct hp ha h
  obtain ⟨why, hu⟩ := C61_false (prog := prog) (env := env) (version := version) hp ha hd hz hl hi (by
    by_contra hno
    refine hc fun j hj => ?_
    by_contra hx
    exact hno ⟨j, hj, by omega⟩)
  rw [h] at hu
  cases hu

end Booz
