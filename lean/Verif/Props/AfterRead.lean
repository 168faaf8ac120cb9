import Verif.Spec.AfterRead
import Verif.Props.Session

/-!
# C104: `read_boozmn` and what the object held before
-/

namespace Booz
variable {α : Type} [Arith α]
open Spec

theorem Spec.ReadFrame.refl (s : St α) : ReadFrame s s := ⟨rfl, rfl, rfl, rfl⟩

theorem Spec.ReadFrame.trans {a b c : St α} (h : ReadFrame a b) (k : ReadFrame b c) : ReadFrame a c :=
  ⟨k.grid.trans h.grid, by rw [k.inp, h.inp], k.boozer_I.trans h.boozer_I, k.boozer_G.trans h.boozer_G⟩

/-- However the program ends, only members that describe a boozmn file have changed. -/
def LeavesInputs {β : Type} (p : Prog (St α) β) : Prop :=
  ∀ s, (∀ x s', p s = .ok x s' → ReadFrame s s') ∧ (∀ m s', p s = .exc m s' → ReadFrame s s')

theorem leavesInputs_bind {β γ : Type} {p : Prog (St α) β} {q : β → Prog (St α) γ} (hp : LeavesInputs p)
    (hq : ∀ x, LeavesInputs (q x)) : LeavesInputs (p >>= q) := by
  intro s
  rw [Prog.bind_def]
  cases e : p s with
  | ok x t =>
    have h1 := (hp s).1 x t e
    exact ⟨fun y s' h => h1.trans ((hq x t).1 y s' h), fun m s' h => h1.trans ((hq x t).2 m s' h)⟩
  | exc m t => exact ⟨fun _ _ h => (by cases h), fun _ _ h => (by cases h; exact (hp s).2 _ _ e)⟩
  | abort _ => exact ⟨fun _ _ h => (by cases h), fun _ _ h => (by cases h)⟩
  | ub _ => exact ⟨fun _ _ h => (by cases h), fun _ _ h => (by cases h)⟩

theorem leavesInputs_lift {β : Type} (r : Res β) : LeavesInputs (Prog.lift (σ := St α) r) := by
  intro s
  unfold Prog.lift
  cases r with
  | ok x => exact ⟨fun _ _ h => (by cases h; exact .refl s), fun _ _ h => (by cases h)⟩
  | error e =>
    cases e with
    | throw m => exact ⟨fun _ _ h => (by cases h), fun _ _ h => (by cases h; exact .refl s)⟩
    | ub _ => exact ⟨fun _ _ h => (by cases h), fun _ _ h => (by cases h)⟩
    | assertFail _ => exact ⟨fun _ _ h => (by cases h), fun _ _ h => (by cases h)⟩

theorem leavesInputs_setSt {g : St α → Res (St α)} (hg : ∀ s s', g s = .ok s' → ReadFrame s s') :
    LeavesInputs (setSt g) := by
  intro s
  unfold setSt Prog.modify
  rw [Prog.get_bind, Prog.bind_def]
  unfold Prog.lift
  cases e : g s with
  | ok t => exact ⟨fun _ _ h => (by cases h; exact hg s t e), fun _ _ h => (by cases h)⟩
  | error f =>
    cases f with
    | throw m => exact ⟨fun _ _ h => (by cases h), fun _ _ h => (by cases h; exact .refl s)⟩
    | ub _ => exact ⟨fun _ _ h => (by cases h), fun _ _ h => (by cases h)⟩
    | assertFail _ => exact ⟨fun _ _ h => (by cases h), fun _ _ h => (by cases h)⟩

macro "frame" : tactic => `(tactic| (
  refine leavesInputs_setSt fun s s' h => ?_
  repeat' (obtain ⟨_, _, h⟩ := bind_ok h)
  cases h
  exact ⟨rfl, rfl, rfl, rfl⟩))

macro "frames" : tactic => `(tactic| (
  repeat' first
    | frame
    | exact leavesInputs_lift _
    | refine leavesInputs_bind ?_ fun _ => ?_))

theorem leavesInputs_sizes (f : NcFile α) : LeavesInputs (readSizes f) := by
  unfold readSizes
  frames

theorem leavesInputs_modes (f : NcFile α) : LeavesInputs (readModes f) := by
  unfold readModes
  frames

theorem leavesInputs_profiles (f : NcFile α) : LeavesInputs (readProfiles f) := by
  unfold readProfiles
  frames

theorem leavesInputs_surfs (f : NcFile α) : LeavesInputs (readSurfs f) := by
  unfold readSurfs
  frames

theorem leavesInputs_sym (f : NcFile α) : LeavesInputs (readSym f) := by
  unfold readSym
  frames

theorem leavesInputs_asym (f : NcFile α) (asym : Bool) : LeavesInputs (readAsym f asym) := by
  unfold readAsym
  split
  · frames
  · frames

theorem leavesInputs_S (f : NcFile α) : LeavesInputs (readS f) := by
  unfold readS
  frames

/-- **C104, what `read_boozmn` leaves.**  Whatever the file and however the call ends, the mode numbers and
spectra of the equilibrium, its aspect ratio and its radial grid are those the object held before. -/
theorem C104_kept (disk : Disk α) (path : String) (t : St α) :
    (∀ t', readBoozmn disk path t = .ok () t' → ReadFrame t t') ∧
    (∀ m t', readBoozmn disk path t = .exc m t' → ReadFrame t t') := by
  have h : LeavesInputs (readBoozmn disk path) := by
    unfold readBoozmn readBoozmnBody
    repeat' first
      | exact leavesInputs_lift _
      | exact leavesInputs_sizes _
      | exact leavesInputs_modes _
      | exact leavesInputs_profiles _
      | exact leavesInputs_surfs _
      | exact leavesInputs_sym _
      | exact leavesInputs_asym _ _
      | exact leavesInputs_S _
      | frame
      | refine leavesInputs_bind ?_ fun _ => ?_
  exact ⟨fun t' e => (h t).1 _ _ e, fun m t' e => (h t).2 _ _ e⟩

/-- **C104 is false** of the code for runs.  An object `t` is ready to run; a file of the results `s` of another
equilibrium (with the same number of surfaces, field periods and symmetry) is read into it.  A run then
returns: it combines the spectra of `t` with iota, the surfaces and the resolution of `s`. -/
theorem C104_grafted (hneg : ∀ x : α, - - x = x) {s t : St α} {d e : Dims}
    (hs : HasResults s e.nmodes e.nsb e.nsb e.ns e.asym) (he : RunReady s.inp e) (ht : RunReady t.inp d)
    (h1 : d.ns = e.ns) (h2 : d.nfp = e.nfp) (h3 : d.asym = e.asym) {env : Env} {version path : String}
    {disk : Disk α} {w : WSt α} (hv : VersionOk version) (hw : writeBoozmn env version path disk s = .ok () w)
    (hphi : s.flux.phip.size ≠ 0 → ∃ x, s.flux.phi[e.ns]? = some (some x)) :
    ∃ (t' t'' : St α) (r : List (Report α)), readBoozmn w.core.disk path t = .ok () t' ∧
      t'.inp = { grafted t.inp s.inp with toroidal_flux := t'.inp.toroidal_flux } ∧
      run false t' = .ok (t'', r) ∧ t''.inp = t'.inp ∧ t''.out.mnboz = some (e.nmodes : Int) := by
  obtain ⟨t', hr, hb, hf⟩ := C33_roundtrip hneg hs hv hw hphi t
  have ei : t'.inp = { grafted t.inp s.inp with toroidal_flux := t'.inp.toroidal_flux } := by
    rw [hf.inp]
    simp [grafted, hb.asym_eq, hb.nfp, hb.mboz, hb.nboz, hb.ns_in, hb.iota, hb.compute_surfs, he.asym]
  let d' : Dims := { d with M := e.M, N := e.N, nsb := e.nsb }
  have hd : RunReady t'.inp d' := by
    rw [ei]
    exact
    { asym := by show s.inp.asym = some d.asym; rw [h3]; exact he.asym
      nfp := by show s.inp.nfp = some (d.nfp : Int); rw [h2]; exact he.nfp
      nfp_pos := ht.nfp_pos, mpol := ht.mpol, mpol_ge := ht.mpol_ge, ntor := ht.ntor, mnmax := ht.mnmax
      mpol_nyq := ht.mpol_nyq, mpol_nyq_ge := ht.mpol_nyq_ge, ntor_nyq := ht.ntor_nyq, mnmax_nyq := ht.mnmax_nyq
      mnmax_nyq_ge := ht.mnmax_nyq_ge
      ns_in := by show s.inp.ns_in = some (d.ns : Int); rw [h1]; exact he.ns_in
      mboz := he.mboz, mboz_ge := he.mboz_ge, nboz := he.nboz
      xm := ht.xm, xm_range := ht.xm_range, xn := ht.xn, xn_range := ht.xn_range, xn_int := ht.xn_int
      xm_nyq := ht.xm_nyq, xm_nyq_range := ht.xm_nyq_range, xn_nyq := ht.xn_nyq
      xn_nyq_range := ht.xn_nyq_range, xn_nyq_int := ht.xn_nyq_int, s_in := ht.s_in
      iota := by show s.inp.iota.Full d.ns; rw [h1]; exact he.iota
      rmnc := ht.rmnc, zmns := ht.zmns, lmns := ht.lmns, bmnc := ht.bmnc, bsubumnc := ht.bsubumnc
      bsubvmnc := ht.bsubvmnc, rmns := ht.rmns, zmnc := ht.zmnc, lmnc := ht.lmnc, bmns := ht.bmns
      bsubumns := ht.bsubumns, bsubvmns := ht.bsubvmns, surfs := he.surfs
      surfs_range := by
        show ∀ k, k < e.nsb → 0 ≤ s.inp.compute_surfs.val 0 k ∧ s.inp.compute_surfs.val 0 k < d.ns
        rw [h1]; exact he.surfs_range
      fit_ntor := ht.fit_ntor, fit_mq := ht.fit_mq, fit_nq := ht.fit_nq, fit_mpol := ht.fit_mpol
      fit_theta := he.fit_theta
      fit_zeta := he.fit_zeta
      fit_pts := by
        have : d'.np = e.np := by simp [d', Dims.np, Dims.nu3, Dims.nu2, Dims.nz, Dims.nt, h3]
        rw [this]; exact he.fit_pts
      fit_nfp := by show d.nfp * _ < _; rw [h2]; exact he.fit_nfp }
  refine ⟨t', runSt d' t' d'.nsb, _, hr, ei, run_ok hd (by simp) (by simp), rfl, rfl⟩

/-- **C104 is false** of the code for writes: the copy of a file states the aspect ratio the object had before. -/
theorem C104_aspect (hneg : ∀ x : α, - - x = x) {s t : St α} {K nb ns : Nat} {asym : Bool}
    (hs : HasResults s K nb nb ns asym) {env : Env} {version path copy : String}
    {disk : Disk α} {w : WSt α} (hv : VersionOk version) (hw : writeBoozmn env version path disk s = .ok () w)
    (hphi : s.flux.phip.size ≠ 0 → ∃ x, s.flux.phi[ns]? = some (some x)) (hn : NoFailure env) :
    ∃ (t' : St α) (w' : WSt α) (g : NcFile α), readBoozmn w.core.disk path t = .ok () t' ∧
      writeBoozmn env version copy w.core.disk t' = .ok () w' ∧ w'.core.disk copy = .nc g ∧
      HoldsDbl g "aspect_b" t.inp.aspect ∧ HoldsMat g K nb "bmnc_b" id s.out.spec.bmnc_b := by
  obtain ⟨t', hr, hb, hf⟩ := C33_roundtrip hneg hs hv hw hphi t
  have hR := readBack_hasResults hs hb
  rcases C34_total (env := env) (filename := copy) (disk := w.core.disk) hR hv with ⟨w', e⟩ | ⟨⟨k, m, e⟩, _⟩
  · obtain ⟨g, hg, L⟩ := C34_layout hR hv e
    refine ⟨t', w', g, hr, e, hg, ?_, ?_⟩
    · have ea : t'.inp.aspect = t.inp.aspect := by rw [hf.inp]
      rw [← ea]; exact L.aspect_b
    · rw [← hb.bmnc_b]; exact L.bmnc_b
  · rw [hn k] at e; cases e

/-- **C104 is false** of the code for files without `chi_b`: a `chi` of the same length stays. -/
theorem C104_chi {disk : Disk α} {path : String} {f : NcFile α} {V : BzVals α} {K nb ns : Nat} {x : α}
    (hf : disk path = .nc f) (h : IsBoozmn f K nb ns V) (hc : f.var? "chi_b" = none)
    (hx : V.phi[ns]? = some (some x)) {t : St α} (ht : t.flux.chi.size = ns + 1) :
    ∃ t', readBoozmn disk path t = .ok () t' ∧ t'.flux.chi = t.flux.chi ∧ t'.flux.phi = V.phi := by
  refine ⟨_, readBoozmn_ok (chi := t.flux.chi) hf h (fun old ho => ?_) hx, ?_⟩
  · unfold Vec.resize at ho
    rw [if_pos (by omega), Int.toNat_natCast, if_pos ht] at ho
    cases ho
    unfold tryGetVec NcFile.getVec NcFile.find
    rw [hc]
    rfl
  · unfold readRes
    by_cases hl : V.lasym ≠ 0
    · simp only [if_pos hl]; exact ⟨rfl, rfl⟩
    · simp only [if_neg hl]; exact ⟨rfl, rfl⟩

/-- **C104, partial.**  From a complete file all objects get the same description, whatever they held
before: results, modes, profiles, iota, resolution and surfaces.  Missing: the aspect ratio, the input
spectra (`C104_grafted`, `C104_aspect`) and `chi` for files without it (`C104_chi`). -/
theorem C104_partial {disk : Disk α} {path : String} {f : NcFile α} {V : BzVals α} {K nb ns : Nat} {x : α}
    (hf : disk path = .nc f) (h : IsBoozmn f K nb ns V) {chi : Vec α} (hc : GetsD f "chi_b" chi)
    (hchi : chi.size = ns + 1) (hx : V.phi[ns]? = some (some x)) (t u : St α) :
    ∃ t' u', readBoozmn disk path t = .ok () t' ∧ readBoozmn disk path u = .ok () u' ∧ SameBoozmn t' u' := by
  have key : ∀ t : St α, readBoozmn disk path t = .ok () (readRes t V K nb ns chi x) := fun t =>
    readBoozmn_ok (chi := chi) hf h (fun old ho => by
      have hos : old.size = ns + 1 := by
        unfold Vec.resize at ho
        rw [if_pos (by omega), Int.toNat_natCast] at ho
        split at ho
        · cases ho; assumption
        · cases ho; simp
      unfold tryGetVec
      rw [hc.vec hchi hos (by omega)]) hx
  refine ⟨_, _, key t, key u, ?_⟩
  unfold readRes
  by_cases hl : V.lasym ≠ 0
  · simp only [if_pos hl]
    exact ⟨rfl, rfl, rfl, rfl, rfl, rfl, rfl, rfl, rfl, rfl, rfl, rfl, rfl, rfl, rfl, rfl, rfl⟩
  · simp only [if_neg hl]
    exact ⟨rfl, rfl, rfl, rfl, rfl, rfl, rfl, rfl, rfl, rfl, rfl, rfl, rfl, rfl, rfl, rfl, rfl⟩

/-! ### Concrete cases -/

/-- The example equilibrium with another iota, another boundary and another aspect ratio. -/
def Ex.other (asym : Bool) (x y z : α) : St α := { Ex.stF asym true with
  inp := { (Ex.stF asym true).inp with
    iota := Vec.tab 2 fun _ => x, rmnc := ⟨3, 2, Vec.tab 6 fun _ => y⟩, aspect := some z } }

theorem Ex.other_ready (asym : Bool) (x y z : α) : RunReady (Ex.other asym x y z).inp (Ex.dims asym) :=
  { Ex.readyH asym with iota := Vec.full_tab _ _, rmnc := ⟨rfl, rfl, Vec.full_tab _ _⟩ }

/-- **C104 is false** of the code, concretely: an equilibrium is loaded, the results of another one are read from a
file, and `run` is called.  It returns, having used the iota of one and the boundary of the other. -/
theorem C104_false (hneg : ∀ x : α, - - x = x) (asym : Bool) (x y z : α) :
    ∃ (t t' t'' : St α) (disk : Disk α) (r : List (Report α)), t = Ex.other asym x y z ∧
      RunReady t.inp (Ex.dims asym) ∧ readBoozmn disk "boozmn.nc" t = .ok () t' ∧ run false t' = .ok (t'', r) ∧
      t''.inp.iota = (Ex.inputs (α := α) asym).iota ∧ t''.inp.rmnc = ⟨3, 2, Vec.tab 6 fun _ => y⟩ ∧
      t''.inp.aspect = some z := by
  obtain ⟨w, hw⟩ := Ex.done_written (α := α) asym true
  obtain ⟨t', t'', r, h1, h2, h3, h4, -⟩ := C104_grafted (d := Ex.dims asym) (e := Ex.dims asym) hneg
    (Ex.done_results asym true) (Ex.readyH asym) (Ex.other_ready asym x y z) rfl rfl rfl Ex.version hw
    (Ex.done_phi asym true)
  exact ⟨_, t', t'', _, r, rfl, Ex.other_ready asym x y z, h1, h3, by rw [h4, h2]; rfl, by rw [h4, h2]; rfl,
    by rw [h4, h2]; rfl⟩

/-- The copy of the example file made with that object states its aspect ratio. -/
example (hneg : ∀ x : α, - - x = x) (asym : Bool) (x y z : α) : ∃ (w w' : WSt α) (t' : St α) (g : NcFile α),
    writeBoozmn Ex.calm "0.0.1" "boozmn.nc" Ex.disk0 (Ex.done asym true) = .ok () w ∧
    readBoozmn w.core.disk "boozmn.nc" (Ex.other asym x y z) = .ok () t' ∧
    writeBoozmn Ex.calm "0.0.1" "copy.nc" w.core.disk t' = .ok () w' ∧ w'.core.disk "copy.nc" = .nc g ∧
    HoldsDbl g "aspect_b" (some z) := by
  obtain ⟨w, hw⟩ := Ex.done_written (α := α) asym true
  obtain ⟨t', w', g, h1, h2, h3, h4, -⟩ := C104_aspect (t := Ex.other asym x y z) (copy := "copy.nc") hneg
    (Ex.done_results asym true) Ex.version hw (Ex.done_phi asym true) Ex.noFailure
  exact ⟨w, w', t', g, hw, h1, h2, h3, h4⟩

/-- The example file without `chi_b`, and an object that has a `chi`. -/
example (x y z : α) : ∃ t' : St α, readBoozmn (fun _ => .nc ((bzFile "0.0.1" 5 2 2 true (Ex.done (α := α) true true)).drop
      "chi_b")) "boozmn.nc" (Ex.other true x y z) = .ok () t' ∧
    t'.flux.chi = (Ex.other true x y z).flux.chi ∧ t'.flux.chi.size = 3 := by
  have hR := Ex.done_results (α := α) true true
  have hB := layout_isBoozmn hR (layout_ok (version := "0.0.1") hR) rfl
  have hx : (valsOf (Ex.done (α := α) true true) 2 2 true
      (decide ((Ex.done (α := α) true true).flux.phip.size ≠ 0))).phi[2]? = some (some (ofInt 6)) := rfl
  obtain ⟨t', h1, h2, -⟩ := C104_chi (t := Ex.other true x y z) (disk := fun _ =>
      .nc ((bzFile "0.0.1" 5 2 2 true (Ex.done (α := α) true true)).drop "chi_b"))
    (path := "boozmn.nc") rfl (IsBoozmn.drop_chi hB) (drop_same _ _) hx rfl
  exact ⟨t', h1, h2, by rw [h2]; rfl⟩

/-- The complete example file, read into a new object and into one with another equilibrium. -/
example (x y z : α) : ∃ t' u' : St α,
    readBoozmn (fun _ => .nc (bzFile "0.0.1" 5 2 2 true (Ex.done true true))) "boozmn.nc" construct = .ok () t' ∧
    readBoozmn (fun _ => .nc (bzFile "0.0.1" 5 2 2 true (Ex.done true true))) "boozmn.nc" (Ex.other true x y z) =
      .ok () u' ∧ SameBoozmn t' u' := by
  have hR := Ex.done_results (α := α) true true
  have hl := layout_ok (version := "0.0.1") hR
  have hB := layout_isBoozmn hR hl rfl
  have hx : (valsOf (Ex.done (α := α) true true) 2 2 true
      (decide ((Ex.done (α := α) true true).flux.phip.size ≠ 0))).phi[2]? = some (some (ofInt 6)) := rfl
  exact C104_partial rfl hB (chi := (Ex.done (α := α) true true).flux.chi) (hl.flux (by decide : (3 : Nat) ≠ 0)).1.gets rfl hx _ _

end Booz
