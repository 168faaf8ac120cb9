import Verif.Spec.Session
import Verif.Props.Boozmn

/-!
# Legal sessions keep an invariant
-/

namespace Booz
variable {α : Type} [Arith α]
open Spec

/-- The object holds what `read_wout` put there, except for the attributes a user assigns. -/
def FromWout (f : NcFile α) (z : WoutSizes) (flux : Bool) (b : St α) : Prop :=
  ∃ I : Inputs α, I.mpol_nyq = (woutInp f z I).mpol_nyq ∧ I = woutInp f z I ∧
    Given (woutArgs f z flux) I (woutSizesOf f z) ∧ Computable (woutSizesOf f z) ∧
    Consistent z.ns (woutArgs f z flux) I (woutSizesOf f z) ∧
    Loadable z.ns (woutArgs f z flux) I (woutSizesOf f z) ∧
    b.inp = { loadedInp z.ns (woutArgs f z flux) I (woutSizesOf f z) with
      verbose := b.inp.verbose
      mboz := b.inp.mboz
      nboz := b.inp.nboz
      compute_surfs := b.inp.compute_surfs }

/-- Flux profiles are absent, or complete with a known last value. -/
def FluxFine (s : St α) (ns : Nat) : Prop :=
  FluxOk s.flux ns ∧ (s.flux.phip.size ≠ 0 → ∃ x, s.flux.phi[ns]? = some (some x))

/-- A file the program wrote. -/
def Written (f : NcFile α) : Prop :=
  ∃ (s : St α) (K nb ns : Nat) (asym : Bool) (version : String), HasResults s K nb nb ns asym ∧
    FluxFine s ns ∧ 1 ≤ s.inp.mboz ∧ 0 ≤ s.inp.nboz ∧ s.inp.compute_surfs.Full s.inp.compute_surfs.size ∧
    Layout f version s K nb ns asym

/-- What holds throughout a legal session. -/
structure SInv (h : History) (w : Sess α) : Prop where
  surfs : w.obj.inp.compute_surfs.Full w.obj.inp.compute_surfs.size
  surfs_len : w.obj.inp.compute_surfs.size ≤ 2147483644
  mboz : 1 ≤ w.obj.inp.mboz
  nboz : 0 ≤ w.obj.inp.nboz
  loaded : h.loaded = true → ∃ f z flux, ValidWout f z flux ∧ FromWout f z flux w.obj ∧
    FluxFine w.obj (z.ns - 1).toNat
  results : h.results = true → ∃ K nb ns asym, HasResults w.obj K nb nb ns asym ∧ FluxFine w.obj ns
  own : ∀ p, h.own p = true → ∃ f, w.disk p = .nc f ∧ Written f

theorem sinv_start (disk : Disk α) : SInv .start ⟨construct, disk⟩ where
  surfs := ⟨rfl, fun i hi => absurd hi (by simp [construct])⟩
  surfs_len := by simp [construct]
  mboz := by simp [construct]
  nboz := by simp [construct]
  loaded := fun e => by cases e
  results := fun e => by cases e
  own := fun p e => by cases e

/-- `read_wout` looks at one file. -/
theorem readWout_disk {disk disk' : Disk α} {p p' : String} (h : disk p = disk' p') (flux : Bool)
    (s : St α) : readWout disk p flux s = readWout disk' p' flux s := by
  have : openRead disk p = openRead disk' p' := by unfold openRead; rw [h]
  unfold readWout
  rw [this]

theorem fluxFine_fluxV {ns : Int} {A : VmecArgs α} (s : St α) (hs : s.flux = fluxV (ns - 1).toNat A) :
    FluxFine s (ns - 1).toNat := by
  unfold FluxFine FluxOk
  rw [hs]
  unfold fluxV
  split
  · exact ⟨.inl rfl, fun h => absurd rfl h⟩
  · refine ⟨.inr ⟨Vec.size_tab _ _, Vec.size_tab _ _, Vec.size_tab _ _, Vec.size_tab _ _⟩, fun _ => ?_⟩
    exact ⟨_, by show (Vec.tab _ _)[_]? = _; rw [Vec.getElem?_tab, if_pos (by omega)]⟩

theorem fluxFine_phip {s : St α} {ns : Nat} (h : FluxFine s ns) (x : Option α) :
    FluxFine { s with flux := { s.flux with phip := s.flux.phip.set! 0 x } } ns := by
  have e : (s.flux.phip.set! 0 x).size = s.flux.phip.size := by simp
  refine ⟨?_, fun h0 => h.2 (by rw [← e]; exact h0)⟩
  unfold FluxOk
  show (s.flux.phip.set! 0 x).size = 0 ∨ ((s.flux.phip.set! 0 x).size = _ ∧ _)
  rw [e]
  exact h.1

/-- What a valid file provides for an object with any selection. -/
theorem valid_given {f : NcFile α} {z : WoutSizes} {flux : Bool} (hv : ValidWout f z flux) (s : St α)
    (hs : s.inp.compute_surfs.Full s.inp.compute_surfs.size)
    (hb : s.inp.verbose ≤ 1 ∨ (4 ≤ z.mnmax ∧ 4 ≤ z.ns)) :
    (∀ n ∈ woutRequired flux (decide (z.lasym ≠ 0)), f.var? n ≠ none) ∧ FitsInt (z.ns - 1) ∧
    Given (woutArgs f z flux) (woutInp f z s.inp) (woutSizesOf f z) ∧ Computable (woutSizesOf f z) ∧
    Loadable z.ns (woutArgs f z flux) (woutInp f z s.inp) (woutSizesOf f z) := by
  obtain ⟨b, hb0⟩ := hv.loads
  rcases readWout_cases (flux := flux) (s := construct) (disk := fun _ => .nc f) (path := "") rfl hv.shapes with
    ⟨-, s', h⟩ | ⟨hp, h⟩
  · rw [h] at hb0; cases hb0
  · rw [h] at hb0
    have hg := wout_given (I := (construct : St α).inp) (flux := flux) hv.shapes hp
      ⟨rfl, fun i hi => absurd hi (by simp [construct])⟩
    obtain ⟨hf, hc, C, L⟩ := vmec_inv (s := { (construct : St α) with inp := woutInp f z (construct : St α).inp })
      hg hb0
    refine ⟨hp, hf, wout_given hv.shapes hp hs, hc, L.1, ?_, L.3, L.4, L.5⟩
    rcases hb with h1 | ⟨h1, h2⟩
    · exact .inl h1
    · refine .inr ⟨?_, ?_⟩
      · show 4 ≤ z.mnmax.toNat
        omega
      · show 4 ≤ z.ns.toNat
        omega

/-- Loading a valid file: success, or an exception that leaves the selection alone. -/
theorem load_step {f : NcFile α} {z : WoutSizes} {flux : Bool} (hv : ValidWout f z flux)
    {disk : Disk α} {path : String} (hd : disk path = .nc f) (s : St α)
    (hs : s.inp.compute_surfs.Full s.inp.compute_surfs.size)
    (hb : s.inp.verbose ≤ 1 ∨ (4 ≤ z.mnmax ∧ 4 ≤ z.ns)) :
    (∃ s', readWout disk path flux s = .ok () s' ∧ FromWout f z flux s' ∧
      FluxFine s' (z.ns - 1).toNat ∧ s'.inp.compute_surfs.Full (z.ns - 1).toNat ∧
      s'.inp.mboz = 6 * z.mpol ∧ 0 ≤ s'.inp.nboz) ∨
    (∃ m s', readWout disk path flux s = .exc m s' ∧ ¬ SurfsOk z.ns s.inp.compute_surfs ∧
      s'.inp.compute_surfs = s.inp.compute_surfs ∧ s'.inp.mboz = s.inp.mboz ∧
      s'.inp.nboz = s.inp.nboz) := by
  obtain ⟨hp, hf, hg, hc, hl⟩ := valid_given hv s hs hb
  obtain ⟨-, -, C0⟩ : True ∧ True ∧ Consistent z.ns (woutArgs f z flux) (woutInp f z (construct : St α).inp)
      (woutSizesOf f z) := by
    obtain ⟨b, hb0⟩ := hv.loads
    rw [C39_loads flux construct (disk := fun _ => .nc f) rfl hv.shapes hp] at hb0
    have hg0 := wout_given (I := (construct : St α).inp) (flux := flux) hv.shapes hp
      ⟨rfl, fun i hi => absurd hi (by simp [construct])⟩
    exact ⟨trivial, trivial, (vmec_inv (s := { (construct : St α) with
      inp := woutInp f z (construct : St α).inp }) hg0 hb0).2.2.1⟩
  rw [C39_loads flux s hd hv.shapes hp]
  let s1 : St α := { s with inp := woutInp f z s.inp }
  have hg1 : Given (woutArgs f z flux) s1.inp (woutSizesOf f z) := hg
  have hl1 : Loadable z.ns (woutArgs f z flux) s1.inp (woutSizesOf f z) := hl
  by_cases hok : SurfsOk z.ns s.inp.compute_surfs
  · left
    have C : Consistent z.ns (woutArgs f z flux) s1.inp (woutSizesOf f z) :=
      ⟨C0.1, C0.2, C0.3, C0.4, C0.5, C0.6, C0.7, C0.8, C0.9, C0.10, C0.11, C0.12, C0.13, hok.2⟩
    refine ⟨_, vmec_ok hf hg1 hc C hl1, ⟨(withNs s1 z.ns).inp, rfl, rfl, given_withNs hg1 z.ns, hc,
      consistent_withNs.mpr C, loadable_withNs.mpr hl1, rfl⟩, fluxFine_fluxV _ rfl, Vec.full_tab _ _, rfl, ?_⟩
    show (0 : Int) ≤ max _ 0
    omega
  · right
    have hg' := given_withNs hg1 z.ns
    obtain ⟨hva, ht⟩ := validate_iff (ns := z.ns) hg'.sized hg'.lists hc.modes hc.modes_nyq hc.fit
      hc.fit_nyq (A := woutArgs f z flux)
    rw [vmec_eq _ _ _ hf]
    cases hw : validate z.ns (woutArgs f z flux) (withNs s1 z.ns).inp with
    | error e =>
      obtain ⟨m, rfl⟩ := ht e hw
      exact ⟨m, _, rfl, hok, rfl, rfl, rfl⟩
    | ok u => exact absurd ⟨hs, (hva.mp hw).surfs⟩ hok

/-- Running a loaded object. -/
theorem run_step {h : History} {w : Sess α} (hi : SInv h w) (hl : Legal h w .run) :
    ∃ (s' : St α) (d : Dims), perform .run w = .ok () { w with obj := s' } ∧ s' = runSt d w.obj d.nsb ∧
      RunReady w.obj.inp d ∧ d.nsb = w.obj.inp.compute_surfs.size ∧
      HasResults s' d.nmodes d.nsb d.nsb d.ns d.asym ∧ FluxFine s' d.ns ∧ SizesAgree s' := by
  obtain ⟨hld, h0, hsurf, hgrid⟩ := hl
  obtain ⟨f, z, flux, hv, ⟨I, hq, hI, hg, hc, C, L, e⟩, hflux⟩ := hi.loaded hld
  generalize hmq : ((intsOf f "xm_nyq").val 0 (z.mnmax_nyq.toNat - 1)) = mq at hq
  have hns := C.ns_ge
  have hq' : I.mpol_nyq = some mq := by rw [hq, ← hmq]; rfl
  have hny : ∀ k, k < I.xn_nyq.size → (I.xn_nyq.val 0 k).natAbs < 2147483648 := by
    have : I.xn_nyq = intsOf f "xn_nyq" := by rw [hI]; rfl
    rw [this]; exact hv.nyq_int
  have hp := loaded_prepared hg hc C L hq' hny w.obj.inp.verbose w.obj.inp.mboz w.obj.inp.nboz hi.surfs
    (by omega)
  have hm : ModesWithin I (woutSizesOf f z) mq := by
    have W := hv.modes
    rw [hmq] at W
    rw [hI]
    exact ⟨W.1, W.2, W.3, W.4, W.5, W.6, W.7, W.8⟩
  have hr := (loaded_inRange (mq := mq) hc C L w.obj.inp.verbose w.obj.inp.mboz w.obj.inp.nboz
    w.obj.inp.compute_surfs w.obj.inp.compute_surfs.size).mpr ⟨hm, hi.mboz, by
      refine hsurf _ ?_
      rw [e]; rfl⟩
  rw [← e] at hp hr
  have hgf := hgrid _ _ hp.asym hp.nfp
  rw [Int.toNat_natCast] at hgf
  have hsh := prepared_shape hp hr hi.nboz
  have hgf' := (gridFits_iff ((loadedContents z.ns (woutSizesOf f z) mq w.obj.inp.compute_surfs.size).dims
    w.obj.inp.mboz w.obj.inp.nboz)).mp hgf
  have hrd : RunReady w.obj.inp _ := ⟨hsh, hgf'.1, hgf'.2.1, hgf'.2.2.1, hgf'.2.2.2⟩
  have hnsfit := hv.ns_fit
  generalize hd : (loadedContents z.ns (woutSizesOf f z) mq w.obj.inp.compute_surfs.size).dims
    w.obj.inp.mboz w.obj.inp.nboz = d at hrd
  have hdns : d.ns = (z.ns - 1).toNat := by rw [← hd]; rfl
  have hdnsb : d.nsb = w.obj.inp.compute_surfs.size := by rw [← hd]; rfl
  refine ⟨runSt d w.obj d.nsb, d, ?_, rfl, hrd, hdnsb, ?_, ?_, ?_⟩
  · show Sess.run w = _
    unfold Sess.run
    rw [run_ok hrd (by simp) (by simp)]
  · refine run_hasResults hrd (by omega) (by have := hi.surfs_len; omega) (by omega) ?_
    rw [hdns]; exact hflux.1
  · rw [hdns]
    exact hflux
  · have hM := hrd.mboz
    have hN := hrd.nboz
    have hM1 := hrd.mboz_ge
    have ha := hrd.asym
    refine ⟨d.nmodes, d.nsb, d.asym, ha, rfl, rfl, ?_, hdnsb, ?_⟩
    · show ((d.nmodes : Nat) : Int) = (2 * w.obj.inp.nboz + 1) * (w.obj.inp.mboz - 1) + w.obj.inp.nboz + 1
      rw [hM, hN]
      unfold Dims.nmodes
      push_cast [Nat.cast_sub hM1]
      ring
    · clear hrd ha hgrid hsurf
      refine ⟨Vec.full_tab _ _, Vec.full_tab _ _, Vec.full_tab _ _, Vec.full_tab _ _, Vec.full_tab _ _,
        ?_⟩
      unfold runSt specTab
      cases d.asym <;> simp [Mat.full_tab]

omit [Arith α] in
theorem hasResults_assign {s : St α} {K nb nc ns : Nat} {asym : Bool} (h : HasResults s K nb nc ns asym)
    (v m n : Int) :
    HasResults { s with inp := { s.inp with verbose := v, mboz := m, nboz := n } } K nb nc ns asym :=
  ⟨h.1, h.2, h.3, h.4, h.5, h.6, h.7, h.8, h.9, h.10, h.11, h.12, h.13, h.14, h.15, h.16, h.17, h.18,
    h.19, h.20, h.21, h.22, h.23, h.24⟩

omit [Arith α] in
theorem hasResults_phip {s : St α} {K nb nc ns : Nat} {asym : Bool} (h : HasResults s K nb nc ns asym)
    (x : Option α) : HasResults { s with flux := { s.flux with phip := s.flux.phip.set! 0 x } } K nb nc ns asym :=
  ⟨h.1, h.2, h.3, h.4, h.5, h.6, h.7, h.8, h.9, h.10, h.11, h.12, h.13, h.14, h.15, h.16, h.17, h.18,
    h.19, h.20, h.21, h.22, h.23, by
      have e : (s.flux.phip.set! 0 x).size = s.flux.phip.size := by simp
      show (s.flux.phip.set! 0 x).size = 0 ∨ ((s.flux.phip.set! 0 x).size = _ ∧ _)
      rw [e]
      exact h.24⟩

theorem FromWout.assign {f : NcFile α} {z : WoutSizes} {flux : Bool} {b : St α} (h : FromWout f z flux b)
    (v m n : Int) (x : Vec Int) : FromWout f z flux { b with inp := { b.inp with
      verbose := v, mboz := m, nboz := n, compute_surfs := x } } := by
  obtain ⟨I, a1, a2, a3, a4, a5, a6, e⟩ := h
  refine ⟨I, a1, a2, a3, a4, a5, a6, ?_⟩
  show { b.inp with verbose := v, mboz := m, nboz := n, compute_surfs := x } = _
  rw [e]

theorem FromWout.congr {f : NcFile α} {z : WoutSizes} {flux : Bool} {b b' : St α}
    (h : FromWout f z flux b) (e : b'.inp = b.inp) : FromWout f z flux b' := by
  unfold FromWout at h ⊢
  rw [e]
  exact h

theorem FluxFine.congr {b b' : St α} {ns : Nat} (h : FluxFine b ns) (e : b'.flux = b.flux) :
    FluxFine b' ns := by
  unfold FluxFine at h ⊢
  rw [e]
  exact h

/-- Assignments other than to `compute_surfs`. -/
theorem assign_inv {h : History} {w : Sess α} (hi : SInv h w) (v m n : Int) (hm : 1 ≤ m) (hn : 0 ≤ n) :
    SInv h { w with obj := { w.obj with inp := { w.obj.inp with verbose := v, mboz := m, nboz := n } } } where
  surfs := hi.surfs
  surfs_len := hi.surfs_len
  mboz := hm
  nboz := hn
  loaded := fun hl => by
    obtain ⟨f, z, flux, hv, hw, hf⟩ := hi.loaded hl
    exact ⟨f, z, flux, hv, hw.assign v m n _, hf⟩
  results := fun hr => by
    obtain ⟨K, nb, ns, asym, h1, h2⟩ := hi.results hr
    exact ⟨K, nb, ns, asym, hasResults_assign h1 v m n, h2⟩
  own := hi.own

/-- The object after a write. -/
theorem written_inv {h : History} {w : Sess α} (hi : SInv h w) {o : St α} (ho : o = w.obj ∨
      (w.obj.flux.phip.size ≠ 0 ∧ o = { w.obj with flux := { w.obj.flux with
        phip := w.obj.flux.phip.set! 0 (some (ofInt 0)) } })) : SInv h ⟨o, w.disk⟩ := by
  rcases ho with rfl | ⟨-, rfl⟩
  · exact hi
  · exact
    { surfs := hi.surfs
      surfs_len := hi.surfs_len
      mboz := hi.mboz
      nboz := hi.nboz
      loaded := fun hl => by
        obtain ⟨f, z, flux, hv, hw, hf⟩ := hi.loaded hl
        exact ⟨f, z, flux, hv, hw.congr rfl, fluxFine_phip hf _⟩
      results := fun hr => by
        obtain ⟨K, nb, ns, asym, h1, h2⟩ := hi.results hr
        exact ⟨K, nb, ns, asym, hasResults_phip h1 _, fluxFine_phip h2 _⟩
      own := hi.own }

/-- After reading back a file. -/
theorem readBack_fluxFine {s t : St α} {nb ns : Nat} {asym : Bool} (hs : FluxFine s ns)
    (h : ReadBack s t nb ns asym) : FluxFine t ns := by
  by_cases h0 : s.flux.phip.size = 0
  · have e := (h.no_flux h0).1
    unfold FluxFine FluxOk
    rw [e]
    refine ⟨.inr (by simp), fun _ => ⟨ofInt 0, ?_⟩⟩
    show (Array.replicate (ns + 1) (some (ofInt 0 : α)))[ns]? = _
    simp
  · have e := (h.flux h0).1
    have := fluxFine_phip hs (some (ofInt 0))
    unfold FluxFine at this ⊢
    rw [e]
    exact this

/-- A legal call returns or throws, and keeps the invariant. -/
theorem step_inv (hneg : ∀ x : α, - - x = x) {h : History} {w : Sess α} {c : Call} (hi : SInv h w)
    (hl : Legal h w c) :
    (∃ w', perform c w = .ok () w' ∧ SInv (h.after c true) w' ∧ (c = .run → SizesAgree w'.obj)) ∨
    (∃ m w', perform c w = .exc m w' ∧ SInv (h.after c false) w' ∧ ThrowReason w c) := by
  cases c with
  | readWout path flux =>
    obtain ⟨f, z, hd, hv, hb⟩ := hl
    rcases load_step hv hd w.obj hi.surfs hb with ⟨s', e, h1, h2, h3, h4, h5⟩ | ⟨m, s', e, h1, h2, h3, h4⟩
    · refine .inl ⟨{ w with obj := s' }, ?_, ?_, fun h => by cases h⟩
      · show Sess.on _ w = _
        unfold Sess.on
        rw [e]
      · have hm := hv.modes.mpol
        have hns := hv.ns_fit
        exact
        { surfs := by rw [h3.1]; exact h3
          surfs_len := by show s'.inp.compute_surfs.size ≤ _; rw [h3.1]; omega
          mboz := by
            show 1 ≤ s'.inp.mboz
            have hm : (2 : Int) ≤ z.mpol := hm
            omega
          nboz := h5
          loaded := fun _ => ⟨f, z, flux, hv, h1, h2⟩
          results := fun hr => by cases hr
          own := hi.own }
    · refine .inr ⟨m, { w with obj := s' }, ?_, ?_, .load hd hv.shapes h1⟩
      · show Sess.on _ w = _
        unfold Sess.on
        rw [e]
      · exact
        { surfs := by show s'.inp.compute_surfs.Full s'.inp.compute_surfs.size; rw [h2]; exact hi.surfs
          surfs_len := by show s'.inp.compute_surfs.size ≤ _; rw [h2]; exact hi.surfs_len
          mboz := by show 1 ≤ s'.inp.mboz; rw [h3]; exact hi.mboz
          nboz := by show 0 ≤ s'.inp.nboz; rw [h4]; exact hi.nboz
          loaded := fun hr => by cases hr
          results := fun hr => by cases hr
          own := hi.own }
  | setMboz m => exact .inl ⟨_, rfl, assign_inv hi _ m _ hl hi.nboz, fun h => by cases h⟩
  | setNboz n => exact .inl ⟨_, rfl, assign_inv hi _ _ n hi.mboz hl, fun h => by cases h⟩
  | setVerbose v => exact .inl ⟨_, rfl, assign_inv hi v _ _ hi.mboz hi.nboz, fun h => by cases h⟩
  | setSurfs l =>
    refine .inl ⟨_, rfl, ?_, fun h => by cases h⟩
    exact
    { surfs := by
        refine ⟨rfl, fun i hi => ?_⟩
        have hi : i < l.length := by simpa using hi
        exact ⟨l[i], by simp [hi]⟩
      surfs_len := by
        have hl : l.length ≤ 2147483644 := hl
        simpa using hl
      mboz := hi.mboz
      nboz := hi.nboz
      loaded := fun hl => by
        obtain ⟨f, z, flux, hv, hw, hf⟩ := hi.loaded hl
        exact ⟨f, z, flux, hv, hw.assign _ _ _ _, hf⟩
      results := fun hr => by cases hr
      own := hi.own }
  | run =>
    obtain ⟨s', d, e, es, hrd, hnsb, h1, h2, h3⟩ := run_step hi hl
    refine .inl ⟨_, e, ?_, fun _ => h3⟩
    have ei : s'.inp = w.obj.inp := by rw [es]; rfl
    have ef : s'.flux = w.obj.flux := by rw [es]; rfl
    exact
    { surfs := by show s'.inp.compute_surfs.Full s'.inp.compute_surfs.size; rw [ei]; exact hi.surfs
      surfs_len := by show s'.inp.compute_surfs.size ≤ _; rw [ei]; exact hi.surfs_len
      mboz := by show 1 ≤ s'.inp.mboz; rw [ei]; exact hi.mboz
      nboz := by show 0 ≤ s'.inp.nboz; rw [ei]; exact hi.nboz
      loaded := fun hl => by
        obtain ⟨f, z, flux, hv, hw, hf⟩ := hi.loaded hl
        exact ⟨f, z, flux, hv, hw.congr ei, hf.congr ef⟩
      results := fun _ => ⟨_, _, _, _, h1, h2⟩
      own := hi.own }
  | write env version path =>
    obtain ⟨hr, hv⟩ := hl
    obtain ⟨K, nb, ns, asym, h1, h2⟩ := hi.results hr
    have ho := write_obj env version path w.disk w.obj
    have hd := write_disk env version path w.disk w.obj
    rcases write_total (env := env) (filename := path) (disk := w.disk) h1 hv with
      ⟨v, e⟩ | ⟨hf, m, v, e⟩
    · rw [e] at ho
      have hi' := written_inv hi ho
      obtain ⟨r1, -⟩ := write_result h1 hv e
      refine .inl ⟨⟨v.core.mem.obj, v.core.disk⟩, ?_, ?_, fun h => by cases h⟩
      · show Sess.write _ _ _ w = _
        unfold Sess.write
        rw [e]
      · exact
        { surfs := hi'.surfs
          surfs_len := hi'.surfs_len
          mboz := hi'.mboz
          nboz := hi'.nboz
          loaded := hi'.loaded
          results := hi'.results
          own := fun p hp => by
            show ∃ f, v.core.disk p = _ ∧ _
            rw [r1]
            have hp : (if p = path then true else h.own p) = true := hp
            by_cases hpp : p = path
            · subst hpp
              exact ⟨_, put_same .., w.obj, K, nb, ns, asym, version, h1, h2, hi.mboz, hi.nboz, hi.surfs,
                layout_ok h1⟩
            · rw [if_neg hpp] at hp
              rw [put_other _ _ hpp]
              exact hi.own p hp }
    · rw [e] at ho hd
      have hi' := written_inv hi ho
      refine .inr ⟨m, ⟨v.core.mem.obj, v.core.disk⟩, ?_, ?_, .write hf⟩
      · show Sess.write _ _ _ w = _
        unfold Sess.write
        rw [e]
      · exact
        { surfs := hi'.surfs
          surfs_len := hi'.surfs_len
          mboz := hi'.mboz
          nboz := hi'.nboz
          loaded := hi'.loaded
          results := hi'.results
          own := fun p hp => by
            show ∃ f, v.core.disk p = _ ∧ _
            have hp : (if p = path then false else h.own p) = true := hp
            by_cases hpp : p = path
            · rw [if_pos hpp] at hp; cases hp
            · rw [if_neg hpp] at hp
              have : v.core.disk p = w.disk p := by
                rcases hd with ⟨hd, -⟩ | ⟨hd, -⟩
                · rw [hd]
                · rw [hd, put_other _ _ hpp]
              rw [this]
              exact hi.own p hp }
  | readBoozmn path =>
    obtain ⟨f, hd, s, K, nb, ns, asym, version, h1, h2, h3, h4, h5, h6⟩ := hi.own path hl
    obtain ⟨t', e, hb, -⟩ := read_layout hneg h1 h6 hd h2.2 w.obj
    refine .inl ⟨{ w with obj := t' }, ?_, ?_, fun h => by cases h⟩
    · show Sess.on _ w = _
      unfold Sess.on
      rw [e]
    · exact
      { surfs := by show t'.inp.compute_surfs.Full t'.inp.compute_surfs.size; rw [hb.compute_surfs]; exact h5
        surfs_len := by
          show t'.inp.compute_surfs.size ≤ _
          rw [hb.compute_surfs, h1.surfs_size]
          exact h1.nc_fit
        mboz := by show 1 ≤ t'.inp.mboz; rw [hb.mboz]; exact h3
        nboz := by show 0 ≤ t'.inp.nboz; rw [hb.nboz]; exact h4
        loaded := fun hr => by cases hr
        results := fun _ => ⟨K, nb, ns, asym, readBack_hasResults h1 hb, readBack_fluxFine h2 hb⟩
        own := hi.own }

/-- The invariant holds throughout. -/
theorem reach_inv (hneg : ∀ x : α, - - x = x) {disk : Disk α} {h : History} {w : Sess α}
    (hr : Reach disk h w) : SInv h w := by
  induction hr with
  | start => exact sinv_start disk
  | ok hr hl hp ih =>
    rcases step_inv hneg ih hl with ⟨w', e, hi, -⟩ | ⟨m, w', e, -⟩
    · rw [hp] at e; cases e; exact hi
    · rw [hp] at e; cases e
  | exc hr hl hp ih =>
    rcases step_inv hneg ih hl with ⟨w', e, -⟩ | ⟨m, w', e, hi, -⟩
    · rw [hp] at e; cases e
    · rw [hp] at e; cases e; exact hi

end Booz
