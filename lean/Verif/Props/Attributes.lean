import Verif.Props.Boozmn
import Verif.Props.Load
import Verif.Props.Surfaces
import Verif.Lemmas.RunExact
import Verif.Lemmas.Attributes

/-!
# C84, C85: the input attributes

* C84: the attributes documented as passed on or as not needed (`aspect`, `toroidal_flux`, `s_in`,
  the flux profiles).
* C85: an object filled by assigning attributes.
-/

namespace Booz
open Spec
variable {α : Type} [Arith α]

/-! ### C84 -/

/-- Well-formed inputs stay well-formed when attributes that are not used change. -/
theorem unused_ready {I : Inputs α} {d : Dims} (h : RunReady I d) (v : Int) (a t : Option α) {g : Vec α}
    (hg : g.Full d.ns) :
    RunReady { I with verbose := v, aspect := a, toroidal_flux := t, s_in := g } d :=
  ⟨⟨h.asym, h.nfp, h.nfp_pos, h.mpol, h.mpol_ge, h.ntor, h.mnmax, h.mpol_nyq, h.mpol_nyq_ge,
      h.ntor_nyq, h.mnmax_nyq, h.mnmax_nyq_ge, h.ns_in, h.mboz, h.mboz_ge, h.nboz, h.xm, h.xm_range,
      h.xn, h.xn_range, h.xn_int, h.xm_nyq, h.xm_nyq_range, h.xn_nyq, h.xn_nyq_range, h.xn_nyq_int,
      hg, h.iota, h.rmnc, h.zmns, h.lmns, h.bmnc, h.bsubumnc, h.bsubvmnc, h.rmns, h.zmnc, h.lmnc,
      h.bmns, h.bsubumns, h.bsubvmns, h.surfs, h.surfs_range, h.fit_ntor, h.fit_mq, h.fit_nq, h.fit_mpol⟩,
    h.fit_theta, h.fit_zeta, h.fit_pts, h.fit_nfp⟩

/-- The closed forms look at none of them, except `s_b` at `s_in`. -/
theorem unused_out (s : St α) (d : Dims) (v : Int) (a t : Option α) (f : Flux α) (g : Vec α) :
    let s₂ : St α := { s with
      flux := f, inp := { s.inp with verbose := v, aspect := a, toroidal_flux := t, s_in := g } }
    (runSt d s₂ d.nsb).out = { (runSt d s d.nsb).out with s_b := (runSt d s₂ d.nsb).out.s_b } ∧
    (s.inp.s_in = g → (runSt d s₂ d.nsb).out = (runSt d s d.nsb).out) ∧
    (s.inp.verbose = v → runReports s₂.inp d d.nsb = runReports s.inp d d.nsb) := by
  intro s₂
  have hd : DimAgree d d := ⟨rfl, rfl, rfl, rfl, rfl, rfl⟩
  have hv : ∀ j, ValAgree d s₂.inp s.inp j j := fun j =>
    ⟨rfl, rfl, rfl, rfl, rfl, fun _ _ => rfl, fun _ _ => rfl, fun _ _ => rfl, fun _ _ => rfl,
      fun _ _ => rfl, fun _ _ => rfl, fun _ _ _ => rfl, fun _ _ _ => rfl, fun _ _ _ => rfl,
      fun _ _ _ => rfl, fun _ _ _ => rfl, fun _ _ _ => rfl⟩
  have hs : specTab d (outF s₂.inp d d.nsb) s.out.spec = specTab d (outF s.inp d d.nsb) s.out.spec := by
    have key := fun (k : Nat) (_ : k < d.nmodes) (b : Nat) (hb : b < d.nsb) =>
      outF_congr (I₁ := s₂.inp) (I₂ := s.inp) hd (b₁ := b) (b₂ := b) (hv (surf s.inp b)) hb hb k
    exact specTab_congr (fun k hk b hb => (key k hk b hb).1) (fun k hk b hb => (key k hk b hb).2.1)
      (fun k hk b hb => (key k hk b hb).2.2.1) (fun k hk b hb => (key k hk b hb).2.2.2.1)
      (fun k hk b hb => (key k hk b hb).2.2.2.2.1) (fun k hk b hb => (key k hk b hb).2.2.2.2.2.1)
      (fun k hk b hb => (key k hk b hb).2.2.2.2.2.2.1)
      (fun k hk b hb => (key k hk b hb).2.2.2.2.2.2.2.1)
      (fun k hk b hb => (key k hk b hb).2.2.2.2.2.2.2.2.1)
      (fun k hk b hb => (key k hk b hb).2.2.2.2.2.2.2.2.2)
  have hG : ∀ j, curG s₂.inp d j = curG s.inp d j := fun j => curG_congr hd (hv j)
  have hI : ∀ j, curI s₂.inp d j = curI s.inp d j := fun j => curI_congr hd (hv j)
  have e : (runSt d s₂ d.nsb).out = { (runSt d s d.nsb).out with s_b := (runSt d s₂ d.nsb).out.s_b } := by
    show Outputs.mk _ _ _ _ _ _ _ _ _ _ = Outputs.mk _ _ _ _ _ _ _ _ _ _
    rw [Outputs.mk.injEq]
    refine ⟨rfl, rfl, rfl, rfl, rfl, hs, ?_, rfl, ?_, rfl⟩
    · show (Vec.tab d.nsb fun b => if b < d.nsb then curG s₂.inp d (surf s.inp b) else ofInt 0) = _
      simp only [hG]
      rfl
    · show (Vec.tab d.nsb fun b => if b < d.nsb then curI s₂.inp d (surf s.inp b) else ofInt 0) = _
      simp only [hI]
      rfl
  refine ⟨e, fun hg => ?_, fun hv' => ?_⟩
  · rw [e]
    subst hg
    rfl
  · subst hv'
    unfold runReports
    show (if s.inp.verbose > 0 then _ else _) = _
    split
    · apply List.map_congr_left
      intro b hb
      obtain ⟨k1, k2, k3⟩ := runReport_congr (I₁ := s₂.inp) (I₂ := s.inp) hd (b₁ := b) (b₂ := b)
        (hv (surf s.inp b)) (List.mem_range.mp hb) (List.mem_range.mp hb)
      show Report.mk _ _ _ _ _ = Report.mk _ _ _ _ _
      rw [Report.mk.injEq]
      exact ⟨rfl, rfl, k1, k2, k3⟩
    · rfl

/-- **C84, results.**  `aspect`, `toroidal_flux` (set or not) and the flux profiles have no influence
on the results and the report, and `s_in` only on `s_b`. -/
theorem C84_results {s : St α} {d : Dims} (h : RunReady s.inp d) (a t : Option α) (f : Flux α) {g : Vec α}
    (hg : g.Full d.ns) :
    ∃ s₁ s₂ r, run false s = .ok (s₁, r) ∧
      run false { s with flux := f, inp := { s.inp with aspect := a, toroidal_flux := t, s_in := g } } =
        .ok (s₂, r) ∧
      s₂.out = { s₁.out with s_b := s₂.out.s_b } ∧ (g = s.inp.s_in → s₂.out = s₁.out) := by
  obtain ⟨k1, k2, k3⟩ := unused_out s d s.inp.verbose a t f g
  refine ⟨_, _, _, run_ok h (by simp) (by simp), ?_, k1, fun hg => k2 hg.symm⟩
  rw [← k3 rfl]
  exact run_ok (dbg := false)
    (s := { s with flux := f, inp := { s.inp with aspect := a, toroidal_flux := t, s_in := g } })
    (unused_ready h s.inp.verbose a t hg) (by simp) (by simp)

/-- `toroidal_flux` was never set, and there are other profiles. -/
example (asym : Bool) : ∃ s₁ s₂ r, run false (Ex.stF (α := α) asym true) = .ok (s₁, r) ∧
    run false { Ex.stF (α := α) asym true with
      flux := Ex.flux false
      inp := { (Ex.stF (α := α) asym true).inp with aspect := some (ofInt 7), toroidal_flux := none } } = .ok (s₂, r) ∧
    s₂.out = s₁.out := by
  obtain ⟨s₁, s₂, r, h1, h2, -, h3⟩ := C84_results (s := Ex.stF (α := α) asym true) (Ex.readyH asym)
    (some (ofInt 7)) none (Ex.flux false) (Ex.readyH asym).s_in
  exact ⟨s₁, s₂, r, h1, h2, h3 rfl⟩

/-- **C84 is false** of the code for `s_in`, which is documented as "not needed for the coordinate
transformation itself": whenever a selected surface is not an index of `s_in`, the call has undefined
behaviour.  For every object. -/
theorem C84_s_in {s : St α} {k : Nat} {js : Int} (hk : s.inp.compute_surfs[k]? = some (some js))
    (hs : s.inp.s_in.size ≤ js.toNat) : ∃ w, run false s = ub w := by
  refine run_ub_of_not_ok fun r hr => ?_
  obtain ⟨s3, hi, -⟩ := run_inv hr
  obtain ⟨s1, s2, h1, h2, h3⟩ := init_inv hi
  have e : s2.inp = s.inp := (initTables_inp s1 s2 h2).trans (initGrid_inp false s s1 h1)
  have hk' : k < s.inp.compute_surfs.size := (Array.getElem?_eq_some_iff.mp hk).1
  have := initOutputs_surfs h3 (k := k) (js := js) (by rw [e]; exact hk')
    (by rw [e]; unfold Vec.rdN; rw [hk])
  rw [e] at this
  omega

/-- **C84 is false** of the code: `s_in` left at its default, everything else as required. -/
theorem C84_s_in_false (asym : Bool) : (∃ r, run false (Ex.stF (α := α) asym true) = .ok r) ∧
    (construct (α := α)).inp.s_in = #[] ∧
    ∃ w, run false { Ex.stF (α := α) asym true with
      inp := { (Ex.stF (α := α) asym true).inp with s_in := #[] } } = ub w :=
  ⟨⟨_, run_ok (Ex.readyH asym) (by simp) (by simp)⟩, rfl,
    C84_s_in (k := 0) (js := 1) rfl (by simp)⟩

/-- **C84, file.**  The value of `aspect` is in the file; the value of `toroidal_flux` is not: the
file is the same whatever has been assigned to it. -/
theorem C84_file {s : St α} {K nb ns : Nat} {asym : Bool} (h : HasResults s K nb nb ns asym)
    {version filename : String} (hv : VersionOk version) {env₁ env₂ : Env} {disk : Disk α} {w₁ w₂ : WSt α}
    (t : Option α) (hw₁ : writeBoozmn env₁ version filename disk s = .ok () w₁)
    (hw₂ : writeBoozmn env₂ version filename disk { s with inp := { s.inp with toroidal_flux := t } } = .ok () w₂) :
    w₁.core.disk = w₂.core.disk ∧
      ∃ f, w₁.core.disk filename = .nc f ∧ HoldsDbl f "aspect_b" s.inp.aspect := by
  obtain ⟨e1, -⟩ := write_result h hv hw₁
  have h2 : HasResults { s with inp := { s.inp with toroidal_flux := t } } K nb nb ns asym :=
    ⟨h.1, h.2, h.3, h.4, h.5, h.6, h.7, h.8, h.9, h.10, h.11, h.12, h.13, h.14, h.15, h.16, h.17, h.18, h.19, h.20,
      h.21, h.22, h.23, h.24⟩
  obtain ⟨e2, -⟩ := write_result h2 hv hw₂
  obtain ⟨f, hf, hl⟩ := C34_layout h hv hw₁
  refine ⟨?_, f, hf, hl.aspect_b⟩
  rw [e1, e2]
  have : bzFile version K nb ns asym { s with inp := { s.inp with toroidal_flux := t } } =
      bzFile version K nb ns asym s := by
    unfold bzFile writtenObj
    dsimp only
    cases decide (s.flux.phip.size ≠ 0) <;> cases asym <;> rfl
  rw [this]

example (asym fl : Bool) : ∃ w₁ w₂, writeBoozmn Ex.calm "0.0.1" "boozmn.nc" Ex.disk0
      (Ex.done (α := α) asym fl) = .ok () w₁ ∧
    writeBoozmn Ex.calm "0.0.1" "boozmn.nc" Ex.disk0 { Ex.done (α := α) asym fl with
      inp := { (Ex.done (α := α) asym fl).inp with toroidal_flux := some (ofInt 5) } } = .ok () w₂ := by
  have h := Ex.done_results (α := α) asym fl
  have h2 : HasResults { Ex.done (α := α) asym fl with
      inp := { (Ex.done (α := α) asym fl).inp with toroidal_flux := some (ofInt 5) } } 5 2 2 2 asym :=
    ⟨h.1, h.2, h.3, h.4, h.5, h.6, h.7, h.8, h.9, h.10, h.11, h.12, h.13, h.14, h.15, h.16, h.17, h.18, h.19, h.20,
      h.21, h.22, h.23, h.24⟩
  obtain ⟨w₁, hw₁⟩ := Ex.done_written (α := α) asym fl
  rcases C34_total (env := Ex.calm) (filename := "boozmn.nc") (disk := Ex.disk0) h2 Ex.version with
    ⟨w₂, hw₂⟩ | ⟨⟨k, m, e⟩, _⟩
  · exact ⟨w₁, w₂, hw₁, hw₂⟩
  · rw [Ex.noFailure k] at e; cases e

/-- **C84 is false** of the code for `toroidal_flux`, which is documented as "a means to pass this
value from the input equilibrium to booz_xform output files": an object with `toroidal_flux = 1` is
written, and the object that reads the file has `toroidal_flux = 0`. -/
theorem C84_flux_false (hneg : ∀ x : α, - - x = x) (h01 : (ofInt 1 : α) ≠ ofInt 0) (asym : Bool) :
    ∃ (s t : St α) (w : WSt α), s.inp.toroidal_flux = some (ofInt 1) ∧
      writeBoozmn Ex.calm "0.0.1" "boozmn.nc" Ex.disk0 s = .ok () w ∧
      readBoozmn w.core.disk "boozmn.nc" construct = .ok () t ∧
      t.inp.toroidal_flux = some (ofInt 0) ∧ t.inp.toroidal_flux ≠ s.inp.toroidal_flux := by
  obtain ⟨w, t, hw, ht, hb, -, -⟩ := Ex.readAgain hneg asym false (construct (α := α))
  have e := (hb.no_flux rfl).2
  refine ⟨_, t, w, rfl, hw, ht, e, ?_⟩
  rw [e]
  intro e'
  exact h01 (Option.some.inj e').symm

/-- **C84, what holds of `toroidal_flux`**: it survives when flux profiles are present and `phi` ends
with it.  Missing: the value itself is never written (`C84_file`), so other values are lost
(`C84_flux_false`). -/
theorem C84_partial (hneg : ∀ x : α, - - x = x) {s t : St α} {K nb ns : Nat} {asym : Bool}
    (h : HasResults s K nb nb ns asym) {version filename : String} (hv : VersionOk version) {env : Env}
    {disk : Disk α} {w : WSt α} (hw : writeBoozmn env version filename disk s = .ok () w) {x : α}
    (hp : s.flux.phip.size ≠ 0) (hx : s.flux.phi[ns]? = some (some x)) (ht : s.inp.toroidal_flux = some x) :
    ∃ t', readBoozmn w.core.disk filename t = .ok () t' ∧ t'.inp.toroidal_flux = s.inp.toroidal_flux := by
  obtain ⟨t', h1, h2, -⟩ := C33_roundtrip hneg h hv hw (fun _ => ⟨x, hx⟩) t
  refine ⟨t', h1, ?_⟩
  obtain ⟨-, y, hy, e⟩ := h2.flux hp
  rw [hx] at hy
  rw [e, ht, Option.some.inj (Option.some.inj hy)]

/-- The example with the flux at the edge. -/
example (asym : Bool) :
    let s : St α := { Ex.done asym true with
      inp := { (Ex.done (α := α) asym true).inp with toroidal_flux := some (ofInt 6) } }
    HasResults s 5 2 2 2 asym ∧ (∃ w, writeBoozmn Ex.calm "0.0.1" "boozmn.nc" Ex.disk0 s = .ok () w) ∧
      s.flux.phip.size ≠ 0 ∧ s.flux.phi[2]? = some (some (ofInt 6)) ∧ s.inp.toroidal_flux = some (ofInt 6) := by
  intro s
  have h := Ex.done_results (α := α) asym true
  have h2 : HasResults s 5 2 2 2 asym :=
    ⟨h.1, h.2, h.3, h.4, h.5, h.6, h.7, h.8, h.9, h.10, h.11, h.12, h.13, h.14, h.15, h.16, h.17, h.18, h.19, h.20,
      h.21, h.22, h.23, h.24⟩
  refine ⟨h2, ?_, (by decide : (3 : Nat) ≠ 0), rfl, rfl⟩
  rcases C34_total (env := Ex.calm) (filename := "boozmn.nc") (disk := Ex.disk0) h2 Ex.version with
    hw | ⟨⟨k, m, e⟩, _⟩
  · exact hw
  · rw [Ex.noFailure k] at e; cases e

/-- **C84, after loading.**  What `init_from_vmec` leaves with flux profiles given is such an object. -/
theorem C84_loaded {ns : Int} {A : VmecArgs α} {s s' : St α} {z : Sizes} {u : Unit}
    (hg : Given A s.inp z) (h : initFromVmec ns A s = .ok u s') (hp : A.phip.size ≠ 0) (hns : 2 ≤ ns) :
    s'.flux.phip.size ≠ 0 ∧
      ∃ x, s'.flux.phi[(ns - 1).toNat]? = some (some x) ∧ s'.inp.toroidal_flux = some x := by
  obtain ⟨-, -, -, -, -, hf, -⟩ := C13_defaults hg h
  obtain ⟨e1, -, -, ⟨t, ht, e2⟩, e3, -⟩ := hf hp
  refine ⟨by intro e; rw [e] at e3; omega, t, ?_, e2⟩
  rw [e1]
  unfold Vec.rd at ht
  rw [if_pos (by omega)] at ht
  unfold Vec.rdN at ht
  split at ht
  · next x hx => cases ht; exact hx
  · cases ht
  · cases ht

/-- The loaded example has flux profiles. -/
example (asym : Bool) : ∃ s', initFromVmec 4 (Ex.vmec (α := α)) (Ex.vst asym) = .ok () s' ∧
    s'.flux.phip.size ≠ 0 ∧ ∃ x, s'.flux.phi[3]? = some (some x) ∧ s'.inp.toroidal_flux = some x := by
  obtain ⟨s', h⟩ := Ex.loads (α := α) asym
  exact ⟨s', h, C84_loaded (Ex.given asym) h (by show (Vec.tab 4 _).size ≠ 0; rw [Vec.size_tab]; decide) (by decide)⟩

/-! ### C85 -/

/-- The attributes needed for a run, and for the same file. -/
def Spec.Needed (asym : Bool) (n : InName) : Prop := ¬ n.Optional asym

omit [Arith α] in
/-- Objects that agree on the needed attributes have the same inputs up to optional ones. -/
theorem same_inputs {a b : St α} {asym : Bool} (h : ∀ n, Needed asym n → SameAt a b n) :
    b.inp = { a.inp with
      verbose := b.inp.verbose, aspect := b.inp.aspect, toroidal_flux := b.inp.toroidal_flux
      rmns := b.inp.rmns, zmnc := b.inp.zmnc, lmnc := b.inp.lmnc, bmns := b.inp.bmns
      bsubumns := b.inp.bsubumns, bsubvmns := b.inp.bsubvmns } ∧
    (asym = true → b.inp = { a.inp with
      verbose := b.inp.verbose, aspect := b.inp.aspect, toroidal_flux := b.inp.toroidal_flux }) := by
  have k : ∀ n, ¬ n.Optional asym → SameAt a b n := h
  have h1 := k .asym id
  have h2 := k .nfp id
  have h3 := k .mpol id
  have h4 := k .ntor id
  have h5 := k .mnmax id
  have h6 := k .mpol_nyq id
  have h7 := k .ntor_nyq id
  have h8 := k .mnmax_nyq id
  have h9 := k .xm id
  have h10 := k .xn id
  have h11 := k .xm_nyq id
  have h12 := k .xn_nyq id
  have h13 := k .ns_in id
  have h14 := k .s_in id
  have h15 := k .iota id
  have h16 := k .rmnc id
  have h17 := k .zmns id
  have h18 := k .lmns id
  have h19 := k .bmnc id
  have h20 := k .bsubumnc id
  have h21 := k .bsubvmnc id
  have h22 := k .mboz id
  have h23 := k .nboz id
  have h24 := k .compute_surfs id
  simp only [SameAt] at h1 h2 h3 h4 h5 h6 h7 h8 h9 h10 h11 h12 h13 h14 h15 h16 h17 h18 h19 h20 h21 h22 h23 h24
  constructor
  · dsimp only
    rw [h1, h2, h3, h4, h5, h6, h7, h8, h9, h10, h11, h12, h13, h14, h15, h16, h17, h18, h19, h20, h21, h22, h23, h24]
  · intro ha
    have hn : ¬ asym = false := by rw [ha]; decide
    have g1 := k .rmns hn
    have g2 := k .zmnc hn
    have g3 := k .lmnc hn
    have g4 := k .bmns hn
    have g5 := k .bsubumns hn
    have g6 := k .bsubvmns hn
    simp only [SameAt] at g1 g2 g3 g4 g5 g6
    dsimp only
    rw [h1, h2, h3, h4, h5, h6, h7, h8, h9, h10, h11, h12, h13, h14, h15, h16, h17, h18, h19, h20, h21, h22, h23, h24,
      g1, g2, g3, g4, g5, g6]

/-- Objects that agree on the needed attributes: both runs return, with the same outputs, and the same
report if `verbose` agrees too. -/
theorem same_runs {a b : St α} {d : Dims} (hd : RunReady a.inp d)
    (h : ∀ n, Needed d.asym n → SameAt a b n) :
    RunReady b.inp d ∧ ∃ a' b' ra rb, run false a = .ok (a', ra) ∧ run false b = .ok (b', rb) ∧
      SameOutputs d.asym a'.out b'.out ∧ (a.inp.verbose = b.inp.verbose → ra = rb) := by
  obtain ⟨e1, e2⟩ := same_inputs h
  obtain ⟨-, u2, u3⟩ := unused_out a d b.inp.verbose b.inp.aspect b.inp.toroidal_flux a.flux a.inp.s_in
  -- the object with the optional scalars of `b`
  have hr1 := unused_ready hd b.inp.verbose b.inp.aspect b.inp.toroidal_flux hd.s_in
  have hb : RunReady b.inp d := by
    cases ha : d.asym with
    | true => rw [e2 ha]; exact hr1
    | false =>
      rw [e1]
      have no : ∀ {p : Prop}, d.asym = true → p := fun h => by rw [ha] at h; cases h
      exact { hr1 with
        rmns := no, zmnc := no, lmnc := no, bmns := no, bsubumns := no, bsubvmns := no }
  have r1 : run false a = _ := run_ok hd (by simp) (by simp)
  have rb : run false b = _ := run_ok hb (by simp) (by simp)
  have ra1 : run false { a with inp := { a.inp with
      verbose := b.inp.verbose, aspect := b.inp.aspect, toroidal_flux := b.inp.toroidal_flux } } = _ :=
    run_ok (d := d) hr1 (by simp) (by simp)
  refine ⟨hb, _, _, _, _, r1, rb, ?_⟩
  have fin : ∃ s r, run false { a with inp := b.inp } = .ok (s, r) ∧ s.out = (runSt d a d.nsb).out ∧
      (a.inp.verbose = b.inp.verbose → r = runReports a.inp d d.nsb) := by
    cases ha : d.asym with
    | true =>
      have : run false { a with inp := b.inp } = run false { a with inp := { a.inp with
        verbose := b.inp.verbose, aspect := b.inp.aspect, toroidal_flux := b.inp.toroidal_flux } } :=
        congrArg (fun I => run false { a with inp := I }) (e2 ha)
      rw [this, ra1]
      exact ⟨_, _, rfl, u2 rfl, u3⟩
    | false =>
      have h0 : a.inp.asym = some false := by rw [hd.asym, ha]
      have := C23_run (dbg := false) (s := { a with inp := { a.inp with
        verbose := b.inp.verbose, aspect := b.inp.aspect, toroidal_flux := b.inp.toroidal_flux } }) h0
        b.inp.rmns b.inp.zmnc b.inp.lmnc b.inp.bmns b.inp.bsubumns b.inp.bsubvmns
      rw [ra1] at this
      have e : run false { a with inp := b.inp } = _ :=
        (congrArg (fun I => run false { a with inp := I }) e1).trans this
      rw [e]
      exact ⟨_, _, rfl, u2 rfl, u3⟩
  obtain ⟨s, r, hs, ho, hrep⟩ := fin
  obtain ⟨k1, k2⟩ := C27_history_free (s₁ := { a with inp := b.inp }) (s₂ := b) hb rfl hs rb
  rw [← ho]
  exact ⟨k1, fun hv => (hrep hv).symm.trans k2⟩

/-- **C85.**  Let `a` be an object that is ready to run, loaded or filled in whatever way, and let a
program give another object `b`, of any history, the values of `a`'s attributes: in any order, some
perhaps several times, leaving out only attributes documented as not used.  Then all assignments
succeed, `b.run()` returns like `a.run()`, with the same outputs; and with the same report if
`verbose` is among the attributes copied. -/
theorem C85_copy {a : St α} {d : Dims} (hd : RunReady a.inp d) {l : List (Setting α)}
    (hl : CopiesFrom a (Needed d.asym) l) (b : St α) :
    ∃ b' a'' b'' ra rb, setAll l b = .ok () b' ∧ run false a = .ok (a'', ra) ∧
      run false b' = .ok (b'', rb) ∧ SameOutputs d.asym a''.out b''.out ∧
      ((∃ x ∈ l, nameOf x = .verbose) → ra = rb) := by
  obtain ⟨b', e, hs, -, -⟩ := copied_ok hl b
  obtain ⟨-, a'', b'', ra, rb, h1, h2, h3, h4⟩ := same_runs hd hs
  refine ⟨b', a'', b'', ra, rb, e, h1, h2, h3, ?_⟩
  rintro ⟨x, hx, hn⟩
  obtain ⟨b2, e2, s2, -⟩ := setAll_ok hl.values b
  rw [e] at e2
  cases e2
  have := s2 x hx
  rw [hn] at this
  exact h4 this

/-- Also needed for the file. -/
def Spec.NeededForFile (asym : Bool) (n : InName) : Prop :=
  Needed asym n ∨ n = .aspect ∨ n = .phi ∨ n = .chi ∨ n = .phip ∨ n = .pres

/-- The file depends on the attributes and outputs that are written only. -/
theorem bzFile_congr {s t : St α} (version : String) (K nb ns : Nat) (asym : Bool) (h1 : s.flux = t.flux)
    (h2 : s.inp.nfp = t.inp.nfp) (h3 : s.inp.mboz = t.inp.mboz) (h4 : s.inp.nboz = t.inp.nboz)
    (h5 : s.inp.aspect = t.inp.aspect) (h6 : s.inp.compute_surfs = t.inp.compute_surfs)
    (h7 : s.inp.iota = t.inp.iota) (ho : SameOutputs asym s.out t.out) :
    bzFile version K nb ns asym s = bzFile version K nb ns asym t := by
  obtain ⟨i, f, g, o⟩ := s
  obtain ⟨i', f', g', o'⟩ := t
  obtain ⟨o1, o2, o3, o4, o5, p, o6, o7, o8, o9⟩ := o
  obtain ⟨o1', o2', o3', o4', o5', p', o6', o7', o8', o9'⟩ := o'
  obtain ⟨rfl, rfl, rfl, rfl, rfl, rfl, rfl, rfl, rfl, hp1, hp2, hp3, hp4, hp5, hp⟩ := ho
  dsimp only at h1 h2 h3 h4 h5 h6 h7 hp1 hp2 hp3 hp4 hp5 hp
  subst h1
  unfold bzFile
  dsimp only
  generalize decide (f.phip.size ≠ 0) = fl
  cases asym with
  | true =>
    obtain rfl := hp rfl
    cases fl <;>
      simp [bzDefs, headDefs, scalarDefs, zeroDefs, listDefs, profileDefs, betaDefs, fluxDefs, dummyDefs, matDefs1, matDefs2,
        asymDefs1, asymDefs2, VarDef.toVar, writtenObj, bzLoc, h2, h3, h4, h5, h6, h7, intVar, dblVar, ivecVar, vecVar, matVar, versionDef]
  | false =>
    cases fl <;>
      simp [bzDefs, headDefs, scalarDefs, zeroDefs, listDefs, profileDefs, betaDefs, fluxDefs, dummyDefs, matDefs1, matDefs2,
        VarDef.toVar, writtenObj, bzLoc, h2, h3, h4, h5, h6, h7, hp1, hp2, hp3, hp4, hp5, intVar, dblVar, ivecVar, vecVar, matVar, versionDef]

/-- **C85, file.**  If the program copies `aspect` and the flux profiles too, the two objects write the
same file. -/
theorem C85_file {a : St α} {d : Dims} (hd : RunReady a.inp d) (hK : 1 ≤ d.nsb) (hb : d.nsb ≤ 2147483644)
    (hn : d.ns + 1 ≤ 2147483644) (hF : FluxOk a.flux d.ns) {l : List (Setting α)}
    (hl : CopiesFrom a (NeededForFile d.asym) l) (b : St α) {version filename : String}
    (hv : VersionOk version) {env : Env} (he : NoFailure env) (disk : Disk α) :
    ∃ b' a'' b'' ra rb wa wb, setAll l b = .ok () b' ∧ run false a = .ok (a'', ra) ∧
      run false b' = .ok (b'', rb) ∧ writeBoozmn env version filename disk a'' = .ok () wa ∧
      writeBoozmn env version filename disk b'' = .ok () wb ∧ wa.core.disk = wb.core.disk := by
  obtain ⟨b', e, hs, -, -⟩ := copied_ok hl b
  obtain ⟨hr, a'', b'', ra, rb, h1, h2, h3, -⟩ := same_runs hd fun n hn => hs n (.inl hn)
  have hf : a.flux = b'.flux := by
    have f1 := hs .phi (.inr (.inr (.inl rfl)))
    have f2 := hs .chi (.inr (.inr (.inr (.inl rfl))))
    have f3 := hs .phip (.inr (.inr (.inr (.inr (.inl rfl)))))
    have f4 := hs .pres (.inr (.inr (.inr (.inr (.inr rfl)))))
    simp only [SameAt] at f1 f2 f3 f4
    show Flux.mk _ _ _ _ = Flux.mk _ _ _ _
    rw [f1, f2, f3, f4]
  have g1 : a.inp.aspect = b'.inp.aspect := (hs .aspect (.inr (.inl rfl)))
  have g2 : a.inp.nfp = b'.inp.nfp := (hs .nfp (.inl id))
  have g3 : a.inp.mboz = b'.inp.mboz := (hs .mboz (.inl id))
  have g4 : a.inp.nboz = b'.inp.nboz := (hs .nboz (.inl id))
  have g5 : a.inp.compute_surfs = b'.inp.compute_surfs := (hs .compute_surfs (.inl id))
  have g6 : a.inp.iota = b'.inp.iota := (hs .iota (.inl id))
  have ra' : run false a = _ := run_ok hd (by simp) (by simp)
  have rb' : run false b' = _ := run_ok hr (by simp) (by simp)
  rw [h1] at ra'
  rw [h2] at rb'
  cases ra'
  cases rb'
  have ha := run_hasResults hd hK hb hn hF
  have hb := run_hasResults (s := b') hr hK hb hn (by rw [← hf]; exact hF)
  have writes : ∀ {s : St α}, HasResults s d.nmodes d.nsb d.nsb d.ns d.asym →
      ∃ w, writeBoozmn env version filename disk s = .ok () w := by
    intro s h
    rcases C34_total (env := env) (filename := filename) (disk := disk) h hv with h | ⟨⟨k, m, e⟩, _⟩
    · exact h
    · rw [he k] at e; cases e
  obtain ⟨wa, hwa⟩ := writes ha
  obtain ⟨wb, hwb⟩ := writes hb
  refine ⟨b', _, _, _, _, wa, wb, e, h1, h2, hwa, hwb, ?_⟩
  rw [(write_result ha hv hwa).1, (write_result hb hv hwb).1]
  rw [bzFile_congr version d.nmodes d.nsb d.ns d.asym (s := runSt d a d.nsb) (t := runSt d b' d.nsb)
    hf g2 g3 g4 g1 g5 g6 h3]

/-- A program that fills an object with the data of the example: the surfaces first, the number of
harmonics assigned twice, and the two members nobody needs left out. -/
def Ex.program (asym : Bool) : List (Setting α) :=
  let I : Inputs α := Ex.inputsH asym
  let f : Flux α := Ex.flux true
  [.compute_surfs [1, 0], .mboz 2, .nboz 1, .mboz 2, .asym asym, .nfp 2, .mpol 2, .ntor 1, .mnmax 3,
    .mpol_nyq 2, .ntor_nyq 1, .mnmax_nyq 4, .xm [0, 0, 1], .xn [0, 2, -2], .xm_nyq [0, 0, 1, 2],
    .xn_nyq [0, 2, 0, -2], .ns_in 2, .s_in I.s_in, .iota I.iota, .rmnc I.rmnc, .zmns I.zmns, .lmns I.lmns,
    .bmnc I.bmnc, .bsubumnc I.bsubumnc, .bsubvmnc I.bsubvmnc, .aspect (ofInt 3), .phip f.phip, .phi f.phi,
    .chi f.chi, .pres f.pres] ++
  if asym then [.rmns I.rmns, .zmnc I.zmnc, .lmnc I.lmnc, .bmns I.bmns, .bsubumns I.bsubumns,
    .bsubvmns I.bsubvmns] else []

theorem Ex.program_copies (asym : Bool) :
    CopiesFrom (Ex.stF (α := α) asym true) (NeededForFile asym) (Ex.program asym) := by
  constructor
  · cases asym <;> simp only [Ex.program, List.forall_mem_append, List.forall_mem_cons, if_true, if_false,
      Bool.false_eq_true, List.not_mem_nil, false_imp_iff, implies_true, and_true] <;> and_intros
    all_goals first
      | rfl
      | decide
      | simp [FitsInt]
  · intro n hn
    refine List.mem_map.mp ?_
    cases asym <;> cases n <;> first
      | exact List.mem_of_elem_eq_true rfl
      | (rcases hn with hn | hn | hn | hn | hn | hn <;> first | cases hn | exact absurd trivial hn | exact absurd rfl hn)

/-- The program, run on an object that has just been constructed. -/
example (asym : Bool) : ∃ b' a'' b'' ra rb wa wb, setAll (Ex.program (α := α) asym) construct = .ok () b' ∧
    run false (Ex.stF (α := α) asym true) = .ok (a'', ra) ∧ run false b' = .ok (b'', rb) ∧
    writeBoozmn Ex.calm "0.0.1" "boozmn.nc" Ex.disk0 a'' = .ok () wa ∧
    writeBoozmn Ex.calm "0.0.1" "boozmn.nc" Ex.disk0 b'' = .ok () wb ∧ wa.core.disk = wb.core.disk :=
  C85_file (d := Ex.dims asym) (Ex.readyH asym) (by decide : 1 ≤ 2) (by decide : 2 ≤ 2147483644)
    (by decide : 2 + 1 ≤ 2147483644) (Ex.fluxOk true) (Ex.program_copies asym) construct Ex.version
    Ex.noFailure Ex.disk0

example (asym : Bool) (b : St α) : ∃ b' a'' b'' ra rb, setAll (Ex.program asym) b = .ok () b' ∧
    run false (Ex.stF (α := α) asym true) = .ok (a'', ra) ∧ run false b' = .ok (b'', rb) ∧
    SameOutputs asym a''.out b''.out ∧
    ((∃ x ∈ Ex.program (α := α) asym, nameOf x = .verbose) → ra = rb) :=
  C85_copy (a := Ex.stF asym true) (d := Ex.dims asym) (Ex.readyH asym)
    ⟨(Ex.program_copies asym).values, fun n hn => (Ex.program_copies asym).all n (.inl hn)⟩ b

end Booz
