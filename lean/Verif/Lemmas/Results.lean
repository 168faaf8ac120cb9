import Verif.Lemmas.RoundTrip
import Verif.Lemmas.WriteObj
import Verif.Lemmas.RunOk

/-!
# The result of `run` can be written
-/

namespace Booz
open Spec
variable {α : Type} [Arith α]

omit [Arith α] in
theorem nmodes_fit {I : Inputs α} {d : Dims} (h : RunReady I d) : 2 * d.nmodes < 2147483648 := by
  have hp := h.fit_pts
  have hM := h.mboz_ge
  refine Nat.lt_of_le_of_lt ?_ hp
  have h3 : 2 * d.M + 2 ≤ d.nu3 := by
    unfold Dims.nu3 Dims.nt Dims.nu2
    split <;> omega
  have hz : 2 * d.N + 1 ≤ d.nz := by
    unfold Dims.nz
    split <;> omega
  have hk : d.nmodes ≤ (2 * d.N + 1) * d.M := by
    unfold Dims.nmodes
    obtain ⟨m, hm⟩ : ∃ m, d.M = m + 1 := ⟨d.M - 1, by omega⟩
    rw [hm, Nat.add_sub_cancel, Nat.mul_succ]
    omega
  calc 2 * d.nmodes ≤ 2 * ((2 * d.N + 1) * d.M) := Nat.mul_le_mul_left _ hk
    _ = (2 * d.M) * (2 * d.N + 1) := by rw [Nat.mul_comm (2 * d.N + 1), ← Nat.mul_assoc]
    _ ≤ d.nu3 * d.nz := Nat.mul_le_mul (by omega) hz

omit [Arith α] in
theorem shape_tab (r c : Nat) (f : Nat → Nat → α) : HasShape (Mat.tab r c f) r c :=
  ⟨rfl, rfl, Vec.size_tab _ _⟩

theorem spec_shapes (d : Dims) (F : SpecF α) (o : Spectra α) :
    HasShape (specTab d F o).bmnc_b d.nmodes d.nsb ∧ HasShape (specTab d F o).rmnc_b d.nmodes d.nsb ∧
    HasShape (specTab d F o).zmns_b d.nmodes d.nsb ∧ HasShape (specTab d F o).numns_b d.nmodes d.nsb ∧
    HasShape (specTab d F o).gmnc_b d.nmodes d.nsb ∧
    (d.asym = true → HasShape (specTab d F o).bmns_b d.nmodes d.nsb ∧
      HasShape (specTab d F o).rmns_b d.nmodes d.nsb ∧ HasShape (specTab d F o).zmnc_b d.nmodes d.nsb ∧
      HasShape (specTab d F o).numnc_b d.nmodes d.nsb ∧
      HasShape (specTab d F o).gmns_b d.nmodes d.nsb) := by
  unfold specTab
  split
  · refine ⟨?_, ?_, ?_, ?_, ?_, fun _ => ⟨?_, ?_, ?_, ?_, ?_⟩⟩ <;> exact shape_tab _ _ _
  · next h => refine ⟨?_, ?_, ?_, ?_, ?_, fun h' => absurd h' h⟩ <;> exact shape_tab _ _ _

theorem neg_full {a : Mat α} {n : Nat} (hv : a.data.Full n) : a.neg.data.Full n := by
  refine ⟨by unfold Mat.neg; dsimp only; rw [Array.size_map]; exact hv.1, fun i hi => ?_⟩
  obtain ⟨y, hy⟩ := hv.2 i hi
  refine ⟨-y, ?_⟩
  unfold Mat.neg
  dsimp only
  rw [Array.getElem?_map, hy]
  rfl

/-- The results of `run`, and flux profiles without gaps, make a file without indeterminate values. -/
theorem run_allKnown {s : St α} {d : Dims} (h : RunReady s.inp d)
    (h1 : s.flux.phi.Full (d.ns + 1)) (h2 : s.flux.phip.Full (d.ns + 1))
    (h3 : s.flux.pres.Full (d.ns + 1)) :
    (valsOf (runSt d s d.nsb) d.nsb d.ns d.asym true).AllKnown d.nmodes d.nsb d.ns := by
  have key : ∀ g : Nat → Nat → α, (Mat.tab d.nmodes d.nsb g).data.Full (d.nmodes * d.nsb) :=
    fun g => Vec.full_tab _ _
  have hs : (specTab d (outF s.inp d d.nsb) s.out.spec).bmnc_b.data.Full (d.nmodes * d.nsb) ∧
      (specTab d (outF s.inp d d.nsb) s.out.spec).rmnc_b.data.Full (d.nmodes * d.nsb) ∧
      (specTab d (outF s.inp d d.nsb) s.out.spec).zmns_b.data.Full (d.nmodes * d.nsb) ∧
      (specTab d (outF s.inp d d.nsb) s.out.spec).numns_b.data.Full (d.nmodes * d.nsb) ∧
      (specTab d (outF s.inp d d.nsb) s.out.spec).gmnc_b.data.Full (d.nmodes * d.nsb) := by
    unfold specTab
    split <;> exact ⟨key _, key _, key _, key _, key _⟩
  have ha : d.asym = true →
      (specTab d (outF s.inp d d.nsb) s.out.spec).bmns_b.data.Full (d.nmodes * d.nsb) ∧
      (specTab d (outF s.inp d d.nsb) s.out.spec).rmns_b.data.Full (d.nmodes * d.nsb) ∧
      (specTab d (outF s.inp d d.nsb) s.out.spec).zmnc_b.data.Full (d.nmodes * d.nsb) ∧
      (specTab d (outF s.inp d d.nsb) s.out.spec).numnc_b.neg.data.Full (d.nmodes * d.nsb) ∧
      (specTab d (outF s.inp d d.nsb) s.out.spec).gmns_b.data.Full (d.nmodes * d.nsb) := by
    intro e
    unfold specTab
    rw [if_pos e]
    exact ⟨key _, key _, key _, neg_full (key _), key _⟩
  obtain ⟨x, hx⟩ : ∃ x, s.flux.phip.set! 0 (some (ofInt 0)) = x := ⟨_, rfl⟩
  have hp : (s.flux.phip.set! 0 (some (ofInt 0))).size = d.ns + 1 ∧ ∀ i < d.ns + 1, ∃ x,
      (s.flux.phip.set! 0 (some (ofInt 0)))[i]? = some (some x) := by
    refine ⟨by simp [h2.1], fun i hi => ?_⟩
    obtain ⟨y, hy⟩ := h2.2 i hi
    by_cases e : i = 0
    · subst e
      exact ⟨ofInt 0, by simp [h2.1]⟩
    · exact ⟨y, by rw [Array.set!_eq_setIfInBounds, Array.getElem?_setIfInBounds_ne (by omega)]; exact hy⟩
  exact {
    nfp := ⟨_, h.nfp⟩
    ixm := Vec.full_tab _ _
    ixn := Vec.full_tab _ _
    phi := h1
    phip := hp
    pres := h3
    bmnc := hs.1
    rmnc := hs.2.1
    zmns := hs.2.2.1
    pmns := neg_full hs.2.2.2.1
    gmn := hs.2.2.2.2
    asymVars := fun hl => ha (by
      cases e : d.asym
      · rw [e] at hl; exact absurd rfl hl
      · rfl) }

theorem run_hasResults {s : St α} {d : Dims} (h : RunReady s.inp d) (h1 : 1 ≤ d.nsb)
    (h2 : d.nsb ≤ 2147483644) (h3 : d.ns + 1 ≤ 2147483644) (hf : FluxOk s.flux d.ns) :
    HasResults (runSt d s d.nsb) d.nmodes d.nsb d.nsb d.ns d.asym := by
  have hk := nmodes_fit h
  obtain ⟨p1, p2, p3, p4, p5, p6⟩ := spec_shapes d (outF s.inp d d.nsb) s.out.spec
  have hsurf : ∀ j < d.nsb, ∃ x, s.inp.compute_surfs[j]? = some (some x) ∧ 0 ≤ x ∧ x < d.ns := by
    intro j hj
    obtain ⟨x, hx⟩ := h.surfs.2 j hj
    have := h.surfs_range j hj
    simp only [Vec.val, hx, Option.join_some, Option.getD_some] at this
    exact ⟨x, hx, this⟩
  exact {
    mnboz := rfl
    ns_b := rfl
    ns_in := h.ns_in
    asym_eq := h.asym
    K_pos := by unfold Dims.nmodes; omega
    nb_pos := h1
    K_fit := by omega
    nc_fit := h2
    ns_fit := h3
    surfs_size := h.surfs.1
    surfs := fun _ j hj => by
      obtain ⟨x, hx, h4, h5⟩ := hsurf j hj
      exact ⟨x, hx, by unfold FitsInt; omega⟩
    surfs_int := fun j x hx => by
      have hj : j < d.nsb := by
        have : s.inp.compute_surfs[j]? = some (some x) := hx
        rw [← h.surfs.1]
        exact (Array.getElem?_eq_some_iff.1 this).1
      obtain ⟨y, hy, h4, h5⟩ := hsurf j hj
      have : s.inp.compute_surfs[j]? = some (some x) := hx
      rw [this] at hy
      cases hy
      unfold FitsInt; omega
    xm_b := Vec.size_tab _ _
    xn_b := Vec.size_tab _ _
    iota := h.iota
    boozer_I := Vec.full_tab _ _
    boozer_G := Vec.full_tab _ _
    bmnc_b := p1
    rmnc_b := p2
    zmns_b := p3
    numns_b := p4
    gmnc_b := p5
    asym_b := p6
    flux := hf }

/-- Assigning `compute_surfs` after a run. -/
theorem Spec.HasResults.assign {s : St α} {K nb nc ns : Nat} {asym : Bool} {v : Vec Int}
    (h : HasResults s K nb nc ns asym) (hv : v.size ≤ 2147483644)
    (hx : ∀ j < v.size, ∃ x, v[j]? = some (some x) ∧ FitsInt x ∧ FitsInt (x + 2)) :
    HasResults { s with inp := { s.inp with compute_surfs := v } } K nb v.size ns asym :=
  { h with
    nc_fit := hv
    surfs_size := rfl
    surfs := fun hb j hj => by
      obtain ⟨x, hx, _, h2⟩ := hx j (by omega)
      exact ⟨x, hx, h2⟩
    surfs_int := fun j x hjx => by
      have hj : j < v.size := by
        have : v[j]? = some (some x) := hjx
        exact (Array.getElem?_eq_some_iff.1 this).1
      obtain ⟨y, hy, h1, _⟩ := hx j hj
      have : v[j]? = some (some x) := hjx
      rw [this] at hy
      cases hy
      exact h1 }

/-! ## Second generation -/

section
variable {s t : St α} {K nb ns : Nat} {asym : Bool}

/-- An object read from a file can be written again. -/
theorem readBack_hasResults (h : HasResults s K nb nb ns asym) (ht : ReadBack s t nb ns asym) :
    HasResults t K nb nb ns asym where
  mnboz := ht.mnboz.trans h.mnboz
  ns_b := ht.ns_b.trans h.ns_b
  ns_in := ht.ns_in.trans h.ns_in
  asym_eq := ht.asym_eq
  K_pos := h.K_pos
  nb_pos := h.nb_pos
  K_fit := h.K_fit
  nc_fit := h.nc_fit
  ns_fit := h.ns_fit
  surfs_size := by rw [ht.compute_surfs]; exact h.surfs_size
  surfs := by rw [ht.compute_surfs]; exact h.surfs
  surfs_int := by rw [ht.compute_surfs]; exact h.surfs_int
  xm_b := by rw [ht.xm_b]; exact h.xm_b
  xn_b := by rw [ht.xn_b]; exact h.xn_b
  iota := by rw [ht.iota]; exact h.iota
  boozer_I := by rw [ht.boozer_I_all]; exact h.boozer_I
  boozer_G := by rw [ht.boozer_G_all]; exact h.boozer_G
  bmnc_b := by rw [ht.bmnc_b]; exact h.bmnc_b
  rmnc_b := by rw [ht.rmnc_b]; exact h.rmnc_b
  zmns_b := by rw [ht.zmns_b]; exact h.zmns_b
  numns_b := by rw [ht.numns_b]; exact h.numns_b
  gmnc_b := by rw [ht.gmnc_b]; exact h.gmnc_b
  asym_b := fun ha => by rw [ht.asym_spec ha]; exact h.asym_b ha
  flux := by
    right
    by_cases h0 : s.flux.phip.size = 0
    · rw [(ht.no_flux h0).1]
      exact ⟨Array.size_replicate .., Array.size_replicate .., Array.size_replicate ..,
        Array.size_replicate ..⟩
    · rw [(ht.flux h0).1]
      obtain ⟨f1, f2, f3, f4⟩ := h.flux.resolve_left h0
      refine ⟨?_, f2, f3, f4⟩
      dsimp only
      rw [Array.set!_eq_setIfInBounds, Array.size_setIfInBounds]; exact f1

end

/-! ## Outcomes of writing -/

section
variable {env : Env} {version filename : String} {disk : Disk α} {s : St α} {w : WSt α}
  {K nb ns : Nat} {asym : Bool}

/-- If writing succeeds, this is the outcome. -/
theorem write_result (h : HasResults s K nb nb ns asym) (hv : VersionOk version)
    (hw : writeBoozmn env version filename disk s = .ok () w) :
    w.core.disk = disk.put filename (.nc (bzFile version K nb ns asym s)) ∧
    w.core.mem.obj = writtenObj (decide (s.flux.phip.size ≠ 0)) s := by
  rcases write_ok (env := env) (filename := filename) (disk := disk) h hv 0 [] with
    ⟨_, m, w', e⟩ | ⟨c, l, e⟩
  · unfold writeBoozmn at hw; rw [hw] at e; cases e
  · unfold writeBoozmn at hw; rw [hw] at e; cases e; exact ⟨rfl, rfl⟩

/-- Writing fails only because a library call does. -/
theorem write_total (h : HasResults s K nb nb ns asym) (hv : VersionOk version) :
    (∃ w, writeBoozmn env version filename disk s = .ok () w) ∨
    ((∃ k m, env k = some m) ∧ ∃ m w, writeBoozmn env version filename disk s = .exc m w) := by
  rcases write_ok (env := env) (filename := filename) (disk := disk) h hv 0 [] with
    ⟨hF, m, w', e⟩ | ⟨c, l, e⟩
  · exact .inr ⟨hF, m, w', e⟩
  · exact .inl ⟨_, e⟩

omit [Arith α] in
theorem put_same (d : Disk α) (p : String) (c : Content α) : d.put p c p = c := by
  unfold Disk.put; rw [if_pos rfl]
omit [Arith α] in
theorem put_other (d : Disk α) {p q : String} (c : Content α) (h : q ≠ p) : d.put p c q = d q := by
  unfold Disk.put; rw [if_neg h]

end

/-! ## Comparing two generations of files -/

section
variable {s t : St α} {K nb ns : Nat} {asym fl fl' : Bool} {version : String}

/-- Data and dimensions of a variable. -/
def NcVar.content (v : NcVar α) : List String × NcData α := (v.dims, v.data)

omit [Arith α] in
theorem find_toVar {m1 m2 : Mem α} {n : String} : ∀ {ds : List (VarDef α)},
    (∀ d ∈ ds, d.name = n → d.ptr m1 = d.ptr m2) →
    (ds.map (·.toVar m1)).find? (·.name == n) = (ds.map (·.toVar m2)).find? (·.name == n)
  | [], _ => rfl
  | d :: ds, h => by
    rw [List.map_cons, List.map_cons]
    by_cases e : d.name = n
    · rw [List.find?_cons_of_pos (by simp [VarDef.toVar, e]),
        List.find?_cons_of_pos (by simp [VarDef.toVar, e])]
      unfold VarDef.toVar
      rw [h d (by simp) e]
    · rw [List.find?_cons_of_neg (by simp [VarDef.toVar, e]),
        List.find?_cons_of_neg (by simp [VarDef.toVar, e])]
      exact find_toVar fun d hd => h d (by simp [hd])

theorem readBack_head (h : ReadBack s t nb ns asym) (ha : s.inp.asym = some asym) {d : VarDef α}
    (hd : d ∈ headDefs (longVersion version).utf8ByteSize) (h1 : d.name ≠ "aspect_b") (h2 : d.name ≠ "beta_b") :
    d.ptr ⟨writtenObj fl s, bzLoc version nb ns fl asym s⟩ =
      d.ptr ⟨writtenObj fl' t, bzLoc version nb ns fl' asym t⟩ := by
  simp only [headDefs, List.mem_append, List.nil_append] at hd
  rcases hd with ((((hd | hd) | hd) | hd) | hd) | hd
  · rw [List.mem_singleton] at hd; subst hd; rfl
  · simp only [scalarDefs, List.mem_cons, List.not_mem_nil, or_false] at hd
    rcases hd with rfl | rfl | rfl | rfl | rfl | rfl | rfl
    · rfl
    · rfl
    · show NcData.ints #[(writtenObj fl s).inp.nfp] = .ints #[(writtenObj fl' t).inp.nfp]
      rw [written_inp, written_inp, h.nfp]
    · show NcData.ints #[some (writtenObj fl s).inp.mboz] = .ints #[some (writtenObj fl' t).inp.mboz]
      rw [written_inp, written_inp, h.mboz]
    · show NcData.ints #[some (writtenObj fl s).inp.nboz] = .ints #[some (writtenObj fl' t).inp.nboz]
      rw [written_inp, written_inp, h.nboz]
    · show NcData.ints #[(writtenObj fl s).out.mnboz] = .ints #[(writtenObj fl' t).out.mnboz]
      rw [written_out, written_out, h.mnboz]
    · exact absurd rfl h1
  · simp only [zeroDefs, List.mem_cons, List.not_mem_nil, or_false] at hd
    rcases hd with rfl | rfl | rfl <;> rfl
  · simp only [listDefs, List.mem_cons, List.not_mem_nil, or_false] at hd
    rcases hd with rfl | rfl | rfl
    · show NcData.ints (Vec.tab nb (jlistVal s.inp.compute_surfs)) =
        .ints (Vec.tab nb (jlistVal t.inp.compute_surfs))
      rw [h.compute_surfs]
    · show NcData.ints (writtenObj fl s).out.xm_b = .ints (writtenObj fl' t).out.xm_b
      rw [written_out, written_out, h.xm_b]
    · show NcData.ints (writtenObj fl s).out.xn_b = .ints (writtenObj fl' t).out.xn_b
      rw [written_out, written_out, h.xn_b]
  · simp only [profileDefs, List.mem_cons, List.not_mem_nil, or_false] at hd
    rcases hd with rfl | rfl | rfl
    · show NcData.dbls (Vec.tab (ns + 1) (shifted s.inp.iota)) =
        .dbls (Vec.tab (ns + 1) (shifted t.inp.iota))
      rw [h.iota]
    · show NcData.dbls (Vec.tab (ns + 1) (shifted s.out.boozer_I_all)) =
        .dbls (Vec.tab (ns + 1) (shifted t.out.boozer_I_all))
      rw [h.boozer_I_all]
    · show NcData.dbls (Vec.tab (ns + 1) (shifted s.out.boozer_G_all)) =
        .dbls (Vec.tab (ns + 1) (shifted t.out.boozer_G_all))
      rw [h.boozer_G_all]
  · simp only [betaDefs, List.mem_cons, List.not_mem_nil, or_false] at hd
    subst hd
    exact absurd rfl h2

/-- The definitions of the matrices. -/
def matPart (asym : Bool) : List (VarDef α) :=
  matDefs1 ++ (matDefs2 ++ (if asym then asymDefs1 ++ asymDefs2 else []))

theorem readBack_mats (h : ReadBack s t nb ns asym) {d : VarDef α} (hd : d ∈ matPart asym) :
    d.ptr ⟨writtenObj fl s, bzLoc version nb ns fl asym s⟩ =
      d.ptr ⟨writtenObj fl' t, bzLoc version nb ns fl' asym t⟩ := by
  simp only [matPart, List.mem_append] at hd
  rcases hd with hd | hd | hd
  · simp only [matDefs1, List.mem_cons, List.not_mem_nil, or_false] at hd
    rcases hd with rfl | rfl | rfl
    · show NcData.dbls (writtenObj fl s).out.spec.bmnc_b.data =
        .dbls (writtenObj fl' t).out.spec.bmnc_b.data
      rw [written_out, written_out, h.bmnc_b]
    · show NcData.dbls (writtenObj fl s).out.spec.rmnc_b.data =
        .dbls (writtenObj fl' t).out.spec.rmnc_b.data
      rw [written_out, written_out, h.rmnc_b]
    · show NcData.dbls (writtenObj fl s).out.spec.zmns_b.data =
        .dbls (writtenObj fl' t).out.spec.zmns_b.data
      rw [written_out, written_out, h.zmns_b]
  · simp only [matDefs2, List.mem_cons, List.not_mem_nil, or_false] at hd
    rcases hd with rfl | rfl
    · show NcData.dbls s.out.spec.numns_b.neg.data = .dbls t.out.spec.numns_b.neg.data
      rw [h.numns_b]
    · show NcData.dbls (writtenObj fl s).out.spec.gmnc_b.data =
        .dbls (writtenObj fl' t).out.spec.gmnc_b.data
      rw [written_out, written_out, h.gmnc_b]
  · cases asym with
    | false => simp at hd
    | true =>
      have e := h.asym_spec rfl
      simp only [asymDefs1, asymDefs2, List.cons_append, List.nil_append, List.mem_cons,
        List.not_mem_nil, or_false, if_true] at hd
      rcases hd with rfl | rfl | rfl | rfl | rfl
      · show NcData.dbls (writtenObj fl s).out.spec.bmns_b.data =
          .dbls (writtenObj fl' t).out.spec.bmns_b.data
        rw [written_out, written_out, e]
      · show NcData.dbls (writtenObj fl s).out.spec.rmns_b.data =
          .dbls (writtenObj fl' t).out.spec.rmns_b.data
        rw [written_out, written_out, e]
      · show NcData.dbls (writtenObj fl s).out.spec.zmnc_b.data =
          .dbls (writtenObj fl' t).out.spec.zmnc_b.data
        rw [written_out, written_out, e]
      · show NcData.dbls s.out.spec.numnc_b.neg.data = .dbls t.out.spec.numnc_b.neg.data
        rw [e]
      · show NcData.dbls (writtenObj fl s).out.spec.gmns_b.data =
          .dbls (writtenObj fl' t).out.spec.gmns_b.data
        rw [written_out, written_out, e]

theorem bzDefs_assoc (len : Nat) (fl asym : Bool) : (bzDefs len fl asym : List (VarDef α)) =
    headDefs len ++ ((if fl then fluxDefs else dummyDefs) ++ matPart asym) := by
  unfold bzDefs matPart
  simp only [List.append_assoc]

omit [Arith α] in
theorem find_append_map {β : Type} {g : NcVar α → β} {a a' b b' : List (NcVar α)} {q : NcVar α → Bool}
    (h1 : (a.find? q).map g = (a'.find? q).map g) (h2 : (b.find? q).map g = (b'.find? q).map g) :
    ((a ++ b).find? q).map g = ((a' ++ b').find? q).map g := by
  rw [List.find?_append, List.find?_append]
  cases ha : a.find? q with
  | some x =>
    rw [ha] at h1
    cases ha' : a'.find? q with
    | some y => rw [ha'] at h1; simpa using h1
    | none => rw [ha'] at h1; simp at h1
  | none =>
    rw [ha] at h1
    cases ha' : a'.find? q with
    | some y => rw [ha'] at h1; simp at h1
    | none => simpa using h2

/-- The file written from an object that was read from the file of `s`. -/
theorem second_file (h : HasResults s K nb nb ns asym) (ht : ReadBack s t nb ns asym) {n : String}
    (h1 : n ≠ "aspect_b") (h2 : n ≠ "beta_b") :
    ((bzFile version K nb ns asym t).var? n).map NcVar.content =
      ((bzFile version K nb ns asym s).var? n).map NcVar.content ∧
    (s.flux.phip.size ≠ 0 →
      (bzFile version K nb ns asym t).var? n = (bzFile version K nb ns asym s).var? n) := by
  have hft := (readBack_hasResults h ht).flux
  have ht1 : decide (t.flux.phip.size ≠ 0) = true := by
    rw [decide_eq_true_iff]
    by_cases h0 : s.flux.phip.size = 0
    · rw [(ht.no_flux h0).1]; simp
    · rw [(ht.flux h0).1]; simpa using h0
  rw [bzFile_eq, bzFile_eq, ht1]
  unfold fileOf NcFile.var?
  dsimp only
  have hhead : ∀ fl, ((headDefs (longVersion version).utf8ByteSize).map
      (·.toVar ⟨writtenObj true t, bzLoc version nb ns true asym t⟩)).find? (·.name == n) =
      ((headDefs (longVersion version).utf8ByteSize).map
      (·.toVar ⟨writtenObj fl s, bzLoc version nb ns fl asym s⟩)).find? (·.name == n) := fun fl =>
    find_toVar fun d hd e =>
      (readBack_head ht h.asym_eq hd (by rw [e]; exact h1) (by rw [e]; exact h2)).symm
  have hmats : ∀ fl, ((matPart asym).map
      (·.toVar ⟨writtenObj true t, bzLoc version nb ns true asym t⟩)).find? (·.name == n) =
      ((matPart asym).map
      (·.toVar ⟨writtenObj fl s, bzLoc version nb ns fl asym s⟩)).find? (·.name == n) := fun fl =>
    find_toVar fun d hd e => (readBack_mats ht hd).symm
  by_cases h0 : s.flux.phip.size = 0
  · refine ⟨?_, fun hh => absurd h0 hh⟩
    rw [decide_eq_false (by simp [h0])]
    rw [bzDefs_assoc, bzDefs_assoc, List.map_append, List.map_append, List.map_append, List.map_append]
    refine find_append_map (by rw [hhead false]) (find_append_map ?_ (by rw [hmats false]))
    have e := (ht.no_flux h0).1
    have ez : (Array.replicate (ns + 1) (some (ofInt 0 : α))).set! 0 (some (ofInt 0)) =
        Array.replicate (ns + 1) (some (ofInt 0)) := by
      apply Array.ext_getElem?
      intro i
      rw [Array.set!_eq_setIfInBounds, Array.getElem?_setIfInBounds]
      split
      · next hi => subst hi; simp
      · rfl
    rw [if_pos rfl, if_neg (by decide)]
    unfold fluxDefs dummyDefs vecVar VarDef.toVar
    simp only [List.map_cons, List.map_nil, writtenObj, e, if_true, if_false, ez, bzLoc,
      List.find?_cons, List.find?_nil, Bool.false_eq_true]
    cases ("phip_b" == n) <;> cases ("chi_b" == n) <;> cases ("pres_b" == n) <;>
      cases ("phi_b" == n) <;> rfl
  · have key : ((bzDefs (longVersion version).utf8ByteSize true asym).map
      (·.toVar ⟨writtenObj true t, bzLoc version nb ns true asym t⟩)).find? (·.name == n) =
      ((bzDefs (longVersion version).utf8ByteSize true asym).map
      (·.toVar ⟨writtenObj true s, bzLoc version nb ns true asym s⟩)).find? (·.name == n) := by
      rw [bzDefs_assoc, List.map_append, List.map_append, List.map_append, List.map_append,
        List.find?_append, List.find?_append, List.find?_append, List.find?_append, hhead true,
        hmats true]
      have e := (ht.flux h0).1
      have : (writtenObj true t).flux = (writtenObj true s).flux := by
        unfold writtenObj
        rw [if_pos rfl, if_pos rfl, e]
        dsimp only
        rw [set_phip_twice]
      rw [if_pos rfl]
      unfold fluxDefs vecVar VarDef.toVar
      simp only [List.map_cons, List.map_nil, this]
    rw [decide_eq_true h0, key]
    exact ⟨rfl, fun _ => rfl⟩

end

end Booz
