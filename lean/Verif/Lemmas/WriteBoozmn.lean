import Verif.Lemmas.Writer

/-!
# Symbolic execution of `write_boozmn`
-/

namespace Booz
open Spec
variable {α : Type} [Arith α]

/-! ## The local arrays -/

/-- The entries of a vector with 0 put in front. -/
def shifted (v : Vec α) (j : Nat) : α := if j = 0 then ofInt 0 else v.val (ofInt 0) (j - 1)

/-- The entries of `jlist`. -/
def jlistVal (v : Vec Int) (j : Nat) : Int := v.val 0 j + 2

theorem jlistOf_ok {nb : Nat} {surfs : Vec Int}
    (h : ∀ j < nb, ∃ x, surfs[j]? = some (some x) ∧ FitsInt (x + 2)) :
    jlistOf (some (nb : Int)) surfs = .ok (Vec.tab nb (jlistVal surfs)) := by
  unfold jlistOf
  obtain ⟨f, hf⟩ := Vec.resize_tabO (#[] : Vec Int) (n := (nb : Int)) (by omega)
  rw [show need (some (nb : Int)) "ns_b" = .ok (nb : Int) from rfl, ok_bind, hf, ok_bind,
    Int.toNat_natCast]
  refine loop_traj' (fun k => Vec.tabO nb (Vec.fillTo f (jlistVal surfs) k)) ?_ Vec.fillTo_zero
    Vec.fillTo_all
  intro j hj
  obtain ⟨x, hx, hi⟩ := h j hj
  have hr : surfs.rdN j = .ok x := by unfold Vec.rdN; rw [hx]
  have hv : jlistVal surfs j = x + 2 := by unfold jlistVal Vec.val; rw [hx]; rfl
  rw [hr, ok_bind, i32_ok hi, ok_bind, ← hv]
  exact Vec.wrN_fillTo hj

theorem full_rdN {β : Type} {v : Vec β} {n : Nat} (h : v.Full n) (d : β) {j : Nat} (hj : j < n) :
    v.rdN j = .ok (v.val d j) := by
  obtain ⟨x, hx⟩ := h.2 j hj
  unfold Vec.rdN Vec.val; rw [hx]; rfl

theorem prepend3_ok {ns : Nat} {a b c : Vec α} (ha : a.Full ns) (hb : b.Full ns) (hc : c.Full ns)
    (hn : FitsInt ((ns : Int) + 1)) :
    prepend3 (some (ns : Int)) a b c =
      .ok ⟨Vec.tab (ns + 1) (shifted a), Vec.tab (ns + 1) (shifted b), Vec.tab (ns + 1) (shifted c)⟩ := by
  unfold prepend3
  obtain ⟨f, hf⟩ := Vec.resize_tabO (#[] : Vec α) (n := (ns : Int) + 1) (by omega)
  have e : ((ns : Int) + 1).toNat = ns + 1 := by omega
  rw [e] at hf
  have h0 : ∀ v : Vec α, (Vec.tabO (ns + 1) f).wrN 0 (ofInt 0) =
      .ok (Vec.tabO (ns + 1) (Vec.fillTo f (shifted v) 1)) := by
    intro v
    have := Vec.wrN_fillTo (n := ns + 1) (f := f) (h := shifted v) (k := 0) (by omega)
    rw [← Vec.fillTo_zero] at this
    exact this
  have hsame : ∀ v w : Vec α, Vec.tabO (ns + 1) (Vec.fillTo f (shifted v) 1) =
      Vec.tabO (ns + 1) (Vec.fillTo f (shifted w) 1) := by
    intro v w
    refine Vec.tabO_congr fun i _ => ?_
    unfold Vec.fillTo
    split
    · have : i = 0 := by omega
      subst this; rfl
    · rfl
  rw [show need (some (ns : Int)) "ns_in" = .ok (ns : Int) from rfl, ok_bind, i32_ok hn, ok_bind,
    hf, ok_bind, h0 a, ok_bind, Int.toNat_natCast]
  refine loop_traj' (fun k => (⟨Vec.tabO (ns + 1) (Vec.fillTo f (shifted a) (k + 1)),
    Vec.tabO (ns + 1) (Vec.fillTo f (shifted b) (k + 1)),
    Vec.tabO (ns + 1) (Vec.fillTo f (shifted c) (k + 1))⟩ : Vec3 α)) ?_ ?_ ?_
  · intro j hj
    have s : ∀ v : Vec α, v.val (ofInt 0) j = shifted v (j + 1) := by
      intro v; unfold shifted; rw [if_neg (by omega)]; rfl
    have w : ∀ v : Vec α, (Vec.tabO (ns + 1) (Vec.fillTo f (shifted v) (j + 1))).wrN (j + 1)
        (v.val (ofInt 0) j) = .ok (Vec.tabO (ns + 1) (Vec.fillTo f (shifted v) (j + 1 + 1))) := by
      intro v
      rw [s v]
      exact Vec.wrN_fillTo (by omega)
    dsimp only
    rw [full_rdN ha (ofInt 0) hj, ok_bind, w a, ok_bind, full_rdN hb (ofInt 0) hj, ok_bind, w b,
      ok_bind, full_rdN hc (ofInt 0) hj, ok_bind, w c, ok_bind]
    rfl
  · rw [hsame b a, hsame c a]
  · rw [Vec.fillTo_all (f := f) (h := shifted a), Vec.fillTo_all (f := f) (h := shifted b),
      Vec.fillTo_all (f := f) (h := shifted c)]

/-! ## Steps in positional form -/

section
variable {env : Env} {s : St α} {l l' : Locals α} {m : Mem α} {disk : Disk α} {nc : Writer α}
  {path : String} {dims : List (String × Nat)} {defs ds : List (VarDef α)}

theorem step_loc {g : Mem α → Res (Locals α)} (h : g ⟨s, l⟩ = .ok l') :
    Runs (MayFail env) (setLoc g) ⟨⟨s, l⟩, disk, nc⟩ ⟨⟨s, l'⟩, disk, nc⟩ :=
  Runs.loc (a := ⟨⟨s, l⟩, disk, nc⟩) h

theorem step_puts (ha : ∀ d ∈ ds, addressOk (d.ptr m) = .ok ())
    (hn : ((defs ++ ds).map (·.name)).Nodup) :
    Runs (MayFail env) (ncPuts env ds) ⟨m, disk, ⟨path, dims, defs, []⟩⟩
      ⟨m, disk, ⟨path, dims, defs ++ ds, []⟩⟩ :=
  runs_puts (a := ⟨m, disk, ⟨path, dims, defs, []⟩⟩) ha (by rw [List.map_append] at hn; exact hn)

theorem step_dim {name : String} {n : Nat} (h1 : 1 ≤ n) (h2 : n ≤ 2147483644)
    (hn : dims.any (·.1 == name) = false) :
    Runs (MayFail env) (ncCall env (defDim name (n : Int))) ⟨m, disk, ⟨path, dims, defs, []⟩⟩
      ⟨m, disk, ⟨path, dims ++ [(name, n)], defs, []⟩⟩ := by
  refine .call ?_
  unfold defDim
  dsimp only
  rw [if_neg (by omega), if_neg (by rw [hn]; decide), if_neg (by omega), Int.toNat_natCast]

end

/-! ## The whole definition part -/

/-- The version string in the file. -/
def longVersion (version : String) : String := "C++/Python booz_xform " ++ version

/-- The dimensions of a boozmn file. -/
def bzDims (K nc ns len : Nat) : List (String × Nat) :=
  [("radius", ns + 1), ("mn_mode", K), ("mn_modes", K), ("comput_surfs", nc), ("pack_rad", nc),
    (dimStr len, len)]

theorem dimStr_ne (len : Nat) {c : Char} {t : List Char} (h : c ≠ 'd') :
    dimStr len ≠ String.ofList (c :: t) := by
  intro e
  have := congrArg String.toList e
  unfold dimStr at this
  simp only [String.toList_append, String.toList_ofList] at this
  rw [show "dim_".toList = ['d', 'i', 'm', '_'] from rfl] at this
  simp only [List.cons_append, List.append_assoc, List.cons.injEq] at this
  exact h this.1.symm

/-- The version variable. -/
def versionDef (len : Nat) : VarDef α :=
  ⟨"version", [dimStr len], fun m => .text m.loc.long_version, "", ""⟩

/-- The variables up to `beta_b`. -/
def headDefs (len : Nat) : List (VarDef α) :=
  [] ++ [versionDef len] ++ scalarDefs ++ zeroDefs ++ listDefs ++ profileDefs ++ betaDefs

/-- All variables of a boozmn file. -/
def bzDefs (len : Nat) (fl asym : Bool) : List (VarDef α) :=
  headDefs len ++ (if fl then fluxDefs else dummyDefs) ++ matDefs1 ++ matDefs2 ++
    (if asym then asymDefs1 ++ asymDefs2 else [])

/-- Their names. -/
def bzNames : List String :=
  ["version", "lasym__logical__", "ns_b", "nfp_b", "mboz_b", "nboz_b", "mnboz_b", "aspect_b",
    "rmax_b", "rmin_b", "betaxis_b", "jlist", "ixm_b", "ixn_b", "iota_b", "buco_b", "bvco_b",
    "beta_b", "phip_b", "chi_b", "pres_b", "phi_b", "bmnc_b", "rmnc_b", "zmns_b", "pmns_b", "gmn_b",
    "bmns_b", "rmns_b", "zmnc_b", "pmnc_b", "gmns_b"]

theorem bzNames_nodup : bzNames.Nodup := by decide

omit [Arith α] in
theorem nodup_take {ds : List (VarDef α)} {k : Nat} (h : ds.map (·.name) = bzNames.take k) :
    (ds.map (·.name)).Nodup := by
  rw [h]; exact bzNames_nodup.sublist (List.take_sublist _ _)

/-- The object after writing. -/
def writtenObj (fl : Bool) (s : St α) : St α :=
  if fl then { s with flux := { s.flux with phip := s.flux.phip.set! 0 (some (ofInt 0)) } } else s

/-- The local variables when the data are written. -/
def bzLoc (version : String) (nb ns : Nat) (fl asym : Bool) (s : St α) : Locals α where
  long_version := longVersion version
  asym_int := some (if asym then 1 else 0)
  ns := some ((ns : Int) + 1)
  rmax_b := some (ofInt 0)
  rmin_b := some (ofInt 0)
  betaxis_b := some (ofInt 0)
  jlist := Vec.tab nb (jlistVal s.inp.compute_surfs)
  iota_b := Vec.tab (ns + 1) (shifted s.inp.iota)
  buco_b := Vec.tab (ns + 1) (shifted s.out.boozer_I_all)
  bvco_b := Vec.tab (ns + 1) (shifted s.out.boozer_G_all)
  pres_b := if fl then Array.replicate (ns + 1) none else Array.replicate (ns + 1) (some (ofInt 0))
  beta_b := Array.replicate (ns + 1) (some (ofInt 0))
  phip_dummy := Array.replicate (ns + 1) (some (ofInt 0))
  chi_dummy := Array.replicate (ns + 1) (some (ofInt 0))
  phi_dummy := Array.replicate (ns + 1) (some (ofInt 0))
  pmns_b := s.out.spec.numns_b.neg
  pmnc_b := if asym then s.out.spec.numnc_b.neg else .empty

section
variable {env : Env} {version filename : String} {disk : Disk α} {s : St α} {K nb nc ns : Nat}
  {asym : Bool}

theorem resize_empty {β : Type} (n : Nat) :
    Vec.resize (#[] : Vec β) ((n + 1 : Nat) : Int) = .ok (Array.replicate (n + 1) none) := by
  unfold Vec.resize
  rw [if_pos (by omega), Int.toNat_natCast, if_neg (by simp)]

theorem setZero_nat {β : Type} (z : β) (n : Nat) :
    Vec.setZero z (n : Int) = .ok (Array.replicate n (some z)) := by
  unfold Vec.setZero
  rw [if_pos (by omega), Int.toNat_natCast]

omit [Arith α] in
theorem shape_first {a : Mat α} {r c : Nat} (h : HasShape a r c) (hr : 1 ≤ r) (hc : 1 ≤ c) :
    first a.data = .ok () :=
  first_ok h.2.2 (Nat.mul_pos hr hc)

theorem neg_shape {a : Mat α} {r c : Nat} (h : HasShape a r c) : HasShape a.neg r c :=
  ⟨h.1, h.2.1, by unfold Mat.neg; dsimp only; rw [Array.size_map]; exact h.2.2⟩

theorem size_tab {β : Type} (n : Nat) (f : Nat → β) : (Vec.tab n f).size = n := by simp [Vec.tab]

theorem version_pos (version : String) : 1 ≤ (longVersion version).utf8ByteSize := by
  unfold longVersion
  rw [String.utf8ByteSize_append]
  have : "C++/Python booz_xform ".utf8ByteSize = 22 := by decide
  omega

theorem runs_strDim {m : Mem α} {path : String} {defs : List (VarDef α)} {len : Nat}
    (h1 : 1 ≤ len) (h2 : len ≤ 2147483644) :
    Runs (MayFail env) (strDim env len)
      ⟨m, disk, ⟨path, [("radius", ns + 1), ("mn_mode", K), ("mn_modes", K), ("comput_surfs", nc),
        ("pack_rad", nc)], defs, []⟩⟩
      ⟨m, disk, ⟨path, bzDims K nc ns len, defs, []⟩⟩ := by
  unfold strDim
  refine .get (fun _ _ => rfl) ?_
  have hn : ([("radius", ns + 1), ("mn_mode", K), ("mn_modes", K), ("comput_surfs", nc),
        ("pack_rad", nc)] : List (String × Nat)).any (·.1 == dimStr len) = false := by
    have a1 : ("radius" == dimStr len) = false := by
      simpa using (dimStr_ne len (c := 'r') (t := "adius".toList) (by decide)).symm
    have a2 : ("mn_mode" == dimStr len) = false := by
      simpa using (dimStr_ne len (c := 'm') (t := "n_mode".toList) (by decide)).symm
    have a3 : ("mn_modes" == dimStr len) = false := by
      simpa using (dimStr_ne len (c := 'm') (t := "n_modes".toList) (by decide)).symm
    have a4 : ("comput_surfs" == dimStr len) = false := by
      simpa using (dimStr_ne len (c := 'c') (t := "omput_surfs".toList) (by decide)).symm
    have a5 : ("pack_rad" == dimStr len) = false := by
      simpa using (dimStr_ne len (c := 'p') (t := "ack_rad".toList) (by decide)).symm
    simp only [List.any_cons, List.any_nil, a1, a2, a3, a4, a5, Bool.or_false]
  dsimp only
  rw [hn, if_neg (by decide)]
  exact step_dim h1 h2 hn

theorem runs_flux {l : Locals α} {path : String} {dims : List (String × Nat)} {len : Nat}
    (hf : s.flux.phip.size = 0 ∨ (1 ≤ s.flux.chi.size ∧ 1 ≤ s.flux.pres.size ∧ 1 ≤ s.flux.phi.size))
    (hp : l.pres_b = Array.replicate (ns + 1) none)
    (h1 : l.phip_dummy = Array.replicate (ns + 1) (some (ofInt 0)))
    (h2 : l.chi_dummy = Array.replicate (ns + 1) (some (ofInt 0)))
    (h3 : l.phi_dummy = Array.replicate (ns + 1) (some (ofInt 0))) :
    Runs (MayFail env) (writeFlux env (decide (s.flux.phip.size ≠ 0)))
      ⟨⟨s, l⟩, disk, ⟨path, dims, headDefs len, []⟩⟩
      ⟨⟨writtenObj (decide (s.flux.phip.size ≠ 0)) s, { l with
        pres_b := if (decide (s.flux.phip.size ≠ 0)) then Array.replicate (ns + 1) none
          else Array.replicate (ns + 1) (some (ofInt 0)) }⟩, disk, ⟨path, dims,
        headDefs len ++ (if (decide (s.flux.phip.size ≠ 0)) then fluxDefs else dummyDefs), []⟩⟩ := by
  by_cases h0 : s.flux.phip.size = 0
  · rw [show decide (s.flux.phip.size ≠ 0) = false by simp [h0]]
    unfold writeFlux
    rw [if_neg (by decide)]
    refine .bind (step_loc (l' := { l with pres_b := Array.replicate (ns + 1) (some (ofInt 0)) }) ?_) ?_
    · dsimp only
      rw [hp]
      simp only [Vec.setZero, Array.size_replicate]
      rfl
    · refine step_puts ?_ (nodup_take (k := 22) rfl)
      intro d hd
      simp only [dummyDefs, List.mem_cons, List.not_mem_nil, or_false] at hd
      rcases hd with rfl | rfl | rfl | rfl
      · exact first_ok (by show l.phip_dummy.size = ns + 1; rw [h1]; simp) (by omega)
      · exact first_ok (by show l.chi_dummy.size = ns + 1; rw [h2]; simp) (by omega)
      · exact first_ok (n := ns + 1) (by simp) (by omega)
      · exact first_ok (by show l.phi_dummy.size = ns + 1; rw [h3]; simp) (by omega)
  · rw [show decide (s.flux.phip.size ≠ 0) = true by simp [h0]]
    obtain ⟨f2, f3, f4⟩ := hf.resolve_left h0
    unfold writeFlux
    rw [if_pos rfl]
    refine .bind (b := ⟨⟨writtenObj true s, l⟩, disk, ⟨path, dims, headDefs len, []⟩⟩) ?_ ?_
    · refine Runs.mem (a := ⟨⟨s, l⟩, disk, ⟨path, dims, headDefs len, []⟩⟩) (m := ⟨writtenObj true s, l⟩) ?_
      dsimp only
      unfold Vec.wrN
      rw [if_pos (by omega)]
      rfl
    · rw [if_pos rfl, if_pos rfl, ← hp]
      refine step_puts (m := ⟨writtenObj true s, l⟩) ?_ (nodup_take (k := 22) rfl)
      intro d hd
      simp only [fluxDefs, List.mem_cons, List.not_mem_nil, or_false] at hd
      rcases hd with rfl | rfl | rfl | rfl
      · exact first_ok (n := s.flux.phip.size) (by simp [writtenObj]) (by omega)
      · exact first_ok rfl f2
      · exact first_ok rfl f3
      · exact first_ok rfl f4

theorem runs_asym {l : Locals α} {path : String} {dims : List (String × Nat)}
    {defs : List (VarDef α)} (hK : 1 ≤ K) (hb : 1 ≤ nb)
    (ha : asym = true → HasShape s.out.spec.bmns_b K nb ∧ HasShape s.out.spec.rmns_b K nb ∧
      HasShape s.out.spec.zmnc_b K nb ∧ HasShape s.out.spec.numnc_b K nb ∧
      HasShape s.out.spec.gmns_b K nb)
    (hl : l.pmnc_b = .empty) (hd : defs.map (·.name) = bzNames.take 27) :
    Runs (MayFail env) (writeAsym env asym) ⟨⟨s, l⟩, disk, ⟨path, dims, defs, []⟩⟩
      ⟨⟨s, { l with pmnc_b := if asym then s.out.spec.numnc_b.neg else .empty }⟩, disk,
        ⟨path, dims, defs ++ (if asym then asymDefs1 ++ asymDefs2 else []), []⟩⟩ := by
  unfold writeAsym
  cases asym with
  | false =>
    rw [if_neg (by decide), if_neg (by decide), if_neg (by decide), List.append_nil, ← hl]
    exact .pure
  | true =>
    obtain ⟨h1, h2, h3, h4, h5⟩ := ha rfl
    rw [if_pos rfl, if_pos rfl, if_pos rfl, ← List.append_assoc]
    refine .bind (step_puts ?_ (nodup_take (k := 30) (by rw [List.map_append, hd]; rfl))) ?_
    · intro d hd
      simp only [asymDefs1, List.mem_cons, List.not_mem_nil, or_false] at hd
      rcases hd with rfl | rfl | rfl
      · exact shape_first h1 hK hb
      · exact shape_first h2 hK hb
      · exact shape_first h3 hK hb
    refine .bind (step_loc (l' := { l with pmnc_b := s.out.spec.numnc_b.neg }) rfl) ?_
    refine step_puts ?_ (nodup_take (k := 32) (by rw [List.map_append, List.map_append, hd]; rfl))
    intro d hd
    simp only [asymDefs2, List.mem_cons, List.not_mem_nil, or_false] at hd
    rcases hd with rfl | rfl
    · exact shape_first (neg_shape h4) hK hb
    · exact shape_first h5 hK hb

/-- The local variables before the flux profiles are written. -/
def headLoc (version : String) (nb ns : Nat) (asym : Bool) (s : St α) : Locals α :=
  {
    long_version := longVersion version,
    asym_int := some (if asym then 1 else 0), ns := some ((ns : Int) + 1),
    rmax_b := some (ofInt 0), rmin_b := some (ofInt 0), betaxis_b := some (ofInt 0),
    jlist := Vec.tab nb (jlistVal s.inp.compute_surfs),
    iota_b := Vec.tab (ns + 1) (shifted s.inp.iota),
    buco_b := Vec.tab (ns + 1) (shifted s.out.boozer_I_all),
    bvco_b := Vec.tab (ns + 1) (shifted s.out.boozer_G_all),
    pres_b := Array.replicate (ns + 1) none,
    beta_b := Array.replicate (ns + 1) (some (ofInt 0)),
    phip_dummy := Array.replicate (ns + 1) (some (ofInt 0)),
    chi_dummy := Array.replicate (ns + 1) (some (ofInt 0)),
    phi_dummy := Array.replicate (ns + 1) (some (ofInt 0)) }

/-- `write_boozmn` up to the flux profiles, whatever these are. -/
theorem define_head {Q : Out (WSt α) Unit → Prop} (h : HasResults (withoutFlux s) K nb nc ns asym)
    (hv : VersionOk version) (hc : nb ≤ nc)
    (hq : Ends (MayFail env) (do
        writeFlux env (decide (s.flux.phip.size ≠ 0))
        ncPuts env matDefs1
        setLoc fun m => .ok { m.loc with pmns_b := m.obj.out.spec.numns_b.neg }
        ncPuts env matDefs2
        writeAsym env asym)
      ⟨⟨s, headLoc version nb ns asym s⟩, disk.put filename .broken,
        ⟨filename, bzDims K nc ns (longVersion version).utf8ByteSize,
          headDefs (longVersion version).utf8ByteSize, []⟩⟩ Q) :
    Ends (MayFail env) (defineBoozmn env version filename) ⟨⟨s, {}⟩, disk, ⟨"", [], [], []⟩⟩ Q := by
  have e1 : s.inp.ns_in = some (ns : Int) := h.ns_in
  have e2 : s.out.mnboz = some (K : Int) := h.mnboz
  have e3 : s.inp.compute_surfs.size = nc := h.surfs_size
  have e4 : s.inp.asym = some asym := h.asym_eq
  have e5 : s.out.ns_b = some (nb : Int) := h.ns_b
  have e6 : s.inp.iota.Full ns := h.iota
  have e7 : s.out.boozer_I_all.Full ns := h.boozer_I
  have e8 : s.out.boozer_G_all.Full ns := h.boozer_G
  have hfit := h.ns_fit
  have hK := h.K_fit
  have hKp := h.K_pos
  have hbp := h.nb_pos
  have hnc := h.nc_fit
  unfold defineBoozmn defineVars
  refine .after (.call (b := ⟨⟨s, {}⟩, disk.put filename .broken, ⟨filename, [], [], []⟩⟩) rfl) ?_
  refine .get (fun _ _ => rfl) ?_
  refine .lift (x := (ns : Int)) (by dsimp only; rw [e1]; rfl) ?_
  refine .lift (x := ((ns + 1 : Nat) : Int)) (by
    rw [i32_ok ⟨by omega, by omega⟩]; push_cast; rfl) ?_
  refine .after (step_dim (by omega) (by omega) rfl) ?_
  refine .lift (x := (K : Int)) (by dsimp only; rw [e2]; rfl) ?_
  refine .after (step_dim h.K_pos h.K_fit rfl) ?_
  refine .after (step_dim h.K_pos h.K_fit rfl) ?_
  dsimp only
  rw [e3]
  refine .after (step_dim (by omega) h.nc_fit rfl) ?_
  refine .after (step_dim (by omega) h.nc_fit rfl) ?_
  refine .after (step_loc (l' := { long_version := longVersion version }) rfl) ?_
  refine .after (runs_strDim (version_pos version) hv) ?_
  refine .after (b := ⟨⟨s, { long_version := longVersion version }⟩, disk.put filename .broken,
    ⟨filename, bzDims K nc ns (longVersion version).utf8ByteSize,
      [] ++ [versionDef (longVersion version).utf8ByteSize], []⟩⟩) ?_ ?_
  · exact runs_put (a := ⟨⟨s, { long_version := longVersion version }⟩, disk.put filename .broken,
      ⟨filename, bzDims K nc ns (longVersion version).utf8ByteSize, [], []⟩⟩)
      (d := versionDef (longVersion version).utf8ByteSize) rfl (by simp)
  refine .lift (x := asym) (by rw [e4]; rfl) ?_
  refine .after (step_loc (l' := {
    long_version := longVersion version,
    asym_int := some (if asym then 1 else 0), ns := some ((ns : Int) + 1) }) rfl) ?_
  refine .after (step_puts ?_ (nodup_take (k := 8) rfl)) ?_
  · intro d hd
    simp only [scalarDefs, List.mem_cons, List.not_mem_nil, or_false] at hd
    rcases hd with rfl | rfl | rfl | rfl | rfl | rfl | rfl <;> exact first_ok (n := 1) rfl (by omega)
  refine .after (step_loc (l' := {
    long_version := longVersion version,
    asym_int := some (if asym then 1 else 0), ns := some ((ns : Int) + 1),
    rmax_b := some (ofInt 0), rmin_b := some (ofInt 0), betaxis_b := some (ofInt 0) }) rfl) ?_
  refine .after (step_puts ?_ (nodup_take (k := 11) rfl)) ?_
  · intro d hd
    simp only [zeroDefs, List.mem_cons, List.not_mem_nil, or_false] at hd
    rcases hd with rfl | rfl | rfl <;> exact first_ok (n := 1) rfl (by omega)
  refine .after (step_loc (l' := {
    long_version := longVersion version,
    asym_int := some (if asym then 1 else 0), ns := some ((ns : Int) + 1),
    rmax_b := some (ofInt 0), rmin_b := some (ofInt 0), betaxis_b := some (ofInt 0),
    jlist := Vec.tab nb (jlistVal s.inp.compute_surfs) }) ?_) ?_
  · dsimp only
    rw [e5, jlistOf_ok (surfs := s.inp.compute_surfs) (h.surfs hc)]; rfl
  refine .after (step_puts ?_ (nodup_take (k := 14) rfl)) ?_
  · intro d hd
    simp only [listDefs, List.mem_cons, List.not_mem_nil, or_false] at hd
    rcases hd with rfl | rfl | rfl
    · exact first_ok (size_tab _ _) hbp
    · exact first_ok h.xm_b hKp
    · exact first_ok h.xn_b hKp
  refine .after (step_loc (l' := {
    long_version := longVersion version,
    asym_int := some (if asym then 1 else 0), ns := some ((ns : Int) + 1),
    rmax_b := some (ofInt 0), rmin_b := some (ofInt 0), betaxis_b := some (ofInt 0),
    jlist := Vec.tab nb (jlistVal s.inp.compute_surfs),
    iota_b := Vec.tab (ns + 1) (shifted s.inp.iota),
    buco_b := Vec.tab (ns + 1) (shifted s.out.boozer_I_all),
    bvco_b := Vec.tab (ns + 1) (shifted s.out.boozer_G_all) }) ?_) ?_
  · dsimp only
    rw [e1, prepend3_ok e6 e7 e8 ⟨by omega, by omega⟩]; rfl
  refine .after (step_puts ?_ (nodup_take (k := 17) rfl)) ?_
  · intro d hd
    simp only [profileDefs, List.mem_cons, List.not_mem_nil, or_false] at hd
    rcases hd with rfl | rfl | rfl <;> exact first_ok (size_tab _ _) (by omega)
  refine .after (step_loc (l' := {
    long_version := longVersion version,
    asym_int := some (if asym then 1 else 0), ns := some ((ns : Int) + 1),
    rmax_b := some (ofInt 0), rmin_b := some (ofInt 0), betaxis_b := some (ofInt 0),
    jlist := Vec.tab nb (jlistVal s.inp.compute_surfs),
    iota_b := Vec.tab (ns + 1) (shifted s.inp.iota),
    buco_b := Vec.tab (ns + 1) (shifted s.out.boozer_I_all),
    bvco_b := Vec.tab (ns + 1) (shifted s.out.boozer_G_all),
    pres_b := Array.replicate (ns + 1) none,
    beta_b := Array.replicate (ns + 1) (some (ofInt 0)) }) ?_) ?_
  · rw [resize_empty, setZero_nat]
    rfl
  refine .after (step_puts ?_ (nodup_take (k := 18) rfl)) ?_
  · intro d hd
    simp only [betaDefs, List.mem_cons, List.not_mem_nil, or_false] at hd
    rcases hd with rfl
    exact first_ok (n := ns + 1) (by simp) (by omega)
  refine .after (step_loc (l' := {
    long_version := longVersion version,
    asym_int := some (if asym then 1 else 0), ns := some ((ns : Int) + 1),
    rmax_b := some (ofInt 0), rmin_b := some (ofInt 0), betaxis_b := some (ofInt 0),
    jlist := Vec.tab nb (jlistVal s.inp.compute_surfs),
    iota_b := Vec.tab (ns + 1) (shifted s.inp.iota),
    buco_b := Vec.tab (ns + 1) (shifted s.out.boozer_I_all),
    bvco_b := Vec.tab (ns + 1) (shifted s.out.boozer_G_all),
    pres_b := Array.replicate (ns + 1) none,
    beta_b := Array.replicate (ns + 1) (some (ofInt 0)),
    phip_dummy := Array.replicate (ns + 1) (some (ofInt 0)),
    chi_dummy := Array.replicate (ns + 1) (some (ofInt 0)),
    phi_dummy := Array.replicate (ns + 1) (some (ofInt 0)) }) ?_) ?_
  · rw [setZero_nat]
    rfl
  exact hq

theorem define_ok' (h : HasResults (withoutFlux s) K nb nc ns asym) (hv : VersionOk version) (hc : nb ≤ nc)
    (hf : s.flux.phip.size = 0 ∨ (1 ≤ s.flux.chi.size ∧ 1 ≤ s.flux.pres.size ∧ 1 ≤ s.flux.phi.size)) :
    Runs (MayFail env) (defineBoozmn env version filename) ⟨⟨s, {}⟩, disk, ⟨"", [], [], []⟩⟩
      ⟨⟨writtenObj (decide (s.flux.phip.size ≠ 0)) s,
          bzLoc version nb ns (decide (s.flux.phip.size ≠ 0)) asym s⟩,
        disk.put filename .broken,
        ⟨filename, bzDims K nc ns (longVersion version).utf8ByteSize,
          bzDefs (longVersion version).utf8ByteSize (decide (s.flux.phip.size ≠ 0)) asym, []⟩⟩ := by
  have hKp := h.K_pos
  have hbp := h.nb_pos
  refine define_head (Q := fun o => ∃ c' l', o = .ok () ⟨_, c', l'⟩) h hv hc (Ends.of_runs ?_)
  refine .bind (runs_flux (len := (longVersion version).utf8ByteSize) hf rfl rfl rfl rfl) ?_
  generalize hfl : decide (s.flux.phip.size ≠ 0) = fl
  have hout : (writtenObj fl s).out = s.out := by unfold writtenObj; split <;> rfl
  refine .bind (step_puts ?_ (nodup_take (k := 25) (by cases fl <;> rfl))) ?_
  · intro d hd
    simp only [matDefs1, List.mem_cons, List.not_mem_nil, or_false] at hd
    rcases hd with rfl | rfl | rfl
    · refine shape_first (r := K) (c := nb) ?_ hKp hbp; dsimp only; rw [hout]; exact h.bmnc_b
    · refine shape_first (r := K) (c := nb) ?_ hKp hbp; dsimp only; rw [hout]; exact h.rmnc_b
    · refine shape_first (r := K) (c := nb) ?_ hKp hbp; dsimp only; rw [hout]; exact h.zmns_b
  refine .bind (step_loc (l' := { bzLoc version nb ns fl asym s with pmnc_b := .empty }) ?_) ?_
  · dsimp only; rw [hout]; rfl
  refine .bind (step_puts ?_ (nodup_take (k := 27) (by cases fl <;> rfl))) ?_
  · intro d hd
    simp only [matDefs2, List.mem_cons, List.not_mem_nil, or_false] at hd
    rcases hd with rfl | rfl
    · exact shape_first (neg_shape h.numns_b) hKp hbp
    · refine shape_first (r := K) (c := nb) ?_ hKp hbp; dsimp only; rw [hout]; exact h.gmnc_b
  have := runs_asym (env := env) (disk := disk.put filename .broken) (s := writtenObj fl s)
    (asym := asym) (l := { bzLoc version nb ns fl asym s with pmnc_b := .empty }) (path := filename)
    (dims := bzDims K nc ns (longVersion version).utf8ByteSize)
    (defs := headDefs (longVersion version).utf8ByteSize ++ (if fl then fluxDefs else dummyDefs) ++
      matDefs1 ++ matDefs2) hKp hbp (by rw [hout]; exact h.asym_b) rfl (by cases fl <;> rfl)
  rw [hout] at this
  exact this

omit [Arith α] in
theorem Spec.HasResults.without (h : HasResults s K nb nc ns asym) : HasResults (withoutFlux s) K nb nc ns asym :=
  ⟨h.1, h.2, h.3, h.4, h.5, h.6, h.7, h.8, h.9, h.10, h.11, h.12, h.13, h.14, h.15, h.16, h.17, h.18, h.19, h.20,
    h.21, h.22, h.23, .inl rfl⟩

theorem define_ok (h : HasResults s K nb nc ns asym) (hv : VersionOk version) (hc : nb ≤ nc) :
    Runs (MayFail env) (defineBoozmn env version filename) ⟨⟨s, {}⟩, disk, ⟨"", [], [], []⟩⟩
      ⟨⟨writtenObj (decide (s.flux.phip.size ≠ 0)) s,
          bzLoc version nb ns (decide (s.flux.phip.size ≠ 0)) asym s⟩,
        disk.put filename .broken,
        ⟨filename, bzDims K nc ns (longVersion version).utf8ByteSize,
          bzDefs (longVersion version).utf8ByteSize (decide (s.flux.phip.size ≠ 0)) asym, []⟩⟩ :=
  define_ok' h.without hv hc (h.flux.imp_right fun f => ⟨by omega, by omega, by omega⟩)

/-! ## Fetching the data -/

theorem fetch_dbls {v : Vec α} {n : Nat} (h : v.size = n) :
    fetch n (.dbls v) = .ok (.dbls v) := by
  unfold fetch; dsimp only; rw [if_pos (by omega), ← h, Array.extract_size]
theorem fetch_ints {v : Vec Int} {n : Nat} (h : v.size = n) :
    fetch n (.ints v : NcData α) = .ok (.ints v) := by
  unfold fetch; dsimp only; rw [if_pos (by omega), ← h, Array.extract_size]

theorem count_nil (dims : List (String × Nat)) : dimCount dims [] = 1 := rfl
theorem count_radius (len : Nat) : dimCount (bzDims K nc ns len) ["radius"] = ns + 1 := by
  simp [dimCount, bzDims]
theorem count_modes (len : Nat) : dimCount (bzDims K nc ns len) ["mn_modes"] = K := by
  simp [dimCount, bzDims]
theorem count_surfs (len : Nat) : dimCount (bzDims K nc ns len) ["comput_surfs"] = nc := by
  simp [dimCount, bzDims]
theorem count_mat (len : Nat) :
    dimCount (bzDims K nc ns len) ["mn_modes", "pack_rad"].reverse = K * nc := by
  simp [dimCount, bzDims, Nat.mul_comm]
theorem count_str (len : Nat) : dimCount (bzDims K nc ns len) [dimStr len] = len := by
  have a1 : ("radius" == dimStr len) = false := by
    simpa using (dimStr_ne len (c := 'r') (t := "adius".toList) (by decide)).symm
  have a2 : ("mn_mode" == dimStr len) = false := by
    simpa using (dimStr_ne len (c := 'm') (t := "n_mode".toList) (by decide)).symm
  have a3 : ("mn_modes" == dimStr len) = false := by
    simpa using (dimStr_ne len (c := 'm') (t := "n_modes".toList) (by decide)).symm
  have a4 : ("comput_surfs" == dimStr len) = false := by
    simpa using (dimStr_ne len (c := 'c') (t := "omput_surfs".toList) (by decide)).symm
  have a5 : ("pack_rad" == dimStr len) = false := by
    simpa using (dimStr_ne len (c := 'p') (t := "ack_rad".toList) (by decide)).symm
  simp [dimCount, bzDims, List.find?_cons, a1, a2, a3, a4, a5]

theorem shape_fetch {a : Mat α} (h : HasShape a K nb) (len : Nat) :
    fetch (dimCount (bzDims K nb ns len) ["mn_modes", "pack_rad"].reverse) (.dbls a.data) =
      .ok (.dbls a.data) := by
  rw [count_mat]; exact fetch_dbls h.2.2

/-- The file written for an object. -/
def bzFile (version : String) (K nb ns : Nat) (asym : Bool) (s : St α) : NcFile α :=
  let fl := decide (s.flux.phip.size ≠ 0)
  ⟨bzDims K nb ns (longVersion version).utf8ByteSize,
    (bzDefs (longVersion version).utf8ByteSize fl asym).map
      (·.toVar ⟨writtenObj fl s, bzLoc version nb ns fl asym s⟩)⟩

omit [Arith α] in
theorem put_put (d : Disk α) (p : String) (a b : Content α) : (d.put p a).put p b = d.put p b := by
  funext q
  unfold Disk.put
  split <;> rfl

theorem fetch_all (h : HasResults s K nb nb ns asym) :
    ∀ d ∈ bzDefs (α := α) (longVersion version).utf8ByteSize (decide (s.flux.phip.size ≠ 0)) asym,
      fetch (dimCount (bzDims K nb ns (longVersion version).utf8ByteSize) d.dims)
        (d.ptr ⟨writtenObj (decide (s.flux.phip.size ≠ 0)) s,
          bzLoc version nb ns (decide (s.flux.phip.size ≠ 0)) asym s⟩) =
        .ok (d.ptr ⟨writtenObj (decide (s.flux.phip.size ≠ 0)) s,
          bzLoc version nb ns (decide (s.flux.phip.size ≠ 0)) asym s⟩) := by
  have hflux := h.flux
  have hfl : decide (s.flux.phip.size ≠ 0) = true → s.flux.phip.size ≠ 0 := by simp
  generalize decide (s.flux.phip.size ≠ 0) = fl at *
  have hout : (writtenObj fl s).out = s.out := by unfold writtenObj; split <;> rfl
  generalize hlen : (longVersion version).utf8ByteSize = len
  intro d hd
  simp only [bzDefs, headDefs, List.mem_append, List.nil_append] at hd
  rcases hd with ((((((((((hd | hd) | hd) | hd) | hd) | hd) | hd) | hd) | hd)) | hd)
  · rw [List.mem_singleton] at hd
    subst hd
    show fetch (dimCount _ [dimStr len]) (.text (longVersion version)) = .ok (.text (longVersion version))
    rw [count_str]; unfold fetch; dsimp only; rw [if_pos hlen.symm]
  · simp only [scalarDefs, List.mem_cons, List.not_mem_nil, or_false] at hd
    rcases hd with rfl | rfl | rfl | rfl | rfl | rfl | rfl
    all_goals first | exact fetch_ints rfl | exact fetch_dbls rfl
  · simp only [zeroDefs, List.mem_cons, List.not_mem_nil, or_false] at hd
    rcases hd with rfl | rfl | rfl <;> exact fetch_dbls rfl
  · simp only [listDefs, List.mem_cons, List.not_mem_nil, or_false] at hd
    rcases hd with rfl | rfl | rfl
    · show fetch (dimCount _ ["comput_surfs"]) _ = _
      rw [count_surfs]; exact fetch_ints (size_tab _ _)
    · show fetch (dimCount _ ["mn_modes"]) _ = _
      rw [count_modes]; exact fetch_ints (by dsimp only; rw [hout]; exact h.xm_b)
    · show fetch (dimCount _ ["mn_modes"]) _ = _
      rw [count_modes]; exact fetch_ints (by dsimp only; rw [hout]; exact h.xn_b)
  · simp only [profileDefs, List.mem_cons, List.not_mem_nil, or_false] at hd
    rcases hd with rfl | rfl | rfl
    all_goals
      show fetch (dimCount _ ["radius"]) _ = _
      rw [count_radius]; exact fetch_dbls (size_tab _ _)
  · simp only [betaDefs, List.mem_cons, List.not_mem_nil, or_false] at hd
    subst hd
    show fetch (dimCount _ ["radius"]) _ = _
    rw [count_radius]
    refine fetch_dbls ?_
    show (if fl = true then _ else _ : Vec α).size = _
    cases fl <;> simp
  · cases fl with
    | false =>
      simp only [dummyDefs, List.mem_cons, List.not_mem_nil, or_false, Bool.false_eq_true, if_false] at hd
      rcases hd with rfl | rfl | rfl | rfl
      all_goals
        show fetch (dimCount _ ["radius"]) _ = _
        rw [count_radius]; exact fetch_dbls (Array.size_replicate ..)
    | true =>
      obtain ⟨f1, f2, f3, f4⟩ := hflux.resolve_left (hfl rfl)
      simp only [fluxDefs, List.mem_cons, List.not_mem_nil, or_false, if_true] at hd
      rcases hd with rfl | rfl | rfl | rfl
      all_goals
        show fetch (dimCount _ ["radius"]) _ = _
        rw [count_radius]
      · exact fetch_dbls (by simp [writtenObj, f1])
      · exact fetch_dbls f2
      · exact fetch_dbls f3
      · exact fetch_dbls f4
  · simp only [matDefs1, List.mem_cons, List.not_mem_nil, or_false] at hd
    rcases hd with rfl | rfl | rfl
    · exact shape_fetch (a := (writtenObj fl s).out.spec.bmnc_b) (by rw [hout]; exact h.bmnc_b) len
    · exact shape_fetch (a := (writtenObj fl s).out.spec.rmnc_b) (by rw [hout]; exact h.rmnc_b) len
    · exact shape_fetch (a := (writtenObj fl s).out.spec.zmns_b) (by rw [hout]; exact h.zmns_b) len
  · simp only [matDefs2, List.mem_cons, List.not_mem_nil, or_false] at hd
    rcases hd with rfl | rfl
    · exact shape_fetch (neg_shape h.numns_b) len
    · exact shape_fetch (a := (writtenObj fl s).out.spec.gmnc_b) (by rw [hout]; exact h.gmnc_b) len
  · cases asym with
    | false => simp at hd
    | true =>
      obtain ⟨h1, h2, h3, h4, h5⟩ := h.asym_b rfl
      simp only [asymDefs1, asymDefs2, List.cons_append, List.nil_append, List.mem_cons,
        List.not_mem_nil, or_false, if_true] at hd
      rcases hd with rfl | rfl | rfl | rfl | rfl
      · exact shape_fetch (a := (writtenObj fl s).out.spec.bmns_b) (by rw [hout]; exact h1) len
      · exact shape_fetch (a := (writtenObj fl s).out.spec.rmns_b) (by rw [hout]; exact h2) len
      · exact shape_fetch (a := (writtenObj fl s).out.spec.zmnc_b) (by rw [hout]; exact h3) len
      · exact shape_fetch (neg_shape h4) len
      · exact shape_fetch (a := (writtenObj fl s).out.spec.gmns_b) (by rw [hout]; exact h5) len

/-- Closed form of `write_boozmn` on an object whose results match `compute_surfs`. -/
theorem write_ok (h : HasResults s K nb nb ns asym) (hv : VersionOk version) :
    Runs (MayFail env) (writeBoozmnW env version filename) ⟨⟨s, {}⟩, disk, ⟨"", [], [], []⟩⟩
      ⟨⟨writtenObj (decide (s.flux.phip.size ≠ 0)) s,
          bzLoc version nb ns (decide (s.flux.phip.size ≠ 0)) asym s⟩,
        disk.put filename (.nc (bzFile version K nb ns asym s)),
        ⟨filename, bzDims K nb ns (longVersion version).utf8ByteSize,
          bzDefs (longVersion version).utf8ByteSize (decide (s.flux.phip.size ≠ 0)) asym,
          (bzFile version K nb ns asym s).vars⟩⟩ := by
  unfold writeBoozmnW
  refine .bind (define_ok h hv (Nat.le_refl _)) ?_
  have := runs_close (env := env) (a := ⟨⟨writtenObj (decide (s.flux.phip.size ≠ 0)) s,
          bzLoc version nb ns (decide (s.flux.phip.size ≠ 0)) asym s⟩,
        disk.put filename .broken,
        ⟨filename, bzDims K nb ns (longVersion version).utf8ByteSize,
          bzDefs (longVersion version).utf8ByteSize (decide (s.flux.phip.size ≠ 0)) asym, []⟩⟩) rfl
    (fetch_all h)
  dsimp only at this
  rw [put_put] at this
  exact this

end

end Booz
