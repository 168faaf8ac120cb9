import Verif.Lemmas.WriteFail

/-!
# `write_boozmn` with flux profiles that are too short
-/

namespace Booz
open Spec
variable {α : Type} [Arith α]
variable {env : Env} {version filename : String} {disk : Disk α} {s : St α} {K nb ns : Nat} {asym : Bool}

omit [Arith α] in
theorem addressOk_cases (d : NcData α) : addressOk d = .ok () ∨ ∃ w, addressOk d = ub w := by
  cases d with
  | ints v => unfold addressOk first; dsimp only; split
              · exact .inl rfl
              · exact .inr ⟨_, rfl⟩
  | dbls v => unfold addressOk first; dsimp only; split
              · exact .inl rfl
              · exact .inr ⟨_, rfl⟩
  | text _ => exact .inl rfl

omit [Arith α] in
theorem Ends.ub_then {F : Prop} {p : Prog (WSt α) Unit} {q : Unit → Prog (WSt α) Unit} {a : Core α}
    (h : Ends F p a IsUb) : Ends F (p >>= q) a IsUb := by
  intro c l
  rcases h c l with ⟨hF, m, w, h⟩ | ⟨x, h⟩
  · exact .inl ⟨hF, m, w, by rw [Prog.bind_def, h]⟩
  · exact .inr ⟨x, by rw [Prog.bind_def, h]⟩

omit [Arith α] in
/-- `put` of a vector without elements. -/
theorem put_ub {d : VarDef α} {a : Core α} {x : String} (h : addressOk (d.ptr a.mem) = ub x)
    (hd : d.dims.length ≤ 1) (hn : d.name ∉ a.nc.defs.map (·.name)) :
    Ends (MayFail env) (ncPut env d) a IsUb := by
  unfold ncPut
  refine .get (fun _ _ => rfl) ?_
  refine .lift (x := ()) (by rw [if_neg (by omega)]) ?_
  refine .after (b := { a with nc := { a.nc with defs := a.nc.defs ++ [d] } }) (.call ?_) ?_
  · unfold defVar
    dsimp only
    rw [if_neg (by simpa using hn)]
  · intro c l
    right
    refine ⟨x, ?_⟩
    rw [Prog.bind_def]
    unfold Prog.lift
    rw [h]

omit [Arith α] in
theorem puts_ub : ∀ {ds : List (VarDef α)} {a : Core α} {d : VarDef α} {x : String},
    d ∈ ds → (∀ e ∈ ds, e.dims.length ≤ 1) → addressOk (d.ptr a.mem) = ub x →
    ((a.nc.defs ++ ds).map (·.name)).Nodup → Ends (MayFail env) (ncPuts env ds) a IsUb
  | [], _, _, _, hd, _, _, _ => by simp at hd
  | e :: ds, a, d, x, hd, hl, hu, hn => by
    have hne : e.name ∉ a.nc.defs.map (·.name) := by
      intro hm
      rw [List.map_append, List.nodup_append] at hn
      exact hn.2.2 _ hm _ (by simp) rfl
    rw [ncPuts]
    rcases addressOk_cases (e.ptr a.mem) with h | ⟨y, h⟩
    · have hd' : d ∈ ds := by
        rcases List.mem_cons.1 hd with h' | h'
        · subst h'; rw [hu] at h; cases h
        · exact h'
      refine .after (runs_put h hne) ?_
      exact puts_ub (a := { a with nc := { a.nc with defs := a.nc.defs ++ [e] } }) hd'
        (fun x hx => hl x (List.mem_cons_of_mem _ hx)) hu (by simpa using hn)
    · exact (put_ub h (hl e (by simp)) hne).ub_then

theorem first_empty {β : Type} {v : Vec β} (h : v.size = 0) :
    first v = ub "address of a cell of an empty array" := by
  unfold first; rw [if_neg (by omega)]

/-- Flux profiles of which one is too short: whatever else, the behaviour is undefined. -/
theorem write_flux_ub (h : HasResults (withoutFlux s) K nb nb ns asym) (hv : VersionOk version)
    (he : NoFailure env) (h0 : s.flux.phip.size ≠ 0)
    (hs : s.flux.phip.size < ns + 1 ∨ s.flux.chi.size < ns + 1 ∨ s.flux.pres.size < ns + 1 ∨
      s.flux.phi.size < ns + 1) :
    ∃ x, writeBoozmn env version filename disk s = .ub x := by
  have hF : ¬ MayFail env := by
    rintro ⟨k, m, hk⟩
    rw [he k] at hk; cases hk
  have hfl : decide (s.flux.phip.size ≠ 0) = true := by simp [h0]
  unfold writeBoozmn writeBoozmnW
  by_cases hf : 1 ≤ s.flux.chi.size ∧ 1 ≤ s.flux.pres.size ∧ 1 ≤ s.flux.phi.size
  · rcases define_ok' (env := env) (filename := filename) (disk := disk) h hv (Nat.le_refl _) (.inr hf) 0 []
      with ⟨hF', _⟩ | ⟨c', l', hx⟩
    · exact absurd hF' hF
    · rw [Prog.bind_def, hx]
      rw [hfl]
      dsimp only
      unfold writeAndClose
      rw [Prog.bind_def]
      unfold ncCall
      dsimp only
      rw [he c']
      dsimp only
      rw [Prog.get_bind]
      have key : ∃ d ∈ (fluxDefs : List (VarDef α)), fetch (dimCount (bzDims K nb ns (longVersion version).utf8ByteSize) d.dims)
          (d.ptr ⟨writtenObj true s, bzLoc version nb ns true asym s⟩) = ub "read past the end of an array" := by
        have past : ∀ (v : Vec α), v.size < ns + 1 →
            fetch (dimCount (bzDims K nb ns (longVersion version).utf8ByteSize) ["radius"]) (.dbls v) =
              ub "read past the end of an array" := by
          intro v hv
          rw [count_radius]
          unfold fetch
          dsimp only
          rw [if_neg (by omega)]
        rcases hs with hs | hs | hs | hs
        · exact ⟨_, List.mem_cons_self, past _ (by simpa [writtenObj] using hs)⟩
        · exact ⟨_, List.mem_cons_of_mem _ List.mem_cons_self, past _ hs⟩
        · exact ⟨_, List.mem_cons_of_mem _ (List.mem_cons_of_mem _ List.mem_cons_self), past _ hs⟩
        · exact ⟨_, List.mem_cons_of_mem _ (List.mem_cons_of_mem _ (List.mem_cons_of_mem _ List.mem_cons_self)),
            past _ hs⟩
      obtain ⟨d, hd, hu⟩ := key
      obtain ⟨x, hp⟩ := putVars_ub (env := env)
        (ds := bzDefs (longVersion version).utf8ByteSize true asym)
        (a := ⟨⟨writtenObj true s, bzLoc version nb ns true asym s⟩,
          disk.put filename .broken,
          ⟨filename, bzDims K nb ns (longVersion version).utf8ByteSize,
            bzDefs (longVersion version).utf8ByteSize true asym, []⟩⟩)
        (d := d) (by simp [bzDefs, hd]) (fun _ _ => fetch_cases _ _) hu he (c' + 1)
        (disk.put filename .broken :: l')
      exact ⟨x, bind_ub hp⟩
  · have key : Ends (MayFail env) (writeFlux env (decide (s.flux.phip.size ≠ 0)))
        ⟨⟨s, headLoc version nb ns asym s⟩, disk.put filename .broken,
          ⟨filename, bzDims K nb ns (longVersion version).utf8ByteSize,
            headDefs (longVersion version).utf8ByteSize, []⟩⟩ IsUb := by
      rw [hfl]
      unfold writeFlux
      rw [if_pos rfl]
      refine .after (b := ⟨⟨writtenObj true s, headLoc version nb ns asym s⟩, disk.put filename .broken,
        ⟨filename, bzDims K nb ns (longVersion version).utf8ByteSize,
          headDefs (longVersion version).utf8ByteSize, []⟩⟩) ?_ ?_
      · refine Runs.mem (a := ⟨⟨s, headLoc version nb ns asym s⟩, _, _⟩)
          (m := ⟨writtenObj true s, headLoc version nb ns asym s⟩) ?_
        dsimp only
        unfold Vec.wrN
        rw [if_pos (by omega)]
        rfl
      · have : ∃ d ∈ (fluxDefs : List (VarDef α)), ∃ x,
            addressOk (d.ptr ⟨writtenObj true s, headLoc version nb ns asym s⟩) = ub x := by
          have : s.flux.chi.size = 0 ∨ s.flux.pres.size = 0 ∨ s.flux.phi.size = 0 := by omega
          rcases this with h | h | h
          · exact ⟨_, List.mem_cons_of_mem _ List.mem_cons_self, _, first_empty h⟩
          · exact ⟨_, List.mem_cons_of_mem _ (List.mem_cons_of_mem _ List.mem_cons_self), _, first_empty h⟩
          · exact ⟨_, List.mem_cons_of_mem _ (List.mem_cons_of_mem _ (List.mem_cons_of_mem _ List.mem_cons_self)),
              _, first_empty h⟩
        obtain ⟨d, hd, x, hx⟩ := this
        refine puts_ub hd ?_ hx (nodup_take (k := 22) rfl)
        intro e he
        simp only [fluxDefs, List.mem_cons, List.not_mem_nil, or_false] at he
        rcases he with rfl | rfl | rfl | rfl <;> exact Nat.le_refl _
    rcases define_head (env := env) (filename := filename) (disk := disk) (Q := IsUb) h hv (Nat.le_refl _)
      key.ub_then 0 [] with ⟨hF', _⟩ | ⟨x, hx⟩
    · exact absurd hF' hF
    · exact ⟨x, bind_ub hx⟩

/-! ### Profiles that are longer than needed -/

omit [Arith α] in
/-- As `runs_putVars`, when what is read is the data of another memory. -/
theorem runs_putVars' {m' : Mem α} : ∀ {ds : List (VarDef α)} {a : Core α},
    (∀ d ∈ ds, fetch (dimCount a.nc.dims d.dims) (d.ptr a.mem) = .ok (d.ptr m')) →
    Runs (MayFail env) (putVars env ds) a
      { a with nc := { a.nc with written := a.nc.written ++ ds.map (·.toVar m') } }
  | [], a, _ => by
    rw [List.map_nil, List.append_nil]
    exact .pure
  | d :: ds, a, h => by
    unfold putVars
    refine .bind (.call (b := { a with nc := { a.nc with written := a.nc.written ++ [d.toVar m'] } }) ?_) ?_
    · unfold putVar
      rw [h d (by simp)]; rfl
    · have := runs_putVars' (ds := ds)
        (a := { a with nc := { a.nc with written := a.nc.written ++ [d.toVar m'] } })
        (fun x hx => h x (by simp [hx]))
      simpa [List.append_assoc] using this

omit [Arith α] in
theorem runs_close' {m' : Mem α} {a : Core α} (hw : a.nc.written = [])
    (h : ∀ d ∈ a.nc.defs, fetch (dimCount a.nc.dims d.dims) (d.ptr a.mem) = .ok (d.ptr m')) :
    Runs (MayFail env) (writeAndClose env) a
      { a with
        nc := { a.nc with written := a.nc.defs.map (·.toVar m') }
        disk := a.disk.put a.nc.path (.nc ⟨a.nc.dims, a.nc.defs.map (·.toVar m')⟩) } := by
  unfold writeAndClose
  refine .bind (.call (b := a) rfl) (.get (fun _ _ => rfl) (.bind (runs_putVars' h) (.call ?_)))
  unfold ncClose
  rw [hw]
  rfl

omit [Arith α] in
theorem extract_extract {v : Vec α} {n : Nat} (h : n ≤ v.size) :
    fetch n (.dbls v) = fetch n (.dbls (v.extract 0 n)) := by
  unfold fetch
  dsimp only
  have : (v.extract 0 n).size = n := by simp; omega
  rw [if_pos h, if_pos (by omega)]
  simp

omit [Arith α] in
theorem extract_set {v : Vec α} {n : Nat} (x : Option α) (hn : 0 < n) :
    (v.set! 0 x).extract 0 n = (v.extract 0 n).set! 0 x := by
  apply Array.ext_getElem?
  intro i
  rcases Nat.eq_zero_or_pos i with rfl | hi
  · by_cases hv : 0 < v.size
    · simp [Array.getElem?_extract, Array.getElem?_setIfInBounds, hv]
    · have : v = #[] := Array.eq_empty_of_size_eq_zero (by omega)
      subst this
      simp
  · have h : ¬ (0 = i) := by omega
    simp only [Array.getElem?_extract, Array.set!_eq_setIfInBounds, Array.getElem?_setIfInBounds,
      Array.size_setIfInBounds, Nat.zero_add, if_neg h]

theorem write_long (h : HasResults (withoutFlux s) K nb nb ns asym) (hv : VersionOk version)
    (h0 : s.flux.phip.size ≠ 0)
    (hs : ns + 1 ≤ s.flux.phip.size ∧ ns + 1 ≤ s.flux.chi.size ∧ ns + 1 ≤ s.flux.pres.size ∧
      ns + 1 ≤ s.flux.phi.size) :
    Runs (MayFail env) (writeBoozmnW env version filename) ⟨⟨s, {}⟩, disk, ⟨"", [], [], []⟩⟩
      ⟨⟨writtenObj true s, bzLoc version nb ns true asym s⟩,
        disk.put filename (.nc (bzFile version K nb ns asym (cutFlux (ns + 1) s))),
        ⟨filename, bzDims K nb ns (longVersion version).utf8ByteSize,
          bzDefs (longVersion version).utf8ByteSize true asym,
          (bzFile version K nb ns asym (cutFlux (ns + 1) s)).vars⟩⟩ := by
  obtain ⟨s1, s2, s3, s4⟩ := hs
  have hfl : decide (s.flux.phip.size ≠ 0) = true := by simp [h0]
  have hc1 : (cutFlux (ns + 1) s).flux.phip.size = ns + 1 := by simp [cutFlux]; omega
  have hc : HasResults (cutFlux (ns + 1) s) K nb nb ns asym :=
    ⟨h.1, h.2, h.3, h.4, h.5, h.6, h.7, h.8, h.9, h.10, h.11, h.12, h.13, h.14, h.15, h.16, h.17, h.18, h.19, h.20,
      h.21, h.22, h.23, .inr ⟨hc1, by simp [cutFlux]; omega, by simp [cutFlux]; omega, by simp [cutFlux]; omega⟩⟩
  have hfl' : decide ((cutFlux (ns + 1) s).flux.phip.size ≠ 0) = true := by simp [hc1]
  have hf := fetch_all (version := version) hc
  rw [hfl'] at hf
  unfold writeBoozmnW
  have hd := define_ok' (env := env) (filename := filename) (disk := disk) h hv (Nat.le_refl _)
    (.inr ⟨by omega, by omega, by omega⟩)
  rw [hfl] at hd
  refine .bind hd ?_
  have := runs_close' (env := env) (a := ⟨⟨writtenObj true s, bzLoc version nb ns true asym s⟩,
        disk.put filename .broken,
        ⟨filename, bzDims K nb ns (longVersion version).utf8ByteSize,
          bzDefs (longVersion version).utf8ByteSize true asym, []⟩⟩)
    (m' := ⟨writtenObj true (cutFlux (ns + 1) s), bzLoc version nb ns true asym (cutFlux (ns + 1) s)⟩) rfl ?_
  · dsimp only at this
    rw [put_put] at this
    unfold bzFile
    rw [hfl']
    exact this
  · intro d hd
    have e := hf d hd
    rw [← e]
    simp only [bzDefs, headDefs, List.mem_append, List.nil_append] at hd
    rcases hd with ((((((((((hd | hd) | hd) | hd) | hd) | hd) | hd) | hd) | hd)) | hd)
    · rw [List.mem_singleton] at hd
      subst hd
      rfl
    · simp only [scalarDefs, List.mem_cons, List.not_mem_nil, or_false] at hd
      rcases hd with rfl | rfl | rfl | rfl | rfl | rfl | rfl <;> rfl
    · simp only [zeroDefs, List.mem_cons, List.not_mem_nil, or_false] at hd
      rcases hd with rfl | rfl | rfl <;> rfl
    · simp only [listDefs, List.mem_cons, List.not_mem_nil, or_false] at hd
      rcases hd with rfl | rfl | rfl <;> rfl
    · simp only [profileDefs, List.mem_cons, List.not_mem_nil, or_false] at hd
      rcases hd with rfl | rfl | rfl <;> rfl
    · simp only [betaDefs, List.mem_cons, List.not_mem_nil, or_false] at hd
      subst hd
      rfl
    · simp only [fluxDefs, List.mem_cons, List.not_mem_nil, or_false, if_true] at hd
      rcases hd with rfl | rfl | rfl | rfl
      all_goals
        show fetch (dimCount _ ["radius"]) _ = fetch (dimCount _ ["radius"]) _
        rw [count_radius]
      · show fetch (ns + 1) (.dbls (s.flux.phip.set! 0 _)) = fetch (ns + 1) (.dbls ((s.flux.phip.extract 0 (ns + 1)).set! 0 _))
        rw [← extract_set _ (by omega)]
        exact extract_extract (by simpa using s1)
      · exact extract_extract s2
      · exact extract_extract s3
      · exact extract_extract s4
    · simp only [matDefs1, List.mem_cons, List.not_mem_nil, or_false] at hd
      rcases hd with rfl | rfl | rfl <;> rfl
    · simp only [matDefs2, List.mem_cons, List.not_mem_nil, or_false] at hd
      rcases hd with rfl | rfl <;> rfl
    · cases asym with
      | false => simp at hd
      | true =>
        simp only [asymDefs1, asymDefs2, List.cons_append, List.nil_append, List.mem_cons,
          List.not_mem_nil, or_false, if_true] at hd
        rcases hd with rfl | rfl | rfl | rfl | rfl <;> rfl

/-- What an object with long profiles leaves. -/
theorem write_long_result (h : HasResults (withoutFlux s) K nb nb ns asym) (hv : VersionOk version)
    (h0 : s.flux.phip.size ≠ 0)
    (hs : ns + 1 ≤ s.flux.phip.size ∧ ns + 1 ≤ s.flux.chi.size ∧ ns + 1 ≤ s.flux.pres.size ∧
      ns + 1 ≤ s.flux.phi.size) (he : NoFailure env) :
    ∃ w, writeBoozmn env version filename disk s = .ok () w ∧
      w.core.disk = disk.put filename (.nc (bzFile version K nb ns asym (cutFlux (ns + 1) s))) := by
  rcases write_long (env := env) (filename := filename) (disk := disk) h hv h0 hs 0 [] with
    ⟨⟨k, m, hk⟩, _⟩ | ⟨c, l, e⟩
  · rw [he k] at hk; cases hk
  · exact ⟨_, e, rfl⟩

end Booz
