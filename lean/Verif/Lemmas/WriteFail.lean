import Verif.Lemmas.WriteBoozmn

/-!
# `write_boozmn` when it does not succeed, and what happens to the file system
-/

namespace Booz
open Spec
variable {α : Type}

/-- An exception with message `m` while the file system is `d`. -/
def Throws (m : String) (d : Disk α) (o : Out (WSt α) Unit) : Prop :=
  ∃ w, o = .exc m w ∧ w.core.disk = d

theorem ends_loc_ub [Arith α] {F : Prop} {a : Core α} {g : Mem α → Res (Locals α)} {x : String}
    {q : Unit → Prog (WSt α) Unit} (h : g a.mem = ub x) : Ends F (setLoc g >>= q) a IsUb := by
  intro c l
  right
  refine ⟨x, ?_⟩
  rw [Prog.bind_def]
  unfold setLoc setMem Prog.modify
  simp only [Prog.bind_def, Prog.get, Prog.lift, h, ub_bind]

theorem ends_call_throw {a : Core α} {env : Env} {eff : Core α → Res (Core α)} {m : String}
    {q : Unit → Prog (WSt α) Unit} (h : eff a = thrown m) :
    Ends (MayFail env) (ncCall env eff >>= q) a (Throws m a.disk) := by
  intro c l
  rw [Prog.bind_def]
  unfold ncCall
  dsimp only
  cases he : env c with
  | some m => exact .inl ⟨⟨c, m, he⟩, m, _, rfl⟩
  | none =>
    right
    rw [h]
    exact ⟨_, rfl, rfl⟩

theorem ends_throws_bind {F : Prop} {a : Core α} {p : Prog (WSt α) Unit}
    {q : Unit → Prog (WSt α) Unit} {m : String} {d : Disk α} (h : Ends F p a (Throws m d)) :
    Ends F (p >>= q) a (Throws m d) := by
  intro c l
  rw [Prog.bind_def]
  rcases h c l with ⟨hF, m', w, h⟩ | ⟨w, h, hd⟩
  · exact .inl ⟨hF, m', w, by rw [h]⟩
  · exact .inr ⟨w, by rw [h], hd⟩

theorem rdN_past {β : Type} {v : Vec β} {j : Nat} (h : v.size ≤ j) :
    v.rdN j = ub "index out of range" := by
  unfold Vec.rdN
  rw [Array.getElem?_eq_none h]

/-- A loop whose body is undefined at some iteration, and otherwise successful or undefined. -/
theorem loop_ub {σ : Type} {body : Nat → σ → Res σ} {k : Nat} : ∀ {n : Nat}, k < n →
    (∀ j s, (∃ s', body j s = .ok s') ∨ ∃ x, body j s = ub x) → (∀ s, ∃ x, body k s = ub x) →
    ∀ s, ∃ x, loop n body s = ub x
  | n + 1, hk, hall, hu, s => by
    show ∃ x, (loop n body s >>= body n) = ub x
    by_cases e : k = n
    · subst e
      have hl : (∃ s', loop k body s = .ok s') ∨ ∃ x, loop k body s = ub x := by
        clear hk hu
        induction k with
        | zero => exact .inl ⟨s, rfl⟩
        | succ j ih =>
          show (∃ s', (loop j body s >>= body j) = .ok s') ∨ ∃ x, (loop j body s >>= body j) = ub x
          rcases ih with ⟨s', h⟩ | ⟨x, h⟩
          · rw [h, ok_bind]; exact hall j s'
          · rw [h, ub_bind]; exact .inr ⟨x, rfl⟩
      rcases hl with ⟨s', h⟩ | ⟨x, h⟩
      · rw [h, ok_bind]; exact hu s'
      · rw [h, ub_bind]; exact ⟨x, rfl⟩
    · obtain ⟨x, h⟩ := loop_ub (n := n) (by omega) hall hu s
      exact ⟨x, by rw [h, ub_bind]⟩

theorem jlistOf_ub {nb : Nat} {surfs : Vec Int} (h : surfs.size < nb) :
    ∃ x, jlistOf (some (nb : Int)) surfs = ub x := by
  unfold jlistOf
  obtain ⟨w, hw, _⟩ := Vec.resize_size (#[] : Vec Int) (n := (nb : Int)) (by omega)
  rw [show need (some (nb : Int)) "ns_b" = .ok (nb : Int) from rfl, ok_bind, hw, ok_bind,
    Int.toNat_natCast]
  refine loop_ub h ?_ ?_ w
  · intro j s
    cases hr : surfs.rdN j with
    | error f =>
      right
      unfold Vec.rdN at hr
      split at hr
      · cases hr
      · cases hr; exact ⟨_, rfl⟩
      · cases hr; exact ⟨_, rfl⟩
    | ok x =>
      rw [ok_bind]
      cases hi : i32 (x + 2) with
      | error f =>
        right
        unfold i32 at hi
        split at hi
        · cases hi
        · cases hi; exact ⟨_, rfl⟩
      | ok y =>
        rw [ok_bind]
        unfold Vec.wrN
        split
        · exact .inl ⟨_, rfl⟩
        · exact .inr ⟨_, rfl⟩
  · intro s
    rw [rdN_past (Nat.le_refl _), ub_bind]
    exact ⟨_, rfl⟩

variable [Arith α]

section
variable {env : Env} {version filename : String} {disk : Disk α} {s : St α} {K nb nc ns : Nat}
  {asym : Bool}

/-- Fewer surfaces in `compute_surfs` than results: `jlist` is filled from past its end. -/
theorem define_ub (h : HasResults s K nb nc ns asym) (hv : VersionOk version) (h1 : 1 ≤ nc)
    (hc : nc < nb) :
    Ends (MayFail env) (defineBoozmn env version filename) ⟨⟨s, {}⟩, disk, ⟨"", [], [], []⟩⟩ IsUb := by
  have hfit := h.ns_fit
  have hK := h.K_fit
  have hKp := h.K_pos
  unfold defineBoozmn defineVars
  refine .after (.call (b := ⟨⟨s, {}⟩, disk.put filename .broken, ⟨filename, [], [], []⟩⟩) rfl) ?_
  refine .get (fun _ _ => rfl) ?_
  refine .lift (x := (ns : Int)) (by dsimp only; rw [h.ns_in]; rfl) ?_
  refine .lift (x := ((ns + 1 : Nat) : Int)) (by
    rw [i32_ok ⟨by omega, by omega⟩]; push_cast; rfl) ?_
  refine .after (step_dim (by omega) (by omega) rfl) ?_
  refine .lift (x := (K : Int)) (by dsimp only; rw [h.mnboz]; rfl) ?_
  refine .after (step_dim h.K_pos h.K_fit rfl) ?_
  refine .after (step_dim h.K_pos h.K_fit rfl) ?_
  dsimp only
  rw [h.surfs_size]
  refine .after (step_dim h1 h.nc_fit rfl) ?_
  refine .after (step_dim h1 h.nc_fit rfl) ?_
  refine .after (step_loc (l' := { long_version := longVersion version }) rfl) ?_
  refine .after (runs_strDim (version_pos version) hv) ?_
  refine .after (b := ⟨⟨s, { long_version := longVersion version }⟩, disk.put filename .broken,
    ⟨filename, bzDims K nc ns (longVersion version).utf8ByteSize,
      [] ++ [versionDef (longVersion version).utf8ByteSize], []⟩⟩) ?_ ?_
  · exact runs_put (a := ⟨⟨s, { long_version := longVersion version }⟩, disk.put filename .broken,
      ⟨filename, bzDims K nc ns (longVersion version).utf8ByteSize, [], []⟩⟩)
      (d := versionDef (longVersion version).utf8ByteSize) rfl (by simp)
  refine .lift (x := asym) (by rw [h.asym_eq]; rfl) ?_
  refine .after (step_loc (l' := {
    long_version := longVersion version,
    asym_int := some (if asym then 1 else 0), ns := some ((ns : Int) + 1) }) rfl) ?_
  refine .after (step_puts ?_ (nodup_take (k := 8) rfl)) ?_
  · intro d hd
    simp only [scalarDefs, List.mem_cons, List.not_mem_nil, or_false] at hd
    rcases hd with rfl | rfl | rfl | rfl | rfl | rfl | rfl <;> exact first_ok (n := 1) rfl (by omega)
  refine .after (step_loc (l' := {
    long_version := longVersion version,
    asym_int := some (if asym then 1 else 0), ns := some ((ns : Int) + 1),
    rmax_b := some (ofInt 0), rmin_b := some (ofInt 0), betaxis_b := some (ofInt 0) }) rfl) ?_
  refine .after (step_puts ?_ (nodup_take (k := 11) rfl)) ?_
  · intro d hd
    simp only [zeroDefs, List.mem_cons, List.not_mem_nil, or_false] at hd
    rcases hd with rfl | rfl | rfl <;> exact first_ok (n := 1) rfl (by omega)
  obtain ⟨x, hx⟩ := jlistOf_ub (nb := nb) (surfs := s.inp.compute_surfs)
    (by rw [h.surfs_size]; exact hc)
  refine ends_loc_ub (x := x) ?_
  dsimp only
  rw [h.ns_b, hx, ub_bind]

omit [Arith α] in
theorem bind_ub {p : Prog (WSt α) Unit} {q : Unit → Prog (WSt α) Unit} {w : WSt α} {x : String}
    (h : p w = .ub x) : (p >>= q) w = .ub x := by rw [Prog.bind_def, h]

omit [Arith α] in
theorem fetch_cases (n : Nat) (d : NcData α) : (∃ y, fetch n d = .ok y) ∨ ∃ w, fetch n d = ub w := by
  unfold fetch
  cases d with
  | ints v =>
    dsimp only
    split
    · exact .inl ⟨_, rfl⟩
    · exact .inr ⟨_, rfl⟩
  | dbls v =>
    dsimp only
    split
    · exact .inl ⟨_, rfl⟩
    · exact .inr ⟨_, rfl⟩
  | text v =>
    dsimp only
    split
    · exact .inl ⟨_, rfl⟩
    · exact .inr ⟨_, rfl⟩

/-- Whenever `compute_surfs` no longer has as many entries as there are results (and is not empty)
the behaviour is undefined. -/
theorem write_ub (h : HasResults s K nb nc ns asym) (hv : VersionOk version) (h1 : 1 ≤ nc)
    (hc : nc ≠ nb) (he : NoFailure env) :
    ∃ x, writeBoozmn env version filename disk s = .ub x := by
  have hF : ¬ MayFail env := by
    rintro ⟨k, m, hk⟩
    rw [he k] at hk; cases hk
  unfold writeBoozmn writeBoozmnW
  rcases Nat.lt_or_gt_of_ne hc with hlt | hgt
  · rcases define_ub (env := env) (filename := filename) (disk := disk) h hv h1 hlt 0 [] with
      ⟨hF', _⟩ | ⟨x, hx⟩
    · exact absurd hF' hF
    · exact ⟨x, bind_ub hx⟩
  · rcases define_ok (env := env) (filename := filename) (disk := disk) h hv (Nat.le_of_lt hgt) 0 []
      with ⟨hF', _⟩ | ⟨c', l', hx⟩
    · exact absurd hF' hF
    · rw [Prog.bind_def, hx]
      dsimp only
      unfold writeAndClose
      rw [Prog.bind_def]
      unfold ncCall
      dsimp only
      rw [he c']
      dsimp only
      rw [Prog.get_bind]
      obtain ⟨x, hp⟩ := putVars_ub (env := env)
        (ds := bzDefs (longVersion version).utf8ByteSize (decide (s.flux.phip.size ≠ 0)) asym)
        (a := ⟨⟨writtenObj (decide (s.flux.phip.size ≠ 0)) s,
            bzLoc version nb ns (decide (s.flux.phip.size ≠ 0)) asym s⟩,
          disk.put filename .broken,
          ⟨filename, bzDims K nc ns (longVersion version).utf8ByteSize,
            bzDefs (longVersion version).utf8ByteSize (decide (s.flux.phip.size ≠ 0)) asym, []⟩⟩)
        (d := ivecVar "comput_surfs" "jlist" (·.loc.jlist)
          "1-based radial indices of the original vmec solution for which the transformation to Boozer coordinates was computed. 2 corresponds to the first half-grid point." "dimensionless")
        (x := "read past the end of an array")
        (by simp [bzDefs, headDefs, listDefs]) (fun _ _ => fetch_cases _ _)
        (by
          show fetch (dimCount _ ["comput_surfs"]) (.ints (Vec.tab nb _)) = _
          rw [count_surfs]
          unfold fetch
          dsimp only
          rw [if_neg (by rw [size_tab]; omega)]) he (c' + 1) (disk.put filename .broken :: l')
      exact ⟨x, bind_ub hp⟩

/-! ## Empty selection -/

omit [Arith α] in
theorem step_dim_zero {m : Mem α} {path name : String} {dims : List (String × Nat)}
    {defs : List (VarDef α)} (hn : dims.any (·.1 == name) = false) (hz : dims.any (·.2 == 0) = false) :
    Runs (MayFail env) (ncCall env (defDim name ((0 : Nat) : Int))) ⟨m, disk, ⟨path, dims, defs, []⟩⟩
      ⟨m, disk, ⟨path, dims ++ [(name, 0)], defs, []⟩⟩ := by
  refine .call ?_
  unfold defDim
  dsimp only
  rw [if_neg (by omega), if_neg (by rw [hn]; decide), if_neg (by rw [hz]; simp)]
  rfl

/-- With an empty `compute_surfs` the second zero-length dimension is refused. -/
theorem write_empty (h1 : s.inp.ns_in = some (ns : Int)) (h2 : s.out.mnboz = some (K : Int))
    (hns : ns + 1 ≤ 2147483644) (hK1 : 1 ≤ K) (hK2 : K ≤ 2147483644)
    (h0 : s.inp.compute_surfs.size = 0) :
    Ends (MayFail env) (writeBoozmnW env version filename) ⟨⟨s, {}⟩, disk, ⟨"", [], [], []⟩⟩
      (Throws "NetCDF: NC_UNLIMITED size already in use" (disk.put filename .broken)) := by
  unfold writeBoozmnW
  refine ends_throws_bind ?_
  unfold defineBoozmn defineVars
  refine .after (.call (b := ⟨⟨s, {}⟩, disk.put filename .broken, ⟨filename, [], [], []⟩⟩) rfl) ?_
  refine .get (fun _ _ => rfl) ?_
  refine .lift (x := (ns : Int)) (by dsimp only; rw [h1]; rfl) ?_
  refine .lift (x := ((ns + 1 : Nat) : Int)) (by
    rw [i32_ok ⟨by omega, by omega⟩]; push_cast; rfl) ?_
  refine .after (step_dim (by omega) (by omega) rfl) ?_
  refine .lift (x := (K : Int)) (by dsimp only; rw [h2]; rfl) ?_
  refine .after (step_dim hK1 hK2 rfl) ?_
  refine .after (step_dim hK1 hK2 rfl) ?_
  dsimp only
  rw [h0]
  refine .after (step_dim_zero rfl ?_) ?_
  · have e : ((K == 0) : Bool) = false := by simp; omega
    simp [e]
  refine ends_call_throw (a := ⟨⟨s, {}⟩, disk.put filename .broken, ⟨filename, _, _, _⟩⟩) ?_
  unfold defDim
  dsimp only
  rw [if_neg (by omega), if_neg (by simp), if_pos (by simp)]

end

/-! ## The file system -/

/-- The file being written is `path`, and the file system is, and was at every library call since it
was created, `D`. -/
def Steady (path : String) (D : Disk α) (w : WSt α) : Prop :=
  w.core.nc.path = path ∧ w.core.disk = D ∧ w.log ≠ [] ∧ ∀ d ∈ w.log, d = D

/-- The same, for an outcome. -/
def SteadyOut {β : Type} (path : String) (D : Disk α) : Out (WSt α) β → Prop
  | .ok _ w => Steady path D w
  | .exc _ w => Steady path D w
  | _ => True

/-- The program does not touch the file system. -/
def Keeps {β : Type} (path : String) (D : Disk α) (p : Prog (WSt α) β) : Prop :=
  ∀ w, Steady path D w → SteadyOut path D (p w)

namespace Keeps
variable {path : String} {D : Disk α} {β γ : Type}

omit [Arith α] in
theorem pure (x : β) : Keeps path D (Pure.pure x : Prog (WSt α) β) := fun _ hw => hw

omit [Arith α] in
theorem bind {p : Prog (WSt α) β} {q : β → Prog (WSt α) γ} (hp : Keeps path D p)
    (hq : ∀ x, Keeps path D (q x)) : Keeps path D (p >>= q) := by
  intro w hw
  have h := hp w hw
  rw [Prog.bind_def]
  cases hr : p w with
  | ok x w' => rw [hr] at h; exact hq x w' h
  | exc m w' => rw [hr] at h; exact h
  | abort x => trivial
  | ub x => trivial

omit [Arith α] in
theorem get : Keeps path D (Prog.get : Prog (WSt α) (WSt α)) := fun _ hw => hw

omit [Arith α] in
theorem lift (r : Res β) : Keeps path D (Prog.lift r : Prog (WSt α) β) := by
  intro w hw
  rcases r with (f | x)
  · cases f
    · exact hw
    · trivial
    · trivial
  · exact hw

omit [Arith α] in
theorem call {env : Env} {eff : Core α → Res (Core α)}
    (h : ∀ c c', eff c = .ok c' → c'.disk = c.disk ∧ c'.nc.path = c.nc.path) :
    Keeps path D (ncCall env eff) := by
  intro w hw
  unfold ncCall
  split
  · exact hw
  · split
    · next c hc =>
      obtain ⟨h1, h2⟩ := h _ _ hc
      refine ⟨h2.trans hw.1, h1.trans hw.2.1, by simp, ?_⟩
      intro d hd
      rcases List.mem_cons.1 hd with e | hd
      · rw [e, h1]; exact hw.2.1
      · exact hw.2.2.2 d hd
    · exact hw
    · trivial
    · trivial

omit [Arith α] in
theorem mem (g : Mem α → Res (Mem α)) : Keeps path D (setMem g) := by
  unfold setMem Prog.modify
  intro w hw
  simp only [Prog.bind_def, Prog.get, Prog.lift]
  cases hg : g w.core.mem with
  | ok m => exact hw
  | error f =>
    cases f
    · exact hw
    · trivial
    · trivial

theorem loc (g : Mem α → Res (Locals α)) : Keeps path D (setLoc g) := mem _

omit [Arith α] in
theorem dim {env : Env} (name : String) (n : Int) : Keeps path D (ncCall (α := α) env (defDim name n)) := by
  refine call fun c c' h => ?_
  unfold defDim at h
  split at h
  · cases h
  split at h
  · cases h
  split at h
  · cases h
  · cases h; exact ⟨rfl, rfl⟩

omit [Arith α] in
theorem att {env : Env} (x : String) : Keeps path D (putAtt (α := α) env x) := by
  unfold putAtt
  split
  · exact call fun c c' h => by cases h; exact ⟨rfl, rfl⟩
  · exact pure _

omit [Arith α] in
theorem put {env : Env} (d : VarDef α) : Keeps path D (ncPut env d) := by
  unfold ncPut
  refine bind get fun w => bind (lift _) fun _ => bind (call fun c c' h => ?_) fun _ =>
    bind (lift _) fun _ => bind (att _) fun _ => att _
  unfold defVar at h
  split at h
  · cases h
  · cases h; exact ⟨rfl, rfl⟩

omit [Arith α] in
theorem puts {env : Env} : ∀ ds : List (VarDef α), Keeps path D (ncPuts env ds)
  | [] => pure _
  | d :: ds => bind (put d) fun _ => puts ds

omit [Arith α] in
theorem str {env : Env} (n : Nat) : Keeps path D (strDim (α := α) env n) := by
  unfold strDim
  refine bind get fun w => ?_
  split
  · exact pure _
  · exact dim _ _

omit [Arith α] in
theorem vars {env : Env} : ∀ ds : List (VarDef α), Keeps path D (putVars env ds)
  | [] => pure _
  | d :: ds => by
    unfold putVars
    refine bind (call fun c c' h => ?_) fun _ => vars ds
    unfold putVar at h
    obtain ⟨x, -, h⟩ := bind_ok h
    cases h; exact ⟨rfl, rfl⟩

theorem flux {env : Env} (b : Bool) : Keeps path D (writeFlux (α := α) env b) := by
  unfold writeFlux
  cases b
  · exact bind (loc _) fun _ => puts _
  · exact bind (mem _) fun _ => puts _

theorem asymVars {env : Env} (b : Bool) : Keeps path D (writeAsym (α := α) env b) := by
  unfold writeAsym
  cases b
  · exact pure _
  · exact bind (puts _) fun _ => bind (loc _) fun _ => puts _

end Keeps

omit [Arith α] in
/-- After the file has been created the definition part leaves the file system alone. -/
theorem create_cases {env : Env} {filename : String} (w : WSt α) :
    (∃ m w', ncCreate env filename w = .exc m w' ∧ w'.core = w.core ∧ w'.log = w.log) ∨
    ∃ w', ncCreate env filename w = .ok () w' ∧
      w'.log = w.core.disk.put filename .broken :: w.log ∧
      w'.core.disk = w.core.disk.put filename .broken ∧ w'.core.nc.path = filename := by
  unfold ncCreate ncCall
  cases env w.calls with
  | some m => exact .inl ⟨m, _, rfl, rfl, rfl⟩
  | none => exact .inr ⟨_, rfl, rfl, rfl, rfl⟩

/-- The definition part after the creation of the file. -/
def DefineRest (env : Env) (version filename : String) : Prop :=
  ∃ rest : Unit → Prog (WSt α) Unit, defineBoozmn env version filename = (ncCreate env filename >>= rest) ∧
    ∀ path D, Keeps path D (rest ())

theorem define_rest (env : Env) (version filename : String) :
    DefineRest (α := α) env version filename := by
  unfold DefineRest defineBoozmn defineVars
  refine ⟨_, rfl, fun path D => ?_⟩
  refine .bind .get fun w => .bind (.lift _) fun _ => .bind (.lift _) fun _ => .bind (.dim _ _) fun _ =>
    .bind (.lift _) fun _ => .bind (.dim _ _) fun _ => .bind (.dim _ _) fun _ =>
    .bind (.dim _ _) fun _ => .bind (.dim _ _) fun _ => .bind (.loc _) fun _ =>
    .bind (.str _) fun _ => .bind (.put _) fun _ => .bind (.lift _) fun _ =>
    .bind (.loc _) fun _ => .bind (.puts _) fun _ =>
    .bind (.loc _) fun _ => .bind (.puts _) fun _ =>
    .bind (.loc _) fun _ => .bind (.puts _) fun _ =>
    .bind (.loc _) fun _ => .bind (.puts _) fun _ =>
    .bind (.loc _) fun _ => .bind (.puts _) fun _ =>
    .bind (.loc _) fun _ => .bind (.flux _) fun _ =>
    .bind (.puts _) fun _ => .bind (.loc _) fun _ => .bind (.puts _) fun _ => .asymVars _

/-- What the outcome of `write_boozmn` says about the file system, at the end and at every library
call. -/
def DiskOutcome (filename : String) (disk : Disk α) : Out (WSt α) Unit → Prop
  | .ok _ w => w.core.disk = disk.put filename (.nc ⟨w.core.nc.dims, w.core.nc.written⟩) ∧
      ∃ l, w.log = w.core.disk :: disk.put filename .broken :: l ∧
        ∀ d ∈ l, d = disk.put filename .broken
  | .exc _ w => (w.core.disk = disk ∧ w.log = []) ∨
      (w.core.disk = disk.put filename .broken ∧ w.log ≠ [] ∧
        ∀ d ∈ w.log, d = disk.put filename .broken)
  | _ => True

omit [Arith α] in
theorem close_disk (env : Env) {filename : String} {disk : Disk α} {w : WSt α}
    (hw : Steady filename (disk.put filename .broken) w) :
    DiskOutcome filename disk (writeAndClose env w) := by
  have hexc : ∀ {w' : WSt α} {m : String}, Steady filename (disk.put filename .broken) w' →
      DiskOutcome filename disk (.exc m w') := fun h => .inr ⟨h.2.1, h.2.2⟩
  unfold writeAndClose
  have h1 : Keeps (α := α) filename (disk.put filename .broken) (ncCall env .ok) :=
    .call fun c c' h => by cases h; exact ⟨rfl, rfl⟩
  have k1 := h1 w hw
  rw [Prog.bind_def]
  cases e1 : ncCall env .ok w with
  | abort x => trivial
  | ub x => trivial
  | exc m w2 => rw [e1] at k1; exact hexc k1
  | ok u w2 =>
    rw [e1] at k1
    dsimp only
    rw [Prog.get_bind, Prog.bind_def]
    have k2 := Keeps.vars (env := env) w2.core.nc.defs w2 k1
    cases e2 : putVars env w2.core.nc.defs w2 with
    | abort x => trivial
    | ub x => trivial
    | exc m w3 => rw [e2] at k2; exact hexc k2
    | ok u w3 =>
      rw [e2] at k2
      obtain ⟨hp, hd, hne, hall⟩ := k2
      dsimp only
      unfold ncCall ncClose
      cases env w3.calls with
      | some m => exact hexc ⟨hp, hd, hne, hall⟩
      | none =>
        dsimp only
        refine ⟨by rw [hd, hp, put_put], ?_⟩
        match hl : w3.log, hne with
        | d :: l, _ =>
          rw [hl] at hall
          refine ⟨l, ?_, fun x hx => hall x (by simp [hx])⟩
          rw [hall d (by simp)]

theorem write_disk (env : Env) (version filename : String) (disk : Disk α) (s : St α) :
    DiskOutcome filename disk (writeBoozmn env version filename disk s) := by
  obtain ⟨rest, hd, hk⟩ := define_rest (α := α) env version filename
  unfold writeBoozmn writeBoozmnW
  generalize hw0 : (⟨⟨⟨s, {}⟩, disk, ⟨"", [], [], []⟩⟩, 0, []⟩ : WSt α) = w0
  have hdisk : w0.core.disk = disk := by rw [← hw0]
  have hlog : w0.log = [] := by rw [← hw0]
  rw [Prog.bind_def, hd, Prog.bind_def]
  rcases create_cases (env := env) (filename := filename) w0 with
    ⟨m, w', h, h1, h2⟩ | ⟨w1, h, h1, h2, h3⟩
  · rw [h]
    exact .inl ⟨by rw [h1, hdisk], by rw [h2, hlog]⟩
  · rw [h]
    dsimp only
    rw [hdisk] at h1 h2
    rw [hlog] at h1
    have hs1 : Steady filename (disk.put filename .broken) w1 := ⟨h3, h2, by rw [h1]; simp, by rw [h1]; simp⟩
    have hr := hk _ _ w1 hs1
    cases hrest : rest () w1 with
    | abort x => trivial
    | ub x => trivial
    | exc m w2 =>
      rw [hrest] at hr
      exact .inr ⟨hr.2.1, hr.2.2⟩
    | ok u w2 =>
      rw [hrest] at hr
      exact close_disk env hr

end Booz
