import Verif.Spec.Boozmn
import Verif.Lemmas.NetCDF

/-!
# Symbolic execution of programs that write NetCDF files
-/

namespace Booz
open Spec
variable {α : Type}

/-- From core state `a` the program ends in core state `b`, or, if `F`, throws. -/
def Runs (F : Prop) (p : Prog (WSt α) Unit) (a b : Core α) : Prop :=
  ∀ c l, (F ∧ ∃ m w, p ⟨a, c, l⟩ = .exc m w) ∨ ∃ c' l', p ⟨a, c, l⟩ = .ok () ⟨b, c', l'⟩

namespace Runs
variable {F : Prop} {a b d : Core α}

theorem pure : Runs F (Pure.pure ()) a a := fun c l => .inr ⟨c, l, rfl⟩

theorem bind {p : Prog (WSt α) Unit} {q : Unit → Prog (WSt α) Unit} (hp : Runs F p a b)
    (hq : Runs F (q ()) b d) : Runs F (p >>= q) a d := by
  intro c l
  rcases hp c l with ⟨hF, m, w, h⟩ | ⟨c', l', h⟩
  · exact .inl ⟨hF, m, w, by rw [Prog.bind_def, h]⟩
  · rcases hq c' l' with ⟨hF, m, w, h'⟩ | ⟨c'', l'', h'⟩
    · exact .inl ⟨hF, m, w, by rw [Prog.bind_def, h]; exact h'⟩
    · exact .inr ⟨c'', l'', by rw [Prog.bind_def, h]; exact h'⟩

theorem get {k : WSt α → Prog (WSt α) Unit} (hk : ∀ c l, k ⟨a, c, l⟩ = k ⟨a, 0, []⟩)
    (hq : Runs F (k ⟨a, 0, []⟩) a b) : Runs F (Prog.get >>= k) a b := by
  intro c l
  rw [Prog.get_bind, hk]
  exact hq c l

theorem lift {β : Type} {r : Res β} {x : β} {k : β → Prog (WSt α) Unit} (h : r = .ok x)
    (hq : Runs F (k x) a b) : Runs F (Prog.lift r >>= k) a b := by
  intro c l
  rw [h, Prog.lift_ok_bind]
  exact hq c l

theorem call {env : Env} {eff : Core α → Res (Core α)} (h : eff a = .ok b) :
    Runs (∃ k m, env k = some m) (ncCall env eff) a b := by
  intro c l
  unfold ncCall
  dsimp only
  cases he : env c with
  | some m => exact .inl ⟨⟨c, m, he⟩, m, _, rfl⟩
  | none => exact .inr ⟨c + 1, b.disk :: l, by rw [h]⟩

theorem mem {g : Mem α → Res (Mem α)} {m : Mem α} (h : g a.mem = .ok m) :
    Runs F (setMem g) a { a with mem := m } := by
  intro c l
  right
  refine ⟨c, l, ?_⟩
  unfold setMem Prog.modify
  simp only [Prog.bind_def, Prog.get, Prog.lift, h, ok_bind, Prog.set]
  rfl

theorem loc [Arith α] {g : Mem α → Res (Locals α)} {l : Locals α} (h : g a.mem = .ok l) :
    Runs F (setLoc g) a { a with mem := { a.mem with loc := l } } := by
  unfold setLoc
  exact mem (by rw [h]; rfl)

end Runs

theorem ub_bind {β γ : Type} (x : String) (k : β → Res γ) : ((ub x : Res β) >>= k) = ub x := (rfl)

/-- From core state `a` the program's outcome satisfies `Q`, or, if `F`, it throws. -/
def Ends (F : Prop) (p : Prog (WSt α) Unit) (a : Core α) (Q : Out (WSt α) Unit → Prop) : Prop :=
  ∀ c l, (F ∧ ∃ m w, p ⟨a, c, l⟩ = .exc m w) ∨ Q (p ⟨a, c, l⟩)

namespace Ends
variable {F : Prop} {a b : Core α} {Q : Out (WSt α) Unit → Prop}

theorem after {p : Prog (WSt α) Unit} {q : Unit → Prog (WSt α) Unit} (hp : Runs F p a b)
    (hq : Ends F (q ()) b Q) : Ends F (p >>= q) a Q := by
  intro c l
  rcases hp c l with ⟨hF, m, w, h⟩ | ⟨c', l', h⟩
  · exact .inl ⟨hF, m, w, by rw [Prog.bind_def, h]⟩
  · rcases hq c' l' with ⟨hF, m, w, h'⟩ | h'
    · exact .inl ⟨hF, m, w, by rw [Prog.bind_def, h]; exact h'⟩
    · right; rw [Prog.bind_def, h]; exact h'

theorem get {k : WSt α → Prog (WSt α) Unit} (hk : ∀ c l, k ⟨a, c, l⟩ = k ⟨a, 0, []⟩)
    (hq : Ends F (k ⟨a, 0, []⟩) a Q) : Ends F (Prog.get >>= k) a Q := by
  intro c l
  rw [Prog.get_bind, hk]
  exact hq c l

theorem lift {β : Type} {r : Res β} {x : β} {k : β → Prog (WSt α) Unit} (h : r = .ok x)
    (hq : Ends F (k x) a Q) : Ends F (Prog.lift r >>= k) a Q := by
  intro c l
  rw [h, Prog.lift_ok_bind]
  exact hq c l

theorem of_runs {p : Prog (WSt α) Unit} (h : Runs F p a b) :
    Ends F p a (fun o => ∃ c' l', o = .ok () ⟨b, c', l'⟩) := h

end Ends

/-- Undefined behaviour. -/
def IsUb (o : Out (WSt α) Unit) : Prop := ∃ x, o = .ub x

section
variable {env : Env} {a : Core α}

/-- Some library call fails. -/
abbrev MayFail (env : Env) : Prop := ∃ k m, env k = some m

theorem runs_att (text : String) : Runs (MayFail env) (putAtt env text) a a := by
  unfold putAtt
  split
  · exact .call rfl
  · exact .pure

theorem runs_put {d : VarDef α} (ha : addressOk (d.ptr a.mem) = .ok ())
    (hn : d.name ∉ a.nc.defs.map (·.name)) :
    Runs (MayFail env) (ncPut env d) a { a with nc := { a.nc with defs := a.nc.defs ++ [d] } } := by
  unfold ncPut
  refine .get (fun _ _ => rfl) ?_
  refine .lift (x := ()) ?_ ?_
  · split
    · exact ha
    · rfl
  refine .bind (.call (b := { a with nc := { a.nc with defs := a.nc.defs ++ [d] } }) ?_) ?_
  · unfold defVar
    rw [if_neg]
    intro h
    rw [List.any_eq_true] at h
    obtain ⟨x, hx, e⟩ := h
    exact hn (List.mem_map.2 ⟨x, hx, by simpa using e⟩)
  · refine .lift ha ?_
    exact .bind (runs_att _) (runs_att _)

theorem runs_puts : ∀ {ds : List (VarDef α)} {a : Core α},
    (∀ d ∈ ds, addressOk (d.ptr a.mem) = .ok ()) →
    (a.nc.defs.map (·.name) ++ ds.map (·.name)).Nodup →
    Runs (MayFail env) (ncPuts env ds) a { a with nc := { a.nc with defs := a.nc.defs ++ ds } }
  | [], a, _, _ => by
    rw [List.append_nil]
    exact .pure
  | d :: ds, a, ha, hn => by
    unfold ncPuts
    have h1 : d.name ∉ a.nc.defs.map (·.name) := by
      intro h
      rw [List.nodup_append] at hn
      exact hn.2.2 _ h _ (by simp) rfl
    refine .bind (runs_put (ha d (by simp)) h1) ?_
    have := runs_puts (ds := ds)
      (a := { a with nc := { a.nc with defs := a.nc.defs ++ [d] } })
      (fun x hx => ha x (by simp [hx])) (by
        show ((a.nc.defs ++ [d]).map _ ++ _).Nodup
        simpa [List.append_assoc] using hn)
    simpa [List.append_assoc] using this

/-- The variable as stored when the whole array is written. -/
def VarDef.toVar (m : Mem α) (d : VarDef α) : NcVar α := ⟨d.name, d.dims, d.ptr m, d.description, d.units⟩

theorem runs_putVars : ∀ {ds : List (VarDef α)} {a : Core α},
    (∀ d ∈ ds, fetch (dimCount a.nc.dims d.dims) (d.ptr a.mem) = .ok (d.ptr a.mem)) →
    Runs (MayFail env) (putVars env ds) a
      { a with nc := { a.nc with written := a.nc.written ++ ds.map (·.toVar a.mem) } }
  | [], a, _ => by
    rw [List.map_nil, List.append_nil]
    exact .pure
  | d :: ds, a, h => by
    unfold putVars
    refine .bind (.call (b := { a with nc := { a.nc with written := a.nc.written ++ [d.toVar a.mem] } }) ?_) ?_
    · unfold putVar
      rw [h d (by simp)]; rfl
    · have := runs_putVars (ds := ds)
        (a := { a with nc := { a.nc with written := a.nc.written ++ [d.toVar a.mem] } })
        (fun x hx => h x (by simp [hx]))
      simpa [List.append_assoc] using this

/-- All data are read and the file is complete. -/
theorem runs_close (hw : a.nc.written = [])
    (h : ∀ d ∈ a.nc.defs, fetch (dimCount a.nc.dims d.dims) (d.ptr a.mem) = .ok (d.ptr a.mem)) :
    Runs (MayFail env) (writeAndClose env) a
      { a with
        nc := { a.nc with written := a.nc.defs.map (·.toVar a.mem) }
        disk := a.disk.put a.nc.path (.nc ⟨a.nc.dims, a.nc.defs.map (·.toVar a.mem)⟩) } := by
  unfold writeAndClose
  refine .bind (.call (b := a) rfl) (.get (fun _ _ => rfl) (.bind (runs_putVars h) (.call ?_)))
  unfold ncClose
  rw [hw]
  rfl

/-- A variable whose data are too short makes the behaviour undefined, unless an error occurs
before. -/
theorem putVars_ub : ∀ {ds : List (VarDef α)} {a : Core α} {d : VarDef α} {x : String},
    d ∈ ds → (∀ e ∈ ds, (∃ y, fetch (dimCount a.nc.dims e.dims) (e.ptr a.mem) = .ok y) ∨
      ∃ w, fetch (dimCount a.nc.dims e.dims) (e.ptr a.mem) = ub w) →
    fetch (dimCount a.nc.dims d.dims) (d.ptr a.mem) = ub x → NoFailure env →
    ∀ c l, ∃ w, putVars env ds ⟨a, c, l⟩ = .ub w
  | [], _, _, _, hd, _, _, _, _, _ => by simp at hd
  | e :: ds, a, d, x, hd, hall, hu, he, c, l => by
    unfold putVars
    rcases hall e (by simp) with ⟨y, hy⟩ | ⟨w, hy⟩
    · have hne : d ∈ ds := by
        rcases List.mem_cons.1 hd with h | h
        · subst h; rw [hu] at hy; cases hy
        · exact h
      have h1 : ncCall env (putVar e) ⟨a, c, l⟩ = .ok ()
          ⟨{ a with nc := { a.nc with written := a.nc.written ++ [⟨e.name, e.dims, y, e.description, e.units⟩] } },
            c + 1, a.disk :: l⟩ := by
        unfold ncCall putVar
        dsimp only
        rw [he c, hy]; rfl
      rw [Prog.bind_def, h1]
      exact putVars_ub
        (a := { a with nc := { a.nc with written := a.nc.written ++ [⟨e.name, e.dims, y, e.description, e.units⟩] } })
        hne (fun z hz => hall z (by simp [hz])) hu he _ _
    · refine ⟨w, ?_⟩
      have h1 : ncCall env (putVar e) ⟨a, c, l⟩ = .ub w := by
        unfold ncCall putVar
        dsimp only
        rw [he c, hy]; rfl
      rw [Prog.bind_def, h1]

end

end Booz
