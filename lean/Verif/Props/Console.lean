import Verif.Props.Driver

/-!
# What the command-line drivers print while they calculate: C43, C60
-/

namespace Booz
open Spec
variable {α : Type} [Arith α]

/-- Numbers as both drivers print them: each preceded by a space. -/
def Spec.numbers : List Int → String
  | [] => ""
  | x :: l => " " ++ toString x ++ numbers l

/-- The lines printed from loading the `wout` file to the end, when the surfaces `l` are run. -/
def Spec.calculating (r : Request) (l : List Int) : List String :=
  (if r.surfs = [] then ["No compute_surfs specified, so including all half-grid surfaces."] else []) ++
  ["About to run transformation with compute_surfs =" ++ numbers l, "Good bye."]

/-- The surfaces that are run for a request: those listed, in ascending order, or, if none are listed,
those that loading the `wout` file selects. -/
def Spec.RunsSurfaces (disk : Disk α) (r : Request) (l : List Int) : Prop :=
  (r.surfs = [] ∧ ∃ b, readWout disk ("wout_" ++ String.ofList r.ext ++ ".nc") false construct = .ok () b ∧
    b.inp.compute_surfs.toList = l.map some) ∨
  (r.surfs ≠ [] ∧ l.Perm r.surfs ∧ l.Pairwise (· ≤ ·))

theorem spaced_aux (l : List Int) (s : String) :
    l.foldl (fun s x => s ++ " " ++ toString x) s = s ++ numbers l := by
  induction l generalizing s with
  | nil => simp [numbers]
  | cons x l ih =>
    rw [List.foldl_cons, ih]
    rw [numbers]
    simp only [String.append_assoc]

theorem spaced_eq (l : List Int) : spaced l = numbers l := by
  unfold spaced
  rw [spaced_aux, String.empty_append]

theorem joined_eq (x : Int) (l : List Int) : " " ++ joined (x :: l) = numbers (x :: l) := by
  unfold joined
  induction l generalizing x with
  | nil => simp [numbers]
  | cons y l ih =>
    rw [List.map_cons, List.map_cons, String.intercalate_cons_cons, ← List.map_cons]
    rw [numbers, ← ih y]
    simp only [String.append_assoc]

theorem mapM_need_inv {v : List (Option Int)} {l : List Int} {s : String}
    (h : (v.mapM fun x => need x s) = .ok l) : v = l.map some := by
  induction v generalizing l with
  | nil => cases h; rfl
  | cons a v ih =>
    rw [List.mapM_cons] at h
    cases a with
    | none => cases h
    | some x =>
      rw [need_some, ok_bind] at h
      cases e : (v.mapM fun x => need x s) with
      | error y => rw [e] at h; cases h
      | ok l' =>
        rw [e] at h
        cases h
        rw [List.map_cons, ← ih e]

omit [Arith α] in
theorem sayIf_console (c : Bool) (x : String) (w : World α) :
    sayIf c x w = .ok () (w.print (if c then [x] else [])) := by
  cases c
  · exact congrArg (Out.ok ()) w.print_nil.symm
  · rfl

/-- `callWrite` prints nothing. -/
theorem callWrite_console {env : Env} {version name : String} {b : St α} {w w' : World α} {u : Unit}
    (h : callWrite env version name b w = .ok u w') : w'.console = w.console := by
  unfold callWrite at h
  split at h
  · cases h; rfl
  all_goals cases h

/-- Running and saving prints only the last line. -/
theorem rest_console {env : Env} {version name : String} {b : St α} {w w' : World α} {u : Unit}
    (h : (callRun b >>= fun b => callWrite env version name b >>= fun _ => say "Good bye.") w = .ok u w') :
    w'.console = w.console ++ ["Good bye."] := by
  obtain ⟨b', w1, h1, h⟩ := prog_bind_ok h
  unfold callRun at h1
  obtain ⟨x, w2, h2, h3⟩ := prog_bind_ok h1
  obtain ⟨-, e⟩ := lift_ok_inv h2
  cases h3
  obtain ⟨_, w3, h4, h5⟩ := prog_bind_ok h
  have e1 := callWrite_console h4
  cases h5
  show w3.console ++ _ = _
  rw [e1, e]

theorem requested_runs {disk : Disk α} {r : Request} {b : St α} {l : List Int}
    (hb : readWout disk r.wout false construct = .ok () b)
    (h : (requested r b).inp.compute_surfs.toList = l.map some) : RunsSurfaces disk r l := by
  by_cases hr : r.surfs = []
  · refine .inl ⟨hr, b, hb, ?_⟩
    rw [← h]
    unfold requested
    rw [hr]
    rfl
  · refine .inr ⟨hr, ?_⟩
    have e : (requested r b).inp.compute_surfs = listVec (sorted r.surfs) :=
      if_pos (List.length_pos_iff.mpr hr)
    rw [e] at h
    have e1 : sorted r.surfs = l := by
      have h2 : (sorted r.surfs).map some = l.map some := h
      exact List.map_injective_iff.mpr (Option.some_injective _) h2
    exact e1 ▸ ⟨sorted_perm _, sorted_pairwise _⟩

theorem runsSurfaces_unique {disk : Disk α} {r : Request} {l l' : List Int}
    (h : RunsSurfaces disk r l) (h' : RunsSurfaces disk r l') : l = l' := by
  rcases h with ⟨h0, b, hb, e⟩ | ⟨h0, hp, hs⟩ <;> rcases h' with ⟨h0', b', hb', e'⟩ | ⟨h0', hp', hs'⟩
  · rw [hb] at hb'
    cases hb'
    rw [e] at e'
    exact List.map_injective_iff.mpr (Option.some_injective _) e'
  · exact absurd h0 h0'
  · exact absurd h0' h0
  · exact (hp.trans hp'.symm).eq_of_pairwise (fun a b _ _ h1 h2 => by omega) hs hs'

theorem pyAssign_console (r : Request) (b : St α) (h3 : ∀ j ∈ r.surfs, FitsInt j) (w : World α) :
    pyAssign r { b with inp := { b.inp with
      mboz := max b.inp.mboz r.mboz, nboz := max b.inp.nboz r.nboz } } w =
      .ok (requested r b) (w.print (if r.surfs = [] then
        ["No compute_surfs specified, so including all half-grid surfaces."] else [])) := by
  unfold pyAssign requested
  by_cases h0 : r.surfs = []
  · rw [if_pos (by rw [h0]; rfl), say_bind, h0]
    rfl
  · rw [if_neg (by simpa using h0)]
    have h1 : ∀ j ∈ sorted r.surfs, FitsInt j := fun j hj => h3 j ((sorted_perm _).mem_iff.mp hj)
    have e : pyToIntVec (r.surfs.mergeSort fun a b => decide (a ≤ b)) = .ok (listVec (sorted r.surfs)) :=
      pyToIntVec_ok h1
    rw [e, Prog.lift_ok_bind, if_pos (List.length_pos_iff.mpr h0), if_neg h0, World.print_nil]
    rfl

/-- **C43, C60: the console of the C++ driver.**  If `xbooz_xform` returns, given an input file that
asks for `r`, then after reading the file it announces the surfaces it runs, in the order in which it runs them,
and the last line is "Good bye.". -/
theorem C43_console {content : List Char} {r : Request} {path prog : String} {w w' : World α}
    {env : Env} {version : String} {code : Int}
    (hp : w.disk path = .other content) (ha : Asks content r)
    (h : driver env version [prog, path] w = .ok code w') :
    ∃ l reading, RunsSurfaces w.disk r l ∧
      (∀ v : World α, readRequest content v = .ok r { v with console := v.console ++ reading }) ∧
      w'.console = w.console ++ ["This is xbooz_xform " ++ version] ++ reading ++ calculating r l := by
  replace h : driverMain env version path w = .ok code w' := h
  unfold driverMain openText at h
  rw [say_bind, Prog.bind_def, Prog.get_bind] at h
  simp only [World.print_disk, hp, Content.bytes] at h
  rw [Prog.pure_apply] at h
  simp only at h
  rw [Prog.bind_def, readRequest_ok ha, World.print_print] at h
  obtain ⟨_, w1, h1, h2⟩ := prog_bind_ok h
  cases h2
  rw [calculate_eq] at h1
  obtain ⟨b, w2, h3, h4⟩ := prog_bind_ok h1
  obtain ⟨⟨_, h5⟩, rfl⟩ := call_inv h3
  unfold finish at h4
  rw [Prog.bind_def, sayIf_console] at h4
  simp only at h4
  obtain ⟨_, w3, h6, h7⟩ := prog_bind_ok h4
  unfold announce at h6
  obtain ⟨l, w4, h8, h9⟩ := prog_bind_ok h6
  obtain ⟨h10, e4⟩ := lift_ok_inv h8
  have e3 : w3.console = w4.console ++ ["About to run transformation with compute_surfs =" ++ spaced l] := by
    cases h9; rfl
  refine ⟨l, saysCpp r, requested_runs h5 (mapM_need_inv h10), fun v => readRequest_ok ha v, ?_⟩
  rw [rest_console h7, e3, e4, spaced_eq]
  unfold calculating
  simp only [World.print, List.append_assoc, List.cons_append, List.nil_append]
  cases hr : r.surfs with
  | nil => simp
  | cons a l => simp

example (env : Env) (w' : World α) (code : Int)
    (h : driver env "0.0.1" ["xbooz_xform", "in"] (Ex.world Ex.input) = .ok code w') :
    ["About to run transformation with compute_surfs = 0 1", "Good bye."] <:+ w'.console := by
  obtain ⟨l, reading, hl, -, e⟩ := C43_console (Ex.world_in _) Ex.input_asks h
  rcases hl with ⟨h0, -⟩ | ⟨-, hp, hs⟩
  · cases h0
  have : l = [0, 1] := by
    refine (hp.trans (List.Perm.swap 0 1 [])).eq_of_pairwise (fun a b _ _ h1 h2 => by omega) hs (by decide)
  subst this
  rw [e]
  exact ⟨_, rfl⟩

/-- **C60, after reading.**  If both drivers return, given an input file that asks for `r`, then after
reading it they print the same lines.  (Together with `C60_partial`: the console differs by the
version in the first line, and by one or two lines that only C++ prints.) -/
theorem C60_after {content : List Char} {r : Request} {path prog : String} {w w₁ w₂ : World α}
    {env : Env} {version pkg : String} {c₁ c₂ : Int}
    (hp : w.disk path = .other content) (ha : Asks content r) (hn : NoSeparators content)
    (hs : ShortWords content)
    (h₁ : driver env version [prog, path] w = .ok c₁ w₁)
    (h₂ : pyMain env version pkg [path] w = .ok c₂ w₂) (hsel : ¬ RunsSurfaces w.disk r []) :
    ∃ l reading₁ reading₂, RunsSurfaces w.disk r l ∧
      (∀ v : World α, readRequest content v = .ok r { v with console := v.console ++ reading₁ }) ∧
      (∀ v : World α, pyRequest path content v = .ok r { v with console := v.console ++ reading₂ }) ∧
      w₁.console = w.console ++ ["This is xbooz_xform " ++ version] ++ reading₁ ++ calculating r l ∧
      w₂.console = w.console ++ ["This is xbooz_xform " ++ pkg] ++ reading₂ ++ calculating r l := by
  obtain ⟨l, reading, hl, hr, e⟩ := C43_console hp ha h₁
  obtain ⟨st, er⟩ := pyRequest_ok (α := α) ha hn hs path
  refine ⟨l, reading, _, hl, hr, er, e, ?_⟩
  replace h₂ : pyMain1 env version pkg path w = .ok c₂ w₂ := h₂
  unfold pyMain1 pyOpen at h₂
  rw [say_bind, Prog.bind_def, Prog.get_bind] at h₂
  simp only [World.print_disk, hp, Content.bytes] at h₂
  rw [Prog.pure_apply] at h₂
  simp only at h₂
  rw [Prog.bind_def, er, World.print_print] at h₂
  obtain ⟨_, w1, h1, h2⟩ := prog_bind_ok h₂
  cases h2
  rw [pyCalculate_eq] at h1
  obtain ⟨b, w2, h3, h4⟩ := prog_bind_ok h1
  obtain ⟨⟨_, h5⟩, rfl⟩ := call_inv h3
  obtain ⟨f1, f2⟩ := readWout_fits _ _ _ _ _ _ h5
  obtain ⟨tm, tn, ts, -, hm, hn', hlist⟩ := ha
  have m1 := hm.2
  have m2 := hn'.2
  have g1 : FitsInt (max b.inp.mboz r.mboz) := by unfold FitsInt at *; omega
  have g2 : FitsInt (max b.inp.nboz r.nboz) := by unfold FitsInt at *; omega
  rw [pyToInt_ok g1, pyToInt_ok g2, Prog.lift_ok_bind, Prog.lift_ok_bind, Prog.bind_def,
    pyAssign_console r b (lists_fit hlist)] at h4
  simp only at h4
  unfold pyFinish at h4
  obtain ⟨l', w4, h8, h9⟩ := prog_bind_ok h4
  obtain ⟨h10, e4⟩ := lift_ok_inv h8
  have hl' : RunsSurfaces w.disk r l' := requested_runs h5 (mapM_need_inv h10)
  have el := runsSurfaces_unique hl' hl
  subst el
  obtain ⟨x, l'', rfl⟩ := List.exists_cons_of_ne_nil (show l' ≠ [] from fun e => hsel (e ▸ hl'))
  rw [say_bind] at h9
  rw [rest_console h9]
  have e5 : "About to run transformation with compute_surfs = " ++ joined (x :: l'') =
      "About to run transformation with compute_surfs =" ++ numbers (x :: l'') := by
    rw [← joined_eq, ← String.append_assoc]
    congr 1
  rw [e5, e4]
  unfold calculating
  simp only [World.print, List.append_assoc, List.cons_append, List.nil_append]

/-- The example input file. -/
example (env : Env) (w₁ w₂ : World α) (c₁ c₂ : Int)
    (h₁ : driver env "0.0.1" ["xbooz_xform", "in"] (Ex.world Ex.input) = .ok c₁ w₁)
    (h₂ : pyMain env "0.0.1" "0.0.8" ["in"] (Ex.world Ex.input) = .ok c₂ w₂) :
    ∃ p q t, t ≠ [] ∧ w₁.console = p ++ t ∧ w₂.console = q ++ t := by
  obtain ⟨l, a, b, -, -, -, e1, e2⟩ := C60_after (Ex.world_in _) Ex.input_asks Ex.input_plain
    Ex.input_short h₁ h₂ (by
      rintro (⟨h, -⟩ | ⟨-, h, -⟩)
      · cases h
      · exact absurd h.length_eq (by decide))
  exact ⟨_, _, calculating Ex.request l, by simp [calculating], e1, e2⟩

end Booz
