import Verif.Lemmas.DriverExact
import Verif.Lemmas.Malformed
import Verif.Props.Driver

/-!
# C59: exactly which input files are accepted
-/

namespace Booz
open Spec
variable {α : Type} [Arith α]

omit [Arith α] in
theorem throwIf_inv {σ β : Type} {c : Bool} {m : String} {k : Unit → Prog σ β} {s t : σ} {x : β}
    (h : (throwIf c m >>= k) s = .ok x t) : c = false ∧ k () s = .ok x t := by
  cases c with
  | true => cases h
  | false => exact ⟨rfl, h⟩

omit [Arith α] in
/-- **C59, C++.**  The C++ driver accepts an input file exactly when it starts with two integers that fit in an `int`
and a further word, and these are the `mboz`, `nboz` and extension it uses. -/
theorem C59_accepts {content : List Char} {m n : Int} {ext : List Char} (w : World α) :
    (∃ l w', readRequest content w = .ok ⟨m, n, ext, l⟩ w') ↔ Opens content m n ext := by
  constructor
  · rintro ⟨l, w', h⟩
    unfold readRequest at h
    obtain ⟨m', e1, h⟩ := lift_bind_inv h
    obtain ⟨n', e2, h⟩ := lift_bind_inv h
    rw [say_bind] at h
    obtain ⟨f2, h⟩ := throwIf_inv h
    rw [say_bind] at h
    obtain ⟨f3, h⟩ := throwIf_inv h
    rw [say_all_bind, say_bind, say_bind, Prog.pure_apply] at h
    cases h
    have f1 : (extractInt ⟨content, false, false⟩).1.fail = false := by
      cases e : (extractInt ⟨content, false, false⟩).1.fail with
      | false => rfl
      | true => rw [(extractInt_failed e).1] at f2; cases f2
    obtain ⟨x1, v1, t1, -⟩ := extractInt_takes (Prod.eta _).symm f1
    obtain ⟨x2, v2, t2, -⟩ := extractInt_takes (Prod.eta _).symm f2
    have t3 := extractWord_takes (Prod.eta _).symm f3
    rw [v1, need_some] at e1
    rw [v2, need_some] at e2
    cases e1
    cases e2
    exact ⟨_, _, _, t1, t2, t3⟩
  · rintro ⟨r₁, r₂, r₃, h1, h2, h3⟩
    have n1 : r₁.isEmpty = false := by
      obtain ⟨v, t, e, -, hd, -⟩ := h2
      cases r₁ with
      | cons => rfl
      | nil =>
        have : t = [] := by
          have := congrArg List.length e
          simp only [List.length_nil, List.length_append] at this
          exact List.length_eq_zero_iff.1 (by omega)
        subst this
        cases hd with
        | plain h => exact absurd rfl (decimal_all h).1
    have n2 : r₂.isEmpty = false := by
      obtain ⟨v, e, -, h0, -⟩ := h3
      cases r₂ with
      | cons => rfl
      | nil =>
        have : ext = [] := by
          have := congrArg List.length e
          simp only [List.length_nil, List.length_append] at this
          exact List.length_eq_zero_iff.1 (by omega)
        exact absurd this h0
    have e1 := takes_extractInt h1
    have e2 := takes_extractInt h2
    have e3 := takes_extractWord h3
    rw [n1] at e1
    rw [n2] at e2
    obtain ⟨c, h⟩ := readRequest_eval e1 e2 rfl e3 rfl rfl w
    exact ⟨_, _, h⟩

omit [Arith α] in
/-- **C59, Python.**  What the Python driver accepts starts with two integers and a further word, and these are the
`mboz`, `nboz` and extension it uses. -/
theorem C59_py_accepts {path : String} {content : List Char} {r : Request} {w w' : World α}
    (h : pyRequest path content w = .ok r w') : PyOpens content r.mboz r.nboz r.ext := by
  have ht := pySplit_isText content
  unfold pyRequest at h
  generalize pySplit content = toks at h ht
  rcases toks with _ | ⟨t0, _ | ⟨t1, _ | ⟨t2, ts⟩⟩⟩
  · cases h
  · cases h
  · cases h
  · simp only at h
    cases h0 : pyInt t0 with
    | none => rw [h0] at h; cases h
    | some m =>
      cases h1 : pyInt t1 with
      | none => rw [h0, h1] at h; cases h
      | some n =>
        rw [h0, h1] at h
        simp only at h
        rw [say_bind, say_bind] at h
        obtain ⟨l, t, -, h⟩ := prog_bind_ok h
        cases h
        exact ⟨t0, t1, ts, ht, pyInt_denotes h0, pyInt_denotes h1⟩

/-- **C59, malformed files.**  With any input file that does not start with two integers and a word, the C++ driver
does not return normally, and if it throws, it has touched no file; with any such file (for Python's notion of
integers and words) the Python driver raises an exception and has touched no file. -/
theorem C59_malformed {content : List Char} {path prog : String} {w : World α} (hp : w.disk path = .other content)
    (env : Env) (version pkg : String) :
    ((∀ m n ext, ¬ Opens content m n ext) →
      (∃ why, driver env version [prog, path] w = .ub why) ∨
      (∃ m w', driver env version [prog, path] w = .exc m w' ∧ w'.disk = w.disk)) ∧
    ((∀ m n ext, ¬ PyOpens content m n ext) →
      ∃ m w', pyMain env version pkg [path] w = .exc m w' ∧ w'.disk = w.disk) := by
  constructor
  · intro hno
    have key : (∃ why, readRequest content (w.print ["This is xbooz_xform " ++ version]) = .ub why) ∨
        ∃ x l, readRequest content (w.print ["This is xbooz_xform " ++ version]) =
          .exc x ((w.print ["This is xbooz_xform " ++ version]).print l) := by
      cases e1 : (extractInt ⟨content, false, false⟩).2 with
      | none => exact .inl (readRequest_ub _ (.inl e1))
      | some m =>
        cases e2 : (extractInt (extractInt ⟨content, false, false⟩).1).2 with
        | none => exact .inl (readRequest_ub _ (.inr e2))
        | some n =>
          rcases readRequest_safe (w.print ["This is xbooz_xform " ++ version]) e1 e2 with ⟨r, l, e⟩ | e
          · exact absurd ((C59_accepts _).1 ⟨r.surfs, _, e⟩) (hno r.mboz r.nboz r.ext)
          · exact .inr e
    have run : driver env version [prog, path] w =
        (readRequest content >>= fun r => calculate env version r >>= fun _ => pure 0)
          (w.print ["This is xbooz_xform " ++ version]) := by
      show driverMain env version path w = _
      unfold driverMain openText
      rw [say_bind, Prog.bind_def, Prog.get_bind]
      simp only [World.print_disk, hp, Content.bytes]
      rfl
    rw [run, Prog.bind_def]
    rcases key with ⟨why, e⟩ | ⟨x, l, e⟩
    · rw [e]; exact .inl ⟨why, rfl⟩
    · rw [e]; exact .inr ⟨x, _, rfl, rfl⟩
  · intro hno
    have run : pyMain env version pkg [path] w =
        (pyRequest path content >>= fun r => pyCalculate env version r >>= fun _ => pure 0)
          (w.print ["This is xbooz_xform " ++ pkg]) := by
      show pyMain1 env version pkg path w = _
      unfold pyMain1 pyOpen
      rw [say_bind, Prog.bind_def, Prog.get_bind]
      simp only [World.print_disk, hp, Content.bytes]
      rfl
    rw [run, Prog.bind_def]
    rcases pyRequest_safe path content (w.print ["This is xbooz_xform " ++ pkg]) with ⟨r, l, e⟩ | ⟨x, l, e⟩
    · exact absurd (C59_py_accepts e) (hno _ _ _)
    · rw [e]; exact ⟨x, _, rfl, rfl⟩

/-- **C59, not an input file.**  If the file named on the command line does not exist, both drivers raise an exception
and touch no file.  If it is a NetCDF file (the `wout` file itself, say, or a file whose writing was interrupted), the
Python driver does so too; the behaviour of the C++ driver is undefined. -/
theorem C59_wrong_file {path prog : String} {w : World α} (env : Env) (version pkg : String) :
    (w.disk path = .absent →
      (∃ w', driver env version [prog, path] w = .exc ("Unable to open input file " ++ path) w' ∧ w'.disk = w.disk) ∧
      ∃ m w', pyMain env version pkg [path] w = .exc m w' ∧ w'.disk = w.disk) ∧
    ((∃ f, w.disk path = .nc f) ∨ w.disk path = .broken →
      (∃ why, driver env version [prog, path] w = .ub why) ∧
      ∃ m w', pyMain env version pkg [path] w = .exc m w' ∧ w'.disk = w.disk) := by
  constructor
  · intro hp
    constructor
    · refine ⟨w.print ["This is xbooz_xform " ++ version], ?_, rfl⟩
      show driverMain env version path w = _
      unfold driverMain openText
      rw [say_bind, Prog.bind_def, Prog.get_bind]
      simp only [World.print_disk, hp, Content.bytes]
      rfl
    · refine ⟨"[Errno 2] No such file or directory: '" ++ path ++ "'", w.print ["This is xbooz_xform " ++ pkg], ?_, rfl⟩
      show pyMain1 env version pkg path w = _
      unfold pyMain1 pyOpen
      rw [say_bind, Prog.bind_def, Prog.get_bind]
      simp only [World.print_disk, hp, Content.bytes]
      rfl
  · intro hp
    have hb : (w.disk path).bytes = some "CDF".toList := by
      rcases hp with ⟨f, hp⟩ | hp <;> rw [hp] <;> rfl
    constructor
    · obtain ⟨why, e⟩ := readRequest_ub (content := "CDF".toList) (w.print ["This is xbooz_xform " ++ version])
        (.inr (by decide))
      refine ⟨why, ?_⟩
      show driverMain env version path w = _
      unfold driverMain openText
      rw [say_bind, Prog.bind_def, Prog.get_bind]
      simp only [World.print_disk, hb]
      show (readRequest "CDF".toList >>= _) _ = _
      rw [Prog.bind_def, e]
    · have e : pySplit "CDF".toList = ["CDF".toList] := by decide
      refine ⟨"Unable to read mboz, nboz, and extension from " ++ path, w.print ["This is xbooz_xform " ++ pkg], ?_, rfl⟩
      show pyMain1 env version pkg path w = _
      unfold pyMain1 pyOpen
      rw [say_bind, Prog.bind_def, Prog.get_bind]
      simp only [World.print_disk, hb]
      show (pyRequest path "CDF".toList >>= _) _ = _
      unfold pyRequest
      rw [e]
      rfl

/-! ### Concrete files -/

/-- A directory with one NetCDF file. -/
example : ∃ w : World ℝ, (∃ f, w.disk "wout_x.nc" = .nc f) ∧ w.disk "input" = .absent :=
  ⟨⟨fun p => if p = "wout_x.nc" then .nc ⟨[], []⟩ else .absent, []⟩, ⟨_, rfl⟩, rfl⟩

/-- `16 8x 5`, accepted by C++ as extension `x`. -/
example : Opens "16 8x 5".toList 16 8 ['x'] :=
  ⟨" 8x 5".toList, "x 5".toList, " 5".toList,
    ⟨[], ['1', '6'], rfl, by simp, Ex.word16.1, Ex.word16.2, fun c r e => by
      cases e; exact not_digit_blank (by unfold Blank; decide)⟩,
    ⟨[' '], ['8'], rfl, by unfold Blank; decide, (Ex.word1 '8' 8 (Ex.digit '8' 8)).1,
      (Ex.word1 '8' 8 (Ex.digit '8' 8)).2, fun c r e k h => by
        cases e
        have h1 := h.1
        have h2 : (120 : Nat) = 48 + k := h.2
        omega⟩,
    ⟨[], rfl, by simp, by decide, by unfold Blank; decide, .inr ⟨' ', ['5'], rfl, by unfold Blank; decide⟩⟩⟩

/-- `16 x` is malformed for C++, a blank line for Python. -/
example (w : World ℝ) : (∀ m n ext, ¬ Opens ['1', '6', ' ', 'x'] m n ext) ∧ ∀ m n ext, ¬ PyOpens ['\n'] m n ext := by
  constructor
  · intro m n ext h
    obtain ⟨l, w', e⟩ := (C59_accepts w).2 h
    obtain ⟨c, e'⟩ := (C59_messages w).1 ['1', '6'] ['x'] [] 16
      (.word [] ['1', '6'] [' ', 'x'] _ (by simp) (by decide) (by unfold Blank; decide)
        (.inr ⟨_, _, rfl, by unfold Blank; decide⟩) <|
      .word [' '] ['x'] [] _ (by unfold Blank; decide) (by decide) (by unfold Blank; decide) (.inl rfl) <|
      .blank [] (by simp)) Ex.word16
      (.inl <| .letter (fun k h => by
        have h1 := h.1
        have h2 : (120 : Nat) = 48 + k := h.2
        omega) (by decide))
    have := e.symm.trans e'
    cases this
  · rintro m n ext ⟨t1, t2, ts, h, -⟩
    generalize e : ['\n'] = text at h
    cases h with
    | word w t r ts hw h0 ht hr h =>
      obtain ⟨c, q, rfl⟩ := List.exists_cons_of_ne_nil h0
      have hc : c ∈ ['\n'] := by rw [e]; simp
      have : c = '\n' := by simpa using hc
      subst this
      exact ht '\n' (by simp) (.inl (by unfold Blank; decide))

end Booz
