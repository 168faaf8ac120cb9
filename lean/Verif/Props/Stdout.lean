import Verif.Lemmas.Stdout
import Verif.Props.Boozmn
import Verif.Props.Run

/-!
# C92: standard output and `verbose`
-/

namespace Booz
open Spec
variable {α : Type} [Arith α]

omit [Arith α] in
theorem unprinted_plain (p : Prog (Sess α) Unit) (t : Tty α) : unprinted (Tty.plain p t) = p t.sess := by
  unfold Tty.plain
  cases p t.sess <;> rfl

theorem onObj_eq (q : Prog (St α) Unit) (w : Sess α) : onObj q w = Sess.on q w := by
  unfold onObj Sess.on
  cases q w.obj <;> rfl

/-- **C92, nothing but messages**: the calls with their messages do to the object and the files what the calls of
the other theorems do, whatever `verbose` is, and end in the same way. -/
theorem C92_same (c : Call) (t : Tty α) : unprinted (Tty.perform c t) = perform c t.sess := by
  cases c with
  | readWout p fl => exact (erases_readWout t.sess.disk p fl t rfl).trans (onObj_eq _ _)
  | readBoozmn p => exact (erases_readBoozmn t.sess.disk p t rfl).trans (onObj_eq _ _)
  | setMboz m => exact unprinted_plain (Booz.perform (.setMboz m)) t
  | setNboz m => exact unprinted_plain (Booz.perform (.setNboz m)) t
  | setVerbose m => exact unprinted_plain (Booz.perform (.setVerbose m)) t
  | setSurfs m => exact unprinted_plain (Booz.perform (.setSurfs m)) t
  | run =>
    show unprinted (Tty.run t) = Sess.run t.sess
    unfold Tty.run Sess.run Tty.obj
    cases Booz.run false t.sess.obj with
    | ok r => rfl
    | error e => cases e <;> rfl
  | write env v p =>
    show unprinted ((Tty.say 0 (.writing p) >>= fun _ => Tty.plain (Sess.write env v p)) t) = _
    rw [Prog.bind_def]
    unfold Tty.say
    dsimp only
    split
    · exact unprinted_plain _ _
    · exact unprinted_plain _ _

example : ∃ t : Tty α, Tty.perform (.setVerbose 2) ⟨⟨construct, fun _ => .absent⟩, []⟩ = .ok () t ∧
    t.obj.inp.verbose = 2 ∧ t.lines = [] := ⟨_, rfl, rfl, rfl⟩

omit [Arith α] in
/-- A call in which nothing is printed and `verbose` is kept at most 0. -/
theorem heard_plain {p : Prog (Sess α) Unit} {t : Tty α}
    (h1 : ∀ w, p t.sess = .ok () w → w.obj.inp.verbose ≤ 0) (h2 : ∀ m w, p t.sess = .exc m w → w.obj.inp.verbose ≤ 0) :
    (∀ t', Tty.plain p t = .ok () t' → t'.obj.inp.verbose ≤ 0 ∧ t'.lines = t.lines) ∧
    (∀ m t', Tty.plain p t = .exc m t' → t'.obj.inp.verbose ≤ 0 ∧ t'.lines = t.lines) := by
  unfold Tty.plain
  cases e : p t.sess with
  | ok x w => exact ⟨fun t' h => (by cases h; exact ⟨h1 w e, rfl⟩), fun m t' h => (by cases h)⟩
  | exc m w => exact ⟨fun t' h => (by cases h), fun m t' h => (by cases h; exact ⟨h2 _ w e, rfl⟩)⟩
  | abort x => exact ⟨fun t' h => (by cases h), fun m t' h => (by cases h)⟩
  | ub x => exact ⟨fun t' h => (by cases h), fun m t' h => (by cases h)⟩

/-- Calls that print nothing. -/
theorem quiet_call {c : Call} {t : Tty α} (hn : ¬ NoChi t.sess.disk c)
    (h1 : ∀ t', Tty.perform c t = .ok () t' → t'.obj.inp.verbose ≤ 0 ∧ t'.lines = t.lines)
    (h2 : ∀ m t', Tty.perform c t = .exc m t' → t'.obj.inp.verbose ≤ 0 ∧ t'.lines = t.lines) :
    (∀ t', Tty.perform c t = .ok () t' → t'.obj.inp.verbose ≤ 0 ∧
      (¬ NoChi t.sess.disk c → t'.lines = t.lines) ∧
      (NoChi t.sess.disk c → ∃ m, t'.lines = t.lines ++ [.netcdfError m])) ∧
    (∀ m t', Tty.perform c t = .exc m t' → t'.obj.inp.verbose ≤ 0 ∧
      (¬ ReadsFile c → t'.lines = t.lines) ∧
      ∃ l, t'.lines = t.lines ++ l ∧ (∀ x ∈ l, IsError x) ∧ l.length ≤ 2 ∧
        (¬ NoChi t.sess.disk c → l.length ≤ 1)) := by
  refine ⟨fun t' e => ⟨(h1 t' e).1, fun _ => (h1 t' e).2, fun h' => absurd h' hn⟩, fun m t' e => ?_⟩
  exact ⟨(h2 m t' e).1, fun _ => (h2 m t' e).2, [], by rw [(h2 m t' e).2, List.append_nil], by simp, by simp, by simp⟩

/-- **C92, what holds for one call**, with `verbose` at most 0, which it stays.  A call that returns has printed
nothing, unless it has read a `boozmn` file without `chi_b`: then it has printed one message about an error.  A call that
throws an exception has printed nothing unless it reads a file, and then only messages about errors, at most one (two if
`chi_b` is missing).  Missing: silence in these cases (false, see below). -/
theorem C92_partial {c : Call} (hc : NotLoud c) {t : Tty α} (ht : t.obj.inp.verbose ≤ 0) :
    (∀ t', Tty.perform c t = .ok () t' → t'.obj.inp.verbose ≤ 0 ∧
      (¬ NoChi t.sess.disk c → t'.lines = t.lines) ∧
      (NoChi t.sess.disk c → ∃ m, t'.lines = t.lines ++ [.netcdfError m])) ∧
    (∀ m t', Tty.perform c t = .exc m t' → t'.obj.inp.verbose ≤ 0 ∧
      (¬ ReadsFile c → t'.lines = t.lines) ∧
      ∃ l, t'.lines = t.lines ++ l ∧ (∀ x ∈ l, IsError x) ∧ l.length ≤ 2 ∧
        (¬ NoChi t.sess.disk c → l.length ≤ 1)) := by
  cases c with
  | setMboz m =>
    have h := heard_plain (p := Booz.perform (.setMboz m)) (t := t) (fun w h => (by cases h; exact ht)) fun _ w h => (by cases h)
    exact quiet_call id h.1 h.2
  | setNboz m =>
    have h := heard_plain (p := Booz.perform (.setNboz m)) (t := t) (fun w h => (by cases h; exact ht)) fun _ w h => (by cases h)
    exact quiet_call id h.1 h.2
  | setVerbose m =>
    have h := heard_plain (p := Booz.perform (.setVerbose m)) (t := t) (fun w h => (by cases h; exact hc)) fun _ w h => (by cases h)
    exact quiet_call id h.1 h.2
  | setSurfs m =>
    have h := heard_plain (p := Booz.perform (.setSurfs m)) (t := t) (fun w h => (by cases h; exact ht)) fun _ w h => (by cases h)
    exact quiet_call id h.1 h.2
  | run =>
    have hr : Tty.perform .run t = Tty.run t := rfl
    unfold Tty.run at hr
    cases e : Booz.run false t.obj with
    | ok r =>
      rw [e] at hr
      simp only [if_neg (show ¬ t.obj.inp.verbose > 0 by omega)] at hr
      refine quiet_call id (fun t' h => ?_) (fun _ _ h => (by rw [hr] at h; cases h))
      rw [hr] at h
      cases h
      refine ⟨?_, List.append_nil _⟩
      show r.1.inp.verbose ≤ 0
      rw [(run_verbose_kept e).1]
      exact ht
    | error er =>
      rw [e] at hr
      cases er with
      | throw m =>
        exact quiet_call id (fun _ h => (by rw [hr] at h; cases h)) (fun _ _ h => (by rw [hr] at h; cases h; exact ⟨ht, rfl⟩))
      | ub x => exact quiet_call id (fun _ h => (by rw [hr] at h; cases h)) (fun _ _ h => (by rw [hr] at h; cases h))
      | assertFail x =>
        exact quiet_call id (fun _ h => (by rw [hr] at h; cases h)) (fun _ _ h => (by rw [hr] at h; cases h))
  | write env v p =>
    have e : Tty.perform (.write env v p) t = Tty.plain (Sess.write env v p) t := by
      show (Tty.say 0 (.writing p) >>= fun _ => Tty.plain (Sess.write env v p)) t = _
      rw [Prog.bind_def]
      unfold Tty.say
      dsimp only
      rw [if_neg (by omega)]
    have hk : ∀ s : St α, OnlyPhip t.sess.obj s → s.inp.verbose ≤ 0 := by
      intro s hs
      rcases hs with hs | ⟨-, hs⟩ <;> rw [hs] <;> exact ht
    have k := C36_partial env v p t.sess.disk t.sess.obj
    have h : _ ∧ _ := heard_plain (p := Sess.write env v p) (t := t) (fun w h => ?_) fun m w h => ?_
    · rw [← e] at h
      exact quiet_call id h.1 h.2
    all_goals
      unfold Sess.write at h
      cases e : writeBoozmn env v p t.sess.disk t.sess.obj with
      | ok x u => rw [e] at h; cases h; try exact hk _ (k.1 _ e)
      | exc x u => rw [e] at h; cases h; try exact hk _ (k.2 _ _ e)
      | abort x => rw [e] at h; cases h
      | ub x => rw [e] at h; cases h
  | readWout p fl =>
    have h := calm_readWout p fl t ht
    refine ⟨fun t' e => ?_, fun m t' e => ?_⟩
    · obtain ⟨h1, l, h2, h3, -⟩ := h.1 () t' e
      rw [List.length_eq_zero_iff.1 h3, List.append_nil] at h2
      exact ⟨h1, fun _ => h2, fun h' => h'.elim⟩
    · obtain ⟨h1, l, h2, h3, h4⟩ := h.2 m t' e
      exact ⟨h1, fun h' => absurd trivial h', l, h2, h4, by omega, fun _ => h3⟩
  | readBoozmn p =>
    by_cases hn : NoChi t.sess.disk (.readBoozmn p)
    · have h := heard_readBoozmn p ht (k := 1) (fun _ => rfl) (fun h' => absurd hn h')
      refine ⟨fun t' e => ?_, fun m t' e => ?_⟩
      · obtain ⟨h1, l, h2, h3, h4⟩ := h.1 () t' e
        refine ⟨h1, fun h' => absurd hn h', fun _ => ?_⟩
        obtain ⟨x, rfl⟩ := List.length_eq_one_iff.1 h3
        have hx := h4 x (List.mem_singleton.2 rfl)
        cases x <;> first | exact hx.elim | exact ⟨_, h2⟩
      · obtain ⟨h1, l, h2, h3, h4⟩ := h.2 m t' e
        exact ⟨h1, fun h' => absurd trivial h', l, h2, h4, h3, fun h' => absurd hn h'⟩
    · have h := heard_readBoozmn p ht (k := 0) (fun h' => absurd h' hn) (fun _ => rfl)
      refine ⟨fun t' e => ?_, fun m t' e => ?_⟩
      · obtain ⟨h1, l, h2, h3, -⟩ := h.1 () t' e
        rw [List.length_eq_zero_iff.1 h3, List.append_nil] at h2
        exact ⟨h1, fun _ => h2, fun h' => absurd h' hn⟩
      · obtain ⟨h1, l, h2, h3, h4⟩ := h.2 m t' e
        exact ⟨h1, fun h' => absurd trivial h', l, h2, h4, by omega, fun _ => h3⟩

/-- Reading a file without `chi_b` prints a message. -/
theorem nochi_printed {s t' : St α} {disk : Disk α} {path : String} {f : NcFile α} (hv : s.inp.verbose ≤ 0)
    (hd : disk path = .nc f) (hn : f.var? "chi_b" = none) (h : readBoozmn disk path s = .ok () t') :
    ∃ (t : Tty α) (m : String), Tty.perform (.readBoozmn path) ⟨⟨s, disk⟩, []⟩ = .ok () t ∧
      t.obj = t' ∧ t.lines = [.netcdfError m] := by
  have hN : NoChi (Tty.mk ⟨s, disk⟩ []).sess.disk (.readBoozmn path) := by
    refine ⟨f, hd, ?_⟩
    rintro ⟨v, hv, -⟩
    rw [hn] at hv
    cases hv
  have e := C92_same (.readBoozmn path) ⟨⟨s, disk⟩, []⟩
  have e' : perform (.readBoozmn path) ⟨s, disk⟩ = .ok () ⟨t', disk⟩ := by
    show Sess.on (readBoozmn disk path) ⟨s, disk⟩ = _
    unfold Sess.on
    rw [h]
  rw [e'] at e
  cases hp : Tty.perform (.readBoozmn path) ⟨⟨s, disk⟩, []⟩ with
  | ok x u =>
    obtain ⟨m, hm⟩ := ((C92_partial (c := .readBoozmn path) trivial (t := ⟨⟨s, disk⟩, []⟩) hv).1 u hp).2.2 hN
    rw [hp] at e
    injection e with _ e
    exact ⟨u, m, rfl, by unfold Tty.obj; rw [e], hm⟩
  | exc x u => rw [hp] at e; cases e
  | abort x => rw [hp] at e; cases e
  | ub x => rw [hp] at e; cases e

/-- **C92 is false** of the code: with `verbose = 0`, reading a `boozmn` file without `chi_b` returns normally,
yet a message has been written to standard output; and so has one if the file to read does not exist. -/
theorem C92_false : ∃ s : St α, s.inp.verbose = 0 ∧
    (∃ (disk : Disk α) (t : Tty α) (m : String), Tty.perform (.readBoozmn "boozmn.nc") ⟨⟨s, disk⟩, []⟩ = .ok () t ∧
      t.lines = [.netcdfError m]) ∧
    (∃ (t : Tty α) (m : String), Tty.perform (.readWout "wout.nc" false) ⟨⟨s, fun _ => .absent⟩, []⟩ = .exc m t ∧
      t.lines = [.netcdfError m]) := by
  refine ⟨{ construct with inp := { construct.inp with verbose := 0 } }, rfl, ?_, _, _, rfl, rfl⟩
  have hR := Ex.done_results (α := α) true true
  have hB := layout_isBoozmn hR (layout_ok (version := "0.0.1") hR) rfl
  have hx : (valsOf (Ex.done (α := α) true true) 2 2 true
      (decide ((Ex.done (α := α) true true).flux.phip.size ≠ 0))).phi[2]? = some (some (ofInt 6)) := rfl
  obtain ⟨t', h1, -⟩ := read_no_chi
    (disk := fun _ => .nc ((bzFile "0.0.1" 5 2 2 true (Ex.done (α := α) true true)).drop "chi_b"))
    (filename := "boozmn.nc") (t := { construct with inp := { construct.inp with verbose := 0 } }) rfl
    (IsBoozmn.drop_chi hB) (drop_same _ _) rfl hx
  obtain ⟨t, m, h2, -, h3⟩ := nochi_printed (le_refl 0) rfl (drop_same _ _) h1
  exact ⟨_, t, m, h2, h3⟩

/-- **C92, sessions**: however many calls are made with `verbose` at most 0, and whichever of them fail, all that is
printed are messages about errors, and there are at most as many of them as failed calls and reads of `boozmn` files
together. -/
theorem C92_session_partial {t u : Tty α} {l : List (Call × Option String)} (h : Session Tty.perform t l u)
    (hl : ∀ x ∈ l, NotLoud x.1) (ht : t.obj.inp.verbose ≤ 0) :
    ∃ k, u.lines = t.lines ++ k ∧ (∀ x ∈ k, IsError x) ∧ k.length ≤ failures l + boozmnReads l := by
  induction h with
  | nil s => exact ⟨[], by simp, by simp, by simp⟩
  | @ok s t u c l h _ ih =>
    obtain ⟨h1, h2, h3⟩ := (C92_partial (hl (c, none) List.mem_cons_self) ht).1 t h
    obtain ⟨k, g1, g2, g3⟩ := ih (fun x hx => hl x (List.mem_cons_of_mem _ hx)) h1
    have ef : failures ((c, none) :: l) = failures l := by simp [failures]
    by_cases hn : NoChi s.sess.disk c
    · obtain ⟨m, hm⟩ := h3 hn
      refine ⟨.netcdfError m :: k, by rw [g1, hm]; simp, ?_, ?_⟩
      · intro x hx
        rcases List.mem_cons.1 hx with rfl | hx
        · trivial
        · exact g2 x hx
      · have : boozmnReads ((c, none) :: l) = boozmnReads l + 1 := by
          cases c <;> first | exact hn.elim | simp [boozmnReads]
        rw [this, ef, List.length_cons]
        omega
    · refine ⟨k, by rw [g1, h2 hn], g2, ?_⟩
      have : boozmnReads l ≤ boozmnReads ((c, none) :: l) := by
        unfold boozmnReads
        rw [List.countP_cons]
        omega
      rw [ef]
      omega
  | @exc s t u c m l h _ ih =>
    obtain ⟨h1, -, k', e1, e2, e3, e4⟩ := (C92_partial (hl (c, some m) List.mem_cons_self) ht).2 m t h
    obtain ⟨k, g1, g2, g3⟩ := ih (fun x hx => hl x (List.mem_cons_of_mem _ hx)) h1
    refine ⟨k' ++ k, by rw [g1, e1, List.append_assoc], ?_, ?_⟩
    · intro x hx
      exact (List.mem_append.1 hx).elim (e2 x) (g2 x)
    · have ef : failures ((c, some m) :: l) = failures l + 1 := by simp [failures]
      have hb : k'.length + boozmnReads l ≤ 1 + boozmnReads ((c, some m) :: l) := by
        by_cases hn : NoChi s.sess.disk c
        · have : boozmnReads ((c, some m) :: l) = boozmnReads l + 1 := by
            cases c <;> first | exact hn.elim | simp [boozmnReads]
          rw [this]
          omega
        · have : boozmnReads l ≤ boozmnReads ((c, some m) :: l) := by
            unfold boozmnReads
            rw [List.countP_cons]
            omega
          have := e4 hn
          omega
      rw [ef, List.length_append]
      omega

/-- A session of two calls that fail, and the messages they leave. -/
example : ∃ u : Tty α, Session Tty.perform
    ⟨⟨{ construct with inp := { construct.inp with verbose := 0 } }, fun _ => .absent⟩, []⟩
    [(.setMboz 5, none), (.readWout "wout.nc" true, some "No such file or directory"),
      (.readBoozmn "boozmn.nc", some "No such file or directory")] u ∧
    u.lines = [.netcdfError "No such file or directory", .netcdfError "No such file or directory"] :=
  ⟨_, .ok rfl (.exc rfl (.exc rfl (.nil _))), rfl⟩

/-- **C92, what `run` prints** when `verbose` is positive: the reports of `check_accuracy`, one for each surface in
order, and no messages about errors. -/
theorem C92_run {t t' : Tty α} (hv : 0 < t.obj.inp.verbose) (h : Tty.perform .run t = .ok () t') :
    ∃ l r, Booz.run false t.obj = .ok (t'.obj, r) ∧ t'.lines = t.lines ++ l ∧ reportsIn l = r ∧
      r.length = t.obj.inp.compute_surfs.size ∧ ∀ x ∈ l, ¬ IsError x := by
  change Tty.run t = _ at h
  unfold Tty.run at h
  cases e : Booz.run false t.obj with
  | error e' =>
    rw [e] at h
    cases e' <;> cases h
  | ok r =>
    rw [e] at h
    simp only [if_pos hv] at h
    cases h
    refine ⟨_, r.2, rfl, rfl, ?_, (run_verbose_kept e).2 hv, ?_⟩
    · have k : ∀ (l : List (Report α)) (n : Nat), reportsIn ((l.zipIdx n).flatMap fun p =>
          (if t.obj.inp.verbose > 1 then [StdLine.solving p.2] else []) ++ [StdLine.report p.1]) = l := by
        intro l
        induction l with
        | nil => intro n; rfl
        | cons a l ih =>
          intro n
          rw [List.zipIdx_cons, List.flatMap_cons]
          unfold reportsIn at ih ⊢
          rw [List.filterMap_append, ih]
          split <;> rfl
      exact k r.2 0
    · intro x hx hE
      rcases List.mem_append.1 hx with hx | hx
      · simp only [List.mem_cons, List.not_mem_nil, or_false] at hx
        rcases hx with rfl | rfl | rfl <;> exact hE
      · obtain ⟨p, -, hp⟩ := List.mem_flatMap.1 hx
        rcases List.mem_append.1 hp with hp | hp
        · split at hp
          · rw [List.mem_singleton.1 hp] at hE; exact hE
          · cases hp
        · rw [List.mem_singleton.1 hp] at hE; exact hE

theorem tty_run_ok {t : Tty α} {s' : St α} {r : List (Report α)} (h : Booz.run false t.obj = .ok (s', r)) :
    ∃ t', Tty.perform .run t = .ok () t' := by
  show ∃ t', Tty.run t = .ok () t'
  unfold Tty.run
  rw [h]
  exact ⟨_, rfl⟩

example : ∃ t' : Tty α, Tty.perform .run ⟨⟨Ex.st true, fun _ => .absent⟩, []⟩ = .ok () t' ∧
    (reportsIn t'.lines).length = (Ex.inputs (α := α) true).compute_surfs.size := by
  have key : ∀ t : Tty α, t.obj = Ex.st true → t.lines = [] → ∃ t' : Tty α, Tty.perform .run t = .ok () t' ∧
      (reportsIn t'.lines).length = (Ex.inputs (α := α) true).compute_surfs.size := by
    intro t ht hl
    obtain ⟨s', r, hr⟩ := C05_run_safe (s := Ex.st (α := α) true) (Ex.ready true)
    rw [← ht] at hr
    obtain ⟨t', e⟩ := tty_run_ok hr
    have hv : (Ex.st (α := α) true).inp.verbose = 1 := rfl
    obtain ⟨l, r, -, h2, h3, h4, -⟩ := C92_run (by rw [ht, hv]; decide) e
    refine ⟨t', e, ?_⟩
    rw [h2, hl, List.nil_append, h3, h4, ht]
    rfl
  exact key _ rfl rfl

end Booz
