import Verif.Spec.Levels
import Verif.Props.Stdout
import Verif.Lemmas.Pipeline

/-!
# C102: the levels of `verbose`
-/

namespace Booz
open Spec
variable {α : Type} [Arith α]

/-- A part of a method: when it returns, it has printed what is shown of `l`; `verbose` and the files are unchanged. -/
def Says {β : Type} (l : List (StdLine α)) (p : Prog (Tty α) β) : Prop := ∀ t x t', p t = .ok x t' →
  t'.obj.inp.verbose = t.obj.inp.verbose ∧ t'.sess.disk = t.sess.disk ∧
    t'.lines = t.lines ++ l.filter (shown t.obj.inp.verbose)

omit [Arith α] in
theorem Says.bind {β γ : Type} {k l : List (StdLine α)} {p : Prog (Tty α) β} {f : β → Prog (Tty α) γ} (hp : Says k p)
    (hf : ∀ x, Says l (f x)) : Says (k ++ l) (p >>= f) := by
  intro t x t' h
  obtain ⟨y, u, h1, h2⟩ := prog_bind_ok h
  obtain ⟨a1, a2, a3⟩ := hp t y u h1
  obtain ⟨b1, b2, b3⟩ := hf y u x t' h2
  exact ⟨b1.trans a1, b2.trans a2, by rw [b3, a3, a1, List.filter_append, List.append_assoc]⟩

omit [Arith α] in
theorem Says.say {k : Int} {l : StdLine α} (h : levelOf l = some (k + 1)) : Says [l] (Tty.say k l) := by
  intro t x t' e
  unfold Tty.say at e
  cases e
  have hs : shown t.obj.inp.verbose l = decide (t.obj.inp.verbose > k) := by
    unfold shown
    rw [h]
    simp only [decide_eq_decide]
    omega
  by_cases hv : t.obj.inp.verbose > k
  · rw [if_pos hv, List.filter_cons_of_pos (by rw [hs]; simpa using hv)]
    exact ⟨rfl, rfl, rfl⟩
  · rw [if_neg hv, List.filter_cons_of_neg (by rw [hs]; simpa using hv)]
    exact ⟨rfl, rfl, (List.append_nil _).symm⟩

omit [Arith α] in
theorem Says.reading {β : Type} {q : Prog (St α) β} (h : KeepsVerb q) : Says [] (Tty.reading q) := by
  intro t x t' e
  unfold Tty.reading at e
  cases hq : q t.obj with
  | ok y s =>
    rw [hq] at e
    cases e
    exact ⟨(h t.obj).1 _ _ hq, rfl, by simp [Tty.put]⟩
  | exc m s => rw [hq] at e; cases e
  | abort x => rw [hq] at e; cases e
  | ub x => rw [hq] at e; cases e

omit [Arith α] in
theorem Says.quiet {β : Type} {q : Prog (St α) β} (h : KeepsVerb q) : Says [] (Tty.quiet q) := by
  intro t x t' e
  unfold Tty.quiet at e
  cases hq : q t.obj with
  | ok y s =>
    rw [hq] at e
    cases e
    exact ⟨(h t.obj).1 _ _ hq, rfl, by simp [Tty.put]⟩
  | exc m s => rw [hq] at e; cases e
  | abort x => rw [hq] at e; cases e
  | ub x => rw [hq] at e; cases e

omit [Arith α] in
theorem says_get {β : Type} {l : List (StdLine α)} {f : Tty α → Prog (Tty α) β} (h : ∀ t, Says l (f t)) :
    Says l (Prog.get >>= f) := fun t x t' e => h t t x t' e

theorem says_chi0 {f : NcFile α} (hf : HasNumbers f "chi_b") : Says [] (Tty.chi f) := by
  intro t x t' e
  unfold Tty.chi at e
  cases hq : f.getVec "chi_b" t.obj.flux.chi with
  | ok v =>
    rw [hq] at e
    cases e
    exact ⟨rfl, rfl, by simp [Tty.put]⟩
  | error er =>
    rw [hq] at e
    cases er with
    | throw m => exact absurd hq (getVec_no_throw hf _ m)
    | ub x => cases e
    | assertFail x => cases e

/-- What is printed about the variable `chi_b` that has no numbers. -/
theorem says_chi1 {f : NcFile α} (hf : ¬ HasNumbers f "chi_b") {t t' : Tty α} {x : Unit} (e : Tty.chi f t = .ok x t') :
    t'.obj.inp.verbose = t.obj.inp.verbose ∧ t'.sess.disk = t.sess.disk ∧
      ∃ m, t'.lines = t.lines ++ [StdLine.netcdfError m] := by
  unfold Tty.chi at e
  cases hq : f.getVec "chi_b" t.obj.flux.chi with
  | ok v => exact absurd hq (getVec_no_ok hf _ _)
  | error er =>
    rw [hq] at e
    cases er with
    | throw m => cases e; exact ⟨rfl, rfl, m, rfl⟩
    | ub x => cases e
    | assertFail x => cases e

theorem Says.wout (path : String) (flux : Bool) :
    Says (talk (.readWout path flux) [] []) (Tty.readWout (α := α) path flux) := by
  unfold Tty.readWout Tty.vmec
  exact .bind (.say rfl) fun _ => says_get fun t => .bind (k := []) (.reading (KeepsVerb.lift _)) fun f =>
    .bind (k := []) (.reading (.readWoutBody _ _)) fun q => .bind (k := []) (.quiet (.vmec _ _)) fun _ =>
    .bind (.say rfl) fun _ => .say rfl

/-- What `read_boozmn` prints after `chi_b`. -/
theorem says_after {f : NcFile α} (a : Int) (l : ProfileLocals α) :
    Says [StdLine.boozSizes, .boozSurfs, .boozS] (do
      Tty.reading (readProfiles2 f l)
      let nb ← Tty.reading (Prog.lift (f.getdim "comput_surfs"))
      Tty.say 0 .boozSizes
      Tty.reading (readSurfs2 f nb)
      Tty.say 0 .boozSurfs
      Tty.reading (readTail f a)
      Tty.say 0 .boozS) :=
  .bind (k := []) (.reading (.readProfiles2 _ _)) fun _ => .bind (k := []) (.reading (KeepsVerb.lift _)) fun _ =>
    .bind (.say rfl) fun _ => .bind (k := []) (.reading (.readSurfs2 _ _)) fun _ => .bind (.say rfl) fun _ =>
    .bind (k := []) (.reading (.readTail _ _)) fun _ => .say rfl

theorem says_boozmn {path : String} {t t' : Tty α} (h : Tty.readBoozmn path t = .ok () t') :
    ∃ e : List String, (e.length = 1 ∧ NoChi t.sess.disk (.readBoozmn path) ∨
        e = [] ∧ ¬ NoChi t.sess.disk (.readBoozmn path)) ∧
      t'.lines = t.lines ++ (talk (.readBoozmn path) [] e).filter (shown t.obj.inp.verbose) := by
  unfold Tty.readBoozmn at h
  obtain ⟨_, t1, h1, h⟩ := prog_bind_ok h
  obtain ⟨a1, a2, a3⟩ := Says.say (l := StdLine.about path) rfl _ _ _ h1
  rw [Prog.get_bind] at h
  obtain ⟨f, t2, h2, h⟩ := prog_bind_ok h
  obtain ⟨b1, b2, b3⟩ := Says.reading (KeepsVerb.lift _) _ _ _ h2
  have hd : t.sess.disk path = .nc f := by
    rw [← a2]
    unfold Tty.reading Prog.lift openRead at h2
    cases hc : t1.sess.disk path with
    | nc g => rw [hc] at h2; cases h2; rfl
    | _ => rw [hc] at h2; cases h2
  obtain ⟨a, t3, h3, h⟩ := prog_bind_ok h
  obtain ⟨c1, c2, c3⟩ := Says.reading (KeepsVerb.readHead _) _ _ _ h3
  obtain ⟨l, t4, h4, h⟩ := prog_bind_ok h
  obtain ⟨d1, d2, d3⟩ := Says.reading (KeepsVerb.readProfiles1 _) _ _ _ h4
  obtain ⟨_, t5, h5, h⟩ := prog_bind_ok h
  obtain ⟨g1, g2, g3⟩ := says_after a l _ _ _ h
  have hv : t4.obj.inp.verbose = t.obj.inp.verbose := by rw [d1, c1, b1, a1]
  have hl : t4.lines = t.lines ++ [StdLine.about path].filter (shown t.obj.inp.verbose) := by
    rw [d3, c3, b3, a3]
    simp
  by_cases hn : HasNumbers f "chi_b"
  · obtain ⟨e1, e2, e3⟩ := says_chi0 hn _ _ _ h5
    refine ⟨[], .inr ⟨rfl, fun ⟨g, hg, hg'⟩ => hg' ?_⟩, ?_⟩
    · cases hd.symm.trans hg
      exact hn
    · rw [g3, e3, hl, e1, hv]
      simp only [talk, List.filter_append, List.append_assoc]
      rfl
  · obtain ⟨e1, e2, m, e3⟩ := says_chi1 hn h5
    refine ⟨[m], .inl ⟨rfl, f, hd, hn⟩, ?_⟩
    rw [g3, e3, hl, e1, hv]
    simp only [talk, List.filter_append, List.append_assoc]
    rfl

theorem surfaceLines_talk (v : Int) (hv : 0 < v) (r : List (Report α)) (n : Nat) :
    ((r.zipIdx n).flatMap fun p => (if v > 1 then [StdLine.solving p.2] else []) ++ [StdLine.report p.1]) =
      (surfaceTalk n r).filter (shown v) := by
  induction r generalizing n with
  | nil => rfl
  | cons a r ih =>
    rw [List.zipIdx_cons, List.flatMap_cons, ih (n + 1)]
    show _ = (StdLine.solving n :: StdLine.report a :: surfaceTalk (n + 1) r).filter (shown v)
    have h1 : shown v (StdLine.report a) = true := by simp [shown, levelOf]; omega
    by_cases h : v > 1
    · have h2 : shown v (StdLine.solving (α := α) n) = true := by simp [shown, levelOf]; omega
      rw [if_pos h, List.filter_cons_of_pos h2, List.filter_cons_of_pos h1]
      rfl
    · have h2 : ¬ shown v (StdLine.solving (α := α) n) = true := by simp [shown, levelOf]; omega
      rw [if_neg h, List.filter_cons_of_neg h2, List.filter_cons_of_pos h1]
      rfl

theorem talk_silent {v : Int} (hv : v ≤ 0) (n : Nat) (r : List (Report α)) :
    (surfaceTalk n r).filter (shown v) = [] := by
  induction r generalizing n with
  | nil => rfl
  | cons a r ih =>
    show (StdLine.solving n :: StdLine.report a :: surfaceTalk (n + 1) r).filter (shown v) = []
    rw [List.filter_cons_of_neg (by simp [shown, levelOf]; omega),
      List.filter_cons_of_neg (by simp [shown, levelOf]; omega), ih]

/-- **C102.**  A call that returns has printed the messages that belong to it, in order, and of these exactly those of
the level given by `verbose` at the time of the call (and messages about a missing `chi_b`, at any level). -/
theorem C102_levels {c : Call} {t t' : Tty α} (h : Tty.perform c t = .ok () t') :
    ∃ (r : List (Report α)) (e : List String),
      (c = .run → Booz.run false t.obj = .ok (t'.obj, r)) ∧
      (e.length = 1 ∧ NoChi t.sess.disk c ∨ e = [] ∧ ¬ NoChi t.sess.disk c) ∧
      t'.lines = t.lines ++ (talk c r e).filter (shown t.obj.inp.verbose) := by
  have plain {p : Prog (Sess α) Unit} {u u' : Tty α} (h : Tty.plain p u = .ok () u') : u'.lines = u.lines := by
    unfold Tty.plain at h
    cases hp : p u.sess <;> rw [hp] at h <;> cases h
    rfl
  cases c with
  | readWout path flux =>
    exact ⟨[], [], fun h => (by cases h), .inr ⟨rfl, id⟩, (Says.wout path flux _ _ _ h).2.2⟩
  | readBoozmn path =>
    obtain ⟨e, h1, h2⟩ := says_boozmn h
    exact ⟨[], e, fun h => (by cases h), h1, h2⟩
  | setMboz m =>
    exact ⟨[], [], fun h => (by cases h), .inr ⟨rfl, id⟩, by rw [plain (p := Booz.perform (.setMboz m)) h]; simp [talk]⟩
  | setNboz m =>
    exact ⟨[], [], fun h => (by cases h), .inr ⟨rfl, id⟩, by rw [plain (p := Booz.perform (.setNboz m)) h]; simp [talk]⟩
  | setVerbose m =>
    exact ⟨[], [], fun h => (by cases h), .inr ⟨rfl, id⟩, by rw [plain (p := Booz.perform (.setVerbose m)) h]; simp [talk]⟩
  | setSurfs m =>
    exact ⟨[], [], fun h => (by cases h), .inr ⟨rfl, id⟩, by rw [plain (p := Booz.perform (.setSurfs m)) h]; simp [talk]⟩
  | write env v path =>
    obtain ⟨_, t1, h1, h2⟩ := prog_bind_ok h
    obtain ⟨-, -, a3⟩ := Says.say (l := StdLine.writing path) rfl _ _ _ h1
    exact ⟨[], [], fun h => (by cases h), .inr ⟨rfl, id⟩, by rw [plain h2, a3]; rfl⟩
  | run =>
    change Tty.run t = _ at h
    unfold Tty.run at h
    cases hr : Booz.run false t.obj with
    | error e => rw [hr] at h; cases e <;> cases h
    | ok q =>
      rw [hr] at h
      cases h
      refine ⟨q.2, [], fun _ => rfl, .inr ⟨rfl, id⟩, ?_⟩
      by_cases hv : t.obj.inp.verbose > 0
      · rw [if_pos hv]
        show t.lines ++ _ = _
        unfold surfaceLines
        rw [surfaceLines_talk _ hv]
        simp only [talk, List.filter_append]
        congr 2
        rw [List.filter_eq_self.2]
        intro x hx
        simp only [List.mem_cons, List.not_mem_nil, or_false] at hx
        rcases hx with rfl | rfl | rfl <;> simp [shown, levelOf] <;> omega
      · rw [if_neg hv]
        show t.lines ++ _ = _
        simp only [talk, List.filter_append, talk_silent (not_lt.mp hv)]
        simp [shown, levelOf]
        omega

omit [Arith α] in
theorem surfaceTalk_brief (n : Nat) (r : List (Report α)) :
    (surfaceTalk n r).filter (shown 1) = r.map StdLine.report := by
  induction r generalizing n with
  | nil => rfl
  | cons a r ih =>
    show (StdLine.solving n :: StdLine.report a :: surfaceTalk (n + 1) r).filter (shown 1) = _
    rw [List.filter_cons_of_neg (by simp [shown, levelOf]), List.filter_cons_of_pos (by simp [shown, levelOf]), ih]
    rfl

/-- **C102, some output**: with `verbose = 1` a call that returns prints at most five messages, a run three and
one line for each surface; no array is listed. -/
theorem C102_brief {c : Call} {t t' : Tty α} (hv : t.obj.inp.verbose = 1) (h : Tty.perform c t = .ok () t') :
    ∃ l, t'.lines = t.lines ++ l ∧ StdLine.vmecArrays ∉ l ∧
      (c ≠ .run → l.length ≤ 5) ∧ (c = .run → l.length = 3 + t.obj.inp.compute_surfs.size) := by
  obtain ⟨r, e, h1, h2, h3⟩ := C102_levels h
  rw [hv] at h3
  refine ⟨_, h3, fun hm => ?_, fun hc => ?_, fun hc => ?_⟩
  · have := (List.mem_filter.1 hm).2
    simp [shown, levelOf] at this
  · have he : e.length ≤ 1 := by
      rcases h2 with h2 | h2
      · exact h2.1.le
      · rw [h2.1]; simp
    refine (List.length_filter_le _ _).trans ?_
    cases c <;> simp [talk] at hc ⊢
    omega
  · subst hc
    have hr := (run_verbose_kept (h1 rfl)).2 (by rw [hv]; decide)
    simp only [talk, List.filter_append, surfaceTalk_brief, List.length_append, List.length_map]
    rw [← hr]
    rfl

omit [Arith α] in
/-- **C102, more output**: of the messages of a call, those printed at a lower level are among those printed at a
higher one, in the same order. -/
theorem C102_more {v w : Int} (h : v ≤ w) (c : Call) (r : List (Report α)) (e : List String) :
    ((talk c r e).filter (shown v)).Sublist ((talk c r e).filter (shown w)) := by
  refine List.monotone_filter_right _ fun x hx => ?_
  unfold shown at hx ⊢
  cases hl : levelOf x with
  | none => rfl
  | some k =>
    rw [hl] at hx
    simp only [decide_eq_true_eq] at hx ⊢
    omega

/-- The hypotheses are met: the example can be transformed with each level, and the messages differ. -/
example : ∃ t' : Tty α, Tty.perform .run ⟨⟨Ex.st true, fun _ => .absent⟩, []⟩ = .ok () t' ∧
    (Ex.st (α := α) true).inp.verbose = 1 ∧ t'.lines.length = 5 := by
  have key : ∀ t : Tty α, t.obj = Ex.st true → t.lines = [] → ∃ t' : Tty α, Tty.perform .run t = .ok () t' ∧
      t'.lines.length = 5 := by
    intro t ht hl
    obtain ⟨s', r, hr⟩ := C05_run_safe (s := Ex.st (α := α) true) (Ex.ready true)
    rw [← ht] at hr
    obtain ⟨t', e⟩ := tty_run_ok hr
    have hv : (Ex.st (α := α) true).inp.verbose = 1 := rfl
    obtain ⟨r, m, h1, -, h3⟩ := C102_levels e
    have h4 := (run_verbose_kept (h1 rfl)).2 (by rw [ht, hv]; decide)
    refine ⟨t', e, ?_⟩
    rw [h3, hl, ht, hv, List.nil_append]
    simp only [talk, List.filter_append, surfaceTalk_brief, List.length_append, List.length_map]
    rw [show r.length = 2 from h4.trans (by rw [ht]; rfl)]
    rfl
  obtain ⟨t', h1, h2⟩ := key ⟨⟨Ex.st true, fun _ => .absent⟩, []⟩ rfl rfl
  exact ⟨t', h1, rfl, h2⟩

end Booz
