import Verif.Model.Stdout
import Verif.Lemmas.Inv
import Verif.Lemmas.AsymFree
import Verif.Spec.Stdout

/-!
# Messages of one call
-/

namespace Booz
variable {α : Type} [Arith α]

/-! ### `verbose` is not changed by reading -/

/-- `verbose` is the same after a return and after an exception. -/
def KeepsVerb {β : Type} (p : Prog (St α) β) : Prop := ∀ s,
  (∀ x t, p s = .ok x t → t.inp.verbose = s.inp.verbose) ∧ (∀ m t, p s = .exc m t → t.inp.verbose = s.inp.verbose)

omit [Arith α] in
theorem KeepsVerb.bind {β γ : Type} {p : Prog (St α) β} {f : β → Prog (St α) γ} (hp : KeepsVerb p)
    (hf : ∀ x, KeepsVerb (f x)) : KeepsVerb (p >>= f) := by
  intro s
  rw [Prog.bind_def]
  cases e : p s with
  | ok x t =>
    have h1 := (hp s).1 x t e
    exact ⟨fun y u h => ((hf x t).1 y u h).trans h1, fun m u h => ((hf x t).2 m u h).trans h1⟩
  | exc m t => exact ⟨fun y u h => (by cases h), fun m u h => by cases h; exact (hp s).2 _ _ e⟩
  | abort x => exact ⟨fun y u h => (by cases h), fun m u h => by cases h⟩
  | ub x => exact ⟨fun y u h => (by cases h), fun m u h => by cases h⟩

omit [Arith α] in
theorem KeepsVerb.get : KeepsVerb (Prog.get (σ := St α)) :=
  fun _ => ⟨fun _ _ h => (by cases h; rfl), fun _ _ h => by cases h⟩

omit [Arith α] in
theorem KeepsVerb.lift {β : Type} (r : Res β) : KeepsVerb (Prog.lift (σ := St α) r) := by
  intro s
  unfold Prog.lift
  cases r with
  | ok x => exact ⟨fun _ _ h => (by cases h; rfl), fun _ _ h => by cases h⟩
  | error e =>
    cases e with
    | throw m => exact ⟨fun _ _ h => (by cases h), fun _ _ h => by cases h; rfl⟩
    | ub w => exact ⟨fun _ _ h => (by cases h), fun _ _ h => by cases h⟩
    | assertFail w => exact ⟨fun _ _ h => (by cases h), fun _ _ h => by cases h⟩

omit [Arith α] in
theorem KeepsVerb.modify {g : St α → Res (St α)} (hg : ∀ s t, g s = .ok t → t.inp.verbose = s.inp.verbose) :
    KeepsVerb (Prog.modify g) := by
  intro s
  cases e : g s with
  | ok t =>
    refine ⟨fun x t' h => ?_, fun x t' h => ?_⟩ <;>
    · simp only [Prog.modify, Prog.bind_def, Prog.get, e, Prog.lift] at h
      cases h
      try exact hg _ _ e
  | error f =>
    cases f <;>
    · refine ⟨fun x t h => ?_, fun x t h => ?_⟩ <;>
      · simp only [Prog.modify, Prog.bind_def, Prog.get, e, Prog.lift] at h
        cases h
        try rfl

omit [Arith α] in
theorem KeepsVerb.setInp {g : Inputs α → Res (Inputs α)} (hg : ∀ s t, g s = .ok t → t.verbose = s.verbose) :
    KeepsVerb (setInp g) := by
  refine KeepsVerb.modify fun s t h => ?_
  obtain ⟨I, h1, h⟩ := bind_ok h
  cases h
  exact hg _ _ h1

theorem KeepsVerb.readWoutBody (f : NcFile α) (flux : Bool) : KeepsVerb (readWoutBody f flux) := by
  unfold Booz.readWoutBody
  repeat' first
    | exact KeepsVerb.lift _
    | exact KeepsVerb.get
    | exact KeepsVerb.lift (.ok _)
    | refine KeepsVerb.setInp fun s t h => ?_
    | refine KeepsVerb.bind ?_ fun _ => ?_
  all_goals
    repeat' (obtain ⟨_, _, h⟩ := bind_ok h)
    cases h
    rfl

syntax "keeps_verb" : tactic
macro_rules
  | `(tactic| keeps_verb) => `(tactic| (
      repeat' first
        | exact KeepsVerb.lift _
        | exact KeepsVerb.get
        | exact KeepsVerb.lift (.ok _)
        | refine KeepsVerb.modify fun s t h => ?_
        | refine KeepsVerb.bind ?_ fun _ => ?_
      all_goals
        repeat' (obtain ⟨_, _, h⟩ := bind_ok h)
        cases h
        rfl))

theorem KeepsVerb.readHead (f : NcFile α) : KeepsVerb (readHead f) := by
  unfold Booz.readHead readSizes readModes; keeps_verb
theorem KeepsVerb.readProfiles1 (f : NcFile α) : KeepsVerb (readProfiles1 f) := by
  unfold Booz.readProfiles1; keeps_verb
theorem KeepsVerb.readProfiles2 (f : NcFile α) (l : ProfileLocals α) : KeepsVerb (readProfiles2 f l) := by
  unfold Booz.readProfiles2; keeps_verb
theorem KeepsVerb.readSurfs2 (f : NcFile α) (nb : Nat) : KeepsVerb (readSurfs2 f nb) := by
  unfold Booz.readSurfs2; keeps_verb
theorem KeepsVerb.readTail (f : NcFile α) (a : Int) : KeepsVerb (readTail f a) := by
  unfold Booz.readTail readSym readS readAsym
  cases decide (a ≠ 0)
  · simp only [Bool.false_eq_true, if_false]; keeps_verb
  · simp only [if_true]; keeps_verb

/-! ### Leaving out the messages -/

open Spec

/-- A method on the object of a session. -/
def onObj {β : Type} (q : Prog (St α) β) : Prog (Sess α) β := fun w =>
  match q w.obj with
  | .ok x s => .ok x { w with obj := s }
  | .exc m s => .exc m { w with obj := s }
  | .abort x => .abort x
  | .ub x => .ub x

/-- Without its messages, `p` does `q` to the object, on the disk `d`. -/
def Erases {β : Type} (d : Disk α) (p : Prog (Tty α) β) (q : Prog (St α) β) : Prop :=
  ∀ t, t.sess.disk = d → unprinted (p t) = onObj q t.sess

omit [Arith α] in
theorem Erases.bind {β γ : Type} {d : Disk α} {p : Prog (Tty α) β} {q : Prog (St α) β} {f : β → Prog (Tty α) γ}
    {g : β → Prog (St α) γ} (h : Erases d p q) (h' : ∀ x, Erases d (f x) (g x)) : Erases d (p >>= f) (q >>= g) := by
  intro t ht
  have e := h t ht
  unfold onObj at e ⊢
  rw [Prog.bind_def, Prog.bind_def]
  cases hp : p t <;> cases hq : q t.sess.obj <;> rw [hp, hq] at e <;> simp only [unprinted] at e <;>
    first | (cases e; done) | skip
  · rename_i x t' y s
    injection e with e1 e2
    subst e1
    have := h' x t' (by rw [e2]; exact ht)
    rw [e2] at this
    simp only [this, onObj]
  · injection e with e1 e2
    simp only [unprinted, e1, e2]
  · injection e with e1
    simp only [unprinted, e1]
  · injection e with e1
    simp only [unprinted, e1]

omit [Arith α] in
theorem Erases.quiet {β : Type} (d : Disk α) (q : Prog (St α) β) : Erases d (Tty.quiet q) q := by
  intro t _
  unfold Tty.quiet onObj Tty.obj
  cases q t.sess.obj <;> rfl

omit [Arith α] in
theorem Erases.reading {β : Type} (d : Disk α) (q : Prog (St α) β) : Erases d (Tty.reading q) q := by
  intro t _
  unfold Tty.reading onObj Tty.obj
  cases q t.sess.obj <;> rfl

omit [Arith α] in
theorem Erases.say {β : Type} {d : Disk α} {level : Int} {l : StdLine α} {f : Unit → Prog (Tty α) β} {q : Prog (St α) β}
    (h : Erases d (f ()) q) : Erases d (Tty.say level l >>= f) q := by
  intro t ht
  rw [Prog.bind_def]
  unfold Tty.say
  dsimp only
  by_cases hl : t.obj.inp.verbose > level
  · rw [if_pos hl]
    exact h (t.print [l]) ht
  · rw [if_neg hl]
    exact h t ht

omit [Arith α] in
theorem Erases.andSay {d : Disk α} {level : Int} {l : StdLine α} {p : Prog (Tty α) Unit} {q : Prog (St α) Unit}
    (h : Erases d p q) : Erases d (p >>= fun _ => Tty.say level l) q := by
  intro t ht
  rw [← h t ht, Prog.bind_def]
  cases p t with
  | ok x u =>
    unfold Tty.say
    dsimp only
    split <;> rfl
  | exc m u => rfl
  | abort x => rfl
  | ub x => rfl

omit [Arith α] in
theorem Erases.get {β : Type} {d : Disk α} {f : Tty α → Prog (Tty α) β} {q : Prog (St α) β}
    (h : ∀ t, t.sess.disk = d → Erases d (f t) q) : Erases d (Prog.get >>= f) q := fun t ht => h t ht t ht

omit [Arith α] in
theorem setSt_apply (g : St α → Res (St α)) (s : St α) : setSt g s = match g s with
    | .ok s => .ok () s
    | .error (.throw m) => .exc m s
    | .error (.ub w) => .ub w
    | .error (.assertFail w) => .abort w := by
  unfold setSt Prog.modify
  rw [Prog.get_bind]
  cases g s with
  | ok s => rfl
  | error e => cases e <;> rfl

theorem Erases.chi (d : Disk α) (f : NcFile α) : Erases d (Tty.chi f) (setSt fun s => do
    let v ← tryGetVec f "chi_b" s.flux.chi
    pure { s with flux := { s.flux with chi := v } }) := by
  intro t _
  unfold onObj
  rw [setSt_apply]
  unfold Tty.chi Tty.obj tryGetVec
  cases f.getVec "chi_b" t.sess.obj.flux.chi with
  | ok v => rfl
  | error e => cases e <;> rfl

theorem readBoozmn_parts (disk : Disk α) (path : String) : readBoozmn disk path = (do
    let f ← Prog.lift (openRead disk path)
    let a ← readHead f
    let l ← readProfiles1 f
    setSt fun s => do
      let v ← tryGetVec f "chi_b" s.flux.chi
      pure { s with flux := { s.flux with chi := v } }
    readProfiles2 f l
    let nb ← Prog.lift (f.getdim "comput_surfs")
    readSurfs2 f nb
    readTail f a) := by
  unfold readBoozmn readBoozmnBody readHead readProfiles readProfiles1 readProfiles2 readSurfs readSurfs2 readTail
  simp only [Prog.bind_assoc, Prog.pure_bind]

theorem erases_readBoozmn (d : Disk α) (path : String) : Erases d (Tty.readBoozmn path) (readBoozmn d path) := by
  rw [readBoozmn_parts]
  unfold Tty.readBoozmn
  refine .say (.get fun t ht => ?_)
  rw [ht]
  exact .bind (.reading _ _) fun f => .bind (.reading _ _) fun a => .bind (.reading _ _) fun l => .bind (.chi _ _) fun _ =>
    .bind (.reading _ _) fun _ => .bind (.reading _ _) fun nb => .say <| .bind (.reading _ _) fun _ =>
    .say <| .andSay <| .reading _ _

theorem erases_readWout (d : Disk α) (path : String) (flux : Bool) :
    Erases d (Tty.readWout path flux) (readWout d path flux) := by
  unfold Tty.readWout Tty.vmec readWout
  refine .say (.get fun t ht => ?_)
  rw [ht]
  refine .bind (.reading _ _) fun f => .bind (.reading _ _) fun q => ?_
  rw [← Prog.bind_assoc]
  exact .andSay <| .andSay <| .quiet _ _

/-! ### What is printed when `verbose` is not positive -/

/-- From the state `t`: `verbose` stays at most 0; `k` messages about errors have been printed after a return,
at most one more after an exception. -/
def Heard {β : Type} (k : Nat) (t : Tty α) (r : Out (Tty α) β) : Prop :=
  (∀ x t', r = .ok x t' → t'.obj.inp.verbose ≤ 0 ∧ ∃ l, t'.lines = t.lines ++ l ∧ l.length = k ∧ ∀ x ∈ l, IsError x) ∧
  (∀ m t', r = .exc m t' → t'.obj.inp.verbose ≤ 0 ∧
    ∃ l, t'.lines = t.lines ++ l ∧ l.length ≤ k + 1 ∧ ∀ x ∈ l, IsError x)

/-- So with any object whose `verbose` is at most 0. -/
def Calm {β : Type} (k : Nat) (p : Prog (Tty α) β) : Prop := ∀ t, t.obj.inp.verbose ≤ 0 → Heard k t (p t)

omit [Arith α] in
theorem Calm.bind {β γ : Type} {k k' : Nat} {p : Prog (Tty α) β} {f : β → Prog (Tty α) γ} (hp : Calm k p)
    (hf : ∀ x, Calm k' (f x)) : Calm (k + k') (p >>= f) := by
  intro t ht
  rw [Prog.bind_def]
  cases e : p t with
  | ok x u =>
    obtain ⟨h1, l, h2, h3, h4⟩ := (hp t ht).1 x u e
    obtain ⟨g1, g2⟩ := hf x u h1
    constructor
    · intro y v h
      obtain ⟨r1, l', r2, r3, r4⟩ := g1 y v h
      refine ⟨r1, l ++ l', by rw [r2, h2, List.append_assoc], by rw [List.length_append]; omega, ?_⟩
      intro z hz
      exact (List.mem_append.1 hz).elim (h4 z) (r4 z)
    · intro y v h
      obtain ⟨r1, l', r2, r3, r4⟩ := g2 y v h
      refine ⟨r1, l ++ l', by rw [r2, h2, List.append_assoc], by rw [List.length_append]; omega, ?_⟩
      intro z hz
      exact (List.mem_append.1 hz).elim (h4 z) (r4 z)
  | exc m u =>
    refine ⟨fun y v h => (by cases h), fun m' v h => ?_⟩
    cases h
    obtain ⟨h1, l, h2, h3, h4⟩ := (hp t ht).2 m u e
    exact ⟨h1, l, h2, by omega, h4⟩
  | abort x => exact ⟨fun y v h => (by cases h), fun m v h => by cases h⟩
  | ub x => exact ⟨fun y v h => (by cases h), fun m v h => by cases h⟩

omit [Arith α] in
theorem Calm.get : Calm 0 (Prog.get (σ := Tty α)) :=
  fun t ht => ⟨fun _ _ h => (by cases h; exact ⟨ht, [], by simp, by simp, by simp⟩), fun _ _ h => by cases h⟩

omit [Arith α] in
theorem Calm.say (level : Int) (hl : 0 ≤ level) (l : StdLine α) : Calm 0 (Tty.say level l) := by
  intro t ht
  unfold Tty.say
  rw [if_neg (by omega)]
  exact ⟨fun _ _ h => (by cases h; exact ⟨ht, [], by simp, by simp, by simp⟩), fun _ _ h => by cases h⟩

omit [Arith α] in
theorem Calm.reading {β : Type} {q : Prog (St α) β} (h : KeepsVerb q) : Calm 0 (Tty.reading q) := by
  intro t ht
  unfold Tty.reading
  cases e : q t.obj with
  | ok x s =>
    refine ⟨fun y u h' => ?_, fun _ _ h' => by cases h'⟩
    cases h'
    exact ⟨le_of_eq_of_le ((h t.obj).1 x s e) ht, [], by simp [Tty.put], by simp, by simp⟩
  | exc m s =>
    refine ⟨fun _ _ h' => (by cases h'), fun y u h' => ?_⟩
    cases h'
    refine ⟨le_of_eq_of_le ((h t.obj).2 m s e) ht, [.netcdfError m], rfl, by simp, ?_⟩
    intro x hx
    rw [List.mem_singleton.1 hx]
    trivial
  | abort x => exact ⟨fun y v h => (by cases h), fun m v h => by cases h⟩
  | ub x => exact ⟨fun y v h => (by cases h), fun m v h => by cases h⟩

omit [Arith α] in
theorem Calm.quiet {β : Type} {q : Prog (St α) β} (h : KeepsVerb q) : Calm 0 (Tty.quiet q) := by
  intro t ht
  unfold Tty.quiet
  cases e : q t.obj with
  | ok x s =>
    refine ⟨fun y u h' => ?_, fun _ _ h' => by cases h'⟩
    cases h'
    exact ⟨le_of_eq_of_le ((h t.obj).1 x s e) ht, [], by simp [Tty.put], by simp, by simp⟩
  | exc m s =>
    refine ⟨fun _ _ h' => (by cases h'), fun y u h' => ?_⟩
    cases h'
    exact ⟨le_of_eq_of_le ((h t.obj).2 m s e) ht, [], by simp [Tty.put], by simp, by simp⟩
  | abort x => exact ⟨fun y v h => (by cases h), fun m v h => by cases h⟩
  | ub x => exact ⟨fun y v h => (by cases h), fun m v h => by cases h⟩

theorem getVec_no_ok {f : NcFile α} {n : String} (h : ¬ HasNumbers f n) (v w : Vec α) : f.getVec n v ≠ .ok w := by
  intro e
  obtain ⟨x, h1, e⟩ := bind_ok e
  obtain ⟨_, _, e⟩ := bind_ok e
  obtain ⟨_, h2, _⟩ := bind_ok e
  refine h ⟨x, ?_, fun s hs => ?_⟩
  · unfold NcFile.find at h1
    split at h1
    · cases h1; assumption
    · cases h1
  · unfold NcVar.asDbls at h2
    rw [hs] at h2
    cases h2

theorem Calm.chi1 {f : NcFile α} (hf : ¬ HasNumbers f "chi_b") : Calm 1 (Tty.chi f) := by
  intro t ht
  unfold Tty.chi
  cases e : f.getVec "chi_b" t.obj.flux.chi with
  | ok v => exact absurd e (getVec_no_ok hf _ _)
  | error er =>
    cases er with
    | throw m =>
      refine ⟨fun y u h' => ?_, fun _ _ h' => by cases h'⟩
      cases h'
      refine ⟨ht, [.netcdfError m], rfl, by simp, ?_⟩
      intro x hx
      rw [List.mem_singleton.1 hx]
      trivial
    | ub x => exact ⟨fun y v h => (by cases h), fun m v h => by cases h⟩
    | assertFail x => exact ⟨fun y v h => (by cases h), fun m v h => by cases h⟩

theorem getVec_no_throw {f : NcFile α} {n : String} (h : HasNumbers f n) (v : Vec α) (m : String) :
    f.getVec n v ≠ .error (.throw m) := by
  obtain ⟨w, h1, h2⟩ := h
  unfold NcFile.getVec NcFile.find first NcVar.asDbls blit
  rw [h1]
  simp only
  intro h
  replace h : (if 0 < v.size then Except.ok () else ub "address of a cell of an empty array") >>= _ = _ := h
  split at h
  · cases hd : w.data with
    | text s => exact h2 s hd
    | ints a =>
      rw [hd] at h
      replace h : (if _ then _ else _) = _ := h
      split at h <;> cases h
    | dbls a =>
      rw [hd] at h
      replace h : (if _ then _ else _) = _ := h
      split at h <;> cases h
  · cases h

theorem Calm.chi0 {f : NcFile α} (hf : HasNumbers f "chi_b") : Calm 0 (Tty.chi f) := by
  intro t ht
  unfold Tty.chi
  cases e : f.getVec "chi_b" t.obj.flux.chi with
  | ok v =>
    refine ⟨fun y u h' => ?_, fun _ _ h' => by cases h'⟩
    cases h'
    exact ⟨ht, [], by simp [Tty.put], by simp, by simp⟩
  | error er =>
    cases er with
    | throw m => exact absurd e (getVec_no_throw hf _ m)
    | ub x => exact ⟨fun y v h => (by cases h), fun m v h => by cases h⟩
    | assertFail x => exact ⟨fun y v h => (by cases h), fun m v h => by cases h⟩

/-! ### One call -/

theorem load_verbose {ns n : Int} {A : VmecArgs α} {I : Inputs α} {F : Flux α} {r : Inputs α × Flux α}
    (h : load ns n A I F = .ok r) : r.1.verbose = I.verbose := by
  unfold load at h
  repeat' (obtain ⟨_, _, h⟩ := bind_ok h)
  cases h
  rfl

theorem KeepsVerb.vmec (ns : Int) (A : VmecArgs α) : KeepsVerb (initFromVmec ns A) := by
  intro s
  unfold initFromVmec
  simp only [Prog.get_bind]
  cases i32 (ns - 1) with
  | error e => cases e <;> exact ⟨fun _ _ h => (by cases h), fun _ _ h => (by cases h <;> rfl)⟩
  | ok n =>
    simp only [Prog.lift_ok_bind, Prog.set_bind, Prog.get_bind]
    cases validate ns A { s.inp with ns_in := some n } with
    | error e => cases e <;> exact ⟨fun _ _ h => (by cases h), fun _ _ h => (by cases h <;> rfl)⟩
    | ok u =>
      simp only [Prog.lift_ok_bind]
      cases hl : load ns n A { s.inp with ns_in := some n } s.flux with
      | error e => cases e <;> exact ⟨fun _ _ h => (by cases h), fun _ _ h => (by cases h <;> rfl)⟩
      | ok r => exact ⟨fun _ _ h => (by cases h; exact load_verbose hl), fun _ _ h => (by cases h)⟩

theorem calm_readWout (path : String) (flux : Bool) : Calm (α := α) 0 (Tty.readWout path flux) := by
  unfold Tty.readWout Tty.vmec
  exact .bind (k := 0) (k' := 0) (.say _ (by decide) _) fun _ => .bind (k := 0) (k' := 0) .get fun _ =>
    .bind (k := 0) (k' := 0) (.reading (.lift _)) fun _ => .bind (k := 0) (k' := 0) (.reading (.readWoutBody _ _)) fun _ =>
    .bind (k := 0) (k' := 0) (.quiet (.vmec _ _)) fun _ =>
    .bind (k := 0) (k' := 0) (.say _ (by decide) _) fun _ => .say _ (by decide) _

theorem heard_readBoozmn (path : String) {t : Tty α} (ht : t.obj.inp.verbose ≤ 0) {k : Nat}
    (h0 : (∃ f, t.sess.disk path = .nc f ∧ ¬ HasNumbers f "chi_b") → k = 1)
    (h1 : (¬ ∃ f, t.sess.disk path = .nc f ∧ ¬ HasNumbers f "chi_b") → k = 0) :
    Heard k t (Tty.readBoozmn path t) := by
  have rest : ∀ f : NcFile α, t.sess.disk path = .nc f → Calm k (do
      let a ← Tty.reading (readHead f)
      let l ← Tty.reading (readProfiles1 f)
      Tty.chi f
      Tty.reading (readProfiles2 f l)
      let nb ← Tty.reading (Prog.lift (f.getdim "comput_surfs"))
      Tty.say 0 .boozSizes
      Tty.reading (readSurfs2 f nb)
      Tty.say 0 .boozSurfs
      Tty.reading (readTail f a)
      Tty.say 0 .boozS) := by
    intro f hf
    have hc : Calm k (Tty.chi f) := by
      by_cases h : HasNumbers f "chi_b"
      · rw [h1 (by rintro ⟨g, hg, h'⟩; rw [hf] at hg; cases hg; exact h' h)]
        exact .chi0 h
      · rw [h0 ⟨f, hf, h⟩]
        exact .chi1 h
    rw [← Nat.zero_add k]
    refine .bind (.reading (.readHead f)) fun a => ?_
    rw [← Nat.zero_add k]
    refine .bind (.reading (.readProfiles1 f)) fun l => ?_
    rw [← Nat.add_zero k]
    refine .bind hc fun _ => ?_
    exact .bind (k := 0) (k' := 0) (.reading (.readProfiles2 f l)) fun _ =>
      .bind (k := 0) (k' := 0) (.reading (.lift _)) fun nb =>
      .bind (k := 0) (k' := 0) (.say _ (by decide) _) fun _ =>
      .bind (k := 0) (k' := 0) (.reading (.readSurfs2 f nb)) fun _ =>
      .bind (k := 0) (k' := 0) (.say _ (by decide) _) fun _ =>
      .bind (k := 0) (k' := 0) (.reading (.readTail f a)) fun _ => .say _ (by decide) _
  have e : Tty.say 0 (.about path) t = .ok () t := by
    unfold Tty.say
    rw [if_neg (by omega)]
  unfold Tty.readBoozmn
  rw [Prog.bind_def, e]
  simp only [Prog.get_bind]
  rw [Prog.bind_def]
  cases hd : t.sess.disk path with
  | nc f =>
    have : Tty.reading (Prog.lift (openRead t.sess.disk path)) t = .ok f t := by
      unfold Tty.reading openRead
      rw [hd]
      rfl
    rw [this]
    exact rest f hd t ht
  | absent =>
    have : Tty.reading (Prog.lift (openRead t.sess.disk path)) t =
        .exc "No such file or directory" (t.print [.netcdfError "No such file or directory"]) := by
      unfold Tty.reading openRead
      rw [hd]
      rfl
    rw [this]
    refine ⟨fun _ _ h => (by cases h), fun _ _ h => ?_⟩
    cases h
    exact ⟨ht, _, rfl, by simp, by simp [IsError]⟩
  | other b =>
    have : Tty.reading (Prog.lift (openRead t.sess.disk path)) t =
        .exc "NetCDF: Unknown file format" (t.print [.netcdfError "NetCDF: Unknown file format"]) := by
      unfold Tty.reading openRead
      rw [hd]
      rfl
    rw [this]
    refine ⟨fun _ _ h => (by cases h), fun _ _ h => ?_⟩
    cases h
    exact ⟨ht, _, rfl, by simp, by simp [IsError]⟩
  | broken =>
    have : Tty.reading (Prog.lift (openRead t.sess.disk path)) t =
        .exc "NetCDF: Unknown file format" (t.print [.netcdfError "NetCDF: Unknown file format"]) := by
      unfold Tty.reading openRead
      rw [hd]
      rfl
    rw [this]
    refine ⟨fun _ _ h => (by cases h), fun _ _ h => ?_⟩
    cases h
    exact ⟨ht, _, rfl, by simp, by simp [IsError]⟩

theorem run_verbose_kept {s : St α} {r : St α × List (Report α)} (h : run false s = .ok r) :
    r.1.inp = s.inp ∧ (0 < s.inp.verbose → r.2.length = s.inp.compute_surfs.size) := by
  obtain ⟨_, _, h⟩ := bind_ok h
  obtain ⟨s1, h1, h⟩ := bind_ok h
  have e := init_inp h1
  have k := loop_inv (fun i p => p.1.inp = s.inp ∧ (0 < s.inp.verbose → p.2.length = i)) ⟨e, fun _ => rfl⟩ ?_ h
  · rw [← e]; exact ⟨by rw [e]; exact k.1, by rw [e]; intro hv; rw [← e]; exact k.2 hv⟩
  · rintro i - a b ⟨ha, hl⟩ hb
    obtain ⟨x, hx, hb⟩ := bind_ok hb
    cases hb
    refine ⟨(surfaceSolve_inp false i a.1 x hx).trans ha, fun hv => ?_⟩
    have hs : ∃ rep, x.2 = some rep := by
      unfold surfaceSolve at hx
      repeat' (obtain ⟨_, _, hx⟩ := bind_ok hx)
      replace hx : (if a.1.inp.verbose > 0 then _ else _) = Except.ok x := hx
      rw [if_pos (by rw [ha]; exact hv)] at hx
      obtain ⟨rep, _, hx⟩ := bind_ok hx
      cases hx
      exact ⟨rep, rfl⟩
    obtain ⟨rep, hs⟩ := hs
    simp [hs, hl hv]

end Booz
