import Verif.Spec.Handles

/-!
# Counting open files: one call
-/

namespace Booz
open Booz.Spec
variable {α : Type} [Arith α]

/-- What a call does when a file may be opened, compared with the model without files being counted:
`keep` says whether a file stays open after an exception. -/
inductive SameBut (n : Nat) : Out (Sess α) Unit → Out (Proc α) Unit → Prop
  | ok (w : Sess α) : SameBut n (.ok () w) (.ok () ⟨w, n⟩)
  | exc (m : String) (w : Sess α) : SameBut n (.exc m w) (.exc m ⟨w, n⟩)
  | kept (m : String) (w : Sess α) : SameBut n (.exc m w) (.exc m ⟨w, n + 1⟩)
  | abort (x : String) : SameBut n (.abort x) (.abort x)
  | ub (x : String) : SameBut n (.ub x) (.ub x)

theorem open_proc {limit : Nat} {p : Proc α} (h : p.opened < limit) (path : String) :
    Proc.openRead limit path p = match openRead p.sess.disk path with
      | .ok f => .ok f { p with opened := p.opened + 1 }
      | .error (.throw m) => .exc m p
      | .error (.assertFail x) => .abort x
      | .error (.ub x) => .ub x := by
  unfold Proc.openRead
  rw [if_neg (show ¬ limit ≤ p.opened by omega)]
  rfl

omit [Arith α] in
theorem on_proc {β : Type} (q : Prog (St α) β) (p : Proc α) :
    Proc.on q p = match q p.sess.obj with
      | .ok x s => .ok x { p with sess := { p.sess with obj := s } }
      | .exc m s => .exc m { p with sess := { p.sess with obj := s } }
      | .abort x => .abort x
      | .ub x => .ub x := (rfl)

omit [Arith α] in
theorem close_proc (p : Proc α) : Proc.close p = .ok () { p with opened := p.opened - 1 } := (rfl)

theorem readWout_proc {limit : Nat} {p : Proc α} (h : p.opened < limit) (path : String) (flux : Bool) :
    SameBut p.opened (perform (.readWout path flux) p.sess) (Proc.readWout limit path flux p) := by
  show SameBut _ (Sess.on (readWout p.sess.disk path flux) p.sess) _
  unfold Sess.on readWout Proc.readWout
  simp only [Prog.bind_def, open_proc h]
  cases openRead p.sess.disk path with
  | error e =>
    cases e with
    | throw m => exact .exc m _
    | ub x => exact .ub x
    | assertFail x => exact .abort x
  | ok f =>
    simp only [Prog.lift]
    cases hb : readWoutBody f flux p.sess.obj with
    | ok q s =>
      cases hi : initFromVmec q.1 q.2 s <;>
        simp only [Prog.bind_def, on_proc, close_proc, hb, hi, Nat.add_sub_cancel]
      · exact .ok _
      · exact .exc _ _
      · exact .abort _
      · exact .ub _
    | exc m s => simp only [Prog.bind_def, on_proc, close_proc, hb]; exact .kept m _
    | abort x => simp only [Prog.bind_def, on_proc, close_proc, hb]; exact .abort x
    | ub x => simp only [Prog.bind_def, on_proc, close_proc, hb]; exact .ub x

theorem readBoozmn_proc {limit : Nat} {p : Proc α} (h : p.opened < limit) (path : String) :
    SameBut p.opened (perform (.readBoozmn path) p.sess) (Proc.readBoozmn limit path p) := by
  show SameBut _ (Sess.on (readBoozmn p.sess.disk path) p.sess) _
  unfold Sess.on readBoozmn Proc.readBoozmn
  simp only [Prog.bind_def, open_proc h]
  cases openRead p.sess.disk path with
  | error e =>
    cases e with
    | throw m => exact .exc m _
    | ub x => exact .ub x
    | assertFail x => exact .abort x
  | ok f =>
    simp only [Prog.lift]
    cases hb : readBoozmnBody f p.sess.obj with
    | ok q s => simp only [Prog.bind_def, on_proc, close_proc, hb, Nat.add_sub_cancel]; exact .ok _
    | exc m s => simp only [Prog.bind_def, on_proc, close_proc, hb]; exact .kept m _
    | abort x => simp only [Prog.bind_def, on_proc, close_proc, hb]; exact .abort x
    | ub x => simp only [Prog.bind_def, on_proc, close_proc, hb]; exact .ub x

theorem write_proc {limit : Nat} {p : Proc α} (h : p.opened < limit) (env : Env) (version path : String) :
    SameBut p.opened (perform (.write env version path) p.sess) (Proc.write limit env version path p) := by
  show SameBut _ (Sess.write env version path p.sess) _
  unfold Sess.write writeBoozmn writeBoozmnW defineBoozmn Proc.write
  rw [Prog.bind_assoc, Prog.bind_def, if_neg (show ¬ limit ≤ p.opened by omega)]
  cases ncCreate env path ⟨⟨⟨p.sess.obj, {}⟩, p.sess.disk, ⟨"", [], [], []⟩⟩, 0, []⟩ with
  | ok q w =>
    dsimp only
    cases (defineVars env version >>= fun _ => writeAndClose env) w with
    | ok q v => exact .ok _
    | exc m v => exact .kept m _
    | abort x => exact .abort x
    | ub x => exact .ub x
  | exc m w => exact .exc m _
  | abort x => exact .abort x
  | ub x => exact .ub x

theorem plain_proc (c : Call) (p : Proc α) :
    SameBut p.opened (perform c p.sess) (Proc.plain c p) := by
  unfold Proc.plain
  cases perform c p.sess with
  | ok x t => exact .ok _
  | exc m t => exact .exc m _
  | abort x => exact .abort x
  | ub x => exact .ub x

/-- Other calls open no file. -/
theorem plain_opened (c : Call) (p : Proc α) :
    (∀ p', Proc.plain c p = .ok () p' → p'.opened = p.opened) ∧
    (∀ m p', Proc.plain c p = .exc m p' → p'.opened = p.opened) := by
  unfold Proc.plain
  cases perform c p.sess with
  | ok x t => exact ⟨fun _ e => (by cases e; rfl), fun _ _ e => (by cases e)⟩
  | exc m t => exact ⟨fun _ e => (by cases e), fun _ _ e => (by cases e; rfl)⟩
  | abort x => exact ⟨fun _ e => (by cases e), fun _ _ e => (by cases e)⟩
  | ub x => exact ⟨fun _ e => (by cases e), fun _ _ e => (by cases e)⟩

theorem perform_proc {limit : Nat} {p : Proc α} (h : p.opened < limit) (c : Call) :
    SameBut p.opened (perform c p.sess) (Proc.perform limit c p) := by
  cases c with
  | readWout path flux => exact readWout_proc h path flux
  | readBoozmn path => exact readBoozmn_proc h path
  | write env version path => exact write_proc h env version path
  | setMboz m => exact plain_proc _ p
  | setNboz m => exact plain_proc _ p
  | setVerbose m => exact plain_proc _ p
  | setSurfs m => exact plain_proc _ p
  | run => exact plain_proc _ p

theorem open_full {limit : Nat} {p : Proc α} (h : limit ≤ p.opened) (path : String) :
    Proc.openRead limit path p = .exc tooMany p := by
  unfold Proc.openRead
  rw [if_pos h]

/-- With as many files open as allowed, every call that needs a file throws and changes nothing. -/
theorem perform_full {limit : Nat} {p : Proc α} (h : limit ≤ p.opened) {c : Call} (hc : UsesFile c) :
    Proc.perform limit c p = .exc tooMany p := by
  cases c with
  | readWout path flux =>
    show Proc.readWout limit path flux p = _
    unfold Proc.readWout; rw [Prog.bind_def, open_full h]
  | readBoozmn path =>
    show Proc.readBoozmn limit path p = _
    unfold Proc.readBoozmn; rw [Prog.bind_def, open_full h]
  | write env version path =>
    show Proc.write limit env version path p = _
    unfold Proc.write; rw [if_pos h]
  | _ => exact hc.elim

/-- A call ends as in the model without counting, or the limit is reached. -/
theorem perform_opened {limit : Nat} {p : Proc α} (c : Call) :
    (∀ p', Proc.perform limit c p = .ok () p' → p'.opened = p.opened) ∧
    (∀ m p', Proc.perform limit c p = .exc m p' → p'.opened = p.opened ∨
      (p.opened < limit ∧ p'.opened = p.opened + 1)) := by
  by_cases h : p.opened < limit
  · have k := perform_proc h c
    constructor
    · intro p' e
      rw [e] at k
      generalize perform c p.sess = a at k
      cases k; rfl
    · intro m p' e
      rw [e] at k
      generalize perform c p.sess = a at k
      cases k
      · exact .inl rfl
      · exact .inr ⟨h, rfl⟩
  · by_cases hc : UsesFile c
    · rw [perform_full (by omega) hc]
      exact ⟨fun _ e => (by cases e), fun _ _ e => (by cases e; exact .inl rfl)⟩
    · have k : Proc.perform limit c p = Proc.plain c p := by
        cases c with
        | readWout => exact absurd trivial hc
        | readBoozmn => exact absurd trivial hc
        | write => exact absurd trivial hc
        | setMboz m => rfl
        | setNboz m => rfl
        | setVerbose m => rfl
        | setSurfs m => rfl
        | run => rfl
      rw [k]
      exact ⟨(plain_opened c p).1, fun m p' e => .inl ((plain_opened c p).2 m p' e)⟩

end Booz
