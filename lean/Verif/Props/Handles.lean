import Verif.Lemmas.Handles
import Verif.Props.Wout

/-!
# Files left open after errors (C89)
-/

namespace Booz
open Booz.Spec
variable {α : Type} [Arith α]

/-- The example file under "wout.nc", the same without `bsubvmnc` under "part.nc", and a NetCDF file
with nothing in it under "other.nc". -/
def Ex.threeFiles : Disk α := fun p =>
  if p = "other.nc" then .nc ⟨[], []⟩ else if p = "part.nc" then .nc Ex.noBsubv else Ex.woutDisk 0 p

/-! ### Which calls leave a file open -/

/-- **C89, after a call.**  A call that returns leaves as many files open as before; one that throws
leaves as many, or one more. -/
theorem C89_call {limit : Nat} {c : Call} {p p' : Proc α} :
    (Proc.perform limit c p = .ok () p' → p'.opened = p.opened) ∧
    (∀ m, Proc.perform limit c p = .exc m p' → p'.opened = p.opened ∨ p'.opened = p.opened + 1) := by
  have h := perform_opened (limit := limit) (p := p) c
  refine ⟨h.1 p', fun m e => ?_⟩
  rcases h.2 m p' e with h | ⟨-, h⟩
  · exact .inl h
  · exact .inr h

/-- **C89, nothing to open.**  When the path is not a NetCDF file, reading throws, and no file stays
open. -/
theorem C89_unreadable {limit : Nat} {p : Proc α} {path : String}
    (hd : ∀ f, p.sess.disk path ≠ .nc f) (flux : Bool) :
    (∃ m, Proc.perform limit (.readWout path flux) p = .exc m p) ∧
    ∃ m, Proc.perform limit (.readBoozmn path) p = .exc m p := by
  have k : ∃ m, Proc.openRead limit path p = .exc m p := by
    by_cases h : p.opened < limit
    · rw [open_proc h]
      unfold openRead
      cases e : p.sess.disk path with
      | nc f => exact absurd e (hd f)
      | absent => exact ⟨_, rfl⟩
      | other b => exact ⟨_, rfl⟩
      | broken => exact ⟨_, rfl⟩
    · exact ⟨_, open_full (by omega) path⟩
  obtain ⟨m, k⟩ := k
  refine ⟨⟨m, ?_⟩, m, ?_⟩
  · show Proc.readWout limit path flux p = _
    unfold Proc.readWout
    rw [Prog.bind_def, k]
  · show Proc.readBoozmn limit path p = _
    unfold Proc.readBoozmn
    rw [Prog.bind_def, k]

/-- **C89, an incomplete file stays open.**  `read_wout` of a file in which a required variable is
missing throws and leaves the file open. -/
theorem C89_missing {limit : Nat} {p : Proc α} {path : String} {f : NcFile α} {z : WoutSizes}
    (flux : Bool) (h : p.opened < limit) (hd : p.sess.disk path = .nc f) (hz : WoutShapes f z)
    (hm : ∃ n ∈ woutRequired flux (decide (z.lasym ≠ 0)), f.var? n = none) :
    ∃ p', Proc.perform limit (.readWout path flux) p = .exc "NetCDF: Variable not found" p' ∧
      p'.opened = p.opened + 1 := by
  rcases readWoutBody_cases (flux := flux) (s := p.sess.obj) hz with ⟨-, s', e⟩ | ⟨h, -⟩
  · refine ⟨⟨⟨s', p.sess.disk⟩, p.opened + 1⟩, ?_, rfl⟩
    show Proc.readWout limit path flux p = _
    unfold Proc.readWout
    have ho : openRead p.sess.disk path = .ok f := by unfold openRead; rw [hd]
    simp only [Prog.bind_def, open_proc h, ho, on_proc, e]
  · obtain ⟨n, hn, hv⟩ := hm
    exact absurd hv (h n hn)

/-- **C89, rejected data.**  When the file could be read, it is closed before its data are checked: even if
they are then rejected, no file stays open. -/
theorem C89_rejected {limit : Nat} {p p' : Proc α} {path : String} {f : NcFile α} {z : WoutSizes}
    (flux : Bool) (h : p.opened < limit) (hd : p.sess.disk path = .nc f) (hz : WoutShapes f z)
    (hm : ∀ n ∈ woutRequired flux (decide (z.lasym ≠ 0)), f.var? n ≠ none) {m : String}
    (e : Proc.perform limit (.readWout path flux) p = .exc m p') : p'.opened = p.opened := by
  rcases readWoutBody_cases (flux := flux) (s := p.sess.obj) hz with ⟨⟨n, hn, hv⟩, -⟩ | ⟨-, b⟩
  · exact absurd hv (hm n hn)
  · change Proc.readWout limit path flux p = _ at e
    unfold Proc.readWout at e
    have ho : openRead p.sess.disk path = .ok f := by unfold openRead; rw [hd]
    simp only [Prog.bind_def, open_proc h, ho, on_proc, close_proc, b, Nat.add_sub_cancel] at e
    split at e
    · cases e
    · cases e; rfl
    · cases e
    · cases e

/-- **C89, a failed write stays open.**  `write_boozmn` that throws after it created the file leaves
it open. -/
theorem C89_write {limit : Nat} {p p' : Proc α} {env : Env} {version path m : String}
    (h : p.opened < limit) (h0 : env 0 = none)
    (e : Proc.perform limit (.write env version path) p = .exc m p') : p'.opened = p.opened + 1 := by
  change Proc.write limit env version path p = _ at e
  unfold Proc.write at e
  rw [if_neg (by omega)] at e
  unfold ncCreate ncCall at e
  simp only [h0] at e
  split at e
  · cases e
  · cases e; rfl
  · cases e
  · cases e

/-! ### Sessions -/

/-- **C89, partial: sessions with few errors.**  As long as fewer calls failed than files may be opened,
a session is the same as if files were not counted; and at most one file per failed call stays open. -/
theorem C89_partial {limit : Nat} {p p' : Proc α} {l : List (Call × Option String)}
    (hs : Session (Proc.perform limit) p l p') :
    p.opened ≤ p'.opened ∧ p'.opened ≤ p.opened + failures l ∧
    (p.opened + failures l < limit → Session perform p.sess l p'.sess) := by
  induction hs with
  | nil s => exact ⟨le_rfl, le_rfl, fun _ => .nil _⟩
  | @ok s t u c l h hl ih =>
    have a := (C89_call (p' := t)).1 h
    have f : failures ((c, none) :: l) = failures l := by simp [failures]
    rw [f]
    rw [a] at ih
    refine ⟨ih.1, ih.2.1, fun hlt => ?_⟩
    refine .ok ?_ (ih.2.2 hlt)
    have k := perform_proc (p := s) (limit := limit) (by omega) c
    rw [h] at k
    generalize perform c s.sess = o at k
    cases k; rfl
  | @exc s t u c m l h hl ih =>
    have a := (C89_call (p' := t)).2 m h
    have f : failures ((c, some m) :: l) = failures l + 1 := by simp [failures]
    rw [f]
    refine ⟨by omega, by omega, fun hlt => ?_⟩
    refine .exc (m := m) (t := t.sess) ?_ (ih.2.2 (by omega))
    have k := perform_proc (p := s) (limit := limit) (by omega) c
    rw [h] at k
    generalize perform c s.sess = o at k
    cases k <;> rfl

/-- **C89, partial: no session is cut short.**  Conversely, a session of the model without counting is
possible in a process that may open more files than there are failures in the session. -/
theorem C89_possible_partial {limit : Nat} {w w' : Sess α} {l : List (Call × Option String)}
    (hs : Session perform w l w') {n : Nat} (hn : n + failures l < limit) :
    ∃ k, Session (Proc.perform limit) ⟨w, n⟩ l ⟨w', k⟩ := by
  induction hs generalizing n with
  | nil s => exact ⟨n, .nil _⟩
  | @ok s t u c l h hl ih =>
    have f : failures ((c, none) :: l) = failures l := by simp [failures]
    rw [f] at hn
    obtain ⟨k, ih⟩ := ih hn
    have g := perform_proc (p := ⟨s, n⟩) (limit := limit) (by show n < _; omega) c
    rw [show perform c (Proc.mk s n).sess = .ok () t from h] at g
    generalize e : Proc.perform limit c ⟨s, n⟩ = o at g
    cases g
    exact ⟨k, .ok e ih⟩
  | @exc s t u c m l h hl ih =>
    have f : failures ((c, some m) :: l) = failures l + 1 := by simp [failures]
    rw [f] at hn
    have g := perform_proc (p := ⟨s, n⟩) (limit := limit) (by show n < _; omega) c
    rw [show perform c (Proc.mk s n).sess = .exc m t from h] at g
    generalize e : Proc.perform limit c ⟨s, n⟩ = o at g
    cases g with
    | exc =>
      obtain ⟨k, ih⟩ := ih (n := n) (by omega)
      exact ⟨k, .exc e ih⟩
    | kept =>
      obtain ⟨k, ih⟩ := ih (n := n + 1) (by omega)
      exact ⟨k, .exc e ih⟩

theorem body_no_lasym {f : NcFile α} {flux : Bool} {s : St α} (hl : f.var? "lasym__logical__" = none) :
    readWoutBody f flux s = .exc "NetCDF: Variable not found" s := by
  have hg : f.getInt "lasym__logical__" none = thrown "NetCDF: Variable not found" := by
    unfold NcFile.getInt NcFile.find
    rw [hl]
    rfl
  unfold readWoutBody
  rw [hg]
  exact Prog.lift_throw_bind _ _ _

/-- **C89, files run out.**  Trying to load a NetCDF file that is not a `wout` file (it has no
`lasym__logical__`) as often as files may be opened: the object and the files stay the same, but from then
on every call that needs a file fails. -/
theorem C89_exhausts {limit : Nat} {p : Proc α} {path : String} {f : NcFile α} (flux : Bool)
    (hd : p.sess.disk path = .nc f) (hl : f.var? "lasym__logical__" = none) (hn : p.opened ≤ limit) :
    ∃ p', Session (Proc.perform limit) p (List.replicate (limit - p.opened)
        (.readWout path flux, some "NetCDF: Variable not found")) p' ∧
      p'.sess = p.sess ∧ ∀ c, UsesFile c → Proc.perform limit c p' = .exc tooMany p' := by
  obtain ⟨k, hk⟩ : ∃ k, limit - p.opened = k := ⟨_, rfl⟩
  rw [hk]
  induction k generalizing p with
  | zero => exact ⟨p, .nil _, rfl, fun c hc => perform_full (by omega) hc⟩
  | succ k ih =>
    have e : Proc.perform limit (.readWout path flux) p =
        .exc "NetCDF: Variable not found" ⟨p.sess, p.opened + 1⟩ := by
      show Proc.readWout limit path flux p = _
      have ho : openRead p.sess.disk path = .ok f := by unfold openRead; rw [hd]
      have hb := body_no_lasym (flux := flux) (s := p.sess.obj) hl
      unfold Proc.readWout
      simp only [Prog.bind_def, open_proc (show p.opened < limit by omega), ho, on_proc, hb]
    obtain ⟨p', h1, h2, h3⟩ := ih (p := ⟨p.sess, p.opened + 1⟩) hd (by show _ + 1 ≤ _; omega)
      (by show limit - (_ + 1) = _; omega)
    exact ⟨p', .exc e h1, h2, h3⟩

theorem perform_load_ok {disk : Disk α} {path : String} {flux : Bool} {s s' : St α}
    (h : readWout disk path flux s = .ok () s') :
    perform (.readWout path flux) ⟨s, disk⟩ = .ok () ⟨s', disk⟩ := by
  show Sess.on (readWout disk path flux) ⟨s, disk⟩ = _
  unfold Sess.on
  rw [h]

theorem perform_load_exc {disk : Disk α} {path m : String} {flux : Bool} {s s' : St α}
    (h : readWout disk path flux s = .exc m s') :
    perform (.readWout path flux) ⟨s, disk⟩ = .exc m ⟨s', disk⟩ := by
  show Sess.on (readWout disk path flux) ⟨s, disk⟩ = _
  unfold Sess.on
  rw [h]

/-- The example file loads into a new object. -/
theorem Ex.three_loads : ∃ w, perform (.readWout "wout.nc" true) ⟨construct, Ex.threeFiles (α := α)⟩ = .ok () w := by
  have h : ∃ s', readWout (Ex.threeFiles (α := α)) "wout.nc" true construct = .ok () s' := by
    rw [C39_loads true construct (by simp [Ex.threeFiles, Ex.woutDisk]) (Ex.shapes 0)
      (Ex.wout_present 0 _ _)]
    refine ⟨_, vmec_ok (z := Ex.sizes false) (by decide) ?_ (Ex.computable false) ?_ ?_⟩
    · rw [Ex.wout_args, Ex.wout_inp]
      exact Ex.sym_given ⟨rfl, fun i hi => absurd hi (by simp [construct])⟩
    · rw [Ex.wout_args, Ex.wout_inp]
      exact Ex.sym_consistent fun j hj => absurd hj (by simp [construct])
    · rw [Ex.wout_args, Ex.wout_inp]
      exact Ex.sym_loadable (by show (1 : Int) ≤ 1; decide)
  obtain ⟨s', h⟩ := h
  exact ⟨_, perform_load_ok h⟩

theorem session_replicate {σ : Type} {step : Call → Prog σ Unit} {s u : σ} {c : Call} {m : String}
    (h : step c s = .exc m s) (n : Nat) {l : List (Call × Option String)} (hl : Session step s l u) :
    Session step s (List.replicate n (c, some m) ++ l) u := by
  induction n with
  | zero => exact hl
  | succ n ih => exact .exc h ih

theorem Ex.three_fails : perform (.readWout "other.nc" false) ⟨construct, Ex.threeFiles (α := α)⟩ =
    .exc "NetCDF: Variable not found" ⟨construct, Ex.threeFiles⟩ := by
  refine perform_load_exc ?_
  unfold readWout
  rw [show openRead (Ex.threeFiles (α := α)) "other.nc" = .ok ⟨[], []⟩ from by
    simp [openRead, Ex.threeFiles], Prog.lift_ok_bind, Prog.bind_def]
  rw [body_no_lasym rfl]

/-- **C89 is false of the code.**  However many files a process may have open, there is a session,
consisting of failed loads, after which a file that would load into the same object cannot be loaded any
more. -/
theorem C89_false (limit : Nat) : ∃ (disk : Disk α) (l : List (Call × Option String)) (p' : Proc α) (c : Call),
    Session (Proc.perform limit) ⟨⟨construct, disk⟩, 0⟩ l p' ∧
    (∃ w, Session perform ⟨construct, disk⟩ (l ++ [(c, none)]) w) ∧
    Proc.perform limit c p' = .exc tooMany p' := by
  obtain ⟨p', h1, -, h3⟩ := C89_exhausts (limit := limit) (p := ⟨⟨construct, Ex.threeFiles (α := α)⟩, 0⟩)
    (path := "other.nc") (f := ⟨[], []⟩) false (by simp [Ex.threeFiles]) rfl (Nat.zero_le _)
  obtain ⟨w, hw⟩ := Ex.three_loads (α := α)
  exact ⟨_, _, p', .readWout "wout.nc" true, h1,
    ⟨w, session_replicate Ex.three_fails _ (.ok hw (.nil _))⟩, h3 _ trivial⟩

/-! ### The hypotheses can be met -/

/-- A process that may have five files open and has three, and a missing path. -/
example : ∃ m, Proc.perform 5 (.readBoozmn "no.nc") ⟨⟨construct, Ex.threeFiles (α := α)⟩, 3⟩ =
    .exc m ⟨⟨construct, Ex.threeFiles⟩, 3⟩ :=
  (C89_unreadable (fun f => by simp [Ex.threeFiles, Ex.woutDisk]) false).2

example : ∃ p', Proc.perform 5 (.readWout "part.nc" true) ⟨⟨construct, Ex.threeFiles (α := α)⟩, 3⟩ =
    .exc "NetCDF: Variable not found" p' ∧ p'.opened = 3 + 1 :=
  C89_missing true (by show 3 < 5; decide) (by simp [Ex.threeFiles]) Ex.noBsubv_shapes (Ex.noBsubv_missing true)

/-- Surface 7 is selected, which the file does not have. -/
example : ∃ m p', Proc.perform 5 (.readWout "wout.nc" true)
    ⟨⟨{ construct with inp := { (construct : St α).inp with compute_surfs := Ex.vec [7] } },
      Ex.threeFiles⟩, 3⟩ = .exc m p' ∧ p'.opened = 3 := by
  set s : St α := { construct with inp := { (construct : St α).inp with compute_surfs := Ex.vec [7] } }
    with hs
  have hd : Ex.threeFiles (α := α) "wout.nc" = .nc (Ex.wout 0) := by simp [Ex.threeFiles, Ex.woutDisk]
  have h : ∃ m s', readWout (Ex.threeFiles (α := α)) "wout.nc" true s = .exc m s' := by
    rw [C39_loads true s hd (Ex.shapes 0) (Ex.wout_present 0 _ _), Ex.wout_args, Ex.wout_inp]
    refine (C07_partial (z := Ex.sizes false) (by decide) ?_ (Ex.computable false)).mpr fun C => ?_
    · exact Ex.sym_given (Ex.vec_full [7] rfl)
    · have := (C.surfs 0 (by show 0 < 1; decide)).2
      exact absurd this (by show ¬ (7 : Int) < 4 - 1; decide)
  obtain ⟨m, s', h⟩ := h
  have k := perform_proc (limit := 5) (p := ⟨⟨s, Ex.threeFiles (α := α)⟩, 3⟩) (by show 3 < 5; decide)
    (.readWout "wout.nc" true)
  have e : perform (.readWout "wout.nc" true) (Proc.mk ⟨s, Ex.threeFiles (α := α)⟩ 3).sess =
      .exc m ⟨s', Ex.threeFiles⟩ := perform_load_exc h
  rw [e] at k
  generalize e' : Proc.perform 5 (.readWout "wout.nc" true) ⟨⟨s, Ex.threeFiles (α := α)⟩, 3⟩ = o at k
  cases k with
  | exc => exact ⟨m, _, rfl, rfl⟩
  | kept => exact ⟨m, _, rfl, C89_rejected true (by show 3 < 5; decide) hd (Ex.shapes 0) (Ex.wout_present 0 _ _) e'⟩

/-- The first library call after the creation of the file fails: no space left. -/
example (s : St α) (hs : s.inp.ns_in = some 3) : ∃ m p', Proc.perform 5 (.write
      (fun k => if k = 1 then some "No space left on device" else none) "v1" "b.nc")
      ⟨⟨s, Ex.threeFiles⟩, 3⟩ = .exc m p' ∧ p'.opened = 3 + 1 := by
  have e : ∃ m p', Proc.perform 5 (.write
      (fun k => if k = 1 then some "No space left on device" else none) "v1" "b.nc")
      ⟨⟨s, Ex.threeFiles⟩, 3⟩ = .exc m p' := by
    simp only [Proc.perform]
    unfold Proc.write
    rw [if_neg (by show ¬ 5 ≤ 3; decide)]
    unfold ncCreate ncCall
    dsimp only
    rw [if_neg (by decide)]
    dsimp only
    unfold defineVars
    rw [Prog.bind_assoc, Prog.get_bind, Prog.bind_assoc]
    dsimp only
    rw [hs]
    simp only [need, Prog.lift_ok_bind, Prog.bind_assoc, show i32 (3 + 1) = .ok 4 from rfl]
    rw [Prog.bind_def]
    unfold ncCall
    exact ⟨_, _, rfl⟩
  obtain ⟨m, p', e⟩ := e
  exact ⟨m, p', e, C89_write (by show 3 < 5; decide) rfl e⟩

/-- A failed load and a good one, when at least two files may be opened. -/
example : ∃ (w : Sess α) (k : Nat), Session (Proc.perform 2) ⟨⟨construct, Ex.threeFiles⟩, 0⟩
    [(.readWout "other.nc" false, some "NetCDF: Variable not found"), (.readWout "wout.nc" true, none)]
    ⟨w, k⟩ := by
  obtain ⟨w, hw⟩ := Ex.three_loads (α := α)
  exact ⟨w, C89_possible_partial (.exc Ex.three_fails (.ok hw (.nil _))) (by decide)⟩

end Booz
