import Verif.Lemmas.Driver
import Verif.Lemmas.Inv
import Verif.Props.Wout
import Verif.Props.Exact
import Verif.Props.Boozmn

/-!
# Setting up, running and saving
-/

namespace Booz
open Spec
variable {α : Type} [Arith α]

/-! ### Sequencing -/

omit [Arith α] in
theorem prog_bind_ok {σ β γ : Type} {p : Prog σ β} {f : β → Prog σ γ} {s s' : σ} {x : γ}
    (h : (p >>= f) s = .ok x s') : ∃ y t, p s = .ok y t ∧ f y t = .ok x s' := by
  rw [Prog.bind_def] at h
  cases e : p s with
  | ok y t => rw [e] at h; exact ⟨y, t, rfl, h⟩
  | exc m t => rw [e] at h; cases h
  | abort m => rw [e] at h; cases h
  | ub m => rw [e] at h; cases h

omit [Arith α] in
theorem lift_ok_inv {σ β : Type} {r : Res β} {s s' : σ} {x : β} (h : Prog.lift r s = .ok x s') :
    r = .ok x ∧ s' = s := by
  unfold Prog.lift at h
  split at h
  · cases h; exact ⟨rfl, rfl⟩
  all_goals cases h

/-- What holds whenever the computation returns. -/
def Post {σ β : Type} (p : Prog σ β) (Q : σ → Prop) : Prop := ∀ s x s', p s = .ok x s' → Q s'
/-- What holds whenever the computation returns. -/
def PostR {β : Type} (r : Res β) (Q : β → Prop) : Prop := ∀ x, r = .ok x → Q x

omit [Arith α] in
theorem post_bind {σ β γ : Type} {p : Prog σ β} {f : β → Prog σ γ} {Q : σ → Prop}
    (h : ∀ x, Post (f x) Q) : Post (p >>= f) Q := fun _ _ _ e =>
  let ⟨y, t, _, e2⟩ := prog_bind_ok e
  h y t _ _ e2

omit [Arith α] in
theorem postR_bind {β γ : Type} {p : Res β} {f : β → Res γ} {Q : γ → Prop}
    (h : ∀ x, p = .ok x → PostR (f x) Q) : PostR (p >>= f) Q := fun _ e =>
  let ⟨y, e1, e2⟩ := bind_ok e
  h y e1 _ e2

theorem load_fits (ns nsIn : Int) (A : VmecArgs α) (I : Inputs α) (F : Flux α) :
    PostR (load ns nsIn A I F) fun r => FitsInt r.1.mboz ∧ FitsInt r.1.nboz := by
  unfold load
  iterate 19 (refine postR_bind fun _ _ => ?_; try dsimp only)
  refine postR_bind fun m hm => ?_
  refine postR_bind fun _ _ => ?_
  refine postR_bind fun _ _ => ?_
  refine postR_bind fun n hn => ?_
  intro x hx
  cases hx
  obtain ⟨rfl, h1⟩ := i32_inv hm
  obtain ⟨rfl, h2⟩ := i32_inv hn
  refine ⟨h1, ?_⟩
  unfold FitsInt at h2 ⊢
  simp only
  omega

theorem initFromVmec_fits (ns : Int) (A : VmecArgs α) :
    Post (initFromVmec ns A) fun s : St α => FitsInt s.inp.mboz ∧ FitsInt s.inp.nboz := by
  intro s x s' h
  unfold initFromVmec at h
  rw [Prog.get_bind] at h
  obtain ⟨n, t, -, h⟩ := prog_bind_ok h
  rw [Prog.set_bind, Prog.get_bind] at h
  obtain ⟨_, t2, -, h⟩ := prog_bind_ok h
  obtain ⟨r, t3, h3, h⟩ := prog_bind_ok h
  have := load_fits _ _ _ _ _ r (lift_ok_inv h3).1
  cases h
  exact this

theorem readWout_fits (disk : Disk α) (path : String) (flux : Bool) :
    Post (readWout disk path flux) fun s : St α => FitsInt s.inp.mboz ∧ FitsInt s.inp.nboz := by
  unfold readWout
  repeat (first | exact initFromVmec_fits _ _ | refine post_bind fun _ => ?_)

/-! ### The C++ driver after reading -/

omit [Arith α] in
theorem mapM_need (l : List Int) (n : String) :
    (l.map some).mapM (fun x => need x n) = (.ok l : Res (List Int)) := by
  induction l with
  | nil => rfl
  | cons a l ih =>
    rw [List.map_cons, List.mapM_cons, ih]
    rfl

/-- An Eigen vector holding these integers. -/
def listVec (l : List Int) : Vec Int := (l.map some).toArray

omit [Arith α] in
theorem full_list {v : Vec Int} {n : Nat} (h : v.Full n) :
    ∃ l : List Int, v = listVec l ∧ l.length = n := by
  refine ⟨(List.range n).map (v.val 0), ?_, by simp⟩
  apply Array.ext_getElem?
  intro i
  by_cases hi : i < n
  · obtain ⟨x, hx⟩ := h.2 i hi
    rw [hx]
    simp [listVec, hi, Vec.val, hx]
  · rw [Array.getElem?_eq_none (by rw [h.1]; omega)]
    simp [listVec, hi]

/-- Surfaces in ascending order. -/
def sorted (l : List Int) : List Int := l.mergeSort fun a b => decide (a ≤ b)

theorem sorted_perm (l : List Int) : (sorted l).Perm l := List.mergeSort_perm l _

theorem sorted_pairwise (l : List Int) : (sorted l).Pairwise (· ≤ ·) := by
  have := List.pairwise_mergeSort (le := fun a b : Int => decide (a ≤ b))
    (fun a b c h1 h2 => by simp at *; omega) (fun a b => by simp; omega) l
  exact this.imp fun h => by simpa using h

/-- The object the driver runs. -/
def requested (r : Request) (b : St α) : St α :=
  { b with inp := { b.inp with
    mboz := max b.inp.mboz r.mboz
    nboz := max b.inp.nboz r.nboz
    compute_surfs := if r.surfs.length > 0 then listVec (sorted r.surfs)
      else b.inp.compute_surfs } }

/-- The name of the file read. -/
def Request.wout (r : Request) : String := "wout_" ++ String.ofList r.ext ++ ".nc"
/-- The name of the file written. -/
def Request.boozmn (r : Request) : String := "boozmn_" ++ String.ofList r.ext ++ ".nc"

/-- From the object to run to the end. -/
def finish (env : Env) (version : String) (r : Request) (b : St α) : Prog (World α) Unit := do
  sayIf (r.surfs.length == 0) "No compute_surfs specified, so including all half-grid surfaces."
  announce b.inp.compute_surfs
  let b ← callRun b
  callWrite env version r.boozmn b
  say "Good bye."

omit [Arith α] in
theorem call_ok {β : Type} {p : Prog (St α) β} {s s' : St α} {x : β} (h : p s = .ok x s') (w : World α) :
    call p s w = .ok s' w := by
  unfold call; rw [h]
omit [Arith α] in
theorem call_inv {β : Type} {p : Prog (St α) β} {s s' : St α} {w w' : World α}
    (h : call p s w = .ok s' w') : (∃ x, p s = .ok x s') ∧ w' = w := by
  unfold call at h
  split at h
  · rename_i e; cases h; exact ⟨⟨_, e⟩, rfl⟩
  all_goals cases h

theorem calculate_eq (env : Env) (version : String) (r : Request) (w : World α) :
    calculate env version r w =
      (call (readWout w.disk r.wout false) construct >>= fun b =>
        finish env version r (requested r b)) w := (rfl)

omit [Arith α] in
theorem sayIf_apply (c : Bool) (x : String) (w : World α) : ∃ l, sayIf c x w = .ok () (w.print l) := by
  cases c
  · exact ⟨[], by rw [World.print_nil]; rfl⟩
  · exact ⟨_, rfl⟩

/-- A successful end. -/
theorem finish_inv {env : Env} {version : String} {r : Request} {b : St α} {w w' : World α} {u : Unit}
    (h : finish env version r b w = .ok u w') : ∃ b' rep v, run false b = .ok (b', rep) ∧
      writeBoozmn env version r.boozmn w.disk b' = .ok () v ∧ w'.disk = v.core.disk := by
  unfold finish at h
  obtain ⟨_, w1, h1, h⟩ := prog_bind_ok h
  obtain ⟨l1, e1⟩ := sayIf_apply (r.surfs.length == 0)
    "No compute_surfs specified, so including all half-grid surfaces." w
  rw [e1] at h1
  cases h1
  obtain ⟨_, w2, h2, h⟩ := prog_bind_ok h
  have d2 : w2.disk = w.disk := by
    unfold announce at h2
    obtain ⟨l, w3, h3, h4⟩ := prog_bind_ok h2
    obtain ⟨-, rfl⟩ := lift_ok_inv h3
    cases h4
    rfl
  obtain ⟨b', w3, h3, h⟩ := prog_bind_ok h
  unfold callRun at h3
  obtain ⟨⟨b1, rep⟩, w4, h4, h5⟩ := prog_bind_ok h3
  obtain ⟨hr, e4⟩ := lift_ok_inv h4
  cases h5
  replace h : (callWrite env version r.boozmn b1 >>= fun _ => say "Good bye.") w3 = .ok u w' := h
  rw [e4] at h
  obtain ⟨_, w5, h6, h7⟩ := prog_bind_ok h
  cases h7
  unfold callWrite at h6
  rw [d2] at h6
  split at h6
  · rename_i v e
    cases h6
    exact ⟨_, _, _, hr, e, rfl⟩
  all_goals cases h6

/-- When all listed surfaces have values, what happens depends on `run` and `write_boozmn`. -/
theorem finish_eq (env : Env) (version : String) (r : Request) (b : St α) (w : World α) {l : List Int}
    (hl : b.inp.compute_surfs = listVec l) : ∃ c, finish env version r b w =
      (callRun b >>= fun b => callWrite env version r.boozmn b >>= fun _ => say "Good bye.")
        (w.print c) := by
  unfold finish
  obtain ⟨l1, e1⟩ := sayIf_apply (r.surfs.length == 0)
    "No compute_surfs specified, so including all half-grid surfaces." w
  rw [Prog.bind_def, e1]
  simp only
  unfold announce
  rw [hl, Prog.bind_def, Prog.bind_def]
  simp only [listVec]
  rw [mapM_need]
  simp only [Prog.lift]
  rw [say_apply]
  simp only
  rw [World.print_print]
  exact ⟨_, rfl⟩

end Booz
