import Verif.Lemmas.MalformedBoozmn
import Verif.Lemmas.ReadBoozmn

/-!
# Reading boozmn files with parts missing
-/

namespace Booz
open Spec
variable {α : Type} [Arith α]

/-- The same, or an exception. -/
def SameOrThrow {β : Type} (r r' : Res β) : Prop := r = r' ∨ ∃ m, r = .error (.throw m)

namespace SameOrThrow
variable {β γ : Type}

omit [Arith α] in
theorem refl (r : Res β) : SameOrThrow r r := .inl rfl

omit [Arith α] in
theorem bind {r r' : Res β} {k k' : β → Res γ} (h : SameOrThrow r r') (hk : ∀ x, SameOrThrow (k x) (k' x)) :
    SameOrThrow (r >>= k) (r' >>= k') := by
  rcases h with rfl | ⟨m, rfl⟩
  · cases r with
    | ok x => exact hk x
    | error e => exact .inl rfl
  · exact .inr ⟨m, rfl⟩

end SameOrThrow

/-- The same outcome, or an exception. -/
def SameOrExc {σ β : Type} (p p' : Prog σ β) : Prop := ∀ s, p s = p' s ∨ ∃ m t, p s = .exc m t

namespace SameOrExc

omit [Arith α] in
theorem refl {σ β : Type} (p : Prog σ β) : SameOrExc p p := fun _ => .inl rfl

omit [Arith α] in
theorem bind {σ β γ : Type} {p p' : Prog σ β} {k k' : β → Prog σ γ} (h : SameOrExc p p')
    (hk : ∀ x, SameOrExc (k x) (k' x)) : SameOrExc (p >>= k) (p' >>= k') := by
  intro s
  rw [Prog.bind_def, Prog.bind_def]
  rcases h s with e | ⟨m, t, e⟩
  · rw [e]
    cases p' s with
    | ok x t => exact hk x t
    | exc m t => exact .inl rfl
    | abort w => exact .inl rfl
    | ub w => exact .inl rfl
  · rw [e]; exact .inr ⟨m, t, rfl⟩

omit [Arith α] in
theorem lift {σ β γ : Type} {r r' : Res β} {k k' : β → Prog σ γ} (h : SameOrThrow r r')
    (hk : ∀ x, SameOrExc (k x) (k' x)) : SameOrExc (Prog.lift r >>= k) (Prog.lift r' >>= k') := by
  refine .bind (fun s => ?_) hk
  rcases h with rfl | ⟨m, rfl⟩
  · exact .inl rfl
  · exact .inr ⟨m, s, rfl⟩

theorem last {g g' : St α → Res (St α)} (h : ∀ s, SameOrThrow (g s) (g' s)) : SameOrExc (setSt g) (setSt g') := by
  intro s
  unfold setSt Prog.modify
  simp only [Prog.bind_def, Prog.get, Prog.lift]
  rcases h s with e | ⟨m, e⟩
  · rw [e]; exact .inl rfl
  · rw [e]; exact .inr ⟨m, s, rfl⟩

theorem step {β : Type} {g g' : St α → Res (St α)} {k k' : Unit → Prog (St α) β}
    (h : ∀ s, SameOrThrow (g s) (g' s)) (hk : SameOrExc (k ()) (k' ())) :
    SameOrExc (setSt g >>= k) (setSt g' >>= k') := .bind (.last h) fun _ => hk

end SameOrExc

section
variable {f g : NcFile α} (h : PartOf f g)
include h

theorem Spec.PartOf.find (n : String) : SameOrThrow (f.find n) (g.find n) := by
  unfold NcFile.find
  rcases h.vars n with e | ⟨e, -⟩
  · rw [e]; exact .refl _
  · rw [e]; exact .inr ⟨_, rfl⟩

theorem Spec.PartOf.getdim (n : String) : SameOrThrow (f.getdim n) (g.getdim n) := by
  unfold NcFile.getdim
  rcases h.dims n with e | e
  · rw [e]; exact .refl _
  · rw [e]; exact .inr ⟨_, rfl⟩

theorem Spec.PartOf.getInt (n : String) (old : Option Int) : SameOrThrow (f.getInt n old) (g.getInt n old) :=
  .bind (h.find n) fun _ => .refl _

theorem Spec.PartOf.getVec (n : String) (old : Vec α) : SameOrThrow (f.getVec n old) (g.getVec n old) :=
  .bind (h.find n) fun _ => .refl _

theorem Spec.PartOf.getIVec (n : String) (old : Vec Int) : SameOrThrow (f.getIVec n old) (g.getIVec n old) :=
  .bind (h.find n) fun _ => .refl _

theorem Spec.PartOf.getMat (n : String) (old : Mat α) : SameOrThrow (f.getMat n old) (g.getMat n old) :=
  .bind (h.find n) fun _ => .refl _

theorem Spec.PartOf.chi (old : Vec α) : SameOrThrow (tryGetVec f "chi_b" old) (tryGetVec g "chi_b" old) := by
  left
  have e : f.var? "chi_b" = g.var? "chi_b" := (h.vars "chi_b").resolve_right fun k => k.2 rfl
  unfold tryGetVec NcFile.getVec NcFile.find
  rw [e]

/-- Removing parts of a file can only make the reader throw. -/
theorem Spec.PartOf.readBoozmnBody : SameOrExc (readBoozmnBody f) (readBoozmnBody g) := by
  unfold Booz.readBoozmnBody
  refine .lift (h.getInt _ _) fun a => .lift (.refl _) fun a => .step (fun _ => .refl _) ?_
  refine .bind ?_ fun _ => .bind ?_ fun _ => .bind ?_ fun _ => .bind ?_ fun _ => .bind ?_ fun _ =>
    .bind ?_ fun _ => ?_
  · unfold readSizes
    exact .step (fun _ => .bind (h.getInt _ _) fun _ => .refl _)
      (.step (fun _ => .bind (h.getInt _ _) fun _ => .refl _)
      (.step (fun _ => .bind (h.getInt _ _) fun _ => .refl _)
      (.last fun _ => .bind (h.getInt _ _) fun _ => .refl _)))
  · unfold readModes
    exact .step (fun _ => .refl _)
      (.step (fun _ => .bind (h.getIVec _ _) fun _ => .refl _)
      (.last fun _ => .bind (h.getIVec _ _) fun _ => .refl _))
  · unfold readProfiles
    refine .lift (h.getdim _) fun R => .step (fun _ => .refl _) ?_
    refine .lift (.refl _) fun _ => .lift (h.getVec _ _) fun _ => .lift (h.getVec _ _) fun _ =>
      .lift (h.getVec _ _) fun _ => ?_
    exact .step (fun _ => .bind (h.getVec _ _) fun _ => .refl _)
      (.step (fun _ => .bind (h.getVec _ _) fun _ => .refl _)
      (.step (fun _ => .bind (h.chi _) fun _ => .refl _)
      (.step (fun _ => .bind (h.getVec _ _) fun _ => .refl _) (.refl _))))
  · unfold readSurfs
    exact .lift (h.getdim _) fun nb => .step (fun _ => .refl _)
      (.step (fun _ => .bind (h.getIVec _ _) fun _ => .refl _) (.refl _))
  · unfold readSym
    exact .step (fun _ => .refl _)
      (.step (fun _ => .bind (h.getMat _ _) fun _ => .refl _)
      (.step (fun _ => .bind (h.getMat _ _) fun _ => .refl _)
      (.step (fun _ => .bind (h.getMat _ _) fun _ => .refl _)
      (.step (fun _ => .bind (h.getMat _ _) fun _ => .refl _)
      (.step (fun _ => .refl _)
      (.last fun _ => .bind (h.getMat _ _) fun _ => .refl _))))))
  · unfold readAsym
    split
    · exact .step (fun _ => .refl _)
        (.step (fun _ => .bind (h.getMat _ _) fun _ => .refl _)
        (.step (fun _ => .bind (h.getMat _ _) fun _ => .refl _)
        (.step (fun _ => .bind (h.getMat _ _) fun _ => .refl _)
        (.step (fun _ => .bind (h.getMat _ _) fun _ => .refl _)
        (.step (fun _ => .refl _)
        (.last fun _ => .bind (h.getMat _ _) fun _ => .refl _))))))
    · exact .refl _
  · unfold readS
    exact .lift (h.getInt _ _) fun _ => .refl _

end

omit [Arith α] in
theorem getdim_present {f : NcFile α} {n : String} {k : Nat} (h : f.getdim n = .ok k) : f.dim? n = some k := by
  unfold NcFile.getdim at h
  split at h
  · next e => cases h; exact e
  · cases h

/-- A file that is read to its end has the two dimensions. -/
theorem readBoozmnBody_dims {f : NcFile α} {t t' : St α} {u : Unit} (h : readBoozmnBody f t = .ok u t') :
    f.dim? "radius" ≠ none ∧ f.dim? "comput_surfs" ≠ none := by
  unfold readBoozmnBody at h
  obtain ⟨x0, g0, h⟩ := lift_bind_inv h
  obtain ⟨x1, g1, h⟩ := lift_bind_inv h
  obtain ⟨_, g2, h⟩ := setSt_bind_inv h
  obtain ⟨_, t1, _, h⟩ := prog_bind_ok h
  obtain ⟨_, t2, _, h⟩ := prog_bind_ok h
  obtain ⟨_, t3, e3, h⟩ := prog_bind_ok h
  obtain ⟨_, t4, e4, h⟩ := prog_bind_ok h
  unfold readProfiles at e3
  obtain ⟨R, g3, _⟩ := lift_bind_inv e3
  unfold readSurfs at e4
  obtain ⟨nb, g4, _⟩ := lift_bind_inv e4
  rw [getdim_present g3, getdim_present g4]
  simp

end Booz
