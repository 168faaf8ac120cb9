import Verif.Lemmas.WriteFail

/-!
# What `write_boozmn` does to the object
-/

namespace Booz
open Spec
variable {α : Type} [Arith α]

/-- The object satisfies `P`, if the outcome has one. -/
def ObjOut {β : Type} (P : St α → Prop) : Out (WSt α) β → Prop
  | .ok _ w => P w.core.mem.obj
  | .exc _ w => P w.core.mem.obj
  | _ => True

/-- The program preserves a property of the object, however it ends. -/
def KeepsObj {β : Type} (P : St α → Prop) (p : Prog (WSt α) β) : Prop :=
  ∀ w, P w.core.mem.obj → ObjOut P (p w)

namespace KeepsObj
variable {P : St α → Prop} {β γ : Type}

omit [Arith α] in
theorem pure (x : β) : KeepsObj P (Pure.pure x : Prog (WSt α) β) := fun _ hw => hw

omit [Arith α] in
theorem bind {p : Prog (WSt α) β} {q : β → Prog (WSt α) γ} (hp : KeepsObj P p)
    (hq : ∀ x, KeepsObj P (q x)) : KeepsObj P (p >>= q) := by
  intro w hw
  have h := hp w hw
  rw [Prog.bind_def]
  cases hr : p w with
  | ok x w' => rw [hr] at h; exact hq x w' h
  | exc m w' => rw [hr] at h; exact h
  | abort x => trivial
  | ub x => trivial

omit [Arith α] in
theorem get : KeepsObj P (Prog.get : Prog (WSt α) (WSt α)) := fun _ hw => hw

omit [Arith α] in
theorem lift (r : Res β) : KeepsObj P (Prog.lift r : Prog (WSt α) β) := by
  intro w hw
  rcases r with (f | x)
  · cases f
    · exact hw
    · trivial
    · trivial
  · exact hw

omit [Arith α] in
theorem call {env : Env} {eff : Core α → Res (Core α)}
    (h : ∀ c c', eff c = .ok c' → c'.mem = c.mem) : KeepsObj P (ncCall env eff) := by
  intro w hw
  unfold ncCall
  split
  · exact hw
  · split
    · next c hc =>
      have := h _ _ hc
      show P c.mem.obj
      rw [this]; exact hw
    · exact hw
    · trivial
    · trivial

omit [Arith α] in
theorem mem {g : Mem α → Res (Mem α)} (h : ∀ m m', P m.obj → g m = .ok m' → P m'.obj) :
    KeepsObj P (setMem g) := by
  unfold setMem Prog.modify
  intro w hw
  simp only [Prog.bind_def, Prog.get, Prog.lift]
  cases hg : g w.core.mem with
  | ok m => exact h _ _ hw hg
  | error f =>
    cases f
    · exact hw
    · trivial
    · trivial

theorem loc (g : Mem α → Res (Locals α)) : KeepsObj P (setLoc g) := by
  refine mem fun m m' hm h => ?_
  obtain ⟨l, -, h⟩ := bind_ok h
  cases h; exact hm

omit [Arith α] in
theorem dim {env : Env} (name : String) (n : Int) : KeepsObj P (ncCall (α := α) env (defDim name n)) := by
  refine call fun c c' h => ?_
  unfold defDim at h
  split at h
  · cases h
  split at h
  · cases h
  split at h
  · cases h
  · cases h; rfl

omit [Arith α] in
theorem att {env : Env} (x : String) : KeepsObj P (putAtt (α := α) env x) := by
  unfold putAtt
  split
  · exact call fun c c' h => by cases h; rfl
  · exact pure _

omit [Arith α] in
theorem put {env : Env} (d : VarDef α) : KeepsObj P (ncPut env d) := by
  unfold ncPut
  refine bind get fun w => bind (lift _) fun _ => bind (call fun c c' h => ?_) fun _ =>
    bind (lift _) fun _ => bind (att _) fun _ => att _
  unfold defVar at h
  split at h
  · cases h
  · cases h; rfl

omit [Arith α] in
theorem puts {env : Env} : ∀ ds : List (VarDef α), KeepsObj P (ncPuts env ds)
  | [] => pure _
  | d :: ds => bind (put d) fun _ => puts ds

omit [Arith α] in
theorem str {env : Env} (n : Nat) : KeepsObj P (strDim (α := α) env n) := by
  unfold strDim
  refine bind get fun w => ?_
  split
  · exact pure _
  · exact dim _ _

omit [Arith α] in
theorem vars {env : Env} : ∀ ds : List (VarDef α), KeepsObj P (putVars env ds)
  | [] => pure _
  | d :: ds => by
    unfold putVars
    refine bind (call fun c c' h => ?_) fun _ => vars ds
    unfold putVar at h
    obtain ⟨x, -, h⟩ := bind_ok h
    cases h; rfl

/-- Storing 0 in `phip[0]` preserves `P`. -/
def PhipClosed (P : St α → Prop) : Prop :=
  ∀ o v, P o → o.flux.phip.wrN 0 (ofInt 0) = .ok v →
    P { o with flux := { o.flux with phip := v } }

theorem flux {env : Env} (hP : PhipClosed P) (b : Bool) : KeepsObj P (writeFlux (α := α) env b) := by
  unfold writeFlux
  cases b
  · exact bind (loc _) fun _ => puts _
  · refine bind (mem fun m m' hm h => ?_) fun _ => puts _
    obtain ⟨v, hv, h⟩ := bind_ok h
    cases h
    exact hP _ _ hm hv

theorem asymVars {env : Env} (b : Bool) : KeepsObj P (writeAsym (α := α) env b) := by
  unfold writeAsym
  cases b
  · exact pure _
  · exact bind (puts _) fun _ => bind (loc _) fun _ => puts _

theorem write (hP : PhipClosed P) (env : Env) (version filename : String) :
    KeepsObj P (writeBoozmnW (α := α) env version filename) := by
  unfold writeBoozmnW defineBoozmn defineVars writeAndClose
  refine .bind ?_ fun _ => .bind (.call fun c c' h => by cases h; rfl) fun _ => .bind .get fun w =>
    .bind (.vars _) fun _ => .call fun c c' h => by cases h; rfl
  refine .bind (.call fun c c' h => by cases h; rfl) fun _ =>
    .bind .get fun w => .bind (.lift _) fun _ => .bind (.lift _) fun _ => .bind (.dim _ _) fun _ =>
    .bind (.lift _) fun _ => .bind (.dim _ _) fun _ => .bind (.dim _ _) fun _ =>
    .bind (.dim _ _) fun _ => .bind (.dim _ _) fun _ => .bind (.loc _) fun _ =>
    .bind (.str _) fun _ => .bind (.put _) fun _ => .bind (.lift _) fun _ =>
    .bind (.loc _) fun _ => .bind (.puts _) fun _ =>
    .bind (.loc _) fun _ => .bind (.puts _) fun _ =>
    .bind (.loc _) fun _ => .bind (.puts _) fun _ =>
    .bind (.loc _) fun _ => .bind (.puts _) fun _ =>
    .bind (.loc _) fun _ => .bind (.puts _) fun _ =>
    .bind (.loc _) fun _ => .bind (.flux hP _) fun _ =>
    .bind (.puts _) fun _ => .bind (.loc _) fun _ => .bind (.puts _) fun _ => .asymVars _

end KeepsObj

omit [Arith α] in
theorem set_phip_twice (v : Vec α) (x : Option α) : (v.set! 0 x).set! 0 x = v.set! 0 x := by
  simp [Array.set!_eq_setIfInBounds]

/-- Whatever happens, the object is as before, or `phip[0]` has been set to 0. -/
theorem write_obj (env : Env) (version filename : String) (disk : Disk α) (s : St α) :
    ObjOut (fun o => o = s ∨ (s.flux.phip.size ≠ 0 ∧
      o = { s with flux := { s.flux with phip := s.flux.phip.set! 0 (some (ofInt 0)) } }))
      (writeBoozmn env version filename disk s) := by
  refine KeepsObj.write ?_ env version filename _ (.inl rfl)
  intro o v ho hv
  unfold Vec.wrN at hv
  split at hv
  · next hlt =>
    cases hv
    rcases ho with rfl | ⟨h0, rfl⟩
    · exact .inr ⟨by omega, rfl⟩
    · refine .inr ⟨h0, ?_⟩
      dsimp only
      rw [set_phip_twice]
  · cases hv

end Booz
