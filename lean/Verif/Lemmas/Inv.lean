import Verif.Lemmas.Arrays

/-!
# Reasoning backwards from success, and about the kind of faults
-/

namespace Booz

theorem bind_ok {β γ : Type} {x : Res β} {f : β → Res γ} {c : γ} (h : (x >>= f) = .ok c) :
    ∃ b, x = .ok b ∧ f b = .ok c := by
  cases x with
  | error e => cases h
  | ok b => exact ⟨b, rfl, h⟩

theorem i32_inv {x y : Int} (h : i32 x = .ok y) : y = x ∧ FitsInt x := by
  unfold i32 at h
  split at h
  · cases h; exact ⟨rfl, by assumption⟩
  · cases h

theorem loop_iter {σ : Type} {n : Nat} {body : Nat → σ → Res σ} {s t : σ}
    (h : loop n body s = .ok t) {i : Nat} (hi : i < n) :
    ∃ a b, loop i body s = .ok a ∧ body i a = .ok b := by
  induction n generalizing t with
  | zero => omega
  | succ n ih =>
    rw [loop_succ] at h
    obtain ⟨a, h1, h2⟩ := bind_ok h
    rcases Nat.lt_succ_iff_lt_or_eq.mp hi with h3 | h3
    · exact ih h1 h3
    · subst h3; exact ⟨a, t, h1, h2⟩

/-- The only fault is undefined behaviour (no exception, no failing assertion). -/
def OnlyUb {β : Type} (r : Res β) : Prop := ∀ f, r = .error f → ∃ w, f = .ub w

namespace OnlyUb
variable {β γ : Type}

theorem ok (b : β) : OnlyUb (.ok b : Res β) := fun _ h => by cases h
theorem pure (b : β) : OnlyUb (Pure.pure b : Res β) := ok b
theorem ub (w : String) : OnlyUb (Booz.ub w : Res β) := fun _ h => ⟨w, by cases h; rfl⟩
theorem bind {x : Res β} {f : β → Res γ} (hx : OnlyUb x) (hf : ∀ b, OnlyUb (f b)) :
    OnlyUb (x >>= f) := by
  cases x with
  | error e => intro g hg; cases hg; exact hx e rfl
  | ok b => exact hf b
theorem ite {c : Prop} [Decidable c] {x y : Res β} (hx : OnlyUb x) (hy : OnlyUb y) :
    OnlyUb (if c then x else y) := by split <;> assumption
theorem loop {n : Nat} {body : Nat → β → Res β} {s : β} (h : ∀ i b, OnlyUb (body i b)) :
    OnlyUb (Booz.loop n body s) := by
  induction n with
  | zero => exact ok s
  | succ n ih => rw [loop_succ]; exact bind ih (h n)

theorem need (o : Option β) (w : String) : OnlyUb (Booz.need o w) := by
  cases o
  · exact ub _
  · exact ok _
theorem i32 (x : Int) : OnlyUb (Booz.i32 x) := by
  unfold Booz.i32; exact ite (ok _) (ub _)
theorem idiv (a b : Int) : OnlyUb (Booz.idiv a b) := by
  unfold Booz.idiv; exact ite (ub _) (i32 _)
theorem cassert (c : Bool) (w : String) : OnlyUb (Booz.cassert false c w) := ok ()
theorem vrdN (v : Vec β) (i : Nat) : OnlyUb (v.rdN i) := by
  unfold Vec.rdN; split <;> first | exact ok _ | exact ub _
theorem vrd (v : Vec β) (i : Int) : OnlyUb (v.rd i) := by
  unfold Vec.rd; exact ite (vrdN _ _) (ub _)
theorem vwrN (v : Vec β) (i : Nat) (x : β) : OnlyUb (v.wrN i x) := by
  unfold Vec.wrN; exact ite (ok _) (ub _)
theorem vsetZero (z : β) (n : Int) : OnlyUb (Vec.setZero z n) := by
  unfold Vec.setZero; exact ite (ok _) (ub _)
theorem vresize (v : Vec β) (n : Int) : OnlyUb (Vec.resize v n) := by
  unfold Vec.resize; exact ite (ok _) (ub _)
theorem vbuild (n : Nat) {g : Nat → Res β} (h : ∀ i, OnlyUb (g i)) : OnlyUb (Vec.build n g) :=
  loop fun i _ => bind (h i) fun _ => ok _
theorem mrdN (v : Mat β) (i j : Nat) : OnlyUb (v.rdN i j) := by
  unfold Mat.rdN; exact ite (vrdN _ _) (ub _)
theorem mrd (v : Mat β) (i j : Int) : OnlyUb (v.rd i j) := by
  unfold Mat.rd; exact ite (mrdN _ _ _) (ub _)
theorem mwrN (v : Mat β) (i j : Nat) (x : β) : OnlyUb (v.wrN i j x) := by
  unfold Mat.wrN; exact ite (bind (vwrN _ _ _) fun _ => ok _) (ub _)
theorem msetZero (z : β) (r c : Int) : OnlyUb (Mat.setZero z r c) := by
  unfold Mat.setZero; exact ite (ok _) (ub _)
theorem mresize (v : Mat β) (r c : Int) : OnlyUb (Mat.resize v r c) := by
  unfold Mat.resize; exact ite (ok _) (ub _)

end OnlyUb

/-- Decompose an `OnlyUb` goal along the program. -/
macro "only_ub" : tactic => `(tactic| repeat' (with_reducible (first
  | exact OnlyUb.ok _ | exact OnlyUb.pure _ | exact OnlyUb.ub _ | exact OnlyUb.need _ _
  | exact OnlyUb.i32 _
  | exact OnlyUb.idiv _ _ | exact OnlyUb.vrdN _ _ | exact OnlyUb.vrd _ _ | exact OnlyUb.vwrN _ _ _
  | exact OnlyUb.vsetZero _ _ | exact OnlyUb.vresize _ _ | exact OnlyUb.mrdN _ _ _
  | exact OnlyUb.mrd _ _ _ | exact OnlyUb.mwrN _ _ _ _ | exact OnlyUb.msetZero _ _ _
  | exact OnlyUb.mresize _ _ _ | exact OnlyUb.cassert _ _ | assumption
  | refine OnlyUb.bind ?_ fun _ => ?_ | refine OnlyUb.loop fun _ _ => ?_
  | refine OnlyUb.vbuild _ fun _ => ?_ | refine OnlyUb.ite ?_ ?_
  | split)))

end Booz
