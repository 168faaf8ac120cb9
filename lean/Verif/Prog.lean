import Verif.Basic

/-!
# Member functions that can throw: computations on an object

A member function may throw a C++ exception half-way; the caller can catch it and go on using the
object, so the state at the throw is part of the outcome.
-/

namespace Booz

/-- How a member function ends: it returns (with the new object state), throws (with the object
state at that moment), fails an `assert`, or has undefined behaviour. For `src/_booz_xform`. -/
inductive Out (σ β : Type) where
  | ok (x : β) (s : σ)
  | exc (msg : String) (s : σ)
  | abort (what : String)
  | ub (why : String)

/-- A computation with object state `σ`. For the member functions of `booz_xform.hpp`. -/
def Prog (σ β : Type) := σ → Out σ β

namespace Prog
variable {σ β γ : Type}

/-- Sequencing: stop at anything other than a normal return. `;` in `src/_booz_xform`. -/
def bind (p : Prog σ β) (f : β → Prog σ γ) : Prog σ γ := fun s =>
  match p s with
  | .ok x s' => f x s'
  | .exc m s' => .exc m s'
  | .abort w => .abort w
  | .ub w => .ub w

instance : Monad (Prog σ) where
  pure x := fun s => .ok x s
  bind := bind

/-- Read the object. For the member functions of `booz_xform.hpp`. -/
def get : Prog σ σ := fun s => .ok s s
/-- Replace the object. For the member functions of `booz_xform.hpp`. -/
def set (s : σ) : Prog σ Unit := fun _ => .ok () s
/-- `throw std::runtime_error(msg)`. As in `netcdf_writer.cpp:25`, `init_from_vmec.cpp:43-97`. -/
def throw (msg : String) : Prog σ β := fun s => .exc msg s
/-- A computation that does not change the object. For the member functions of `booz_xform.hpp`. -/
def lift (r : Res β) : Prog σ β := fun s =>
  match r with
  | .ok x => .ok x s
  | .error (.throw m) => .exc m s
  | .error (.ub w) => .ub w
  | .error (.assertFail w) => .abort w

/-- One statement that computes new object contents; if it faults, the object is as before.
As in `read_wout.cpp`, `read_boozmn.cpp`. -/
def modify (g : σ → Res σ) : Prog σ Unit := do
  let s ← get
  let s' ← lift (g s)
  set s'

theorem bind_def (p : Prog σ β) (f : β → Prog σ γ) (s : σ) :
    (p >>= f) s = match p s with
      | .ok x s' => f x s'
      | .exc m s' => .exc m s'
      | .abort w => .abort w
      | .ub w => .ub w := (rfl)
@[simp] theorem pure_apply (x : β) (s : σ) : (pure x : Prog σ β) s = .ok x s := (rfl)
@[simp] theorem get_bind (f : σ → Prog σ γ) (s : σ) : (get >>= f) s = f s s := (rfl)
@[simp] theorem set_bind (t : σ) (f : Unit → Prog σ γ) (s : σ) : (set t >>= f) s = f () t := (rfl)
@[simp] theorem set_apply (t s : σ) : (set t : Prog σ Unit) s = .ok () t := (rfl)
@[simp] theorem lift_ok_bind (x : β) (f : β → Prog σ γ) (s : σ) :
    (lift (.ok x) >>= f) s = f x s := (rfl)
@[simp] theorem lift_throw_bind (m : String) (f : β → Prog σ γ) (s : σ) :
    (lift (.error (.throw m)) >>= f) s = .exc m s := (rfl)
@[simp] theorem lift_ub_bind (w : String) (f : β → Prog σ γ) (s : σ) :
    (lift (.error (.ub w)) >>= f) s = .ub w := (rfl)
@[simp] theorem lift_assert_bind (w : String) (f : β → Prog σ γ) (s : σ) :
    (lift (.error (.assertFail w)) >>= f) s = .abort w := (rfl)

theorem bind_assoc {δ : Type} (p : Prog σ β) (f : β → Prog σ γ) (g : γ → Prog σ δ) :
    (p >>= f) >>= g = p >>= fun x => f x >>= g := by
  funext s
  simp only [bind_def]
  cases p s <;> rfl
theorem pure_bind (x : β) (f : β → Prog σ γ) : (pure x : Prog σ β) >>= f = f x := (rfl)

theorem modify_ok {g : σ → Res σ} {s t : σ} (h : g s = .ok t) (f : Unit → Prog σ γ) :
    (modify g >>= f) s = f () t := by
  unfold modify
  simp only [bind_def, get, lift, h, set]
theorem modify_throw {g : σ → Res σ} {s : σ} {m : String} (h : g s = .error (.throw m))
    (f : Unit → Prog σ γ) : (modify g >>= f) s = .exc m s := by
  unfold modify
  simp only [bind_def, get, lift, h]
theorem modify_ub {g : σ → Res σ} {s : σ} {m : String} (h : g s = .error (.ub m))
    (f : Unit → Prog σ γ) : (modify g >>= f) s = .ub m := by
  unfold modify
  simp only [bind_def, get, lift, h]

end Prog

end Booz
