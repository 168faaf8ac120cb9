import Verif.Model.Handles

/-!
# Sessions that go on after errors
-/

namespace Booz.Spec

/-- A session: calls made one after the other, each of which returned (`none`) or threw an exception
with a message (`some m`), which was caught. -/
inductive Session {σ : Type} (step : Call → Prog σ Unit) : σ → List (Call × Option String) → σ → Prop
  | nil (s : σ) : Session step s [] s
  | ok {s t u : σ} {c : Call} {l : List (Call × Option String)} (h : step c s = .ok () t)
      (hl : Session step t l u) : Session step s ((c, none) :: l) u
  | exc {s t u : σ} {c : Call} {m : String} {l : List (Call × Option String)}
      (h : step c s = .exc m t) (hl : Session step t l u) : Session step s ((c, some m) :: l) u

/-- How many calls of a session threw an exception. -/
def failures (l : List (Call × Option String)) : Nat := l.countP fun x => x.2.isSome

/-- The calls that work with a file. -/
def UsesFile : Call → Prop
  | .readWout _ _ => True
  | .readBoozmn _ => True
  | .write _ _ _ => True
  | _ => False

end Booz.Spec
