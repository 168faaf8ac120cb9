import Verif.Examples
import Verif.Lemmas.Results

/-!
# A concrete object with results
-/

namespace Booz.Ex
open Spec
variable {α : Type} [Arith α]

/-- Flux profiles on the three full-grid surfaces of the example, or none. -/
def flux (fl : Bool) : Flux α :=
  if fl then ⟨vec [ofInt 0, ofInt 3, ofInt 6], vec [ofInt 1, ofInt 1, ofInt 1],
    vec [ofInt 0, ofInt 2, ofInt 5], vec [ofInt 9, ofInt 4, ofInt 0]⟩
  else ⟨#[], #[], #[], #[]⟩

/-- The inputs of the example on VMEC's half grid. -/
def inputsH (asym : Bool) : Inputs α :=
  { inputs asym with s_in := Vec.tab 2 fun k => ofInt 1 / (ofInt ((2 : Nat) + 1) - ofInt 1) * (ofInt k + Arith.half) }

theorem readyH (asym : Bool) : RunReady (inputsH (α := α) asym) (dims asym) :=
  { ready asym with s_in := Vec.full_tab _ _ }

/-- The object before the run. -/
def stF (asym fl : Bool) : St α := { (construct : St α) with inp := inputsH asym, flux := flux fl }

/-- The object after the run. -/
def done (asym fl : Bool) : St α := runSt (dims asym) (stF asym fl) 2

theorem fluxOk (fl : Bool) : FluxOk (flux (α := α) fl) 2 := by
  cases fl
  · exact .inl rfl
  · exact .inr ⟨rfl, rfl, rfl, rfl⟩

theorem done_run (asym fl : Bool) : ∃ r, run false (stF (α := α) asym fl) = .ok (done asym fl, r) :=
  ⟨_, run_ok (readyH asym) (by simp) (by simp)⟩

theorem done_results (asym fl : Bool) : HasResults (done (α := α) asym fl) 5 2 2 2 asym :=
  run_hasResults (s := stF asym fl) (d := dims asym) (readyH asym) (by decide : 1 ≤ 2)
    (by decide : 2 ≤ 2147483644) (by decide : 2 + 1 ≤ 2147483644)
    (fluxOk fl)

theorem done_phi (asym fl : Bool) : (done (α := α) asym fl).flux.phip.size ≠ 0 →
    ∃ x, (done (α := α) asym fl).flux.phi[2]? = some (some x) := by
  cases fl
  · intro h; exact absurd rfl h
  · intro _; exact ⟨ofInt 6, rfl⟩

theorem version : VersionOk "0.0.1" := by unfold VersionOk; decide

/-- Library calls never fail. -/
def calm : Env := fun _ => none
theorem noFailure : NoFailure calm := fun _ => rfl

/-- The file system before: one boozmn-like file of another program, one other file. -/
def disk0 : Disk α := fun p =>
  if p = "boozmn.nc" then .nc ⟨[("radius", 7)], []⟩ else if p = "notes" then .other ['x'] else .absent

/-- Writing the example succeeds. -/
theorem done_written (asym fl : Bool) :
    ∃ w, writeBoozmn calm "0.0.1" "boozmn.nc" disk0 (done (α := α) asym fl) = .ok () w := by
  rcases write_total (env := calm) (filename := "boozmn.nc") (disk := disk0)
    (done_results (α := α) asym fl) version with
    h | ⟨⟨k, m, h⟩, _⟩
  · exact h
  · cases h

end Booz.Ex
