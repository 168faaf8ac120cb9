import Verif.Spec.ProfilesAssigned
import Verif.Props.Profiles

/-!
# C86 for programs that assign the profiles
-/

namespace Booz
open Spec
variable {α : Type} [Arith α]
variable {env : Env} {version filename : String} {disk : Disk α} {s : St α} {K nb ns : Nat} {asym : Bool}

/-- The profile that was assigned is there. -/
private def Has (F : Flux α) : Setting α → Prop
  | .phi v => F.phi = v
  | .chi v => F.chi = v
  | .phip v => F.phip = v
  | .pres v => F.pres = v
  | _ => True

private theorem profile_step {x : Setting α} (hx : IsProfile x) (s : St α) :
    ∃ F, x.assign s = .ok () { s with flux := F } ∧ Has F x ∧
      ∀ y, nameOf x ≠ nameOf y → Has s.flux y → Has F y := by
  cases x <;> first
    | (exfalso; simp [IsProfile, nameOf] at hx; done)
    | (refine ⟨_, rfl, rfl, fun y hy hs => ?_⟩
       cases y <;> first | exact hs | exact absurd rfl hy)

private theorem profiles_set : ∀ {l : List (Setting α)}, (∀ x ∈ l, IsProfile x) → ∀ s : St α,
    ∃ F, setAll l s = .ok () { s with flux := F } ∧ (∀ x, LastAssigned l x → Has F x) ∧
      ∀ x, (∀ y ∈ l, nameOf y ≠ nameOf x) → Has s.flux x → Has F x
  | [], _, s => ⟨s.flux, rfl, fun x ⟨l₁, l₂, e, _⟩ => by simp at e, fun _ _ h => h⟩
  | y :: l, hl, s => by
    obtain ⟨G, g1, g2, g3⟩ := profile_step (hl y (by simp)) s
    obtain ⟨F, f1, f2, f3⟩ := profiles_set (fun x hx => hl x (List.mem_cons_of_mem _ hx)) { s with flux := G }
    refine ⟨F, ?_, fun x ⟨l₁, l₂, e, hx⟩ => ?_, fun x hx hs => ?_⟩
    · rw [setAll, Prog.bind_def, g1]
      exact f1
    · cases l₁ with
      | nil =>
        obtain ⟨rfl, rfl⟩ := List.cons.inj e
        exact f3 _ hx g2
      | cons z l₁ =>
        obtain ⟨rfl, rfl⟩ := List.cons.inj e
        exact f2 x ⟨l₁, l₂, rfl, hx⟩
    · exact f3 x (fun z hz => hx z (List.mem_cons_of_mem _ hz)) (g3 x (hx y (by simp)) hs)

/-- **C86 for programs.**  On an object with results, whatever its profiles were, a program assigns the four profiles, in any
order and as often as it likes; the last values assigned have at least `ns_in + 1` elements.  Then all assignments succeed,
`write_boozmn` writes a file, and each variable holds the first `ns_in + 1` elements of the value assigned last to the
attribute of its name, the first of `phip` replaced by 0.  Missing: other lengths and programs that leave profiles out, for
which see `C86_exact`, `C86_false` and `C86_dropped`. -/
theorem C86_assigned_partial (h : HasResults (withoutFlux s) K nb nb ns asym) (hv : VersionOk version) (he : NoFailure env)
    {l : List (Setting α)} (hl : ∀ x ∈ l, IsProfile x) {phi chi phip pres : Vec α}
    (l1 : LastAssigned l (.phi phi)) (l2 : LastAssigned l (.chi chi)) (l3 : LastAssigned l (.phip phip))
    (l4 : LastAssigned l (.pres pres)) (h1 : ns + 1 ≤ phi.size) (h2 : ns + 1 ≤ chi.size) (h3 : ns + 1 ≤ phip.size)
    (h4 : ns + 1 ≤ pres.size) :
    ∃ s' w f, setAll l s = .ok () s' ∧ s'.inp = s.inp ∧ s'.out = s.out ∧
      writeBoozmn env version filename disk s' = .ok () w ∧ w.core.disk filename = .nc f ∧
      HoldsVec f "radius" "phi_b" (phi.extract 0 (ns + 1)) ∧
      HoldsVec f "radius" "chi_b" (chi.extract 0 (ns + 1)) ∧
      HoldsVec f "radius" "pres_b" (pres.extract 0 (ns + 1)) ∧
      HoldsVec f "radius" "phip_b" ((phip.extract 0 (ns + 1)).set! 0 (some (ofInt 0))) := by
  obtain ⟨F, f1, f2, -⟩ := profiles_set hl s
  obtain rfl : F.phi = phi := f2 _ l1
  obtain rfl : F.chi = chi := f2 _ l2
  obtain rfl : F.phip = phip := f2 _ l3
  obtain rfl : F.pres = pres := f2 _ l4
  obtain ⟨w, f, e1, e2, e3, e4, e5, e6⟩ := C86_partial (s := { s with flux := F }) (filename := filename) (disk := disk)
    h hv h3 h2 h4 h1 he
  exact ⟨_, w, f, f1, rfl, rfl, e1, e2, e5, e3, e4, e6⟩

/-- The example: `chi` is assigned twice, the second value reaches the file. -/
example (asym : Bool) (v : Vec α) :
    let l : List (Setting α) := [.chi v, .phip (Ex.vec [ofInt 1, ofInt 2, ofInt 3]), .phi (Ex.vec [ofInt 4, ofInt 5, ofInt 6]),
      .chi (Ex.vec [ofInt 0, ofInt 2, ofInt 5, ofInt 8]), .pres (Ex.vec [ofInt 7, ofInt 8, ofInt 9])]
    ∃ s' w f, setAll l (Ex.done (α := α) asym false) = .ok () s' ∧
      writeBoozmn Ex.calm "0.0.1" "boozmn.nc" Ex.disk0 s' = .ok () w ∧ w.core.disk "boozmn.nc" = .nc f ∧
      HoldsVec f "radius" "chi_b" (Ex.vec [ofInt 0, ofInt 2, ofInt 5]) ∧
      HoldsVec f "radius" "phip_b" (Ex.vec [ofInt 0, ofInt 2, ofInt 3]) := by
  intro l
  obtain ⟨s', w, f, e1, -, -, e2, e3, -, e4, -, e5⟩ := C86_assigned_partial (s := Ex.done (α := α) asym false) (l := l)
    (ns := 2) (asym := asym) (K := 5) (nb := 2) (filename := "boozmn.nc") (disk := Ex.disk0) (env := Ex.calm)
    (version := "0.0.1") (Ex.done_results asym false).without Ex.version Ex.noFailure
    (by intro x hx; simp only [l, List.mem_cons, List.not_mem_nil, or_false] at hx
        rcases hx with rfl | rfl | rfl | rfl | rfl <;> simp [IsProfile, nameOf])
    ⟨[_, _], _, rfl, by simp [nameOf]⟩ ⟨[_, _, _], _, rfl, by simp [nameOf]⟩ ⟨[_], _, rfl, by simp [nameOf]⟩
    ⟨[_, _, _, _], _, rfl, by simp⟩ (by decide : 2 + 1 ≤ (3 : Nat)) (by decide : 2 + 1 ≤ (4 : Nat))
    (by decide : 2 + 1 ≤ (3 : Nat)) (by decide : 2 + 1 ≤ (3 : Nat))
  exact ⟨s', w, f, e1, e2, e3, e4, e5⟩

end Booz
