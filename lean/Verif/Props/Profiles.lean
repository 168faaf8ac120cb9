import Verif.Props.Attributes
import Verif.Lemmas.WriteFlux

/-!
# C86: flux profiles assigned by the user

`phi`, `chi`, `phip` and `pres` are documented as input attributes "of length ns_vmec"
(`bindings.cpp:182-195`).  `write_boozmn` looks at the length of `phip` only (`write_boozmn.cpp:90`).
-/

namespace Booz
open Spec
variable {α : Type} [Arith α]
variable {env : Env} {version filename : String} {disk : Disk α} {s : St α} {K nb ns : Nat} {asym : Bool}

/-- **C86, exactly when a file is written**, for an object with results and any profiles: iff `phip` is
empty or all four profiles have at least `ns_in + 1` elements.  In all other cases the behaviour is
undefined. -/
theorem C86_exact (h : HasResults (withoutFlux s) K nb nb ns asym) (hv : VersionOk version)
    (he : NoFailure env) :
    ((∃ w, writeBoozmn env version filename disk s = .ok () w) ↔
      s.flux.phip.size = 0 ∨ (ns + 1 ≤ s.flux.phip.size ∧ ns + 1 ≤ s.flux.chi.size ∧
        ns + 1 ≤ s.flux.pres.size ∧ ns + 1 ≤ s.flux.phi.size)) ∧
    ((¬ ∃ w, writeBoozmn env version filename disk s = .ok () w) →
      ∃ what, writeBoozmn env version filename disk s = .ub what) := by
  by_cases h0 : s.flux.phip.size = 0
  · have hr : HasResults s K nb nb ns asym :=
      ⟨h.1, h.2, h.3, h.4, h.5, h.6, h.7, h.8, h.9, h.10, h.11, h.12, h.13, h.14, h.15, h.16, h.17, h.18, h.19,
        h.20, h.21, h.22, h.23, .inl h0⟩
    have : ∃ w, writeBoozmn env version filename disk s = .ok () w := by
      rcases C34_total (env := env) (filename := filename) (disk := disk) hr hv with hw | ⟨⟨k, m, e⟩, _⟩
      · exact hw
      · rw [he k] at e; cases e
    exact ⟨⟨fun _ => .inl h0, fun _ => this⟩, fun hn => absurd this hn⟩
  · by_cases hs : ns + 1 ≤ s.flux.phip.size ∧ ns + 1 ≤ s.flux.chi.size ∧ ns + 1 ≤ s.flux.pres.size ∧
        ns + 1 ≤ s.flux.phi.size
    · obtain ⟨w, hw, -⟩ := write_long_result (filename := filename) (disk := disk) h hv h0 hs he
      exact ⟨⟨fun _ => .inr hs, fun _ => ⟨w, hw⟩⟩, fun hn => absurd ⟨w, hw⟩ hn⟩
    · obtain ⟨x, hx⟩ := write_flux_ub (filename := filename) (disk := disk) h hv he h0 (by omega)
      refine ⟨⟨fun ⟨w, hw⟩ => ?_, fun hh => ?_⟩, fun _ => ⟨x, hx⟩⟩
      · rw [hx] at hw; cases hw
      · rcases hh with hh | hh
        · exact absurd hh h0
        · exact absurd hh hs

/-- The example, with profiles of any length. -/
example (asym : Bool) (f : Flux α) :
    HasResults (withoutFlux { Ex.done asym true with flux := f }) 5 2 2 2 asym :=
  (Ex.done_results asym true).without

/-- **C86 is false** of the code: an object on which only `phip` was assigned. -/
theorem C86_false (asym : Bool) : ∃ what,
    writeBoozmn Ex.calm "0.0.1" "boozmn.nc" Ex.disk0 { Ex.done (α := α) asym true with
      flux := { (construct (α := α)).flux with phip := (Ex.done (α := α) asym true).flux.phip } } = .ub what := by
  have h := C86_exact (s := { Ex.done (α := α) asym true with
      flux := { (construct (α := α)).flux with phip := (Ex.done (α := α) asym true).flux.phip } })
    (ns := 2) (asym := asym) (K := 5) (nb := 2) (filename := "boozmn.nc") (disk := Ex.disk0)
    (Ex.done_results asym true).without Ex.version Ex.noFailure
  refine h.2 fun hw => ?_
  rcases h.1.mp hw with h | ⟨-, h, -⟩
  · exact absurd h (by decide : (3 : Nat) ≠ 0)
  · exact absurd h (by decide : ¬ 2 + 1 ≤ (0 : Nat))

/-- **C86 is false** of the code in another way: `phi`, `chi` and `pres` assigned without `phip` do not
reach the file, which says zeros.  For all objects and values. -/
theorem C86_dropped (h : HasResults s K nb nb ns asym) (hv : VersionOk version) (h0 : s.flux.phip.size = 0)
    (phi chi pres : Vec α) {w₁ w₂ : WSt α} {env₂ : Env}
    (hw₁ : writeBoozmn env version filename disk s = .ok () w₁)
    (hw₂ : writeBoozmn env₂ version filename disk
      { s with flux := { s.flux with phi := phi, chi := chi, pres := pres } } = .ok () w₂) :
    w₁.core.disk = w₂.core.disk ∧ ∃ f, w₂.core.disk filename = .nc f ∧
      ∀ n ∈ ["chi_b", "pres_b", "phi_b", "phip_b"],
        HoldsVec f "radius" n (Array.replicate (ns + 1) (some (ofInt 0))) := by
  have h2 : HasResults { s with flux := { s.flux with phi := phi, chi := chi, pres := pres } } K nb nb ns asym :=
    ⟨h.1, h.2, h.3, h.4, h.5, h.6, h.7, h.8, h.9, h.10, h.11, h.12, h.13, h.14, h.15, h.16, h.17, h.18, h.19,
      h.20, h.21, h.22, h.23, .inl h0⟩
  obtain ⟨f, hf, hl⟩ := C34_layout h2 hv hw₂
  refine ⟨?_, f, hf, hl.no_flux h0⟩
  rw [(write_result h hv hw₁).1, (write_result h2 hv hw₂).1]
  have : bzFile version K nb ns asym { s with flux := { s.flux with phi := phi, chi := chi, pres := pres } } =
      bzFile version K nb ns asym s := by
    unfold bzFile writtenObj
    dsimp only
    rw [show decide (s.flux.phip.size ≠ 0) = false by simp [h0]]
    cases asym <;> rfl
  rw [this]

/-- The example: the toroidal flux of the surfaces is assigned, and lost. -/
example (asym : Bool) : ∃ w₁ w₂, writeBoozmn Ex.calm "0.0.1" "boozmn.nc" Ex.disk0 (Ex.done (α := α) asym false) = .ok () w₁ ∧
    writeBoozmn Ex.calm "0.0.1" "boozmn.nc" Ex.disk0 { Ex.done (α := α) asym false with
      flux := { (Ex.done (α := α) asym false).flux with phi := (Ex.flux true).phi, chi := #[], pres := #[] } } = .ok () w₂ ∧
    w₁.core.disk = w₂.core.disk := by
  obtain ⟨w₁, hw₁⟩ := Ex.done_written (α := α) asym false
  obtain ⟨w₂, hw₂⟩ := (C86_exact (s := { Ex.done (α := α) asym false with
      flux := { (Ex.done (α := α) asym false).flux with phi := (Ex.flux true).phi, chi := #[], pres := #[] } })
    (ns := 2) (asym := asym) (K := 5) (nb := 2) (filename := "boozmn.nc") (disk := Ex.disk0)
    (Ex.done_results asym false).without Ex.version Ex.noFailure).1.mpr (.inl rfl)
  exact ⟨w₁, w₂, hw₁, hw₂, (C86_dropped (Ex.done_results asym false) Ex.version rfl _ _ _ hw₁ hw₂).1⟩

/-- **C86, what holds**: if all four profiles have at least `ns_in + 1` elements, the file holds the
first `ns_in + 1` of each, with the first of `phip` replaced by 0.  Missing: other lengths, see
above. -/
theorem C86_partial (h : HasResults (withoutFlux s) K nb nb ns asym) (hv : VersionOk version)
    (h1 : ns + 1 ≤ s.flux.phip.size) (h2 : ns + 1 ≤ s.flux.chi.size) (h3 : ns + 1 ≤ s.flux.pres.size)
    (h4 : ns + 1 ≤ s.flux.phi.size) (he : NoFailure env) :
    ∃ w f, writeBoozmn env version filename disk s = .ok () w ∧ w.core.disk filename = .nc f ∧
      HoldsVec f "radius" "chi_b" (s.flux.chi.extract 0 (ns + 1)) ∧
      HoldsVec f "radius" "pres_b" (s.flux.pres.extract 0 (ns + 1)) ∧
      HoldsVec f "radius" "phi_b" (s.flux.phi.extract 0 (ns + 1)) ∧
      HoldsVec f "radius" "phip_b" ((s.flux.phip.extract 0 (ns + 1)).set! 0 (some (ofInt 0))) := by
  obtain ⟨w, hw, hd⟩ := write_long_result (filename := filename) (disk := disk) h hv (by omega) ⟨h1, h2, h3, h4⟩ he
  have hc : HasResults (cutFlux (ns + 1) s) K nb nb ns asym :=
    ⟨h.1, h.2, h.3, h.4, h.5, h.6, h.7, h.8, h.9, h.10, h.11, h.12, h.13, h.14, h.15, h.16, h.17, h.18, h.19, h.20,
      h.21, h.22, h.23, .inr ⟨by simp [cutFlux]; omega, by simp [cutFlux]; omega, by simp [cutFlux]; omega,
        by simp [cutFlux]; omega⟩⟩
  have hl := layout_ok (version := version) hc
  have hp : (cutFlux (ns + 1) s).flux.phip.size = ns + 1 := by simp [cutFlux]; omega
  obtain ⟨a, b, c, d⟩ := hl.flux (by omega)
  refine ⟨w, _, hw, ?_, a, b, c, d⟩
  rw [hd]
  unfold Disk.put
  rw [if_pos rfl]

/-- The example, with one more element than needed. -/
example (asym : Bool) : ∃ w f, writeBoozmn Ex.calm "0.0.1" "boozmn.nc" Ex.disk0 { Ex.done (α := α) asym true with
      flux := { (Ex.done (α := α) asym true).flux with chi := Ex.vec [ofInt 0, ofInt 2, ofInt 5, ofInt 8] } } = .ok () w ∧
    w.core.disk "boozmn.nc" = .nc f ∧ HoldsVec f "radius" "chi_b" (Ex.vec [ofInt 0, ofInt 2, ofInt 5]) := by
  obtain ⟨w, f, e1, e2, e3, -⟩ := C86_partial (s := { Ex.done (α := α) asym true with
      flux := { (Ex.done (α := α) asym true).flux with chi := Ex.vec [ofInt 0, ofInt 2, ofInt 5, ofInt 8] } })
    (ns := 2) (asym := asym) (K := 5) (nb := 2) (filename := "boozmn.nc") (disk := Ex.disk0)
    (Ex.done_results asym true).without Ex.version (by decide : 2 + 1 ≤ (3 : Nat)) (by decide : 2 + 1 ≤ (4 : Nat))
    (by decide : 2 + 1 ≤ (3 : Nat)) (by decide : 2 + 1 ≤ (3 : Nat)) Ex.noFailure
  exact ⟨w, f, e1, e2, e3⟩

end Booz
