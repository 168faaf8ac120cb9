import Verif.Spec.EndToEnd
import Verif.Props.BoozerAngles
import Verif.Props.LoadRounding
import Verif.Props.DebugRounding

/-!
# C73: what is computed in floating-point arithmetic is the Boozer spectrum
-/

namespace Booz
open Spec Function

theorem spectrum_of_near {α : Type} {fin : α → Prop} {val : α → ℝ} {d : Dims} {o : Outputs α} {p : Outputs ℝ}
    {S : Surface} {k b : ℕ} {m n : ℤ} {e e' : ℝ} (hk : k < d.nmodes) (hb : b < d.nsb)
    (ho : OutputsNear fin val d e o p) (hs : IsBoozerSpectrum p S d.asym k b m n e') :
    IsFinBoozerSpectrum fin val o S d.asym k b m n (e' + e) := by
  have step : ∀ {a : Mat α} {c : Mat ℝ} {r : ℝ}, MatNear fin val d.nmodes d.nsb e a c → Near c k b r e' →
      ∃ x, a.rdN k b = .ok x ∧ fin x ∧ |val x - r| ≤ e' + e := by
    intro a c r h1 h2
    obtain ⟨x, y, g1, g2, g3, g4⟩ := h1 k hk b hb
    obtain ⟨z, f1, f2⟩ := h2
    rw [f1] at g2
    cases g2
    refine ⟨x, g1, g3, ?_⟩
    have := abs_sub_le (val x) y r
    linarith
  exact
    { bmnc := fun f c t x => step ho.bmnc (hs.bmnc f c t x)
      rmnc := fun f c t x => step ho.rmnc (hs.rmnc f c t x)
      zmns := fun f c t x => step ho.zmns (hs.zmns f c t x)
      numns := fun f c t x => step ho.numns (hs.numns f c t x)
      gmnc := fun f c t x => step ho.gmnc (hs.gmnc f c t x)
      bmns := fun ha f c t x => step (ho.bmns ha) (hs.bmns ha f c t x)
      rmns := fun ha f c t x => step (ho.rmns ha) (hs.rmns ha f c t x)
      zmnc := fun ha f c t x => step (ho.zmnc ha) (hs.zmnc ha f c t x)
      numnc := fun ha f c t x => step (ho.numnc ha) (hs.numnc ha f c t x)
      gmns := fun ha f c t x => step (ho.gmns ha) (hs.gmns ha f c t x) }

/-- **C73.**  Fix real data on whose selected surfaces G + ιI and |B| do not vanish, a mode (m, n) and an order `p`.
There is a constant `C`, and for every resolution (M, N) a constant `D` and a precision `u₀`, such that every machine of
precision `u ≤ u₀`, given the data rounded to within `K u` and run at this resolution, stores for the mode (m, n) finite
numbers within `C (1/ntheta^p + 1/nzeta^p) + D u` of the Fourier coefficients of |B|, R, Z, ν and the Jacobian as
functions of the Boozer angles. -/
theorem C73_spectrum {s₀ : St ℝ} {d : Dims} (h : RunReady s₀.inp d) (hp : FieldPeriodic s₀.inp d.nfp)
    (ho : OriginOnce s₀.inp) (hreg : ∀ b < d.nsb, (surface s₀.inp d.asym (selected s₀.inp b)).Regular)
    (m n : ℤ) {p : ℕ} (hp1 : 1 ≤ p) :
    ∃ C, ∀ M N : ℕ, RunReady { s₀.inp with mboz := M, nboz := N } { d with M := M, N := N } → ∀ K : ℝ, 0 ≤ K →
      ∃ D u₀, 0 < u₀ ∧
        ∀ (α : Type) [Arith α] (fin : α → Prop) (val : α → ℝ) (u : ℝ), Precision α fin val u → u ≤ u₀ →
        ∀ s : St α, RunReady s.inp { d with M := M, N := N } →
          InputsNear fin val { d with M := M, N := N } (K * u) s.inp s₀.inp →
          ∃ s' r, run false s = .ok (s', r) ∧ ∀ b < d.nsb, ∀ k < numModes M N,
            s'.out.xm_b.rdN k = .ok m → s'.out.xn_b.rdN k = .ok n →
            IsFinBoozerSpectrum fin val s'.out (surface s₀.inp d.asym (selected s₀.inp b)) d.asym k b m n
              (C * gridError M N p + D * u) := by
  obtain ⟨C, -, H⟩ := C67_outputs h hp ho hreg m n hp1
  refine ⟨C, fun M N hr K hK => ?_⟩
  obtain ⟨D, u₀, h0, G⟩ := C69_rounding (s₀ := { s₀ with inp := { s₀.inp with mboz := M, nboz := N } })
    (d := { d with M := M, N := N }) hr hp ho hreg hK
  refine ⟨D, u₀, h0, fun α _ fin val u hu hle s hs hn => ?_⟩
  obtain ⟨s', r, t, q, h1, h2, h3⟩ := G α fin val u hu hle s hs { hn with }
  obtain ⟨t', q', h4, h5⟩ := H M N { s₀ with inp := { s₀.inp with mboz := M, nboz := N } } false rfl hr
  rw [h2] at h4
  cases h4
  refine ⟨s', r, h1, fun b hb k hk hm hn' => ?_⟩
  exact spectrum_of_near (d := { d with M := M, N := N }) hk hb h3
    (h5 b hb k hk (by rw [← h3.xm_b]; exact hm) (by rw [← h3.xn_b]; exact hn'))

/-- **C73, from VMEC data.**  The same after loading: real VMEC data `A₀` are accepted by `init_from_vmec`, surfaces are
chosen; a machine that is given the data rounded to within `K u`, loads them and runs at the resolution (M, N) stores
finite numbers within `C (1/ntheta^p + 1/nzeta^p) + D u` of the Fourier coefficients in Boozer angles on the surfaces
described by the exactly interpolated data. -/
theorem C73_load_spectrum {ns : ℤ} {A₀ : VmecArgs ℝ} {s₀ s₀' : St ℝ} {z : Sizes} (hg : Given A₀ s₀.inp z)
    (h : initFromVmec ns A₀ s₀ = .ok () s₀') {S : Vec ℤ} {M₀ N₀ v : ℤ} {d : Dims}
    (hr : RunReady (settings S M₀ N₀ v s₀').inp d) (hp : FieldPeriodic s₀'.inp d.nfp) (ho : OriginOnce s₀'.inp)
    (hreg : ∀ b < d.nsb, (surface s₀'.inp d.asym (S.val 0 b).toNat).Regular) (m n : ℤ) {p : ℕ} (hp1 : 1 ≤ p) :
    ∃ C, ∀ M N : ℕ, RunReady (settings S M N v s₀').inp { d with M := M, N := N } → ∀ K : ℝ, 0 ≤ K →
      ∃ D u₀, 0 < u₀ ∧
        ∀ (α : Type) [Arith α] (fin : α → Prop) (val : α → ℝ) (u : ℝ), Precision α fin val u → u ≤ u₀ →
        ∀ (A : VmecArgs α) (s s' : St α), Given A s.inp z → SameModes s.inp s₀.inp →
          ArgsNear fin val ns z (K * u) A A₀ → initFromVmec ns A s = .ok () s' →
          ∃ t r, run false (settings S M N v s') = .ok (t, r) ∧ ∀ b < d.nsb, ∀ k < numModes M N,
            t.out.xm_b.rdN k = .ok m → t.out.xn_b.rdN k = .ok n →
            IsFinBoozerSpectrum fin val t.out (surface s₀'.inp d.asym (S.val 0 b).toNat) d.asym k b m n
              (C * gridError M N p + D * u) := by
  obtain ⟨C, H⟩ := C73_spectrum (s₀ := settings S M₀ N₀ v s₀') hr hp ho hreg m n hp1
  refine ⟨C, fun M N hr' K hK => ?_⟩
  obtain ⟨E, u₀, c, p0, L⟩ := C71_load hg h hK
  obtain ⟨D, v₀, q, G⟩ := H M N hr' E c
  refine ⟨D, min u₀ v₀, lt_min p0 q, fun α _ fin val u hu hle A s s' hg' hm near h' => ?_⟩
  obtain ⟨r1, r2, r3, r4, r5⟩ := ready_loaded hg h hg' h' hm hr'
  have := L α fin val u hu (hle.trans (min_le_left _ _)) A s s' hg' hm near h' { d with M := M, N := N } r2 r3 r4 r5
  exact G α fin val u hu (hle.trans (min_le_right _ _)) (settings S M N v s') r1 { this with surfs := rfl }

/-- The example: harmonic (1, -2) at every resolution, on machines with more and more bits. -/
example (asym : Bool) : ∃ C, ∀ M N : ℕ, 1 ≤ M → (4 * M + 2) * (4 * N + 2) < 2 ^ 30 → ∃ D p₀, ∀ p ≥ p₀, ∃ s' r,
    run false ({ Ex.st asym with
      inp := Ex.mapI (fun x => (⟨Ex.rnd p x⟩ : Ex.Flp p)) { (Ex.gentle asym).inp with mboz := M, nboz := N } }) =
        .ok (s', r) ∧
    ∀ b < 2, ∀ k < numModes M N, s'.out.xm_b.rdN k = .ok 1 → s'.out.xn_b.rdN k = .ok (-2) →
      IsFinBoozerSpectrum (fun _ => True) Ex.Flp.val s'.out
        (surface (Ex.gentle asym).inp asym (selected (Ex.gentle asym).inp b)) asym k b 1 (-2)
        (C * gridError M N 7 + D * (4 / 2 ^ p)) := by
  obtain ⟨C, H⟩ := C73_spectrum (s₀ := Ex.gentle asym) (d := Ex.dims asym) (Ex.gentle_ready asym)
    (Ex.fieldPeriodic (α := ℝ) asym) (Ex.originOnce (α := ℝ) asym)
    (fun b hb => Ex.gentle_regular asym (Ex.selected_lt asym b hb)) 1 (-2) (p := 7) (by omega)
  refine ⟨C, fun M N hM hf => ?_⟩
  have hr := Ex.gentle_ready_res asym hM hf
  obtain ⟨K, hK, near⟩ := Ex.mapI_near hr
  obtain ⟨D, u₀, h0, G⟩ := H M N hr K hK
  obtain ⟨p₀, hp₀⟩ := Ex.bits h0
  exact ⟨D, p₀, fun p hp => G (Ex.Flp p) (fun _ => True) Ex.Flp.val (4 / 2 ^ p) (Ex.flp_precision p) (hp₀ p hp) _
    (Ex.mapI_ready _ hr) { near p with }⟩

/-- The example loaded from VMEC data: harmonic (1, 0) on surfaces 2 and 0. -/
example : ∃ C, ∃ D p₀, ∀ p ≥ p₀, ∃ s' t r,
    initFromVmec 4 (Ex.vmec (α := Ex.Flp p)) (Ex.vst false) = .ok () s' ∧
      run false (settings (Ex.vec [2, 0]) 2 1 0 s') = .ok (t, r) ∧
      ∃ s₀', initFromVmec 4 (Ex.vmec (α := ℝ)) (Ex.vst false) = .ok () s₀' ∧
      ∀ b < 2, ∀ k < 5, t.out.xm_b.rdN k = .ok 1 → t.out.xn_b.rdN k = .ok 0 →
        IsFinBoozerSpectrum (fun _ => True) Ex.Flp.val t.out
          (surface s₀'.inp false ((Ex.vec [(2 : ℤ), 0]).val 0 b).toNat) false k b 1 0
          (C * gridError 2 1 3 + D * (4 / 2 ^ p)) := by
  obtain ⟨s₀', h₀⟩ := Ex.loads (α := ℝ) false
  have e := vmec_result (Ex.given false) h₀
  have e5 : s₀'.inp.xm_nyq = Ex.vec [0, 0, 1, 2] := by subst e; rfl
  have e6 : s₀'.inp.xn_nyq = Ex.vec [0, 2, 0, 2] := by subst e; rfl
  have e7 : s₀'.inp.xn = Ex.vec [0, 2, 2] := by subst e; rfl
  have hs : ∀ b < 2, ((Ex.vec [(2 : ℤ), 0]).val 0 b).toNat < 3 := by decide
  have hp : FieldPeriodic s₀'.inp 2 := by
    unfold FieldPeriodic
    rw [e6, e7]
    decide
  have ho : OriginOnce s₀'.inp := by
    unfold OriginOnce
    rw [e5, e6]
    decide
  obtain ⟨C, H⟩ := C73_load_spectrum (Ex.given (α := ℝ) false) h₀ (d := Ex.ldims) (Ex.loaded_ready h₀) hp ho
    (fun b hb => Ex.loaded_regular h₀ (hs b hb)) 1 0 (p := 3) (by omega)
  obtain ⟨D, u₀, h0, G⟩ := H 2 1 (Ex.loaded_ready h₀) 100 (by norm_num)
  obtain ⟨p₀, hp₀⟩ := Ex.bits h0
  refine ⟨C, D, p₀, fun p hp => ?_⟩
  obtain ⟨s', h'⟩ := Ex.loads (α := Ex.Flp p) false
  obtain ⟨t, r, k1, k2⟩ := G (Ex.Flp p) _ Ex.Flp.val (4 / 2 ^ p) (Ex.flp_precision p) (hp₀ p hp) Ex.vmec
    (Ex.vst false) s' (Ex.given false) (Ex.sameModes _ false) (Ex.args_near false p) h'
  exact ⟨s', t, r, h', k1, s₀', h₀, k2⟩

end Booz
