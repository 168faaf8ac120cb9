import Verif.Lemmas.Session
import Verif.ExamplesDriver
import Verif.Lemmas.AsymFree

/-!
# C54: safe sessions
-/

namespace Booz
variable {α : Type} [Arith α]
open Spec

/-- Without `mpol` there is no run. -/
theorem run_needs_mpol {s : St α} (h : s.inp.mpol = none) : ∃ why, run false s = ub why := by
  refine run_ub_of_not_ok fun r hr => ?_
  obtain ⟨s3, hi, -⟩ := run_inv hr
  obtain ⟨s1, s2, h1, h2, -⟩ := init_inv hi
  have e := initGrid_inp false s _ h1
  unfold initTables at h2
  obtain ⟨_, -, h2⟩ := bind_ok h2
  obtain ⟨_, h2, -⟩ := bind_ok h2
  rw [e, h] at h2
  cases h2

theorem perform_run_ub {w : Sess α} {why : String} (h : run false w.obj = ub why) :
    perform .run w = .ub why := by
  show Sess.run w = _
  unfold Sess.run
  simp only [h, ub]

/-- **C54 is false** of the code as stated: `run` on a new object, and `run` on an object that holds
the contents of a file the program wrote, are undefined behaviour (they use members that were never
assigned). -/
theorem C54_false (hneg : ∀ x : α, - - x = x) :
    (∀ disk : Disk α, ∃ why, perform .run ⟨construct, disk⟩ = .ub why) ∧
    (∃ (disk : Disk α) (v : WSt α) (s : St α) (w : Sess α),
      writeBoozmn Ex.calm "0.0.1" "boozmn.nc" disk s = .ok () v ∧
      perform (.readBoozmn "boozmn.nc") ⟨construct, v.core.disk⟩ = .ok () w ∧
      ∃ why, perform .run w = .ub why) := by
  refine ⟨fun disk => ?_, ?_⟩
  · obtain ⟨why, h⟩ := run_needs_mpol (s := (construct : St α)) rfl
    exact ⟨why, perform_run_ub h⟩
  · obtain ⟨v, t', h1, h2, -, h4, -⟩ := Ex.readAgain hneg true true (construct : St α)
    have hm : t'.inp.mpol = none := by rw [h4.inp]; rfl
    obtain ⟨why, h⟩ := run_needs_mpol hm
    refine ⟨Ex.disk0, v, _, ⟨t', v.core.disk⟩, h1, ?_, why, perform_run_ub h⟩
    show Sess.on _ _ = _
    unfold Sess.on
    rw [h2]

/-- **C54 (partial).**  In every legal session, each legal call returns or throws an exception, never
aborts and never has undefined behaviour; after each run the outputs have the sizes given by `mboz`,
`nboz` and the selection.  Exceptions come only from loading a file that lacks a selected surface and
from failures while writing.

Missing: `run` on an object whose last read was not a successful `read_wout` (`C54_false`); and a run
needs a nonempty selection of surfaces of the loaded file and representable grid sizes, which the
code does not check. -/
theorem C54_partial (hneg : ∀ x : α, - - x = x) {disk : Disk α} {h : History} {w : Sess α} {c : Call}
    (hr : Reach disk h w) (hl : Legal h w c) :
    (∃ w', perform c w = .ok () w' ∧ (c = .run → SizesAgree w'.obj)) ∨
    (∃ m w', perform c w = .exc m w' ∧ ThrowReason w c) := by
  rcases step_inv hneg (reach_inv hneg hr) hl with ⟨w', e, -, h⟩ | ⟨m, w', e, -, h⟩
  · exact .inl ⟨w', e, h⟩
  · exact .inr ⟨m, w', e, h⟩

/-! ### An example session -/

theorem Ex.validWout : ValidWout (Ex.wout (α := α) 0) (Ex.woutZ 0) false where
  shapes := Ex.shapes 0
  loads := by
    obtain ⟨b, hb⟩ := Ex.wout_loads (α := α) Ex.input
    refine ⟨b, ?_⟩
    rw [← hb]
    exact readWout_disk (Ex.world_wout Ex.input).symm _ _
  ns_fit := by decide
  nyq_int := Ex.wout_nyq
  modes := Ex.wout_within

/-- After loading the example file into a new object. -/
theorem Ex.session_load {disk : Disk α} (hd : disk "wout.nc" = .nc (Ex.wout 0)) :
    ∃ s : St α, Reach disk ⟨true, false, fun _ => false⟩ ⟨s, disk⟩ ∧
      s.inp.asym = some false ∧ s.inp.nfp = some 2 ∧ s.inp.ns_in = some 3 := by
  have l1 : Legal .start (⟨construct, disk⟩ : Sess α) (.readWout "wout.nc" false) :=
    ⟨Ex.wout 0, Ex.woutZ 0, hd, Ex.validWout, .inl (by show (1 : Int) ≤ 1; decide)⟩
  have hf : (construct : St α).inp.compute_surfs.Full (construct : St α).inp.compute_surfs.size :=
    ⟨rfl, fun i hi => absurd hi (Nat.not_lt_zero i)⟩
  rcases load_step Ex.validWout hd (construct : St α) hf (.inl (by show (1 : Int) ≤ 1; decide)) with
    ⟨s1, e1, ⟨I, -, hI, -, -, -, -, e⟩, -⟩ | ⟨m, s', -, hn, -⟩
  · have p1 : perform (.readWout "wout.nc" false) (⟨construct, disk⟩ : Sess α) = .ok () ⟨s1, disk⟩ := by
      show Sess.on _ _ = _
      unfold Sess.on
      rw [e1]
    refine ⟨s1, Reach.ok .start l1 p1, ?_, ?_, ?_⟩
    · rw [e]
      show I.asym = _
      rw [hI]
      rfl
    · rw [e]
      show I.nfp = _
      rw [hI]
      rfl
    · rw [e]
      rfl
  · exact absurd ⟨hf, fun j hj => absurd hj (Nat.not_lt_zero j)⟩ hn

/-- A run for two surfaces of the example is legal. -/
theorem Ex.session_legal {s : St α} (ha : s.inp.asym = some false) (hf : s.inp.nfp = some 2)
    (hns : s.inp.ns_in = some 3) (hm : s.inp.mboz = 4) (hn : s.inp.nboz = 1)
    (hc : s.inp.compute_surfs = #[some 1, some 0]) (h : History) (hl : h.loaded = true) (d : Disk α) :
    Legal h ⟨s, d⟩ .run := by
  refine ⟨hl, ?_, ?_, ?_⟩
  · show s.inp.compute_surfs.size ≠ 0
    rw [hc]
    decide
  · show ∀ ns, s.inp.ns_in = some ns → ∀ k, k < s.inp.compute_surfs.size →
      0 ≤ s.inp.compute_surfs.val 0 k ∧ s.inp.compute_surfs.val 0 k < ns
    rw [hns, hc]
    intro ns e k hk
    cases e
    match k, hk with
    | 0, _ => decide
    | 1, _ => decide
  · show ∀ asym nfp, s.inp.asym = some asym → s.inp.nfp = some nfp →
      GridFits asym s.inp.mboz.toNat s.inp.nboz.toNat nfp.toNat
    rw [ha, hf, hm, hn]
    intro a n e1 e2
    cases e1
    cases e2
    constructor <;> decide

/-- Load, choose surfaces and resolution, run, write. -/
theorem Ex.session (hneg : ∀ x : α, - - x = x) {disk : Disk α}
    (hd : disk "wout.nc" = .nc (Ex.wout 0)) : ∃ (h : History) (w : Sess α),
    Reach disk h w ∧ h.results = true ∧ h.loaded = true ∧ h.own "boozmn.nc" = true ∧
    w.obj.out.mnboz = some 11 ∧ w.obj.out.ns_b = some 2 ∧ Legal h w .run := by
  obtain ⟨s1, r1, ha, hf, hns⟩ := Ex.session_load hd
  have r2 := Reach.ok (c := .setSurfs [1, 0]) r1 (by show (2 : Nat) ≤ _; decide) rfl
  have r3 := Reach.ok (c := .setMboz 4) r2 (by show (1 : Int) ≤ 4; decide) rfl
  have r4 := Reach.ok (c := .setNboz 1) r3 (by show (0 : Int) ≤ 1; decide) rfl
  obtain ⟨s4, h4, r4', hl4, ha, hf, hns, hm, hn, hc⟩ : ∃ (s4 : St α) (h4 : History),
      Reach disk h4 ⟨s4, disk⟩ ∧ h4.loaded = true ∧ s4.inp.asym = some false ∧ s4.inp.nfp = some 2 ∧
      s4.inp.ns_in = some 3 ∧ s4.inp.mboz = 4 ∧ s4.inp.nboz = 1 ∧
      s4.inp.compute_surfs = #[some 1, some 0] :=
    ⟨_, _, r4, rfl, ha, hf, hns, rfl, rfl, rfl⟩
  clear r1 r2 r3 r4
  have l5 := Ex.session_legal ha hf hns hm hn hc h4 hl4 disk
  obtain ⟨s5, d, p5, es5, hrd, hnsb, hR, -, -⟩ := run_step (reach_inv hneg r4') l5
  have r5 := Reach.ok r4' l5 p5
  have ei : s5.inp = s4.inp := by rw [es5]; rfl
  have hK : d.nmodes = 11 := by
    have a : s4.inp.mboz = d.M := hrd.mboz
    have b : s4.inp.nboz = d.N := hrd.nboz
    have a' : d.M = 4 := by omega
    have b' : d.N = 1 := by omega
    unfold Dims.nmodes
    rw [a', b']
  have hB : d.nsb = 2 := by
    rw [hnsb]
    show s4.inp.compute_surfs.size = 2
    rw [hc]
    rfl
  have l6 : Legal (h4.after .run true) (⟨s5, disk⟩ : Sess α)
      (.write Ex.calm "0.0.1" "boozmn.nc") := ⟨rfl, Ex.version⟩
  rcases C54_partial hneg r5 l6 with ⟨w6, p6, -⟩ | ⟨m, w6, -, hx⟩
  · have r6 := Reach.ok r5 l6 p6
    have ho := write_obj Ex.calm "0.0.1" "boozmn.nc" disk s5
    have eo : w6.obj.out = s5.out ∧ w6.obj.inp = s5.inp := by
      have p6' : Sess.write Ex.calm "0.0.1" "boozmn.nc" (⟨s5, disk⟩ : Sess α) = .ok () w6 := p6
      unfold Sess.write at p6'
      split at p6'
      · next e =>
        cases p6'
        rw [e] at ho
        rcases ho with ho | ⟨-, ho⟩
        · exact ⟨congrArg (·.out) ho, congrArg (·.inp) ho⟩
        · exact ⟨congrArg (·.out) ho, congrArg (·.inp) ho⟩
      all_goals cases p6'
    refine ⟨_, w6, r6, rfl, hl4, by simp [History.after], ?_, ?_, ?_⟩
    · rw [eo.1, hR.mnboz, hK]; rfl
    · rw [eo.1, hR.ns_b, hB]; rfl
    · have e := eo.2.trans ei
      exact Ex.session_legal (s := w6.obj) (by rw [e]; exact ha) (by rw [e]; exact hf)
        (by rw [e]; exact hns) (by rw [e]; exact hm) (by rw [e]; exact hn) (by rw [e]; exact hc)
        _ hl4 w6.disk
  · cases hx with
    | write h => obtain ⟨k, m, e⟩ := h; cases e

/-- After that session the object can be used for another run; the outputs have the right sizes. -/
example (hneg : ∀ x : α, - - x = x) {disk : Disk α} (hd : disk "wout.nc" = .nc (Ex.wout 0)) :
    ∃ (h : History) (w w' : Sess α), Reach disk h w ∧
    Legal h w .run ∧ perform .run w = .ok () w' ∧ SizesAgree w'.obj := by
  obtain ⟨h, w, hr, -, -, -, -, -, hl⟩ := Ex.session hneg hd
  rcases C54_partial hneg hr hl with ⟨w', e, hs⟩ | ⟨m, w', -, hx⟩
  · exact ⟨h, w, w', hr, hl, e, hs rfl⟩
  · cases hx

/-- Reading the file just written returns, and writing a copy is then legal. -/
example (hneg : ∀ x : α, - - x = x) {disk : Disk α} (hd : disk "wout.nc" = .nc (Ex.wout 0)) :
    ∃ (h : History) (w w' : Sess α), Reach disk h w ∧
    perform (.readBoozmn "boozmn.nc") w = .ok () w' ∧
    Legal (h.after (.readBoozmn "boozmn.nc") true) w' (.write Ex.calm "0.0.1" "copy.nc") := by
  obtain ⟨h, w, hr, -, -, ho, -⟩ := Ex.session hneg hd
  rcases C54_partial (c := .readBoozmn "boozmn.nc") hneg hr ho with ⟨w', e, -⟩ | ⟨m, w', -, hx⟩
  · exact ⟨h, w, w', hr, e, rfl, Ex.version⟩
  · cases hx

end Booz
