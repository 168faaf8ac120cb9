import Verif.Props.Session

/-!
# C56 for `wout` files: what was read can be transformed
-/

namespace Booz
open Spec
variable {α : Type} [Arith α]

/-- The mode numbers in a `wout` file respect the maxima: `mpol` and `ntor` for the first pair of lists, the last
entries of the second pair for that pair.  `read_wout` checks the first and last entries of the lists only. -/
structure Spec.FileModes (f : NcFile α) (z : WoutSizes) : Prop where
  mpol : 2 ≤ z.mpol
  xm : ∀ k < (intsOf f "xm").size, 0 ≤ (intsOf f "xm").val 0 k ∧ (intsOf f "xm").val 0 k < z.mpol
  xn : ∀ k < (intsOf f "xn").size, ((intsOf f "xn").val 0 k).natAbs < 2147483648 ∧
    (((intsOf f "xn").val 0 k).natAbs : Int) / z.nfp ≤ z.ntor
  xm_nyq_last : 1 ≤ (intsOf f "xm_nyq").val 0 (z.mnmax_nyq.toNat - 1) ∧
    FitsInt ((intsOf f "xm_nyq").val 0 (z.mnmax_nyq.toNat - 1) + 1)
  xm_nyq : ∀ k < (intsOf f "xm_nyq").size, 0 ≤ (intsOf f "xm_nyq").val 0 k ∧
    (intsOf f "xm_nyq").val 0 k ≤ (intsOf f "xm_nyq").val 0 (z.mnmax_nyq.toNat - 1)
  xn_nyq : ∀ k < (intsOf f "xn_nyq").size, (((intsOf f "xn_nyq").val 0 k).natAbs : Int) / z.nfp ≤
    ((intsOf f "xn_nyq").val 0 (z.mnmax_nyq.toNat - 1)).tdiv z.nfp
  xn_nyq_last : FitsInt (((intsOf f "xn_nyq").val 0 (z.mnmax_nyq.toNat - 1)).tdiv z.nfp + 1)

theorem fileModes_iff {f : NcFile α} {z : WoutSizes} {I : Inputs α} :
    ModesWithin (woutInp f z I) (woutSizesOf f z) ((intsOf f "xm_nyq").val 0 (z.mnmax_nyq.toNat - 1)) ↔
      FileModes f z :=
  ⟨fun h => ⟨h.mpol, h.xm, h.xn, ⟨h.mpol_nyq, h.fit_mpol_nyq⟩, h.xm_nyq, h.xn_nyq, h.fit_ntor_nyq⟩,
    fun h => ⟨h.mpol, h.xm_nyq_last.1, h.xm, h.xn, h.xm_nyq, h.xn_nyq, h.xm_nyq_last.2, h.xn_nyq_last⟩⟩

section
variable {disk : Disk α} {path : String} {f : NcFile α} {z : WoutSizes} {flux : Bool} {s b : St α}

theorem wout_read (hd : disk path = .nc f) (hz : WoutShapes f z)
    (hs : s.inp.compute_surfs.Full s.inp.compute_surfs.size) (hl : readWout disk path flux s = .ok () b) :
    Given (woutArgs f z flux) (woutInp f z s.inp) (woutSizesOf f z) ∧
    initFromVmec z.ns (woutArgs f z flux) { s with inp := woutInp f z s.inp } = .ok () b := by
  rcases readWout_cases (flux := flux) (s := s) hd hz with ⟨-, s', h⟩ | ⟨hp, h⟩
  · rw [h] at hl; cases hl
  · rw [h] at hl
    exact ⟨wout_given (I := s.inp) hz hp hs, hl⟩

/-- **C56 for files, any choice.**  After a successful `read_wout` into any object (new or used) and an assignment of
`verbose`, `mboz`, `nboz ≥ 0` and a nonempty list of surfaces, `run()` returns exactly when the mode numbers in the
file respect the maxima, `mboz ≥ 1`, the surfaces exist, and the grid sizes are representable. -/
theorem C56_read_choose_run (hd : disk path = .nc f) (hz : WoutShapes f z)
    (hs : s.inp.compute_surfs.Full s.inp.compute_surfs.size) (hl : readWout disk path flux s = .ok () b)
    (hi : ∀ k, k < (intsOf f "xn_nyq").size → ((intsOf f "xn_nyq").val 0 k).natAbs < 2147483648)
    (vb M N : Int) (hN : 0 ≤ N) {v : Vec Int} {nsb : Nat} (hv : v.Full nsb) (hn : 1 ≤ nsb) :
    (∃ r, run false { b with inp := { b.inp with
        verbose := vb
        mboz := M
        nboz := N
        compute_surfs := v } } = .ok r) ↔
      FileModes f z ∧ 1 ≤ M ∧ (∀ k, k < nsb → 0 ≤ v.val 0 k ∧ v.val 0 k < z.ns - 1) ∧
        GridFits (decide (z.lasym ≠ 0)) M.toNat N.toNat z.nfp.toNat := by
  obtain ⟨hg, h⟩ := wout_read hd hz hs hl
  rw [← fileModes_iff (I := s.inp)]
  exact C56_load_choose_run hg h (mq := (intsOf f "xm_nyq").val 0 (z.mnmax_nyq.toNat - 1)) rfl hi vb M N hN hv hn

/-- **C56 for files, default settings.**  What `read_wout` loaded can be transformed as it is exactly when the mode
numbers in the file respect the maxima and the grid sizes are representable. -/
theorem C56_read_run (hd : disk path = .nc f) (hz : WoutShapes f z)
    (hs : s.inp.compute_surfs.Full s.inp.compute_surfs.size) (hl : readWout disk path flux s = .ok () b)
    (hi : ∀ k, k < (intsOf f "xn_nyq").size → ((intsOf f "xn_nyq").val 0 k).natAbs < 2147483648) :
    (∃ r, run false b = .ok r) ↔
      FileModes f z ∧ GridFits (decide (z.lasym ≠ 0)) (6 * z.mpol).toNat (max (2 * z.ntor - 1) 0).toNat z.nfp.toNat := by
  obtain ⟨hg, h⟩ := wout_read hd hz hs hl
  rw [← fileModes_iff (I := s.inp)]
  exact C56_load_run hg h (mq := (intsOf f "xm_nyq").val 0 (z.mnmax_nyq.toNat - 1)) rfl hi

end

/-- The hypotheses are met: the example file loads into a new object, and what it loads can be transformed. -/
example : ∃ b : St α, readWout (fun _ => .nc (Ex.wout (α := α) 0)) "" false construct = .ok () b ∧
    ∃ r, run false b = .ok r := by
  obtain ⟨b, h⟩ := Ex.validWout.loads (α := α)
  refine ⟨b, h, (C56_read_run (z := Ex.woutZ 0) rfl (Ex.shapes 0)
    ⟨rfl, fun i hi => absurd hi (by simp [construct])⟩ h Ex.validWout.nyq_int).2
    ⟨fileModes_iff.1 Ex.validWout.modes, ?_⟩⟩
  show GridFits false 12 1 2
  unfold GridFits
  decide

end Booz
