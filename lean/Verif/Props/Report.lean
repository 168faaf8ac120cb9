import Verif.Props.Symmetry

/-!
# C30: the accuracy report (exact arithmetic)
-/

open Finset

namespace Booz
open Spec

/-- Poloidal angle of point `c` of the report: 0, π, 0, π. -/
noncomputable def Spec.checkTheta (c : ℕ) : ℝ := if c % 2 = 1 then Real.pi else 0
/-- Toroidal angle of point `c` of the report: 0, 0, π/nfp, π/nfp, or 0 throughout when `nboz = 0`. -/
noncomputable def Spec.checkZeta (N nfp c : ℕ) : ℝ :=
  if N = 0 then 0 else if 2 ≤ c then Real.pi / nfp else 0

/-- The |B| series held by the outputs for output surface `b`, as a function of the Boozer angles. -/
noncomputable def Spec.outputB (o : Outputs ℝ) (asym : Bool) (b : ℕ) : ℝ → ℝ → ℝ :=
  series o.xm_b.size (o.xm_b.val 0) (o.xn_b.val 0) (fun k => entry o.spec.bmnc_b k b)
    (fun k => onlyIf asym (entry o.spec.bmns_b k b))

theorem ptT_eq {c : ℕ} (hc : c < 4) : ptT c = checkTheta c := by
  have c4 : c = 0 ∨ c = 1 ∨ c = 2 ∨ c = 3 := by omega
  rcases c4 with rfl | rfl | rfl | rfl <;> simp [ptT, checkTheta]
theorem ptZ_eq (d : Dims) {c : ℕ} (hc : c < 4) : ptZ d c = checkZeta d.N d.nfp c := by
  have c4 : c = 0 ∨ c = 1 ∨ c = 2 ∨ c = 3 := by omega
  rcases c4 with rfl | rfl | rfl | rfl <;> by_cases h : d.N = 0 <;> simp [ptZ, checkZeta, h]

theorem chkS0_real (d : Dims) (c : ℕ) : (chkS0 d c : ℝ) = ofInt 0 := by
  unfold chkS0; rw [wt_real, real_ofInt]; simp

section
variable {s : St ℝ} {d : Dims}

theorem chkC_real (x : ℝ) (d : Dims) (c m : ℕ) : chkC x d c m = Real.cos (m * x) := by
  unfold chkC; rw [chkS0_real]; exact cosT_real x m
theorem chkS_real (x : ℝ) (d : Dims) (c m : ℕ) : chkS x d c m = Real.sin (m * x) := by
  unfold chkS; rw [chkS0_real]; exact sinT_real x m

/-- **C30.** With `verbose > 0` the report has one entry per selected surface, in order; its four
values of |B| are the input's at (θ, ζ) = (0,0), (π,0), (0,π/nfp), (π,π/nfp) (ζ = 0 when `nboz = 0`),
the four reconstructed values are the output series at the Boozer angles of the same points, and the
errors are their differences relative to the larger one. -/
theorem C30_report {dbg : Bool} (h : RunReady s.inp d) (hp : FieldPeriodic s.inp d.nfp)
    (ho : OriginOnce s.inp) (_hreg : ∀ b < d.nsb, (surface s.inp d.asym (selected s.inp b)).Regular)
    (hv : s.inp.verbose > 0) :
    ∃ s' rs, run dbg s = .ok (s', rs) ∧ rs.length = d.nsb ∧ ∀ b < d.nsb, ∃ rep, rs[b]? = some rep ∧
      rep.js_b = b ∧ rep.js = selected s.inp b ∧ ∀ c < 4, ∃ v x,
        rep.vmec.rdN c = .ok v ∧ rep.boozer.rdN c = .ok x ∧ rep.err.rdN c = .ok (|x - v| / max x v) ∧
        let S := surface s.inp d.asym (selected s.inp b)
        let θ := checkTheta c
        let ζ := checkZeta d.N d.nfp c
        v = S.B θ ζ ∧ x = outputB s'.out d.asym b (S.thetaB θ ζ) (S.zetaB θ ζ) := by
  refine ⟨_, _, originFirst_of h ho dbg, ?_, ?_⟩
  · unfold runReports; rw [if_pos hv]; simp
  intro b hb
  refine ⟨runReport s.inp d b, ?_, rfl, ?_, ?_⟩
  · unfold runReports; rw [if_pos hv]; simp [hb]
  · rfl
  intro c hc
  refine ⟨_, _, Vec.rdN_tab hc, Vec.rdN_tab hc, Vec.rdN_tab hc, ?_⟩
  have eT : gridT d (chkIdx d c) = checkTheta c := by rw [chk_gridT d hc, ptT_eq hc]
  have eZ : gridZ d (chkIdx d c) = checkZeta d.N d.nfp c := by rw [chk_gridZ d h.nfp_pos hc, ptZ_eq d hc]
  intro S θ ζ
  constructor
  · unfold chkV
    rw [eT, eZ]; exact bP_real h hp _ _ _
  · have hsz : (runSt d s d.nsb).out.xm_b.size = d.nmodes := Vec.size_tab _ _
    unfold chkB outputB series
    rw [acc2_real, hsz]
    apply sum_congr rfl
    intro k hk
    have hk := mem_range.mp hk
    have hm : (runSt d s d.nsb).out.xm_b.val 0 k = (modeM d.N k : ℤ) := Vec.val_tab hk
    have hn : (runSt d s d.nsb).out.xn_b.val 0 k = modeN d.N k * d.nfp := Vec.val_tab hk
    have hsp : (runSt d s d.nsb).out.spec = specTab d (outF s.inp d d.nsb) s.out.spec := rfl
    have eth : chkT s.inp d (selected s.inp b) c = S.thetaB θ ζ := by
      unfold chkT; rw [eT, eZ]; exact thB_real h hp ho _ _ _
    have eze : chkZ s.inp d (selected s.inp b) c = S.zetaB θ ζ := by
      unfold chkZ; rw [eT, eZ]; exact zeB_real h hp ho _ _ _
    have dv := dvd_mul_left (d.nfp : ℤ) (modeN d.N k)
    have eC : chkTC s.inp d (surf s.inp b) c k =
        Real.cos (((modeM d.N k : ℤ) : ℝ) * S.thetaB θ ζ - ((modeN d.N k * d.nfp : ℤ) : ℝ) * S.zetaB θ ζ) := by
      have := cos_combine h.nfp_pos dv (modeM d.N k) (S.thetaB θ ζ) (S.zetaB θ ζ)
      rw [Int.cast_natCast (modeM d.N k), ← this]
      unfold chkTC
      simp only [chkC_real, chkS_real, cosT_real, sinT_real, real_ofInt]
      rw [show surf s.inp b = selected s.inp b from rfl, eth, eze]
    have eS : chkTS s.inp d (surf s.inp b) c k =
        Real.sin (((modeM d.N k : ℤ) : ℝ) * S.thetaB θ ζ - ((modeN d.N k * d.nfp : ℤ) : ℝ) * S.zetaB θ ζ) := by
      have := sin_combine h.nfp_pos dv (modeM d.N k) (S.thetaB θ ζ) (S.zetaB θ ζ)
      rw [Int.cast_natCast (modeM d.N k), ← this]
      unfold chkTS
      simp only [chkC_real, chkS_real, cosT_real, sinT_real, real_ofInt]
      rw [show surf s.inp b = selected s.inp b from rfl, eth, eze]
    rw [eC, eS, hm, hn, hsp]
    have v1 : (specTab d (outF s.inp d d.nsb) s.out.spec).bmnc_b.val 0 k b = (outF s.inp d d.nsb).bc k b := by
      unfold specTab; split <;> exact Mat.val_tab hk hb
    show _ = (specTab d (outF s.inp d d.nsb) s.out.spec).bmnc_b.val 0 k b * _ +
      onlyIf d.asym ((specTab d (outF s.inp d d.nsb) s.out.spec).bmns_b.val 0 k b) * _
    rw [v1]
    cases ha : d.asym
    · simp only [onlyIf, Bool.false_eq_true, if_false]; ring
    · have v2 : (specTab d (outF s.inp d d.nsb) s.out.spec).bmns_b.val 0 k b =
          (outF s.inp d d.nsb).bs k b := by
        unfold specTab; rw [if_pos ha]; exact Mat.val_tab hk hb
      rw [v2]
      simp only [onlyIf, if_true]; ring

end

example (dbg asym : Bool) : ∃ s' rs, run dbg (Ex.st (α := ℝ) asym) = .ok (s', rs) ∧ rs.length = 2 := by
  obtain ⟨s', rs, h, hl, -⟩ := C30_report (dbg := dbg) (s := Ex.st asym) (d := Ex.dims asym)
    (Ex.ready asym) (Ex.fieldPeriodic asym) (Ex.originOnce asym)
    (fun b hb => Ex.regular asym (Ex.selected_lt asym b hb)) (by show (1 : ℤ) > 0; decide)
  exact ⟨s', rs, h, hl⟩

end Booz
