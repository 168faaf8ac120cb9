import Verif.Lemmas.StableReport
import Verif.Props.Report
import Verif.Props.RunRounding
import Verif.Props.Uniform

/-!
# C90: the accuracy report in rounded arithmetic
-/

namespace Booz
open Spec

/-- **C90.**  Fix real data on whose selected surfaces G + ιI does not vanish and |B| is positive.  There are a
constant `C` and a precision `u₀ > 0` such that every machine of precision `u ≤ u₀`, given these data rounded to
within `K u`, prints a report with one entry per selected surface, whose numbers are finite and within `C u` of
those of the report in exact arithmetic. -/
theorem C90_report {s₀ : St ℝ} {d : Dims} (h : RunReady s₀.inp d) (hp : FieldPeriodic s₀.inp d.nfp)
    (ho : OriginOnce s₀.inp) (hreg : ∀ b < d.nsb, (surface s₀.inp d.asym (selected s₀.inp b)).Regular)
    (hB : ∀ b < d.nsb, ∀ θ ζ, 0 < (surface s₀.inp d.asym (selected s₀.inp b)).B θ ζ) (hv₀ : 0 < s₀.inp.verbose)
    {K : ℝ} (hK : 0 ≤ K) :
    ∃ C u₀, 0 < u₀ ∧ ∀ (α : Type) [Arith α] (fin : α → Prop) (val : α → ℝ) (u : ℝ), Precision α fin val u →
      Compares α fin val → u ≤ u₀ → ∀ s : St α, RunReady s.inp d → InputsNear fin val d (K * u) s.inp s₀.inp →
        0 < s.inp.verbose →
        ∃ s' r s₀' r₀, run false s = .ok (s', r) ∧ run false s₀ = .ok (s₀', r₀) ∧
          r.length = d.nsb ∧ r₀.length = d.nsb ∧
          ∀ b < d.nsb, ∃ x y, r[b]? = some x ∧ r₀[b]? = some y ∧ ReportNear fin val (C * u) x y := by
  obtain ⟨C, u₀, -, p, H⟩ := reports_near h hK
    (fun b hb => by rw [gi_real h ho]; exact (hreg b hb).1)
    (fun b hb c _ => by unfold chkV; rw [bP_real h hp]; exact hB b hb _ _)
  refine ⟨C, u₀, p, fun α _ fin val u hu hc hle s hs hn hv => ?_⟩
  refine ⟨_, _, _, _, run_ok hs (by simp) (by simp), run_ok h (by simp) (by simp), ?_, ?_, fun b hb => ?_⟩
  · unfold runReports; rw [if_pos hv]; simp
  · unfold runReports; rw [if_pos hv₀]; simp
  refine ⟨runReport s.inp d b, runReport s₀.inp d b, ?_, ?_, ?_⟩
  · unfold runReports; rw [if_pos hv]; simp [hb]
  · unfold runReports; rw [if_pos hv₀]; simp [hb]
  exact H ⟨⟨⟨α, inferInstance, fin, val, u, hu⟩, s.inp, hs, hn⟩, hc⟩ hle b hb

/-- **C90, what the printed numbers mean.**  On such a machine the printed values of |B| are those of the input
field at the four check points up to `C u`; and where the exact output harmonics reconstruct the surface within
`E` and |B| is at least `β > 0`, no printed error exceeds `E / β + C u`. -/
theorem C90_meaning {s₀ : St ℝ} {d : Dims} (h : RunReady s₀.inp d) (hp : FieldPeriodic s₀.inp d.nfp)
    (ho : OriginOnce s₀.inp) (hreg : ∀ b < d.nsb, (surface s₀.inp d.asym (selected s₀.inp b)).Regular)
    (hB : ∀ b < d.nsb, ∀ θ ζ, 0 < (surface s₀.inp d.asym (selected s₀.inp b)).B θ ζ) (hv₀ : 0 < s₀.inp.verbose)
    {K : ℝ} (hK : 0 ≤ K) :
    ∃ C u₀, 0 < u₀ ∧ ∀ (α : Type) [Arith α] (fin : α → Prop) (val : α → ℝ) (u : ℝ), Precision α fin val u →
      Compares α fin val → u ≤ u₀ → ∀ s : St α, RunReady s.inp d → InputsNear fin val d (K * u) s.inp s₀.inp →
        0 < s.inp.verbose →
        ∃ s' r s₀' r₀, run false s = .ok (s', r) ∧ run false s₀ = .ok (s₀', r₀) ∧ r.length = d.nsb ∧
          ∀ b < d.nsb, ∃ rep, r[b]? = some rep ∧ rep.js_b = b ∧ rep.js = selected s₀.inp b ∧
            let S := surface s₀.inp d.asym (selected s₀.inp b)
            ∀ c < 4, ∃ v x e, rep.vmec.rdN c = .ok v ∧ rep.boozer.rdN c = .ok x ∧ rep.err.rdN c = .ok e ∧
              fin v ∧ fin x ∧ fin e ∧
              |val v - S.B (checkTheta c) (checkZeta d.N d.nfp c)| ≤ C * u ∧
              |val x - outputB s₀'.out d.asym b (S.thetaB (checkTheta c) (checkZeta d.N d.nfp c))
                (S.zetaB (checkTheta c) (checkZeta d.N d.nfp c))| ≤ C * u ∧
              ∀ E β : ℝ, 0 < β → (∀ θ ζ, β ≤ S.B θ ζ) →
                Reconstructs s₀'.out S d.asym (numModes d.M d.N) b d.M (d.N * d.nfp) E →
                val e ≤ E / β + C * u := by
  obtain ⟨C, u₀, p, H⟩ := C90_report h hp ho hreg hB hv₀ hK
  refine ⟨C, u₀, p, fun α _ fin val u hu hc hle s hs hn hv => ?_⟩
  obtain ⟨s', r, s₀', r₀, e1, e2, l1, -, near⟩ := H α fin val u hu hc hle s hs hn hv
  obtain ⟨t, q, e3, -, h3⟩ := C30_report (dbg := false) h hp ho hreg hv₀
  obtain ⟨t', q', e4, -, h4⟩ := C74_report (dbg := false) h hp ho hreg hv₀
  obtain ⟨rfl, rfl⟩ := Prod.mk.inj (Except.ok.inj (e2.symm.trans e3))
  obtain ⟨rfl, rfl⟩ := Prod.mk.inj (Except.ok.inj (e2.symm.trans e4))
  refine ⟨s', r, _, _, e1, e2, l1, fun b hb => ?_⟩
  obtain ⟨x, y, g1, g2, n⟩ := near b hb
  obtain ⟨y', g3, k1, k2, k3⟩ := h3 b hb
  obtain ⟨y'', g4, k4⟩ := h4 b hb
  obtain rfl := Option.some.inj (g2.symm.trans g3)
  obtain rfl := Option.some.inj (g2.symm.trans g4)
  refine ⟨x, g1, n.js_b.trans k1, n.js.trans k2, ?_⟩
  intro S c hc
  obtain ⟨v, w, m1, m2, m3, m4⟩ := n.vmec c hc
  obtain ⟨v', w', o1, o2, o3, o4⟩ := n.boozer c hc
  obtain ⟨f, f', p1, p2, p3, p4⟩ := n.err c hc
  obtain ⟨z, z', j1, j2, -, j3, j4⟩ := k3 c hc
  obtain rfl := Except.ok.inj (m2.symm.trans j1)
  obtain rfl := Except.ok.inj (o2.symm.trans j2)
  refine ⟨v, v', f, m1, o1, p1, m3, o3, p3, ?_, ?_, ?_⟩
  · rw [← j3]; exact m4
  · rw [← j4]; exact o4
  · intro E β hβ hle hrec
    obtain ⟨e, q1, q2⟩ := k4 E β hβ hle hrec c hc
    obtain rfl := Except.ok.inj (p2.symm.trans q1)
    have := (abs_le.1 p4).2
    linarith

/-! ### Non-vacuity: floating-point numbers with `p` bits and the example data -/

theorem Ex.flp_compares (p : ℕ) : Compares (Ex.Flp p) (fun _ => True) Ex.Flp.val where
  abs _ _ := ⟨trivial, rfl⟩
  max _ _ _ _ := ⟨trivial, rfl⟩

example (asym : Bool) (flux : Flux ℝ) (grid : Grid ℝ) (out : Outputs ℝ) :
    ∃ C p₀, ∀ p ≥ p₀, ∀ (fl : Flux (Ex.Flp p)) (g : Grid (Ex.Flp p)) (o : Outputs (Ex.Flp p)),
      ∃ s' r s₀' r₀,
        run false (⟨Ex.mapI (fun x => (⟨Ex.rnd p x⟩ : Ex.Flp p)) (Ex.inputs asym), fl, g, o⟩ : St (Ex.Flp p)) =
          .ok (s', r) ∧
        run false (⟨Ex.inputs asym, flux, grid, out⟩ : St ℝ) = .ok (s₀', r₀) ∧
        r.length = 2 ∧ r₀.length = 2 ∧ ∀ b < 2, ∃ x y, r[b]? = some x ∧ r₀[b]? = some y ∧
          ReportNear (fun _ => True) Ex.Flp.val (C * (4 / 2 ^ p)) x y := by
  obtain ⟨K, hK, near⟩ := Ex.mapI_near (Ex.ready (α := ℝ) asym)
  obtain ⟨C, u₀, h0, H⟩ := C90_report (s₀ := ⟨Ex.inputs asym, flux, grid, out⟩) (d := Ex.dims asym)
    (Ex.ready (α := ℝ) asym) (Ex.fieldPeriodic (α := ℝ) asym) (Ex.originOnce (α := ℝ) asym)
    (fun b hb => Ex.regular asym (Ex.selected_lt asym b hb))
    (fun b hb θ ζ => one_pos.trans_le (Ex.B_ge asym (Ex.selected_lt asym b hb) θ ζ))
    (by show (0 : ℤ) < 1; decide) hK
  obtain ⟨p₀, hp₀⟩ := exists_pow_lt_of_lt_one (show 0 < u₀ / 4 by linarith) (show (1 : ℝ) / 2 < 1 by norm_num)
  refine ⟨C, p₀, fun p hp fl g o => ?_⟩
  refine H (Ex.Flp p) (fun _ => True) Ex.Flp.val (4 / 2 ^ p) (Ex.flp_precision p) (Ex.flp_compares p) ?_ _
    (Ex.mapI_ready _ (Ex.ready (α := ℝ) asym)) (near p) (by show (0 : ℤ) < 1; decide)
  have h1 : ((1 : ℝ) / 2) ^ p ≤ (1 / 2) ^ p₀ := pow_le_pow_of_le_one (by norm_num) (by norm_num) hp
  have h2 : (4 : ℝ) / 2 ^ p = 4 * (1 / 2) ^ p := by rw [div_pow, one_pow]; ring
  rw [h2]
  linarith

end Booz
