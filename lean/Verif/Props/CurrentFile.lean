import Verif.Props.LineFile

/-!
# C107: currents from the numbers of a `boozmn` file
-/

namespace Booz
open Spec Matrix Set

/-- **C107, from the file.**  Let the data of a surface of the equilibrium in a `wout` file describe a magnetic field in space as
in C99, with a smooth surface; the surface need not be one of those asked for.  If the numbers of the `wout` file on the disk
of any machine are within `e` of these, then for every request that can be carried out, at any resolution, the `boozmn` file left
by `xbooz_xform` has numbers I, G for the surface in `buco_b` and `bvco_b` such that the circulation of the field along every
closed curve on the surface is `2π (k I + l G)` up to `2π (|k| + |l|) e`: the transformation adds no error. -/
theorem C107_file {disk₀ : Disk ℝ} {path₀ : String} {f₀ : NcFile ℝ} {z : WoutSizes} {b₀ : St ℝ}
    (hd₀ : disk₀ path₀ = .nc f₀) (hz₀ : WoutShapes f₀ z) (hl₀ : readWout disk₀ path₀ false construct = .ok () b₀)
    (hi : ∀ k, k < (intsOf f₀ "xn_nyq").size → ((intsOf f₀ "xn_nyq").val 0 k).natAbs < 2147483648)
    (hns : z.ns ≤ 2147483644)
    (hfp : FieldPeriodic b₀.inp z.nfp.toNat) (ho : OriginOnce b₀.inp) {js : ℕ} (hjs : (js : ℤ) < z.ns - 1)
    (hreg : (surface b₀.inp (decide (z.lasym ≠ 0)) js).Regular) (hrc : NoRadialCurrent b₀.inp (decide (z.lasym ≠ 0)) js)
    {x : ℝ → ℝ → ℝ → V3} {lam : ℝ → ℝ → ℝ → ℝ} {ψ₀ : ℝ} {B : ℝ → ℝ → V3}
    (hf : IsField (surface b₀.inp (decide (z.lasym ≠ 0)) js) (bTheta b₀.inp (decide (z.lasym ≠ 0)) js)
      (bZeta b₀.inp (decide (z.lasym ≠ 0)) js) x lam ψ₀ B) (hx : SurfaceSmooth x ψ₀)
    {r : Request} (hc : CanRun f₀ z r) (hlen : r.surfs.length ≤ 2147483644)
    {α : Type} [Arith α] {fin : α → Prop} {val : α → ℝ} {e : ℝ}
    {w : World α} {content : List Char} {path prog : String} {env : Env} {version : String} {f : NcFile α}
    (hp : w.disk path = .other content) (ha : Asks content r)
    (hd : w.disk ("wout_" ++ String.ofList r.ext ++ ".nc") = .nc f) (hz : WoutShapes f z) (hn : WoutNear fin val z e f f₀)
    (hv : VersionOk version) (he : NoFailure env) :
    ∃ w' out I G, driver env version [prog, path] w = .ok 0 w' ∧
      w'.disk ("boozmn_" ++ String.ofList r.ext ++ ".nc") = .nc out ∧
      FileProfile fin val out "buco_b" (js + 1) I ∧ FileProfile fin val out "bvco_b" (js + 1) G ∧
      ∀ (θ ζ : ℝ → ℝ) (k l : ℤ), IsLoop θ ζ k l →
        |circulation x ψ₀ B θ ζ - 2 * Real.pi * (k * I + l * G)| ≤ 2 * Real.pi * (|(k : ℝ)| + |(l : ℝ)|) * e := by
  obtain ⟨hg₀, hl₀'⟩ := wout_loaded hd₀ hz₀ hl₀
  obtain ⟨-, -, C₀, -⟩ := vmec_inv hg₀ hl₀'
  have hns2 : 2 ≤ z.ns := C₀.ns_ge
  -- the field
  have circ : ∀ (θ ζ : ℝ → ℝ) (k l : ℤ), IsLoop θ ζ k l → circulation x ψ₀ B θ ζ =
      2 * Real.pi * (k * entry b₀.inp.bsubumnc 0 js + l * entry b₀.inp.bsubvmnc 0 js) := by
    intro θ ζ k l hl
    let r₂ : Request := { r with surfs := [] }
    have hc₂ : CanRun f₀ z r₂ := ⟨hc.1, fun j hj => absurd hj (by simp [r₂]), hc.2.2⟩
    obtain ⟨q, hS, hl1, -, hmem⟩ := wantedVec_full (r := r₂) hns2
    have hr₂ := requested_ready hg₀ hl₀' hi hc₂ hS hl1
    obtain ⟨b, hb, eq⟩ := List.mem_iff_getElem.1 ((hmem js).2 (.inr ⟨rfl, by omega, hjs⟩))
    have hsel : (wantedVec z r₂).val 0 b = js := by rw [hS, val_list hb, eq]
    have esel : selected (settings (wantedVec z r₂) (polRes z r₂) (torRes z r₂) 1 b₀).inp b = js := by
      show ((wantedVec z r₂).val 0 b).toNat = _
      rw [hsel]
      exact Int.toNat_natCast js
    have := circulation_eq (s := settings (wantedVec z r₂) (polRes z r₂) (torRes z r₂) 1 b₀) hr₂ hfp ho (b := b) hb
      (by rw [esel]; exact hrc) (by rw [esel]; exact hreg) (by rw [esel]; exact hf) hx hl
    rw [esel] at this
    exact this
  -- the machine
  obtain ⟨l, hS, hl1, hl2, hmem⟩ := wantedVec_full (r := r) hns2
  have hr := requested_ready hg₀ hl₀' hi hc hS hl1
  obtain ⟨b, hb⟩ := loads_near hd₀ hz₀ hl₀ hd hz hn
  obtain ⟨hg, hl⟩ := wout_loaded hd hz hb
  have hx := hn.modes "xn_nyq" (by simp)
  obtain ⟨w', hw'⟩ := (C43_exact (prog := prog) hp ha hd hz hb (by rw [hx]; exact hi) hv he hlen
    hns).1.2 ((canRun_near hn r).2 hc)
  obtain ⟨b1, t, rep, v, k1, k2, k3, k4⟩ := driver_inv hp ha hw'
  cases (show Out.ok () b1 = Out.ok () b from k1.symm.trans hb)
  have hmp := hc.1.mpol
  have e0 : (woutSizesOf f₀ z).mpol = z.mpol := rfl
  obtain ⟨e1, e2⟩ := res_eq (z := z) (r := r) (by omega)
  rw [requested_settings r hg hl, ← e1, ← e2] at k2
  rw [woutSizes_near hn] at hg
  have R := (ready_loaded hg₀ hl₀' hg hl (sameModes_near hn) hr).1
  have hflux : FluxOk (settings (wantedVec z r) (polRes z r) (torRes z r) 1 b).flux (z.ns - 1).toNat := by
    rw [vmec_result hg hl]
    exact .inl rfl
  have HR := run_hasResults R hl1 (by show l.length ≤ _; omega) (by show (z.ns - 1).toNat + 1 ≤ _; omega) hflux
  rw [← (run_false R k2).1] at HR
  obtain ⟨out, o1, o2⟩ := C34_layout HR hv k3
  have lb : b.inp = loadedInp z.ns (woutArgs f z false) (woutInp f z (construct : St α).inp) (woutSizesOf f₀ z) := by
    rw [vmec_result hg hl]
    rfl
  have lb₀ : b₀.inp = loadedInp z.ns (woutArgs f₀ z false) (woutInp f₀ z (construct : St ℝ).inp) (woutSizesOf f₀ z) := by
    rw [vmec_result hg₀ hl₀']
    rfl
  have ho' : OriginOnce (settings (wantedVec z r) (polRes z r) (torRes z r) 1 b).inp := by
    have hm := sameModes_near hn
    have e1 : b.inp.xm_nyq = b₀.inp.xm_nyq := by rw [lb, lb₀]; exact hm.xm_nyq
    have e2 : b.inp.xn_nyq = b₀.inp.xn_nyq := by rw [lb, lb₀]; exact hm.xn_nyq
    show OriginOnce b.inp
    unfold OriginOnce at ho ⊢
    rw [e1, e2]
    exact ho
  have hlt : js < (z.ns - 1).toNat := by omega
  obtain ⟨-, -, -, -, hIG, -⟩ := C15_flux_functions R ho' k2
  obtain ⟨hI, hG⟩ := hIG js hlt
  have near := argsNear_near hz hn
  have m := hz.mnmax_nyq_pos.1
  have prof : ∀ {a : Vec α} {name : String} {y : α}, HoldsShifted out (z.ns - 1).toNat name (ofInt 0) a → a.rdN js = .ok y →
      fin y → FileProfile fin val out name (js + 1) (val y) := by
    rintro a name y ⟨v, c, h1, h2, h3, -, -, h4⟩ hy hfin
    refine ⟨v, c, y, h1, h2, h3, ?_, hfin, rfl⟩
    rw [h4 js hlt]
    unfold Vec.rdN at hy
    split at hy
    · rename_i y hy'
      cases hy
      exact hy'
    · cases hy
    · cases hy
  have shift : ∀ {A : Mat α} {A₀ : Mat ℝ}, MatNear fin val z.mnmax_nyq.toNat z.ns.toNat e A A₀ → ∃ y,
      (shiftMat z.mnmax_nyq.toNat (z.ns - 1).toNat A).rdN 0 js = .ok y ∧ fin y ∧
      |val y - entry (shiftMat z.mnmax_nyq.toNat (z.ns - 1).toNat A₀) 0 js| ≤ e := by
    intro A A₀ h
    obtain ⟨y, y₀, h1, h2, h3, h4⟩ := h 0 (by omega) (js + 1) (by omega)
    refine ⟨y, ?_, h3, ?_⟩
    · unfold shiftMat ev
      rw [Mat.rdN_tab (by omega) hlt, Mat.val_of_rdN _ h1]
    · unfold entry shiftMat ev
      rw [Mat.val_tab (by omega) hlt, Mat.val_of_rdN _ h2]
      exact h4
  obtain ⟨I, i1, i2, i3⟩ := shift near.bsubumnc
  obtain ⟨G, g1, g2, g3⟩ := shift near.bsubvmnc
  have eI : t.out.boozer_I_all.rdN js = .ok I := by
    rw [hI]
    show b.inp.bsubumnc.rdN 0 js = _
    rw [lb]
    exact i1
  have eG : t.out.boozer_G_all.rdN js = .ok G := by
    rw [hG]
    show b.inp.bsubvmnc.rdN 0 js = _
    rw [lb]
    exact g1
  refine ⟨w', out, val I, val G, hw', by rw [k4]; exact o1, prof o2.buco_b eI i2, prof o2.bvco_b eG g2, fun θ ζ k l hloop => ?_⟩
  rw [circ θ ζ k l hloop, lb₀]
  change |2 * Real.pi * (k * entry (shiftMat z.mnmax_nyq.toNat (z.ns - 1).toNat (woutArgs f₀ z false).bsubumnc) 0 js +
    l * entry (shiftMat z.mnmax_nyq.toNat (z.ns - 1).toNat (woutArgs f₀ z false).bsubvmnc) 0 js) - _| ≤ _
  generalize entry (shiftMat z.mnmax_nyq.toNat (z.ns - 1).toNat (woutArgs f₀ z false).bsubumnc) 0 js = I₀ at i3 ⊢
  generalize entry (shiftMat z.mnmax_nyq.toNat (z.ns - 1).toNat (woutArgs f₀ z false).bsubvmnc) 0 js = G₀ at g3 ⊢
  have e3 : 2 * Real.pi * ((k : ℝ) * I₀ + l * G₀) - 2 * Real.pi * (k * val I + l * val G) =
      -(2 * Real.pi) * (k * (val I - I₀) + l * (val G - G₀)) := by ring
  rw [e3, abs_mul, abs_neg, abs_of_pos (by positivity : 0 < 2 * Real.pi), mul_assoc (2 * Real.pi)]
  refine mul_le_mul_of_nonneg_left ((abs_add_le _ _).trans ?_) (by positivity)
  rw [abs_mul, abs_mul, add_mul]
  exact add_le_add (mul_le_mul_of_nonneg_left i3 (abs_nonneg _)) (mul_le_mul_of_nonneg_left g3 (abs_nonneg _))

/-- C107 for the file whose first surface is a cylinder: on the machine with `p` bits, any curve. -/
example (p : ℕ) : ∃ w' out I G,
    driver Ex.calm "0.0.1" ["xbooz_xform", "in"] (Ex.evenWorld (α := Ex.Flp p) Ex.input) = .ok 0 w' ∧
    w'.disk ("boozmn_" ++ String.ofList ['x'] ++ ".nc") = .nc out ∧
    FileProfile (fun _ => True) Ex.Flp.val out "buco_b" 1 I ∧ FileProfile (fun _ => True) Ex.Flp.val out "bvco_b" 1 G ∧
    |circulation Ex.evenX 0 Ex.evenField (fun t => t * (2 * Real.pi)) (fun t => t * (4 * Real.pi)) -
      2 * Real.pi * ((1 : ℤ) * I + (2 : ℤ) * G)| ≤ 2 * Real.pi * (|((1 : ℤ) : ℝ)| + |((2 : ℤ) : ℝ)|) * (100 * (4 / 2 ^ p)) := by
  obtain ⟨b₀, h₀⟩ := Ex.even_loads (α := ℝ) Ex.input
  have s := Ex.evened h₀
  obtain ⟨hp, ho, hreg, -, -⟩ := Ex.evened_ok s
  have hi : ∀ k, k < (intsOf (Ex.even (α := ℝ)) "xn_nyq").size →
      ((intsOf (Ex.even (α := ℝ)) "xn_nyq").val 0 k).natAbs < 2147483648 := by
    rw [Ex.even_ints (by decide), Ex.soft_ints (by decide)]
    exact Ex.wout_nyq
  obtain ⟨w', out, I, G, g1, g2, g3, g4, g5⟩ := C107_file (Ex.evenWorld_wout _) Ex.even_shapes h₀ hi (by decide) hp ho
    (js := 0) (by decide) (hreg 0 (by decide)) (Ex.even_noCurrent s) (Ex.even_field s) Ex.even_smooth (r := Ex.request)
    Ex.even_can_run (by decide) (w := Ex.evenWorld (α := Ex.Flp p) Ex.input) (prog := "xbooz_xform") (Ex.evenWorld_in _)
    Ex.input_asks (Ex.evenWorld_wout _) Ex.even_shapes (Ex.even_near p) Ex.version Ex.noFailure
  exact ⟨w', out, I, G, g1, g2, g3, g4, g5 _ _ _ _ Ex.helix⟩

end Booz
