import Verif.Props.LineRounding

/-!
# C108: integrals along field lines from the numbers of a `boozmn` file
-/

namespace Booz
open Spec Matrix Set

/-- **C108, from the file.**  In the situation of `C110_file`, let the data of a surface asked for describe a magnetic field in
space as in C99, with a smooth surface, and let `F` be continuously differentiable.  If the errors are small
enough, `xbooz_xform` leaves a `boozmn` file that has this surface, and the integrals along field lines which are computed from
the numbers in it (harmonics of |B|, ι, I, G) are off by at most `(C / mboz^p + D u) (1 + |Δζ_B|) |Δζ_B|`. -/
theorem C108_file {disk₀ : Disk ℝ} {path₀ : String} {f₀ : NcFile ℝ} {z : WoutSizes} {b₀ : St ℝ}
    (hd₀ : disk₀ path₀ = .nc f₀) (hz₀ : WoutShapes f₀ z) (hl₀ : readWout disk₀ path₀ false construct = .ok () b₀)
    (hi : ∀ k, k < (intsOf f₀ "xn_nyq").size → ((intsOf f₀ "xn_nyq").val 0 k).natAbs < 2147483648)
    (hns : z.ns ≤ 2147483644)
    (hfp : FieldPeriodic b₀.inp z.nfp.toNat) (ho : OriginOnce b₀.inp)
    (hreg : ∀ js : ℕ, (js : ℤ) < z.ns - 1 → (surface b₀.inp (decide (z.lasym ≠ 0)) js).Regular)
    (hdet : ∀ js : ℕ, (js : ℤ) < z.ns - 1 → ∀ θ ζ, (surface b₀.inp (decide (z.lasym ≠ 0)) js).det θ ζ ≠ 0)
    {r₁ : Request} (hc₁ : CanRun f₀ z r₁) (hlen : r₁.surfs.length ≤ 2147483644) {js : ℕ} (hw : Wanted z r₁ js)
    (hrc : NoRadialCurrent b₀.inp (decide (z.lasym ≠ 0)) js)
    {x : ℝ → ℝ → ℝ → V3} {lam : ℝ → ℝ → ℝ → ℝ} {ψ₀ : ℝ} {B : ℝ → ℝ → V3}
    (hf : IsField (surface b₀.inp (decide (z.lasym ≠ 0)) js) (bTheta b₀.inp (decide (z.lasym ≠ 0)) js)
      (bZeta b₀.inp (decide (z.lasym ≠ 0)) js) x lam ψ₀ B) (hx : SurfaceSmooth x ψ₀)
    {F : ℝ → ℝ} (hF : ContDiffOn ℝ 1 F (Ioi 0)) {c : ℝ} (hc0 : 0 ≤ c) {ρ : ℝ} (hρ : ρ < 1) (p : ℕ) :
    let S := surface b₀.inp (decide (z.lasym ≠ 0)) js
    ∃ C η : ℝ, 0 < η ∧ ∀ r : Request, r.surfs = r₁.surfs → CanRun f₀ z r → C * (1 / (polRes z r : ℝ)) ^ p ≤ η → 1 ≤ torRes z r →
      (polRes z r : ℝ) ≤ c * torRes z r → (torRes z r : ℝ) ≤ c * polRes z r →
      S.ResolvedBy z.nfp.toNat (polRes z r) (torRes z r) ρ → ∀ K : ℝ, 0 ≤ K → ∃ D u₀, 0 < u₀ ∧
      ∀ (α : Type) [Arith α] (fin : α → Prop) (val : α → ℝ) (u : ℝ), Precision α fin val u → u ≤ u₀ →
      ∀ (w : World α) (content : List Char) (path prog : String) (env : Env) (version : String) (f : NcFile α),
        w.disk path = .other content → Asks content r →
        w.disk ("wout_" ++ String.ofList r.ext ++ ".nc") = .nc f → WoutShapes f z → WoutNear fin val z (K * u) f f₀ →
        VersionOk version → NoFailure env →
        ∃ w' out, driver env version [prog, path] w = .ok 0 w' ∧
          w'.disk ("boozmn_" ++ String.ofList r.ext ++ ".nc") = .nc out ∧ (∃ b, FileInt out "jlist" b (js + 2)) ∧
          ∀ b, FileInt out "jlist" b (js + 2) → ∃ m n cc cs iota I G,
            FileField fin val out (decide (z.lasym ≠ 0)) (numModes (polRes z r) (torRes z r)) b js m n cc cs iota I G ∧
            ∀ θ ζ σ t₀ t₁, IsFieldLine x ψ₀ B θ ζ σ t₀ t₁ →
              |alongLine B F θ ζ σ t₀ t₁ - lineIntegral iota I G (series (numModes (polRes z r) (torRes z r)) m n cc cs) F
                (S.thetaB (θ t₀) (ζ t₀) - iota * S.zetaB (θ t₀) (ζ t₀)) (S.zetaB (θ t₀) (ζ t₀)) (S.zetaB (θ t₁) (ζ t₁))| ≤
              (C * (1 / (polRes z r : ℝ)) ^ p + D * u) * (1 + |S.zetaB (θ t₁) (ζ t₁) - S.zetaB (θ t₀) (ζ t₀)|) *
                |S.zetaB (θ t₁) (ζ t₁) - S.zetaB (θ t₀) (ζ t₀)| := by
  intro S
  obtain ⟨hg₀, hl₀'⟩ := wout_loaded hd₀ hz₀ hl₀
  obtain ⟨-, -, C₀, -⟩ := vmec_inv hg₀ hl₀'
  have hns2 : 2 ≤ z.ns := C₀.ns_ge
  obtain ⟨l, hS, hl1, hl2, hmem⟩ := wantedVec_full (r := r₁) hns2
  have hr₁ := requested_ready hg₀ hl₀' hi hc₁ hS hl1
  obtain ⟨q, hq, eq⟩ := List.mem_iff_getElem.1 ((hmem js).2 hw)
  have hsel : (wantedVec z r₁).val 0 q = js := by rw [hS, val_list hq, eq]
  have hjs : (js : ℤ) < z.ns - 1 := by
    have := hr₁.surfs_range q hq
    have h1 : 0 ≤ (wantedVec z r₁).val 0 q := this.1
    have h2 : ((wantedVec z r₁).val 0 q) < ((z.ns - 1).toNat : ℕ) := this.2
    omega
  have esel : selected (settings (wantedVec z r₁) (polRes z r₁) (torRes z r₁) 1 b₀).inp q = js := by
    show ((wantedVec z r₁).val 0 q).toNat = _
    rw [hsel]
    exact Int.toNat_natCast js
  have N := C108_numbers (s := settings (wantedVec z r₁) (polRes z r₁) (torRes z r₁) 1 b₀) hr₁ hfp ho (b := q) hq
    (by rw [esel]; exact hrc) (by rw [esel]; exact hreg _ hjs) (by rw [esel]; exact hf) hx hF
  rw [esel] at N
  obtain ⟨A, η, hA, hη, key⟩ := N
  obtain ⟨C, H⟩ := C110_file hd₀ hz₀ hl₀ hi hns hfp ho hreg hdet r₁.surfs hlen hc0 hρ p
  refine ⟨(2 * A + 1) * |C|, η / 2, half_pos hη, fun r hrs hc hM hN hMN hNM hres K hK => ?_⟩
  obtain ⟨D, u₀, h0, G⟩ := H r hrs hc hN hMN hNM K hK
  set M := polRes z r with hMdef
  have hE0 : 0 ≤ |C| * (1 / (M : ℝ)) ^ p := by positivity
  have hsmall : |C| * (1 / (M : ℝ)) ^ p ≤ η / 2 := by
    have := mul_nonneg hA hE0
    nlinarith
  refine ⟨2 * A * |D|, min u₀ (η / 2 / (|D| + 1)), lt_min h0 (by positivity), ?_⟩
  intro α _ fin val u hu hle w content path prog env version f hp ha hd hz hn hv he
  obtain ⟨w', out, g1, g2, g3, g4⟩ := G α fin val u hu (hle.trans (min_le_left _ _)) w content path prog env version f hp ha hd
    hz hn hv he
  refine ⟨w', out, g1, g2, (g3 js).1 (by unfold Wanted at hw ⊢; rw [hrs]; exact hw), fun b hb => ?_⟩
  obtain ⟨m, n, q1, ⟨cc, cs, q2, q3⟩, -, -, iota, I, G', i1, i2, i3, i4, i5, i6⟩ := g4 b js hb hres
  rw [Int.toNat_natCast] at i1 i2 i3 i4 i5 i6
  have hDu : |D| * u ≤ η / 2 := by
    have h1 := hle.trans (min_le_right _ _)
    rw [le_div_iff₀ (by positivity)] at h1
    nlinarith [hu.u_pos]
  have hDu0 : 0 ≤ |D| * u := mul_nonneg (abs_nonneg D) hu.u_pos.le
  have hE : C * (1 / (M : ℝ)) ^ p + D * u ≤ |C| * (1 / (M : ℝ)) ^ p + |D| * u :=
    add_le_add (mul_le_mul_of_nonneg_right (le_abs_self C) (by positivity)) (mul_le_mul_of_nonneg_right (le_abs_self D) hu.u_pos.le)
  refine ⟨m, n, cc, cs, iota, I, G', ⟨q1, fun k hk => (q2 k hk).1, fun k hk => (q2 k hk).2, i1, i2, i3⟩,
    fun θ ζ σ t₀ t₁ hl => ?_⟩
  have cg : Continuous (Function.uncurry (series (numModes M (torRes z r)) m n cc cs)) := by
    have e : Function.uncurry (series (numModes M (torRes z r)) m n cc cs) =
      fun y : ℝ × ℝ => series (numModes M (torRes z r)) m n cc cs y.1 y.2 := rfl
    rw [e]
    unfold series
    fun_prop
  set E := |C| * (1 / (M : ℝ)) ^ p + |D| * u with hEdef
  refine (key E E iota I G' _ cg (by linarith) (by linarith) (i4.trans hE) (i5.trans hE) (i6.trans hE)
    (fun a b => (q3 a b).trans hE) θ ζ σ t₀ t₁ hl).trans ?_
  change A * (E + E * (1 + |S.zetaB (θ t₁) (ζ t₁) - S.zetaB (θ t₀) (ζ t₀)|)) *
    |S.zetaB (θ t₁) (ζ t₁) - S.zetaB (θ t₀) (ζ t₀)| ≤ _
  refine mul_le_mul_of_nonneg_right ?_ (abs_nonneg _)
  have n1 := abs_nonneg (S.zetaB (θ t₁) (ζ t₁) - S.zetaB (θ t₀) (ζ t₀))
  generalize |S.zetaB (θ t₁) (ζ t₁) - S.zetaB (θ t₀) (ζ t₀)| = L at n1
  have hE1 : 0 ≤ A * E := mul_nonneg hA (by positivity)
  have e : ((2 * A + 1) * |C| * (1 / (M : ℝ)) ^ p + 2 * A * |D| * u) * (1 + L) =
      2 * (A * E) * (1 + L) + |C| * (1 / (M : ℝ)) ^ p * (1 + L) := by rw [hEdef]; ring
  rw [e]
  nlinarith [mul_nonneg hE1 n1, mul_nonneg hE0 n1]

/-! ### A field in space -/

section
variable {α : Type} [Arith α]

/-- The example file with |B| = 2. -/
def Ex.evenB : Mat α := Mat.tab 4 4 fun k _ => ofInt (if k = 0 then 2 else 0)

def Ex.evenVar (v : NcVar α) : NcVar α := if v.name = "bmnc" then Ex.dm "bmnc" "mn_mode_nyq" Ex.evenB else v

def Ex.even : NcFile α := { Ex.soft (α := α) with vars := (Ex.soft (α := α)).vars.map Ex.evenVar }

theorem Ex.evenVar_name (v : NcVar α) : (Ex.evenVar v).name = v.name := by
  unfold Ex.evenVar
  split_ifs with h
  exacts [h.symm, rfl]

theorem Ex.even_var (n : String) : (Ex.even (α := α)).var? n = ((Ex.soft (α := α)).var? n).map Ex.evenVar := by
  unfold Ex.even NcFile.var?
  dsimp only
  rw [List.find?_map]
  congr 2
  funext v
  show ((Ex.evenVar v).name == n) = (v.name == n)
  rw [Ex.evenVar_name]

theorem Ex.even_other {n : String} (h : n ≠ "bmnc") : (Ex.even (α := α)).var? n = (Ex.soft (α := α)).var? n := by
  rw [Ex.even_var]
  cases h' : (Ex.soft (α := α)).var? n with
  | none => rfl
  | some v =>
    have hv : v.name = n := by
      have := List.find?_some h'
      simpa using this
    show some (Ex.evenVar v) = some v
    unfold Ex.evenVar
    rw [hv, if_neg h]

theorem Ex.even_bmnc : (Ex.even (α := α)).var? "bmnc" = some (Ex.dm "bmnc" "mn_mode_nyq" Ex.evenB) := by
  rw [Ex.even_var, Ex.soft_other (by decide), Ex.wvar (n := "bmnc") 0 20 rfl rfl]
  rfl

theorem Ex.even_dbls {n : String} (h : n ≠ "bmnc") : dblsOf (Ex.even (α := α)) n = dblsOf Ex.soft n := by
  unfold dblsOf
  rw [Ex.even_other h]

theorem Ex.even_ints {n : String} (h : n ≠ "bmnc") : intsOf (Ex.even (α := α)) n = intsOf (Ex.soft (α := α)) n := by
  unfold intsOf
  rw [Ex.even_other h]

theorem Ex.even_shapes : WoutShapes (Ex.even (α := α)) (Ex.woutZ 0) := by
  have hz := Ex.soft_shapes (α := α)
  have sc : ∀ {n : String} {y : Int}, ScalarIs (Ex.soft (α := α)) n y → n ≠ "bmnc" →
      ScalarIs (Ex.even (α := α)) n y := fun h hn v hv => h v (by rw [← hv, Ex.even_other hn])
  have si : ∀ {n : String} {y : Int}, HasInts (Ex.soft (α := α)) n y → n ≠ "bmnc" →
      HasInts (Ex.even (α := α)) n y := fun h hn v hv => h v (by rw [← hv, Ex.even_other hn])
  have sd : ∀ {n : String} {y : Int}, HasDbls (Ex.soft (α := α)) n y → n ≠ "bmnc" →
      HasDbls (Ex.even (α := α)) n y := fun h hn v hv => h v (by rw [← hv, Ex.even_other hn])
  refine ⟨sc hz.lasym (by decide), sc hz.ns (by decide),
    sc hz.nfp (by decide), sc hz.mpol (by decide),
    sc hz.ntor (by decide), sc hz.mnmax (by decide),
    sc hz.mnmax_nyq (by decide), sd hz.aspect (by decide),
    sd hz.chi (by decide), sd hz.phipf (by decide),
    sd hz.pres (by decide), sd hz.phi (by decide),
    sd hz.iotas (by decide),
    si hz.xm (by decide), si hz.xn (by decide),
    si hz.xm_nyq (by decide), si hz.xn_nyq (by decide),
    fun n hn => ?_, fun n hn => ?_, hz.ns_pos, hz.nfp_pos, hz.mnmax_pos, hz.mnmax_nyq_pos⟩
  · by_cases h : n = "bmnc"
    · subst h
      exact absurd hn (by decide)
    · exact sd (hz.mats n hn) h
  · by_cases h : n = "bmnc"
    · subst h
      exact Ex.mats Ex.even_bmnc (Mat.full_tab 4 4 _) rfl
    · exact sd (hz.mats_nyq n hn) h

theorem Ex.even_none (n : String) : (Ex.even (α := α)).var? n = none ↔ (Ex.soft (α := α)).var? n = none := by
  rw [Ex.even_var, Option.map_eq_none_iff]

theorem Ex.even_sizes : woutSizesOf (Ex.even (α := α)) (Ex.woutZ 0) = Ex.sizes false := by
  rw [← Ex.soft_sizes (α := α)]
  unfold woutSizesOf
  rw [Ex.even_ints (by decide)]

theorem Ex.even_inp (I : Inputs α) : woutInp (Ex.even (α := α)) (Ex.woutZ 0) I = Ex.symInp I := by
  rw [← Ex.soft_inp]
  simp [woutInp, Ex.even_ints, Ex.even_dbls]

theorem Ex.even_args : woutArgs (Ex.even (α := α)) (Ex.woutZ 0) false =
    { Ex.symArgs with
        rmnc := Ex.softR, zmns := Ex.softZ, bmnc := Ex.evenB
        phip := #[], chi := #[], pres := #[], phi := #[], lmns := Ex.softL, bsubumnc := Ex.softU, bsubvmnc := Ex.softV } := by
  have e1 : dblsOf (Ex.even (α := α)) "bmnc" = Ex.evenB.data := dblsOf_eq Ex.even_bmnc rfl
  have e := Ex.soft_args (α := α)
  unfold woutArgs at e ⊢
  rw [VmecArgs.mk.injEq] at e ⊢
  have m : ∀ (r c : Int) (n : String), n ≠ "bmnc" →
      woutMat (Ex.even (α := α)) r c n = woutMat (Ex.soft (α := α)) r c n := fun r c n h => by
    unfold woutMat
    rw [Ex.even_dbls h]
  obtain ⟨a1, a2, -, -, a5, -, a7, -, -, a10, -, a12, -, -, -, -, -⟩ := e
  refine ⟨?_, ?_, rfl, rfl, ?_, rfl, ?_, ?_, rfl, ?_, rfl, ?_, rfl, rfl, rfl, rfl, rfl⟩
  · rw [Ex.even_dbls (by decide)]; exact a1
  · exact (m _ _ _ (by decide)).trans a2
  · exact (m _ _ _ (by decide)).trans a5
  · exact (m _ _ _ (by decide)).trans a7
  · show woutMat _ _ _ _ = _; unfold woutMat; rw [e1]; rfl
  · exact (m _ _ _ (by decide)).trans a10
  · exact (m _ _ _ (by decide)).trans a12

/-- A disk with an input file and this `wout` file. -/
def Ex.evenWorld (content : List Char) : World α :=
  { disk := fun p => if p = "in" then .other content else
      if p = "wout_x.nc" then .nc Ex.even else .absent
    console := [] }

theorem Ex.evenWorld_in (content : List Char) : (Ex.evenWorld (α := α) content).disk "in" = .other content := rfl
theorem Ex.evenWorld_wout (content : List Char) :
    (Ex.evenWorld (α := α) content).disk ("wout_" ++ String.ofList ['x'] ++ ".nc") = .nc Ex.even := rfl

theorem Ex.even_present : ∀ n ∈ woutRequired false false, (Ex.even (α := α)).var? n ≠ none := fun n hn h =>
  Ex.soft_present n hn ((Ex.even_none n).1 h)

theorem Ex.even_loads (content : List Char) : ∃ b,
    readWout (Ex.evenWorld (α := α) content).disk ("wout_" ++ String.ofList ['x'] ++ ".nc") false construct = .ok () b := by
  have hs : (construct : St α).inp.compute_surfs.Full (construct : St α).inp.compute_surfs.size :=
    ⟨rfl, fun i hi => absurd hi (by simp [construct])⟩
  rw [C39_loads false construct (Ex.evenWorld_wout content) Ex.even_shapes Ex.even_present]
  refine ⟨_, vmec_ok (z := Ex.sizes false) (by decide) ?_ (Ex.computable false) ?_ ?_⟩
  · have := wout_given (flux := false) (I := (construct : St α).inp) (Ex.even_shapes (α := α)) Ex.even_present hs
    rw [Ex.even_sizes] at this
    exact this
  · rw [Ex.even_args, Ex.even_inp]
    have C := Ex.sym_consistent (α := α) (I := (construct : St α).inp)
      (fun j hj => absurd hj (by simp [construct]))
    exact ⟨C.1, C.2, C.3, (fun h => absurd rfl h), C.5, C.6, ⟨rfl, rfl⟩, ⟨rfl, rfl⟩, ⟨rfl, rfl⟩, ⟨rfl, rfl⟩, ⟨rfl, rfl⟩,
      ⟨rfl, rfl⟩, C.13, C.14⟩
  · rw [Ex.even_args, Ex.even_inp]
    have L := Ex.sym_loadable (α := α) (I := (construct : St α).inp) (by show (1 : Int) ≤ 1; decide)
    exact ⟨L.1, Or.inl (by show (1 : Int) ≤ 1; decide), L.3, L.4, L.5⟩

theorem Ex.even_can_run : CanRun (Ex.even (α := α)) (Ex.woutZ 0) Ex.request := by
  have h := Ex.soft_can_run (α := α)
  unfold CanRun at h ⊢
  rw [Ex.even_inp, Ex.even_sizes, Ex.even_ints (by decide)]
  rw [Ex.soft_inp, Ex.soft_sizes] at h
  exact h

end

theorem Ex.even_near (p : ℕ) : WoutNear (fun _ => True) Ex.Flp.val (Ex.woutZ 0) (100 * (4 / 2 ^ p))
    (Ex.even (α := Ex.Flp p)) (Ex.even (α := ℝ)) := by
  have W := Ex.soft_near p
  refine { present := fun n => ?_, modes := fun n hn => ?_, iotas := ?_, mats := fun n hn => ?_,
           mats_nyq := fun n hn => ?_, asym := fun h => absurd rfl h, asym_nyq := fun h => absurd rfl h }
  · rw [Ex.even_none, Ex.even_none]; exact W.present n
  · have h : n ≠ "bmnc" := by
      rintro rfl
      revert hn
      decide
    rw [Ex.even_ints h, Ex.even_ints h]
    exact W.modes n hn
  · rw [Ex.even_dbls (by decide), Ex.even_dbls (by decide)]
    exact W.iotas
  · have h : n ≠ "bmnc" := by
      rintro rfl
      revert hn
      decide
    rw [Ex.even_dbls h, Ex.even_dbls h]
    exact W.mats n hn
  · by_cases h : n = "bmnc"
    · subst h
      rw [dblsOf_eq Ex.even_bmnc rfl, dblsOf_eq Ex.even_bmnc rfl]
      exact Ex.data_near rfl rfl (Ex.mat_near p 4 4 (fun k _ => if k = 0 then 2 else 0)
        (by intro k hk j hj; rw [abs_le]; split_ifs <;> omega))
    · rw [Ex.even_dbls h, Ex.even_dbls h]
      exact W.mats_nyq n hn

/-- What the surfaces of this file are like: those of the other one, but |B| = 2. -/
structure Ex.Evened (I : Inputs ℝ) : Prop where
  bmnc : I.bmnc = shiftMat 4 3 (Mat.tab 4 4 fun k _ => (ofInt (if k = 0 then 2 else 0) : ℝ))
  rest : Ex.Softened { I with bmnc := shiftMat 4 3 (Mat.tab 4 4 fun k j => (ofInt (if k = 0 then 7 + (j : ℤ) else 1) : ℝ)) }

theorem Ex.evened {content : List Char} {b₀ : St ℝ}
    (h₀ : readWout (Ex.evenWorld content).disk ("wout_" ++ String.ofList ['x'] ++ ".nc") false construct = .ok () b₀) :
    Ex.Evened b₀.inp := by
  obtain ⟨hg, hl⟩ := wout_loaded (Ex.evenWorld_wout _) Ex.even_shapes h₀
  have e := vmec_result hg hl
  rw [Ex.even_args, Ex.even_inp, Ex.even_sizes] at e
  exact
    { bmnc := by rw [e]; rfl
      rest :=
      { bsubvmnc := by rw [e]; rfl
        bsubumnc := by rw [e]; rfl
        bmnc := rfl
        iota := by rw [e]; rfl
        lmns := fun k hk j hj => by
          have e' : b₀.inp.lmns = shiftMat 3 3 (Mat.tab 3 4 fun _ _ => (ofInt 0 : ℝ)) := by rw [e]; rfl
          show b₀.inp.lmns.val 0 k j = 0
          rw [e']
          unfold shiftMat ev
          rw [Mat.val_tab hk hj, Mat.val_tab hk (by omega), real_ofInt]
          norm_num
        xm := by rw [e]; rfl
        xn := by rw [e]; rfl
        xm_nyq := by rw [e]; rfl
        xn_nyq := by rw [e]; rfl } }

/-- A series over the four Nyquist modes of the file. -/
theorem Ex.even4 (c : ℕ → ℝ) (h2 : c 2 = 0) (h3 : c 3 = 0) (θ ζ : ℝ) :
    series (Ex.vec (β := ℤ) [0, 0, 1, 2]).size ((Ex.vec (β := ℤ) [0, 0, 1, 2]).val 0) ((Ex.vec (β := ℤ) [0, 2, 0, 2]).val 0) c
      (fun _ => 0) θ ζ = c 0 + c 1 * Real.cos (2 * ζ) := by
  have hsz : Array.size (Ex.vec [(0 : ℤ), 0, 1, 2]) = 4 := rfl
  unfold series
  rw [hsz, Finset.sum_range_succ, Finset.sum_range_succ, Finset.sum_range_succ, Finset.sum_range_one, h2, h3,
    show (Ex.vec (β := ℤ) [0, 0, 1, 2]).val 0 0 = 0 from rfl, show (Ex.vec (β := ℤ) [0, 0, 1, 2]).val 0 1 = 0 from rfl,
    show (Ex.vec (β := ℤ) [0, 2, 0, 2]).val 0 0 = 0 from rfl, show (Ex.vec (β := ℤ) [0, 2, 0, 2]).val 0 1 = 2 from rfl]
  have e1 : ((0 : ℤ) : ℝ) * θ - ((2 : ℤ) : ℝ) * ζ = -(2 * ζ) := by push_cast; ring
  rw [e1, Real.cos_neg]
  simp

theorem Ex.even_B {I : Inputs ℝ} (h : Ex.Evened I) {js : ℕ} (hj : js < 3) (θ ζ : ℝ) : (surface I false js).B θ ζ = 2 := by
  have v : ∀ k < 4, entry I.bmnc k js = if k = 0 then 2 else 0 := fun k hk => by
    unfold entry
    rw [h.bmnc, Ex.shift_val _ hk hj]
    split_ifs <;> norm_num
  have x1 : I.xm_nyq = _ := h.rest.xm_nyq
  have x2 : I.xn_nyq = _ := h.rest.xn_nyq
  show series I.xm_nyq.size (I.xm_nyq.val 0) (I.xn_nyq.val 0) (fun k => entry I.bmnc k js) (fun _ => 0) θ ζ = 2
  rw [x1, x2, Ex.even4 _ (by rw [v 2 (by omega)]; simp) (by rw [v 3 (by omega)]; simp), v 0 (by omega), v 1 (by omega)]
  simp

theorem Ex.even_bTheta {I : Inputs ℝ} (h : Ex.Evened I) {js : ℕ} (hj : js < 3) (θ ζ : ℝ) : bTheta I false js θ ζ = 1 := by
  have v : ∀ k < 4, entry I.bsubumnc k js = if k = 0 then 1 else 0 := fun k hk => by
    unfold entry
    rw [show I.bsubumnc = _ from h.rest.bsubumnc, Ex.shift_val _ hk hj]
    split_ifs <;> norm_num
  have x1 : I.xm_nyq = _ := h.rest.xm_nyq
  have x2 : I.xn_nyq = _ := h.rest.xn_nyq
  show series I.xm_nyq.size (I.xm_nyq.val 0) (I.xn_nyq.val 0) (fun k => entry I.bsubumnc k js) (fun _ => 0) θ ζ = 1
  rw [x1, x2, Ex.even4 _ (by rw [v 2 (by omega)]; simp) (by rw [v 3 (by omega)]; simp), v 0 (by omega), v 1 (by omega)]
  simp

theorem Ex.even_bZeta {I : Inputs ℝ} (h : Ex.Evened I) {js : ℕ} (hj : js < 3) (θ ζ : ℝ) :
    bZeta I false js θ ζ = 20 + Real.cos (2 * ζ) := by
  have v : ∀ k < 4, entry I.bsubvmnc k js = if k = 0 then 20 else if k = 1 then 1 else 0 := fun k hk => by
    unfold entry
    rw [show I.bsubvmnc = _ from h.rest.bsubvmnc, Ex.shift_val _ hk hj]
    split_ifs <;> norm_num
  have x1 : I.xm_nyq = _ := h.rest.xm_nyq
  have x2 : I.xn_nyq = _ := h.rest.xn_nyq
  show series I.xm_nyq.size (I.xm_nyq.val 0) (I.xn_nyq.val 0) (fun k => entry I.bsubvmnc k js) (fun _ => 0) θ ζ = _
  rw [x1, x2, Ex.even4 _ (by rw [v 2 (by omega)]; simp) (by rw [v 3 (by omega)]; simp), v 0 (by omega), v 1 (by omega)]
  simp

theorem Ex.evened_ok {I : Inputs ℝ} (s : Ex.Evened I) : FieldPeriodic I 2 ∧ OriginOnce I ∧
    (∀ js : ℕ, (js : ℤ) < 4 - 1 → (surface I false js).Regular) ∧
    (∀ js : ℕ, (js : ℤ) < 4 - 1 → ∀ θ ζ, (surface I false js).det θ ζ ≠ 0) ∧
    (surface I false 0).ResolvedBy 2 16 8 (1 / 2) := by
  obtain ⟨h1, h2, h3, h4⟩ := Ex.softened_ok s.rest
  exact ⟨h1, h2, fun js hj => ⟨(h3 js hj).1, fun θ ζ => by rw [Ex.even_B s (by omega)]; norm_num⟩, h4,
    Ex.soft_resolved s.rest (by omega)⟩

theorem Ex.even_iota {I : Inputs ℝ} (s : Ex.Evened I) : (surface I false 0).iota = 2 := by
  have e : I.iota = _ := s.rest.iota
  show I.iota.val 0 0 = 2
  rw [e, Vec.val_tab (by omega), Vec.val_tab (by omega), real_ofInt]
  norm_num

theorem Ex.even_lam {I : Inputs ℝ} (s : Ex.Evened I) (θ ζ : ℝ) : (surface I false 0).lam θ ζ = 0 := by
  have x : I.xm = _ := s.rest.xm
  show series I.xm.size (I.xm.val 0) (I.xn.val 0) (fun _ => 0) (fun k => entry I.lmns k 0) θ ζ = 0
  unfold series
  refine Finset.sum_eq_zero fun k hk => ?_
  rw [x] at hk
  have hk : k < 3 := Finset.mem_range.1 hk
  have : entry I.lmns k 0 = 0 := s.rest.lmns k hk 0 (by omega)
  simp [this]

theorem Ex.even_noCurrent {I : Inputs ℝ} (s : Ex.Evened I) : NoRadialCurrent I false 0 := by
  have v : ∀ k < 4, entry I.bsubvmnc k 0 = if k = 0 then 20 else if k = 1 then 1 else 0 := fun k hk => by
    unfold entry
    rw [show I.bsubvmnc = _ from s.rest.bsubvmnc, Ex.shift_val _ hk (by omega)]
    split_ifs <;> norm_num
  have u : ∀ k < 4, entry I.bsubumnc k 0 = if k = 0 then 1 else 0 := fun k hk => by
    unfold entry
    rw [show I.bsubumnc = _ from s.rest.bsubumnc, Ex.shift_val _ hk (by omega)]
    split_ifs <;> norm_num
  have x1 : I.xm_nyq = _ := s.rest.xm_nyq
  have x2 : I.xn_nyq = _ := s.rest.xn_nyq
  intro k hk
  rw [x1] at hk
  have hk : k < 4 := hk
  refine ⟨?_, fun h => absurd h (by decide)⟩
  rw [v k hk, u k hk, x1, x2]
  interval_cases k
  · rw [show (Ex.vec (β := ℤ) [0, 0, 1, 2]).val 0 0 = 0 from rfl, show (Ex.vec (β := ℤ) [0, 2, 0, 2]).val 0 0 = 0 from rfl]
    simp
  · rw [show (Ex.vec (β := ℤ) [0, 0, 1, 2]).val 0 1 = 0 from rfl]
    simp
  · simp
  · simp

theorem Ex.even_wanted : Wanted (Ex.woutZ 0) Ex.request 0 := by
  unfold Wanted
  decide

/-! The field: straight lines on a cylinder, in angles that are not uniform. -/

noncomputable def Ex.evenRad : ℝ := √(11 / 4)
noncomputable def Ex.evenH : ℝ := √110
/-- Angle about the axis. -/
noncomputable def Ex.evenT (θ ζ : ℝ) : ℝ := θ + 1 / 22 * Real.sin (2 * ζ)
/-- Position. -/
noncomputable def Ex.evenX (ψ θ ζ : ℝ) : V3 :=
  ![Ex.evenRad * (1 + Ex.evenH * ψ / 55) * Real.cos (Ex.evenT θ ζ), Ex.evenRad * (1 + Ex.evenH * ψ / 55) * Real.sin (Ex.evenT θ ζ),
    Ex.evenH * (ζ + 1 / 44 * Real.sin (2 * ζ))]
/-- The field at ψ = 0. -/
noncomputable def Ex.evenField (θ ζ : ℝ) : V3 :=
  ![-(4 * Ex.evenRad / 11) * Real.sin (Ex.evenT θ ζ), 4 * Ex.evenRad / 11 * Real.cos (Ex.evenT θ ζ), 2 * Ex.evenH / 11]
/-- The coordinate vectors at ψ = 0. -/
noncomputable def Ex.evenE (θ ζ : ℝ) : Frame :=
  let c := Real.cos (2 * ζ)
  let C := Real.cos (Ex.evenT θ ζ)
  let D := Real.sin (Ex.evenT θ ζ)
  { psi := ![Ex.evenRad * Ex.evenH / 55 * C, Ex.evenRad * Ex.evenH / 55 * D, 0]
    theta := ![-Ex.evenRad * D, Ex.evenRad * C, 0]
    zeta := ![-(Ex.evenRad * (c / 11)) * D, Ex.evenRad * (c / 11) * C, Ex.evenH * (1 + c / 22)] }

theorem Ex.evenRad_sq : Ex.evenRad * Ex.evenRad = 11 / 4 := Real.mul_self_sqrt (by norm_num)
theorem Ex.evenH_sq : Ex.evenH * Ex.evenH = 110 := Real.mul_self_sqrt (by norm_num)

theorem Ex.even_frame (θ ζ : ℝ) : IsFrame Ex.evenX 0 θ ζ (Ex.evenE θ ζ) := by
  have hr := Ex.evenRad_sq
  have hh := Ex.evenH_sq
  have dr : HasDerivAt (fun p : ℝ => Ex.evenRad * (1 + Ex.evenH * p / 55)) (Ex.evenRad * Ex.evenH / 55) 0 :=
    (((((hasDerivAt_id (0 : ℝ)).const_mul Ex.evenH).div_const 55).const_add 1).const_mul Ex.evenRad).congr_deriv (by ring)
  have s2 : HasDerivAt (fun z : ℝ => Real.sin (2 * z)) (2 * Real.cos (2 * ζ)) ζ :=
    (((hasDerivAt_id ζ).const_mul 2).sin).congr_deriv (by simp; ring)
  have t1 : HasDerivAt (fun t => Ex.evenT t ζ) 1 θ := (hasDerivAt_id θ).add_const _
  have t2 : HasDerivAt (fun z => Ex.evenT θ z) (Real.cos (2 * ζ) / 11) ζ :=
    ((s2.const_mul (1 / 22)).const_add θ).congr_deriv (by ring)
  have z2 : HasDerivAt (fun z => z + 1 / 44 * Real.sin (2 * z)) (1 + Real.cos (2 * ζ) / 22) ζ :=
    ((hasDerivAt_id ζ).add (s2.const_mul (1 / 44))).congr_deriv (by ring)
  have lower := Real.neg_one_le_cos (2 * ζ)
  have one := Real.sin_sq_add_cos_sq (Ex.evenT θ ζ)
  refine ⟨?_, ?_, ?_, ?_⟩
  · refine hasDerivAt_pi.mpr fun i => ?_
    fin_cases i
    · exact (dr.mul_const _).congr_deriv (by simp [Ex.evenE])
    · exact (dr.mul_const _).congr_deriv (by simp [Ex.evenE])
    · exact (hasDerivAt_const _ _).congr_deriv (by simp [Ex.evenE])
  · refine hasDerivAt_pi.mpr fun i => ?_
    fin_cases i
    · exact (t1.cos.const_mul _).congr_deriv (by simp [Ex.evenE])
    · exact (t1.sin.const_mul _).congr_deriv (by simp [Ex.evenE])
    · exact (hasDerivAt_const _ _).congr_deriv (by simp [Ex.evenE])
  · refine hasDerivAt_pi.mpr fun i => ?_
    fin_cases i
    · exact (t2.cos.const_mul _).congr_deriv (by simp [Ex.evenE]; ring)
    · exact (t2.sin.const_mul _).congr_deriv (by simp [Ex.evenE]; ring)
    · exact (z2.const_mul _).congr_deriv (by simp [Ex.evenE])
  · have e : (Ex.evenE θ ζ).psi ⬝ᵥ (Ex.evenE θ ζ).theta ⨯₃ (Ex.evenE θ ζ).zeta = 11 / 2 * (1 + Real.cos (2 * ζ) / 22) := by
      rw [dot3]
      simp [Ex.evenE, cross_apply]
      set c := Real.cos (2 * ζ)
      set C := Real.cos (Ex.evenT θ ζ)
      set D := Real.sin (Ex.evenT θ ζ)
      set r := Ex.evenRad
      set h := Ex.evenH
      linear_combination (r * r * (h * h) / 55 * (1 + c / 22)) * one + (h * h / 55 * (1 + c / 22)) * hr +
        (1 / 20 * (1 + c / 22)) * hh
    rw [e]
    intro h0
    linarith

theorem Ex.even_field {I : Inputs ℝ} (s : Ex.Evened I) :
    IsField (surface I false 0) (bTheta I false 0) (bZeta I false 0) Ex.evenX (fun _ _ _ => 0) 0 Ex.evenField := by
  refine ⟨?_, fun θ ζ => ⟨Ex.evenE θ ζ, Ex.even_frame θ ζ, ?_, ?_, ?_, ?_⟩⟩
  · funext θ ζ
    exact (Ex.even_lam s θ ζ).symm
  · have lower := Real.neg_one_le_cos (2 * ζ)
    have one := Real.sin_sq_add_cos_sq (Ex.evenT θ ζ)
    have hr := Ex.evenRad_sq
    have hh := Ex.evenH_sq
    have hio := Ex.even_iota s
    set c := Real.cos (2 * ζ) with hc
    set C := Real.cos (Ex.evenT θ ζ) with hC
    set D := Real.sin (Ex.evenT θ ζ) with hDef
    set r := Ex.evenRad with hrr
    set h := Ex.evenH with hhh
    obtain ⟨k, hk⟩ : ∃ k : ℝ, k * (1 + c / 22) = 1 := ⟨(1 + c / 22)⁻¹, inv_mul_cancel₀ (by intro h0; linarith)⟩
    refine ⟨![2 * r * h / 11 * C, 2 * r * h / 11 * D, 0], ![-(4 * r / 11) * D, 4 * r / 11 * C, -(c / 11 * (h / 110 * k))],
      ![0, 0, h / 110 * k], ⟨?_, ?_, ?_⟩, ⟨?_, ?_, ?_⟩, ⟨?_, ?_, ?_⟩, ?_⟩
    · refine (hasDerivAt_id _).congr_deriv ?_
      rw [dot3]; simp [Ex.evenE]
      linear_combination (-(2 / 605) * (r * r) * (h * h)) * one - (2 / 605 * (h * h)) * hr - (1 / 110) * hh
    · refine (hasDerivAt_const _ _).congr_deriv ?_
      rw [dot3]; simp [Ex.evenE]; ring
    · refine (hasDerivAt_const _ _).congr_deriv ?_
      rw [dot3]; simp [Ex.evenE]; ring
    · refine (hasDerivAt_const _ _).congr_deriv ?_
      rw [dot3]; simp [Ex.evenE]; ring
    · refine ((hasDerivAt_id _).add_const _).congr_deriv ?_
      rw [dot3]; simp [Ex.evenE]
      linear_combination (-(4 / 11) * (r * r)) * one - (4 / 11) * hr
    · refine (hasDerivAt_const _ _).congr_deriv ?_
      rw [dot3]; simp [Ex.evenE]
      linear_combination (-(4 / 121) * (r * r) * c) * one - (4 / 121 * c) * hr + (c / 11) * (h * h / 110) * hk + (c / 1210) * hh
    · refine (hasDerivAt_const _ _).congr_deriv ?_
      rw [dot3]; simp [Ex.evenE]
    · refine (hasDerivAt_const _ _).congr_deriv ?_
      rw [dot3]; simp [Ex.evenE]
    · refine (hasDerivAt_id _).congr_deriv ?_
      rw [dot3]; simp [Ex.evenE]
      linear_combination -(h * h / 110) * hk - (1 / 110) * hh
    · rw [hio]
      funext i
      fin_cases i
      · simp [Ex.evenField, cross_apply]
        linear_combination (2 * r * (h * h) / 605 * D) * hk + (2 * r / 605 * D) * hh
      · simp [Ex.evenField, cross_apply]
        linear_combination (-(2 * r * (h * h) / 605 * C)) * hk - (2 * r / 605 * C) * hh
      · simp [Ex.evenField, cross_apply]
        linear_combination (-(8 / 121) * (r * r) * h) * one - (8 / 121 * h) * hr
  · rw [Ex.even_bTheta s (by omega), dot3]
    simp [Ex.evenField, Ex.evenE]
    linear_combination (4 / 11 * (Ex.evenRad * Ex.evenRad)) * Real.sin_sq_add_cos_sq (Ex.evenT θ ζ) + (4 / 11) * Ex.evenRad_sq
  · rw [Ex.even_bZeta s (by omega), dot3]
    simp [Ex.evenField, Ex.evenE]
    linear_combination (4 / 121 * (Ex.evenRad * Ex.evenRad) * Real.cos (2 * ζ)) * Real.sin_sq_add_cos_sq (Ex.evenT θ ζ) +
      (4 / 121 * Real.cos (2 * ζ)) * Ex.evenRad_sq + (2 / 11 * (1 + Real.cos (2 * ζ) / 22)) * Ex.evenH_sq
  · rw [Ex.even_B s (by omega), dot3]
    simp [Ex.evenField]
    linear_combination (16 / 121 * (Ex.evenRad * Ex.evenRad)) * Real.sin_sq_add_cos_sq (Ex.evenT θ ζ) +
      (16 / 121) * Ex.evenRad_sq + (4 / 121) * Ex.evenH_sq

theorem Ex.even_smooth : SurfaceSmooth Ex.evenX 0 := by
  refine differentiable_pi.2 fun i => ?_
  fin_cases i
  · show Differentiable ℝ fun y : ℝ × ℝ => Ex.evenRad * (1 + Ex.evenH * 0 / 55) * Real.cos (y.1 + 1 / 22 * Real.sin (2 * y.2))
    fun_prop
  · show Differentiable ℝ fun y : ℝ × ℝ => Ex.evenRad * (1 + Ex.evenH * 0 / 55) * Real.sin (y.1 + 1 / 22 * Real.sin (2 * y.2))
    fun_prop
  · show Differentiable ℝ fun y : ℝ × ℝ => Ex.evenH * (y.2 + 1 / 44 * Real.sin (2 * y.2))
    fun_prop

/-- C108 for the file and the integral of `1 / |B|`: if the resolution 16 × 8 is enough, machines with more and more bits. -/
example : ∃ b₀ : St ℝ, readWout (Ex.evenWorld Ex.input).disk ("wout_" ++ String.ofList ['x'] ++ ".nc") false construct =
      .ok () b₀ ∧ ∃ C η : ℝ, 0 < η ∧ (C * (1 / 16) ^ 9 ≤ η → ∃ D : ℝ, ∃ p₀, ∀ p ≥ p₀, ∃ w' out,
    driver Ex.calm "0.0.1" ["xbooz_xform", "in"] (Ex.evenWorld (α := Ex.Flp p) Ex.input) = .ok 0 w' ∧
    w'.disk ("boozmn_" ++ String.ofList ['x'] ++ ".nc") = .nc out ∧ (∃ b, FileInt out "jlist" b 2) ∧
    ∀ b, FileInt out "jlist" b 2 → ∃ m n cc cs iota I G,
      FileField (fun _ => True) Ex.Flp.val out false (numModes 16 8) b 0 m n cc cs iota I G ∧
      let S := surface b₀.inp false 0
      ∀ θ ζ σ t₀ t₁, IsFieldLine Ex.evenX 0 Ex.evenField θ ζ σ t₀ t₁ →
        |alongLine Ex.evenField (fun B => 1 / B) θ ζ σ t₀ t₁ -
          lineIntegral iota I G (series (numModes 16 8) m n cc cs) (fun B => 1 / B)
            (S.thetaB (θ t₀) (ζ t₀) - iota * S.zetaB (θ t₀) (ζ t₀)) (S.zetaB (θ t₀) (ζ t₀)) (S.zetaB (θ t₁) (ζ t₁))| ≤
        (C * (1 / 16) ^ 9 + D * (4 / 2 ^ p)) * (1 + |S.zetaB (θ t₁) (ζ t₁) - S.zetaB (θ t₀) (ζ t₀)|) *
          |S.zetaB (θ t₁) (ζ t₁) - S.zetaB (θ t₀) (ζ t₀)|) := by
  obtain ⟨b₀, h₀⟩ := Ex.even_loads (α := ℝ) Ex.input
  have s := Ex.evened h₀
  obtain ⟨hp, ho, hreg, hdet, hres⟩ := Ex.evened_ok s
  refine ⟨b₀, h₀, ?_⟩
  have hi : ∀ k, k < (intsOf (Ex.even (α := ℝ)) "xn_nyq").size →
      ((intsOf (Ex.even (α := ℝ)) "xn_nyq").val 0 k).natAbs < 2147483648 := by
    rw [Ex.even_ints (by decide), Ex.soft_ints (by decide)]
    exact Ex.wout_nyq
  obtain ⟨C, η, hη, H⟩ := C108_file (Ex.evenWorld_wout _) Ex.even_shapes h₀ hi (by decide) hp ho hreg hdet
    (r₁ := Ex.request) Ex.even_can_run (by decide) (js := 0) (Ex.even_wanted) (Ex.even_noCurrent s) (Ex.even_field s)
    Ex.even_smooth (F := fun B => 1 / B)
    (contDiffOn_const.div contDiffOn_id fun x hx => ne_of_gt hx) (c := 2) (by norm_num) (ρ := 1 / 2) (by norm_num) 9
  have eM : polRes (Ex.woutZ 0) Ex.request = 16 := rfl
  have eN : torRes (Ex.woutZ 0) Ex.request = 8 := rfl
  refine ⟨C, η, hη, fun hC => ?_⟩
  obtain ⟨D, u₀, h0, G⟩ := H Ex.request rfl Ex.even_can_run (by rw [eM]; exact_mod_cast hC) (by decide)
    (by rw [eM, eN]; norm_num) (by rw [eM, eN]; norm_num) hres 100 (by norm_num)
  obtain ⟨p₀, hp₀⟩ := Ex.bits h0
  refine ⟨D, p₀, fun p hp => ?_⟩
  obtain ⟨w', out, g1, g2, g3, g4⟩ := G (Ex.Flp p) _ Ex.Flp.val (4 / 2 ^ p) (Ex.flp_precision p) (hp₀ p hp)
    (Ex.evenWorld Ex.input) Ex.input "in" "xbooz_xform" Ex.calm "0.0.1" Ex.even (Ex.evenWorld_in _) Ex.input_asks
    (Ex.evenWorld_wout _) Ex.even_shapes (Ex.even_near p) Ex.version Ex.noFailure
  refine ⟨w', out, g1, g2, g3, fun b hb => ?_⟩
  have := g4 b hb
  rw [eM, eN] at this
  push_cast at this
  exact this

end Booz
