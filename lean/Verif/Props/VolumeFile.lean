import Verif.Props.CurrentFile
import Verif.Props.VolumeRounding
import Verif.Spec.VolumeFile

/-!
# C106: volume and average of B² from the numbers of a `boozmn` file
-/

namespace Booz
open Spec Matrix Set

theorem within_mono {iota I G g v a e₁ e₂ e₁' e₂' : ℝ} (h : VolumeWithin iota I G g v a e₁ e₂) (h1 : e₁ ≤ e₁') (h2 : e₂ ≤ e₂') :
    VolumeWithin iota I G g v a e₁' e₂' :=
  ⟨h.1.trans (add_le_add h1 h2), fun h' => (h.2 (h1.trans h')).trans (add_le_add h1 h2)⟩

theorem all_below {P : ℕ → ℝ → Prop} (mono : ∀ b C C', C ≤ C' → P b C → P b C') :
    ∀ n, (∀ b < n, ∃ C, P b C) → ∃ C, ∀ b < n, P b C
  | 0, _ => ⟨0, fun _ h => absurd h (Nat.not_lt_zero _)⟩
  | n + 1, h => by
    obtain ⟨C, hC⟩ := all_below mono n fun b hb => h b (by omega)
    obtain ⟨C', hC'⟩ := h n (by omega)
    refine ⟨max C C', fun b hb => ?_⟩
    rcases Nat.lt_succ_iff_lt_or_eq.1 hb with hb | rfl
    · exact mono _ _ _ (le_max_left _ _) (hC b hb)
    · exact mono _ _ _ (le_max_right _ _) hC'

theorem all_below₂ {P : ℕ → ℝ → ℝ → Prop} (mono : ∀ b D D' u u', D ≤ D' → u' ≤ u → P b D u → P b D' u') :
    ∀ n, (∀ b < n, ∃ D u, 0 < u ∧ P b D u) → ∃ D u, 0 < u ∧ ∀ b < n, P b D u
  | 0, _ => ⟨0, 1, one_pos, fun _ h => absurd h (Nat.not_lt_zero _)⟩
  | n + 1, h => by
    obtain ⟨D, u, hu, hD⟩ := all_below₂ mono n fun b hb => h b (by omega)
    obtain ⟨D', u', hu', hD'⟩ := h n (by omega)
    refine ⟨max D D', min u u', lt_min hu hu', fun b hb => ?_⟩
    rcases Nat.lt_succ_iff_lt_or_eq.1 hb with hb | rfl
    · exact mono _ _ _ _ _ (le_max_left _ _) (min_le_left _ _) (hD b hb)
    · exact mono _ _ _ _ _ (le_max_right _ _) (min_le_right _ _) hD'

/-- What a machine stores, for the proof: the numbers of place `b` and surface `j`. -/
def VolumeStored {α : Type} (fin : α → Prop) (val : α → ℝ) (t s' : St α) (j b : ℕ) (v a e₁ e₂ : ℝ) : Prop :=
  ∃ iota I G g, s'.out.xm_b.rdN 0 = .ok 0 ∧ s'.out.xn_b.rdN 0 = .ok 0 ∧ t.inp.iota.rdN j = .ok iota ∧
    s'.out.boozer_I.rdN b = .ok I ∧ s'.out.boozer_G.rdN b = .ok G ∧ s'.out.spec.gmnc_b.rdN 0 b = .ok g ∧
    fin iota ∧ fin I ∧ fin G ∧ fin g ∧ VolumeWithin (val iota) (val I) (val G) (val g) v a e₁ e₂

/-- **C106, from the file.**  Let the data of a surface asked for describe a magnetic field in space as in C99, with nested
surfaces.  On a machine of sufficient precision `u`, given a `wout` file with numbers within `K u` of the exact ones,
`xbooz_xform` leaves a `boozmn` file that has this surface, and whose numbers (first harmonic of the Jacobian; ι, I, G) give the
rate of the volume with the flux and the flux average of B² with an error of `C (1/ntheta^p + 1/nzeta^p) + D u`. -/
theorem C106_file {disk₀ : Disk ℝ} {path₀ : String} {f₀ : NcFile ℝ} {z : WoutSizes} {b₀ : St ℝ}
    (hd₀ : disk₀ path₀ = .nc f₀) (hz₀ : WoutShapes f₀ z) (hl₀ : readWout disk₀ path₀ false construct = .ok () b₀)
    (hi : ∀ k, k < (intsOf f₀ "xn_nyq").size → ((intsOf f₀ "xn_nyq").val 0 k).natAbs < 2147483648)
    (hns : z.ns ≤ 2147483644)
    (hfp : FieldPeriodic b₀.inp z.nfp.toNat) (ho : OriginOnce b₀.inp)
    (hreg : ∀ js : ℕ, (js : ℤ) < z.ns - 1 → (surface b₀.inp (decide (z.lasym ≠ 0)) js).Regular)
    {r₁ : Request} (hc₁ : CanRun f₀ z r₁) (hlen : r₁.surfs.length ≤ 2147483644) {js : ℕ} (hw : Wanted z r₁ js)
    (hrc : NoRadialCurrent b₀.inp (decide (z.lasym ≠ 0)) js)
    {x : ℝ → ℝ → ℝ → V3} {lam : ℝ → ℝ → ℝ → ℝ} {ψ₀ δ : ℝ} {B : ℝ → ℝ → V3}
    (hf : IsField (surface b₀.inp (decide (z.lasym ≠ 0)) js) (bTheta b₀.inp (decide (z.lasym ≠ 0)) js)
      (bZeta b₀.inp (decide (z.lasym ≠ 0)) js) x lam ψ₀ B) (hnest : Nested x ψ₀ δ)
    {Q : V3 → ℝ} (hQ : Continuous Q) (hQB : ∀ θ ζ, Q (x ψ₀ θ ζ) = B θ ζ ⬝ᵥ B θ ζ) {p : ℕ} (hp1 : 1 ≤ p) :
    ∃ v a C, 0 < v ∧ 0 < a ∧ VolumeRate x ψ₀ v ∧ FluxAverage x ψ₀ Q a ∧
      ∀ r : Request, r.surfs = r₁.surfs → CanRun f₀ z r → ∀ K : ℝ, 0 ≤ K → ∃ D u₀, 0 < u₀ ∧
      ∀ (α : Type) [Arith α] (fin : α → Prop) (val : α → ℝ) (u : ℝ), Precision α fin val u → u ≤ u₀ →
      ∀ (w : World α) (content : List Char) (path prog : String) (env : Env) (version : String) (f : NcFile α),
        w.disk path = .other content → Asks content r →
        w.disk ("wout_" ++ String.ofList r.ext ++ ".nc") = .nc f → WoutShapes f z → WoutNear fin val z (K * u) f f₀ →
        VersionOk version → NoFailure env →
        ∃ w' out, driver env version [prog, path] w = .ok 0 w' ∧
          w'.disk ("boozmn_" ++ String.ofList r.ext ++ ".nc") = .nc out ∧ (∃ b, FileInt out "jlist" b (js + 2)) ∧
          ∀ b, FileInt out "jlist" b (js + 2) → ∃ iota I G g,
            FileJacobian fin val out (numModes (polRes z r) (torRes z r)) b js iota I G g ∧
            VolumeWithin iota I G g v a (C * gridError (polRes z r) (torRes z r) p) (D * u) := by
  obtain ⟨hg₀, hl₀'⟩ := wout_loaded hd₀ hz₀ hl₀
  obtain ⟨-, -, C₀, -⟩ := vmec_inv hg₀ hl₀'
  have hns2 : 2 ≤ z.ns := C₀.ns_ge
  obtain ⟨l, hS, hl1, hl2, hmem⟩ := wantedVec_full (r := r₁) hns2
  have hr₁ := requested_ready hg₀ hl₀' hi hc₁ hS hl1
  have hsel : ∀ b (hb : b < l.length), (wantedVec z r₁).val 0 b = l[b] := fun b hb => by rw [hS, val_list hb]
  have range : ∀ b < l.length, 0 ≤ (wantedVec z r₁).val 0 b ∧ (wantedVec z r₁).val 0 b < z.ns - 1 := fun b hb => by
    have := hr₁.surfs_range b hb
    have h1 : 0 ≤ (wantedVec z r₁).val 0 b := this.1
    have h2 : ((wantedVec z r₁).val 0 b) < ((z.ns - 1).toNat : ℕ) := this.2
    omega
  have range' : ∀ b < l.length, (((wantedVec z r₁).val 0 b).toNat : ℤ) < z.ns - 1 := fun b hb => by
    have := range b hb
    omega
  set s := settings (wantedVec z r₁) (polRes z r₁) (torRes z r₁) 1 b₀ with hs
  set d := (loadedContents z.ns (woutSizesOf f₀ z) ((intsOf f₀ "xm_nyq").val 0 (z.mnmax_nyq.toNat - 1)) l.length).dims
    (polRes z r₁) (torRes z r₁) with hdims
  have esel : ∀ b (hb : b < l.length), l[b] = js → selected s.inp b = js := fun b hb e => by
    show ((wantedVec z r₁).val 0 b).toNat = _
    rw [hsel b hb, e]
    exact Int.toNat_natCast js
  have M0 := fun b (hb : b < l.length) (e : l[b] = js) => C106_machine (s := s) (d := d) hr₁ hfp ho (b := b) hb
    (by rw [esel b hb e]; exact hrc) (fun b' hb' => hreg _ (range' b' hb')) (x := x) (lam := lam) (ψ₀ := ψ₀) (δ := δ) (B := B)
    (by rw [esel b hb e]; exact hf) hnest hQ hQB hp1
  obtain ⟨q, hq, eq⟩ := List.mem_iff_getElem.1 ((hmem js).2 hw)
  obtain ⟨v, a, -, hv, ha, h1, h2, -⟩ := M0 q hq eq
  have ge0 : ∀ M N, 0 ≤ gridError M N p := fun M N => by unfold gridError; positivity
  have each : ∀ b < l.length, ∃ C : ℝ, (∃ hb : b < l.length, l[b] = js) → ∀ M N : ℕ,
      RunReady { s.inp with mboz := M, nboz := N } { d with M := M, N := N } → ∀ K : ℝ, 0 ≤ K → ∃ D u₀, 0 < u₀ ∧
        ∀ (α : Type) [Arith α] (fin : α → Prop) (val : α → ℝ) (u : ℝ), Precision α fin val u → u ≤ u₀ →
        ∀ s1 : St α, RunReady s1.inp { d with M := M, N := N } →
          InputsNear fin val { d with M := M, N := N } (K * u) s1.inp s.inp →
          ∃ s' r, run false s1 = .ok (s', r) ∧ VolumeStored fin val s1 s' js b v a (C * gridError M N p) (D * u) := by
    intro b hb
    by_cases e : l[b] = js
    swap
    · exact ⟨0, fun h => absurd h.2 e⟩
    obtain ⟨v', a', C, -, -, h1', h2', H⟩ := M0 b hb e
    cases tendsto_nhds_unique h1 h1'
    cases tendsto_nhds_unique h2 h2'
    refine ⟨C, fun _ M N hr K hK => ?_⟩
    obtain ⟨D, u₀, h0, G⟩ := H M N hr K hK
    refine ⟨D, u₀, h0, fun α _ fin val u hu hle s1 hs1 hn1 => ?_⟩
    obtain ⟨s', r, iota, I, G', g, g1, g2, g3, g4, g5, g6, g7, g8, g9, g10, g11, g12, g13⟩ := G α fin val u hu hle s1 hs1 hn1
    rw [esel b hb e] at g4
    exact ⟨s', r, g1, iota, I, G', g, g2, g3, g4, g5, g6, g7, g8, g9, g10, g11, g12, g13⟩
  obtain ⟨C, H⟩ := all_below (fun b C C' hC h hb M N hr K hK => by
    obtain ⟨D, u₀, h0, G⟩ := h hb M N hr K hK
    refine ⟨D, u₀, h0, fun α _ fin val u hu hle s1 hs1 hn1 => ?_⟩
    obtain ⟨s', r, g1, iota, I, G', g, g2, g3, g4, g5, g6, g7, g8, g9, g10, g11, g12⟩ := G α fin val u hu hle s1 hs1 hn1
    exact ⟨s', r, g1, iota, I, G', g, g2, g3, g4, g5, g6, g7, g8, g9, g10, g11,
      within_mono g12 (mul_le_mul_of_nonneg_right hC (ge0 M N)) le_rfl⟩) l.length each
  refine ⟨v, a, C, hv, ha, h1, h2, fun r hrs hc K hK => ?_⟩
  have hW : wantedVec z r = wantedVec z r₁ := by unfold wantedVec; rw [hrs]
  have hr := requested_ready hg₀ hl₀' hi hc (hW.trans hS) hl1
  rw [hW] at hr
  obtain ⟨E, u₁, e0, hu₁, L⟩ := C71_load hg₀ hl₀' hK
  obtain ⟨D, u₀, h0, G⟩ := all_below₂ (P := fun b D u₀ => (∃ hb : b < l.length, l[b] = js) →
        ∀ (α : Type) [Arith α] (fin : α → Prop) (val : α → ℝ) (u : ℝ), Precision α fin val u → u ≤ u₀ →
        ∀ s1 : St α, RunReady s1.inp { d with M := polRes z r, N := torRes z r } →
          InputsNear fin val { d with M := polRes z r, N := torRes z r } (E * u) s1.inp s.inp →
          ∃ s' rep, run false s1 = .ok (s', rep) ∧
            VolumeStored fin val s1 s' js b v a (C * gridError (polRes z r) (torRes z r) p) (D * u))
    (fun b D D' u u' hD hu' h hb α _ fin val w hw hle s1 hs1 hn1 => by
      obtain ⟨s', rep, g1, iota, I, G', g, g2, g3, g4, g5, g6, g7, g8, g9, g10, g11, g12⟩ :=
        h hb α fin val w hw (hle.trans hu') s1 hs1 hn1
      exact ⟨s', rep, g1, iota, I, G', g, g2, g3, g4, g5, g6, g7, g8, g9, g10, g11,
        within_mono g12 le_rfl (mul_le_mul_of_nonneg_right hD hw.u_pos.le)⟩) l.length
    (fun b hb => by
      by_cases e : l[b] = js
      swap
      · exact ⟨0, 1, one_pos, fun h => absurd h.2 e⟩
      obtain ⟨D, u₀, h0, G⟩ := H b hb ⟨hb, e⟩ (polRes z r) (torRes z r) hr E e0
      exact ⟨D, u₀, h0, fun _ => G⟩)
  refine ⟨D, min u₁ u₀, lt_min hu₁ h0, fun α _ fin val u hu hle w content path prog env version f hp ha hd hz hn hv he => ?_⟩
  obtain ⟨b, hb⟩ := loads_near hd₀ hz₀ hl₀ hd hz hn
  obtain ⟨hg, hl⟩ := wout_loaded hd hz hb
  have hx := hn.modes "xn_nyq" (by simp)
  obtain ⟨w', hw'⟩ := (C43_exact (prog := prog) hp ha hd hz hb (by rw [hx]; exact hi) hv he (by rw [hrs]; exact hlen)
    hns).1.2 ((canRun_near hn r).2 hc)
  obtain ⟨b1, t, rep, v', k1, k2, k3, k4⟩ := driver_inv hp ha hw'
  cases (show Out.ok () b1 = Out.ok () b from k1.symm.trans hb)
  have hmp := hc.1.mpol
  have e0 : (woutSizesOf f₀ z).mpol = z.mpol := rfl
  obtain ⟨e1, e2⟩ := res_eq (z := z) (r := r) (by omega)
  rw [requested_settings r hg hl, ← e1, ← e2, hW] at k2
  rw [woutSizes_near hn] at hg
  obtain ⟨R, r2, r3, r4, r5⟩ := ready_loaded hg₀ hl₀' hg hl (sameModes_near hn) hr
  have near := L α fin val u hu (hle.trans (min_le_left _ _)) _ _ b hg (sameModes_near hn) (argsNear_near hz hn) hl
    { d with M := polRes z r, N := torRes z r } r2 r3 r4 r5
  have hflux : FluxOk (settings (wantedVec z r₁) (polRes z r) (torRes z r) 1 b).flux (z.ns - 1).toNat := by
    rw [vmec_result hg hl]
    exact .inl rfl
  have HR := run_hasResults R hl1 (by show l.length ≤ _; omega) (by show (z.ns - 1).toNat + 1 ≤ _; omega) hflux
  rw [← (run_false R k2).1] at HR
  obtain ⟨out, o1, o2⟩ := C34_layout HR hv k3
  have hj : HoldsSurfs out l.length (listVec l) := by
    have := o2.jlist
    rw [(run_false R k2).1] at this
    rw [← hS]
    exact this
  refine ⟨w', out, hw', by rw [k4]; exact o1, ⟨q, (fileSurf_iff hj).2 ⟨hq, eq⟩⟩, fun b' g1 => ?_⟩
  obtain ⟨hb', eb⟩ := (fileSurf_iff hj).1 g1
  obtain ⟨t', rep', p1, iota, I, G', g, p2, p3, p4, p5, p6, p7, p8, p9, p10, p11, p12⟩ := G b' hb' ⟨hb', eb⟩ α fin val u hu
    (hle.trans (min_le_right _ _)) (settings (wantedVec z r₁) (polRes z r) (torRes z r) 1 b) R { near with surfs := rfl }
  rw [k2] at p1
  cases p1
  have hlt : js < (z.ns - 1).toNat := by
    have := range b' hb'
    rw [hsel b' hb', eb] at this
    omega
  have ho' : OriginOnce (settings (wantedVec z r₁) (polRes z r) (torRes z r) 1 b).inp := by
    have e1 : b.inp.xm_nyq = b₀.inp.xm_nyq := near.xm_nyq
    have e2 : b.inp.xn_nyq = b₀.inp.xn_nyq := near.xn_nyq
    show OriginOnce b.inp
    unfold OriginOnce at ho ⊢
    rw [e1, e2]
    exact ho
  obtain ⟨-, -, -, -, hall, hsurf⟩ := C15_flux_functions R ho' k2
  have es : selected (settings (wantedVec z r₁) (polRes z r) (torRes z r) 1 b).inp b' = js := esel b' hb' eb
  have q5 : t.out.boozer_I_all.rdN js = .ok I := by
    rw [(hall js hlt).1, ← p5, (hsurf b' hb').1, es]
  have q6 : t.out.boozer_G_all.rdN js = .ok G' := by
    rw [(hall js hlt).2, ← p6, (hsurf b' hb').2, es]
  have q4 : t.inp.iota.rdN js = .ok iota := by
    rw [(run_false R k2).1]
    exact p4
  have prof : ∀ {a : Vec α} {name : String} {y : α}, HoldsShifted out (z.ns - 1).toNat name (ofInt 0) a → a.rdN js = .ok y →
      fin y → FileProfile fin val out name (js + 1) (val y) := by
    rintro a name y ⟨v, c, h1, h2, h3, -, -, h4⟩ hy hfin
    refine ⟨v, c, y, h1, h2, h3, ?_, hfin, rfl⟩
    rw [h4 js hlt]
    unfold Vec.rdN at hy
    split at hy
    · rename_i y hy'
      cases hy
      exact hy'
    · cases hy
    · cases hy
  have ints : ∀ {name : String} {a : Vec ℤ} {k : ℕ} {x : ℤ}, HoldsInts out "mn_modes" name a → a.rdN k = .ok x →
      FileInt out name k x := by
    intro name a k x h hx
    rw [fileInt_iff h]
    unfold Vec.rdN at hx
    split at hx
    · rename_i y hy
      cases hx
      exact hy
    · cases hx
    · cases hx
  refine ⟨val iota, val I, val G', val g, ⟨ints o2.ixm_b p2, ints o2.ixn_b p3, prof o2.iota_b q4 p8, prof o2.buco_b q5 p9,
    prof o2.bvco_b q6 p10, ?_⟩, p12⟩
  obtain ⟨v, c, h1, h2, h3, -, h4⟩ := o2.gmn_b
  refine ⟨v, c, g, h1, h2, h3, ?_, p11, rfl⟩
  refine (h4 b' hb' 0 (Nat.succ_pos _)).trans ?_
  rw [cell_of_rdN p7]
  rfl

/-! ### The cylinder of the example file -/

theorem Ex.even_nested : Nested Ex.evenX 0 1 := by
  have hr : 0 < Ex.evenRad := Real.sqrt_pos.2 (by norm_num)
  have hh : 0 < Ex.evenH := Real.sqrt_pos.2 (by norm_num)
  refine ⟨by norm_num, ?_, ?_⟩
  · have c0 : ContDiff ℝ 1 fun p : V3 => p 0 := contDiff_apply ℝ ℝ 0
    have c1 : ContDiff ℝ 1 fun p : V3 => p 1 := contDiff_apply ℝ ℝ 1
    have c2 : ContDiff ℝ 1 fun p : V3 => p 2 := contDiff_apply ℝ ℝ 2
    have cs : ContDiff ℝ 1 fun p : V3 => Real.sin (2 * p 2) := Real.contDiff_sin.comp (contDiff_const.mul c2)
    have cT : ContDiff ℝ 1 fun p : V3 => Ex.evenT (p 1) (p 2) := c1.add (contDiff_const.mul cs)
    have cr : ContDiff ℝ 1 fun p : V3 => Ex.evenRad * (1 + Ex.evenH * p 0 / 55) :=
      contDiff_const.mul (contDiff_const.add ((contDiff_const.mul c0).div_const 55))
    have cZ : ContDiff ℝ 1 fun p : V3 => Ex.evenH * (p 2 + 1 / 44 * Real.sin (2 * p 2)) :=
      contDiff_const.mul (c2.add (contDiff_const.mul cs))
    refine contDiffOn_pi.mpr fun i => ?_
    fin_cases i
    · exact (cr.mul (Real.contDiff_cos.comp cT)).contDiffOn
    · exact (cr.mul (Real.contDiff_sin.comp cT)).contDiffOn
    · exact cZ.contDiffOn
  · intro ψ θ ζ ψ' θ' ζ' hψ hθ hζ hψ' hθ' hζ' e
    have e0 : Ex.evenRad * (1 + Ex.evenH * ψ / 55) * Real.cos (Ex.evenT θ ζ) =
      Ex.evenRad * (1 + Ex.evenH * ψ' / 55) * Real.cos (Ex.evenT θ' ζ') := congrFun e 0
    have e1 : Ex.evenRad * (1 + Ex.evenH * ψ / 55) * Real.sin (Ex.evenT θ ζ) =
      Ex.evenRad * (1 + Ex.evenH * ψ' / 55) * Real.sin (Ex.evenT θ' ζ') := congrFun e 1
    have e2 : Ex.evenH * (ζ + 1 / 44 * Real.sin (2 * ζ)) = Ex.evenH * (ζ' + 1 / 44 * Real.sin (2 * ζ')) := congrFun e 2
    have eζ : ζ = ζ' := by
      have e3 := mul_left_cancel₀ hh.ne' e2
      have lip : |Real.sin (2 * ζ) - Real.sin (2 * ζ')| ≤ |2 * ζ - 2 * ζ'| := Real.abs_sin_sub_sin_le _ _
      have e4 : |ζ - ζ'| ≤ 1 / 44 * (2 * |ζ - ζ'|) := by
        have e5 : ζ - ζ' = -(1 / 44 * (Real.sin (2 * ζ) - Real.sin (2 * ζ'))) := by linarith
        have e6 : |2 * ζ - 2 * ζ'| = 2 * |ζ - ζ'| := by rw [← mul_sub, abs_mul, abs_two]
        calc |ζ - ζ'| = 1 / 44 * |Real.sin (2 * ζ) - Real.sin (2 * ζ')| := by
              rw [e5, abs_neg, abs_mul, abs_of_pos (by norm_num : (0 : ℝ) < 1 / 44)]
          _ ≤ _ := by rw [← e6]; exact mul_le_mul_of_nonneg_left lip (by norm_num)
      have := abs_nonneg (ζ - ζ')
      exact sub_eq_zero.1 (abs_eq_zero.1 (by linarith))
    subst eζ
    have s1 := Real.sin_sq_add_cos_sq (Ex.evenT θ ζ)
    have s2 := Real.sin_sq_add_cos_sq (Ex.evenT θ' ζ)
    have pos : ∀ {ψ : ℝ}, 0 < ψ → 0 < Ex.evenRad * (1 + Ex.evenH * ψ / 55) := fun h => by positivity
    have r1 := pos hψ.1
    have r2 := pos hψ'.1
    have er : Ex.evenRad * (1 + Ex.evenH * ψ / 55) = Ex.evenRad * (1 + Ex.evenH * ψ' / 55) := by
      generalize Ex.evenRad * (1 + Ex.evenH * ψ / 55) = R at *
      generalize Ex.evenRad * (1 + Ex.evenH * ψ' / 55) = R' at *
      have k : R ^ 2 * (Real.sin (Ex.evenT θ ζ) ^ 2 + Real.cos (Ex.evenT θ ζ) ^ 2) =
          R' ^ 2 * (Real.sin (Ex.evenT θ' ζ) ^ 2 + Real.cos (Ex.evenT θ' ζ) ^ 2) := by
        rw [mul_add, mul_add, ← mul_pow, ← mul_pow, ← mul_pow, ← mul_pow, e0, e1]
      rw [s1, s2, mul_one, mul_one] at k
      exact (sq_eq_sq₀ r1.le r2.le).1 k
    have eψ : ψ = ψ' := by
      have k := mul_left_cancel₀ hr.ne' er
      have : Ex.evenH * ψ = Ex.evenH * ψ' := by linarith
      exact mul_left_cancel₀ hh.ne' this
    subst eψ
    have c := mul_left_cancel₀ r1.ne' e0
    have s := mul_left_cancel₀ r1.ne' e1
    obtain ⟨k, hk⟩ := (Real.Angle.angle_eq_iff_two_pi_dvd_sub).mp (Real.Angle.cos_sin_inj c s)
    have hk' : θ - θ' = k * (2 * Real.pi) := by
      unfold Ex.evenT at hk
      linarith
    refine ⟨rfl, ?_, rfl⟩
    have p0 : (0 : ℝ) < 2 * Real.pi := by positivity
    have u1 : (k : ℝ) * (2 * Real.pi) < 1 * (2 * Real.pi) := by linarith [hθ.2, hθ'.1]
    have u2 : (-1 : ℝ) * (2 * Real.pi) < k * (2 * Real.pi) := by linarith [hθ.1, hθ'.2]
    have v1 := lt_of_mul_lt_mul_right u1 p0.le
    have v2 := lt_of_mul_lt_mul_right u2 p0.le
    have k0 : k = 0 := by
      have w1 : k < 1 := by exact_mod_cast v1
      have w2 : -1 < k := by exact_mod_cast v2
      omega
    rw [k0] at hk'
    simp at hk'
    linarith

/-- C106 for the file: the cylinder at resolution 16 × 8, on machines with more and more bits. -/
example : ∃ v a C D : ℝ, 0 < v ∧ 0 < a ∧ VolumeRate Ex.evenX 0 v ∧ FluxAverage Ex.evenX 0 (fun _ => 4) a ∧
    ∃ p₀, ∀ p ≥ p₀, ∃ w' out,
    driver Ex.calm "0.0.1" ["xbooz_xform", "in"] (Ex.evenWorld (α := Ex.Flp p) Ex.input) = .ok 0 w' ∧
    w'.disk ("boozmn_" ++ String.ofList ['x'] ++ ".nc") = .nc out ∧ (∃ b, FileInt out "jlist" b 2) ∧
    ∀ b, FileInt out "jlist" b 2 → ∃ iota I G g,
      FileJacobian (fun _ => True) Ex.Flp.val out (numModes 16 8) b 0 iota I G g ∧
      VolumeWithin iota I G g v a (C * gridError 16 8 9) (D * (4 / 2 ^ p)) := by
  obtain ⟨b₀, h₀⟩ := Ex.even_loads (α := ℝ) Ex.input
  have s := Ex.evened h₀
  obtain ⟨hp, ho, hreg, -, -⟩ := Ex.evened_ok s
  have hi : ∀ k, k < (intsOf (Ex.even (α := ℝ)) "xn_nyq").size →
      ((intsOf (Ex.even (α := ℝ)) "xn_nyq").val 0 k).natAbs < 2147483648 := by
    rw [Ex.even_ints (by decide), Ex.soft_ints (by decide)]
    exact Ex.wout_nyq
  have hB : ∀ θ ζ, (fun _ : V3 => (4 : ℝ)) (Ex.evenX 0 θ ζ) = Ex.evenField θ ζ ⬝ᵥ Ex.evenField θ ζ := fun θ ζ => by
    obtain ⟨-, -, -, -, -, h⟩ := (Ex.even_field s).point θ ζ
    rw [h, Ex.even_B s (by omega)]
    norm_num
  obtain ⟨v, a, C, hv, ha, h1, h2, H⟩ := C106_file (Ex.evenWorld_wout _) Ex.even_shapes h₀ hi (by decide) hp ho hreg
    (r₁ := Ex.request) Ex.even_can_run (by decide) (js := 0) Ex.even_wanted (Ex.even_noCurrent s) (Ex.even_field s)
    Ex.even_nested (Q := fun _ => 4) continuous_const hB (p := 9) (by norm_num)
  obtain ⟨D, u₀, h0, G⟩ := H Ex.request rfl Ex.even_can_run 100 (by norm_num)
  obtain ⟨p₀, hp₀⟩ := Ex.bits h0
  refine ⟨v, a, C, D, hv, ha, h1, h2, p₀, fun p hp => ?_⟩
  exact G (Ex.Flp p) _ Ex.Flp.val (4 / 2 ^ p) (Ex.flp_precision p) (hp₀ p hp)
    (Ex.evenWorld Ex.input) Ex.input "in" "xbooz_xform" Ex.calm "0.0.1" Ex.even (Ex.evenWorld_in _) Ex.input_asks
    (Ex.evenWorld_wout _) Ex.even_shapes (Ex.even_near p) Ex.version Ex.noFailure

end Booz
