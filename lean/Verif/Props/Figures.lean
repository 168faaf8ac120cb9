import Verif.Spec.Figures
import Verif.Props.Positions
import Verif.Props.Wires
import Verif.Props.PlotsFile

/-!
# What `surfplot` and `wireplot` show of the equilibrium (C111)
-/

namespace Booz
open Spec Plots Finset

/-- The series of |B| of the outputs has the quadratures as coefficients. -/
theorem seriesB_eq {s : St ℝ} {d : Dims} (h : RunReady s.inp d) (hp : FieldPeriodic s.inp d.nfp) (ho : OriginOnce s.inp)
    {b : ℕ} (hb : b < d.nsb) : seriesB (runSt d s d.nsb) (numModes d.M d.N) d.asym b =
      (surface s.inp d.asym (selected s.inp b)).quadSeries d.nfp d.M d.N (surface s.inp d.asym (selected s.inp b)).B := by
  set S := surface s.inp d.asym (selected s.inp b) with hS
  have g := fun (k : ℕ) (hk : k < d.nmodes) => spectrum_at h hp ho (b := b) hb hk
  have par := fun (ha : d.asym = false) (m n : ℤ) => quad_parity h hp ha (selected s.inp b) (ntheta_pos d.M) (nzeta_pos d.N) m n
  funext t z
  unfold seriesB Surface.quadSeries
  refine series_sum h (c := S.quadCos (ntheta d.M) (nzeta d.N) d.nfp S.B)
    (t := S.quadSin (ntheta d.M) (nzeta d.N) d.nfp S.B) (fun k hk => Mat.val_of_rdN 0 (g k hk).1) (fun k hk => ?_) t z
  cases ha : d.asym
  · exact ((par ha _ _).1).symm
  · exact Mat.val_of_rdN 0 ((g k hk).2.2.2.2.2 ha).1

/-- **C111.**  Let the Boozer angles of the selected surface `b` be coordinates.  For any order `p` there is a constant `C`
such that after `run` at every resolution (numbers of modes comparable, grid resolving the angles) what `surfplot` and
`wireplot` draw for this surface is within `C / mboz^p` of |B| and of the positions of the points of the flux surface with the
plotted Boozer angles, for all parameters of the plots.  After `write_boozmn` the same holds of the plots made from the file,
except for the original curves (C51). -/
theorem C111_figures {s : St ℝ} {d : Dims} (h : RunReady s.inp d) (hp : FieldPeriodic s.inp d.nfp) (ho : OriginOnce s.inp)
    {b : ℕ} (hb : b < d.nsb) (hreg : (surface s.inp d.asym (selected s.inp b)).Regular)
    (hdet : ∀ θ ζ, (surface s.inp d.asym (selected s.inp b)).det θ ζ ≠ 0) {c : ℝ} (hc : 0 ≤ c) {ρ : ℝ} (hρ : ρ < 1) (p : ℕ) :
    let S := surface s.inp d.asym (selected s.inp b)
    let x := inputPoint s.inp d.asym (selected s.inp b)
    ∃ C, 0 ≤ C ∧ ∀ (M N : ℕ) (s1 : St ℝ), 1 ≤ N → (M : ℝ) ≤ c * N → (N : ℝ) ≤ c * M →
      s1.inp = { s.inp with mboz := M, nboz := N } → RunReady s1.inp { d with M := M, N := N } →
      S.ResolvedBy d.nfp M N ρ →
      (∀ dbg, ∃ s' r, run dbg s1 = .ok (s', r) ∧ ∀ disk,
        ShowsField (surfplot disk (.object s')) S d.nfp d.nsb b (C * (1 / (M : ℝ)) ^ p) ∧
        ShowsWires (wireplot disk (.object s')) S x d.nsb b True (C * (1 / (M : ℝ)) ^ p)) ∧
      ∀ (env : Env) (version filename : String) (disk : Disk ℝ), HalfGrid s1.inp.s_in d.ns → FluxOk s1.flux d.ns →
        (s1.flux.phip.size ≠ 0 → ∃ y, s1.flux.phi[d.ns]? = some (some y)) →
        d.nsb ≤ 2147483644 → d.ns + 1 ≤ 2147483644 → VersionOk version → NoFailure env →
        ∃ s' r w, run false s1 = .ok (s', r) ∧ writeBoozmn env version filename disk s' = .ok () w ∧
          ShowsField (surfplot w.core.disk (.file filename)) S d.nfp d.nsb b (C * (1 / (M : ℝ)) ^ p) ∧
          ShowsWires (wireplot w.core.disk (.file filename)) S x d.nsb b False (C * (1 / (M : ℝ)) ^ p) := by
  intro S x
  obtain ⟨C, hC, hr⟩ := surface_rate h hp hreg hdet hc hρ p
  obtain ⟨C', hC', -, h2⟩ := C109_positions h hp ho hb hreg hdet hc hρ p
  refine ⟨C + C', by positivity, fun M N s1 hN hMN hNM e1 h1 hres => ?_⟩
  have obj : ∀ dbg, ∃ s' r, run dbg s1 = .ok (s', r) ∧ ∀ disk,
        ShowsField (surfplot disk (.object s')) S d.nfp d.nsb b ((C + C') * (1 / (M : ℝ)) ^ p) ∧
        ShowsWires (wireplot disk (.object s')) S x d.nsb b True ((C + C') * (1 / (M : ℝ)) ^ p) := by
    intro dbg
    have hp' : FieldPeriodic s1.inp ({ d with M := M, N := N } : Dims).nfp := by rw [e1]; exact hp
    have ho' : OriginOnce s1.inp := by rw [e1]; exact ho
    have eS : surface s1.inp ({ d with M := M, N := N } : Dims).asym (selected s1.inp b) = S := by rw [e1]; rfl
    obtain ⟨s', r, er, k1, -⟩ := h2 M N s1 dbg hN hMN hNM e1 h1 hres
    have er' := originFirst_of h1 ho' dbg
    rw [er] at er'
    injection er' with er'
    injection er' with es
    have hcomp : Computed s' (numModes M N) d.nsb d.nfp d.asym := by rw [es]; exact run_computed h1
    have horig : OriginalData s'.inp d.mnmax d.ns d.nsb d.asym := by rw [es]; exact run_original h1
    have hle : ∀ {a C : ℝ}, 0 ≤ a → C * (1 / (M : ℝ)) ^ p ≤ (C + a) * (1 / (M : ℝ)) ^ p := fun ha =>
      mul_le_mul_of_nonneg_right (by linarith) (by positivity)
    have onto : ∀ t z, ∃ θ ζ, S.thetaB θ ζ = t ∧ S.zetaB θ ζ = z := fun t z => by
      obtain ⟨y, hy⟩ := every_angle_occurs h hp (selected s.inp b) (t, z)
      exact ⟨y.1, y.2, congrArg Prod.fst hy, congrArg Prod.snd hy⟩
    refine ⟨s', r, er, fun disk => ⟨fun js fill nt np nc fig hcol ht hq => ?_,
      boozerPoint s' (numModes M N) d.asym b, onto, fun θ ζ => (k1 θ ζ).trans ?_,
      fun a nt np q hcol hlast ht hq hrf hr2 _ => ?_⟩⟩
    · obtain ⟨X, Y, Z, g1, g2, g3, g4, g5, -⟩ := C50_surfplot hcomp hcol fill ht hq nc fig
      refine ⟨X, Y, Z, g1 disk, g2, g3, g4, fun i hi j hj => ?_⟩
      obtain ⟨f1, f2, f3⟩ := g5 i hi j hj
      refine ⟨f1, f2, onto _ _, fun θ ζ e2 e3 => ?_⟩
      have e := seriesB_eq h1 hp' ho' (b := b) hb
      rw [eS] at e
      have e' : seriesB (runSt { d with M := M, N := N } s1 d.nsb) (numModes M N) d.asym b = S.quadSeries d.nfp M N S.B := e
      have e4 : seriesB s' (numModes M N) d.asym b = S.quadSeries d.nfp M N S.B := by rw [es]; exact e'
      rw [f3, e4, ← e2, ← e3, abs_sub_comm]
      exact (hr S.B (by show _ ∈ [S.B, S.R, S.Z, S.nu, S.jacobian]; simp) M N h1.mboz_ge hN hMN hNM hres θ ζ).trans (hle hC')
    · rw [add_comm C C']
      exact hle hC
    · have hreq : Requested d.nsb a.js b := by
        unfold Requested
        cases ha : a.js with
        | none => exact hlast ha
        | some js => exact hcol js ha
      obtain ⟨first, g1, g2, g3⟩ := C51_partial (c := b) (nt := nt) (np := np) (r := q) hcomp a hreq ht hq hrf hr2
        fun _ => horig
      refine ⟨first, fun fig => ?_, g2, g3⟩
      rw [g1 disk fig]
      have e5 : inputPoint s'.inp d.asym (selected s'.inp b) = x := by
        rw [es]
        show inputPoint s1.inp d.asym (selected s1.inp b) = x
        rw [e1]
        rfl
      rw [e5]
  refine ⟨obj, fun env version filename disk hh hf hphi hn1 hn2 hv he => ?_⟩
  obtain ⟨s', r, er, k⟩ := obj false
  have hnb : 1 ≤ d.nsb := by omega
  have hs' : s' = runSt { d with M := M, N := N } s1 d.nsb := (run_false h1 er).1
  have hres' : HasResults s' (numModes M N) d.nsb d.nsb d.ns d.asym := by
    rw [hs']
    exact run_hasResults h1 hnb hn1 hn2 hf
  obtain ⟨w, hw⟩ : ∃ w, writeBoozmn env version filename disk s' = .ok () w := by
    rcases write_total (env := env) (filename := filename) (disk := disk) hres' hv with k | ⟨⟨k, m, k'⟩, _⟩
    · exact k
    · rw [he] at k'
      cases k'
  obtain ⟨f1, -, -, f2⟩ := C63_partial (any := disk) (fun x : ℝ => neg_neg x) h1 hh hnb hn1 hn2 hf hphi er hv hw
  refine ⟨s', r, w, er, hw, ?_, ?_⟩
  · intro js fill nt np nc fig
    rw [f1]
    exact (k disk).1 js fill nt np nc fig
  · obtain ⟨y, y1, y2, y3⟩ := (k disk).2
    refine ⟨y, y1, y2, fun a nt np q g1 g2 g3 g4 g5 g6 g7 => ?_⟩
    have ho : a.orig = false := by
      cases e : a.orig
      · rfl
      · exact (g7 e).elim
    rw [f2 a ho]
    exact y3 a nt np q g1 g2 g3 g4 g5 g6 fun _ => trivial

/-! Non-vacuity: the example on VMEC's half grid, with flux profiles or without. -/

/-- The example on VMEC's half grid. -/
noncomputable def Ex.drawn (asym fl : Bool) (M N : ℕ) : St ℝ :=
  { Ex.gentle asym with
    inp := { (Ex.gentle asym).inp with s_in := (Ex.inputsH asym).s_in, mboz := M, nboz := N }
    flux := Ex.flux fl }

theorem Ex.drawn_ready (asym fl : Bool) {M N : ℕ} (hM : 1 ≤ M) (h : (4 * M + 2) * (4 * N + 2) < 2 ^ 30) :
    RunReady (Ex.drawn asym fl M N).inp { Ex.dims asym with M := M, N := N } :=
  { Ex.gentle_ready_res asym hM h with s_in := Vec.full_tab _ _ }

example (asym fl : Bool) : ∃ C, ∀ M N : ℕ, 1 ≤ M → 1 ≤ N → M ≤ 2 * N → N ≤ 2 * M → (4 * M + 2) * (4 * N + 2) < 2 ^ 30 →
    ∃ s' r w, run false (Ex.drawn asym fl M N) = .ok (s', r) ∧
      writeBoozmn Ex.calm "0.0.1" "boozmn.nc" Ex.disk0 s' = .ok () w ∧
      ShowsField (surfplot w.core.disk (.file "boozmn.nc"))
        (surface (Ex.gentle asym).inp asym (selected (Ex.gentle asym).inp 1)) 2 2 1 (C * (1 / (M : ℝ)) ^ 6) ∧
      ShowsWires (wireplot w.core.disk (.file "boozmn.nc"))
        (surface (Ex.gentle asym).inp asym (selected (Ex.gentle asym).inp 1))
        (inputPoint (Ex.gentle asym).inp asym (selected (Ex.gentle asym).inp 1)) 2 1 False (C * (1 / (M : ℝ)) ^ 6) := by
  have hs := Ex.selected_lt asym 1 (by decide)
  obtain ⟨C, -, H⟩ := C111_figures (s := Ex.drawn asym fl 2 1) (d := { Ex.dims asym with M := 2, N := 1 })
    (Ex.drawn_ready asym fl (by decide) (by decide))
    (Ex.fieldPeriodic (α := ℝ) asym) (Ex.originOnce (α := ℝ) asym) (b := 1) (by show 1 < 2; decide)
    (Ex.gentle_regular asym hs) (fun θ ζ => (lt_trans (by norm_num) (Ex.gentle_det asym hs θ ζ)).ne')
    (c := 2) (by norm_num) (ρ := 1 / 2) (by norm_num) 6
  refine ⟨C, fun M N k1 k2 k3 k4 k5 => ?_⟩
  refine (H M N (Ex.drawn asym fl M N) k2 (by exact_mod_cast k3) (by exact_mod_cast k4) rfl (Ex.drawn_ready asym fl k1 k5)
    (Ex.gentle_resolved asym hs k3 k4)).2 Ex.calm "0.0.1" "boozmn.nc" Ex.disk0 ⟨Vec.size_tab _ _, fun j hj => ?_⟩
    (Ex.fluxOk fl) ?_ (by show 2 ≤ 2147483644; decide) (by show 2 + 1 ≤ 2147483644; decide) Ex.version Ex.noFailure
  · show (Vec.tab 2 _)[j]? = _
    rw [Vec.getElem?_tab, if_pos (show j < 2 from hj)]
    rfl
  · exact Ex.done_phi asym fl

end Booz
