import Verif.Lemmas.PlotsReal
import Verif.Props.Plots
import Mathlib.Analysis.SpecialFunctions.Trigonometric.Deriv

/-!
# C50, C51: `surfplot` and `wireplot`
-/

namespace Booz
open Spec Plots Finset
variable {b : St ℝ} {K nb nfp : ℕ} {asym : Bool}

/-! ### C50 -/

theorem period_ok (h : Computed b K nb nfp asym) : period b = .ok (2 * Real.pi / nfp) := by
  unfold period
  rw [h.nfp_eq]
  show (if (nfp : Int) = 0 then _ else _) = _
  have := h.nfp_pos
  rw [if_neg (by omega)]
  show Except.ok (twopi / ofInt (nfp : Int)) = _
  rw [real_twopi, real_ofInt]
  simp

/-- **C50.**  The field drawn by `surfplot` is the output series of |B|, on the grid
θ = 2π i / (ntheta - 1), φ = 2π j / (nfp (nphi - 1)); its first and last rows and columns agree. -/
theorem C50_surfplot (h : Computed b K nb nfp asym) {js : Int} {c : ℕ} (hc : IsColumn nb js c) (fill : Bool) {nt np : ℕ}
    (ht : 1 ≤ nt) (hp : 1 ≤ np) (ncontours : Int) (fig : List (Drawn ℝ)) :
    ∃ X Y Z : Plane ℝ,
      (∀ disk, surfplot disk (.object b) js fill (nt + 1) (np + 1) ncontours fig =
        .ok () (fig ++ [.contours fill ncontours X Y Z])) ∧
      (X.rows = nt + 1 ∧ X.cols = np + 1) ∧ (Y.rows = nt + 1 ∧ Y.cols = np + 1) ∧ (Z.rows = nt + 1 ∧ Z.cols = np + 1) ∧
      (∀ i ≤ nt, ∀ j ≤ np, Y.get i j = 2 * Real.pi * i / nt ∧ X.get i j = 2 * Real.pi * j / (nfp * np) ∧
        Z.get i j = seriesB b K asym c (Y.get i j) (X.get i j)) ∧
      (∀ j ≤ np, Z.get nt j = Z.get 0 j) ∧
      ((∀ k < K, (nfp : ℤ) ∣ outN b k) → ∀ i ≤ nt, Z.get i np = Z.get i 0) := by
  have hnt : (nt : ℝ) ≠ 0 := by positivity
  have hnp : (np : ℝ) ≠ 0 := by positivity
  have hf : (nfp : ℝ) ≠ 0 := by have := h.nfp_pos; positivity
  have e1 : ∀ i ≤ nt, linspaceAt (twopi : ℝ) ((nt : Int) + 1) i = 2 * Real.pi * i / nt := by
    intro i hi
    rw [linspaceAt_real _ hi, real_twopi]
  have e2 : ∀ j ≤ np, linspaceAt (2 * Real.pi / (nfp : ℝ)) ((np : Int) + 1) j = 2 * Real.pi * j / (nfp * np) := by
    intro j hj
    rw [linspaceAt_real _ hj]
    field_simp
  refine ⟨⟨nt + 1, np + 1, fun _ j => linspaceAt (2 * Real.pi / (nfp : ℝ)) ((np : Int) + 1) j⟩,
    ⟨nt + 1, np + 1, fun i _ => linspaceAt twopi ((nt : Int) + 1) i⟩,
    ⟨nt + 1, np + 1, fun i j => seriesB b K asym c (linspaceAt twopi ((nt : Int) + 1) i)
      (linspaceAt (2 * Real.pi / (nfp : ℝ)) ((np : Int) + 1) j)⟩, ?_, ⟨rfl, rfl⟩, ⟨rfl, rfl⟩, ⟨rfl, rfl⟩,
    fun i hi j hj => ⟨e1 i hi, e2 j hj, rfl⟩, ?_, ?_⟩
  · intro disk
    show surfplotObj b js fill (nt + 1) (np + 1) ncontours fig = _
    unfold surfplotObj
    rw [linspace_ok, Prog.lift_ok_bind, period_ok h, Prog.lift_ok_bind, linspace_ok, Prog.lift_ok_bind, h.xm_b.1,
      modB_ok h hc, Prog.lift_ok_bind, if_neg (by omega)]
    rw [at1_col 0 h.s_b hc]
    rfl
  · intro j hj
    show seriesB b K asym c _ _ = seriesB b K asym c _ _
    rw [e1 nt le_rfl, e1 0 (Nat.zero_le _), mul_div_cancel_right₀ _ hnt]
    unfold seriesB series
    refine sum_congr rfl fun k _ => ?_
    rw [show (outM b k : ℝ) * (2 * Real.pi) - outN b k * linspaceAt (2 * Real.pi / (nfp : ℝ)) ((np : Int) + 1) j =
      (outM b k * (2 * Real.pi * (0 : ℕ) / nt) - outN b k * linspaceAt (2 * Real.pi / (nfp : ℝ)) ((np : Int) + 1) j) +
        outM b k * (2 * Real.pi) by simp; ring, Real.cos_add_int_mul_two_pi, Real.sin_add_int_mul_two_pi]
  · intro hd i hi
    show seriesB b K asym c _ _ = seriesB b K asym c _ _
    rw [e2 np le_rfl, e2 0 (Nat.zero_le _)]
    have := (series_per h.nfp_pos hd (fun k => entry b.out.spec.bmnc_b k c)
      (fun k => onlyIf asym (entry b.out.spec.bmns_b k c)) (m := outM b)).2 (linspaceAt twopi ((nt : Int) + 1) i) 0
    have e : 2 * Real.pi * (np : ℝ) / (nfp * np) = 0 + 2 * Real.pi / nfp := by
      field_simp
      ring
    rw [e]
    simpa [seriesB] using this

/-- **C50, wrong surface index**: `IndexError` and nothing is drawn. -/
theorem C50_index (h : Computed b K nb nfp asym) (hK : 1 ≤ K) {js : Int} (hc : js < -nb ∨ (nb : Int) ≤ js) (fill : Bool)
    {nt np : ℕ} (ncontours : Int) (disk : Disk ℝ) (fig : List (Drawn ℝ)) :
    surfplot disk (.object b) js fill (nt + 1) (np + 1) ncontours fig = .exc "IndexError" fig := by
  show surfplotObj b js fill (nt + 1) (np + 1) ncontours fig = _
  have hc' : ∀ c, ¬ IsColumn nb js c := by
    rintro c ⟨h1, h2 | h2⟩ <;> omega
  unfold surfplotObj
  rw [linspace_ok, Prog.lift_ok_bind, period_ok h, Prog.lift_ok_bind, linspace_ok, Prog.lift_ok_bind, h.xm_b.1,
    modB_exc h hK hc']
  rfl

/-- The example object: two field periods, five modes, two surfaces. -/
example : ∃ (b : St ℝ), Computed b 5 2 2 true ∧ IsColumn 2 (-1) 1 ∧ IsColumn 2 0 0 ∧
    ∀ k < 5, ((2 : ℕ) : ℤ) ∣ outN b k := by
  refine ⟨Ex.done true true, Ex.done_computed true true, ⟨by decide, .inr (by decide)⟩, ⟨by decide, .inl rfl⟩, ?_⟩
  intro k hk
  show _ ∣ (Vec.tab 5 _).val 0 k
  rw [Vec.val_tab hk]
  exact ⟨_, mul_comm _ _⟩

/-! ### C51 -/

/-- The member data needed for the curves of the original angles. -/
structure Spec.OriginalData (I : Inputs ℝ) (mnmax ns nb : ℕ) (asym : Bool) : Prop where
  mnmax_eq : I.mnmax = some (mnmax : Int)
  xm : I.xm.Full mnmax
  xn : I.xn.Full mnmax
  rmnc : I.rmnc.Full mnmax ns
  zmns : I.zmns.Full mnmax ns
  asym_part : asym = true → I.rmns.Full mnmax ns ∧ I.zmnc.Full mnmax ns
  surfs : I.compute_surfs.Full nb
  range : ∀ c < nb, 0 ≤ I.compute_surfs.val 0 c ∧ I.compute_surfs.val 0 c < ns

/-- The requested surface is number `c` of the `nb` output surfaces: `js`, by default the last one. -/
def Spec.Requested (nb : ℕ) (js : Option Int) (c : ℕ) : Prop :=
  match js with
  | none => c + 1 = nb
  | some js => IsColumn nb js c

theorem orig_ok {I : Inputs ℝ} {mnmax ns nb' : ℕ} (hb : b.inp = I) (h : OriginalData I mnmax ns nb' asym)
    (ha : I.asym = some asym) {js : ℕ} (hc : js < ns) (th ph : ℕ → ℝ) :
    loop mnmax (origStep b (js : Int) th ph) (fun _ _ => ofInt 0, fun _ _ => ofInt 0) =
      .ok (fun i j => (surface I asym js).R (th i) (ph j), fun i j => (surface I asym js).Z (th i) (ph j)) := by
  subst hb
  have hcol : IsColumn ns (js : Int) js := ⟨hc, .inl rfl⟩
  refine loop_traj' (fun k =>
    (fun i j => series k (b.inp.xm.val 0) (b.inp.xn.val 0) (fun k => entry b.inp.rmnc k js)
        (fun k => onlyIf asym (entry b.inp.rmns k js)) (th i) (ph j),
     fun i j => series k (b.inp.xm.val 0) (b.inp.xn.val 0) (fun k => onlyIf asym (entry b.inp.zmnc k js))
        (fun k => entry b.inp.zmns k js) (th i) (ph j))) (fun k hk => ?_) ?_ ?_
  · unfold origStep
    rw [at1_full 0 h.xm hk, at1_full 0 h.xn hk, at2_full 0 h.rmnc hk hcol, at2_full 0 h.zmns hk hcol, ha]
    cases asym with
    | false =>
      refine congrArg Except.ok ?_
      congr 1 <;> funext i j <;> rw [series_succ] <;> simp [onlyIf, entry]
    | true =>
      show (at2 b.inp.rmns (k : Int) js >>= fun s => at2 b.inp.zmnc (k : Int) js >>= fun t => _) = _
      rw [at2_full 0 (h.asym_part rfl).1 hk hcol, at2_full 0 (h.asym_part rfl).2 hk hcol]
      refine congrArg Except.ok ?_
      congr 1 <;> funext i j <;> rw [series_succ] <;> simp [onlyIf, entry] <;> ring
  · congr 1 <;> funext i j <;> rw [series_zero] <;> simp
  · have e : b.inp.xm.size = mnmax := h.xm.1
    show (fun i j => series b.inp.xm.size _ _ _ _ _ _, fun i j => series b.inp.xm.size _ _ _ _ _ _) = _
    rw [e]

/-- Poloidal grid of `wireplot`. -/
noncomputable def wireGrid (n : ℕ) : ℕ → ℝ := linspaceAt twopi ((n : Int) + 1)

theorem wireGrid_at {n i : ℕ} (hi : i ≤ n) : wireGrid n i = 2 * Real.pi * i / n := by
  unfold wireGrid
  rw [linspaceAt_real _ hi, real_twopi]

/-- Everything `wireplot` computes for the Boozer curves, for any `refine`. -/
theorem wire_data (h : Computed b K nb nfp asym) (a : WireArgs) {c nt np r : ℕ} (hc : Requested nb a.js c)
    (ht : a.ntheta = nt) (hp : a.nphi = np) (hr : a.refine = r) :
    ∃ js : Int, IsColumn nb js c ∧
      wireplotObj b a =
        let w := wireSums b K asym c (wireGrid (nt * r)) (wireGrid (np * r))
        let phi := fun i j => wireGrid (np * r) j - w.nu i j
        let data := (if a.surf then [solid (nt * r + 1) (np * r + 1) w phi] else []) ++
          wires true r (nt * r + 1) (np * r + 1) (fun i j => w.R i j * Real.cos (phi i j))
            (fun i j => w.R i j * Real.sin (phi i j)) w.Z
        if a.orig then do
          let more ← origPart b a js (wireGrid (nt * r)) (wireGrid (np * r))
          pure (data ++ more)
        else .ok data := by
  obtain ⟨js, hcol, hjs⟩ : ∃ js : Int, IsColumn nb js c ∧ wireJs b a = .ok js := by
    unfold Requested at hc
    unfold wireJs
    cases hj : a.js with
    | some js =>
      rw [hj] at hc
      exact ⟨js, hc, rfl⟩
    | none =>
      rw [hj] at hc
      refine ⟨(nb : Int) - 1, ⟨by omega, .inl (by omega)⟩, ?_⟩
      rw [h.ns_b]
      rfl
  have et : a.ntheta * a.refine + 1 = ((nt * r : ℕ) : Int) + 1 := by rw [ht, hr]; push_cast; rfl
  have ep : a.nphi * a.refine + 1 = ((np * r : ℕ) : Int) + 1 := by rw [hp, hr]; push_cast; rfl
  have hw := wire_ok h hcol (wireGrid (nt * r)) (wireGrid (np * r))
  refine ⟨js, hcol, ?_⟩
  unfold wireplotObj
  rw [et, ep, linspace_ok, linspace_ok, hjs, h.mnboz]
  show (loop (K : Int).toNat (wireStep b js (wireGrid (nt * r)) (wireGrid (np * r))) _ >>= fun w => _) = _
  rw [Int.toNat_natCast, hw, hr]
  rfl

theorem wire_points (b : St ℝ) (K : ℕ) (asym : Bool) (c : ℕ) {p q : ℕ} :
    ∀ i ≤ p, ∀ j ≤ q,
      ((wireSums b K asym c (wireGrid p) (wireGrid q)).R i j *
          Real.cos (wireGrid q j - (wireSums b K asym c (wireGrid p) (wireGrid q)).nu i j),
        (wireSums b K asym c (wireGrid p) (wireGrid q)).R i j *
          Real.sin (wireGrid q j - (wireSums b K asym c (wireGrid p) (wireGrid q)).nu i j),
        (wireSums b K asym c (wireGrid p) (wireGrid q)).Z i j) =
      boozerPoint b K asym c (2 * Real.pi * i / p) (2 * Real.pi * j / q) := by
  intro i hi j hj
  rw [← wireGrid_at hi, ← wireGrid_at hj]
  rfl

/-- `wireplot` of an object draws what `wire_data` describes and leaves the current figure alone. -/
theorem wireplot_object {b : St ℝ} {a : WireArgs} {l : List (Drawn ℝ)} (h : wireplotObj b a = .ok l) (disk : Disk ℝ)
    (fig : List (Drawn ℝ)) : wireplot disk (.object b) a fig = .ok l fig := by
  show Prog.lift (wireplotObj b a) fig = _
  rw [h]
  rfl

/-- With the original data the second part of the figure is drawn without exception, for any `refine`. -/
theorem origPart_returns {mnmax ns : ℕ} (hd : OriginalData b.inp mnmax ns nb asym) (ha : b.inp.asym = some asym)
    (a : WireArgs) {js : Int} {c : ℕ} (hcol : IsColumn nb js c) (th ph : ℕ → ℝ) :
    ∃ more, origPart b a js th ph = .ok more := by
  have hrange := hd.range c hcol.1
  have hsel : ((selected b.inp c : ℕ) : Int) = b.inp.compute_surfs.val 0 c := by
    unfold selected
    exact Int.toNat_of_nonneg hrange.1
  unfold origPart
  rw [at1_col 0 hd.surfs hcol, hd.mnmax_eq, ← hsel]
  show ∃ more, (loop (mnmax : Int).toNat _ _ >>= fun w => _) = _
  rw [Int.toNat_natCast, orig_ok rfl hd ha (by omega)]
  exact ⟨_, rfl⟩

/-- **C51 (partial: refine ≥ 2).**  `wireplot` draws, after the solid surface if requested, exactly
`ntheta + 1` curves of constant poloidal and `nphi + 1` curves of constant toroidal Boozer angle, and as
many of the original angles if requested; each point is the point of the surface with those angles. -/
theorem C51_partial (h : Computed b K nb nfp asym) (a : WireArgs) {c nt np r mnmax ns : ℕ} (hc : Requested nb a.js c)
    (ht : a.ntheta = nt) (hp : a.nphi = np) (hr : a.refine = r) (hr2 : 2 ≤ r)
    (ho : a.orig = true → OriginalData b.inp mnmax ns nb asym) :
    ∃ first : List (Drawn ℝ),
      (∀ disk fig, wireplot disk (.object b) a fig = .ok (first ++
        (poloidalCurves true nt np r (boozerPoint b K asym c) ++ toroidalCurves true nt np r (boozerPoint b K asym c)) ++
        if a.orig then poloidalCurves false nt np r (inputPoint b.inp asym (selected b.inp c)) ++
          toroidalCurves false nt np r (inputPoint b.inp asym (selected b.inp c)) else []) fig) ∧
      (a.surf = false → first = []) ∧ (a.surf = true → ∃ x y z, first = [.surface x y z]) := by
  obtain ⟨js, hcol, he⟩ := wire_data h a hc ht hp hr
  refine ⟨if a.surf then [solid (nt * r + 1) (np * r + 1) (wireSums b K asym c (wireGrid (nt * r)) (wireGrid (np * r)))
      fun i j => wireGrid (np * r) j - (wireSums b K asym c (wireGrid (nt * r)) (wireGrid (np * r))).nu i j] else [],
    wireplot_object ?_, fun hs => if_neg (by simp [hs]), fun hs => ⟨_, _, _, if_pos hs⟩⟩
  rw [he]
  simp only []
  rw [wires_ok hr2 true _ _ _ _ (wire_points b K asym c)]
  by_cases hor : a.orig = true
  · rw [if_pos hor, if_pos hor]
    have hd := ho hor
    have hrange := hd.range c hcol.1
    have hsel : ((selected b.inp c : ℕ) : Int) = b.inp.compute_surfs.val 0 c := by
      unfold selected
      exact Int.toNat_of_nonneg hrange.1
    have e : origPart b a js (wireGrid (nt * r)) (wireGrid (np * r)) =
        .ok (poloidalCurves false nt np r (inputPoint b.inp asym (selected b.inp c)) ++
          toroidalCurves false nt np r (inputPoint b.inp asym (selected b.inp c))) := by
      unfold origPart
      rw [at1_col 0 hd.surfs hcol, hd.mnmax_eq, ← hsel]
      show (loop (mnmax : Int).toNat _ _ >>= fun w => _) = _
      rw [Int.toNat_natCast, orig_ok rfl hd h.asym_eq (by omega)]
      have et : (a.ntheta * a.refine + 1).toNat = nt * r + 1 := by
        rw [ht, hr]
        have : ((nt : Int) * r + 1) = ((nt * r + 1 : ℕ) : Int) := by push_cast; rfl
        rw [this, Int.toNat_natCast]
      have ep : (a.nphi * a.refine + 1).toNat = np * r + 1 := by
        rw [hp, hr]
        have : ((np : Int) * r + 1) = ((np * r + 1 : ℕ) : Int) := by push_cast; rfl
        rw [this, Int.toNat_natCast]
      show Except.ok (wires false a.refine _ _ _ _ _) = _
      rw [et, ep, hr, wires_ok hr2 false _ _ _ (inputPoint b.inp asym (selected b.inp c))]
      intro i hi j hj
      rw [← wireGrid_at hi, ← wireGrid_at hj]
      rfl
    rw [e]
    rfl
  · rw [if_neg hor, if_neg hor, List.append_nil]

/-- The number of curves drawn. -/
theorem C51_count (boozer : Bool) (nt np r : ℕ) (pt : ℝ → ℝ → ℝ × ℝ × ℝ) :
    (poloidalCurves boozer nt np r pt).length = nt + 1 ∧ (toroidalCurves boozer nt np r pt).length = np + 1 := by
  unfold poloidalCurves toroidalCurves
  simp

/-- After `run` the original curves can be drawn. -/
theorem run_original {s : St ℝ} {d : Dims} (h : RunReady s.inp d) :
    OriginalData (runSt d s d.nsb).inp d.mnmax d.ns d.nsb d.asym where
  mnmax_eq := h.mnmax
  xm := h.xm
  xn := h.xn
  rmnc := h.rmnc
  zmns := h.zmns
  asym_part := fun ha => ⟨h.rmns ha, h.zmnc ha⟩
  surfs := h.surfs
  range := h.surfs_range

/-- **C51 is false for `refine = 1`**: no curve at all is drawn. -/
theorem C51_false_refine (h : Computed b K nb nfp asym) {js : Int} {c : ℕ} (hc : IsColumn nb js c) (nt np : ℕ)
    (disk : Disk ℝ) (fig : List (Drawn ℝ)) :
    wireplot disk (.object b) ⟨some js, nt, np, 1, false, false⟩ fig = .ok [] fig := by
  refine wireplot_object ?_ disk fig
  obtain ⟨js', hcol, he⟩ := wire_data h ⟨some js, nt, np, 1, false, false⟩ (c := c) hc (nt := nt)
    (np := np) (r := 1) rfl rfl rfl
  have : ∀ i : ℕ, ¬ npMod ((i : Int) + 1) ((1 : ℕ) : Int) = 1 := by
    intro i
    unfold npMod
    rw [if_neg (by omega), Nat.cast_one, Int.fmod_one]
    omega
  have hw : ∀ p q X Y Z, wires true ((1 : ℕ) : Int) p q X Y Z = ([] : List (Drawn ℝ)) := by
    intro p q X Y Z
    unfold wires
    simp only [this, if_false]
    simp
  rw [he]
  simp only [hw]
  rfl

/-- The example object satisfies the hypotheses, with the original curves. -/
example : ∃ b : St ℝ, Computed b 5 2 2 true ∧ Requested 2 none 1 ∧ Requested 2 (some (-2)) 0 ∧
    OriginalData b.inp (Ex.dims true).mnmax 2 2 true :=
  ⟨Ex.done true true, Ex.done_computed true true, rfl, ⟨by decide, .inr (by decide)⟩,
    run_original (s := Ex.stF true true) (Ex.readyH true)⟩

/-! ### C64: the solid surface -/

/-- Derivative of a series with respect to the poloidal angle. -/
theorem hasDerivAt_series (K : ℕ) (m n : ℕ → ℤ) (c s : ℕ → ℝ) (θ ζ : ℝ) :
    HasDerivAt (fun θ => series K m n c s θ ζ) (series K m n (fun k => m k * s k) (fun k => -m k * c k) θ ζ) θ := by
  unfold series
  refine HasDerivAt.fun_sum fun k _ => ?_
  have h1 : HasDerivAt (fun θ : ℝ => (m k : ℝ) * θ - n k * ζ) (m k : ℝ) θ := by
    simpa using ((hasDerivAt_id θ).const_mul (m k : ℝ)).sub_const ((n k : ℝ) * ζ)
  have h2 := ((h1.cos).const_mul (c k)).add ((h1.sin).const_mul (s k))
  refine h2.congr_deriv ?_
  ring

/-- The point of the drawn solid surface belonging to the Boozer angles (θ, ζ) lies `eps` away from the
point of the flux surface, in the same poloidal plane, perpendicular to the poloidal derivative of
(R, Z) and to the left of it (inside, for a poloidal angle that increases counter-clockwise). -/
def Spec.Shrunk (b : St ℝ) (K : ℕ) (asym : Bool) (c : ℕ) (eps θ ζ : ℝ) (p : ℝ × ℝ × ℝ) : Prop :=
  ∃ R' Z', p = cartesian R' (ζ - seriesNu b K asym c θ ζ) Z' ∧
    (R' - seriesR b K asym c θ ζ) ^ 2 + (Z' - seriesZ b K asym c θ ζ) ^ 2 = eps ^ 2 ∧
    (R' - seriesR b K asym c θ ζ) * deriv (fun t => seriesR b K asym c t ζ) θ +
      (Z' - seriesZ b K asym c θ ζ) * deriv (fun t => seriesZ b K asym c t ζ) θ = 0 ∧
    (R' - seriesR b K asym c θ ζ) * deriv (fun t => seriesZ b K asym c t ζ) θ -
      (Z' - seriesZ b K asym c θ ζ) * deriv (fun t => seriesR b K asym c t ζ) θ < 0

/-- The curve θ ↦ (R, Z) is regular. -/
def Spec.Moving (b : St ℝ) (K : ℕ) (asym : Bool) (c : ℕ) (θ ζ : ℝ) : Prop :=
  deriv (fun t => seriesR b K asym c t ζ) θ ≠ 0 ∨ deriv (fun t => seriesZ b K asym c t ζ) θ ≠ 0

theorem shrink_facts {dR dZ : ℝ} (h : dR ≠ 0 ∨ dZ ≠ 0) (R Z e : ℝ) (he : 0 < e) :
    let q := Real.sqrt (dR * dR + dZ * dZ)
    (R - e * (dZ / q) - R) ^ 2 + (Z + e * (dR / q) - Z) ^ 2 = e ^ 2 ∧
    (R - e * (dZ / q) - R) * dR + (Z + e * (dR / q) - Z) * dZ = 0 ∧
    (R - e * (dZ / q) - R) * dZ - (Z + e * (dR / q) - Z) * dR < 0 := by
  intro q
  have hpos : 0 < dR * dR + dZ * dZ := by
    rcases h with h | h
    · have := mul_self_pos.2 h
      nlinarith [mul_self_nonneg dZ]
    · have := mul_self_pos.2 h
      nlinarith [mul_self_nonneg dR]
  have hq : 0 < q := Real.sqrt_pos.2 hpos
  have hq2 : q * q = dR * dR + dZ * dZ := Real.mul_self_sqrt hpos.le
  have hq0 : q ≠ 0 := hq.ne'
  refine ⟨?_, by ring, ?_⟩
  · field_simp
    rw [show q ^ 2 = dR * dR + dZ * dZ by rw [pow_two, hq2]]
    ring
  · have : (R - e * (dZ / q) - R) * dZ - (Z + e * (dR / q) - Z) * dR = -(e * q) := by
      field_simp
      rw [show q ^ 2 = dR * dR + dZ * dZ by rw [pow_two, hq2]]
      ring
    rw [this]
    nlinarith

/-- **C64 (partial: stellarator symmetry).**  With `surf=True` the first object of the figure is a solid
surface inside the flux surface at distance 0.002, so that the curves lie in front of it.  (The original
curves need the input data.) -/
theorem C64_partial (h : Computed b K nb nfp false) (a : WireArgs) {c nt np r mnmax ns : ℕ} (hc : Requested nb a.js c)
    (ht : a.ntheta = nt) (hp : a.nphi = np) (hr : a.refine = r) (hs : a.surf = true)
    (ho : a.orig = true → OriginalData b.inp mnmax ns nb false) :
    ∃ (x y z : Plane ℝ) (rest : List (Drawn ℝ)),
      (∀ disk fig, wireplot disk (.object b) a fig = .ok (.surface x y z :: rest) fig) ∧
      (x.rows = nt * r + 1 ∧ x.cols = np * r + 1) ∧ (y.rows = nt * r + 1 ∧ y.cols = np * r + 1) ∧
      (z.rows = nt * r + 1 ∧ z.cols = np * r + 1) ∧
      ∀ i ≤ nt * r, ∀ j ≤ np * r,
        Moving b K false c (2 * Real.pi * i / (nt * r : ℕ)) (2 * Real.pi * j / (np * r : ℕ)) →
        Shrunk b K false c (2 / 1000) (2 * Real.pi * i / (nt * r : ℕ)) (2 * Real.pi * j / (np * r : ℕ))
          (x.get i j, y.get i j, z.get i j) := by
  obtain ⟨js, hcol, he⟩ := wire_data h a hc ht hp hr
  obtain ⟨rest, he⟩ : ∃ rest, wireplotObj b a = .ok (solid (nt * r + 1) (np * r + 1)
      (wireSums b K false c (wireGrid (nt * r)) (wireGrid (np * r)))
      (fun i j => wireGrid (np * r) j - (wireSums b K false c (wireGrid (nt * r)) (wireGrid (np * r))).nu i j) :: rest) := by
    simp only [hs, if_true] at he
    by_cases hor : a.orig = true
    · obtain ⟨more, hm⟩ := origPart_returns (ho hor) h.asym_eq a hcol (wireGrid (nt * r)) (wireGrid (np * r))
      rw [if_pos hor, hm] at he
      exact ⟨_, he⟩
    · rw [if_neg hor] at he
      exact ⟨_, he⟩
  refine ⟨_, _, _, _, wireplot_object he, ⟨rfl, rfl⟩, ⟨rfl, rfl⟩, ⟨rfl, rfl⟩, fun i hi j hj hm => ?_⟩
  rw [← wireGrid_at hi, ← wireGrid_at hj] at hm ⊢
  have hR : deriv (fun t => seriesR b K false c t (wireGrid (np * r) j)) (wireGrid (nt * r) i) =
      (wireSums b K false c (wireGrid (nt * r)) (wireGrid (np * r))).dR i j := by
    refine (hasDerivAt_series _ _ _ _ _ _ _).deriv.trans ?_
    show series K _ _ _ _ _ _ = series K _ _ _ _ _ _
    congr 1
    funext k
    simp [onlyIf]
  have hZ : deriv (fun t => seriesZ b K false c t (wireGrid (np * r) j)) (wireGrid (nt * r) i) =
      (wireSums b K false c (wireGrid (nt * r)) (wireGrid (np * r))).dZ i j := by
    refine (hasDerivAt_series _ _ _ _ _ _ _).deriv.trans ?_
    show series K _ _ _ _ _ _ = series K _ _ _ _ _ _
    congr 1
    funext k
    simp [onlyIf]
  unfold Moving at hm
  rw [hR, hZ] at hm
  have key := shrink_facts hm (seriesR b K false c (wireGrid (nt * r) i) (wireGrid (np * r) j))
    (seriesZ b K false c (wireGrid (nt * r) i) (wireGrid (np * r) j)) (2 / 1000) (by norm_num)
  have e2 : (ofInt 2 / ofInt 1000 : ℝ) = 2 / 1000 := by simp
  refine ⟨_, _, rfl, ?_⟩
  rw [hR, hZ]
  simp only [e2]
  exact key

/-- A surface with R = 3 + cos θ + s sin θ, Z = cos-part s + sin θ (and ν alike). -/
noncomputable def Ex.ring (asym : Bool) (x : ℝ) : St ℝ :=
  Ex.small asym (fun k _ => if k = 0 then 3 else if k = 1 then 1 else 0) (fun k _ => if k = 1 then x else 0) (fun j => j)

theorem Ex.ring_c (asym : Bool) (x : ℝ) (f : ℕ → ℝ) :
    ∑ k ∈ range 3, f k * entry (Ex.ring asym x).out.spec.rmnc_b k 0 = f 0 * 3 + f 1 := by
  have e : ∀ k < 3, entry (Ex.ring asym x).out.spec.rmnc_b k 0 = if k = 0 then 3 else if k = 1 then 1 else 0 :=
    fun k hk => Mat.val_tab hk (by decide)
  rw [sum_range_succ, sum_range_succ, sum_range_one, e 0 (by decide), e 1 (by decide), e 2 (by decide)]
  norm_num

theorem Ex.ring_s (asym : Bool) (x : ℝ) (f : ℕ → ℝ) :
    ∑ k ∈ range 3, f k * entry (Ex.ring asym x).out.spec.rmns_b k 0 = f 1 * x := by
  have e : ∀ k < 3, entry (Ex.ring asym x).out.spec.rmns_b k 0 = if k = 1 then x else 0 :=
    fun k hk => Mat.val_tab hk (by decide)
  rw [sum_range_succ, sum_range_succ, sum_range_one, e 0 (by decide), e 1 (by decide), e 2 (by decide)]
  norm_num

theorem Ex.ring_m (asym : Bool) (x : ℝ) {k : ℕ} (hk : k < 3) : outM (Ex.ring asym x) k = k := Vec.val_tab hk

/-- At θ = ζ = 0 a series is the sum of its cosine coefficients. -/
theorem series_origin (K : ℕ) (m n : ℕ → ℤ) (c s : ℕ → ℝ) : series K m n c s 0 0 = ∑ k ∈ range K, c k := by
  unfold series
  simp

/-- **C64 is false without stellarator symmetry**: the sine coefficients of R and the cosine coefficients
of Z are left out of the tangent, and the surface is not moved along the normal. -/
theorem C64_false : ∃ b : St ℝ, Computed b 3 2 1 true ∧ Moving b 3 true 0 0 0 ∧
    ∀ nt np r : ℕ, ∃ (x y z : Plane ℝ) (rest : List (Drawn ℝ)),
      (∀ disk fig, wireplot disk (.object b) ⟨some 0, nt, np, r, true, false⟩ fig = .ok (.surface x y z :: rest) fig) ∧
      ¬ Shrunk b 3 true 0 (2 / 1000) 0 0 (x.get 0 0, y.get 0 0, z.get 0 0) := by
  have hd : deriv (fun t => seriesR (Ex.ring true 1) 3 true 0 t 0) 0 = 1 := by
    refine (hasDerivAt_series _ _ _ _ _ _ _).deriv.trans ?_
    rw [series_origin]
    simp only [onlyIf, if_true]
    rw [Ex.ring_s, Ex.ring_m _ _ (by decide)]
    norm_num
  have hz : deriv (fun t => seriesZ (Ex.ring true 1) 3 true 0 t 0) 0 = 1 := by
    refine (hasDerivAt_series _ _ _ _ _ _ _).deriv.trans ?_
    rw [series_origin]
    show ∑ k ∈ range 3, _ * entry (Ex.ring true 1).out.spec.rmnc_b k 0 = _
    rw [Ex.ring_c, Ex.ring_m _ _ (by decide), Ex.ring_m _ _ (by decide)]
    norm_num
  refine ⟨Ex.ring true 1, Ex.small_computed _ _ _ _, .inl (by rw [hd]; norm_num), fun nt np r => ?_⟩
  obtain ⟨js, hcol, he⟩ := wire_data (c := 0) (nt := nt) (np := np) (r := r) (Ex.small_computed true _ _ _)
    ⟨some 0, nt, np, r, true, false⟩ (show IsColumn 2 0 0 from ⟨by decide, .inl rfl⟩) rfl rfl rfl
  simp only [Bool.false_eq_true, if_false, if_true] at he
  refine ⟨_, _, _, _, wireplot_object he, ?_⟩
  have g : ∀ n, wireGrid n 0 = 0 := by
    intro n
    rw [wireGrid_at (Nat.zero_le _)]
    simp
  have hdR : (wireSums (Ex.ring true 1) 3 true 0 (wireGrid (nt * r)) (wireGrid (np * r))).dR 0 0 = 0 := by
    show series _ _ _ _ _ (wireGrid (nt * r) 0) (wireGrid (np * r) 0) = _
    rw [g, g, series_origin]
    simp
  rintro ⟨R', Z', hpt, h1, h2, h3⟩
  have hZ' : seriesZ (Ex.ring true 1) 3 true 0 (wireGrid (nt * r) 0) (wireGrid (np * r) 0) + ofInt 2 / ofInt 1000 *
      ((wireSums (Ex.ring true 1) 3 true 0 (wireGrid (nt * r)) (wireGrid (np * r))).dR 0 0 / _) = Z' :=
    congrArg (fun p => p.2.2) hpt
  rw [hdR, zero_div, mul_zero, add_zero, g, g] at hZ'
  rw [hd, hz, ← hZ', sub_self, zero_mul, add_zero, mul_one] at h2
  rw [h2, ← hZ', sub_self] at h1
  norm_num at h1

/-- The hypotheses of `C64_partial`, with a curve that is regular at the origin. -/
example : Computed (Ex.ring false 0) 3 2 1 false ∧ Requested 2 (some 0) 0 ∧ Moving (Ex.ring false 0) 3 false 0 0 0 := by
  refine ⟨Ex.small_computed _ _ _ _, ⟨by decide, .inl rfl⟩, .inr ?_⟩
  have : deriv (fun t => seriesZ (Ex.ring false 0) 3 false 0 t 0) 0 = 1 := by
    refine (hasDerivAt_series _ _ _ _ _ _ _).deriv.trans ?_
    rw [series_origin]
    show ∑ k ∈ range 3, _ * entry (Ex.ring false 0).out.spec.rmnc_b k 0 = _
    rw [Ex.ring_c, Ex.ring_m _ _ (by decide), Ex.ring_m _ _ (by decide)]
    norm_num
  rw [this]
  norm_num

/-- The hypotheses of `C64_partial` with the original curves, the default of `wireplot`. -/
example : ∃ b : St ℝ, Computed b 5 2 2 false ∧ Requested 2 none 1 ∧
    OriginalData b.inp (Ex.dims false).mnmax 2 2 false :=
  ⟨Ex.done false true, Ex.done_computed false true, rfl, run_original (s := Ex.stF false true) (Ex.readyH false)⟩

/-- **C51 is false for surfaces listed inwards**: without `js` the last output surface is drawn, which
need not be the outermost one. -/
theorem C51_false_default : ∃ b : St ℝ, Computed b 3 2 1 false ∧ b.out.s_b.val 0 1 < b.out.s_b.val 0 0 ∧
    ∀ (a : WireArgs) disk, a.js = none →
      wireplot disk (.object b) a = wireplot disk (.object b) { a with js := some 1 } := by
  refine ⟨Ex.small false (fun k _ => k) (fun _ _ => 0) (fun j => if j = 0 then 3 / 4 else 1 / 4),
    Ex.small_computed _ _ _ _, ?_, fun a disk ha => ?_⟩
  · show (Vec.tab 2 _).val 0 1 < (Vec.tab 2 _).val 0 0
    rw [Vec.val_tab (by decide), Vec.val_tab (by decide)]
    norm_num
  · show Prog.lift (wireplotObj _ a) = Prog.lift (wireplotObj _ _)
    unfold wireplotObj wireJs
    rw [ha]
    rfl

end Booz
