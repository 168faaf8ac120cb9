import Verif.Spec.FigureRounding
import Verif.Props.Figures
import Verif.Props.FileSeries

/-!
# What `surfplot` shows of the equilibrium on a machine (C111)
-/

namespace Booz
open Spec Plots Finset

/-! ## The planes drawn, over any numbers -/

section
variable {α : Type} [Arith α]

/-- The sum of `plots.py:69-76` at one point of the grid, in the order of the code. -/
def drawnB (b : St α) (K : ℕ) (asym : Bool) (c : ℕ) (θ φ : α) : α :=
  acc2 asym (fun k => b.out.spec.bmnc_b.val (ofInt 0) k c * Arith.cos (ofInt (outM b k) * θ - ofInt (outN b k) * φ))
    (fun k => b.out.spec.bmns_b.val (ofInt 0) k c * Arith.sin (ofInt (outM b k) * θ - ofInt (outN b k) * φ)) K

theorem modB_any {b : St α} {K nb nfp : ℕ} {asym : Bool} (h : Computed b K nb nfp asym) {js : Int} {c : ℕ}
    (hc : IsColumn nb js c) (th ph : ℕ → α) :
    loop K (modBStep b js th ph) (fun _ _ => ofInt 0) = .ok fun i j => drawnB b K asym c (th i) (ph j) := by
  refine loop_traj' (fun k => fun i j => drawnB b k asym c (th i) (ph j)) (fun k hk => ?_) rfl rfl
  unfold modBStep
  rw [at1_full 0 h.xm_b hk, at1_full 0 h.xn_b hk, at2_full (ofInt 0) h.bmnc_b hk hc, h.asym_eq]
  cases asym with
  | false => rfl
  | true =>
    show (at2 b.out.spec.bmns_b (k : Int) js >>= fun s => _) = _
    rw [at2_full (ofInt 0) (h.asym_b rfl).1 hk hc]
    rfl

theorem surfplot_any {b : St α} {K nb nfp : ℕ} {asym : Bool} (h : Computed b K nb nfp asym) {js : Int} {c : ℕ}
    (hc : IsColumn nb js c) (fill : Bool) {nt np : ℕ} (ht : 1 ≤ nt) (hp : 1 ≤ np) (nc : Int) (fig : List (Drawn α))
    (disk : Disk α) :
    surfplot disk (.object b) js fill (nt + 1) (np + 1) nc fig = .ok () (fig ++ [.contours fill nc
      ⟨nt + 1, np + 1, fun _ j => linspaceAt (twopi / ofInt (nfp : Int)) ((np : Int) + 1) j⟩
      ⟨nt + 1, np + 1, fun i _ => linspaceAt twopi ((nt : Int) + 1) i⟩
      ⟨nt + 1, np + 1, fun i j => drawnB b K asym c (linspaceAt twopi ((nt : Int) + 1) i)
        (linspaceAt (twopi / ofInt (nfp : Int)) ((np : Int) + 1) j)⟩]) := by
  have lin : ∀ (stop : α) (n : ℕ), linspace stop ((n : Int) + 1) = .ok (linspaceAt stop ((n : Int) + 1)) := by
    intro stop n
    unfold linspace
    rw [if_neg (by omega)]
  have per : period b = .ok (twopi / ofInt (nfp : Int)) := by
    unfold period
    rw [h.nfp_eq]
    show (if (nfp : Int) = 0 then _ else _) = _
    have := h.nfp_pos
    rw [if_neg (by omega)]
    rfl
  show surfplotObj b js fill (nt + 1) (np + 1) nc fig = _
  unfold surfplotObj
  rw [lin, Prog.lift_ok_bind, per, Prog.lift_ok_bind, lin, Prog.lift_ok_bind, h.xm_b.1, modB_any h hc, Prog.lift_ok_bind,
    if_neg (by omega), at1_col (ofInt 0) h.s_b hc]
  rfl

end

theorem drawnB_real (b : St ℝ) (asym : Bool) (c : ℕ) (θ φ : ℝ) : ∀ K, drawnB b K asym c θ φ = seriesB b K asym c θ φ
  | 0 => by
    unfold seriesB series
    rw [Finset.sum_range_zero]
    exact (real_ofInt 0).trans Int.cast_zero
  | K + 1 => by
    have ih := drawnB_real b asym c θ φ K
    unfold seriesB at ih ⊢
    rw [series_succ, ← ih]
    unfold drawnB
    cases asym <;> simp [acc2, onlyIf, entry, add_assoc]

/-! ## Rounding -/

/-- A machine with an object whose outputs are within `A u` of those of `b₀`. -/
structure MachOut (b₀ : St ℝ) (d : Dims) (A : ℝ) extends Machine where
  b : St α
  near : OutputsNear fin val d (A * u) b.out b₀.out

section
variable {b₀ : St ℝ} {d : Dims} {A : ℝ}

theorem stable_linspace {ι : Type 1} {π : ι → Machine} {X : ∀ M : ι, (π M).α} {r : ℝ} (h : Stable X r) (n : ℕ) (hn : 1 ≤ n)
    (i : ℕ) : Stable (fun M => linspaceAt (X M) ((n : Int) + 1) i) (linspaceAt r ((n : Int) + 1) i) := by
  unfold linspaceAt
  by_cases h1 : (1 : Int) < (n : Int) + 1
  · by_cases h2 : (i : Int) + 1 = (n : Int) + 1
    · simp only [if_pos h1, if_pos h2]
      exact h
    · simp only [if_pos h1, if_neg h2]
      have hne : (((n : Int) + 1 - 1 : ℤ) : ℝ) ≠ 0 := by
        have : ((n : Int) + 1 - 1) ≠ 0 := by omega
        exact_mod_cast this
      exact ((Stable.int _).mul ((h.sub (Stable.int 0)).div (Stable.int _) hne)).add (Stable.int 0)
  · exact absurd (by omega) h1

theorem stable_drawn {c : ℕ} (hc : c < d.nsb) {θ φ : ∀ M : MachOut b₀ d A, M.α} {t z : ℝ}
    (hθ : Stable (π := MachOut.toMachine) θ t) (hφ : Stable (π := MachOut.toMachine) φ z) :
    Stable (π := MachOut.toMachine) (fun M => drawnB M.b d.nmodes d.asym c (θ M) (φ M))
      (drawnB b₀ d.nmodes d.asym c t z) := by
  have ang : ∀ k, Stable (π := MachOut.toMachine) (fun M : MachOut b₀ d A =>
      (ofInt (outM M.b k) * θ M - ofInt (outN M.b k) * φ M : M.α)) (ofInt (outM b₀ k) * t - ofInt (outN b₀ k) * z) := by
    intro k
    have e1 : ∀ M : MachOut b₀ d A, outM M.b k = outM b₀ k := fun M => by unfold outM; rw [M.near.xm_b]
    have e2 : ∀ M : MachOut b₀ d A, outN M.b k = outN b₀ k := fun M => by unfold outN; rw [M.near.xn_b]
    simp only [e1, e2]
    exact ((Stable.int _).mul hθ).sub ((Stable.int _).mul hφ)
  have entryS : ∀ (f : ∀ {α : Type}, Spectra α → Mat α), (∀ M : MachOut b₀ d A,
      MatNear M.fin M.val d.nmodes d.nsb (A * M.u) (f M.b.out.spec) (f b₀.out.spec)) → ∀ k < d.nmodes,
      Stable (π := MachOut.toMachine) (fun M : MachOut b₀ d A => (f M.b.out.spec).val (ofInt 0) k c)
        ((f b₀.out.spec).val (ofInt 0) k c) := by
    intro f hf k hk
    refine Stable.of_near (abs_nonneg A) fun M => ?_
    obtain ⟨x, y, h1, h2, h3, h4⟩ := hf M k hk c hc
    rw [Mat.val_of_rdN _ h1, Mat.val_of_rdN _ h2]
    exact ⟨h3, h4.trans (mul_le_mul_of_nonneg_right (le_abs_self A) M.ok.u_pos.le)⟩
  unfold drawnB
  refine Stable.acc2 _ (fun k hk => ?_) fun ha k hk => ?_
  · exact (entryS (fun s => s.bmnc_b) (fun M => M.near.bmnc) k hk).mul (ang k).cos
  · exact (entryS (fun s => s.bmns_b) (fun M => M.near.bmns ha) k hk).mul (ang k).sin

end

/-- **C111, on a machine.**  Let the real data be regular on the selected surfaces, and the Boozer angles be coordinates of
them.  For any order `p` there is a constant `C`, and for each resolution (M, N) with `M ≤ c N`, `N ≤ c M` and each size of the
plot a constant `D` and a precision `u₀`, such that every machine of precision `u ≤ u₀`, given the data rounded to within `K u`,
after `run` draws with `surfplot` finite numbers for each surface resolved by the grid: angles within `D u` of the uniform
grid, and values within `C / M^p + D u` of |B| at the points of the surface with these Boozer angles. -/
theorem C111_machine {s₀ : St ℝ} {d : Dims} (h : RunReady s₀.inp d) (hp : FieldPeriodic s₀.inp d.nfp)
    (ho : OriginOnce s₀.inp) (hreg : ∀ b < d.nsb, (surface s₀.inp d.asym (selected s₀.inp b)).Regular)
    (hdet : ∀ b < d.nsb, ∀ θ ζ, (surface s₀.inp d.asym (selected s₀.inp b)).det θ ζ ≠ 0)
    {c : ℝ} (hc : 0 ≤ c) {ρ : ℝ} (hρ : ρ < 1) (p : ℕ) :
    ∃ C, 0 ≤ C ∧ ∀ M N : ℕ, 1 ≤ N → (M : ℝ) ≤ c * N → (N : ℝ) ≤ c * M →
      RunReady { s₀.inp with mboz := M, nboz := N } { d with M := M, N := N } →
      ∀ K : ℝ, 0 ≤ K → ∀ nt np : ℕ, 1 ≤ nt → 1 ≤ np → ∃ D u₀, 0 ≤ D ∧ 0 < u₀ ∧
        ∀ (α : Type) [Arith α] (fin : α → Prop) (val : α → ℝ) (u : ℝ), Precision α fin val u → u ≤ u₀ →
        ∀ s : St α, RunReady s.inp { d with M := M, N := N } →
          InputsNear fin val { d with M := M, N := N } (K * u) s.inp s₀.inp →
          ∃ s' r, run false s = .ok (s', r) ∧ ∀ b < d.nsb, let S := surface s₀.inp d.asym (selected s₀.inp b)
            S.ResolvedBy d.nfp M N ρ → ∀ disk,
            ShowsFieldNear fin val (surfplot disk (.object s')) S d.nfp d.nsb b nt np (D * u)
              (C * (1 / (M : ℝ)) ^ p + D * u) := by
  have rate : ∀ b, ∃ C : ℝ, 0 ≤ C ∧ (b < d.nsb → let S := surface s₀.inp d.asym (selected s₀.inp b)
      ∀ M N : ℕ, 1 ≤ M → 1 ≤ N → (M : ℝ) ≤ c * N → (N : ℝ) ≤ c * M → S.ResolvedBy d.nfp M N ρ → ∀ θ ζ,
        |S.B θ ζ - S.quadSeries d.nfp M N S.B (S.thetaB θ ζ) (S.zetaB θ ζ)| ≤ C * (1 / (M : ℝ)) ^ p) := by
    intro b
    by_cases hb : b < d.nsb
    · obtain ⟨C, hC, hr⟩ := surface_rate h hp (hreg b hb) (hdet b hb) hc hρ p
      exact ⟨C, hC, fun _ => hr _ (by show _ ∈ [_, _, _, _, _]; simp)⟩
    · exact ⟨0, le_rfl, fun k => absurd k hb⟩
  choose C hC hr using rate
  refine ⟨∑ b ∈ Finset.range d.nsb, C b, sum_nonneg fun b _ => hC b, fun M N hN hMN hNM h1 K hK nt np ht hq => ?_⟩
  let s₁ : St ℝ := { s₀ with inp := { s₀.inp with mboz := M, nboz := N } }
  let e : Dims := { d with M := M, N := N }
  obtain ⟨A, u₀, h0, G⟩ := C69_rounding (s₀ := s₁) (d := e) h1 hp ho hreg hK
  let b₀ : St ℝ := runSt e s₁ d.nsb
  -- the planes of the machine and of the exact calculation
  let T : ∀ {α : Type} [Arith α], ℕ → α := fun {α} _ i => linspaceAt (twopi : α) ((nt : Int) + 1) i
  let P : ∀ {α : Type} [Arith α], ℕ → α := fun {α} _ j => linspaceAt ((twopi : α) / ofInt (d.nfp : Int)) ((np : Int) + 1) j
  have hf : ((d.nfp : ℤ) : ℝ) ≠ 0 := by
    have : 1 ≤ d.nfp := h.nfp_pos
    have : d.nfp ≠ 0 := by omega
    exact_mod_cast this
  have two : Stable (π := MachOut.toMachine) (fun M : MachOut b₀ e A => (twopi : M.α)) (twopi : ℝ) :=
    (Stable.int 2).mul Stable.pi
  have sT : ∀ i, Stable (π := MachOut.toMachine) (fun M : MachOut b₀ e A => (T i : M.α)) (T i) :=
    fun i => stable_linspace two nt ht i
  have sP : ∀ j, Stable (π := MachOut.toMachine) (fun M : MachOut b₀ e A => (P j : M.α)) (P j) :=
    fun j => stable_linspace (two.div (Stable.int _) hf) np hq j
  have sZ : ∀ b < d.nsb, ∀ i j, Stable (π := MachOut.toMachine)
      (fun M : MachOut b₀ e A => drawnB M.b e.nmodes e.asym b (T i) (P j)) (drawnB b₀ e.nmodes e.asym b (T i) (P j)) :=
    fun b hb i j => stable_drawn (d := e) hb (sT i) (sP j)
  have lin : ∀ {X : ∀ M : MachOut b₀ e A, M.α} {r : ℝ}, Stable (π := MachOut.toMachine) X r →
      Linear MachOut.toMachine (fun M δ => M.fin (X M) ∧ |M.val (X M) - r| ≤ δ) ∧
        Grows (fun (M : MachOut b₀ e A) δ => M.fin (X M) ∧ |M.val (X M) - r| ≤ δ) :=
    fun h => ⟨h, fun M δ δ' hd hh => ⟨hh.1, hh.2.trans hd⟩⟩
  obtain ⟨⟨D, v₀, hD, hv, L⟩, -⟩ := Linear.all d.nsb fun b hb => Linear.all (nt + 1) fun i _ => Linear.all (np + 1) fun j _ =>
    Linear.and (lin (sP j)) (Linear.and (lin (sT i)) (lin (sZ b hb i j)))
  refine ⟨D, min u₀ v₀, hD, lt_min h0 hv, fun α _ fin val u hu hle s hs hn => ?_⟩
  obtain ⟨s', r, s₀', r₀, g1, g2, g3⟩ := G α fin val u hu (hle.trans (min_le_left _ _)) s hs { hn with }
  have e0 : s₀' = b₀ := (run_false h1 g2).1
  have e1 : s' = runSt e s d.nsb := (run_false hs g1).1
  have hcomp : Computed s' e.nmodes d.nsb d.nfp d.asym := by rw [e1]; exact run_computed hs
  rw [e0] at g3
  have near := L ⟨⟨α, inferInstance, fin, val, u, hu⟩, s', g3⟩ (hle.trans (min_le_right _ _))
  have eT : ∀ i ≤ nt, (T i : ℝ) = 2 * Real.pi * i / nt := by
    intro i hi
    show linspaceAt (twopi : ℝ) ((nt : Int) + 1) i = _
    rw [linspaceAt_real _ hi, real_twopi]
  have eP : ∀ j ≤ np, (P j : ℝ) = 2 * Real.pi * j / (d.nfp * np) := by
    intro j hj
    show linspaceAt ((twopi : ℝ) / ofInt (d.nfp : Int)) ((np : Int) + 1) j = _
    rw [linspaceAt_real _ hj, real_twopi, real_ofInt]
    have : (d.nfp : ℝ) ≠ 0 := by exact_mod_cast hf
    have : (np : ℝ) ≠ 0 := by positivity
    push_cast
    field_simp
  refine ⟨s', r, g1, fun b hb => ?_⟩
  intro S hres disk js fill nc fig hcol
  refine ⟨_, _, _, surfplot_any hcomp hcol fill ht hq nc fig disk, ⟨rfl, rfl⟩, ⟨rfl, rfl⟩, ⟨rfl, rfl⟩, fun i hi j hj => ?_⟩
  have onto : ∀ t z, ∃ θ ζ, S.thetaB θ ζ = t ∧ S.zetaB θ ζ = z := fun t z => by
    obtain ⟨y, hy⟩ := every_angle_occurs h hp (selected s₀.inp b) (t, z)
    exact ⟨y.1, y.2, congrArg Prod.fst hy, congrArg Prod.snd hy⟩
  have eB : seriesB b₀ (numModes M N) d.asym b = S.quadSeries d.nfp M N S.B :=
    seriesB_eq (s := s₁) (d := e) h1 hp ho (b := b) hb
  obtain ⟨⟨p1, p2⟩, ⟨t1, t2⟩, z1, z2⟩ := near b hb i (by omega) j (by omega)
  refine ⟨p1, t1, z1, ?_, ?_, onto _ _, fun θ ζ q1 q2 => ?_⟩
  · rw [← eT i hi]
    exact t2
  · rw [← eP j hj]
    exact p2
  · have q3 : drawnB b₀ e.nmodes e.asym b (T i) (P j) = S.quadSeries d.nfp M N S.B (S.thetaB θ ζ) (S.zetaB θ ζ) := by
      rw [drawnB_real, eT i hi, eP j hj, q1, q2]
      exact congrFun (congrFun eB _) _
    have q4 := hr b hb M N h1.mboz_ge hN hMN hNM hres θ ζ
    have q5 : |val (drawnB s' e.nmodes e.asym b (T i) (P j)) - S.quadSeries d.nfp M N S.B (S.thetaB θ ζ) (S.zetaB θ ζ)| ≤
        D * u := by
      rw [← q3]
      exact z2
    have q6 : C b * (1 / (M : ℝ)) ^ p ≤ (∑ b ∈ Finset.range d.nsb, C b) * (1 / (M : ℝ)) ^ p :=
      mul_le_mul_of_nonneg_right (single_le_sum (f := C) (fun b _ => hC b) (Finset.mem_range.2 hb)) (by positivity)
    rw [abs_sub_comm] at q4
    calc _ ≤ _ := abs_sub_le _ (S.quadSeries d.nfp M N S.B (S.thetaB θ ζ) (S.zetaB θ ζ)) _
      _ ≤ D * u + (∑ b ∈ Finset.range d.nsb, C b) * (1 / (M : ℝ)) ^ p := add_le_add q5 (q4.trans q6)
      _ = _ := add_comm _ _

/-- C111 for the example at every resolution, on machines with more and more bits, for plots of 51 × 91 points. -/
example (asym : Bool) : ∃ C, ∀ M N : ℕ, 1 ≤ M → 1 ≤ N → M ≤ 2 * N → N ≤ 2 * M → (4 * M + 2) * (4 * N + 2) < 2 ^ 30 →
    ∃ D p₀, ∀ p ≥ p₀, ∃ s' r,
    run false ({ Ex.st asym with
      inp := Ex.mapI (fun x => (⟨Ex.rnd p x⟩ : Ex.Flp p)) { (Ex.gentle asym).inp with mboz := M, nboz := N } }) =
        .ok (s', r) ∧
    ∀ b < 2, ∀ disk, ShowsFieldNear (fun _ => True) Ex.Flp.val (surfplot disk (.object s'))
      (surface (Ex.gentle asym).inp asym (selected (Ex.gentle asym).inp b)) (Ex.dims asym).nfp 2 b 50 90 (D * (4 / 2 ^ p))
      (C * (1 / (M : ℝ)) ^ 7 + D * (4 / 2 ^ p)) := by
  obtain ⟨C, -, H⟩ := C111_machine (s₀ := Ex.gentle asym) (d := Ex.dims asym) (Ex.gentle_ready asym)
    (Ex.fieldPeriodic (α := ℝ) asym) (Ex.originOnce (α := ℝ) asym)
    (fun b hb => Ex.gentle_regular asym (Ex.selected_lt asym b hb))
    (fun b hb θ ζ => (lt_trans (by norm_num) (Ex.gentle_det asym (Ex.selected_lt asym b hb) θ ζ)).ne')
    (c := 2) (by norm_num) (ρ := 1 / 2) (by norm_num) 7
  refine ⟨C, fun M N hM hN h2 h3 hf => ?_⟩
  have hr := Ex.gentle_ready_res asym hM hf
  obtain ⟨K, hK, near⟩ := Ex.mapI_near hr
  obtain ⟨D, u₀, -, h0, G⟩ := H M N hN (by exact_mod_cast h2) (by exact_mod_cast h3) hr K hK 50 90 (by norm_num) (by norm_num)
  obtain ⟨p₀, hp₀⟩ := Ex.bits h0
  refine ⟨D, p₀, fun p hp => ?_⟩
  obtain ⟨s', r, g1, g2⟩ := G (Ex.Flp p) (fun _ => True) Ex.Flp.val (4 / 2 ^ p) (Ex.flp_precision p) (hp₀ p hp)
    { Ex.st asym with
      inp := Ex.mapI (fun x => (⟨Ex.rnd p x⟩ : Ex.Flp p)) { (Ex.gentle asym).inp with mboz := M, nboz := N } }
    (Ex.mapI_ready _ hr) { near p with }
  exact ⟨s', r, g1, fun b hb => g2 b hb (Ex.gentle_resolved asym (Ex.selected_lt asym b hb) h2 h3)⟩

/-! ## From file to figure -/

/-- **C111, from file to figure.**  Let `f₀` be a `wout` file with exact numbers that `read_wout` accepts, `b₀` the equilibrium
it describes, on whose surfaces the Boozer angles are coordinates, and `p` an order.  There is a constant `C`, and for every
request that can be carried out, with comparable numbers of modes, and every size of the plot a constant `D` and a precision
`u₀`, such that on every machine of precision `u ≤ u₀`, where negating twice changes nothing, the following holds.  If the disk
holds an input file with this request and a `wout` file whose numbers are within `K u` of those of `f₀`, then `xbooz_xform`
returns 0, and `surfplot` with the name of the `boozmn` file that it leaves shows |B| of each requested surface resolved by the
grid within `C / mboz^p + D u`. -/
theorem C111_file {disk₀ : Disk ℝ} {path₀ : String} {f₀ : NcFile ℝ} {z : WoutSizes} {b₀ : St ℝ}
    (hd₀ : disk₀ path₀ = .nc f₀) (hz₀ : WoutShapes f₀ z) (hl₀ : readWout disk₀ path₀ false construct = .ok () b₀)
    (hi : ∀ k, k < (intsOf f₀ "xn_nyq").size → ((intsOf f₀ "xn_nyq").val 0 k).natAbs < 2147483648)
    (hns : z.ns ≤ 2147483644)
    (hfp : FieldPeriodic b₀.inp z.nfp.toNat) (ho : OriginOnce b₀.inp)
    (hreg : ∀ js : ℕ, (js : ℤ) < z.ns - 1 → (surface b₀.inp (decide (z.lasym ≠ 0)) js).Regular)
    (hdet : ∀ js : ℕ, (js : ℤ) < z.ns - 1 → ∀ θ ζ, (surface b₀.inp (decide (z.lasym ≠ 0)) js).det θ ζ ≠ 0)
    (surfs : List ℤ) (hlen : surfs.length ≤ 2147483644) {c : ℝ} (hc0 : 0 ≤ c) {ρ : ℝ} (hρ : ρ < 1) (p : ℕ) :
    ∃ C, 0 ≤ C ∧ ∀ r : Request, r.surfs = surfs → CanRun f₀ z r → 1 ≤ torRes z r →
      (polRes z r : ℝ) ≤ c * torRes z r → (torRes z r : ℝ) ≤ c * polRes z r → ∀ K : ℝ, 0 ≤ K →
      ∀ nt np : ℕ, 1 ≤ nt → 1 ≤ np → ∃ D u₀, 0 < u₀ ∧
      ∀ (α : Type) [Arith α] (fin : α → Prop) (val : α → ℝ) (u : ℝ), Precision α fin val u → u ≤ u₀ → (∀ x : α, - - x = x) →
      ∀ (w : World α) (content : List Char) (path prog : String) (env : Env) (version : String) (f : NcFile α),
        w.disk path = .other content → Asks content r →
        w.disk ("wout_" ++ String.ofList r.ext ++ ".nc") = .nc f → WoutShapes f z → WoutNear fin val z (K * u) f f₀ →
        VersionOk version → NoFailure env →
        ∃ (w' : World α) (out : NcFile α) (nb : ℕ), driver env version [prog, path] w = .ok 0 w' ∧
          w'.disk ("boozmn_" ++ String.ofList r.ext ++ ".nc") = .nc out ∧
          (∀ j, Wanted z r j ↔ ∃ b < nb, FileInt out "jlist" b (j + 2)) ∧
          ∀ b j, FileInt out "jlist" b (j + 2) → let S := surface b₀.inp (decide (z.lasym ≠ 0)) j.toNat
            S.ResolvedBy z.nfp.toNat (polRes z r) (torRes z r) ρ →
            ShowsFieldNear fin val (surfplot w'.disk (.file ("boozmn_" ++ String.ofList r.ext ++ ".nc"))) S z.nfp.toNat nb b
              nt np (D * u) (C * (1 / (polRes z r : ℝ)) ^ p + D * u) := by
  obtain ⟨hg₀, hl₀'⟩ := wout_loaded hd₀ hz₀ hl₀
  obtain ⟨-, -, C₀, -⟩ := vmec_inv hg₀ hl₀'
  have hns2 : 2 ≤ z.ns := C₀.ns_ge
  by_cases hex : ∃ r : Request, r.surfs = surfs ∧ CanRun f₀ z r
  swap
  · exact ⟨0, le_rfl, fun r h1 h2 => absurd ⟨r, h1, h2⟩ hex⟩
  obtain ⟨r₁, rfl, hc₁⟩ := hex
  obtain ⟨l, hS, hl1, hl2, hmem⟩ := wantedVec_full (r := r₁) hns2
  have hr₁ := requested_ready hg₀ hl₀' hi hc₁ hS hl1
  have hsel : ∀ b (hb : b < l.length), (wantedVec z r₁).val 0 b = l[b] := fun b hb => by rw [hS, val_list hb]
  have range : ∀ b < l.length, 0 ≤ (wantedVec z r₁).val 0 b ∧ (wantedVec z r₁).val 0 b < z.ns - 1 := fun b hb => by
    have := hr₁.surfs_range b hb
    have h1 : 0 ≤ (wantedVec z r₁).val 0 b := this.1
    have h2 : ((wantedVec z r₁).val 0 b) < ((z.ns - 1).toNat : ℕ) := this.2
    omega
  have range' : ∀ b < l.length, (((wantedVec z r₁).val 0 b).toNat : ℤ) < z.ns - 1 := fun b hb => by
    have := range b hb
    omega
  obtain ⟨C, hC, H⟩ := C111_machine (s₀ := settings (wantedVec z r₁) (polRes z r₁) (torRes z r₁) 1 b₀) hr₁ hfp ho
    (fun b hb => hreg _ (range' b hb)) (fun b hb => hdet _ (range' b hb)) hc0 hρ p
  refine ⟨C, hC, fun r hrs hc hN hMN hNM K hK nt np ht hq => ?_⟩
  have hW : wantedVec z r = wantedVec z r₁ := by unfold wantedVec; rw [hrs]
  have hr := requested_ready hg₀ hl₀' hi hc (hW.trans hS) hl1
  obtain ⟨E, u₀, e0, p0, L⟩ := C71_load hg₀ hl₀' hK
  obtain ⟨D, v₀, hD, q, G⟩ := H (polRes z r) (torRes z r) hN hMN hNM (by rw [hW] at hr; exact hr) E e0 nt np ht hq
  refine ⟨D, min u₀ v₀, lt_min p0 q,
    fun α _ fin val u hu hle hneg w content path prog env version f hp ha hd hz hn hv he => ?_⟩
  obtain ⟨b, hb⟩ := loads_near hd₀ hz₀ hl₀ hd hz hn
  obtain ⟨hg, hl⟩ := wout_loaded hd hz hb
  have hx := hn.modes "xn_nyq" (by simp)
  obtain ⟨w', hw'⟩ := (C43_exact (prog := prog) hp ha hd hz hb (by rw [hx]; exact hi) hv he (by rw [hrs]; exact hlen)
    hns).1.2 ((canRun_near hn r).2 hc)
  obtain ⟨b1, t, rep, v, k1, k2, k3, k4⟩ := driver_inv hp ha hw'
  cases (show Out.ok () b1 = Out.ok () b from k1.symm.trans hb)
  have hmp := hc.1.mpol
  have e0 : (woutSizesOf f₀ z).mpol = z.mpol := rfl
  obtain ⟨e1, e2⟩ := res_eq (z := z) (r := r) (by omega)
  rw [requested_settings r hg hl, ← e1, ← e2, hW] at k2
  rw [woutSizes_near hn] at hg
  obtain ⟨r1, r2, r3, r4, r5⟩ := ready_loaded hg₀ hl₀' hg hl (sameModes_near hn) hr
  have R := r1
  rw [hW] at R
  have near := L α fin val u hu (hle.trans (min_le_left _ _)) _ _ b hg (sameModes_near hn) (argsNear_near hz hn) hl _ r2 r3 r4 r5
  obtain ⟨t', rep', q1, q2⟩ := G α fin val u hu (hle.trans (min_le_right _ _))
    (settings (wantedVec z r₁) (polRes z r) (torRes z r) 1 b) R { near with surfs := rfl }
  rw [k2] at q1
  cases q1
  have hflux : FluxOk (settings (wantedVec z r₁) (polRes z r) (torRes z r) 1 b).flux (z.ns - 1).toNat := by
    rw [vmec_result hg hl]
    exact .inl rfl
  have HR := run_hasResults R hl1 (by show l.length ≤ _; omega) (by show (z.ns - 1).toNat + 1 ≤ _; omega) hflux
  rw [← (run_false R k2).1] at HR
  obtain ⟨out, o1, o2⟩ := C34_layout HR hv k3
  have hj : HoldsSurfs out l.length (listVec l) := by
    have := o2.jlist
    rw [(run_false R k2).1] at this
    rw [← hS]
    exact this
  have hgrid : HalfGrid (settings (wantedVec z r₁) (polRes z r) (torRes z r) 1 b).inp.s_in (z.ns - 1).toNat := by
    have : HalfGrid b.inp.s_in (z.ns - 1).toNat := C33_loaded_grid hg hl
    exact this
  have hphi : (settings (wantedVec z r₁) (polRes z r) (torRes z r) 1 b).flux.phip.size ≠ 0 →
      ∃ x, (settings (wantedVec z r₁) (polRes z r) (torRes z r) 1 b).flux.phi[(z.ns - 1).toNat]? = some (some x) := by
    intro k
    rw [vmec_result hg hl] at k
    exact absurd rfl k
  obtain ⟨f1, -⟩ := C63_partial (any := w.disk) hneg R hgrid hl1 (by show l.length ≤ _; omega)
    (by show (z.ns - 1).toNat + 1 ≤ _; omega) hflux hphi k2 hv k3
  refine ⟨w', out, l.length, hw', by rw [k4]; exact o1, fun j => ?_, fun b' j g1 => ?_⟩
  · have : Wanted z r j ↔ Wanted z r₁ j := by unfold Wanted; rw [hrs]
    rw [this, ← hmem, List.mem_iff_getElem]
    refine exists_congr fun b => ⟨fun hb => ⟨hb.1, (fileSurf_iff hj).2 hb⟩, fun hb => (fileSurf_iff hj).1 hb.2⟩
  intro S hres
  obtain ⟨hb', rfl⟩ := (fileSurf_iff hj).1 g1
  have key := q2 b' hb'
  have esel : selected (settings (wantedVec z r₁) (polRes z r₁) (torRes z r₁) 1 b₀).inp b' = l[b'].toNat :=
    congrArg Int.toNat (hsel b' hb')
  rw [esel] at key
  intro js fill nc fig hcol
  obtain ⟨X, Y, Z, y1, y2⟩ := key hres w.disk js fill nc fig hcol
  refine ⟨X, Y, Z, ?_, y2⟩
  rw [k4, ← y1]
  exact congrFun (f1 js fill (nt + 1) (np + 1) nc) fig

/-- C111 for a `wout` file on the disk: figures of 51 × 91 points from the `boozmn` file. -/
example : ∃ b₀ : St ℝ, readWout (Ex.softWorld Ex.input).disk ("wout_" ++ String.ofList ['x'] ++ ".nc") false construct =
      .ok () b₀ ∧ ∃ C D : ℝ, ∃ p₀, ∀ p ≥ p₀, ∃ w' out nb,
    driver Ex.calm "0.0.1" ["xbooz_xform", "in"] (Ex.softWorld (α := Ex.Flp p) Ex.input) = .ok 0 w' ∧
    w'.disk ("boozmn_" ++ String.ofList ['x'] ++ ".nc") = .nc out ∧
    ∀ b j, FileInt out "jlist" b (j + 2) → j.toNat < 3 →
      ShowsFieldNear (fun _ => True) Ex.Flp.val (surfplot w'.disk (.file ("boozmn_" ++ String.ofList ['x'] ++ ".nc")))
        (surface b₀.inp false j.toNat) (Ex.woutZ 0).nfp.toNat nb b 50 90 (D * (4 / 2 ^ p))
        (C * (1 / 16) ^ 9 + D * (4 / 2 ^ p)) := by
  obtain ⟨b₀, h₀⟩ := Ex.soft_loads (α := ℝ) Ex.input
  have s := Ex.softened h₀
  obtain ⟨hp, ho, hreg, hdet⟩ := Ex.softened_ok s
  refine ⟨b₀, h₀, ?_⟩
  have hi : ∀ k, k < (intsOf (Ex.soft (α := ℝ)) "xn_nyq").size →
      ((intsOf (Ex.soft (α := ℝ)) "xn_nyq").val 0 k).natAbs < 2147483648 := by
    rw [Ex.soft_ints (by decide)]
    exact Ex.wout_nyq
  obtain ⟨C, -, H⟩ := C111_file (Ex.softWorld_wout _) Ex.soft_shapes h₀ hi (by decide) hp ho hreg hdet [1, 0] (by decide)
    (c := 2) (by norm_num) (ρ := 1 / 2) (by norm_num) 9
  have eM : polRes (Ex.woutZ 0) Ex.request = 16 := rfl
  have eN : torRes (Ex.woutZ 0) Ex.request = 8 := rfl
  obtain ⟨D, u₀, h0, G⟩ := H Ex.request rfl Ex.soft_can_run (by decide) (by rw [eM, eN]; norm_num)
    (by rw [eM, eN]; norm_num) 100 (by norm_num) 50 90 (by norm_num) (by norm_num)
  obtain ⟨p₀, hp₀⟩ := Ex.bits h0
  refine ⟨C, D, p₀, fun p hp => ?_⟩
  have neg : ∀ x : Ex.Flp p, - - x = x := fun x => congrArg Ex.Flp.mk (neg_neg x.val)
  obtain ⟨w', out, nb, g1, g2, -, g3⟩ := G (Ex.Flp p) _ Ex.Flp.val (4 / 2 ^ p) (Ex.flp_precision p) (hp₀ p hp) neg
    (Ex.softWorld Ex.input) Ex.input "in" "xbooz_xform" Ex.calm "0.0.1" Ex.soft (Ex.softWorld_in _) Ex.input_asks
    (Ex.softWorld_wout _) Ex.soft_shapes (Ex.soft_near p) Ex.version Ex.noFailure
  refine ⟨w', out, nb, g1, g2, fun b j hb hj => ?_⟩
  have := g3 b j hb (Ex.soft_resolved s hj)
  rw [eM] at this
  push_cast at this
  exact this

end Booz
