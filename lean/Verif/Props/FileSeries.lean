import Verif.Spec.FileSeries
import Verif.Props.FileSpectrum
import Verif.Props.Positions

/-!
# C110: functions and positions rebuilt from the numbers which a machine stores
-/

namespace Booz
open Spec Finset

/-- A Fourier series changes by at most the sum of the changes of its coefficients. -/
theorem series_near {K : ℕ} {m n : ℕ → ℤ} {c s c' s' : ℕ → ℝ} {E : ℝ} (hc : ∀ k < K, |c k - c' k| ≤ E)
    (hs : ∀ k < K, |s k - s' k| ≤ E) (t z : ℝ) : |series K m n c' s' t z - series K m n c s t z| ≤ K * (2 * E) := by
  unfold series
  rw [← sum_sub_distrib]
  refine (abs_sum_le_sum_abs _ _).trans ?_
  refine (sum_le_card_nsmul _ _ (2 * E) fun k hk => ?_).trans_eq (by rw [card_range, nsmul_eq_mul])
  have hk := mem_range.1 hk
  have e : c' k * Real.cos (m k * t - n k * z) + s' k * Real.sin (m k * t - n k * z) -
      (c k * Real.cos (m k * t - n k * z) + s k * Real.sin (m k * t - n k * z)) =
      -(c k - c' k) * Real.cos (m k * t - n k * z) - (s k - s' k) * Real.sin (m k * t - n k * z) := by ring
  rw [e]
  have one : ∀ x y : ℝ, |x| ≤ E → |y| ≤ 1 → |x * y| ≤ E := fun x y hx hy => by
    rw [abs_mul]
    calc |x| * |y| ≤ E * 1 := mul_le_mul hx hy (abs_nonneg _) ((abs_nonneg x).trans hx)
      _ = E := mul_one E
  have h1 := one _ _ (by rw [abs_neg]; exact hc k hk) (Real.abs_cos_le_one (m k * t - n k * z))
  have h2 := one _ _ (hs k hk) (Real.abs_sin_le_one (m k * t - n k * z))
  exact (abs_sub _ _).trans (by linarith)

theorem rebuilds_of {K : ℕ} {m n : ℕ → ℤ} {cosN sinN : ℕ → ℝ → Prop} {S : Surface} {q : ℝ → ℝ → ℝ} {c s : ℕ → ℝ}
    {e E : ℝ} (hc : ∀ k < K, ∃ x, cosN k x ∧ |x - c k| ≤ E) (hs : ∀ k < K, ∃ x, sinN k x ∧ |x - s k| ≤ E)
    (hq : ∀ θ ζ, |q θ ζ - series K m n c s (S.thetaB θ ζ) (S.zetaB θ ζ)| ≤ e) :
    Rebuilds K m n cosN sinN S q (e + K * (2 * E)) := by
  have hc' : ∀ k, ∃ x, k < K → cosN k x ∧ |x - c k| ≤ E := fun k => by
    by_cases hk : k < K
    · exact (hc k hk).imp fun _ h _ => h
    · exact ⟨0, fun h => absurd h hk⟩
  have hs' : ∀ k, ∃ x, k < K → sinN k x ∧ |x - s k| ≤ E := fun k => by
    by_cases hk : k < K
    · exact (hs k hk).imp fun _ h _ => h
    · exact ⟨0, fun h => absurd h hk⟩
  choose c' hc' using hc'
  choose s' hs' using hs'
  refine ⟨c', s', fun k hk => ⟨(hc' k hk).1, (hs' k hk).1⟩, fun θ ζ => ?_⟩
  have h1 := hq θ ζ
  have h2 := series_near (m := m) (n := n) (fun k hk => (hc' k hk).2) (fun k hk => (hs' k hk).2) (S.thetaB θ ζ) (S.zetaB θ ζ)
  have e : q θ ζ - series K m n c' s' (S.thetaB θ ζ) (S.zetaB θ ζ) =
    (q θ ζ - series K m n c s (S.thetaB θ ζ) (S.zetaB θ ζ)) +
      (series K m n c s (S.thetaB θ ζ) (S.zetaB θ ζ) - series K m n c' s' (S.thetaB θ ζ) (S.zetaB θ ζ)) := by ring
  rw [e]
  exact (abs_add_le _ _).trans (add_le_add h1 h2)

/-- Outputs near those of an exact run whose series reconstruct the surface. -/
theorem machine_rebuilds {s₀ : St ℝ} {d : Dims} (h : RunReady s₀.inp d) (hp : FieldPeriodic s₀.inp d.nfp)
    (ho : OriginOnce s₀.inp) {b : ℕ} (hb : b < d.nsb) {α : Type} [Arith α] {fin : α → Prop} {val : α → ℝ}
    {o : Outputs α} {e E : ℝ} (hE : 0 ≤ E) (hn : OutputsNear fin val d E o (runSt d s₀ d.nsb).out)
    (hq : let S := surface s₀.inp d.asym (selected s₀.inp b)
      ∀ q ∈ S.quantities, ∀ θ ζ, |q θ ζ - outputSeries d.nfp d.M d.N (S.quadCos (ntheta d.M) (nzeta d.N) d.nfp q)
        (S.quadSin (ntheta d.M) (nzeta d.N) d.nfp q) (S.thetaB θ ζ) (S.zetaB θ ζ)| ≤ e) :
    MachineRebuilds fin val o (surface s₀.inp d.asym (selected s₀.inp b)) d.asym (numModes d.M d.N) b
      (e + numModes d.M d.N * (2 * E)) := by
  set S := surface s₀.inp d.asym (selected s₀.inp b) with hS
  have g := fun (k : ℕ) (hk : k < d.nmodes) => spectrum_at h hp ho (b := b) hb hk
  have par := fun (ha : d.asym = false) (m n : ℤ) => quad_parity h hp ha (selected s₀.inp b) (ntheta_pos d.M) (nzeta_pos d.N) m n
  have yes : ∀ (a : Mat α) (a₀ : Mat ℝ) (f : ℤ → ℤ → ℝ), MatNear fin val d.nmodes d.nsb E a a₀ →
      (∀ k < d.nmodes, a₀.rdN k b = .ok (f (modeM d.N k) (modeN d.N k * d.nfp))) →
      ∀ k < numModes d.M d.N, ∃ x, Stores fin val a k b x ∧ |x - f (modeM d.N k) (modeN d.N k * d.nfp)| ≤ E := by
    intro a a₀ f h1 h2 k hk
    obtain ⟨x, y, k1, k2, k3, k4⟩ := h1 k hk b hb
    rw [h2 k hk] at k2
    cases k2
    exact ⟨val x, ⟨x, k1, k3, rfl⟩, k4⟩
  have other : ∀ (a : Mat α) (a₀ : Mat ℝ) (f : ℤ → ℤ → ℝ), (d.asym = true → MatNear fin val d.nmodes d.nsb E a a₀) →
      (d.asym = true → ∀ k < d.nmodes, a₀.rdN k b = .ok (f (modeM d.N k) (modeN d.N k * d.nfp))) →
      (d.asym = false → ∀ m n : ℤ, f m (n * d.nfp) = 0) →
      ∀ k < numModes d.M d.N, ∃ x, IfAsym d.asym (Stores fin val a k b) x ∧
        |x - f (modeM d.N k) (modeN d.N k * d.nfp)| ≤ E := by
    intro a a₀ f h1 h2 h3 k hk
    cases ha : d.asym
    · exact ⟨0, rfl, by rw [h3 ha]; simpa using hE⟩
    · exact yes a a₀ f (h1 ha) (h2 ha) k hk
  have fit : ∀ q ∈ S.quantities, ∀ θ ζ, |q θ ζ - series (numModes d.M d.N) (outM (runSt d s₀ d.nsb)) (outN (runSt d s₀ d.nsb))
      (fun k => S.quadCos (ntheta d.M) (nzeta d.N) d.nfp q (modeM d.N k) (modeN d.N k * d.nfp))
      (fun k => S.quadSin (ntheta d.M) (nzeta d.N) d.nfp q (modeM d.N k) (modeN d.N k * d.nfp))
      (S.thetaB θ ζ) (S.zetaB θ ζ)| ≤ e := by
    intro q hq' θ ζ
    rw [series_sum h (fun _ _ => rfl) (fun _ _ => rfl)]
    exact hq q hq' θ ζ
  have mem : ∀ q ∈ [S.B, S.R, S.Z, S.nu, S.jacobian], q ∈ S.quantities := fun q hq => hq
  refine ⟨outM (runSt d s₀ d.nsb), outN (runSt d s₀ d.nsb), fun k hk => ⟨?_, ?_⟩, ?_, ?_, ?_, ?_, ?_⟩
  · have e : outM (runSt d s₀ d.nsb) k = modeM d.N k := Vec.val_tab hk
    rw [hn.xm_b, e]
    exact Vec.rdN_tab hk
  · have e : outN (runSt d s₀ d.nsb) k = modeN d.N k * d.nfp := Vec.val_tab hk
    rw [hn.xn_b, e]
    exact Vec.rdN_tab hk
  · exact rebuilds_of (yes _ _ _ hn.bmnc fun k hk => (g k hk).1)
      (other _ _ _ hn.bmns (fun ha k hk => ((g k hk).2.2.2.2.2 ha).1) fun ha m n => (par ha m n).1) (fit _ (mem _ (by simp)))
  · exact rebuilds_of (yes _ _ _ hn.rmnc fun k hk => (g k hk).2.1)
      (other _ _ _ hn.rmns (fun ha k hk => ((g k hk).2.2.2.2.2 ha).2.1) fun ha m n => (par ha m n).2.1) (fit _ (mem _ (by simp)))
  · exact rebuilds_of
      (other _ _ _ hn.zmnc (fun ha k hk => ((g k hk).2.2.2.2.2 ha).2.2.1) fun ha m n => (par ha m n).2.2.1)
      (yes _ _ _ hn.zmns fun k hk => (g k hk).2.2.1) (fit _ (mem _ (by simp)))
  · exact rebuilds_of
      (other _ _ _ hn.numnc (fun ha k hk => ((g k hk).2.2.2.2.2 ha).2.2.2.1) fun ha m n => (par ha m n).2.2.2.1)
      (yes _ _ _ hn.numns fun k hk => (g k hk).2.2.2.1) (fit _ (mem _ (by simp)))
  · exact rebuilds_of (yes _ _ _ hn.gmnc fun k hk => (g k hk).2.2.2.2.1)
      (other _ _ _ hn.gmns (fun ha k hk => ((g k hk).2.2.2.2.2 ha).2.2.2.2) fun ha m n => (par ha m n).2.2.2.2)
      (fit _ (mem _ (by simp)))

/-- **C110, on a machine.**  Let the real data be regular on the selected surfaces, and the Boozer angles coordinates of
them.  For any order `p` there is a constant `C`, and for each resolution (M, N) with `M ≤ c N`, `N ≤ c M` a constant `D`
and a precision `u₀`, such that every machine of precision `u ≤ u₀`, given the data rounded to within `K u` and run at this
resolution, stores finite numbers for all modes, and on each surface resolved by the grid their sums are within
`C / M^p + D u` of |B|, R, Z, ν and the Jacobian, at all points; and all its ι, I, G are within `D u` of the exact ones. -/
theorem C110_machine {s₀ : St ℝ} {d : Dims} (h : RunReady s₀.inp d) (hp : FieldPeriodic s₀.inp d.nfp)
    (ho : OriginOnce s₀.inp) (hreg : ∀ b < d.nsb, (surface s₀.inp d.asym (selected s₀.inp b)).Regular)
    (hdet : ∀ b < d.nsb, ∀ θ ζ, (surface s₀.inp d.asym (selected s₀.inp b)).det θ ζ ≠ 0)
    {c : ℝ} (hc : 0 ≤ c) {ρ : ℝ} (hρ : ρ < 1) (p : ℕ) :
    ∃ C, 0 ≤ C ∧ ∀ M N : ℕ, 1 ≤ N → (M : ℝ) ≤ c * N → (N : ℝ) ≤ c * M →
      RunReady { s₀.inp with mboz := M, nboz := N } { d with M := M, N := N } → ∀ K : ℝ, 0 ≤ K →
      ∃ D u₀, 0 ≤ D ∧ 0 < u₀ ∧
        ∀ (α : Type) [Arith α] (fin : α → Prop) (val : α → ℝ) (u : ℝ), Precision α fin val u → u ≤ u₀ →
        ∀ s : St α, RunReady s.inp { d with M := M, N := N } →
          InputsNear fin val { d with M := M, N := N } (K * u) s.inp s₀.inp →
          ∃ s' r, run false s = .ok (s', r) ∧
            (∀ b < d.nsb, let S := surface s₀.inp d.asym (selected s₀.inp b)
              S.ResolvedBy d.nfp M N ρ →
              MachineRebuilds fin val s'.out S d.asym (numModes M N) b (C * (1 / (M : ℝ)) ^ p + D * u)) ∧
            ∀ j < d.ns, let S := surface s₀.inp d.asym j
              ∃ iota I G, s'.inp.iota.rdN j = .ok iota ∧ s'.out.boozer_I_all.rdN j = .ok I ∧
                s'.out.boozer_G_all.rdN j = .ok G ∧ fin iota ∧ fin I ∧ fin G ∧
                |val iota - S.iota| ≤ D * u ∧ |val I - S.I| ≤ D * u ∧ |val G - S.G| ≤ D * u := by
  obtain ⟨C, hC, H, -⟩ := C74_all_harmonics h hp ho hreg hdet hc hρ p
  refine ⟨C, hC, fun M N hN hMN hNM hr K hK => ?_⟩
  let s₁ : St ℝ := { s₀ with inp := { s₀.inp with mboz := M, nboz := N } }
  obtain ⟨A, u₀, h0, G⟩ := C69_rounding (s₀ := s₁) (d := { d with M := M, N := N }) hr hp ho hreg hK
  let D : ℝ := |A| + numModes M N * (2 * |A|) + K
  have hD : 0 ≤ D := by positivity
  have hA : |A| ≤ D := by
    have : (0 : ℝ) ≤ numModes M N * (2 * |A|) := by positivity
    show |A| ≤ |A| + numModes M N * (2 * |A|) + K
    linarith
  have hA2 : numModes M N * (2 * |A|) ≤ D := by
    have := abs_nonneg A
    show _ ≤ |A| + numModes M N * (2 * |A|) + K
    linarith
  have hKD : K ≤ D := by
    have : (0 : ℝ) ≤ numModes M N * (2 * |A|) := by positivity
    have := abs_nonneg A
    show _ ≤ |A| + numModes M N * (2 * |A|) + K
    linarith
  refine ⟨D, u₀, hD, h0, fun α _ fin val u hu hle s hs hn => ?_⟩
  obtain ⟨s', r, t, q, h1, h2, h3⟩ := G α fin val u hu hle s hs { hn with }
  obtain ⟨rfl, -⟩ := run_false hr h2
  have hu0 := hu.u_pos.le
  refine ⟨s', r, h1, fun b hb => ?_, fun j hj => ?_⟩
  · intro S hres
    have weaken : OutputsNear fin val { d with M := M, N := N } (|A| * u) s'.out
        (runSt { d with M := M, N := N } s₁ ({ d with M := M, N := N } : Dims).nsb).out := by
      have le : A * u ≤ |A| * u := mul_le_mul_of_nonneg_right (le_abs_self A) hu0
      have vw : ∀ {n : ℕ} {v : Vec α} {w : Vec ℝ}, VecNear fin val n (A * u) v w → VecNear fin val n (|A| * u) v w :=
        fun h i hi => by
          obtain ⟨x, y, a1, a2, a3, a4⟩ := h i hi
          exact ⟨x, y, a1, a2, a3, a4.trans le⟩
      have mw : ∀ {n k : ℕ} {v : Mat α} {w : Mat ℝ}, MatNear fin val n k (A * u) v w → MatNear fin val n k (|A| * u) v w :=
        fun h i hi j hj => by
          obtain ⟨x, y, a1, a2, a3, a4⟩ := h i hi j hj
          exact ⟨x, y, a1, a2, a3, a4.trans le⟩
      exact ⟨h3.ns_b, h3.mnboz, h3.xm_b, h3.xn_b, vw h3.s_b, vw h3.boozer_I, vw h3.boozer_G, vw h3.boozer_I_all,
        vw h3.boozer_G_all, mw h3.bmnc, mw h3.rmnc, mw h3.zmns, mw h3.numns, mw h3.gmnc, fun a => mw (h3.bmns a),
        fun a => mw (h3.rmns a), fun a => mw (h3.zmnc a), fun a => mw (h3.numnc a), fun a => mw (h3.gmns a)⟩
    have key := machine_rebuilds (s₀ := s₁) (d := { d with M := M, N := N }) hr hp ho hb
      (mul_nonneg (abs_nonneg A) hu0) weaken (e := C * (1 / (M : ℝ)) ^ p)
      (fun q hq θ ζ => H b hb q hq M N hr.mboz_ge hN hMN hNM hres θ ζ)
    have le : C * (1 / (M : ℝ)) ^ p + numModes M N * (2 * (|A| * u)) ≤ C * (1 / (M : ℝ)) ^ p + D * u := by
      have := mul_le_mul_of_nonneg_right hA2 hu0
      linarith
    obtain ⟨m, n, k0, k1, k2, k3, k4, k5⟩ := key
    have wk : ∀ {cosN sinN : ℕ → ℝ → Prop} {q : ℝ → ℝ → ℝ},
        Rebuilds (numModes M N) m n cosN sinN S q (C * (1 / (M : ℝ)) ^ p + numModes M N * (2 * (|A| * u))) →
        Rebuilds (numModes M N) m n cosN sinN S q (C * (1 / (M : ℝ)) ^ p + D * u) := by
      rintro _ _ _ ⟨a, b, g1, g2⟩
      exact ⟨a, b, g1, fun θ ζ => (g2 θ ζ).trans le⟩
    exact ⟨m, n, k0, wk k1, wk k2, wk k3, wk k4, wk k5⟩
  · intro S
    obtain ⟨-, -, -, -, hIG, -⟩ := C15_flux_functions (s := s₁) hr ho h2
    obtain ⟨hI, hG⟩ := hIG j hj
    obtain ⟨I, I₀, a1, a2, a3, a4⟩ := h3.boozer_I_all j hj
    obtain ⟨G', G₀, b1, b2, b3, b4⟩ := h3.boozer_G_all j hj
    obtain ⟨iota, i₀, c1, c2, c3, c4⟩ := hn.iota j hj
    rw [hI] at a2
    rw [hG] at b2
    have eI : I₀ = S.I := (Mat.val_of_rdN 0 a2).symm
    have eG : G₀ = S.G := (Mat.val_of_rdN 0 b2).symm
    have ei : i₀ = S.iota := (Vec.val_of_rdN 0 c2).symm
    subst eI eG ei
    have le : A * u ≤ D * u := mul_le_mul_of_nonneg_right ((le_abs_self A).trans hA) hu0
    refine ⟨iota, I, G', ?_, a1, b1, c3, a3, b3, c4.trans (mul_le_mul_of_nonneg_right hKD hu0), a4.trans le, b4.trans le⟩
    obtain ⟨rfl, -⟩ := run_false hs h1
    exact c1

/-! ### The file -/

section
variable {α : Type} [Arith α] {fin : α → Prop} {val : α → ℝ}

/-- The numbers of the outputs are in the file. -/
theorem file_rebuilds {out : NcFile α} {version : String} {t : St α} {d : Dims} {u e E m₀ : ℝ} {I : Inputs ℝ} {js : ℕ}
    (hu : Precision α fin val u) (hl : Layout out version t d.nmodes d.nsb d.ns d.asym) {b : ℕ} (hb : b < d.nsb)
    (hj : js < d.ns) (h : MachineRebuilds fin val t.out (surface I d.asym js) d.asym (numModes d.M d.N) b e)
    (hm : ∀ θ ζ, |(surface I d.asym js).R θ ζ| ≤ m₀) (hE : (1 + m₀) * e ≤ E)
    {iota I' G : α} (h1 : t.inp.iota.rdN js = .ok iota) (h2 : t.out.boozer_I_all.rdN js = .ok I')
    (h3 : t.out.boozer_G_all.rdN js = .ok G) (f1 : fin iota) (f2 : fin I') (f3 : fin G)
    (n1 : |val iota - (surface I d.asym js).iota| ≤ E) (n2 : |val I' - (surface I d.asym js).I| ≤ E)
    (n3 : |val G - (surface I d.asym js).G| ≤ E) :
    FileRebuilds fin val out (surface I d.asym js) (inputPoint I d.asym js) d.asym (numModes d.M d.N) b js E := by
  set S := surface I d.asym js with hS
  obtain ⟨m, n, k0, ⟨bc, bs, kb, kb'⟩, ⟨rc, rs, kr, kr'⟩, ⟨zc, zs, kz, kz'⟩, ⟨nc, ns, kn, kn'⟩, ⟨gc, gs, kg, kg'⟩⟩ := h
  have e0 : 0 ≤ e := (abs_nonneg _).trans (kb' 0 0)
  have m0 : 0 ≤ m₀ := (abs_nonneg _).trans (hm 0 0)
  have leE : e ≤ E := by nlinarith
  have pos : ∀ {a : Mat α} {name : String} {k : ℕ} {r : ℝ}, HoldsMat out d.nmodes d.nsb name id a → k < d.nmodes →
      Stores fin val a k b r → FileNumber fin val out name (numModes d.M d.N) b k r := by
    rintro a name k r ⟨v, c, h1, h2, h3, -, h4⟩ hk ⟨x, g1, g2, g3⟩
    refine ⟨v, c, x, h1, h2, h3, ?_, g2, g3⟩
    refine (h4 b hb k hk).trans ?_
    rw [cell_of_rdN g1]
    rfl
  have neg : ∀ {a : Mat α} {name : String} {k : ℕ} {r : ℝ}, HoldsMat out d.nmodes d.nsb name (- ·) a → k < d.nmodes →
      Stores fin val a k b r → FileNumber fin val out name (numModes d.M d.N) b k (-r) := by
    rintro a name k r ⟨v, c, h1, h2, h3, -, h4⟩ hk ⟨x, g1, g2, g3⟩
    obtain ⟨n1, n2⟩ := hu.neg x g2
    refine ⟨v, c, -x, h1, h2, h3, ?_, n1, by rw [n2, g3]⟩
    refine (h4 b hb k hk).trans ?_
    rw [cell_of_rdN g1]
    rfl
  have posA : ∀ {a : Mat α} {name : String} {k : ℕ} {r : ℝ}, (d.asym = true → HoldsMat out d.nmodes d.nsb name id a) →
      k < d.nmodes → IfAsym d.asym (Stores fin val a k b) r →
      IfAsym d.asym (FileNumber fin val out name (numModes d.M d.N) b k) r := by
    intro a name k r h hk hs
    unfold IfAsym at *
    cases ha : d.asym
    · rw [ha] at hs; exact hs
    · rw [ha] at hs; exact pos (h ha) hk hs
  have negA : ∀ {a : Mat α} {name : String} {k : ℕ} {r : ℝ}, (d.asym = true → HoldsMat out d.nmodes d.nsb name (- ·) a) →
      k < d.nmodes → IfAsym d.asym (Stores fin val a k b) r →
      IfAsym d.asym (FileNumber fin val out name (numModes d.M d.N) b k) (-r) := by
    intro a name k r h hk hs
    unfold IfAsym at *
    cases ha : d.asym
    · rw [ha] at hs
      have hs : r = 0 := hs
      show -r = 0
      rw [hs, neg_zero]
    · rw [ha] at hs; exact neg (h ha) hk hs
  have prof : ∀ {a : Vec α} {name : String} {x : α}, HoldsShifted out d.ns name (ofInt 0) a → a.rdN js = .ok x → fin x →
      FileProfile fin val out name (js + 1) (val x) := by
    rintro a name x ⟨v, c, h1, h2, h3, -, -, h4⟩ hx hf
    refine ⟨v, c, x, h1, h2, h3, ?_, hf, rfl⟩
    rw [h4 js hj]
    unfold Vec.rdN at hx
    split at hx
    · rename_i y hy
      cases hx
      exact hy
    · cases hx
    · cases hx
  have ints : ∀ {name : String} {a : Vec ℤ} {k : ℕ} {x : ℤ}, HoldsInts out "mn_modes" name a → a.rdN k = .ok x →
      FileInt out name k x := by
    intro name a k x h hx
    rw [fileInt_iff h]
    unfold Vec.rdN at hx
    split at hx
    · rename_i y hy
      cases hx
      exact hy
    · cases hx
    · cases hx
  refine ⟨m, n, fun k hk => ⟨ints hl.ixm_b (k0 k hk).1, ints hl.ixn_b (k0 k hk).2⟩,
    ⟨bc, bs, fun k hk => ⟨pos hl.bmnc_b hk (kb k hk).1, posA (fun ha => (hl.asym_vars ha).1) hk (kb k hk).2⟩,
      fun θ ζ => (kb' θ ζ).trans leE⟩,
    ⟨gc, gs, fun k hk => ⟨pos hl.gmn_b hk (kg k hk).1, posA (fun ha => (hl.asym_vars ha).2.2.2.2) hk (kg k hk).2⟩,
      fun θ ζ => (kg' θ ζ).trans leE⟩,
    ⟨rc, rs, zc, zs, fun k => -nc k, fun k => -ns k, fun k hk => ⟨pos hl.rmnc_b hk (kr k hk).1,
      posA (fun ha => (hl.asym_vars ha).2.1) hk (kr k hk).2, posA (fun ha => (hl.asym_vars ha).2.2.1) hk (kz k hk).1,
      pos hl.zmns_b hk (kz k hk).2, negA (fun ha => (hl.asym_vars ha).2.2.2.1) hk (kn k hk).1,
      neg hl.pmns_b hk (kn k hk).2⟩, fun θ ζ => ?_⟩,
    val iota, val I', val G, prof hl.iota_b h1 f1, prof hl.buco_b h2 f2, prof hl.bvco_b h3 f3, n1, n2, n3⟩
  intro tB zB
  have eneg : series (numModes d.M d.N) m n (fun k => -nc k) (fun k => -ns k) tB zB =
      -series (numModes d.M d.N) m n nc ns tB zB := by
    unfold series
    rw [← sum_neg_distrib]
    exact sum_congr rfl fun k _ => by ring
  rw [eneg]
  refine (cartesian_dist (hm θ ζ) (kr' θ ζ) ?_ (kz' θ ζ)).trans hE
  have e : ζ - (zB + -series (numModes d.M d.N) m n nc ns tB zB) = -(S.nu θ ζ - series (numModes d.M d.N) m n nc ns tB zB) := by
    show ζ - (S.zetaB θ ζ + _) = _
    unfold Surface.zetaB
    ring
  rw [e, abs_neg]
  exact kn' θ ζ

end

/-- **C110, from VMEC data.**  The same after loading. -/
theorem C110_load {ns : ℤ} {A₀ : VmecArgs ℝ} {s₀ s₀' : St ℝ} {z : Sizes} (hg : Given A₀ s₀.inp z)
    (h : initFromVmec ns A₀ s₀ = .ok () s₀') {S : Vec ℤ} {M₀ N₀ v : ℤ} {d : Dims}
    (hr : RunReady (settings S M₀ N₀ v s₀').inp d) (hp : FieldPeriodic s₀'.inp d.nfp) (ho : OriginOnce s₀'.inp)
    (hreg : ∀ b < d.nsb, (surface s₀'.inp d.asym (S.val 0 b).toNat).Regular)
    (hdet : ∀ b < d.nsb, ∀ θ ζ, (surface s₀'.inp d.asym (S.val 0 b).toNat).det θ ζ ≠ 0)
    {c : ℝ} (hc : 0 ≤ c) {ρ : ℝ} (hρ : ρ < 1) (p : ℕ) :
    ∃ C, 0 ≤ C ∧ ∀ M N : ℕ, 1 ≤ N → (M : ℝ) ≤ c * N → (N : ℝ) ≤ c * M →
      RunReady (settings S M N v s₀').inp { d with M := M, N := N } → ∀ K : ℝ, 0 ≤ K →
      ∃ D u₀, 0 ≤ D ∧ 0 < u₀ ∧
        ∀ (α : Type) [Arith α] (fin : α → Prop) (val : α → ℝ) (u : ℝ), Precision α fin val u → u ≤ u₀ →
        ∀ (A : VmecArgs α) (s s' : St α), Given A s.inp z → SameModes s.inp s₀.inp →
          ArgsNear fin val ns z (K * u) A A₀ → initFromVmec ns A s = .ok () s' →
          ∃ t r, run false (settings S M N v s') = .ok (t, r) ∧
            (∀ b < d.nsb, let T := surface s₀'.inp d.asym (S.val 0 b).toNat
              T.ResolvedBy d.nfp M N ρ →
              MachineRebuilds fin val t.out T d.asym (numModes M N) b (C * (1 / (M : ℝ)) ^ p + D * u)) ∧
            ∀ j < d.ns, let T := surface s₀'.inp d.asym j
              ∃ iota I G, t.inp.iota.rdN j = .ok iota ∧ t.out.boozer_I_all.rdN j = .ok I ∧
                t.out.boozer_G_all.rdN j = .ok G ∧ fin iota ∧ fin I ∧ fin G ∧
                |val iota - T.iota| ≤ D * u ∧ |val I - T.I| ≤ D * u ∧ |val G - T.G| ≤ D * u := by
  obtain ⟨C, hC, H⟩ := C110_machine (s₀ := settings S M₀ N₀ v s₀') hr hp ho hreg hdet hc hρ p
  refine ⟨C, hC, fun M N hN hMN hNM hr' K hK => ?_⟩
  obtain ⟨E, u₀, e0, p0, L⟩ := C71_load hg h hK
  obtain ⟨D, v₀, hD, q, G⟩ := H M N hN hMN hNM hr' E e0
  refine ⟨D, min u₀ v₀, hD, lt_min p0 q, fun α _ fin val u hu hle A s s' hg' hm near h' => ?_⟩
  obtain ⟨r1, r2, r3, r4, r5⟩ := ready_loaded hg h hg' h' hm hr'
  have := L α fin val u hu (hle.trans (min_le_left _ _)) A s s' hg' hm near h' { d with M := M, N := N } r2 r3 r4 r5
  exact G α fin val u hu (hle.trans (min_le_right _ _)) (settings S M N v s') r1 { this with surfs := rfl }

/-- **C110.**  Let `f₀` be a `wout` file with exact numbers that `read_wout` accepts, `b₀` the equilibrium it describes,
on whose surfaces the Boozer angles are coordinates, and `p` an order.  There is a constant `C`, and for every request that
can be carried out, with comparable numbers of modes, a constant `D` and a precision `u₀`, such that on every machine of
precision `u ≤ u₀` the following holds.  If the disk holds an input file with this request and a `wout` file whose numbers
are within `K u` of those of `f₀`, then `xbooz_xform` returns 0 and leaves a `boozmn` file that has the requested surfaces,
and from whose numbers |B|, the Jacobian, the positions of all points of each surface resolved by the grid, and its
ι, I, G are obtained with an error of at most `C / mboz^p + D u`. -/
theorem C110_file {disk₀ : Disk ℝ} {path₀ : String} {f₀ : NcFile ℝ} {z : WoutSizes} {b₀ : St ℝ}
    (hd₀ : disk₀ path₀ = .nc f₀) (hz₀ : WoutShapes f₀ z) (hl₀ : readWout disk₀ path₀ false construct = .ok () b₀)
    (hi : ∀ k, k < (intsOf f₀ "xn_nyq").size → ((intsOf f₀ "xn_nyq").val 0 k).natAbs < 2147483648)
    (hns : z.ns ≤ 2147483644)
    (hfp : FieldPeriodic b₀.inp z.nfp.toNat) (ho : OriginOnce b₀.inp)
    (hreg : ∀ js : ℕ, (js : ℤ) < z.ns - 1 → (surface b₀.inp (decide (z.lasym ≠ 0)) js).Regular)
    (hdet : ∀ js : ℕ, (js : ℤ) < z.ns - 1 → ∀ θ ζ, (surface b₀.inp (decide (z.lasym ≠ 0)) js).det θ ζ ≠ 0)
    (surfs : List ℤ) (hlen : surfs.length ≤ 2147483644) {c : ℝ} (hc0 : 0 ≤ c) {ρ : ℝ} (hρ : ρ < 1) (p : ℕ) :
    ∃ C, ∀ r : Request, r.surfs = surfs → CanRun f₀ z r → 1 ≤ torRes z r →
      (polRes z r : ℝ) ≤ c * torRes z r → (torRes z r : ℝ) ≤ c * polRes z r → ∀ K : ℝ, 0 ≤ K → ∃ D u₀, 0 < u₀ ∧
      ∀ (α : Type) [Arith α] (fin : α → Prop) (val : α → ℝ) (u : ℝ), Precision α fin val u → u ≤ u₀ →
      ∀ (w : World α) (content : List Char) (path prog : String) (env : Env) (version : String) (f : NcFile α),
        w.disk path = .other content → Asks content r →
        w.disk ("wout_" ++ String.ofList r.ext ++ ".nc") = .nc f → WoutShapes f z → WoutNear fin val z (K * u) f f₀ →
        VersionOk version → NoFailure env →
        ∃ w' out, driver env version [prog, path] w = .ok 0 w' ∧
          w'.disk ("boozmn_" ++ String.ofList r.ext ++ ".nc") = .nc out ∧
          (∀ j, Wanted z r j ↔ ∃ b, FileInt out "jlist" b (j + 2)) ∧
          ∀ b j, FileInt out "jlist" b (j + 2) → let S := surface b₀.inp (decide (z.lasym ≠ 0)) j.toNat
            S.ResolvedBy z.nfp.toNat (polRes z r) (torRes z r) ρ →
            FileRebuilds fin val out S (inputPoint b₀.inp (decide (z.lasym ≠ 0)) j.toNat) (decide (z.lasym ≠ 0))
              (numModes (polRes z r) (torRes z r)) b j.toNat (C * (1 / (polRes z r : ℝ)) ^ p + D * u) := by
  obtain ⟨hg₀, hl₀'⟩ := wout_loaded hd₀ hz₀ hl₀
  obtain ⟨-, -, C₀, -⟩ := vmec_inv hg₀ hl₀'
  have hns2 : 2 ≤ z.ns := C₀.ns_ge
  by_cases hex : ∃ r : Request, r.surfs = surfs ∧ CanRun f₀ z r
  swap
  · exact ⟨0, fun r h1 h2 => absurd ⟨r, h1, h2⟩ hex⟩
  obtain ⟨r₁, rfl, hc₁⟩ := hex
  obtain ⟨l, hS, hl1, hl2, hmem⟩ := wantedVec_full (r := r₁) hns2
  have hr₁ := requested_ready hg₀ hl₀' hi hc₁ hS hl1
  have hsel : ∀ b (hb : b < l.length), (wantedVec z r₁).val 0 b = l[b] := fun b hb => by rw [hS, val_list hb]
  have range : ∀ b < l.length, 0 ≤ (wantedVec z r₁).val 0 b ∧ (wantedVec z r₁).val 0 b < z.ns - 1 := fun b hb => by
    have := hr₁.surfs_range b hb
    have h1 : 0 ≤ (wantedVec z r₁).val 0 b := this.1
    have h2 : ((wantedVec z r₁).val 0 b) < ((z.ns - 1).toNat : ℕ) := this.2
    omega
  have range' : ∀ b < l.length, (((wantedVec z r₁).val 0 b).toNat : ℤ) < z.ns - 1 := fun b hb => by
    have := range b hb
    omega
  obtain ⟨C, hC, H⟩ := C110_load hg₀ hl₀' hr₁ hfp ho (fun b hb => hreg _ (range' b hb)) (fun b hb => hdet _ (range' b hb))
    hc0 hρ p
  -- a bound for R
  have hR : ∀ b, ∃ m, 0 ≤ m ∧ ∀ θ ζ, |(surface b₀.inp (decide (z.lasym ≠ 0)) ((wantedVec z r₁).val 0 b).toNat).R θ ζ| ≤ m :=
    fun b => R_bounded (s := settings (wantedVec z r₁) (polRes z r₁) (torRes z r₁) 1 b₀) hr₁ hfp (b := b)
  choose mR hR0 hR using hR
  let m₀ : ℝ := ∑ b ∈ Finset.range l.length, mR b
  have hm0 : 0 ≤ m₀ := sum_nonneg fun b _ => hR0 b
  have hmle : ∀ b < l.length, mR b ≤ m₀ := fun b hb =>
    single_le_sum (f := mR) (fun b _ => hR0 b) (Finset.mem_range.2 hb)
  refine ⟨(1 + m₀) * C, fun r hrs hc hN hMN hNM K hK => ?_⟩
  have hW : wantedVec z r = wantedVec z r₁ := by unfold wantedVec; rw [hrs]
  have hr := requested_ready hg₀ hl₀' hi hc (hW.trans hS) hl1
  obtain ⟨D, u₀, hD, h0, G⟩ := H (polRes z r) (torRes z r) hN hMN hNM (by rw [← hW]; exact hr) K hK
  refine ⟨(1 + m₀) * D, u₀, h0, fun α _ fin val u hu hle w content path prog env version f hp ha hd hz hn hv he => ?_⟩
  obtain ⟨b, hb⟩ := loads_near hd₀ hz₀ hl₀ hd hz hn
  obtain ⟨hg, hl⟩ := wout_loaded hd hz hb
  have hx := hn.modes "xn_nyq" (by simp)
  obtain ⟨w', hw'⟩ := (C43_exact (prog := prog) hp ha hd hz hb (by rw [hx]; exact hi) hv he (by rw [hrs]; exact hlen)
    hns).1.2 ((canRun_near hn r).2 hc)
  obtain ⟨b1, t, rep, v, k1, k2, k3, k4⟩ := driver_inv hp ha hw'
  cases (show Out.ok () b1 = Out.ok () b from k1.symm.trans hb)
  have hmp := hc.1.mpol
  have e0 : (woutSizesOf f₀ z).mpol = z.mpol := rfl
  obtain ⟨e1, e2⟩ := res_eq (z := z) (r := r) (by omega)
  rw [requested_settings r hg hl, ← e1, ← e2, hW] at k2
  rw [woutSizes_near hn] at hg
  obtain ⟨t', rep', q1, q2, q3⟩ := G α fin val u hu hle _ _ b hg (sameModes_near hn) (argsNear_near hz hn) hl
  rw [k2] at q1
  cases q1
  have R := (ready_loaded hg₀ hl₀' hg hl (sameModes_near hn) hr).1
  rw [hW] at R
  have hflux : FluxOk (settings (wantedVec z r₁) (polRes z r) (torRes z r) 1 b).flux (z.ns - 1).toNat := by
    rw [vmec_result hg hl]
    exact .inl rfl
  have HR := run_hasResults R hl1 (by show l.length ≤ _; omega) (by show (z.ns - 1).toNat + 1 ≤ _; omega) hflux
  rw [← (run_false R k2).1] at HR
  obtain ⟨out, o1, o2⟩ := C34_layout HR hv k3
  have hj : HoldsSurfs out l.length (listVec l) := by
    have := o2.jlist
    rw [(run_false R k2).1] at this
    rw [← hS]
    exact this
  refine ⟨w', out, hw', by rw [k4]; exact o1, fun j => ?_, fun b' j g1 => ?_⟩
  · have : Wanted z r j ↔ Wanted z r₁ j := by unfold Wanted; rw [hrs]
    rw [this, ← hmem, List.mem_iff_getElem]
    exact exists_congr fun b => (fileSurf_iff hj).symm
  intro S hres
  obtain ⟨hb', rfl⟩ := (fileSurf_iff hj).1 g1
  have hlt : l[b'].toNat < (z.ns - 1).toNat := by
    have := range b' hb'
    rw [hsel b' hb'] at this
    omega
  have key := q2 b' hb'
  rw [hsel b' hb'] at key
  obtain ⟨iota, I, G', p1, p2, p3, p4, p5, p6, p7, p8, p9⟩ := q3 _ hlt
  have hu0 := hu.u_pos.le
  have x0 : (0 : ℝ) ≤ C * (1 / (polRes z r : ℝ)) ^ p := by positivity
  have Du : 0 ≤ D * u := mul_nonneg hD hu0
  have le : D * u ≤ (1 + m₀) * C * (1 / (polRes z r : ℝ)) ^ p + (1 + m₀) * D * u := by
    rw [mul_assoc, mul_assoc]
    nlinarith [mul_nonneg hm0 x0, mul_nonneg hm0 Du]
  exact file_rebuilds (d := (loadedContents z.ns (woutSizesOf f₀ z) ((intsOf f₀ "xm_nyq").val 0 (z.mnmax_nyq.toNat - 1))
      l.length).dims (polRes z r) (torRes z r)) hu o2 hb' hlt (key hres)
    (fun θ ζ => by
      have := hR b' θ ζ
      rw [hsel b' hb'] at this
      exact this.trans (hmle b' hb')) (by rw [mul_add, ← mul_assoc, ← mul_assoc]) p1 p2 p3 p4 p5 p6 (p7.trans le) (p8.trans le)
    (p9.trans le)

/-! ### Non-vacuity: a `wout` file whose Boozer angles are coordinates -/

section
variable {α : Type} [Arith α]

/-- Its matrices which differ from those of the example file: no λ, w from one harmonic, and R, Z which are regular at the
magnetic axis. -/
def Ex.softL : Mat α := Mat.tab 3 4 fun _ _ => ofInt 0
def Ex.softU : Mat α := Mat.tab 4 4 fun k _ => ofInt (if k = 0 then 1 else 0)
def Ex.softV : Mat α := Mat.tab 4 4 fun k _ => ofInt (if k = 0 then 20 else if k = 1 then 1 else 0)
def Ex.softR : Mat α := Mat.tab 3 4 fun k j => ofInt (if k = 2 then (j : ℤ) else 10 - 4 * k + j)
def Ex.softZ : Mat α := Mat.tab 3 4 fun k j => ofInt (if k = 2 then 2 * (j : ℤ) else k + 2 * j)

/-- The variables which are replaced. -/
def Ex.softNames : List String := ["lmns", "bsubumnc", "bsubvmnc", "rmnc", "zmns"]

/-- The replacement of a variable of the example file. -/
def Ex.softVar (v : NcVar α) : NcVar α :=
  if v.name = "lmns" then Ex.dm "lmns" "mn_mode" Ex.softL
  else if v.name = "bsubumnc" then Ex.dm "bsubumnc" "mn_mode_nyq" Ex.softU
  else if v.name = "bsubvmnc" then Ex.dm "bsubvmnc" "mn_mode_nyq" Ex.softV
  else if v.name = "rmnc" then Ex.dm "rmnc" "mn_mode" Ex.softR
  else if v.name = "zmns" then Ex.dm "zmns" "mn_mode" Ex.softZ else v

/-- The example file with these matrices. -/
def Ex.soft : NcFile α := { Ex.wout (α := α) 0 with vars := (Ex.wout (α := α) 0).vars.map Ex.softVar }

theorem Ex.softVar_name (v : NcVar α) : (Ex.softVar v).name = v.name := by
  unfold Ex.softVar
  split_ifs with h1 h2 h3 h4 h5
  exacts [h1.symm, h2.symm, h3.symm, h4.symm, h5.symm, rfl]

theorem Ex.soft_var (n : String) : (Ex.soft (α := α)).var? n = ((Ex.wout (α := α) 0).var? n).map Ex.softVar := by
  unfold Ex.soft NcFile.var?
  dsimp only
  rw [List.find?_map]
  congr 2
  funext v
  show ((Ex.softVar v).name == n) = (v.name == n)
  rw [Ex.softVar_name]

theorem Ex.soft_other {n : String} (h : n ∉ Ex.softNames) :
    (Ex.soft (α := α)).var? n = (Ex.wout (α := α) 0).var? n := by
  rw [Ex.soft_var]
  simp only [Ex.softNames, List.mem_cons, List.not_mem_nil, or_false, not_or] at h
  obtain ⟨h1, h2, h3, h4, h5⟩ := h
  cases h : (Ex.wout (α := α) 0).var? n with
  | none => rfl
  | some v =>
    have hv : v.name = n := by
      have := List.find?_some h
      simpa using this
    show some (Ex.softVar v) = some v
    unfold Ex.softVar
    rw [hv, if_neg h1, if_neg h2, if_neg h3, if_neg h4, if_neg h5]

theorem Ex.soft_lmns : (Ex.soft (α := α)).var? "lmns" = some (Ex.dm "lmns" "mn_mode" Ex.softL) := by
  rw [Ex.soft_var, Ex.wvar (n := "lmns") 0 19 rfl rfl]
  rfl

theorem Ex.soft_rmnc : (Ex.soft (α := α)).var? "rmnc" = some (Ex.dm "rmnc" "mn_mode" Ex.softR) := by
  rw [Ex.soft_var, Ex.wvar (n := "rmnc") 0 17 rfl rfl]
  rfl

theorem Ex.soft_zmns : (Ex.soft (α := α)).var? "zmns" = some (Ex.dm "zmns" "mn_mode" Ex.softZ) := by
  rw [Ex.soft_var, Ex.wvar (n := "zmns") 0 18 rfl rfl]
  rfl

theorem Ex.soft_bsubumnc : (Ex.soft (α := α)).var? "bsubumnc" = some (Ex.dm "bsubumnc" "mn_mode_nyq" Ex.softU) := by
  rw [Ex.soft_var, Ex.wvar (n := "bsubumnc") 0 21 rfl rfl]
  rfl

theorem Ex.soft_bsubvmnc : (Ex.soft (α := α)).var? "bsubvmnc" = some (Ex.dm "bsubvmnc" "mn_mode_nyq" Ex.softV) := by
  rw [Ex.soft_var, Ex.wvar (n := "bsubvmnc") 0 22 rfl rfl]
  rfl

theorem Ex.soft_dbls {n : String} (h : n ∉ Ex.softNames) :
    dblsOf (Ex.soft (α := α)) n = dblsOf (Ex.wout 0) n := by
  unfold dblsOf
  rw [Ex.soft_other h]

theorem Ex.soft_ints {n : String} (h : n ∉ Ex.softNames) :
    intsOf (Ex.soft (α := α)) n = intsOf (Ex.wout (α := α) 0) n := by
  unfold intsOf
  rw [Ex.soft_other h]

theorem Ex.soft_shapes : WoutShapes (Ex.soft (α := α)) (Ex.woutZ 0) := by
  have hz := Ex.shapes (α := α) 0
  have sc : ∀ {n : String} {y : Int}, ScalarIs (Ex.wout (α := α) 0) n y → n ∉ Ex.softNames →
      ScalarIs (Ex.soft (α := α)) n y := fun h hn v hv => h v (by rw [← hv, Ex.soft_other hn])
  have si : ∀ {n : String} {y : Int}, HasInts (Ex.wout (α := α) 0) n y → n ∉ Ex.softNames →
      HasInts (Ex.soft (α := α)) n y := fun h hn v hv => h v (by rw [← hv, Ex.soft_other hn])
  have sd : ∀ {n : String} {y : Int}, HasDbls (Ex.wout (α := α) 0) n y → n ∉ Ex.softNames →
      HasDbls (Ex.soft (α := α)) n y := fun h hn v hv => h v (by rw [← hv, Ex.soft_other hn])
  refine ⟨sc hz.lasym (by decide), sc hz.ns (by decide),
    sc hz.nfp (by decide), sc hz.mpol (by decide),
    sc hz.ntor (by decide), sc hz.mnmax (by decide),
    sc hz.mnmax_nyq (by decide), sd hz.aspect (by decide),
    sd hz.chi (by decide), sd hz.phipf (by decide),
    sd hz.pres (by decide), sd hz.phi (by decide),
    sd hz.iotas (by decide),
    si hz.xm (by decide), si hz.xn (by decide),
    si hz.xm_nyq (by decide), si hz.xn_nyq (by decide),
    fun n hn => ?_, fun n hn => ?_, hz.ns_pos, hz.nfp_pos, hz.mnmax_pos, hz.mnmax_nyq_pos⟩
  · by_cases h : n ∈ Ex.softNames
    · simp only [Ex.softNames, List.mem_cons, List.not_mem_nil, or_false] at h
      rcases h with rfl | rfl | rfl | rfl | rfl
      · exact Ex.mats Ex.soft_lmns (Mat.full_tab 3 4 _) rfl
      · exact absurd hn (by decide)
      · exact absurd hn (by decide)
      · exact Ex.mats Ex.soft_rmnc (Mat.full_tab 3 4 _) rfl
      · exact Ex.mats Ex.soft_zmns (Mat.full_tab 3 4 _) rfl
    · exact sd (hz.mats n hn) h
  · by_cases h : n ∈ Ex.softNames
    · simp only [Ex.softNames, List.mem_cons, List.not_mem_nil, or_false] at h
      rcases h with rfl | rfl | rfl | rfl | rfl
      · exact absurd hn (by decide)
      · exact Ex.mats Ex.soft_bsubumnc (Mat.full_tab 4 4 _) rfl
      · exact Ex.mats Ex.soft_bsubvmnc (Mat.full_tab 4 4 _) rfl
      · exact absurd hn (by decide)
      · exact absurd hn (by decide)
    · exact sd (hz.mats_nyq n hn) h

theorem Ex.soft_none (n : String) : (Ex.soft (α := α)).var? n = none ↔ (Ex.wout (α := α) 0).var? n = none := by
  rw [Ex.soft_var, Option.map_eq_none_iff]

theorem Ex.soft_sizes : woutSizesOf (Ex.soft (α := α)) (Ex.woutZ 0) = Ex.sizes false := by
  rw [← Ex.wout_sizes (α := α)]
  unfold woutSizesOf
  rw [Ex.soft_ints (by decide)]

theorem Ex.soft_inp (I : Inputs α) : woutInp (Ex.soft (α := α)) (Ex.woutZ 0) I = Ex.symInp I := by
  rw [← Ex.wout_inp]
  simp [woutInp, Ex.soft_ints, Ex.soft_dbls, Ex.softNames]

theorem Ex.soft_args : woutArgs (Ex.soft (α := α)) (Ex.woutZ 0) false =
    { Ex.symArgs with
        rmnc := Ex.softR, zmns := Ex.softZ
        phip := #[], chi := #[], pres := #[], phi := #[], lmns := Ex.softL, bsubumnc := Ex.softU, bsubvmnc := Ex.softV } := by
  have e1 : dblsOf (Ex.soft (α := α)) "lmns" = Ex.softL.data := dblsOf_eq Ex.soft_lmns rfl
  have e2 : dblsOf (Ex.soft (α := α)) "bsubumnc" = Ex.softU.data := dblsOf_eq Ex.soft_bsubumnc rfl
  have e3 : dblsOf (Ex.soft (α := α)) "bsubvmnc" = Ex.softV.data := dblsOf_eq Ex.soft_bsubvmnc rfl
  have e4 : dblsOf (Ex.soft (α := α)) "rmnc" = Ex.softR.data := dblsOf_eq Ex.soft_rmnc rfl
  have e5 : dblsOf (Ex.soft (α := α)) "zmns" = Ex.softZ.data := dblsOf_eq Ex.soft_zmns rfl
  have e := Ex.wout_args_noflux (α := α)
  unfold woutArgs at e ⊢
  rw [VmecArgs.mk.injEq] at e ⊢
  have m : ∀ (r c : Int) (n : String), n ∉ Ex.softNames →
      woutMat (Ex.soft (α := α)) r c n = woutMat (Ex.wout (α := α) 0) r c n := fun r c n h => by
    unfold woutMat
    rw [Ex.soft_dbls h]
  obtain ⟨a1, a2, -, -, a5, -, -, a8, -, -, -, -, -, -, -, -, -⟩ := e
  refine ⟨?_, ?_, rfl, rfl, ?_, rfl, ?_, ?_, rfl, ?_, rfl, ?_, rfl, rfl, rfl, rfl, rfl⟩
  · rw [Ex.soft_dbls (by decide)]; exact a1
  · show woutMat _ _ _ _ = _; unfold woutMat; rw [e4]; rfl
  · show woutMat _ _ _ _ = _; unfold woutMat; rw [e5]; rfl
  · show woutMat _ _ _ _ = _; unfold woutMat; rw [e1]; rfl
  · exact (m _ _ _ (by decide)).trans a8
  · show woutMat _ _ _ _ = _; unfold woutMat; rw [e2]; rfl
  · show woutMat _ _ _ _ = _; unfold woutMat; rw [e3]; rfl

/-- A disk with an input file and this `wout` file. -/
def Ex.softWorld (content : List Char) : World α :=
  { disk := fun p => if p = "in" then .other content else
      if p = "wout_x.nc" then .nc Ex.soft else .absent
    console := [] }

theorem Ex.softWorld_in (content : List Char) : (Ex.softWorld (α := α) content).disk "in" = .other content := rfl
theorem Ex.softWorld_wout (content : List Char) :
    (Ex.softWorld (α := α) content).disk ("wout_" ++ String.ofList ['x'] ++ ".nc") = .nc Ex.soft := rfl

theorem Ex.soft_present : ∀ n ∈ woutRequired false false, (Ex.soft (α := α)).var? n ≠ none := fun n hn h =>
  Ex.wout_present 0 _ _ n hn ((Ex.soft_none n).1 h)

theorem Ex.soft_loads (content : List Char) : ∃ b,
    readWout (Ex.softWorld (α := α) content).disk ("wout_" ++ String.ofList ['x'] ++ ".nc") false construct = .ok () b := by
  have hs : (construct : St α).inp.compute_surfs.Full (construct : St α).inp.compute_surfs.size :=
    ⟨rfl, fun i hi => absurd hi (by simp [construct])⟩
  rw [C39_loads false construct (Ex.softWorld_wout content) Ex.soft_shapes Ex.soft_present]
  refine ⟨_, vmec_ok (z := Ex.sizes false) (by decide) ?_ (Ex.computable false) ?_ ?_⟩
  · have := wout_given (flux := false) (I := (construct : St α).inp) (Ex.soft_shapes (α := α)) Ex.soft_present hs
    rw [Ex.soft_sizes] at this
    exact this
  · rw [Ex.soft_args, Ex.soft_inp]
    have C := Ex.sym_consistent (α := α) (I := (construct : St α).inp)
      (fun j hj => absurd hj (by simp [construct]))
    exact ⟨C.1, C.2, C.3, (fun h => absurd rfl h), C.5, C.6, ⟨rfl, rfl⟩, ⟨rfl, rfl⟩, ⟨rfl, rfl⟩, C.10, ⟨rfl, rfl⟩,
      ⟨rfl, rfl⟩, C.13, C.14⟩
  · rw [Ex.soft_args, Ex.soft_inp]
    have L := Ex.sym_loadable (α := α) (I := (construct : St α).inp) (by show (1 : Int) ≤ 1; decide)
    exact ⟨L.1, Or.inl (by show (1 : Int) ≤ 1; decide), L.3, L.4, L.5⟩

theorem Ex.soft_can_run : CanRun (Ex.soft (α := α)) (Ex.woutZ 0) Ex.request := by
  have h := Ex.can_run (α := α)
  unfold CanRun at h ⊢
  rw [Ex.soft_inp, Ex.soft_sizes, Ex.soft_ints (by decide)]
  rw [Ex.wout_inp, Ex.wout_sizes] at h
  exact h

end

theorem Ex.soft_near (p : ℕ) : WoutNear (fun _ => True) Ex.Flp.val (Ex.woutZ 0) (100 * (4 / 2 ^ p))
    (Ex.soft (α := Ex.Flp p)) (Ex.soft (α := ℝ)) := by
  have W := Ex.wout_near p
  refine { present := fun n => ?_, modes := fun n hn => ?_, iotas := ?_, mats := fun n hn => ?_,
           mats_nyq := fun n hn => ?_, asym := fun h => absurd rfl h, asym_nyq := fun h => absurd rfl h }
  · rw [Ex.soft_none, Ex.soft_none]; exact W.present n
  · have h : n ∉ Ex.softNames := by
      intro h
      simp only [Ex.softNames, List.mem_cons, List.not_mem_nil, or_false] at h
      rcases h with rfl | rfl | rfl | rfl | rfl <;> (revert hn; decide)
    rw [Ex.soft_ints h, Ex.soft_ints h]
    exact W.modes n hn
  · rw [Ex.soft_dbls (by decide), Ex.soft_dbls (by decide)]
    exact W.iotas
  · by_cases h : n ∈ Ex.softNames
    · simp only [Ex.softNames, List.mem_cons, List.not_mem_nil, or_false] at h
      rcases h with rfl | rfl | rfl | rfl | rfl
      · rw [dblsOf_eq Ex.soft_lmns rfl, dblsOf_eq Ex.soft_lmns rfl]
        exact Ex.data_near rfl rfl (Ex.mat_near p 3 4 (fun _ _ => 0) (by intro k hk j hj; norm_num))
      · exact absurd hn (by decide)
      · exact absurd hn (by decide)
      · rw [dblsOf_eq Ex.soft_rmnc rfl, dblsOf_eq Ex.soft_rmnc rfl]
        exact Ex.data_near rfl rfl (Ex.mat_near p 3 4 (fun k j => if k = 2 then (j : ℤ) else 10 - 4 * k + j)
          (by intro k hk j hj; rw [abs_le]; split_ifs <;> omega))
      · rw [dblsOf_eq Ex.soft_zmns rfl, dblsOf_eq Ex.soft_zmns rfl]
        exact Ex.data_near rfl rfl (Ex.mat_near p 3 4 (fun k j => if k = 2 then 2 * (j : ℤ) else k + 2 * j)
          (by intro k hk j hj; rw [abs_le]; split_ifs <;> omega))
    · rw [Ex.soft_dbls h, Ex.soft_dbls h]
      exact W.mats n hn
  · by_cases h : n ∈ Ex.softNames
    · simp only [Ex.softNames, List.mem_cons, List.not_mem_nil, or_false] at h
      rcases h with rfl | rfl | rfl | rfl | rfl
      · exact absurd hn (by decide)
      · rw [dblsOf_eq Ex.soft_bsubumnc rfl, dblsOf_eq Ex.soft_bsubumnc rfl]
        exact Ex.data_near rfl rfl (Ex.mat_near p 4 4 (fun k _ => if k = 0 then 1 else 0)
          (by intro k hk j hj; rw [abs_le]; split_ifs <;> omega))
      · rw [dblsOf_eq Ex.soft_bsubvmnc rfl, dblsOf_eq Ex.soft_bsubvmnc rfl]
        exact Ex.data_near rfl rfl (Ex.mat_near p 4 4 (fun k _ => if k = 0 then 20 else if k = 1 then 1 else 0)
          (by intro k hk j hj; rw [abs_le]; split_ifs <;> omega))
      · exact absurd hn (by decide)
      · exact absurd hn (by decide)
    · rw [Ex.soft_dbls h, Ex.soft_dbls h]
      exact W.mats_nyq n hn

/-- What the surfaces of the file are like. -/
structure Ex.Softened (I : Inputs ℝ) : Prop where
  bsubvmnc : I.bsubvmnc = shiftMat 4 3 (Mat.tab 4 4 fun k _ => (ofInt (if k = 0 then 20 else if k = 1 then 1 else 0) : ℝ))
  bsubumnc : I.bsubumnc = shiftMat 4 3 (Mat.tab 4 4 fun k _ => (ofInt (if k = 0 then 1 else 0) : ℝ))
  bmnc : I.bmnc = shiftMat 4 3 (Mat.tab 4 4 fun k j => (ofInt (if k = 0 then 7 + (j : ℤ) else 1) : ℝ))
  iota : I.iota = Vec.tab 3 fun j => (Vec.tab 4 fun j => (ofInt ((j : ℤ) + 1) : ℝ)).val (ofInt 0) (j + 1)
  lmns : ∀ k < 3, ∀ j < 3, I.lmns.val 0 k j = 0
  xm : I.xm = Ex.vec [0, 0, 1]
  xn : I.xn = Ex.vec [0, 2, 2]
  xm_nyq : I.xm_nyq = Ex.vec [0, 0, 1, 2]
  xn_nyq : I.xn_nyq = Ex.vec [0, 2, 0, 2]

theorem Ex.soft_regular {I : Inputs ℝ} (h : Ex.Softened I) {js : ℕ} (hj : js < 3) : (surface I false js).Regular := by
  constructor
  · show entry I.bsubvmnc 0 js + I.iota.val 0 js * entry I.bsubumnc 0 js ≠ 0
    unfold entry
    rw [h.bsubvmnc, h.bsubumnc, h.iota, Ex.shift_val _ (by omega) hj, Ex.shift_val _ (by omega) hj, Vec.val_tab hj,
      Vec.val_tab (by omega), real_ofInt]
    simp only [if_true]
    push_cast
    positivity
  · exact (Ex.regular_of (I := { I with
      bsubvmnc := shiftMat 4 3 (Mat.tab 4 4 fun k j => (ofInt ((k : ℤ) + 8 * j) : ℝ))
      bsubumnc := shiftMat 4 3 (Mat.tab 4 4 fun k j => (ofInt ((k : ℤ) + 6 * j) : ℝ)) }) rfl rfl h.bmnc h.iota h.xm_nyq
      h.xn_nyq hj).2

theorem Ex.soft_nu {I : Inputs ℝ} (h : Ex.Softened I) {js : ℕ} (hj : js < 3) :
    (surface I false js).iota = (js : ℝ) + 2 ∧ (surface I false js).I = 1 ∧ (surface I false js).G = 20 ∧
    (∀ θ ζ, (surface I false js).lam θ ζ = 0) ∧ ∀ θ ζ, (surface I false js).w θ ζ = 1 / 2 * Real.sin (2 * ζ) := by
  have v : ∀ k < 4, entry I.bsubumnc k js = if k = 0 then 1 else 0 := fun k hk => by
    unfold entry
    rw [h.bsubumnc, Ex.shift_val _ hk hj]
    split_ifs <;> norm_num
  have v' : ∀ k < 4, entry I.bsubvmnc k js = if k = 0 then 20 else if k = 1 then 1 else 0 := fun k hk => by
    unfold entry
    rw [h.bsubvmnc, Ex.shift_val _ hk hj]
    split_ifs <;> norm_num
  refine ⟨?_, ?_, ?_, fun θ ζ => ?_, fun θ ζ => ?_⟩
  · show I.iota.val 0 js = _
    rw [h.iota, Vec.val_tab hj, Vec.val_tab (by omega), real_ofInt]
    push_cast
    ring
  · show entry I.bsubumnc 0 js = _
    rw [v 0 (by omega)]; rfl
  · show entry I.bsubvmnc 0 js = _
    rw [v' 0 (by omega)]; rfl
  · show series I.xm.size (I.xm.val 0) (I.xn.val 0) (fun k => onlyIf false (entry I.lmnc k js))
      (fun k => entry I.lmns k js) θ ζ = 0
    unfold series entry onlyIf
    refine Finset.sum_eq_zero fun k hk => ?_
    rw [h.xm] at hk
    beta_reduce
    rw [h.lmns k (Finset.mem_range.1 hk) js hj]
    simp
  · show series I.xm_nyq.size (I.xm_nyq.val 0) (I.xn_nyq.val 0)
      (fun k => onlyIf false (wCos (I.xm_nyq.val 0 k) (I.xn_nyq.val 0 k) (entry I.bsubumns k js) (entry I.bsubvmns k js)))
      (fun k => wSin (I.xm_nyq.val 0 k) (I.xn_nyq.val 0 k) (entry I.bsubumnc k js) (entry I.bsubvmnc k js)) θ ζ = _
    have hsz : Array.size (Ex.vec [(0 : ℤ), 0, 1, 2]) = 4 := rfl
    have w0 : ∀ m n : ℤ, wSin m n 0 0 = 0 := by
      intro m n
      unfold wSin
      simp
    unfold series onlyIf
    rw [h.xm_nyq, h.xn_nyq, hsz, Finset.sum_range_succ, Finset.sum_range_succ, Finset.sum_range_succ, Finset.sum_range_one]
    beta_reduce
    rw [v 0 (by omega), v 1 (by omega), v 2 (by omega), v 3 (by omega), v' 0 (by omega), v' 1 (by omega), v' 2 (by omega),
      v' 3 (by omega)]
    simp only [zero_mul, zero_add, if_true, one_ne_zero, if_false, show (2 : ℕ) ≠ 0 by omega,
      show (3 : ℕ) ≠ 0 by omega, show (2 : ℕ) ≠ 1 by omega, show (3 : ℕ) ≠ 1 by omega, w0, add_zero, Bool.false_eq_true]
    rw [show (Ex.vec (β := ℤ) [0, 0, 1, 2]).val 0 0 = 0 from rfl, show (Ex.vec (β := ℤ) [0, 0, 1, 2]).val 0 1 = 0 from rfl,
      show (Ex.vec (β := ℤ) [0, 2, 0, 2]).val 0 0 = 0 from rfl, show (Ex.vec (β := ℤ) [0, 2, 0, 2]).val 0 1 = 2 from rfl]
    have e1 : ((0 : ℤ) : ℝ) * θ - ((2 : ℤ) : ℝ) * ζ = -(2 * ζ) := by push_cast; ring
    rw [e1, Real.sin_neg]
    unfold wSin
    simp
    ring

theorem Ex.soft_derivs {I : Inputs ℝ} (h : Ex.Softened I) {js : ℕ} (hj : js < 3) (θ ζ : ℝ) :
    let S := surface I false js
    0 < S.det θ ζ ∧ |deriv (fun t => S.thetaB t ζ) θ| ≤ 1 ∧ |deriv (fun t => S.zetaB t ζ) θ| ≤ 0 ∧
    |deriv (fun z => S.thetaB θ z) ζ| ≤ 1 / 4 ∧ |deriv (fun z => S.zetaB θ z) ζ| ≤ 17 / 16 := by
  intro S'
  obtain ⟨e1, e2, e3, el, ew⟩ := Ex.soft_nu h hj
  set S : Surface := surface I false js with hS
  rw [show S' = S from rfl]
  have el : S.lam = fun _ _ => 0 := by funext a b; exact el a b
  have ew : S.w = fun _ ζ => 1 / 2 * Real.sin (2 * ζ) := by funext a b; exact ew a b
  have d2 : HasDerivAt (fun z : ℝ => 2 * z) 2 ζ := by simpa using (hasDerivAt_id ζ).const_mul 2
  have h1 : HasDerivAt (fun t => S.lam t ζ) 0 θ := by rw [el]; exact hasDerivAt_const _ _
  have h2 : HasDerivAt (fun z => S.lam θ z) 0 ζ := by rw [el]; exact hasDerivAt_const _ _
  have h3 : HasDerivAt (fun t => S.w t ζ) 0 θ := by rw [ew]; exact hasDerivAt_const _ _
  have h4 : HasDerivAt (fun z => S.w θ z) (1 / 2 * (Real.cos (2 * ζ) * 2)) ζ := by rw [ew]; exact d2.sin.const_mul (1 / 2)
  have n1 : HasDerivAt (fun t => S.nu t ζ) _ θ := (h3.sub (h1.const_mul S.I)).div_const _
  have n2 : HasDerivAt (fun z => S.nu θ z) _ ζ := (h4.sub (h2.const_mul S.I)).div_const _
  have t1 : HasDerivAt (fun t => S.thetaB t ζ) _ θ := ((hasDerivAt_id θ).add h1).add (n1.const_mul S.iota)
  have t2 : HasDerivAt (fun z => S.thetaB θ z) _ ζ := (h2.const_add θ).add (n2.const_mul S.iota)
  have z1 : HasDerivAt (fun t => S.zetaB t ζ) _ θ := n1.const_add ζ
  have z2 : HasDerivAt (fun z => S.zetaB θ z) _ ζ := (hasDerivAt_id ζ).add n2
  rw [det_formula S h1 h2 h3 h4, t1.deriv, t2.deriv, z1.deriv, z2.deriv, e1, e2, e3]
  have c1 := Real.abs_cos_le_one (2 * ζ)
  have hjs : (js : ℝ) ≤ 2 := by exact_mod_cast (by omega : js ≤ 2)
  have hj0 : (0 : ℝ) ≤ js := by positivity
  generalize Real.cos (2 * ζ) = c at *
  have hD : (0 : ℝ) < 20 + ((js : ℝ) + 2) * 1 := by linarith
  have q : |(1 / 2 * (c * 2) - 1 * 0) / (20 + ((js : ℝ) + 2) * 1)| ≤ 1 / 16 := by
    rw [abs_div, abs_of_pos hD, div_le_iff₀ hD, show 1 / 2 * (c * 2) - 1 * 0 = c by ring]
    linarith
  have q0 : (0 - 1 * 0) / (20 + ((js : ℝ) + 2) * 1) = 0 := by simp
  rw [abs_le] at q
  rw [q0]
  refine ⟨?_, by norm_num, by norm_num, ?_, ?_⟩
  · have e : (1 + 0 + ((js : ℝ) + 2) * 0) * (1 + (1 / 2 * (c * 2) - 1 * 0) / (20 + ((js : ℝ) + 2) * 1)) -
        (0 + ((js : ℝ) + 2) * ((1 / 2 * (c * 2) - 1 * 0) / (20 + ((js : ℝ) + 2) * 1))) * 0 =
        1 + (1 / 2 * (c * 2) - 1 * 0) / (20 + ((js : ℝ) + 2) * 1) := by ring
    rw [e]
    linarith [q.1]
  · rw [abs_le]
    constructor <;> nlinarith
  · rw [abs_le]
    constructor <;> linarith

theorem Ex.soft_resolved {I : Inputs ℝ} (h : Ex.Softened I) {js : ℕ} (hj : js < 3) :
    (surface I false js).ResolvedBy 2 16 8 (1 / 2) := by
  intro θ ζ
  obtain ⟨-, d1, d2, d3, d4⟩ := Ex.soft_derivs h hj θ ζ
  have hz : ((nzeta 8 : ℕ) : ℝ) = 34 := by norm_num [nzeta]
  have ht : ((ntheta 16 : ℕ) : ℝ) = 66 := by norm_num [ntheta]
  rw [hz, ht]
  push_cast
  constructor <;> linarith

/-- C110 for the example at every resolution, on machines with more and more bits. -/
example (asym : Bool) : ∃ C, ∀ M N : ℕ, 1 ≤ M → 1 ≤ N → M ≤ 2 * N → N ≤ 2 * M → (4 * M + 2) * (4 * N + 2) < 2 ^ 30 →
    ∃ D p₀, ∀ p ≥ p₀, ∃ s' r,
    run false ({ Ex.st asym with
      inp := Ex.mapI (fun x => (⟨Ex.rnd p x⟩ : Ex.Flp p)) { (Ex.gentle asym).inp with mboz := M, nboz := N } }) =
        .ok (s', r) ∧
    ∀ b < 2, MachineRebuilds (fun _ => True) Ex.Flp.val s'.out
      (surface (Ex.gentle asym).inp asym (selected (Ex.gentle asym).inp b)) asym (numModes M N) b
      (C * (1 / (M : ℝ)) ^ 7 + D * (4 / 2 ^ p)) := by
  obtain ⟨C, -, H⟩ := C110_machine (s₀ := Ex.gentle asym) (d := Ex.dims asym) (Ex.gentle_ready asym)
    (Ex.fieldPeriodic (α := ℝ) asym) (Ex.originOnce (α := ℝ) asym)
    (fun b hb => Ex.gentle_regular asym (Ex.selected_lt asym b hb))
    (fun b hb θ ζ => (lt_trans (by norm_num) (Ex.gentle_det asym (Ex.selected_lt asym b hb) θ ζ)).ne')
    (c := 2) (by norm_num) (ρ := 1 / 2) (by norm_num) 7
  refine ⟨C, fun M N hM hN h1 h2 hf => ?_⟩
  have hr := Ex.gentle_ready_res asym hM hf
  obtain ⟨K, hK, near⟩ := Ex.mapI_near hr
  obtain ⟨D, u₀, -, h0, G⟩ := H M N hN (by exact_mod_cast h1) (by exact_mod_cast h2) hr K hK
  obtain ⟨p₀, hp₀⟩ := Ex.bits h0
  refine ⟨D, p₀, fun p hp => ?_⟩
  obtain ⟨s', r, g1, g2, -⟩ := G (Ex.Flp p) (fun _ => True) Ex.Flp.val (4 / 2 ^ p) (Ex.flp_precision p) (hp₀ p hp)
    { Ex.st asym with
      inp := Ex.mapI (fun x => (⟨Ex.rnd p x⟩ : Ex.Flp p)) { (Ex.gentle asym).inp with mboz := M, nboz := N } }
    (Ex.mapI_ready _ hr) { near p with }
  exact ⟨s', r, g1, fun b hb => g2 b hb (Ex.gentle_resolved asym (Ex.selected_lt asym b hb) h1 h2)⟩

theorem Ex.softened {content : List Char} {b₀ : St ℝ}
    (h₀ : readWout (Ex.softWorld content).disk ("wout_" ++ String.ofList ['x'] ++ ".nc") false construct = .ok () b₀) :
    Ex.Softened b₀.inp := by
  obtain ⟨hg, hl⟩ := wout_loaded (Ex.softWorld_wout _) Ex.soft_shapes h₀
  have e := vmec_result hg hl
  rw [Ex.soft_args, Ex.soft_inp, Ex.soft_sizes] at e
  exact
    { bsubvmnc := by rw [e]; rfl
      bsubumnc := by rw [e]; rfl
      bmnc := by rw [e]; rfl
      iota := by rw [e]; rfl
      lmns := fun k hk j hj => by
        have e' : b₀.inp.lmns = shiftMat 3 3 (Mat.tab 3 4 fun _ _ => (ofInt 0 : ℝ)) := by rw [e]; rfl
        rw [e']
        unfold shiftMat ev
        rw [Mat.val_tab hk hj, Mat.val_tab hk (by omega), real_ofInt]
        norm_num
      xm := by rw [e]; rfl
      xn := by rw [e]; rfl
      xm_nyq := by rw [e]; rfl
      xn_nyq := by rw [e]; rfl }

theorem Ex.softened_ok {I : Inputs ℝ} (s : Ex.Softened I) : FieldPeriodic I 2 ∧ OriginOnce I ∧
    (∀ js : ℕ, (js : ℤ) < 4 - 1 → (surface I false js).Regular) ∧
    ∀ js : ℕ, (js : ℤ) < 4 - 1 → ∀ θ ζ, (surface I false js).det θ ζ ≠ 0 := by
  refine ⟨?_, ?_, fun js hj => Ex.soft_regular s (by omega), fun js hj θ ζ => (Ex.soft_derivs s (by omega) θ ζ).1.ne'⟩
  · unfold FieldPeriodic
    rw [s.xn, s.xn_nyq]
    decide
  · unfold OriginOnce
    rw [s.xm_nyq, s.xn_nyq]
    decide

/-- C110 for the file: the two surfaces asked for, on machines with more and more bits. -/
example : ∃ b₀ : St ℝ, readWout (Ex.softWorld Ex.input).disk ("wout_" ++ String.ofList ['x'] ++ ".nc") false construct =
      .ok () b₀ ∧ ∃ C D : ℝ, ∃ p₀, ∀ p ≥ p₀, ∃ w' out,
    driver Ex.calm "0.0.1" ["xbooz_xform", "in"] (Ex.softWorld (α := Ex.Flp p) Ex.input) = .ok 0 w' ∧
    w'.disk ("boozmn_" ++ String.ofList ['x'] ++ ".nc") = .nc out ∧
    ∀ b j, FileInt out "jlist" b (j + 2) → j.toNat < 3 →
      FileRebuilds (fun _ => True) Ex.Flp.val out (surface b₀.inp false j.toNat) (inputPoint b₀.inp false j.toNat) false
        (numModes 16 8) b j.toNat (C * (1 / 16) ^ 9 + D * (4 / 2 ^ p)) := by
  obtain ⟨b₀, h₀⟩ := Ex.soft_loads (α := ℝ) Ex.input
  have s := Ex.softened h₀
  obtain ⟨hp, ho, hreg, hdet⟩ := Ex.softened_ok s
  refine ⟨b₀, h₀, ?_⟩
  have hi : ∀ k, k < (intsOf (Ex.soft (α := ℝ)) "xn_nyq").size →
      ((intsOf (Ex.soft (α := ℝ)) "xn_nyq").val 0 k).natAbs < 2147483648 := by
    rw [Ex.soft_ints (by decide)]
    exact Ex.wout_nyq
  obtain ⟨C, H⟩ := C110_file (Ex.softWorld_wout _) Ex.soft_shapes h₀ hi (by decide) hp ho hreg hdet [1, 0] (by decide)
    (c := 2) (by norm_num) (ρ := 1 / 2) (by norm_num) 9
  have eM : polRes (Ex.woutZ 0) Ex.request = 16 := rfl
  have eN : torRes (Ex.woutZ 0) Ex.request = 8 := rfl
  obtain ⟨D, u₀, h0, G⟩ := H Ex.request rfl Ex.soft_can_run (by decide) (by rw [eM, eN]; norm_num)
    (by rw [eM, eN]; norm_num) 100 (by norm_num)
  obtain ⟨p₀, hp₀⟩ := Ex.bits h0
  refine ⟨C, D, p₀, fun p hp => ?_⟩
  obtain ⟨w', out, g1, g2, -, g3⟩ := G (Ex.Flp p) _ Ex.Flp.val (4 / 2 ^ p) (Ex.flp_precision p) (hp₀ p hp)
    (Ex.softWorld Ex.input) Ex.input "in" "xbooz_xform" Ex.calm "0.0.1" Ex.soft (Ex.softWorld_in _) Ex.input_asks
    (Ex.softWorld_wout _) Ex.soft_shapes (Ex.soft_near p) Ex.version Ex.noFailure
  refine ⟨w', out, g1, g2, fun b j hb hj => ?_⟩
  have := g3 b j hb (Ex.soft_resolved s hj)
  rw [eM, eN] at this
  push_cast at this
  exact this

end Booz
