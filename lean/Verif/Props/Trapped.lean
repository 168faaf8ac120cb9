import Verif.Lemmas.Trapped
import Verif.Props.VolumeRounding
import Verif.Props.FileSeries

/-!
# C115: extremes of |B|, mirror ratio and fraction of trapped particles from the output harmonics
-/

namespace Booz
open Booz.Spec Booz.Trapezoid Function Filter Topology Matrix

/-! ### Extremes of functions on the torus -/

theorem dper_largest {f : ℝ → ℝ → ℝ} {P Q : ℝ} (h : DPer P Q (uncurry f)) (hP : 0 < P) (hQ : 0 < Q)
    (hc : Continuous (uncurry f)) : ∃ x, Largest f x := by
  obtain ⟨y, -, hy⟩ := ((isCompact_Icc (a := (0 : ℝ)) (b := P)).prod (isCompact_Icc (a := (0 : ℝ)) (b := Q))).exists_isMaxOn
    ⟨(0, 0), ⟨⟨le_rfl, hP.le⟩, ⟨le_rfl, hQ.le⟩⟩⟩ hc.continuousOn
  refine ⟨uncurry f y, ⟨y.1, y.2, rfl⟩, fun t z => ?_⟩
  obtain ⟨θ, hθ, e1⟩ := (h.slice1 z).exists_mem_Ico₀ hP t
  obtain ⟨ζ, hζ, e2⟩ := (h.slice2 θ).exists_mem_Ico₀ hQ z
  have e : f t z = uncurry f (θ, ζ) := by
    rw [← e2, ← e1]
    rfl
  rw [e]
  exact hy (a := (θ, ζ)) ⟨⟨hθ.1, hθ.2.le⟩, ⟨hζ.1, hζ.2.le⟩⟩

theorem Spec.Largest.neg {f : ℝ → ℝ → ℝ} {x : ℝ} (h : Largest (fun t z => -f t z) x) : Smallest f (-x) := by
  obtain ⟨⟨t, z, e⟩, H⟩ := h
  exact ⟨⟨t, z, by rw [← e, neg_neg]⟩, fun t z => by have := H t z; linarith⟩

theorem dper_smallest {f : ℝ → ℝ → ℝ} {P Q : ℝ} (h : DPer P Q (uncurry f)) (hP : 0 < P) (hQ : 0 < Q)
    (hc : Continuous (uncurry f)) : ∃ x, Smallest f x := by
  obtain ⟨x, hx⟩ := dper_largest (f := fun t z => -f t z)
    ⟨fun y => congrArg Neg.neg (h.1 y), fun y => congrArg Neg.neg (h.2 y)⟩ hP hQ hc.neg
  exact ⟨-x, hx.neg⟩

theorem series_continuous (K : ℕ) (m n : ℕ → ℤ) (c s : ℕ → ℝ) : Continuous (uncurry (series K m n c s)) := by
  unfold series uncurry
  fun_prop

theorem series_dper (K : ℕ) (m n : ℕ → ℤ) (c s : ℕ → ℝ) : DPer τ (τ / (1 : ℕ)) (uncurry (series K m n c s)) :=
  (series_per (nfp := 1) le_rfl (fun k _ => by simp) c s).dper

/-- Extremes and mirror ratio of neighbouring functions. -/
theorem extremes_near {f g : ℝ → ℝ → ℝ} {bmax bmin gmax gmin e : ℝ} (h0 : 0 ≤ bmin) (h1 : Largest f bmax)
    (h2 : Smallest f bmin) (k1 : Largest g gmax) (k2 : Smallest g gmin) (h : ∀ t z, |g t z - f t z| ≤ e) : ShowsExtremes g bmax bmin e := by
  have a1 : |gmax - bmax| ≤ e := by
    obtain ⟨⟨t, z, e1⟩, H1⟩ := h1
    obtain ⟨⟨t', z', e2⟩, H2⟩ := k1
    have := H1 t' z'
    have := H2 t z
    have := abs_le.1 (h t z)
    have := abs_le.1 (h t' z')
    rw [abs_le]
    constructor <;> linarith
  have a2 : |gmin - bmin| ≤ e := by
    obtain ⟨⟨t, z, e1⟩, H1⟩ := h2
    obtain ⟨⟨t', z', e2⟩, H2⟩ := k2
    have := H1 t' z'
    have := H2 t z
    have := abs_le.1 (h t z)
    have := abs_le.1 (h t' z')
    rw [abs_le]
    constructor <;> linarith
  refine ⟨gmax, gmin, k1, k2, a1, a2, fun he => ?_⟩
  obtain ⟨l1, u1⟩ := abs_le.1 a1
  obtain ⟨l2, u2⟩ := abs_le.1 a2
  have e0 : 0 ≤ e := (abs_nonneg _).trans a1
  have p0 : bmin ≤ bmax := by
    obtain ⟨⟨t, z, e1⟩, -⟩ := h1
    exact e1 ▸ h2.2 t z
  have p1 : 0 < bmax + bmin := by linarith
  have p2 : bmax + bmin - 2 * e ≤ gmax + gmin := by linarith
  have p3 : 0 < gmax + gmin := by linarith
  have num : |(gmax - bmax) * bmin - bmax * (gmin - bmin)| ≤ e * (bmax + bmin) := by
    have := abs_sub ((gmax - bmax) * bmin) (bmax * (gmin - bmin))
    rw [abs_mul, abs_mul, abs_of_nonneg h0, abs_of_nonneg (h0.trans p0)] at this
    have q1 := mul_le_mul_of_nonneg_right a1 h0
    have q2 := mul_le_mul_of_nonneg_left a2 (h0.trans p0)
    linarith
  have e1 : mirrorRatio gmax gmin - mirrorRatio bmax bmin =
      2 * ((gmax - bmax) * bmin - bmax * (gmin - bmin)) / ((gmax + gmin) * (bmax + bmin)) := by
    unfold mirrorRatio
    rw [div_sub_div _ _ p3.ne' p1.ne']
    congr 1
    ring
  rw [e1, abs_div, abs_mul, abs_two, abs_of_pos (mul_pos p3 p1)]
  calc _ ≤ 2 * (e * (bmax + bmin)) / ((gmax + gmin) * (bmax + bmin)) := by gcongr
    _ = 2 * e / (gmax + gmin) := by rw [← mul_assoc, mul_div_mul_right _ _ p1.ne']
    _ ≤ _ := div_le_div_of_nonneg_left (by positivity) (by linarith) p2

/-! ### The fraction of trapped particles -/

/-- Functions near |B| give nearly the same fraction of trapped particles. -/
theorem trapped_near {f : ℝ → ℝ → ℝ} {bmax bmin : ℝ} (cf : Continuous (uncurry f)) (h0 : 0 < bmin) (h1 : Largest f bmax)
    (h2 : Smallest f bmin) {ε : ℝ} (hε : 0 < ε) : ∃ η, 0 < η ∧ ∀ (g : ℝ → ℝ → ℝ) (gmax : ℝ), Continuous (uncurry g) →
      Largest g gmax → (∀ t z, |g t z - f t z| ≤ η) →
      |trappedFraction (boozerAverage g) gmax - trappedFraction (boozerAverage f) bmax| ≤ ε := by
  by_contra hne
  push Not at hne
  have hη : ∀ k : ℕ, (0 : ℝ) < min (bmin / 2) (1 / ((k : ℝ) + 1)) := fun k => by positivity
  choose g gmax cg hg near far using fun k : ℕ => hne _ (hη k)
  have n1 : ∀ k t z, |g k t z - f t z| ≤ bmin / 2 := fun k t z => (near k t z).trans (min_le_left _ _)
  have n2 : ∀ k t z, |g k t z - f t z| ≤ 1 / ((k : ℝ) + 1) := fun k t z => (near k t z).trans (min_le_right _ _)
  have lim : ∀ {a : ℕ → ℝ} {l : ℝ}, (∀ k, |a k - l| ≤ 1 / ((k : ℝ) + 1)) → Tendsto a atTop (𝓝 l) := by
    intro a l ha
    rw [tendsto_iff_dist_tendsto_zero]
    exact squeeze_zero (fun _ => dist_nonneg) (fun k => by rw [Real.dist_eq]; exact ha k)
      tendsto_one_div_add_atTop_nhds_zero_nat
  have T := trapped_tendsto (Gk := g) (F := f) (mk := gmax) (m := bmax) (β := bmin / 2) (by positivity) cg cf
    (fun x => by have := h2.2 x.1 x.2; show bmin / 2 ≤ f x.1 x.2; linarith)
    (fun k x => by
      have := h2.2 x.1 x.2
      have := abs_le.1 (n1 k x.1 x.2)
      show bmin / 2 ≤ g k x.1 x.2
      linarith)
    (fun x => h1.2 x.1 x.2) (fun k x => (hg k).2 x.1 x.2) (fun x => lim fun k => n2 k x.1 x.2) (lim fun k => by
      obtain ⟨⟨t, z, e1⟩, H1⟩ := h1
      obtain ⟨⟨t', z', e2⟩, H2⟩ := hg k
      have := H1 t' z'
      have := H2 t z
      have := abs_le.1 (n2 k t z)
      have := abs_le.1 (n2 k t' z')
      rw [abs_le]
      constructor <;> linarith)
  obtain ⟨k, hk⟩ := (Metric.tendsto_atTop.1 T ε hε)
  have := hk k le_rfl
  rw [Real.dist_eq] at this
  exact absurd this (not_lt.2 (far k).le)

/-- The averages over the surface of functions of |B|, from |B| in Boozer angles. -/
theorem surface_averages {I : Inputs ℝ} {d : Dims} (h : RunReady I d) (hp : FieldPeriodic I d.nfp) {js : ℕ}
    (hreg : (surface I d.asym js).Regular) {f : ℝ → ℝ → ℝ} (cf : Continuous (uncurry f)) (tf : TorusFn f)
    (hf : (surface I d.asym js).Expresses f (surface I d.asym js).B) (f0 : ∀ t z, 0 < f t z) {Φ : ℝ → ℝ}
    (hΦ : Continuous Φ) :
    (surface I d.asym js).strengthAverage Φ = boozerAverage f Φ := by
  unfold Surface.strengthAverage
  set S := surface I d.asym js with hS
  have K0 : S.G + S.iota * S.I ≠ 0 := hreg.1
  have key : ∀ Ψ : ℝ → ℝ, Continuous Ψ →
      S.average (fun θ ζ => Ψ (S.B θ ζ) * S.jacobian θ ζ) = (S.G + S.iota * S.I) * wmean (uncurry f) Ψ := by
    intro Ψ hΨ
    have c := wcont cf (fun x => f0 x.1 x.2) hΨ
    have := average_expressed h hp js (f := fun t z => (S.G + S.iota * S.I) * (Ψ (f t z) / f t z ^ 2))
      (q := fun θ ζ => Ψ (S.B θ ζ) * S.jacobian θ ζ) (show Continuous fun x => (S.G + S.iota * S.I) * (Ψ (uncurry f x) / uncurry f x ^ 2) from
        continuous_const.mul c)
      ⟨fun t z => by beta_reduce; rw [tf.1], fun t z => by beta_reduce; rw [tf.2]⟩ (fun θ ζ => by
        beta_reduce
        rw [hf θ ζ]
        unfold Surface.jacobian
        ring)
    rw [← hS] at this
    rw [this]
    exact mean2_smul _ _
  have k1 := key (fun _ => 1) continuous_const
  simp only [one_mul] at k1
  rw [key Φ hΦ, show S.average S.jacobian = _ from k1, mul_div_mul_left _ _ K0, boozerAverage_eq]

/-- A Fourier series near |B| shows its extremes and the fraction of trapped particles. -/
theorem shows_trapped {I : Inputs ℝ} {d : Dims} (h : RunReady I d) (hp : FieldPeriodic I d.nfp) {js : ℕ}
    (hreg : (surface I d.asym js).Regular) (hdet : ∀ θ ζ, (surface I d.asym js).det θ ζ ≠ 0)
    (hpos : ∀ θ ζ, 0 < (surface I d.asym js).B θ ζ) :
    ∃ bmax bmin, 0 < bmin ∧ Largest (surface I d.asym js).B bmax ∧ Smallest (surface I d.asym js).B bmin ∧
      ∀ ε : ℝ, 0 < ε → ∃ η, 0 < η ∧ ∀ (K : ℕ) (m n : ℕ → ℤ) (c s : ℕ → ℝ) (e : ℝ),
        (∀ θ ζ, |(surface I d.asym js).B θ ζ -
          series K m n c s ((surface I d.asym js).thetaB θ ζ) ((surface I d.asym js).zetaB θ ζ)| ≤ e) →
        ShowsTrapped (series K m n c s) bmax bmin (surface I d.asym js).strengthAverage e η ε := by
  set S := surface I d.asym js with hS
  obtain ⟨f, he, sf, pf, tf⟩ := express_q h hp hreg hdet S.B (by unfold Surface.quantities; simp [hS])
  have sur := every_angle_occurs h hp js
  have onto : ∀ t z, ∃ θ ζ, S.thetaB θ ζ = t ∧ S.zetaB θ ζ = z := by
    intro t z
    obtain ⟨y, hy⟩ := sur (t, z)
    exact ⟨y.1, y.2, congrArg Prod.fst hy, congrArg Prod.snd hy⟩
  have f0 : ∀ t z, 0 < f t z := by
    intro t z
    obtain ⟨θ, ζ, rfl, rfl⟩ := onto t z
    rw [he θ ζ]
    exact hpos θ ζ
  obtain ⟨bmax, k1⟩ := dper_largest tf.dper tau_pos tau_pos sf.continuous
  obtain ⟨bmin, k2⟩ := dper_smallest tf.dper tau_pos tau_pos sf.continuous
  have b0 : 0 < bmin := by
    obtain ⟨⟨t, z, e⟩, -⟩ := k2
    exact e ▸ f0 t z
  refine ⟨bmax, bmin, b0, ⟨?_, fun θ ζ => ?_⟩, ⟨?_, fun θ ζ => ?_⟩, fun ε hε => ?_⟩
  · obtain ⟨⟨t, z, e⟩, -⟩ := k1
    obtain ⟨θ, ζ, rfl, rfl⟩ := onto t z
    exact ⟨θ, ζ, by rw [← he θ ζ, e]⟩
  · rw [← he θ ζ]; exact k1.2 _ _
  · obtain ⟨⟨t, z, e⟩, -⟩ := k2
    obtain ⟨θ, ζ, rfl, rfl⟩ := onto t z
    exact ⟨θ, ζ, by rw [← he θ ζ, e]⟩
  · rw [← he θ ζ]; exact k2.2 _ _
  · obtain ⟨η, hη, T⟩ := trapped_near sf.continuous b0 k1 k2 hε
    refine ⟨η, hη, fun K m n c s e near => ?_⟩
    set g := series K m n c s with hg
    have close : ∀ t z, |g t z - f t z| ≤ e := by
      intro t z
      obtain ⟨θ, ζ, rfl, rfl⟩ := onto t z
      rw [he θ ζ, abs_sub_comm]
      exact near θ ζ
    have gd := series_dper K m n c s
    have gc := series_continuous K m n c s
    obtain ⟨gmax, g1⟩ := dper_largest gd tau_pos (by simpa using tau_pos) gc
    obtain ⟨gmin, g2⟩ := dper_smallest gd tau_pos (by simpa using tau_pos) gc
    refine ⟨extremes_near b0.le k1 k2 g1 g2 close, fun hle => ⟨gmax, g1, ?_⟩⟩
    have := T g gmax gc g1 fun t z => (close t z).trans hle
    have avg : ∀ Φ : ℝ → ℝ, Continuous Φ → S.strengthAverage Φ = boozerAverage f Φ := fun Φ hΦ =>
      surface_averages h hp hreg sf.continuous tf he f0 hΦ
    have e1 : trappedFraction S.strengthAverage bmax = trappedFraction (boozerAverage f) bmax := by
      unfold trappedFraction
      rw [avg _ (by fun_prop)]
      have : ∀ l : ℝ, S.strengthAverage (fun x => Real.sqrt (1 - l * x)) = boozerAverage f fun x => Real.sqrt (1 - l * x) :=
        fun l => avg _ (by fun_prop)
      simp only [this]
    rw [e1]
    exact this

theorem positive_below (f : ℕ → ℝ) (hf : ∀ j, 0 < f j) (n : ℕ) : ∃ η, 0 < η ∧ ∀ j < n, η ≤ f j := by
  induction n with
  | zero => exact ⟨1, one_pos, fun j hj => absurd hj (by omega)⟩
  | succ n ih =>
    obtain ⟨η, h0, h⟩ := ih
    refine ⟨min η (f n), lt_min h0 (hf n), fun j hj => ?_⟩
    rcases Nat.lt_succ_iff_lt_or_eq.1 hj with hj | rfl
    · exact (min_le_left _ _).trans (h j hj)
    · exact min_le_right _ _

/-! ### C115 -/

/-- **C115.**  Let the real data be regular on the selected surfaces, the Boozer angles coordinates of them, and |B| positive
on the surface in place `b`.  Let `bmax` and `bmin` be the largest and smallest |B| on the surface.  For any order `p` there
is a constant `C`, and for any tolerance ε an η, such that for each resolution (M, N) with `M ≤ c N`, `N ≤ c M` which resolves
the angles there are a constant `D` and a precision `u₀` with the following property.  Every machine of precision `u ≤ u₀`,
given the data rounded to within `K u` and run at this resolution, stores finite harmonics of |B|; with e = `C / M^p + D u`
the largest and smallest value of their Fourier series are within e of `bmax` and `bmin`, the mirror ratio follows, and if
e ≤ η the fraction of trapped particles computed from the series is within ε of that computed from the data. -/
theorem C115_machine {s₀ : St ℝ} {d : Dims} (h : RunReady s₀.inp d) (hp : FieldPeriodic s₀.inp d.nfp)
    (ho : OriginOnce s₀.inp) (hreg : ∀ b < d.nsb, (surface s₀.inp d.asym (selected s₀.inp b)).Regular)
    (hdet : ∀ b < d.nsb, ∀ θ ζ, (surface s₀.inp d.asym (selected s₀.inp b)).det θ ζ ≠ 0) {b : ℕ} (hb : b < d.nsb)
    (hpos : ∀ θ ζ, 0 < (surface s₀.inp d.asym (selected s₀.inp b)).B θ ζ) {c : ℝ} (hc : 0 ≤ c) {ρ : ℝ} (hρ : ρ < 1)
    (p : ℕ) :
    let S := surface s₀.inp d.asym (selected s₀.inp b)
    ∃ bmax bmin C, 0 < bmin ∧ 0 ≤ C ∧ Largest S.B bmax ∧ Smallest S.B bmin ∧
      ∀ ε : ℝ, 0 < ε → ∃ η, 0 < η ∧ ∀ M N : ℕ, 1 ≤ N → (M : ℝ) ≤ c * N → (N : ℝ) ≤ c * M →
      RunReady { s₀.inp with mboz := M, nboz := N } { d with M := M, N := N } →
      S.ResolvedBy d.nfp M N ρ → ∀ K : ℝ, 0 ≤ K → ∃ D u₀, 0 ≤ D ∧ 0 < u₀ ∧
        ∀ (α : Type) [Arith α] (fin : α → Prop) (val : α → ℝ) (u : ℝ), Precision α fin val u → u ≤ u₀ →
        ∀ s : St α, RunReady s.inp { d with M := M, N := N } →
          InputsNear fin val { d with M := M, N := N } (K * u) s.inp s₀.inp →
          ∃ s' r, run false s = .ok (s', r) ∧ MachineTrapped fin val s'.out d.asym (numModes M N) b bmax bmin
            S.strengthAverage (C * (1 / (M : ℝ)) ^ p + D * u) η ε := by
  intro S
  obtain ⟨bmax, bmin, b0, k1, k2, T⟩ := shows_trapped h hp (hreg b hb) (hdet b hb) hpos
  obtain ⟨C, hC, H⟩ := C110_machine h hp ho hreg hdet hc hρ p
  refine ⟨bmax, bmin, C, b0, hC, k1, k2, fun ε hε => ?_⟩
  obtain ⟨η, hη, Q⟩ := T ε hε
  refine ⟨η, hη, fun M N hN hMN hNM hr hres K hK => ?_⟩
  obtain ⟨D, u₀, hD, hu₀, G⟩ := H M N hN hMN hNM hr K hK
  refine ⟨D, u₀, hD, hu₀, fun α _ fin val u hu hle s hs hnear => ?_⟩
  obtain ⟨s', r, e1, e2, -⟩ := G α fin val u hu hle s hs hnear
  obtain ⟨m, n, mn, ⟨bc, bs, st, near⟩, -⟩ := e2 b hb hres
  exact ⟨s', r, e1, m, n, bc, bs, fun k hk => ⟨(mn k hk).1, (mn k hk).2, st k hk⟩, Q _ m n bc bs _ near⟩

/-- **C115, in space.**  Let the data of the surface describe, as in C99, a magnetic field in space on nested surfaces as in
C106, with |B| positive.  The largest and smallest |B| of C115 are those of the field on the flux surface, and the averages
over the surface, with which the fraction of trapped particles is formed there, are the flux surface averages. -/
theorem C115_field {s₀ : St ℝ} {d : Dims} (h : RunReady s₀.inp d) (hp : FieldPeriodic s₀.inp d.nfp)
    (ho : OriginOnce s₀.inp) {b : ℕ} (hb : b < d.nsb) (hreg : (surface s₀.inp d.asym (selected s₀.inp b)).Regular)
    (hpos : ∀ θ ζ, 0 < (surface s₀.inp d.asym (selected s₀.inp b)).B θ ζ)
    (hrc : NoRadialCurrent s₀.inp d.asym (selected s₀.inp b))
    {x : ℝ → ℝ → ℝ → V3} {lam : ℝ → ℝ → ℝ → ℝ} {ψ₀ δ : ℝ} {B : ℝ → ℝ → V3}
    (hf : IsField (surface s₀.inp d.asym (selected s₀.inp b)) (bTheta s₀.inp d.asym (selected s₀.inp b))
      (bZeta s₀.inp d.asym (selected s₀.inp b)) x lam ψ₀ B) (hn : Nested x ψ₀ δ)
    {Q : V3 → ℝ} (hQ : Continuous Q) (hQB : ∀ θ ζ, Q (x ψ₀ θ ζ) = √(B θ ζ ⬝ᵥ B θ ζ)) :
    let S := surface s₀.inp d.asym (selected s₀.inp b)
    (∀ y, Largest S.B y ↔ Largest (fun θ ζ => √(B θ ζ ⬝ᵥ B θ ζ)) y) ∧
    (∀ y, Smallest S.B y ↔ Smallest (fun θ ζ => √(B θ ζ ⬝ᵥ B θ ζ)) y) ∧
    ∀ Φ : ℝ → ℝ, Continuous Φ → FluxAverage x ψ₀ (fun r => Φ (Q r)) (S.strengthAverage Φ) := by
  intro S
  have hB : (fun θ ζ => √(B θ ζ ⬝ᵥ B θ ζ)) = S.B := by
    funext θ ζ
    obtain ⟨e, -, -, -, -, k⟩ := hf.point θ ζ
    rw [k, Real.sqrt_sq (hpos θ ζ).le]
  rw [hB]
  refine ⟨fun _ => Iff.rfl, fun _ => Iff.rfl, fun Φ hΦ => ?_⟩
  have := (C106_flux_average h hp ho hb hrc hreg hf hn).2.2 (fun r => Φ (Q r)) (hΦ.comp hQ)
  have e : ∀ θ ζ, Q (x ψ₀ θ ζ) = S.B θ ζ := fun θ ζ => (hQB θ ζ).trans (congrFun (congrFun hB θ) ζ)
  simp only [e] at this
  exact this

/-- **C115, for the file.**  The same from a `wout` file to a `boozmn` file, for the surfaces asked for: the extremes of |B|
and the fraction of trapped particles from the numbers in the file. -/
theorem C115_file {disk₀ : Disk ℝ} {path₀ : String} {f₀ : NcFile ℝ} {z : WoutSizes} {b₀ : St ℝ}
    (hd₀ : disk₀ path₀ = .nc f₀) (hz₀ : WoutShapes f₀ z) (hl₀ : readWout disk₀ path₀ false construct = .ok () b₀)
    (hi : ∀ k, k < (intsOf f₀ "xn_nyq").size → ((intsOf f₀ "xn_nyq").val 0 k).natAbs < 2147483648)
    (hns : z.ns ≤ 2147483644)
    (hfp : FieldPeriodic b₀.inp z.nfp.toNat) (ho : OriginOnce b₀.inp)
    (hreg : ∀ js : ℕ, (js : ℤ) < z.ns - 1 → (surface b₀.inp (decide (z.lasym ≠ 0)) js).Regular)
    (hdet : ∀ js : ℕ, (js : ℤ) < z.ns - 1 → ∀ θ ζ, (surface b₀.inp (decide (z.lasym ≠ 0)) js).det θ ζ ≠ 0)
    (hpos : ∀ js : ℕ, (js : ℤ) < z.ns - 1 → ∀ θ ζ, 0 < (surface b₀.inp (decide (z.lasym ≠ 0)) js).B θ ζ)
    {r₁ : Request} (hc₁ : CanRun f₀ z r₁) (hlen : r₁.surfs.length ≤ 2147483644) {c : ℝ} (hc0 : 0 ≤ c) {ρ : ℝ} (hρ : ρ < 1) (p : ℕ) :
    ∃ (bmax bmin : ℕ → ℝ) (C : ℝ), (∀ js : ℕ, (js : ℤ) < z.ns - 1 → 0 < bmin js ∧
        Largest (surface b₀.inp (decide (z.lasym ≠ 0)) js).B (bmax js) ∧
        Smallest (surface b₀.inp (decide (z.lasym ≠ 0)) js).B (bmin js)) ∧
      ∀ ε : ℝ, 0 < ε → ∃ η, 0 < η ∧ ∀ r : Request, r.surfs = r₁.surfs → CanRun f₀ z r → 1 ≤ torRes z r →
      (polRes z r : ℝ) ≤ c * torRes z r → (torRes z r : ℝ) ≤ c * polRes z r → ∀ K : ℝ, 0 ≤ K → ∃ D u₀, 0 < u₀ ∧
      ∀ (α : Type) [Arith α] (fin : α → Prop) (val : α → ℝ) (u : ℝ), Precision α fin val u → u ≤ u₀ →
      ∀ (w : World α) (content : List Char) (path prog : String) (env : Env) (version : String) (f : NcFile α),
        w.disk path = .other content → Asks content r →
        w.disk ("wout_" ++ String.ofList r.ext ++ ".nc") = .nc f → WoutShapes f z → WoutNear fin val z (K * u) f f₀ →
        VersionOk version → NoFailure env →
        ∃ w' out, driver env version [prog, path] w = .ok 0 w' ∧
          w'.disk ("boozmn_" ++ String.ofList r.ext ++ ".nc") = .nc out ∧
          (∀ j, Wanted z r j ↔ ∃ b, FileInt out "jlist" b (j + 2)) ∧
          ∀ b j, FileInt out "jlist" b (j + 2) → let S := surface b₀.inp (decide (z.lasym ≠ 0)) j.toNat
            S.ResolvedBy z.nfp.toNat (polRes z r) (torRes z r) ρ →
            FileTrapped fin val out (decide (z.lasym ≠ 0)) (numModes (polRes z r) (torRes z r)) b (bmax j.toNat)
              (bmin j.toNat) S.strengthAverage (C * (1 / (polRes z r : ℝ)) ^ p + D * u) η ε := by
  obtain ⟨hg₀, hl₀'⟩ := wout_loaded hd₀ hz₀ hl₀
  obtain ⟨-, -, C₀, -⟩ := vmec_inv hg₀ hl₀'
  have hns2 : 2 ≤ z.ns := C₀.ns_ge
  obtain ⟨l, hS, hl1, hl2, hmem⟩ := wantedVec_full (r := r₁) hns2
  have hr₁ := requested_ready hg₀ hl₀' hi hc₁ hS hl1
  have hfp' : FieldPeriodic (settings (wantedVec z r₁) (polRes z r₁) (torRes z r₁) 1 b₀).inp z.nfp.toNat := hfp
  have T : ∀ js : ℕ, ∃ bmax bmin, (js : ℤ) < z.ns - 1 → 0 < bmin ∧
      Largest (surface b₀.inp (decide (z.lasym ≠ 0)) js).B bmax ∧
      Smallest (surface b₀.inp (decide (z.lasym ≠ 0)) js).B bmin ∧
      ∀ ε : ℝ, 0 < ε → ∃ η, 0 < η ∧ ∀ (K : ℕ) (m n : ℕ → ℤ) (c s : ℕ → ℝ) (e : ℝ),
        (∀ θ ζ, |(surface b₀.inp (decide (z.lasym ≠ 0)) js).B θ ζ -
          series K m n c s ((surface b₀.inp (decide (z.lasym ≠ 0)) js).thetaB θ ζ)
            ((surface b₀.inp (decide (z.lasym ≠ 0)) js).zetaB θ ζ)| ≤ e) →
        ShowsTrapped (series K m n c s) bmax bmin (surface b₀.inp (decide (z.lasym ≠ 0)) js).strengthAverage e η ε := by
    intro js
    by_cases hj : (js : ℤ) < z.ns - 1
    · obtain ⟨x, y, k⟩ := shows_trapped hr₁ hfp' (js := js) (hreg js hj) (hdet js hj) (hpos js hj)
      exact ⟨x, y, fun _ => k⟩
    · exact ⟨0, 0, fun h => absurd h hj⟩
  choose bmax bmin T using T
  obtain ⟨C, H⟩ := C110_file hd₀ hz₀ hl₀ hi hns hfp ho hreg hdet r₁.surfs hlen hc0 hρ p
  refine ⟨bmax, bmin, C, fun js hj => ⟨(T js hj).1, (T js hj).2.1, (T js hj).2.2.1⟩, fun ε hε => ?_⟩
  have E : ∀ js : ℕ, ∃ η, 0 < η ∧ ((js : ℤ) < z.ns - 1 → ∀ (K : ℕ) (m n : ℕ → ℤ) (c s : ℕ → ℝ) (e : ℝ),
        (∀ θ ζ, |(surface b₀.inp (decide (z.lasym ≠ 0)) js).B θ ζ -
          series K m n c s ((surface b₀.inp (decide (z.lasym ≠ 0)) js).thetaB θ ζ)
            ((surface b₀.inp (decide (z.lasym ≠ 0)) js).zetaB θ ζ)| ≤ e) →
        ShowsTrapped (series K m n c s) (bmax js) (bmin js)
          (surface b₀.inp (decide (z.lasym ≠ 0)) js).strengthAverage e η ε) := by
    intro js
    by_cases hj : (js : ℤ) < z.ns - 1
    · obtain ⟨η, h1, h2⟩ := (T js hj).2.2.2 ε hε
      exact ⟨η, h1, fun _ => h2⟩
    · exact ⟨1, one_pos, fun h => absurd h hj⟩
  choose η hη E using E
  obtain ⟨η₀, h0, hle₀⟩ := positive_below η hη (z.ns - 1).toNat
  refine ⟨η₀, h0, fun r hr hrun hN hc1 hc2 K hK => ?_⟩
  obtain ⟨D, u₀, hu₀, G⟩ := H r hr hrun hN hc1 hc2 K hK
  refine ⟨D, u₀, hu₀, ?_⟩
  intro α _ fin val u hu hle w content path prog env version f a1 a2 a3 a4 a5 a6 a7
  obtain ⟨w', out, g1, g2, g3, g4⟩ := G α fin val u hu hle w content path prog env version f a1 a2 a3 a4 a5 a6 a7
  refine ⟨w', out, g1, g2, g3, fun b j hb => ?_⟩
  intro S hres
  have hj : 0 ≤ j ∧ j < z.ns - 1 := by
    rcases (g3 j).2 ⟨b, hb⟩ with h | ⟨-, h⟩
    · exact hrun.2.1 j h
    · exact h
  obtain ⟨m, n, mn, ⟨bc, bs, st, near⟩, -⟩ := g4 b j hb hres
  obtain ⟨q1, q2⟩ := E j.toNat (by omega) _ m n bc bs _ near
  exact ⟨m, n, bc, bs, fun k hk => ⟨(mn k hk).1, (mn k hk).2, st k hk⟩, q1,
    fun h => q2 (h.trans (hle₀ j.toNat (by omega)))⟩

/-! ### Non-vacuity -/

/-- C115 for the example, whose |B| varies, at every resolution, on machines with more and more bits. -/
example (asym : Bool) :
    let S := surface (Ex.gentle asym).inp asym (selected (Ex.gentle asym).inp 0)
    ∃ bmax bmin C, 0 < bmin ∧ Largest S.B bmax ∧ Smallest S.B bmin ∧ ∃ η, 0 < η ∧
    ∀ M N : ℕ, 1 ≤ M → 1 ≤ N → M ≤ 2 * N → N ≤ 2 * M → (4 * M + 2) * (4 * N + 2) < 2 ^ 30 →
    ∃ D p₀, ∀ p ≥ p₀, ∃ s' r,
    run false ({ Ex.st asym with
      inp := Ex.mapI (fun x => (⟨Ex.rnd p x⟩ : Ex.Flp p)) { (Ex.gentle asym).inp with mboz := M, nboz := N } }) =
        .ok (s', r) ∧
    MachineTrapped (fun _ => True) Ex.Flp.val s'.out asym (numModes M N) 0 bmax bmin S.strengthAverage
      (C * (1 / (M : ℝ)) ^ 7 + D * (4 / 2 ^ p)) η (1 / 1000) := by
  intro S
  obtain ⟨bmax, bmin, C, b0, -, k1, k2, H⟩ := C115_machine (s₀ := Ex.gentle asym) (d := Ex.dims asym) (Ex.gentle_ready asym)
    (Ex.fieldPeriodic (α := ℝ) asym) (Ex.originOnce (α := ℝ) asym)
    (fun b hb => Ex.gentle_regular asym (Ex.selected_lt asym b hb))
    (fun b hb θ ζ => (lt_trans (by norm_num) (Ex.gentle_det asym (Ex.selected_lt asym b hb) θ ζ)).ne') (b := 0)
    (by show 0 < 2; decide) (fun θ ζ => lt_of_lt_of_le one_pos (Ex.B_ge asym (Ex.selected_lt asym 0 (by decide)) θ ζ))
    (c := 2) (by norm_num) (ρ := 1 / 2) (by norm_num) 7
  obtain ⟨η, hη, H⟩ := H (1 / 1000) (by norm_num)
  refine ⟨bmax, bmin, C, b0, k1, k2, η, hη, fun M N hM hN h1 h2 hf => ?_⟩
  have hr := Ex.gentle_ready_res asym hM hf
  obtain ⟨K, hK, near⟩ := Ex.mapI_near hr
  obtain ⟨D, u₀, -, h0, G⟩ := H M N hN (by exact_mod_cast h1) (by exact_mod_cast h2) hr
    (Ex.gentle_resolved asym (Ex.selected_lt asym 0 (by decide)) h1 h2) K hK
  obtain ⟨p₀, hp₀⟩ := Ex.bits h0
  refine ⟨D, p₀, fun p hp => ?_⟩
  exact G (Ex.Flp p) (fun _ => True) Ex.Flp.val (4 / 2 ^ p) (Ex.flp_precision p) (hp₀ p hp)
    { Ex.st asym with
      inp := Ex.mapI (fun x => (⟨Ex.rnd p x⟩ : Ex.Flp p)) { (Ex.gentle asym).inp with mboz := M, nboz := N } }
    (Ex.mapI_ready _ hr) { near p with }

/-- `C115_field` for the cylinder. -/
example (asym : Bool) (Φ : ℝ → ℝ) (hΦ : Continuous Φ) : FluxAverage Ex.cylX (1 / 2) (fun r => Φ √(Ex.cylQ r))
    ((surface (Ex.cyl asym).inp asym (selected (Ex.cyl asym).inp 0)).strengthAverage Φ) := by
  have hs : selected (Ex.cyl asym).inp 0 < 2 := Ex.polar_sel asym (1 / 16) 0 (by decide)
  refine (C115_field (s₀ := Ex.cyl asym) (d := Ex.dims asym) (Ex.cyl_ready asym) (Ex.polar_periodic asym (1 / 16))
    (Ex.polar_origin asym (1 / 16)) (b := 0) (by show 0 < 2; decide) (Ex.cyl_regular asym hs)
    (fun θ ζ => by rw [show (Ex.dims asym).asym = asym from rfl, Ex.cyl_B (hj := hs)]; norm_num)
    (Ex.cyl_noCurrent asym hs) (Ex.cyl_field asym hs)
    Ex.cyl_nested (Q := fun r => √(Ex.cylQ r)) (by unfold Ex.cylQ; fun_prop) (fun θ ζ => ?_)).2.2 Φ hΦ
  congr 1
  rw [dot3]
  simp [Ex.cylQ, Ex.cylX, Ex.cylB]
  linear_combination -(9 / 16 : ℝ) * Real.sin_sq_add_cos_sq (Ex.cylT θ ζ)

theorem Ex.soft_B_pos {I : Inputs ℝ} (h : Ex.Softened I) {js : ℕ} (hj : js < 3) (θ ζ : ℝ) :
    0 < (surface I false js).B θ ζ := by
  show series I.xm_nyq.size (I.xm_nyq.val 0) (I.xn_nyq.val 0) (fun k => entry I.bmnc k js)
    (fun k => onlyIf false (entry I.bmns k js)) θ ζ > 0
  have hsz : Array.size (Ex.vec [(0 : ℤ), 0, 1, 2]) = 4 := rfl
  have hm : (Ex.vec [(0 : ℤ), 0, 1, 2]).val 0 0 = 0 := rfl
  have hn : (Ex.vec [(0 : ℤ), 2, 0, 2]).val 0 0 = 0 := rfl
  unfold series entry onlyIf
  rw [h.bmnc, h.xm_nyq, h.xn_nyq, hsz, Finset.sum_range_succ, Finset.sum_range_succ, Finset.sum_range_succ, Finset.sum_range_one,
    hm, hn]
  beta_reduce
  rw [Ex.shift_val _ (show 0 < 4 by omega) hj, Ex.shift_val _ (show 1 < 4 by omega) hj,
    Ex.shift_val _ (show 2 < 4 by omega) hj, Ex.shift_val _ (show 3 < 4 by omega) hj]
  have c1 := Real.neg_one_le_cos
    ((((Ex.vec [(0 : ℤ), 0, 1, 2]).val 0 1 : ℤ) : ℝ) * θ - (((Ex.vec [(0 : ℤ), 2, 0, 2]).val 0 1 : ℤ) : ℝ) * ζ)
  have c2 := Real.neg_one_le_cos
    ((((Ex.vec [(0 : ℤ), 0, 1, 2]).val 0 2 : ℤ) : ℝ) * θ - (((Ex.vec [(0 : ℤ), 2, 0, 2]).val 0 2 : ℤ) : ℝ) * ζ)
  have c3 := Real.neg_one_le_cos
    ((((Ex.vec [(0 : ℤ), 0, 1, 2]).val 0 3 : ℤ) : ℝ) * θ - (((Ex.vec [(0 : ℤ), 2, 0, 2]).val 0 3 : ℤ) : ℝ) * ζ)
  have hj' : (0 : ℝ) ≤ js := by positivity
  simp only [one_ne_zero, OfNat.ofNat_ne_zero, if_false, if_true, Bool.false_eq_true, zero_mul, add_zero, Int.cast_zero,
    sub_zero, Real.cos_zero, mul_one, Int.cast_one, one_mul]
  push_cast
  linarith
/-- C115 for the file of the example: the two surfaces asked for, on machines with more and more bits. -/
example : ∃ b₀ : St ℝ, readWout (Ex.softWorld Ex.input).disk ("wout_" ++ String.ofList ['x'] ++ ".nc") false construct =
      .ok () b₀ ∧ ∃ (bmax bmin : ℕ → ℝ) (C D η : ℝ), 0 < η ∧ ∃ p₀, ∀ p ≥ p₀, ∃ w' out,
    driver Ex.calm "0.0.1" ["xbooz_xform", "in"] (Ex.softWorld (α := Ex.Flp p) Ex.input) = .ok 0 w' ∧
    w'.disk ("boozmn_" ++ String.ofList ['x'] ++ ".nc") = .nc out ∧
    ∀ b j, FileInt out "jlist" b (j + 2) → j.toNat < 3 →
      FileTrapped (fun _ => True) Ex.Flp.val out false (numModes 16 8) b (bmax j.toNat) (bmin j.toNat)
        (surface b₀.inp false j.toNat).strengthAverage (C * (1 / 16) ^ 9 + D * (4 / 2 ^ p)) η (1 / 1000) := by
  obtain ⟨b₀, h₀⟩ := Ex.soft_loads (α := ℝ) Ex.input
  have s := Ex.softened h₀
  obtain ⟨hp, ho, hreg, hdet⟩ := Ex.softened_ok s
  refine ⟨b₀, h₀, ?_⟩
  have hi : ∀ k, k < (intsOf (Ex.soft (α := ℝ)) "xn_nyq").size →
      ((intsOf (Ex.soft (α := ℝ)) "xn_nyq").val 0 k).natAbs < 2147483648 := by
    rw [Ex.soft_ints (by decide)]
    exact Ex.wout_nyq
  obtain ⟨bmax, bmin, C, -, H⟩ := C115_file (Ex.softWorld_wout _) Ex.soft_shapes h₀ hi (by decide) hp ho hreg hdet
    (fun js hj => Ex.soft_B_pos s (by have : (js : ℤ) < 4 - 1 := hj; omega)) Ex.soft_can_run (by decide)
    (c := 2) (by norm_num) (ρ := 1 / 2) (by norm_num) 9
  obtain ⟨η, hη, H⟩ := H (1 / 1000) (by norm_num)
  have eM : polRes (Ex.woutZ 0) Ex.request = 16 := rfl
  have eN : torRes (Ex.woutZ 0) Ex.request = 8 := rfl
  obtain ⟨D, u₀, h0, G⟩ := H Ex.request rfl Ex.soft_can_run (by decide) (by rw [eM, eN]; norm_num)
    (by rw [eM, eN]; norm_num) 100 (by norm_num)
  obtain ⟨p₀, hp₀⟩ := Ex.bits h0
  refine ⟨bmax, bmin, C, D, η, hη, p₀, fun p hp => ?_⟩
  obtain ⟨w', out, g1, g2, -, g3⟩ := G (Ex.Flp p) _ Ex.Flp.val (4 / 2 ^ p) (Ex.flp_precision p) (hp₀ p hp)
    (Ex.softWorld Ex.input) Ex.input "in" "xbooz_xform" Ex.calm "0.0.1" Ex.soft (Ex.softWorld_in _) Ex.input_asks
    (Ex.softWorld_wout _) Ex.soft_shapes (Ex.soft_near p) Ex.version Ex.noFailure
  refine ⟨w', out, g1, g2, fun b j hb hj => ?_⟩
  have := g3 b j hb (Ex.soft_resolved s hj)
  rw [eM, eN] at this
  push_cast at this
  exact this

end Booz
