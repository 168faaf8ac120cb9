import Verif.Spec.Broken
import Verif.Props.FileSeries
import Verif.Props.MeanSquareAll

/-!
# C105: the measure of quasisymmetry on a machine and from the file
-/

namespace Booz
open Spec Trapezoid Finset Function

/-- The distance in the root mean square from nearby functions. -/
theorem rms_near {F T G : ℝ × ℝ → ℝ} (cF : Continuous F) (cT : Continuous T) (cG : Continuous G) {δ : ℝ}
    (hd : ∀ x, |F x - T x| ≤ δ) :
    √(mean2 τ τ fun x => (F x - G x) * (F x - G x)) ≤ √(mean2 τ τ fun x => (T x - G x) * (T x - G x)) + δ := by
  have h0 : 0 ≤ δ := (abs_nonneg _).trans (hd 0)
  set A := mean2 τ τ fun x => (T x - G x) * (T x - G x) with hA
  have hA0 : 0 ≤ A := mean_sq_nonneg fun x => T x - G x
  have r0 := Real.sqrt_nonneg A
  have c1 : Continuous fun x => (F x - G x) * (F x - G x) := (cF.sub cG).mul (cF.sub cG)
  have c2 : Continuous fun x => (T x - G x) * (T x - G x) := (cT.sub cG).mul (cT.sub cG)
  have key : mean2 τ τ (fun x => (F x - G x) * (F x - G x)) ≤ (√A + δ) ^ 2 := by
    refine le_of_forall_pos_le_add fun ε hε => ?_
    set η := ε / (δ + 1) with hη
    have η0 : 0 < η := by positivity
    have hle : δ * η ≤ ε := by
      rw [hη, mul_div_assoc', div_le_iff₀ (by positivity)]
      nlinarith
    set l := √A + η with hl
    have l0 : 0 < l := by positivity
    have c3 : Continuous fun x => (δ ^ 2 + δ * l) * 1 + (1 + δ / l) * ((T x - G x) * (T x - G x)) :=
      continuous_const.add (continuous_const.mul c2)
    have := mean2_mono c1 c3 fun x => ?_
    · rw [mean_lin2 (f := fun _ => 1) _ _ continuous_const c2, mean2_one tau_pos tau_pos, ← hA] at this
      have e1 : A ≤ √A * l := by
        have := Real.mul_self_sqrt hA0
        nlinarith
      have e2 : δ / l * A ≤ δ * √A := by
        rw [div_mul_eq_mul_div, div_le_iff₀ l0]
        nlinarith
      have e3 := Real.mul_self_sqrt hA0
      nlinarith
    · obtain ⟨lo, up⟩ := abs_le.1 (hd x)
      have e : F x - G x = (F x - T x) + (T x - G x) := by ring
      rw [e]
      set D := F x - T x
      set E := T x - G x
      have a1 : D * D ≤ δ * δ := by nlinarith
      have a2 : 2 * (D * E) ≤ δ * (l + E * E / l) := by
        have : |2 * E| ≤ l + E * E / l := by
          have h2 : l + E * E / l = (l * l + E * E) / l := by field_simp
          rw [h2, le_div_iff₀ l0, abs_mul, abs_two]
          nlinarith [sq_nonneg (l - |E|), sq_abs E]
        calc 2 * (D * E) = D * (2 * E) := by ring
          _ ≤ |D| * |2 * E| := by rw [← abs_mul]; exact le_abs_self _
          _ ≤ δ * (l + E * E / l) := mul_le_mul (hd x) this (abs_nonneg _) h0
      have a3 : δ / l * (E * E) = δ * (E * E / l) := by ring
      nlinarith
  calc √(mean2 τ τ fun x => (F x - G x) * (F x - G x)) ≤ √((√A + δ) ^ 2) := Real.sqrt_le_sqrt key
    _ = √A + δ := Real.sqrt_sq (by positivity)

/-- A Fourier series over a list of modes as a sum over a set of modes. -/
theorem series_trig {K : ℕ} {m n : ℕ → ℤ} (hl : OneOfEach K m n) (c s : ℕ → ℝ) :
    ∃ (A : Finset (ℤ × ℤ)) (a b : ℤ × ℤ → ℝ), (∀ k ∈ A, ∀ l ∈ A, k = -l → l = 0) ∧ b 0 = 0 ∧
      (∀ t z, series K m n c s t z = trig A a b (t, z)) ∧
      totalRms K m n c s = √(∑ k ∈ A, (if k = 0 then 1 else 1 / 2) * (a k ^ 2 + b k ^ 2)) ∧
      ∀ M N : ℤ, brokenRms K m n c s M N =
        √(∑ k ∈ A.filter (fun k => k.1 * N ≠ k.2 * M), (if k = 0 then 1 else 1 / 2) * (a k ^ 2 + b k ^ 2)) := by
  classical
  let p : ℕ → ℤ × ℤ := fun k => (m k, n k)
  let a : ℤ × ℤ → ℝ := fun k => ∑ i ∈ range K, if p i = k then c i else 0
  let b : ℤ × ℤ → ℝ := fun k => if k = 0 then 0 else ∑ i ∈ range K, if p i = k then s i else 0
  have inj : ∀ i ∈ range K, ∀ j ∈ range K, p i = p j → i = j := fun i hi j hj e =>
    hl i (mem_range.1 hi) j (mem_range.1 hj) (.inl (Prod.mk.inj e))
  have pick : ∀ (g : ℕ → ℝ) i, i < K → (∑ j ∈ range K, if p j = p i then g j else 0) = g i := by
    intro g i hi
    rw [sum_eq_single i]
    · rw [if_pos rfl]
    · exact fun j hj hne => if_neg fun e => hne (inj j hj i (mem_range.2 hi) e)
    · exact fun h => absurd (mem_range.2 hi) h
  refine ⟨(range K).image p, a, b, ?_, if_pos rfl, fun t z => ?_, ?_, fun M N => ?_⟩
  · intro k hk l hk' e
    obtain ⟨i, hi, rfl⟩ := mem_image.1 hk
    obtain ⟨j, hj, rfl⟩ := mem_image.1 hk'
    obtain ⟨e1, e2⟩ := Prod.mk.inj e
    obtain rfl := hl i (mem_range.1 hi) j (mem_range.1 hj) (.inr ⟨e1, e2⟩)
    exact Prod.ext (by simp only [p] at e1 ⊢; show m i = 0; omega) (by simp only [p] at e2 ⊢; show n i = 0; omega)
  · unfold series trig
    rw [sum_image fun i hi j hj => inj i hi j hj]
    refine sum_congr rfl fun i hi => ?_
    have ea : a (p i) = c i := pick c i (mem_range.1 hi)
    have eb : b (p i) * sinM (p i) (t, z) = s i * sinM (p i) (t, z) := by
      by_cases h0 : p i = 0
      · rw [show sinM (p i) (t, z) = 0 by rw [h0]; unfold sinM ph; simp, mul_zero, mul_zero]
      · rw [show b (p i) = s i by show (if p i = 0 then 0 else _) = _; rw [if_neg h0]; exact pick s i (mem_range.1 hi)]
    rw [ea, eb]
    rfl
  · unfold totalRms
    congr 1
    rw [sum_image fun i hi j hj => inj i hi j hj]
    refine sum_congr rfl fun i hi => ?_
    have ea : a (p i) = c i := pick c i (mem_range.1 hi)
    by_cases h0 : p i = 0
    · have eb : b (p i) = 0 := if_pos h0
      rw [if_pos (show m i = 0 ∧ n i = 0 from Prod.mk.inj h0), if_pos h0, ea, eb]
      ring
    · have eb : b (p i) = s i := by show (if p i = 0 then 0 else _) = _; rw [if_neg h0]; exact pick s i (mem_range.1 hi)
      rw [if_neg (show ¬ (m i = 0 ∧ n i = 0) from fun e => h0 (Prod.ext e.1 e.2)), if_neg h0, ea, eb]
      ring
  · unfold brokenRms
    congr 1
    rw [sum_filter, sum_filter, sum_image fun i hi j hj => inj i hi j hj]
    refine sum_congr rfl fun i hi => ?_
    by_cases hb : m i * N ≠ n i * M
    · have h0 : p i ≠ 0 := fun e => by
        obtain ⟨e1, e2⟩ := Prod.mk.inj e
        exact hb (by rw [e1, e2]; simp)
      have ea : a (p i) = c i := pick c i (mem_range.1 hi)
      have eb : b (p i) = s i := by show (if p i = 0 then 0 else _) = _; rw [if_neg h0]; exact pick s i (mem_range.1 hi)
      rw [if_pos hb, if_pos (show (p i).1 * N ≠ (p i).2 * M from hb), if_neg h0, ea, eb]
      ring
    · rw [if_neg hb, if_neg (show ¬ (p i).1 * N ≠ (p i).2 * M from hb)]

/-- **C105, approximate numbers.**  If a Fourier series in the Boozer angles is within `e` of |B| on a surface, then the root
mean square of its coefficients that break the symmetry (Mh, Nh) is within `e` of the least root mean square distance of |B|
from functions of `Mh θ_B − Nh ζ_B`. -/
theorem C105_numbers {I : Inputs ℝ} {d : Dims} (h : RunReady I d) (hp : FieldPeriodic I d.nfp) {js : ℕ}
    (hreg : (surface I d.asym js).Regular) (hdet : ∀ θ ζ, (surface I d.asym js).det θ ζ ≠ 0)
    {Mh Nh : ℤ} (hMN : ¬ (Mh = 0 ∧ Nh = 0)) {Q : ℝ} (hQ : (surface I d.asym js).Asymmetry Mh Nh Q)
    {K : ℕ} {m n : ℕ → ℤ} (hl : OneOfEach K m n) {c s : ℕ → ℝ} {e : ℝ}
    (he : let S := surface I d.asym js
      ∀ θ ζ, |S.B θ ζ - series K m n c s (S.thetaB θ ζ) (S.zetaB θ ζ)| ≤ e) :
    |√Q - brokenRms K m n c s Mh Nh| ≤ e := by
  let S := surface I d.asym js
  obtain ⟨f, hf, sf, pf, tf⟩ := express_q h hp hreg hdet S.B List.mem_cons_self
  obtain ⟨A, a, t, hA, h0, hser, -, hrms⟩ := series_trig hl c s
  have dist : ∀ g : ℝ → ℝ → ℝ, Continuous (uncurry g) → TorusFn g → S.distance2 S.B g =
      mean2 τ τ fun x => (uncurry f x - uncurry g x) * (uncurry f x - uncurry g x) := by
    intro g cg tg
    refine average_expressed h hp _ (f := fun t z => (f t z - g t z) * (f t z - g t z))
      ((sf.continuous.sub cg).mul (sf.continuous.sub cg)) ⟨fun t z => by beta_reduce; rw [tf.1, tg.1],
        fun t z => by beta_reduce; rw [tf.2, tg.2]⟩ fun θ ζ => ?_
    show (f _ _ - g _ _) * (f _ _ - g _ _) = _
    rw [hf θ ζ, sq]
  have hn : ∀ x, |uncurry f x - trig A a t x| ≤ e := by
    intro x
    obtain ⟨y, rfl⟩ := (boozer_coordinates h hp js hdet).bijective.2 x
    have := he y.1 y.2
    rw [← hf y.1 y.2, hser] at this
    exact this
  obtain ⟨⟨g0, hg0, eg0⟩, hmin⟩ := hQ
  have cT := trig_continuous A a t
  rw [hrms Mh Nh]
  set x := ∑ k ∈ A.filter (fun k => k.1 * Nh ≠ k.2 * Mh), (if k = 0 then (1 : ℝ) else 1 / 2) * (a k ^ 2 + t k ^ 2) with hx
  obtain ⟨⟨g1, cg1, pg1, hg1, eg1⟩, hmin1⟩ := trig_closest (A := A) (a := a) (b := t) hA h0 hMN (x := x) hx
  have n1 := rms_near sf.continuous cT cg1 hn
  have n2 := rms_near cT sf.continuous hg0.1 fun x => by rw [abs_sub_comm]; exact hn x
  rw [eg1] at n1
  rw [dist g0 hg0.1 hg0.2.1] at eg0
  rw [eg0] at n2
  have tg1 : TorusFn (curry g1) :=
    ⟨fun t z => by simpa [τ] using pg1.1 (t, z), fun t z => by simpa [τ] using pg1.2 (t, z)⟩
  have m1 := hmin (curry g1) ⟨cg1, tg1, fun t z t' z' hxy => hg1 (t, z) (t', z') hxy⟩
  have m2 := hmin1 (uncurry g0) hg0.1 hg0.2.1.dper fun x y hxy => hg0.2.2 x.1 x.2 y.1 y.2 hxy
  rw [dist (curry g1) cg1 tg1] at m1
  have r1 := (Real.sqrt_le_sqrt m1).trans n1
  have r2 := (Real.sqrt_le_sqrt m2).trans n2
  rw [abs_le]
  constructor <;> linarith

/-- **C105, approximate numbers.**  If a Fourier series in the Boozer angles is within `e` of a quantity on a surface, then the
root mean square of its coefficients is within `e` of that of the quantity over the Boozer angles. -/
theorem C105_total {I : Inputs ℝ} {d : Dims} (h : RunReady I d) (hp : FieldPeriodic I d.nfp) {js : ℕ}
    (hreg : (surface I d.asym js).Regular) (hdet : ∀ θ ζ, (surface I d.asym js).det θ ζ ≠ 0)
    {q : ℝ → ℝ → ℝ} (hq : q ∈ (surface I d.asym js).quantities)
    {K : ℕ} {m n : ℕ → ℤ} (hl : OneOfEach K m n) {cosN sinN : ℕ → ℝ → Prop} {e : ℝ}
    (he : Rebuilds K m n cosN sinN (surface I d.asym js) q e) : RmsNear K m n cosN sinN (surface I d.asym js) q e := by
  let S := surface I d.asym js
  obtain ⟨c, s, hcs, he⟩ := he
  refine ⟨c, s, hcs, ?_⟩
  obtain ⟨f, hf, sf, pf, tf⟩ := express_q h hp hreg hdet q hq
  obtain ⟨A, a, t, hA, h0, hser, htot, -⟩ := series_trig hl c s
  have avg : S.average (fun θ ζ => q θ ζ ^ 2) = mean2 τ τ fun x => (uncurry f x - 0) * (uncurry f x - 0) := by
    refine average_expressed h hp _ (f := fun t z => (f t z - 0) * (f t z - 0))
      ((sf.continuous.sub continuous_const).mul (sf.continuous.sub continuous_const))
      ⟨fun t z => by beta_reduce; rw [tf.1], fun t z => by beta_reduce; rw [tf.2]⟩ fun θ ζ => ?_
    show (f _ _ - 0) * (f _ _ - 0) = _
    rw [hf θ ζ, sub_zero, sq]
  have hn : ∀ x, |uncurry f x - trig A a t x| ≤ e := by
    intro x
    obtain ⟨y, rfl⟩ := (boozer_coordinates h hp js hdet).bijective.2 x
    have := he y.1 y.2
    rw [← hf y.1 y.2, hser] at this
    exact this
  have cT := trig_continuous A a t
  have n1 := rms_near (G := fun _ => 0) sf.continuous cT continuous_const hn
  have n2 := rms_near (G := fun _ => 0) cT sf.continuous continuous_const fun x => by rw [abs_sub_comm]; exact hn x
  have eT : mean2 τ τ (fun x => (trig A a t x - 0) * (trig A a t x - 0)) =
      ∑ k ∈ A, (if k = 0 then 1 else 1 / 2) * (a k ^ 2 + t k ^ 2) := by
    simp only [sub_zero]
    exact trig_sq hA h0
  rw [eT, ← htot, ← avg] at n1
  rw [eT, ← htot, ← avg] at n2
  rw [abs_le]
  constructor <;> linarith

/-- The modes of the output list. -/
theorem output_oneOfEach (d : Dims) (hM : 1 ≤ d.M) (hp : 1 ≤ d.nfp) :
    OneOfEach d.nmodes (fun k => modeM d.N k) fun k => modeN d.N k * d.nfp := by
  have hp0 : (0 : ℤ) < d.nfp := by exact_mod_cast hp
  have uniq : ∀ i j, (modeM d.N i : ℤ) = modeM d.N j → modeN d.N i = modeN d.N j → i = j := by
    intro i j e1 e2
    by_contra hne
    rcases Nat.lt_or_gt_of_ne hne with hlt | hlt
    · have := modePair_lex d hp hlt
      unfold Spec.Lex at this
      simp only [e1, e2, lt_irrefl, and_false, or_false] at this
    · have := modePair_lex d hp hlt
      unfold Spec.Lex at this
      simp only [e1, e2, lt_irrefl, and_false, or_false] at this
  have all : ∀ k < d.nmodes, (0 : ℤ) ≤ modeM d.N k ∧ ((modeM d.N k : ℤ) = 0 → 0 ≤ modeN d.N k) := by
    intro k hk
    obtain ⟨i1, i2, n', e, i3, i4, i5⟩ := (modePair_mem d hM hp _).1 ⟨k, hk, rfl⟩
    have e : modeN d.N k = n' := mul_right_cancel₀ hp0.ne' e
    subst e
    exact ⟨i1, i5⟩
  rintro i hi j hj (⟨e1, e2⟩ | ⟨e1, e2⟩)
  · exact uniq i j e1 (mul_right_cancel₀ hp0.ne' e2)
  · obtain ⟨a1, a2⟩ := all i hi
    obtain ⟨b1, b2⟩ := all j hj
    have e3 : modeN d.N i = -modeN d.N j := mul_right_cancel₀ hp0.ne' (by beta_reduce at e2; rw [e2]; ring)
    simp only at e1
    have z1 : (modeM d.N i : ℤ) = 0 := by omega
    have z2 : (modeM d.N j : ℤ) = 0 := by omega
    have := a2 z1
    have := b2 z2
    exact uniq i j (by omega) (by omega)

theorem oneOfEach_congr {K : ℕ} {m n m' n' : ℕ → ℤ} (h : OneOfEach K m n) (hm : ∀ k < K, m' k = m k)
    (hn : ∀ k < K, n' k = n k) : OneOfEach K m' n' := by
  intro i hi j hj e
  rw [hm i hi, hm j hj, hn i hi, hn j hj] at e
  exact h i hi j hj e

/-- **C105, on a machine.**  For every order `p` there is a constant `C`, and for every resolution with comparable numbers of
modes constants `D`, `u₀`, such that on every machine of precision `u ≤ u₀` with inputs within `K u` of the exact ones run()
succeeds, and on each selected surface resolved by the grid the root mean squares of the stored harmonics of |B|, R, Z, ν and the
Jacobian are within `C / M^p + D u` of those of these quantities over the Boozer angles, and for every helicity the root mean square of all stored harmonics of
|B| that break the symmetry is within `C / M^p + D u` of the least root mean square distance of |B| from symmetric functions. -/
theorem C105_machine {s₀ : St ℝ} {d : Dims} (h : RunReady s₀.inp d) (hp : FieldPeriodic s₀.inp d.nfp)
    (ho : OriginOnce s₀.inp) (hreg : ∀ b < d.nsb, (surface s₀.inp d.asym (selected s₀.inp b)).Regular)
    (hdet : ∀ b < d.nsb, ∀ θ ζ, (surface s₀.inp d.asym (selected s₀.inp b)).det θ ζ ≠ 0)
    {c : ℝ} (hc : 0 ≤ c) {ρ : ℝ} (hρ : ρ < 1) (p : ℕ) :
    ∃ C, 0 ≤ C ∧ ∀ M N : ℕ, 1 ≤ N → (M : ℝ) ≤ c * N → (N : ℝ) ≤ c * M →
      RunReady { s₀.inp with mboz := M, nboz := N } { d with M := M, N := N } → ∀ K : ℝ, 0 ≤ K →
      ∃ D u₀, 0 ≤ D ∧ 0 < u₀ ∧
        ∀ (α : Type) [Arith α] (fin : α → Prop) (val : α → ℝ) (u : ℝ), Precision α fin val u → u ≤ u₀ →
        ∀ s : St α, RunReady s.inp { d with M := M, N := N } →
          InputsNear fin val { d with M := M, N := N } (K * u) s.inp s₀.inp →
          ∃ s' r, run false s = .ok (s', r) ∧
            ∀ b < d.nsb, let S := surface s₀.inp d.asym (selected s₀.inp b)
              S.ResolvedBy d.nfp M N ρ →
              MachineMeans fin val s'.out S d.asym (numModes M N) b (C * (1 / (M : ℝ)) ^ p + D * u) ∧
              ∀ Mh Nh : ℤ, ¬ (Mh = 0 ∧ Nh = 0) → ∃ Q x, S.Asymmetry Mh Nh Q ∧ MachineBroken fin val s'.out d.asym (numModes M N) b Mh Nh x ∧
                |√Q - x| ≤ C * (1 / (M : ℝ)) ^ p + D * u := by
  obtain ⟨C, hC, H⟩ := C110_machine h hp ho hreg hdet hc hρ p
  refine ⟨C, hC, fun M N hN hMN hNM hr K hK => ?_⟩
  obtain ⟨D, u₀, hD, h0, G⟩ := H M N hN hMN hNM hr K hK
  refine ⟨D, u₀, hD, h0, fun α _ fin val u hu hle s hs near => ?_⟩
  obtain ⟨s', r, ok, g, -⟩ := G α fin val u hu hle s hs near
  refine ⟨s', r, ok, fun b hb => ?_⟩
  intro S hres
  obtain ⟨m, n, k0, kB, kR, kZ, kn, kg⟩ := g b hb hres
  have o := output_oneOfEach { d with M := M, N := N } hr.mboz_ge hr.nfp_pos
  have o' : OneOfEach (Dims.nmodes { d with M := M, N := N }) m n := by
    refine oneOfEach_congr o (fun k hk => ?_) fun k hk => ?_
    · have := (k0 k hk).1
      rw [(run_false hs ok).1, show (runSt _ s _).out.xm_b.rdN k = _ from Vec.rdN_tab hk] at this
      exact (Except.ok.inj this).symm
    · have := (k0 k hk).2
      rw [(run_false hs ok).1, show (runSt _ s _).out.xn_b.rdN k = _ from Vec.rdN_tab hk] at this
      exact (Except.ok.inj this).symm
  have tot := fun {q} (hq : q ∈ S.quantities) {cosN sinN : ℕ → ℝ → Prop} {e : ℝ}
    (he : Rebuilds (numModes M N) m n cosN sinN S q e) => C105_total h hp (hreg b hb) (hdet b hb) hq o' he
  refine ⟨⟨m, n, k0, tot (by simp [Surface.quantities]) kB, tot (by simp [Surface.quantities]) kR,
    tot (by simp [Surface.quantities]) kZ, tot (by simp [Surface.quantities]) kn, tot (by simp [Surface.quantities]) kg⟩,
    fun Mh Nh hh => ?_⟩
  obtain ⟨Q, hQ, -⟩ := C105_asymmetry h hp ho hb (hreg b hb) (hdet b hb) hh
  obtain ⟨cB, sB, k1, k2⟩ := kB
  refine ⟨Q, _, hQ, ⟨m, n, cB, sB, fun k hk => ⟨(k0 k hk).1, (k0 k hk).2, (k1 k hk).1, (k1 k hk).2⟩, rfl⟩, ?_⟩
  exact C105_numbers h hp (hreg b hb) (hdet b hb) hh hQ o' k2

/-- **C105, from the file.**  In the situation of `C110_file`: `xbooz_xform` returns 0 and leaves a `boozmn` file that has the
requested surfaces, and on each of them that is resolved by the grid the root mean squares of the harmonics of |B| and of the
Jacobian are within `C / mboz^p + D u` of those of these quantities over the Boozer angles, and for every helicity the root mean square of all harmonics
of |B| in the file that break the symmetry is within `C / mboz^p + D u` of the least root mean square distance of |B| from
symmetric functions. -/
theorem C105_file {disk₀ : Disk ℝ} {path₀ : String} {f₀ : NcFile ℝ} {z : WoutSizes} {b₀ : St ℝ}
    (hd₀ : disk₀ path₀ = .nc f₀) (hz₀ : WoutShapes f₀ z) (hl₀ : readWout disk₀ path₀ false construct = .ok () b₀)
    (hi : ∀ k, k < (intsOf f₀ "xn_nyq").size → ((intsOf f₀ "xn_nyq").val 0 k).natAbs < 2147483648)
    (hns : z.ns ≤ 2147483644)
    (hfp : FieldPeriodic b₀.inp z.nfp.toNat) (ho : OriginOnce b₀.inp)
    (hreg : ∀ js : ℕ, (js : ℤ) < z.ns - 1 → (surface b₀.inp (decide (z.lasym ≠ 0)) js).Regular)
    (hdet : ∀ js : ℕ, (js : ℤ) < z.ns - 1 → ∀ θ ζ, (surface b₀.inp (decide (z.lasym ≠ 0)) js).det θ ζ ≠ 0)
    (surfs : List ℤ) (hlen : surfs.length ≤ 2147483644) {c : ℝ} (hc0 : 0 ≤ c) {ρ : ℝ} (hρ : ρ < 1) (p : ℕ) :
    ∃ C, ∀ r : Request, r.surfs = surfs → CanRun f₀ z r → 1 ≤ torRes z r →
      (polRes z r : ℝ) ≤ c * torRes z r → (torRes z r : ℝ) ≤ c * polRes z r → ∀ K : ℝ, 0 ≤ K → ∃ D u₀, 0 < u₀ ∧
      ∀ (α : Type) [Arith α] (fin : α → Prop) (val : α → ℝ) (u : ℝ), Precision α fin val u → u ≤ u₀ →
      ∀ (w : World α) (content : List Char) (path prog : String) (env : Env) (version : String) (f : NcFile α),
        w.disk path = .other content → Asks content r →
        w.disk ("wout_" ++ String.ofList r.ext ++ ".nc") = .nc f → WoutShapes f z → WoutNear fin val z (K * u) f f₀ →
        VersionOk version → NoFailure env →
        ∃ w' out, driver env version [prog, path] w = .ok 0 w' ∧
          w'.disk ("boozmn_" ++ String.ofList r.ext ++ ".nc") = .nc out ∧
          (∀ js, Wanted z r js ↔ ∃ b, FileInt out "jlist" b (js + 2)) ∧
          ∀ b js, FileInt out "jlist" b (js + 2) → let S := surface b₀.inp (decide (z.lasym ≠ 0)) js.toNat
            S.ResolvedBy z.nfp.toNat (polRes z r) (torRes z r) ρ →
            FileMeans fin val out S (decide (z.lasym ≠ 0)) (numModes (polRes z r) (torRes z r)) b
              (C * (1 / (polRes z r : ℝ)) ^ p + D * u) ∧
            ∀ Mh Nh : ℤ, ¬ (Mh = 0 ∧ Nh = 0) → ∃ Q x, S.Asymmetry Mh Nh Q ∧
              FileBroken fin val out (decide (z.lasym ≠ 0)) (numModes (polRes z r) (torRes z r)) b Mh Nh x ∧
              |√Q - x| ≤ C * (1 / (polRes z r : ℝ)) ^ p + D * u := by
  obtain ⟨C, H⟩ := C110_file hd₀ hz₀ hl₀ hi hns hfp ho hreg hdet surfs hlen hc0 hρ p
  obtain ⟨hg₀, hl₀'⟩ := wout_loaded hd₀ hz₀ hl₀
  obtain ⟨-, -, C₀, -⟩ := vmec_inv hg₀ hl₀'
  have hns2 : 2 ≤ z.ns := C₀.ns_ge
  refine ⟨C, fun r hrs hc hN hMN hNM K hK => ?_⟩
  obtain ⟨D, u₀, h0, G⟩ := H r hrs hc hN hMN hNM K hK
  refine ⟨D, u₀, h0, fun α _ fin val u hu hle w content path prog env version f hp ha hd hz hn hv he => ?_⟩
  obtain ⟨w', out, hw', ho', hj, g⟩ := G α fin val u hu hle w content path prog env version f hp ha hd hz hn hv he
  refine ⟨w', out, hw', ho', hj, fun b' js g1 => ?_⟩
  intro S hres
  obtain ⟨m, n, k0, kB, kg, -⟩ := g b' js g1 hres
  -- the modes in the file
  obtain ⟨l, hS, hl1, hl2, hmem⟩ := wantedVec_full (r := r) hns2
  have hr := requested_ready hg₀ hl₀' hi hc hS hl1
  obtain ⟨q, hq, eq⟩ := List.mem_iff_getElem.1 ((hmem js).2 ((hj js).2 ⟨b', g1⟩))
  have hsel : (wantedVec z r).val 0 q = js := by rw [hS, val_list hq, eq]
  have hjs : (js.toNat : ℤ) < z.ns - 1 := by
    have := hr.surfs_range q hq
    have h1 : 0 ≤ (wantedVec z r).val 0 q := this.1
    have h2 : ((wantedVec z r).val 0 q) < ((z.ns - 1).toNat : ℕ) := this.2
    omega
  have esel : selected (settings (wantedVec z r) (polRes z r) (torRes z r) 1 b₀).inp q = js.toNat := by
    show ((wantedVec z r).val 0 q).toNat = _
    rw [hsel]
  obtain ⟨b, hb⟩ := loads_near hd₀ hz₀ hl₀ hd hz hn
  obtain ⟨hg, hl⟩ := wout_loaded hd hz hb
  obtain ⟨b1, t, rep, v, j1, j2, j3, j4⟩ := driver_inv hp ha hw'
  cases (show Out.ok () b1 = Out.ok () b from j1.symm.trans hb)
  have hmp := hc.1.mpol
  have e0 : (woutSizesOf f₀ z).mpol = z.mpol := rfl
  obtain ⟨e1, e2⟩ := res_eq (z := z) (r := r) (by omega)
  rw [requested_settings r hg hl, ← e1, ← e2] at j2
  rw [woutSizes_near hn] at hg
  have R := (ready_loaded hg₀ hl₀' hg hl (sameModes_near hn) hr).1
  have hlen' : l.length ≤ 2147483644 := by
    have := hl2
    rw [← hrs] at hlen
    omega
  have hflux : FluxOk (settings (wantedVec z r) (polRes z r) (torRes z r) 1 b).flux (z.ns - 1).toNat := by
    rw [vmec_result hg hl]
    exact .inl rfl
  have HR := run_hasResults R hl1 (by show l.length ≤ _; omega) (by show (z.ns - 1).toNat + 1 ≤ _; omega) hflux
  rw [← (run_false R j2).1] at HR
  obtain ⟨out', o1, o2⟩ := C34_layout HR hv j3
  rw [j4] at ho'
  cases o1.symm.trans ho'
  have o := output_oneOfEach _ hr.mboz_ge hr.nfp_pos
  have o' := by
    refine oneOfEach_congr (m' := m) (n' := n) o (fun k hk => ?_) fun k hk => ?_
    · have := (fileInt_iff o2.ixm_b).1 (k0 k hk).1
      rw [(run_false R j2).1, show (runSt _ _ _).out.xm_b[k]? = _ from Vec.getElem?_tab .., if_pos hk] at this
      exact (Option.some.inj (Option.some.inj this)).symm
    · have := (fileInt_iff o2.ixn_b).1 (k0 k hk).2
      rw [(run_false R j2).1, show (runSt _ _ _).out.xn_b[k]? = _ from Vec.getElem?_tab .., if_pos hk] at this
      exact (Option.some.inj (Option.some.inj this)).symm
  refine ⟨⟨m, n, k0, C105_total hr hfp (hreg _ hjs) (hdet _ hjs) (List.mem_cons_self) o' kB,
    C105_total hr hfp (hreg _ hjs) (hdet _ hjs) (by show S.jacobian ∈ S.quantities; simp [Surface.quantities]) o' kg⟩,
    fun Mh Nh hh => ?_⟩
  obtain ⟨cB, sB, k1, k2⟩ := kB
  obtain ⟨Q, hQ, -⟩ := C105_asymmetry (s := settings (wantedVec z r) (polRes z r) (torRes z r) 1 b₀) hr hfp ho
    (b := q) hq (by rw [esel]; exact hreg _ hjs) (by rw [esel]; exact hdet _ hjs) hh
  rw [esel] at hQ
  refine ⟨Q, _, hQ, ⟨m, n, cB, sB, fun k hk => ⟨(k0 k hk).1, (k0 k hk).2, (k1 k hk).1, (k1 k hk).2⟩, rfl⟩, ?_⟩
  exact C105_numbers hr hfp (hreg _ hjs) (hdet _ hjs) hh hQ o' k2

/-! ### Non-vacuity -/

/-- C105 on machines with more and more bits: the example with small λ and w, at all resolutions with `M ≤ 2 N`, `N ≤ 2 M` up to
the size at which int overflows. -/
example (asym : Bool) : ∃ C, ∀ M N : ℕ, 1 ≤ M → 1 ≤ N → M ≤ 2 * N → N ≤ 2 * M → (4 * M + 2) * (4 * N + 2) < 2 ^ 30 →
    ∃ D p₀, ∀ p ≥ p₀, ∃ s' r, run false { Ex.st asym with
      inp := Ex.mapI (fun x => (⟨Ex.rnd p x⟩ : Ex.Flp p)) { (Ex.gentle asym).inp with mboz := M, nboz := N } } = .ok (s', r) ∧
      ∀ b < 2, MachineMeans (fun _ => True) Ex.Flp.val s'.out (surface (Ex.gentle asym).inp asym
          (selected (Ex.gentle asym).inp b)) asym (numModes M N) b (C * (1 / (M : ℝ)) ^ 7 + D * (4 / 2 ^ p)) ∧
        ∃ Q x, (surface (Ex.gentle asym).inp asym (selected (Ex.gentle asym).inp b)).Asymmetry 1 2 Q ∧
        MachineBroken (fun _ => True) Ex.Flp.val s'.out asym (numModes M N) b 1 2 x ∧
        |√Q - x| ≤ C * (1 / (M : ℝ)) ^ 7 + D * (4 / 2 ^ p) := by
  obtain ⟨C, -, H⟩ := C105_machine (s₀ := Ex.gentle asym) (d := Ex.dims asym) (Ex.gentle_ready asym)
    (Ex.fieldPeriodic (α := ℝ) asym) (Ex.originOnce (α := ℝ) asym)
    (fun b hb => Ex.gentle_regular asym (Ex.selected_lt asym b hb))
    (fun b hb θ ζ => (lt_trans (by norm_num) (Ex.gentle_det asym (Ex.selected_lt asym b hb) θ ζ)).ne')
    (c := 2) (by norm_num) (ρ := 1 / 2) (by norm_num) 7
  refine ⟨C, fun M N hM hN h1 h2 hf => ?_⟩
  have hr := Ex.gentle_ready_res asym hM hf
  obtain ⟨K, hK, near⟩ := Ex.mapI_near hr
  obtain ⟨D, u₀, -, h0, G⟩ := H M N hN (by exact_mod_cast h1) (by exact_mod_cast h2) hr K hK
  obtain ⟨p₀, hp₀⟩ := Ex.bits h0
  refine ⟨D, p₀, fun p hp => ?_⟩
  obtain ⟨s', r, g1, g2⟩ := G (Ex.Flp p) (fun _ => True) Ex.Flp.val (4 / 2 ^ p) (Ex.flp_precision p) (hp₀ p hp)
    { Ex.st asym with
      inp := Ex.mapI (fun x => (⟨Ex.rnd p x⟩ : Ex.Flp p)) { (Ex.gentle asym).inp with mboz := M, nboz := N } }
    (Ex.mapI_ready _ hr) { near p with }
  exact ⟨s', r, g1, fun b hb => (g2 b hb (Ex.gentle_resolved asym (Ex.selected_lt asym b hb) h1 h2)).imp_right fun g => g 1 2 (by simp)⟩

/-- C105 for the file: the two surfaces asked for, on machines with more and more bits. -/
example : ∃ b₀ : St ℝ, readWout (Ex.softWorld Ex.input).disk ("wout_" ++ String.ofList ['x'] ++ ".nc") false construct =
      .ok () b₀ ∧ ∃ C D : ℝ, ∃ p₀, ∀ p ≥ p₀, ∃ w' out,
    driver Ex.calm "0.0.1" ["xbooz_xform", "in"] (Ex.softWorld (α := Ex.Flp p) Ex.input) = .ok 0 w' ∧
    w'.disk ("boozmn_" ++ String.ofList ['x'] ++ ".nc") = .nc out ∧
    ∀ b j, FileInt out "jlist" b (j + 2) → j.toNat < 3 →
      FileMeans (fun _ => True) Ex.Flp.val out (surface b₀.inp false j.toNat) false (numModes 16 8) b
        (C * (1 / 16) ^ 9 + D * (4 / 2 ^ p)) ∧ ∃ Q x, (surface b₀.inp false j.toNat).Asymmetry 1 2 Q ∧
      FileBroken (fun _ => True) Ex.Flp.val out false (numModes 16 8) b 1 2 x ∧
      |√Q - x| ≤ C * (1 / 16) ^ 9 + D * (4 / 2 ^ p) := by
  obtain ⟨b₀, h₀⟩ := Ex.soft_loads (α := ℝ) Ex.input
  have s := Ex.softened h₀
  obtain ⟨hp, ho, hreg, hdet⟩ := Ex.softened_ok s
  refine ⟨b₀, h₀, ?_⟩
  have hi : ∀ k, k < (intsOf (Ex.soft (α := ℝ)) "xn_nyq").size →
      ((intsOf (Ex.soft (α := ℝ)) "xn_nyq").val 0 k).natAbs < 2147483648 := by
    rw [Ex.soft_ints (by decide)]
    exact Ex.wout_nyq
  obtain ⟨C, H⟩ := C105_file (Ex.softWorld_wout _) Ex.soft_shapes h₀ hi (by decide) hp ho hreg hdet [1, 0] (by decide)
    (c := 2) (by norm_num) (ρ := 1 / 2) (by norm_num) 9
  have eM : polRes (Ex.woutZ 0) Ex.request = 16 := rfl
  have eN : torRes (Ex.woutZ 0) Ex.request = 8 := rfl
  obtain ⟨D, u₀, h0, G⟩ := H Ex.request rfl Ex.soft_can_run (by decide) (by rw [eM, eN]; norm_num)
    (by rw [eM, eN]; norm_num) 100 (by norm_num)
  obtain ⟨p₀, hp₀⟩ := Ex.bits h0
  refine ⟨C, D, p₀, fun p hp => ?_⟩
  obtain ⟨w', out, g1, g2, -, g3⟩ := G (Ex.Flp p) _ Ex.Flp.val (4 / 2 ^ p) (Ex.flp_precision p) (hp₀ p hp)
    (Ex.softWorld Ex.input) Ex.input "in" "xbooz_xform" Ex.calm "0.0.1" Ex.soft (Ex.softWorld_in _) Ex.input_asks
    (Ex.softWorld_wout _) Ex.soft_shapes (Ex.soft_near p) Ex.version Ex.noFailure
  refine ⟨w', out, g1, g2, fun b j hb hj => ?_⟩
  have := (g3 b j hb (Ex.soft_resolved s hj)).imp_right fun g => g 1 2 (by simp)
  rw [eM, eN] at this
  push_cast at this
  exact this

end Booz
