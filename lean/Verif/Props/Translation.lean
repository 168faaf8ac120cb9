import Verif.Spec.Translation
import Verif.Lemmas.Shift
import Verif.Props.Axisymmetric

/-!
# C77: moving the origin of the angles; C78: axisymmetric equilibria have n = 0 harmonics only
-/

namespace Booz
open Spec Trapezoid Finset Function

variable {S T : Surface} {nfp : ℕ}

/-! ### Translated surfaces -/

/-- `T` is `S` seen from the origin (θ₀, ζ₀). -/
structure Translated (θ₀ ζ₀ : ℝ) (S T : Surface) : Prop where
  iota : T.iota = S.iota
  I : T.I = S.I
  G : T.G = S.G
  lam : ∀ θ ζ, T.lam θ ζ = S.lam (θ + θ₀) (ζ + ζ₀)
  w : ∀ θ ζ, T.w θ ζ = S.w (θ + θ₀) (ζ + ζ₀)
  R : ∀ θ ζ, T.R θ ζ = S.R (θ + θ₀) (ζ + ζ₀)
  Z : ∀ θ ζ, T.Z θ ζ = S.Z (θ + θ₀) (ζ + ζ₀)
  B : ∀ θ ζ, T.B θ ζ = S.B (θ + θ₀) (ζ + ζ₀)

namespace Translated
variable {θ₀ ζ₀ : ℝ}

theorem nu (h : Translated θ₀ ζ₀ S T) (θ ζ : ℝ) : T.nu θ ζ = S.nu (θ + θ₀) (ζ + ζ₀) := by
  unfold Surface.nu
  rw [h.iota, h.I, h.G, h.lam, h.w]

theorem jacobian (h : Translated θ₀ ζ₀ S T) (θ ζ : ℝ) : T.jacobian θ ζ = S.jacobian (θ + θ₀) (ζ + ζ₀) := by
  unfold Surface.jacobian
  rw [h.iota, h.I, h.G, h.B]

theorem thetaB (h : Translated θ₀ ζ₀ S T) (θ ζ : ℝ) : T.thetaB θ ζ = S.thetaB (θ + θ₀) (ζ + ζ₀) - θ₀ := by
  unfold Surface.thetaB
  rw [h.iota, h.lam, h.nu]
  ring

theorem zetaB (h : Translated θ₀ ζ₀ S T) (θ ζ : ℝ) : T.zetaB θ ζ = S.zetaB (θ + θ₀) (ζ + ζ₀) - ζ₀ := by
  unfold Surface.zetaB
  rw [h.nu]
  ring

theorem det (h : Translated θ₀ ζ₀ S T) (θ ζ : ℝ) : T.det θ ζ = S.det (θ + θ₀) (ζ + ζ₀) := by
  unfold Surface.det
  have e1 : (fun t => T.thetaB t ζ) = fun t => (fun t => S.thetaB t (ζ + ζ₀)) (t + θ₀) - θ₀ := funext fun t => h.thetaB t ζ
  have e2 : (fun z => T.zetaB θ z) = fun z => (fun z => S.zetaB (θ + θ₀) z) (z + ζ₀) - ζ₀ := funext fun z => h.zetaB θ z
  have e3 : (fun z => T.thetaB θ z) = fun z => (fun z => S.thetaB (θ + θ₀) z) (z + ζ₀) - θ₀ := funext fun z => h.thetaB θ z
  have e4 : (fun t => T.zetaB t ζ) = fun t => (fun t => S.zetaB t (ζ + ζ₀)) (t + θ₀) - ζ₀ := funext fun t => h.zetaB t ζ
  rw [e1, e2, e3, e4]
  rw [deriv_sub_const, deriv_sub_const, deriv_sub_const, deriv_sub_const, deriv_comp_add_const (fun t => S.thetaB t (ζ + ζ₀)),
    deriv_comp_add_const (fun z => S.zetaB (θ + θ₀) z), deriv_comp_add_const (fun z => S.thetaB (θ + θ₀) z),
    deriv_comp_add_const (fun t => S.zetaB t (ζ + ζ₀))]

theorem cosInt (h : Translated θ₀ ζ₀ S T) {q q' : ℝ → ℝ → ℝ} (hq : ∀ θ ζ, q' θ ζ = q (θ + θ₀) (ζ + ζ₀)) (m n : ℤ) (θ ζ : ℝ) :
    intC T q' m n θ ζ = Real.cos (m * θ₀ - n * ζ₀) * intC S q m n (θ + θ₀) (ζ + ζ₀) +
      Real.sin (m * θ₀ - n * ζ₀) * intS S q m n (θ + θ₀) (ζ + ζ₀) := by
  unfold intC intS
  rw [hq, h.det, h.thetaB, h.zetaB]
  generalize S.thetaB _ _ = t
  generalize S.zetaB _ _ = z
  rw [show (m : ℝ) * (t - θ₀) - n * (z - ζ₀) = (m * t - n * z) - (m * θ₀ - n * ζ₀) by ring, Real.cos_sub]
  ring

theorem sinInt (h : Translated θ₀ ζ₀ S T) {q q' : ℝ → ℝ → ℝ} (hq : ∀ θ ζ, q' θ ζ = q (θ + θ₀) (ζ + ζ₀)) (m n : ℤ) (θ ζ : ℝ) :
    intS T q' m n θ ζ = Real.cos (m * θ₀ - n * ζ₀) * intS S q m n (θ + θ₀) (ζ + ζ₀) -
      Real.sin (m * θ₀ - n * ζ₀) * intC S q m n (θ + θ₀) (ζ + ζ₀) := by
  unfold intC intS
  rw [hq, h.det, h.thetaB, h.zetaB]
  generalize S.thetaB _ _ = t
  generalize S.zetaB _ _ = z
  rw [show (m : ℝ) * (t - θ₀) - n * (z - ζ₀) = (m * t - n * z) - (m * θ₀ - n * ζ₀) by ring, Real.sin_sub]
  ring

end Translated

/-! ### Grid sums -/

theorem sum_shift1 {n : ℕ} {f : ℕ → ℝ} (h : f n = f 0) : ∑ a ∈ range n, f (a + 1) = ∑ a ∈ range n, f a := by
  have := (sum_range_succ' f n).symm.trans (sum_range_succ f n)
  linarith

theorem sum_shift {n : ℕ} {f : ℕ → ℝ} (h : ∀ a, f (a + n) = f a) (j : ℕ) : ∑ a ∈ range n, f (a + j) = ∑ a ∈ range n, f a := by
  induction j with
  | zero => rfl
  | succ j ih =>
    rw [← ih]
    have := sum_shift1 (n := n) (f := fun a => f (a + j)) (by rw [zero_add, add_comm n j]; exact h j)
    rw [← this]
    exact sum_congr rfl fun a _ => by rw [show a + (j + 1) = a + 1 + j by omega]

theorem gridSum_shift {nt nz : ℕ} (hp : 1 ≤ nfp) (h1 : 1 ≤ nt) (h2 : 1 ≤ nz) {F : ℝ → ℝ → ℝ} (hF : PerF nfp F) (i j : ℕ) :
    gridSum nt nz nfp (fun θ ζ => F (θ + 2 * Real.pi * i / nt) (ζ + 2 * Real.pi * j / (nfp * nz))) = gridSum nt nz nfp F := by
  have hp' : (nfp : ℝ) ≠ 0 := by positivity
  have h1' : (nt : ℝ) ≠ 0 := by positivity
  have h2' : (nz : ℝ) ≠ 0 := by positivity
  unfold gridSum
  have e1 : ∀ θ, ∑ b ∈ range nz, F θ (2 * Real.pi * b / (nfp * nz) + 2 * Real.pi * j / (nfp * nz)) =
      ∑ b ∈ range nz, F θ (2 * Real.pi * b / (nfp * nz)) := by
    intro θ
    rw [← sum_shift (n := nz) (f := fun b : ℕ => F θ (2 * Real.pi * b / (nfp * nz))) (fun a => by
      rw [← hF.2 θ (2 * Real.pi * a / (nfp * nz))]
      congr 1
      push_cast
      field_simp) j]
    refine sum_congr rfl fun b _ => ?_
    congr 1
    push_cast
    field_simp
  simp only [e1]
  rw [← sum_shift (n := nt) (f := fun a : ℕ => ∑ b ∈ range nz, F (2 * Real.pi * a / nt) (2 * Real.pi * b / (nfp * nz))) (fun a => by
    refine sum_congr rfl fun b _ => ?_
    rw [← hF.1 (2 * Real.pi * a / nt)]
    congr 1
    push_cast
    field_simp) i]
  refine sum_congr rfl fun a _ => sum_congr rfl fun b _ => ?_
  congr 1
  push_cast
  field_simp

/-- Quadratures of a surface translated by whole grid steps. -/
theorem Translated.quad {nt nz : ℕ} (hp : 1 ≤ nfp) (h1 : 1 ≤ nt) (h2 : 1 ≤ nz) {i j : ℕ}
    (h : Translated (2 * Real.pi * i / nt) (2 * Real.pi * j / (nfp * nz)) S T) (hl : PerF nfp S.lam) (hw : PerF nfp S.w)
    {q q' : ℝ → ℝ → ℝ} (hq : PerF nfp q)
    (hqq : ∀ θ ζ, q' θ ζ = q (θ + 2 * Real.pi * i / nt) (ζ + 2 * Real.pi * j / (nfp * nz))) (m : ℤ) {n : ℤ} (hn : (nfp : ℤ) ∣ n) :
    let φ := m * (2 * Real.pi * i / nt) - n * (2 * Real.pi * j / (nfp * nz))
    T.quadCos nt nz nfp q' m n = Real.cos φ * S.quadCos nt nz nfp q m n + Real.sin φ * S.quadSin nt nz nfp q m n ∧
    T.quadSin nt nz nfp q' m n = Real.cos φ * S.quadSin nt nz nfp q m n - Real.sin φ * S.quadCos nt nz nfp q m n := by
  intro φ
  have pc := gridSum_shift hp h1 h2 (intC_per hp hl hw hq m n hn) i j
  have ps := gridSum_shift hp h1 h2 (intS_per hp hl hw hq m n hn) i j
  constructor
  · rw [quadCos_eq, quadCos_eq, quadSin_eq, ← pc, ← ps,
      show intC T q' m n = fun θ ζ => Real.cos φ * intC S q m n (θ + 2 * Real.pi * i / nt) (ζ + 2 * Real.pi * j / (nfp * nz)) +
        Real.sin φ * intS S q m n (θ + 2 * Real.pi * i / nt) (ζ + 2 * Real.pi * j / (nfp * nz)) from
        funext₂ fun θ ζ => h.cosInt hqq m n θ ζ, gridSum_add nt nz nfp
          (fun θ ζ => Real.cos φ * intC S q m n (θ + 2 * Real.pi * i / nt) (ζ + 2 * Real.pi * j / (nfp * nz))), gridSum_mul, gridSum_mul]
    ring
  · rw [quadSin_eq, quadSin_eq, quadCos_eq, ← pc, ← ps,
      show intS T q' m n = fun θ ζ => Real.cos φ * intS S q m n (θ + 2 * Real.pi * i / nt) (ζ + 2 * Real.pi * j / (nfp * nz)) +
        -Real.sin φ * intC S q m n (θ + 2 * Real.pi * i / nt) (ζ + 2 * Real.pi * j / (nfp * nz)) from
        funext₂ fun θ ζ => (h.sinInt hqq m n θ ζ).trans (by ring), gridSum_add nt nz nfp
          (fun θ ζ => Real.cos φ * intS S q m n (θ + 2 * Real.pi * i / nt) (ζ + 2 * Real.pi * j / (nfp * nz))), gridSum_mul, gridSum_mul]
    ring

/-! ### Inputs -/

theorem series_translate {K : ℕ} {m n : ℕ → ℤ} {c s c' s' : ℕ → ℝ} {θ₀ ζ₀ : ℝ}
    (hc : ∀ k < K, c' k = Real.cos (m k * θ₀ - n k * ζ₀) * c k + Real.sin (m k * θ₀ - n k * ζ₀) * s k)
    (hs : ∀ k < K, s' k = Real.cos (m k * θ₀ - n k * ζ₀) * s k - Real.sin (m k * θ₀ - n k * ζ₀) * c k) (θ ζ : ℝ) :
    series K m n c' s' θ ζ = series K m n c s (θ + θ₀) (ζ + ζ₀) := by
  unfold series
  refine sum_congr rfl fun k hk => ?_
  rw [hc k (mem_range.1 hk), hs k (mem_range.1 hk),
    show (m k : ℝ) * (θ + θ₀) - n k * (ζ + ζ₀) = (m k * θ - n k * ζ) + (m k * θ₀ - n k * ζ₀) by ring, Real.cos_add, Real.sin_add]
  ring

theorem wCos_rot (m n : ℤ) (a b c s c' s' : ℝ) :
    wCos m n (a * s - b * c) (a * s' - b * c') = a * wCos m n s s' + b * wSin m n c c' := by
  unfold wCos wSin
  split
  · ring
  · split
    · ring
    · ring

theorem wSin_rot (m n : ℤ) (a b c s c' s' : ℝ) :
    wSin m n (a * c + b * s) (a * c' + b * s') = a * wSin m n c c' - b * wCos m n s s' := by
  unfold wCos wSin
  split
  · ring
  · split
    · ring
    · ring

theorem translated_surface {I : Inputs ℝ} {d : Dims} (h : RunReady I d) (ho : OriginOnce I) (ha : d.asym = true) (θ₀ ζ₀ : ℝ) {js : ℕ}
    (hj : js < d.ns) : Translated θ₀ ζ₀ (surface I d.asym js) (surface (translate θ₀ ζ₀ I) d.asym js) := by
  have eC : ∀ {φ : ℕ → ℝ} {A B : Mat ℝ} {K : ℕ}, A.Full K d.ns → ∀ k < K,
      entry (rotCos φ A B) k js = Real.cos (φ k) * entry A k js + Real.sin (φ k) * entry B k js := by
    intro φ A B K hA k hk
    exact Mat.val_tab (by rw [hA.1]; exact hk) (by rw [hA.2.1]; exact hj)
  have eS : ∀ {φ : ℕ → ℝ} {A B : Mat ℝ} {K : ℕ}, A.Full K d.ns → ∀ k < K,
      entry (rotSin φ A B) k js = Real.cos (φ k) * entry B k js - Real.sin (φ k) * entry A k js := by
    intro φ A B K hA k hk
    exact Mat.val_tab (by rw [hA.1]; exact hk) (by rw [hA.2.1]; exact hj)
  have hon : ∀ x, onlyIf d.asym x = x := fun x => by rw [ha]; rfl
  have s1 : I.xm.size = d.mnmax := h.xm.1
  have s2 : I.xm_nyq.size = d.mnq := h.xm_nyq.1
  have z : phaseAt I.xm_nyq I.xn_nyq θ₀ ζ₀ 0 = 0 := by
    obtain ⟨z1, z2⟩ := (ho 0 (by rw [s2]; exact h.mnmax_nyq_ge)).2 rfl
    unfold phaseAt
    rw [z1, z2]
    simp
  refine ⟨rfl, ?_, ?_, fun θ ζ => ?_, fun θ ζ => ?_, fun θ ζ => ?_, fun θ ζ => ?_, fun θ ζ => ?_⟩
  · show entry (rotCos _ I.bsubumnc I.bsubumns) 0 js = entry I.bsubumnc 0 js
    rw [eC h.bsubumnc 0 h.mnmax_nyq_ge, z, Real.cos_zero, Real.sin_zero]
    ring
  · show entry (rotCos _ I.bsubvmnc I.bsubvmns) 0 js = entry I.bsubvmnc 0 js
    rw [eC h.bsubvmnc 0 h.mnmax_nyq_ge, z, Real.cos_zero, Real.sin_zero]
    ring
  · refine series_translate (fun k hk => ?_) (fun k hk => ?_) θ ζ
    · rw [hon, hon]; exact eC (h.lmnc ha) k (s1 ▸ hk)
    · rw [hon]; exact eS (h.lmnc ha) k (s1 ▸ hk)
  · refine series_translate (fun k hk => ?_) (fun k hk => ?_) θ ζ
    · rw [hon, hon]
      refine Eq.trans (congrArg₂ (wCos _ _) (eS h.bsubumnc k (s2 ▸ hk)) (eS h.bsubvmnc k (s2 ▸ hk))) ?_
      exact wCos_rot _ _ _ _ _ _ _ _
    · rw [hon]
      refine Eq.trans (congrArg₂ (wSin _ _) (eC h.bsubumnc k (s2 ▸ hk)) (eC h.bsubvmnc k (s2 ▸ hk))) ?_
      exact wSin_rot _ _ _ _ _ _ _ _
  · refine series_translate (fun k hk => ?_) (fun k hk => ?_) θ ζ
    · rw [hon]; exact eC h.rmnc k (s1 ▸ hk)
    · rw [hon, hon]; exact eS h.rmnc k (s1 ▸ hk)
  · refine series_translate (fun k hk => ?_) (fun k hk => ?_) θ ζ
    · rw [hon, hon]; exact eC (h.zmnc ha) k (s1 ▸ hk)
    · rw [hon]; exact eS (h.zmnc ha) k (s1 ▸ hk)
  · refine series_translate (fun k hk => ?_) (fun k hk => ?_) θ ζ
    · rw [hon]; exact eC h.bmnc k (s2 ▸ hk)
    · rw [hon, hon]; exact eS h.bmnc k (s2 ▸ hk)

theorem full_mat_tab (r c : ℕ) (f : ℕ → ℕ → ℝ) : (Mat.tab r c f).Full r c := ⟨rfl, rfl, Vec.full_tab _ _⟩

theorem RunReady.translate {I : Inputs ℝ} {d : Dims} (h : RunReady I d) (ha : d.asym = true) (θ₀ ζ₀ : ℝ) :
    RunReady (translate θ₀ ζ₀ I) d := by
  have f1 : ∀ {φ : ℕ → ℝ} {A B : Mat ℝ} {K : ℕ}, A.Full K d.ns → (rotCos φ A B).Full K d.ns := by
    intro φ A B K hA
    have := full_mat_tab A.rows A.cols fun k j => Real.cos (φ k) * entry A k j + Real.sin (φ k) * entry B k j
    rw [hA.1, hA.2.1] at this
    unfold rotCos
    rwa [hA.1, hA.2.1]
  have f2 : ∀ {φ : ℕ → ℝ} {A B : Mat ℝ} {K : ℕ}, A.Full K d.ns → (rotSin φ A B).Full K d.ns := by
    intro φ A B K hA
    have := full_mat_tab A.rows A.cols fun k j => Real.cos (φ k) * entry B k j - Real.sin (φ k) * entry A k j
    rw [hA.1, hA.2.1] at this
    unfold rotSin
    rwa [hA.1, hA.2.1]
  exact { h with
    rmnc := f1 h.rmnc, rmns := fun _ => f2 h.rmnc
    zmnc := fun _ => f1 (h.zmnc ha), zmns := f2 (h.zmnc ha)
    lmnc := fun _ => f1 (h.lmnc ha), lmns := f2 (h.lmnc ha)
    bmnc := f1 h.bmnc, bmns := fun _ => f2 h.bmnc
    bsubumnc := f1 h.bsubumnc, bsubumns := fun _ => f2 h.bsubumnc
    bsubvmnc := f1 h.bsubvmnc, bsubvmns := fun _ => f2 h.bsubvmnc }

end Booz

namespace Booz
open Spec Trapezoid Finset Function

variable {S T : Surface} {nfp : ℕ} {θ₀ ζ₀ : ℝ}

/-! ### Integrals -/

/-- The integrals of the theory section for a translated surface. -/
theorem Translated.integral (h : Translated θ₀ ζ₀ S T) (hp : 1 ≤ nfp) (hs : SmoothSurface S) (hl : PerF nfp S.lam)
    (hw : PerF nfp S.w) {q q' : ℝ → ℝ → ℝ} (hq : PerF nfp q) (sq : Smooth (uncurry q))
    (hqq : ∀ θ ζ, q' θ ζ = q (θ + θ₀) (ζ + ζ₀)) (m : ℤ) {n : ℤ} (hn : (nfp : ℤ) ∣ n) :
    T.integralCos q' m n = Real.cos (m * θ₀ - n * ζ₀) * S.integralCos q m n + Real.sin (m * θ₀ - n * ζ₀) * S.integralSin q m n ∧
    T.integralSin q' m n = Real.cos (m * θ₀ - n * ζ₀) * S.integralSin q m n - Real.sin (m * θ₀ - n * ζ₀) * S.integralCos q m n := by
  have iC : ∀ (S : Surface) (q : ℝ → ℝ → ℝ), S.integralCos q m n =
      (if m = 0 ∧ n = 0 then 1 else 2) * mean2 τ τ (uncurry (intC S q m n)) := fun S q => by
    rw [mean2_tau, Surface.integralCos, div_eq_mul_one_div, mul_assoc]
    rfl
  have iS : ∀ (S : Surface) (q : ℝ → ℝ → ℝ), S.integralSin q m n =
      (if m = 0 ∧ n = 0 then 1 else 2) * mean2 τ τ (uncurry (intS S q m n)) := fun S q => by
    rw [mean2_tau, Surface.integralSin, div_eq_mul_one_div, mul_assoc]
    rfl
  have c1 := (hs.intC sq m n).continuous
  have c2 := (hs.intS sq m n).continuous
  have p1 := (intC_per hp hl hw hq m n hn).torus hp
  have p2 := (intS_per hp hl hw hq m n hn).torus hp
  set φ := m * θ₀ - n * ζ₀ with hφ
  constructor
  · have e : uncurry (intC T q' m n) = fun x => (fun y => Real.cos φ * uncurry (intC S q m n) y +
        Real.sin φ * uncurry (intS S q m n) y) (x + (θ₀, ζ₀)) := funext fun x => h.cosInt hqq m n x.1 x.2
    rw [iC, iC, iS, e, mean2_shift (F := fun y => Real.cos φ * uncurry (intC S q m n) y + Real.sin φ * uncurry (intS S q m n) y)
      ((c1.const_mul _).add (c2.const_mul _)), mean_lin2 _ _ c1 c2]
    · ring
    exact ⟨fun x => congrArg₂ (fun a b => Real.cos φ * a + Real.sin φ * b) (p1.1 x) (p2.1 x),
      fun x => congrArg₂ (fun a b => Real.cos φ * a + Real.sin φ * b) (p1.2 x) (p2.2 x)⟩
  · have e : uncurry (intS T q' m n) = fun x => (fun y => Real.cos φ * uncurry (intS S q m n) y +
        -Real.sin φ * uncurry (intC S q m n) y) (x + (θ₀, ζ₀)) := funext fun x => (h.sinInt hqq m n x.1 x.2).trans (by
          show _ = Real.cos φ * intS S q m n (x.1 + θ₀) (x.2 + ζ₀) + -Real.sin φ * intC S q m n (x.1 + θ₀) (x.2 + ζ₀)
          rw [hφ]
          ring)
    rw [iS, iC, iS, e, mean2_shift (F := fun y => Real.cos φ * uncurry (intS S q m n) y + -Real.sin φ * uncurry (intC S q m n) y)
      ((c2.const_mul _).add (c1.const_mul _)), mean_lin2 _ _ c2 c1]
    · ring
    exact ⟨fun x => congrArg₂ (fun a b => Real.cos φ * a + -Real.sin φ * b) (p2.1 x) (p1.1 x),
      fun x => congrArg₂ (fun a b => Real.cos φ * a + -Real.sin φ * b) (p2.2 x) (p1.2 x)⟩

/-- The quantities transformed, their translates, and what is used about them. -/
theorem quantities_translated {I : Inputs ℝ} {d : Dims} (h : RunReady I d) (hp : FieldPeriodic I d.nfp) (ho : OriginOnce I)
    (ha : d.asym = true) (θ₀ ζ₀ : ℝ) {js : ℕ} (hj : js < d.ns) (hreg : (surface I d.asym js).Regular) :
    let S := surface I d.asym js
    let T := surface (translate θ₀ ζ₀ I) d.asym js
    ∀ P : (ℝ → ℝ → ℝ) → (ℝ → ℝ → ℝ) → Prop,
      (∀ q q', PerF d.nfp q → Smooth (uncurry q) → (∀ θ ζ, q' θ ζ = q (θ + θ₀) (ζ + ζ₀)) → P q q') →
      P S.B T.B ∧ P S.R T.R ∧ P S.Z T.Z ∧ P S.nu T.nu ∧ P S.jacobian T.jacobian := by
  intro S T P H
  obtain ⟨pl, pw, pR, pZ, pB⟩ := surf_per h hp d.asym js
  have hs := smooth_surface I d.asym js
  have tr := translated_surface h ho ha θ₀ ζ₀ hj
  exact ⟨H _ _ pB hs.B tr.B, H _ _ pR hs.R tr.R, H _ _ pZ hs.Z tr.Z, H _ _ (nu_per pl pw) hs.nu tr.nu,
    H _ _ (jac_per pB) (hs.jacobian hreg.2) tr.jacobian⟩

theorem Translated.regular (h : Translated θ₀ ζ₀ S T) (hr : S.Regular) : T.Regular :=
  ⟨by rw [h.G, h.iota, h.I]; exact hr.1, fun θ ζ => by rw [h.B]; exact hr.2 _ _⟩

theorem OriginOnce.translate {I : Inputs ℝ} (ho : OriginOnce I) : OriginOnce (translate θ₀ ζ₀ I) := ho

/-- **C77.** Moving the origin of the input angles by whole steps of the computational grid rotates the cosine and sine
harmonics of every quantity and mode by the phase of the mode at the new origin: exactly, at every resolution. Boozer I
and G are unchanged. -/
theorem C77_grid_steps {s : St ℝ} {d : Dims} {dbg : Bool} (h : RunReady s.inp d) (hp : FieldPeriodic s.inp d.nfp)
    (ho : OriginOnce s.inp) (hreg : ∀ b < d.nsb, (surface s.inp d.asym (selected s.inp b)).Regular) (ha : d.asym = true)
    (i j : ℕ) :
    let θ₀ := 2 * Real.pi * i / ntheta d.M
    let ζ₀ := 2 * Real.pi * j / (d.nfp * nzeta d.N)
    ∃ s₁ r₁ s₂ r₂, run dbg s = .ok (s₁, r₁) ∧ run dbg (translateSt θ₀ ζ₀ s) = .ok (s₂, r₂) ∧
      ∀ b < d.nsb, s₂.out.boozer_I.rdN b = s₁.out.boozer_I.rdN b ∧ s₂.out.boozer_G.rdN b = s₁.out.boozer_G.rdN b ∧
      ∀ k < numModes d.M d.N, ∃ m n, s₁.out.xm_b.rdN k = .ok m ∧ s₁.out.xn_b.rdN k = .ok n ∧
        s₂.out.xm_b.rdN k = .ok m ∧ s₂.out.xn_b.rdN k = .ok n ∧ RotatedOutputs (m * θ₀ - n * ζ₀) k b s₁.out s₂.out 0 := by
  intro θ₀ ζ₀
  have h' : RunReady (translateSt θ₀ ζ₀ s).inp d := h.translate ha θ₀ ζ₀
  refine ⟨_, _, _, _, originFirst_of h ho dbg, originFirst_of (s := translateSt θ₀ ζ₀ s) h' ho dbg,
    fun b hb => ⟨?_, ?_, fun k hk => ?_⟩⟩
  · obtain ⟨-, -, -, -, -, a2⟩ := C15_flux_functions h ho (originFirst_of h ho false)
    obtain ⟨-, -, -, -, -, b2⟩ := C15_flux_functions (s := translateSt θ₀ ζ₀ s) h' ho
      (originFirst_of (s := translateSt θ₀ ζ₀ s) h' ho false)
    have e := (translated_surface h ho ha θ₀ ζ₀ (sel_lt h hb)).I
    have hq : 0 < d.mnq := h.mnmax_nyq_ge
    have r1 := h.bsubumnc.rdN 0 hq (sel_lt h hb)
    have r2 := h'.bsubumnc.rdN 0 hq (sel_lt h hb)
    rw [(b2 b hb).1, (a2 b hb).1]
    exact r2.trans ((congrArg Except.ok e).trans r1.symm)
  · obtain ⟨-, -, -, -, -, a2⟩ := C15_flux_functions h ho (originFirst_of h ho false)
    obtain ⟨-, -, -, -, -, b2⟩ := C15_flux_functions (s := translateSt θ₀ ζ₀ s) h' ho
      (originFirst_of (s := translateSt θ₀ ζ₀ s) h' ho false)
    have e := (translated_surface h ho ha θ₀ ζ₀ (sel_lt h hb)).G
    have hq : 0 < d.mnq := h.mnmax_nyq_ge
    have r1 := h.bsubvmnc.rdN 0 hq (sel_lt h hb)
    have r2 := h'.bsubvmnc.rdN 0 hq (sel_lt h hb)
    rw [(b2 b hb).2, (a2 b hb).2]
    exact r2.trans ((congrArg Except.ok e).trans r1.symm)
  have g₁ := spectrum_at h hp ho hb hk
  have g₂ := spectrum_at (s := translateSt θ₀ ζ₀ s) h' hp ho hb hk
  obtain ⟨a1, a2, a3, a4, a5, a6⟩ := g₁
  obtain ⟨b1, b2, b3, b4, b5, b6⟩ := g₂
  obtain ⟨a6, a7, a8, a9, a10⟩ := a6 ha
  obtain ⟨b6, b7, b8, b9, b10⟩ := b6 ha
  refine ⟨(modeM d.N k : ℤ), modeN d.N k * d.nfp, Vec.rdN_tab hk, Vec.rdN_tab hk, Vec.rdN_tab hk, Vec.rdN_tab hk, ?_⟩
  obtain ⟨pl, pw, -⟩ := surf_per h hp d.asym (selected s.inp b)
  have tr := translated_surface h ho ha θ₀ ζ₀ (sel_lt h hb)
  obtain ⟨Q1, Q2, Q3, Q4, Q5⟩ := quantities_translated h hp ho ha θ₀ ζ₀ (sel_lt h hb) (hreg b hb) (fun q q' =>
      ∀ m : ℤ, ∀ n : ℤ, (d.nfp : ℤ) ∣ n →
      let S := surface s.inp d.asym (selected s.inp b)
      let T := surface (translate θ₀ ζ₀ s.inp) d.asym (selected s.inp b)
      let φ := m * θ₀ - n * ζ₀
      T.quadCos (ntheta d.M) (nzeta d.N) d.nfp q' m n = Real.cos φ * S.quadCos (ntheta d.M) (nzeta d.N) d.nfp q m n +
        Real.sin φ * S.quadSin (ntheta d.M) (nzeta d.N) d.nfp q m n ∧
      T.quadSin (ntheta d.M) (nzeta d.N) d.nfp q' m n = Real.cos φ * S.quadSin (ntheta d.M) (nzeta d.N) d.nfp q m n -
        Real.sin φ * S.quadCos (ntheta d.M) (nzeta d.N) d.nfp q m n)
    (fun q q' pq _ hqq m n hn => tr.quad h.nfp_pos (ntheta_pos _) (nzeta_pos _) pl pw pq hqq m hn)
  have dv := dvd_mul_left (d.nfp : ℤ) (modeN d.N k)
  have fin : ∀ {x y : ℝ}, x = y → |x - y| ≤ 0 := fun e => by rw [e, sub_self, abs_zero]
  exact ⟨⟨_, _, _, _, a1, a6, b1, b6, fin (Q1 _ _ dv).1, fin (Q1 _ _ dv).2⟩,
    ⟨_, _, _, _, a2, a7, b2, b7, fin (Q2 _ _ dv).1, fin (Q2 _ _ dv).2⟩,
    ⟨_, _, _, _, a8, a3, b8, b3, fin (Q3 _ _ dv).1, fin (Q3 _ _ dv).2⟩,
    ⟨_, _, _, _, a9, a4, b9, b4, fin (Q4 _ _ dv).1, fin (Q4 _ _ dv).2⟩,
    ⟨_, _, _, _, a5, a10, b5, b10, fin (Q5 _ _ dv).1, fin (Q5 _ _ dv).2⟩⟩

end Booz

namespace Booz
open Spec Trapezoid Finset Function

/-- From two approximations to a rotation. -/
theorem rotatedAt_of {c s c' s' : Mat ℝ} {k b : ℕ} {φ x y x' y' e : ℝ} (h1 : Near c k b x e) (h2 : Near s k b y e)
    (h3 : Near c' k b x' e) (h4 : Near s' k b y' e) (e1 : x' = Real.cos φ * x + Real.sin φ * y)
    (e2 : y' = Real.cos φ * y - Real.sin φ * x) : RotatedAt φ k b c s c' s' (3 * e) := by
  obtain ⟨X, a1, b1⟩ := h1
  obtain ⟨Y, a2, b2⟩ := h2
  obtain ⟨X', a3, b3⟩ := h3
  obtain ⟨Y', a4, b4⟩ := h4
  have hb : ∀ {u v : ℝ}, |u| ≤ 1 → |v| ≤ e → |u * v| ≤ e := fun hu hv => by
    rw [abs_mul]
    exact (mul_le_of_le_one_left (abs_nonneg _) hu).trans hv
  have c1 := hb (Real.abs_cos_le_one φ) b1
  have c2 := hb (Real.abs_cos_le_one φ) b2
  have c3 := hb (Real.abs_sin_le_one φ) b1
  have c4 := hb (Real.abs_sin_le_one φ) b2
  refine ⟨X, Y, X', Y', a1, a2, a3, a4, ?_, ?_⟩
  · rw [show X' - (Real.cos φ * X + Real.sin φ * Y) = (X' - x') - Real.cos φ * (X - x) - Real.sin φ * (Y - y) by rw [e1]; ring]
    refine (abs_sub _ _).trans ?_
    have := abs_sub (X' - x') (Real.cos φ * (X - x))
    linarith
  · rw [show Y' - (Real.cos φ * Y - Real.sin φ * X) = (Y' - y') - Real.cos φ * (Y - y) + Real.sin φ * (X - x) by rw [e2]; ring]
    refine (abs_add_le _ _).trans ?_
    have := abs_sub (Y' - y') (Real.cos φ * (Y - y))
    linarith

/-- **C77, arbitrary translations.** For fixed input data, a fixed new origin (θ₀, ζ₀), a fixed mode and every order `p`
there is one constant `C` such that at every resolution the harmonics of the translated equilibrium are the rotated
harmonics of the original one up to `C (1/ntheta^p + 1/nzeta^p)`; the first part is for grids of any size. -/
theorem C77_translation {s : St ℝ} {d : Dims} (h : RunReady s.inp d) (hp : FieldPeriodic s.inp d.nfp)
    (ho : OriginOnce s.inp) (hreg : ∀ b < d.nsb, (surface s.inp d.asym (selected s.inp b)).Regular) (ha : d.asym = true)
    (θ₀ ζ₀ : ℝ) (m n : ℤ) {p : ℕ} (hp1 : 1 ≤ p) :
    let φ := m * θ₀ - n * ζ₀
    ∃ C, (∀ b < d.nsb, (d.nfp : ℤ) ∣ n →
      let S := surface s.inp d.asym (selected s.inp b)
      let T := surface (translate θ₀ ζ₀ s.inp) d.asym (selected s.inp b)
      ∀ (i : ℕ) (q q' : ℝ → ℝ → ℝ), S.quantities[i]? = some q → T.quantities[i]? = some q' → ∀ nt nz : ℕ, 1 ≤ nt → 1 ≤ nz →
      |T.quadCos nt nz d.nfp q' m n - (Real.cos φ * S.quadCos nt nz d.nfp q m n + Real.sin φ * S.quadSin nt nz d.nfp q m n)| ≤
        C * ((1 / (nt : ℝ)) ^ p + (1 / (nz : ℝ)) ^ p) ∧
      |T.quadSin nt nz d.nfp q' m n - (Real.cos φ * S.quadSin nt nz d.nfp q m n - Real.sin φ * S.quadCos nt nz d.nfp q m n)| ≤
        C * ((1 / (nt : ℝ)) ^ p + (1 / (nz : ℝ)) ^ p)) ∧
    ∀ (M N : ℕ) (s1 : St ℝ) (dbg : Bool), s1.inp = { s.inp with mboz := M, nboz := N } →
      RunReady s1.inp { d with M := M, N := N } →
      ∃ s₁ r₁ s₂ r₂, run dbg s1 = .ok (s₁, r₁) ∧ run dbg (translateSt θ₀ ζ₀ s1) = .ok (s₂, r₂) ∧
        ∀ b < d.nsb, ∀ k < numModes M N, s₁.out.xm_b.rdN k = .ok m → s₁.out.xn_b.rdN k = .ok n →
          RotatedOutputs φ k b s₁.out s₂.out (C * gridError M N p) := by
  intro φ
  have h' : RunReady (translateSt θ₀ ζ₀ s).inp d := h.translate ha θ₀ ζ₀
  have hreg' : ∀ b < d.nsb, (surface (translateSt θ₀ ζ₀ s).inp d.asym (selected (translateSt θ₀ ζ₀ s).inp b)).Regular :=
    fun b hb => (translated_surface h ho ha θ₀ ζ₀ (sel_lt h hb)).regular (hreg b hb)
  obtain ⟨C1, h1, g1⟩ := C52_convergence h hp ho hreg m n hp1
  obtain ⟨C2, h2, g2⟩ := C52_convergence (s := translateSt θ₀ ζ₀ s) h' hp ho hreg' m n hp1
  have I : ∀ b < d.nsb, (d.nfp : ℤ) ∣ n →
      let S := surface s.inp d.asym (selected s.inp b)
      let T := surface (translate θ₀ ζ₀ s.inp) d.asym (selected s.inp b)
      ∀ P : (ℝ → ℝ → ℝ) → (ℝ → ℝ → ℝ) → Prop,
      (∀ q q', T.integralCos q' m n = Real.cos φ * S.integralCos q m n + Real.sin φ * S.integralSin q m n ∧
        T.integralSin q' m n = Real.cos φ * S.integralSin q m n - Real.sin φ * S.integralCos q m n → P q q') →
      P S.B T.B ∧ P S.R T.R ∧ P S.Z T.Z ∧ P S.nu T.nu ∧ P S.jacobian T.jacobian := by
    intro b hb hn S T P H
    obtain ⟨pl, pw, -⟩ := surf_per h hp d.asym (selected s.inp b)
    have tr := translated_surface h ho ha θ₀ ζ₀ (sel_lt h hb)
    exact quantities_translated h hp ho ha θ₀ ζ₀ (sel_lt h hb) (hreg b hb) P fun q q' pq sq hqq =>
      H q q' (tr.integral h.nfp_pos (smooth_surface _ _ _) pl pw pq sq hqq m hn)
  set C := max C1 C2 with hC
  have up1 : ∀ {e : ℝ}, 0 ≤ e → C1 * e ≤ C * e := fun he => mul_le_mul_of_nonneg_right (le_max_left _ _) he
  have up2 : ∀ {e : ℝ}, 0 ≤ e → C2 * e ≤ C * e := fun he => mul_le_mul_of_nonneg_right (le_max_right _ _) he
  refine ⟨3 * C, fun b hb hn => ?_, fun M N s1 dbg e hr => ?_⟩
  · intro S T
    have key : ∀ q q', q ∈ S.quantities → q' ∈ T.quantities →
        T.integralCos q' m n = Real.cos φ * S.integralCos q m n + Real.sin φ * S.integralSin q m n ∧
        T.integralSin q' m n = Real.cos φ * S.integralSin q m n - Real.sin φ * S.integralCos q m n →
        ∀ nt nz : ℕ, 1 ≤ nt → 1 ≤ nz →
        |T.quadCos nt nz d.nfp q' m n - (Real.cos φ * S.quadCos nt nz d.nfp q m n + Real.sin φ * S.quadSin nt nz d.nfp q m n)| ≤
          3 * C * ((1 / (nt : ℝ)) ^ p + (1 / (nz : ℝ)) ^ p) ∧
        |T.quadSin nt nz d.nfp q' m n - (Real.cos φ * S.quadSin nt nz d.nfp q m n - Real.sin φ * S.quadCos nt nz d.nfp q m n)| ≤
          3 * C * ((1 / (nt : ℝ)) ^ p + (1 / (nz : ℝ)) ^ p) := by
      intro q q' hq hq' ⟨e1, e2⟩ nt nz hnt hnz
      have he : (0 : ℝ) ≤ (1 / (nt : ℝ)) ^ p + (1 / (nz : ℝ)) ^ p := by positivity
      obtain ⟨a1, a2⟩ := h1 b hb hn q hq nt nz hnt hnz
      obtain ⟨b1, b2⟩ := h2 b hb hn q' hq' nt nz hnt hnz
      have nr : ∀ {x y E : ℝ}, |x - y| ≤ E → Near (Mat.tab 1 1 fun _ _ => x) 0 0 y E := fun hx =>
        ⟨_, Mat.rdN_tab Nat.one_pos Nat.one_pos, hx⟩
      obtain ⟨x, y, x', y', r1, r2, r3, r4, r5, r6⟩ := rotatedAt_of (nr (a1.trans (up1 he))) (nr (a2.trans (up1 he)))
        (nr (b1.trans (up2 he))) (nr (b2.trans (up2 he))) e1 e2
      rw [Mat.rdN_tab Nat.one_pos Nat.one_pos] at r1 r2 r3 r4
      injection r1 with r1
      injection r2 with r2
      injection r3 with r3
      injection r4 with r4
      subst r1 r2 r3 r4
      rw [mul_assoc]
      exact ⟨r5, r6⟩
    obtain ⟨Q1, Q2, Q3, Q4, Q5⟩ := I b hb hn _ fun q q' hqq => hqq
    intro i q q' hi hi'
    refine key q q' (List.mem_of_getElem? hi) (List.mem_of_getElem? hi') ?_
    match i, hi, hi' with
    | 0, hi, hi' => injection hi with hi; injection hi' with hi'; rw [← hi, ← hi']; exact Q1
    | 1, hi, hi' => injection hi with hi; injection hi' with hi'; rw [← hi, ← hi']; exact Q2
    | 2, hi, hi' => injection hi with hi; injection hi' with hi'; rw [← hi, ← hi']; exact Q3
    | 3, hi, hi' => injection hi with hi; injection hi' with hi'; rw [← hi, ← hi']; exact Q4
    | 4, hi, hi' => injection hi with hi; injection hi' with hi'; rw [← hi, ← hi']; exact Q5
  · obtain ⟨s₁, r₁, ok₁, H₁⟩ := g1 M N s1 dbg e hr
    have e2 : (translateSt θ₀ ζ₀ s1).inp = { (translateSt θ₀ ζ₀ s).inp with mboz := M, nboz := N } := by
      show translate θ₀ ζ₀ s1.inp = _
      rw [e]
      rfl
    have hr2 : RunReady (translateSt θ₀ ζ₀ s1).inp { d with M := M, N := N } := hr.translate ha θ₀ ζ₀
    obtain ⟨s₂, r₂, ok₂, H₂⟩ := g2 M N (translateSt θ₀ ζ₀ s1) dbg e2 hr2
    refine ⟨s₁, r₁, s₂, r₂, ok₁, ok₂, fun b hb k hk hm hn => ?_⟩
    have ho1 : OriginOnce s1.inp := by rw [e]; exact ho
    have x1 := originFirst_of hr ho1 dbg
    have x2 := originFirst_of (s := translateSt θ₀ ζ₀ s1) hr2 ho1 dbg
    have y1 : s₁ = runSt { d with M := M, N := N } s1 d.nsb := by
      rw [ok₁] at x1
      injection x1 with x1
      exact (Prod.ext_iff.1 x1).1
    have y2 : s₂ = runSt { d with M := M, N := N } (translateSt θ₀ ζ₀ s1) d.nsb := by
      rw [ok₂] at x2
      injection x2 with x2
      exact (Prod.ext_iff.1 x2).1
    have m1 : s₁.out.xm_b.rdN k = .ok (modeM N k : ℤ) := by rw [y1]; exact Vec.rdN_tab hk
    have n1 : s₁.out.xn_b.rdN k = .ok (modeN N k * d.nfp) := by rw [y1]; exact Vec.rdN_tab hk
    have m2 : s₂.out.xm_b.rdN k = .ok (modeM N k : ℤ) := by rw [y2]; exact Vec.rdN_tab hk
    have n2 : s₂.out.xn_b.rdN k = .ok (modeN N k * d.nfp) := by rw [y2]; exact Vec.rdN_tab hk
    have em : m = (modeM N k : ℤ) := by
      rw [hm] at m1
      injection m1
    have en : n = modeN N k * d.nfp := by
      rw [hn] at n1
      injection n1
    have a := H₁ b hb k hk hm hn
    have c := H₂ b hb k hk (by rw [m2, em]) (by rw [n2, en])
    have he : (0 : ℝ) ≤ gridError M N p := by unfold gridError; positivity
    have nr1 : ∀ {A : Mat ℝ} {y : ℝ}, Near A k b y (C1 * gridError M N p) → Near A k b y (C * gridError M N p) :=
      fun ⟨x, r, hx⟩ => ⟨x, r, hx.trans (up1 he)⟩
    have nr2 : ∀ {A : Mat ℝ} {y : ℝ}, Near A k b y (C2 * gridError M N p) → Near A k b y (C * gridError M N p) :=
      fun ⟨x, r, hx⟩ => ⟨x, r, hx.trans (up2 he)⟩
    obtain ⟨Q1, Q2, Q3, Q4, Q5⟩ := I b hb (by rw [en]; exact dvd_mul_left _ _) _ fun q q' hqq => hqq
    rw [mul_assoc]
    exact ⟨rotatedAt_of (nr1 a.bmnc) (nr1 (a.bmns ha)) (nr2 c.bmnc) (nr2 (c.bmns ha)) Q1.1 Q1.2,
      rotatedAt_of (nr1 a.rmnc) (nr1 (a.rmns ha)) (nr2 c.rmnc) (nr2 (c.rmns ha)) Q2.1 Q2.2,
      rotatedAt_of (nr1 (a.zmnc ha)) (nr1 a.zmns) (nr2 (c.zmnc ha)) (nr2 c.zmns) Q3.1 Q3.2,
      rotatedAt_of (nr1 (a.numnc ha)) (nr1 a.numns) (nr2 (c.numnc ha)) (nr2 c.numns) Q4.1 Q4.2,
      rotatedAt_of (nr1 a.gmnc) (nr1 (a.gmns ha)) (nr2 c.gmnc) (nr2 (c.gmns ha)) Q5.1 Q5.2⟩

end Booz

/-! ### C78 -/

namespace Booz
open Spec Trapezoid Finset Function

variable {S : Surface} {nfp : ℕ}

theorem AxiSurface.translated (h : AxiSurface S) (ζ₀ : ℝ) : Translated 0 ζ₀ S S :=
  ⟨rfl, rfl, rfl, fun θ ζ => by rw [add_zero, h.lam θ ζ, h.lam θ (ζ + ζ₀)], fun θ ζ => by rw [add_zero, h.w θ ζ, h.w θ (ζ + ζ₀)],
    fun θ ζ => by rw [add_zero, h.R θ ζ, h.R θ (ζ + ζ₀)], fun θ ζ => by rw [add_zero, h.Z θ ζ, h.Z θ (ζ + ζ₀)],
    fun θ ζ => by rw [add_zero, h.B θ ζ, h.B θ (ζ + ζ₀)]⟩

/-- Quadratures of an axisymmetric surface for n not a multiple of the number of toroidal grid points. -/
theorem AxiSurface.quad_zero (h : AxiSurface S) {nt nz : ℕ} (hp : 1 ≤ nfp) (h1 : 1 ≤ nt) (h2 : 1 ≤ nz) (hl : PerF nfp S.lam)
    (hw : PerF nfp S.w) {q : ℝ → ℝ → ℝ} (hq : PerF nfp q) (hqa : ∀ θ ζ, q θ ζ = q θ 0) (m : ℤ) {n : ℤ} (hn : ¬ (nz : ℤ) ∣ n) :
    S.quadCos nt nz nfp q m (n * nfp) = 0 ∧ S.quadSin nt nz nfp q m (n * nfp) = 0 := by
  have hp' : (nfp : ℝ) ≠ 0 := by positivity
  have hz' : (nz : ℝ) ≠ 0 := by positivity
  have tr : Translated (2 * Real.pi * (0 : ℕ) / nt) (2 * Real.pi * (1 : ℕ) / (nfp * nz)) S S := by
    have := h.translated (2 * Real.pi * (1 : ℕ) / (nfp * nz))
    rwa [show (0 : ℝ) = 2 * Real.pi * (0 : ℕ) / nt by simp] at this
  obtain ⟨e1, e2⟩ := tr.quad hp h1 h2 hl hw hq (q' := q) (fun θ ζ => by rw [hqa θ ζ, hqa _ (ζ + _)]; simp) m
    (dvd_mul_left (nfp : ℤ) n)
  set φ := (m : ℝ) * (2 * Real.pi * (0 : ℕ) / nt) - ((n * nfp : ℤ) : ℝ) * (2 * Real.pi * (1 : ℕ) / (nfp * nz)) with hφ
  have hc : Real.cos φ ≠ 1 := by
    intro hc
    obtain ⟨j, hj⟩ := (Real.cos_eq_one_iff _).1 hc
    refine hn ⟨-j, ?_⟩
    have : (n : ℝ) = nz * -j := by
      have hpi : (2 * Real.pi) ≠ 0 := by positivity
      have e : φ = -(n * (2 * Real.pi) / nz) := by
        rw [hφ]
        push_cast
        field_simp
        ring
      have e' : n * (2 * Real.pi) / nz = -(j * (2 * Real.pi)) := by linarith
      rw [div_eq_iff hz'] at e'
      apply mul_right_cancel₀ hpi
      linear_combination e'
    exact_mod_cast this
  have hlt : Real.cos φ < 1 := lt_of_le_of_ne (Real.cos_le_one φ) hc
  have sq := Real.sin_sq_add_cos_sq φ
  set x := S.quadCos nt nz nfp q m (n * nfp)
  set y := S.quadSin nt nz nfp q m (n * nfp)
  have : (1 - Real.cos φ) * (x ^ 2 + y ^ 2) = 0 := by linear_combination x * e1 + y * e2
  have h0 : x ^ 2 + y ^ 2 = 0 := by
    rcases mul_eq_zero.1 this with h | h
    · linarith
    · exact h
  exact ⟨by nlinarith [sq_nonneg x, sq_nonneg y], by nlinarith [sq_nonneg x, sq_nonneg y]⟩

/-- The functions transformed do not depend on ζ. -/
theorem AxiSurface.quantities (h : AxiSurface S) (P : (ℝ → ℝ → ℝ) → Prop) (H : ∀ q, (∀ θ ζ, q θ ζ = q θ 0) → PerF nfp q → P q)
    (hl : PerF nfp S.lam) (hw : PerF nfp S.w) (hR : PerF nfp S.R) (hZ : PerF nfp S.Z) (hB : PerF nfp S.B) :
    P S.B ∧ P S.R ∧ P S.Z ∧ P S.nu ∧ P S.jacobian :=
  ⟨H _ h.B hB, H _ h.R hR, H _ h.Z hZ, H _ h.nu (nu_per hl hw), H _ h.jacobian (jac_per hB)⟩

/-- **C78.** The harmonics with n ≠ 0 of an axisymmetric equilibrium are exactly zero, at every resolution. -/
theorem C78_axisymmetric {s : St ℝ} {d : Dims} {dbg : Bool} (h : RunReady s.inp d) (hp : FieldPeriodic s.inp d.nfp)
    (ho : OriginOnce s.inp) (_hreg : ∀ b < d.nsb, (surface s.inp d.asym (selected s.inp b)).Regular) (ha : Axisymmetric s.inp) :
    ∃ s' r, run dbg s = .ok (s', r) ∧ ∀ b < d.nsb, ∀ k < numModes d.M d.N, ∀ n, s'.out.xn_b.rdN k = .ok n → n ≠ 0 →
      ∀ A ∈ amplitudes s'.out d.asym, A.rdN k b = .ok 0 := by
  refine ⟨_, _, originFirst_of h ho dbg, fun b hb k hk n hn hn0 => ?_⟩
  have hn' : (runSt d s d.nsb).out.xn_b.rdN k = .ok (modeN d.N k * d.nfp) := Vec.rdN_tab hk
  rw [hn] at hn'
  have e : n = modeN d.N k * d.nfp := by injection hn'
  have ne : modeN d.N k ≠ 0 := fun h0 => hn0 (by rw [e, h0, zero_mul])
  have nd : ¬ (nzeta d.N : ℤ) ∣ modeN d.N k := by
    intro hd
    have h1 := Nat.le_of_dvd (Int.natAbs_pos.2 ne) (Int.natAbs_dvd_natAbs.2 hd)
    rw [Int.natAbs_natCast] at h1
    have h2 := modeN_natAbs_le d.N k
    have h3 : 0 < (modeN d.N k).natAbs := Int.natAbs_pos.2 ne
    unfold nzeta at h1
    split at h1 <;> omega
  obtain ⟨pl, pw, pR, pZ, pB⟩ := surf_per h hp d.asym (selected s.inp b)
  have hx := axi_surface h ha d.asym (selected s.inp b)
  obtain ⟨q1, q2, q3, q4, q5⟩ := hx.quantities _
    (fun q hqa hq => hx.quad_zero h.nfp_pos (ntheta_pos d.M) (nzeta_pos d.N) pl pw hq hqa (modeM d.N k) nd) pl pw pR pZ pB
  obtain ⟨a1, a2, a3, a4, a5, a6⟩ := spectrum_at h hp ho hb hk
  intro A hA
  unfold amplitudes at hA
  rw [List.mem_append] at hA
  rcases hA with hA | hA
  · simp only [List.mem_cons, List.not_mem_nil, or_false] at hA
    rcases hA with rfl | rfl | rfl | rfl | rfl
    · rw [a1, q1.1]
    · rw [a2, q2.1]
    · rw [a3, q3.2]
    · rw [a4, q4.2]
    · rw [a5, q5.1]
  · split at hA
    · rename_i has
      obtain ⟨a6, a7, a8, a9, a10⟩ := a6 has
      simp only [List.mem_cons, List.not_mem_nil, or_false] at hA
      rcases hA with rfl | rfl | rfl | rfl | rfl
      · rw [a6, q1.2]
      · rw [a7, q2.2]
      · rw [a8, q3.1]
      · rw [a9, q4.1]
      · rw [a10, q5.2]
    · cases hA

theorem amplitudes_map (f : Res ℝ → Res ℝ) {o o' : Outputs ℝ} {asym : Bool} {k k' b : ℕ} (h1 : o.spec.bmnc_b.rdN k b = f (o'.spec.bmnc_b.rdN k' b))
    (h2 : o.spec.rmnc_b.rdN k b = f (o'.spec.rmnc_b.rdN k' b)) (h3 : o.spec.zmns_b.rdN k b = f (o'.spec.zmns_b.rdN k' b))
    (h4 : o.spec.numns_b.rdN k b = f (o'.spec.numns_b.rdN k' b)) (h5 : o.spec.gmnc_b.rdN k b = f (o'.spec.gmnc_b.rdN k' b))
    (h6 : asym = true → o.spec.bmns_b.rdN k b = f (o'.spec.bmns_b.rdN k' b) ∧ o.spec.rmns_b.rdN k b = f (o'.spec.rmns_b.rdN k' b) ∧
      o.spec.zmnc_b.rdN k b = f (o'.spec.zmnc_b.rdN k' b) ∧ o.spec.numnc_b.rdN k b = f (o'.spec.numnc_b.rdN k' b) ∧
      o.spec.gmns_b.rdN k b = f (o'.spec.gmns_b.rdN k' b)) :
    (amplitudes o asym).map (fun A => A.rdN k b) = (amplitudes o' asym).map (fun A => f (A.rdN k' b)) := by
  unfold amplitudes
  cases asym with
  | false => simp [h1, h2, h3, h4, h5]
  | true =>
    obtain ⟨h6, h7, h8, h9, h10⟩ := h6 rfl
    simp [h1, h2, h3, h4, h5, h6, h7, h8, h9, h10]

/-- **C78, independence of nboz.** The harmonics with n = 0 of an axisymmetric equilibrium do not depend on `nboz`: runs
with `nboz = N` and with `nboz = N'` store the same values for the same m. -/
theorem C78_nboz {s s' : St ℝ} {d : Dims} {N' : ℕ} {dbg : Bool} (h : RunReady s.inp d) (hp : FieldPeriodic s.inp d.nfp)
    (ho : OriginOnce s.inp) (_hreg : ∀ b < d.nsb, (surface s.inp d.asym (selected s.inp b)).Regular) (ha : Axisymmetric s.inp)
    (hs : s'.inp = { s.inp with nboz := N' }) (h' : RunReady s'.inp { d with N := N' }) :
    ∃ s₁ r₁ s₂ r₂, run dbg s = .ok (s₁, r₁) ∧ run dbg s' = .ok (s₂, r₂) ∧
      ∀ b < d.nsb, ∀ k < numModes d.M d.N, ∀ k' < numModes d.M N', ∀ m, s₁.out.xm_b.rdN k = .ok m → s₂.out.xm_b.rdN k' = .ok m →
        s₁.out.xn_b.rdN k = .ok 0 → s₂.out.xn_b.rdN k' = .ok 0 →
        (amplitudes s₁.out d.asym).map (fun A => A.rdN k b) = (amplitudes s₂.out d.asym).map (fun A => A.rdN k' b) := by
  have ho' : OriginOnce s'.inp := by rw [hs]; exact ho
  have hp' : FieldPeriodic s'.inp d.nfp := by rw [hs]; exact hp
  refine ⟨_, _, _, _, originFirst_of h ho dbg, originFirst_of h' ho' dbg, fun b hb k hk k' hk' m m1 m2 n1 n2 => ?_⟩
  have x1 : (runSt d s d.nsb).out.xm_b.rdN k = .ok (modeM d.N k : ℤ) := Vec.rdN_tab hk
  have x2 : (runSt d s d.nsb).out.xn_b.rdN k = .ok (modeN d.N k * d.nfp) := Vec.rdN_tab hk
  have x3 : (runSt { d with N := N' } s' d.nsb).out.xm_b.rdN k' = .ok (modeM N' k' : ℤ) := Vec.rdN_tab hk'
  have x4 : (runSt { d with N := N' } s' d.nsb).out.xn_b.rdN k' = .ok (modeN N' k' * d.nfp) := Vec.rdN_tab hk'
  rw [m1] at x1
  rw [n1] at x2
  have e1 : m = (modeM d.N k : ℤ) := by injection x1
  have e2 : 0 = modeN d.N k * d.nfp := by injection x2
  have e3 : (modeM N' k' : ℤ) = m := by
    have : Except.ok (modeM N' k' : ℤ) = (Except.ok m : Res ℤ) := x3.symm.trans m2
    injection this
  have e4 : modeN N' k' * d.nfp = 0 := by
    have : Except.ok (modeN N' k' * d.nfp) = (Except.ok 0 : Res ℤ) := x4.symm.trans n2
    injection this
  obtain ⟨a1, a2, a3, a4, a5, a6⟩ := spectrum_at h hp ho hb hk
  have c := spectrum_at (b := b) (k := k') h' hp' ho' hb hk'
  have sS : surface s'.inp d.asym (selected s'.inp b) = surface s.inp d.asym (selected s.inp b) := by rw [hs]; rfl
  simp only at c
  rw [e3, e4, sS, e1] at c
  rw [← e2] at a1 a2 a3 a4 a5 a6
  obtain ⟨c1, c2, c3, c4, c5, c6⟩ := c
  obtain ⟨pl, pw, pR, pZ, pB⟩ := surf_per h hp d.asym (selected s.inp b)
  have hx := axi_surface h ha d.asym (selected s.inp b)
  obtain ⟨q1, q2, q3, q4, q5⟩ := hx.quantities (nfp := d.nfp) (fun q =>
      let S := surface s.inp d.asym (selected s.inp b)
      S.quadCos (ntheta d.M) (nzeta d.N) d.nfp q (modeM d.N k) 0 = S.quadCos (ntheta d.M) (nzeta N') d.nfp q (modeM d.N k) 0 ∧
      S.quadSin (ntheta d.M) (nzeta d.N) d.nfp q (modeM d.N k) 0 = S.quadSin (ntheta d.M) (nzeta N') d.nfp q (modeM d.N k) 0)
    (fun q hqa hq => by
      obtain ⟨u1, u2⟩ := axi_quad (nfp := d.nfp) hx hqa (modeM d.N k) (ntheta d.M) (nzeta_pos d.N)
      obtain ⟨v1, v2⟩ := axi_quad (nfp := d.nfp) hx hqa (modeM d.N k) (ntheta d.M) (nzeta_pos N')
      exact ⟨u1.trans v1.symm, u2.trans v2.symm⟩) pl pw pR pZ pB
  have ok : ∀ {x y : ℝ}, x = y → (Except.ok x : Res ℝ) = .ok y := fun e => congrArg _ e
  exact amplitudes_map id (a1.trans ((ok q1.1).trans c1.symm)) (a2.trans ((ok q2.1).trans c2.symm))
    (a3.trans ((ok q3.2).trans c3.symm)) (a4.trans ((ok q4.2).trans c4.symm)) (a5.trans ((ok q5.1).trans c5.symm)) fun has => by
    obtain ⟨a6, a7, a8, a9, a10⟩ := a6 has
    obtain ⟨c6, c7, c8, c9, c10⟩ := c6 has
    exact ⟨a6.trans ((ok q1.2).trans c6.symm), a7.trans ((ok q2.2).trans c7.symm), a8.trans ((ok q3.1).trans c8.symm),
      a9.trans ((ok q4.1).trans c9.symm), a10.trans ((ok q5.2).trans c10.symm)⟩

/-- The mode numbers stored by a run. -/
theorem run_modes {s s' : St ℝ} {d : Dims} {dbg : Bool} {r : List (Report ℝ)} (h : RunReady s.inp d) (ho : OriginOnce s.inp)
    (hr : run dbg s = .ok (s', r)) {k : ℕ} (hk : k < numModes d.M d.N) :
    s'.out.xm_b.rdN k = .ok (modeM d.N k : ℤ) ∧ s'.out.xn_b.rdN k = .ok (modeN d.N k * d.nfp) := by
  rw [originFirst_of h ho dbg] at hr
  have e : runSt d s d.nsb = s' := (Prod.ext_iff.1 (Except.ok.inj hr)).1
  rw [← e]
  exact ⟨Vec.rdN_tab hk, Vec.rdN_tab hk⟩

/-! ### Non-vacuity -/

/-- Grid steps: one step in θ, two in ζ, of the non-symmetric example. -/
example (dbg : Bool) : ∃ s₁ r₁ s₂ r₂, run dbg (Ex.st true) = .ok (s₁, r₁) ∧
    run dbg (translateSt (2 * Real.pi * (1 : ℕ) / ntheta 2) (2 * Real.pi * (2 : ℕ) / ((2 : ℕ) * nzeta 1)) (Ex.st true)) = .ok (s₂, r₂) ∧
    ∀ b < 2, ∀ k < numModes 2 1, ∃ m n, s₁.out.xm_b.rdN k = .ok m ∧ s₁.out.xn_b.rdN k = .ok n ∧
      RotatedOutputs (m * (2 * Real.pi * (1 : ℕ) / ntheta 2) - n * (2 * Real.pi * (2 : ℕ) / ((2 : ℕ) * nzeta 1))) k b s₁.out s₂.out 0 := by
  obtain ⟨s₁, r₁, s₂, r₂, h1, h2, H⟩ := C77_grid_steps (dbg := dbg) (s := Ex.st true) (d := Ex.dims true) (Ex.ready true)
    (Ex.fieldPeriodic true) (Ex.originOnce true) (fun b hb => Ex.regular true (Ex.selected_lt true b hb)) rfl 1 2
  refine ⟨s₁, r₁, s₂, r₂, h1, h2, fun b hb k hk => ?_⟩
  obtain ⟨m, n, a1, a2, -, -, a3⟩ := (H b hb).2.2 k hk
  exact ⟨m, n, a1, a2, a3⟩

/-- A translation that is no multiple of the grid steps. -/
example : ∃ C, ∀ (M N : ℕ), 1 ≤ M → (4 * M + 2) * (4 * N + 2) < 2 ^ 30 → ∀ out g dbg,
    let s1 : St ℝ := { Ex.st true with inp := { Ex.inputs true with mboz := M, nboz := N }, out := out, grid := g }
    ∃ s₁ r₁ s₂ r₂, run dbg s1 = .ok (s₁, r₁) ∧ run dbg (translateSt 1 (1 / 3) s1) = .ok (s₂, r₂) ∧
      ∀ b < 2, ∀ k < numModes M N, s₁.out.xm_b.rdN k = .ok 1 → s₁.out.xn_b.rdN k = .ok (-2) →
        RotatedOutputs (((1 : ℤ) : ℝ) * 1 - ((-2 : ℤ) : ℝ) * (1 / 3)) k b s₁.out s₂.out (C * gridError M N 7) := by
  obtain ⟨C, -, hC⟩ := C77_translation (s := Ex.st true) (d := Ex.dims true) (Ex.ready true) (Ex.fieldPeriodic true)
    (Ex.originOnce true) (fun b hb => Ex.regular true (Ex.selected_lt true b hb)) rfl 1 (1 / 3) 1 (-2) (p := 7) (by omega)
  exact ⟨C, fun M N hM hf out g dbg => hC M N _ dbg rfl (Ex.ready_res true hM hf)⟩

/-- The axisymmetric example with mboz = 2 and nboz = 3. -/
example (asym dbg : Bool) : let s : St ℝ := { Ex.axi asym with inp := { (Ex.axi asym).inp with mboz := (2 : ℕ), nboz := (3 : ℕ) } }
    ∃ s' r, run dbg s = .ok (s', r) ∧ s'.out.xn_b.rdN 2 = .ok 4 ∧ s'.out.spec.bmnc_b.rdN 2 0 = .ok 0 := by
  intro s
  have hr : RunReady s.inp { Ex.dims asym with M := 2, N := 3 } := Ex.axi_ready_res asym (by omega) (by norm_num)
  have ho : OriginOnce s.inp := Ex.axi_origin asym
  obtain ⟨s', r, h1, H⟩ := C78_axisymmetric (dbg := dbg) hr (Ex.axi_periodic asym) ho
    (fun b hb => Ex.axi_regular asym (Ex.selected_lt asym b hb)) (Ex.axi_axisymmetric asym)
  have hx : s'.out.xn_b.rdN 2 = .ok 4 := (run_modes hr ho h1 (k := 2) (by show 2 < numModes 2 3; decide)).2
  exact ⟨s', r, h1, hx, H 0 (by show 0 < 2; omega) 2 (by show 2 < numModes 2 3; decide) 4 hx (by omega) _ List.mem_cons_self⟩

/-- The axisymmetric example with nboz = 3 and with nboz = 0. -/
example (asym dbg : Bool) : let s : St ℝ := { Ex.axi asym with inp := { (Ex.axi asym).inp with mboz := (2 : ℕ), nboz := (3 : ℕ) } }
    let t : St ℝ := { Ex.axi asym with inp := { (Ex.axi asym).inp with mboz := (2 : ℕ), nboz := (0 : ℕ) } }
    ∃ s₁ r₁ s₂ r₂, run dbg s = .ok (s₁, r₁) ∧ run dbg t = .ok (s₂, r₂) ∧
      s₁.out.spec.bmnc_b.rdN 7 0 = s₂.out.spec.bmnc_b.rdN 1 0 := by
  intro s t
  have hr : RunReady s.inp { Ex.dims asym with M := 2, N := 3 } := Ex.axi_ready_res asym (by omega) (by norm_num)
  have hr' : RunReady t.inp { Ex.dims asym with M := 2, N := 0 } := Ex.axi_ready_res asym (by omega) (by norm_num)
  have ho : OriginOnce s.inp := Ex.axi_origin asym
  obtain ⟨s₁, r₁, s₂, r₂, h1, h2, H⟩ := C78_nboz (dbg := dbg) (N' := 0) hr (Ex.axi_periodic asym) ho
    (fun b hb => Ex.axi_regular asym (Ex.selected_lt asym b hb)) (Ex.axi_axisymmetric asym) (s' := t) rfl hr'
  have k1 : 7 < numModes 2 3 := by decide
  have k2 : 1 < numModes 2 0 := by decide
  have e := run_modes hr ho h1 (k := 7) k1
  have f := run_modes hr' ho h2 (k := 1) k2
  have e1 : ((modeM 3 7 : ℕ) : ℤ) = 1 := by decide
  have e2 : modeN 3 7 * ((2 : ℕ) : ℤ) = 0 := by decide
  have f2 : modeN 0 1 * ((2 : ℕ) : ℤ) = 0 := by decide
  have f1 : ((modeM 0 1 : ℕ) : ℤ) = 1 := by decide
  have := H 0 (by show 0 < 2; omega) 7 k1 1 k2 1 (e.1.trans (congrArg _ e1)) (f.1.trans (congrArg _ f1))
    (e.2.trans (congrArg _ e2)) (f.2.trans (congrArg _ f2))
  exact ⟨s₁, r₁, s₂, r₂, h1, h2, (List.cons_eq_cons.1 this).1⟩

end Booz
