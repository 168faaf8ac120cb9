import Verif.Lemmas.QuadCoef
import Verif.Props.Quadrature

/-!
# Algebra of the quadrature: linearity, congruence, reflection
-/

open Finset

namespace Booz
open Spec

/-- Sum over the full grid of one field period. -/
noncomputable def gridSum (nt nz nfp : ℕ) (F : ℝ → ℝ → ℝ) : ℝ :=
  ∑ a ∈ range nt, ∑ b ∈ range nz, F (2 * Real.pi * a / nt) (2 * Real.pi * b / (nfp * nz))

theorem quadCos_eq (S : Surface) (nt nz nfp : ℕ) (q : ℝ → ℝ → ℝ) (m n : ℤ) :
    S.quadCos nt nz nfp q m n =
      (if m = 0 ∧ n = 0 then 1 else 2) / ((nt : ℝ) * nz) * gridSum nt nz nfp (intC S q m n) := rfl
theorem quadSin_eq (S : Surface) (nt nz nfp : ℕ) (q : ℝ → ℝ → ℝ) (m n : ℤ) :
    S.quadSin nt nz nfp q m n =
      (if m = 0 ∧ n = 0 then 1 else 2) / ((nt : ℝ) * nz) * gridSum nt nz nfp (intS S q m n) := rfl

theorem gridSum_add (nt nz nfp : ℕ) (F G : ℝ → ℝ → ℝ) :
    gridSum nt nz nfp (fun θ ζ => F θ ζ + G θ ζ) = gridSum nt nz nfp F + gridSum nt nz nfp G := by
  unfold gridSum; simp only [sum_add_distrib]
theorem gridSum_mul (nt nz nfp : ℕ) (c : ℝ) (F : ℝ → ℝ → ℝ) :
    gridSum nt nz nfp (fun θ ζ => c * F θ ζ) = c * gridSum nt nz nfp F := by
  unfold gridSum; simp only [mul_sum]

theorem gridSum_neg {nt nz nfp : ℕ} (hp : 1 ≤ nfp) (h1 : 1 ≤ nt) (h2 : 1 ≤ nz) {F : ℝ → ℝ → ℝ}
    (hF : PerF nfp F) : gridSum nt nz nfp (fun θ ζ => F (-θ) (-ζ)) = gridSum nt nz nfp F := by
  have hp' : (nfp : ℝ) ≠ 0 := by positivity
  have h1' : (nt : ℝ) ≠ 0 := by positivity
  have h2' : (nz : ℝ) ≠ 0 := by positivity
  have step : ∀ θ, ∑ b ∈ range nz, F θ (-(2 * Real.pi * b / (nfp * nz))) =
      ∑ b ∈ range nz, F θ (2 * Real.pi * b / (nfp * nz)) := by
    intro θ
    rw [← sum_range_refl (fun b : ℕ => F θ (2 * Real.pi * b / (nfp * nz)))]
    · apply sum_congr rfl
      intro b hb
      have hb := mem_range.mp hb
      rw [← hF.2]
      congr 1
      push_cast [Nat.cast_sub hb.le]
      field_simp
      ring
    · have := hF.2 θ 0
      rw [show 2 * Real.pi * (nz : ℝ) / (nfp * nz) = 0 + 2 * Real.pi / nfp by field_simp; ring, this]
      simp
  unfold gridSum
  simp only [step]
  rw [← sum_range_refl (fun a : ℕ => ∑ b ∈ range nz, F (2 * Real.pi * a / nt) (2 * Real.pi * b / (nfp * nz)))]
  · apply sum_congr rfl
    intro a ha
    have ha := mem_range.mp ha
    apply sum_congr rfl
    intro b _
    rw [← hF.1]
    congr 1
    push_cast [Nat.cast_sub ha.le]
    field_simp
    ring
  · apply sum_congr rfl
    intro b _
    have := hF.1 0 (2 * Real.pi * b / (nfp * nz))
    rw [show 2 * Real.pi * (nt : ℝ) / nt = 0 + 2 * Real.pi by field_simp; ring, this]
    simp

theorem gridSum_odd {nt nz nfp : ℕ} (hp : 1 ≤ nfp) (h1 : 1 ≤ nt) (h2 : 1 ≤ nz) {F : ℝ → ℝ → ℝ}
    (hF : PerF nfp F) (ho : OddF F) : gridSum nt nz nfp F = 0 := by
  have e := gridSum_neg hp h1 h2 hF
  have e2 : gridSum nt nz nfp (fun θ ζ => F (-θ) (-ζ)) = - gridSum nt nz nfp F := by
    have : (fun θ ζ => F (-θ) (-ζ)) = fun θ ζ => (-1) * F θ ζ := by
      funext θ ζ; rw [ho]; ring
    rw [this, gridSum_mul]; ring
  linarith

/-! ### Congruence and linearity of `quadCos`, `quadSin` -/

/-- The two surfaces have the same angle map. -/
def SameAngles (S T : Surface) : Prop := S.iota = T.iota ∧ S.lam = T.lam ∧ S.nu = T.nu

theorem SameAngles.thetaB {S T : Surface} (h : SameAngles S T) : S.thetaB = T.thetaB := by
  funext θ ζ; unfold Surface.thetaB; rw [h.1, h.2.1, h.2.2]
theorem SameAngles.zetaB {S T : Surface} (h : SameAngles S T) : S.zetaB = T.zetaB := by
  funext θ ζ; unfold Surface.zetaB; rw [h.2.2]
theorem SameAngles.det {S T : Surface} (h : SameAngles S T) : S.det = T.det := by
  funext θ ζ; unfold Surface.det; rw [h.thetaB, h.zetaB]
theorem SameAngles.intC {S T : Surface} (h : SameAngles S T) : intC S = intC T := by
  funext q m n θ ζ; unfold Booz.intC; rw [h.thetaB, h.zetaB, h.det]
theorem SameAngles.intS {S T : Surface} (h : SameAngles S T) : intS S = intS T := by
  funext q m n θ ζ; unfold Booz.intS; rw [h.thetaB, h.zetaB, h.det]
theorem SameAngles.quadCos {S T : Surface} (h : SameAngles S T) : S.quadCos = T.quadCos := by
  funext nt nz nfp q m n; rw [quadCos_eq, quadCos_eq, h.intC]
theorem SameAngles.quadSin {S T : Surface} (h : SameAngles S T) : S.quadSin = T.quadSin := by
  funext nt nz nfp q m n; rw [quadSin_eq, quadSin_eq, h.intS]

theorem quadCos_mul (S : Surface) (nt nz nfp : ℕ) (c : ℝ) (q : ℝ → ℝ → ℝ) (m n : ℤ) :
    S.quadCos nt nz nfp (fun θ ζ => c * q θ ζ) m n = c * S.quadCos nt nz nfp q m n := by
  rw [quadCos_eq, quadCos_eq, mul_left_comm, ← gridSum_mul nt nz nfp c]
  congr 2
  funext θ ζ; unfold intC; ring
theorem quadSin_mul (S : Surface) (nt nz nfp : ℕ) (c : ℝ) (q : ℝ → ℝ → ℝ) (m n : ℤ) :
    S.quadSin nt nz nfp (fun θ ζ => c * q θ ζ) m n = c * S.quadSin nt nz nfp q m n := by
  rw [quadSin_eq, quadSin_eq, mul_left_comm, ← gridSum_mul nt nz nfp c]
  congr 2
  funext θ ζ; unfold intS; ring
theorem quadCos_add (S : Surface) (nt nz nfp : ℕ) (q p : ℝ → ℝ → ℝ) (m n : ℤ) :
    S.quadCos nt nz nfp (fun θ ζ => q θ ζ + p θ ζ) m n =
      S.quadCos nt nz nfp q m n + S.quadCos nt nz nfp p m n := by
  rw [quadCos_eq, quadCos_eq, quadCos_eq, ← mul_add, ← gridSum_add]
  congr 2
  funext θ ζ; unfold intC; ring
theorem quadSin_add (S : Surface) (nt nz nfp : ℕ) (q p : ℝ → ℝ → ℝ) (m n : ℤ) :
    S.quadSin nt nz nfp (fun θ ζ => q θ ζ + p θ ζ) m n =
      S.quadSin nt nz nfp q m n + S.quadSin nt nz nfp p m n := by
  rw [quadSin_eq, quadSin_eq, quadSin_eq, ← mul_add, ← gridSum_add]
  congr 2
  funext θ ζ; unfold intS; ring
theorem quadCos_lin (S : Surface) (nt nz nfp : ℕ) (x y : ℝ) (q p : ℝ → ℝ → ℝ) (m n : ℤ) :
    S.quadCos nt nz nfp (fun θ ζ => x * q θ ζ + y * p θ ζ) m n =
      x * S.quadCos nt nz nfp q m n + y * S.quadCos nt nz nfp p m n := by
  rw [quadCos_add S nt nz nfp (fun θ ζ => x * q θ ζ), quadCos_mul, quadCos_mul]
theorem quadSin_lin (S : Surface) (nt nz nfp : ℕ) (x y : ℝ) (q p : ℝ → ℝ → ℝ) (m n : ℤ) :
    S.quadSin nt nz nfp (fun θ ζ => x * q θ ζ + y * p θ ζ) m n =
      x * S.quadSin nt nz nfp q m n + y * S.quadSin nt nz nfp p m n := by
  rw [quadSin_add S nt nz nfp (fun θ ζ => x * q θ ζ), quadSin_mul, quadSin_mul]

/-! ### Linearity of series -/

theorem series_mul (K : ℕ) (m n : ℕ → ℤ) (c : ℝ) (a b a' b' : ℕ → ℝ) (ha : ∀ k < K, a' k = c * a k)
    (hb : ∀ k < K, b' k = c * b k) (θ ζ : ℝ) :
    series K m n a' b' θ ζ = c * series K m n a b θ ζ := by
  unfold series
  rw [mul_sum]
  apply sum_congr rfl
  intro k hk
  rw [ha k (mem_range.mp hk), hb k (mem_range.mp hk)]; ring

theorem series_lin (K : ℕ) (m n : ℕ → ℤ) (x y : ℝ) (a b a' b' a'' b'' : ℕ → ℝ)
    (ha : ∀ k < K, a'' k = x * a k + y * a' k) (hb : ∀ k < K, b'' k = x * b k + y * b' k) (θ ζ : ℝ) :
    series K m n a'' b'' θ ζ = x * series K m n a b θ ζ + y * series K m n a' b' θ ζ := by
  unfold series
  rw [mul_sum, mul_sum, ← sum_add_distrib]
  apply sum_congr rfl
  intro k hk
  rw [ha k (mem_range.mp hk), hb k (mem_range.mp hk)]; ring

theorem series_congr (K : ℕ) (m n : ℕ → ℤ) (a b a' b' : ℕ → ℝ) (ha : ∀ k < K, a' k = a k)
    (hb : ∀ k < K, b' k = b k) : series K m n a' b' = series K m n a b := by
  funext θ ζ
  unfold series
  apply sum_congr rfl
  intro k hk
  rw [ha k (mem_range.mp hk), hb k (mem_range.mp hk)]

/-- Reflection of a series: negate the sine coefficients. -/
theorem series_refl (K : ℕ) (m n : ℕ → ℤ) (a b a' b' : ℕ → ℝ) (ha : ∀ k < K, a' k = a k)
    (hb : ∀ k < K, b' k = -b k) (θ ζ : ℝ) :
    series K m n a' b' θ ζ = series K m n a b (-θ) (-ζ) := by
  unfold series
  apply sum_congr rfl
  intro k hk
  rw [ha k (mem_range.mp hk), hb k (mem_range.mp hk),
    show (m k : ℝ) * -θ - n k * -ζ = -(m k * θ - n k * ζ) by ring, Real.cos_neg, Real.sin_neg]
  ring

/-- Reflection of a series with sign: negate the cosine coefficients. -/
theorem series_refl' (K : ℕ) (m n : ℕ → ℤ) (a b a' b' : ℕ → ℝ) (ha : ∀ k < K, a' k = -a k)
    (hb : ∀ k < K, b' k = b k) (θ ζ : ℝ) :
    series K m n a' b' θ ζ = -series K m n a b (-θ) (-ζ) := by
  unfold series
  rw [← sum_neg_distrib]
  apply sum_congr rfl
  intro k hk
  rw [ha k (mem_range.mp hk), hb k (mem_range.mp hk),
    show (m k : ℝ) * -θ - n k * -ζ = -(m k * θ - n k * ζ) by ring, Real.cos_neg, Real.sin_neg]
  ring

theorem onlyIf_mul (a : Bool) (c x : ℝ) : onlyIf a (c * x) = c * onlyIf a x := by
  unfold onlyIf; split <;> simp
theorem wSin_mul (m n : ℤ) (c u v : ℝ) : wSin m n (c * u) (c * v) = c * wSin m n u v := by
  unfold wSin; split
  · ring
  · split
    · ring
    · ring
theorem wCos_mul (m n : ℤ) (c u v : ℝ) : wCos m n (c * u) (c * v) = c * wCos m n u v := by
  unfold wCos; split
  · ring
  · split
    · ring
    · ring

/-! ### Reflected surfaces -/

/-- `T` is the image of `S` under (θ, ζ) → (-θ, -ζ). -/
structure Reflected (S T : Surface) : Prop where
  iota : T.iota = S.iota
  I : T.I = S.I
  G : T.G = S.G
  lam : ∀ θ ζ, T.lam θ ζ = -S.lam (-θ) (-ζ)
  w : ∀ θ ζ, T.w θ ζ = -S.w (-θ) (-ζ)
  R : ∀ θ ζ, T.R θ ζ = S.R (-θ) (-ζ)
  Z : ∀ θ ζ, T.Z θ ζ = -S.Z (-θ) (-ζ)
  B : ∀ θ ζ, T.B θ ζ = S.B (-θ) (-ζ)

namespace Reflected
variable {S T : Surface} (h : Reflected S T)
include h

theorem nu (θ ζ : ℝ) : T.nu θ ζ = -S.nu (-θ) (-ζ) := by
  unfold Surface.nu; rw [h.w, h.lam, h.I, h.G, h.iota]; ring
theorem thetaB (θ ζ : ℝ) : T.thetaB θ ζ = -S.thetaB (-θ) (-ζ) := by
  unfold Surface.thetaB; rw [h.lam, h.nu, h.iota]; ring
theorem zetaB (θ ζ : ℝ) : T.zetaB θ ζ = -S.zetaB (-θ) (-ζ) := by
  unfold Surface.zetaB; rw [h.nu]; ring
theorem jacobian (θ ζ : ℝ) : T.jacobian θ ζ = S.jacobian (-θ) (-ζ) := by
  unfold Surface.jacobian; rw [h.B, h.G, h.iota, h.I]

omit h in
theorem dneg (f : ℝ → ℝ) (x : ℝ) : deriv (fun t => -f (-t)) x = deriv f (-x) := by
  rw [deriv.fun_neg, deriv_comp_neg, neg_neg]

theorem det (θ ζ : ℝ) : T.det θ ζ = S.det (-θ) (-ζ) := by
  unfold Surface.det
  simp only [h.thetaB, h.zetaB]
  rw [dneg (fun t => S.thetaB t (-ζ)), dneg (fun z => S.zetaB (-θ) z), dneg (fun z => S.thetaB (-θ) z),
    dneg (fun t => S.zetaB t (-ζ))]

theorem intC {q q' : ℝ → ℝ → ℝ} (hq : ∀ θ ζ, q' θ ζ = q (-θ) (-ζ)) (m n : ℤ) :
    Booz.intC T q' m n = fun θ ζ => Booz.intC S q m n (-θ) (-ζ) := by
  funext θ ζ
  unfold Booz.intC
  rw [hq, h.det, h.thetaB, h.zetaB,
    show (m : ℝ) * -S.thetaB (-θ) (-ζ) - n * -S.zetaB (-θ) (-ζ) =
      -(m * S.thetaB (-θ) (-ζ) - n * S.zetaB (-θ) (-ζ)) by ring, Real.cos_neg]

theorem intS {q q' : ℝ → ℝ → ℝ} (hq : ∀ θ ζ, q' θ ζ = q (-θ) (-ζ)) (m n : ℤ) :
    Booz.intS T q' m n = fun θ ζ => -1 * Booz.intS S q m n (-θ) (-ζ) := by
  funext θ ζ
  unfold Booz.intS
  rw [hq, h.det, h.thetaB, h.zetaB,
    show (m : ℝ) * -S.thetaB (-θ) (-ζ) - n * -S.zetaB (-θ) (-ζ) =
      -(m * S.thetaB (-θ) (-ζ) - n * S.zetaB (-θ) (-ζ)) by ring, Real.sin_neg]
  ring

variable {nt nz nfp : ℕ} (hp : 1 ≤ nfp) (h1 : 1 ≤ nt) (h2 : 1 ≤ nz)
  (hl : PerF nfp S.lam) (hw : PerF nfp S.w)
include hp h1 h2 hl hw

theorem quadCos {q q' : ℝ → ℝ → ℝ} (hq : ∀ θ ζ, q' θ ζ = q (-θ) (-ζ)) (hper : PerF nfp q) (m n : ℤ)
    (hn : (nfp : ℤ) ∣ n) : T.quadCos nt nz nfp q' m n = S.quadCos nt nz nfp q m n := by
  rw [quadCos_eq, quadCos_eq, h.intC hq, gridSum_neg hp h1 h2 (intC_per hp hl hw hper m n hn)]

theorem quadSin {q q' : ℝ → ℝ → ℝ} (hq : ∀ θ ζ, q' θ ζ = q (-θ) (-ζ)) (hper : PerF nfp q) (m n : ℤ)
    (hn : (nfp : ℤ) ∣ n) : T.quadSin nt nz nfp q' m n = -S.quadSin nt nz nfp q m n := by
  rw [quadSin_eq, quadSin_eq, h.intS hq, gridSum_mul (F := fun θ ζ => Booz.intS S q m n (-θ) (-ζ)),
    gridSum_neg hp h1 h2 (intS_per hp hl hw hper m n hn)]
  ring

end Reflected

/-! ### The outputs of a run, mode by mode -/

/-- `IsSpectrum` with the mode numbers made explicit. -/
theorem spectrum_at {s : St ℝ} {d : Dims} (h : RunReady s.inp d) (hp : FieldPeriodic s.inp d.nfp)
    (ho : OriginOnce s.inp) {b k : ℕ} (hb : b < d.nsb) (hk : k < d.nmodes) :
    let S := surface s.inp d.asym (selected s.inp b)
    let m : ℤ := modeM d.N k
    let n : ℤ := modeN d.N k * d.nfp
    let C := S.quadCos (ntheta d.M) (nzeta d.N) d.nfp
    let D := S.quadSin (ntheta d.M) (nzeta d.N) d.nfp
    let o := (runSt d s d.nsb).out.spec
    o.bmnc_b.rdN k b = .ok (C S.B m n) ∧ o.rmnc_b.rdN k b = .ok (C S.R m n) ∧
    o.zmns_b.rdN k b = .ok (D S.Z m n) ∧ o.numns_b.rdN k b = .ok (D S.nu m n) ∧
    o.gmnc_b.rdN k b = .ok (C S.jacobian m n) ∧
    (d.asym = true → o.bmns_b.rdN k b = .ok (D S.B m n) ∧ o.rmns_b.rdN k b = .ok (D S.R m n) ∧
      o.zmnc_b.rdN k b = .ok (C S.Z m n) ∧ o.numnc_b.rdN k b = .ok (C S.nu m n) ∧
      o.gmns_b.rdN k b = .ok (D S.jacobian m n)) := by
  obtain ⟨m, n, hm, hn, hrest⟩ := isSpectrum_runSt h hp ho hb k hk
  have hm' : (runSt d s d.nsb).out.xm_b.rdN k = .ok (modeM d.N k : ℤ) := Vec.rdN_tab hk
  have hn' : (runSt d s d.nsb).out.xn_b.rdN k = .ok (modeN d.N k * d.nfp) := Vec.rdN_tab hk
  rw [hm] at hm'
  rw [hn] at hn'
  have e1 : m = (modeM d.N k : ℤ) := by injection hm'
  have e2 : n = modeN d.N k * d.nfp := by injection hn'
  subst e1 e2
  exact hrest

theorem ntheta_pos (M : ℕ) : 1 ≤ ntheta M := by unfold ntheta; omega
theorem nzeta_pos (N : ℕ) : 1 ≤ nzeta N := by unfold nzeta; split <;> omega

end Booz
