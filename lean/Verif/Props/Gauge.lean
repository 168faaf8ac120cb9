import Verif.Spec.Gauge
import Verif.Props.Translation
import Verif.Props.Covariance

/-!
# C113: a constant in λ moves the origin of the Boozer angles
-/

open Finset

namespace Booz
open Spec

/-- A surface with a constant added to λ. -/
noncomputable def plusLam (c : ℝ) (S : Surface) : Surface := { S with lam := fun θ ζ => S.lam θ ζ + c }

section
variable (S : Surface) (c : ℝ)

theorem plusLam_nu (θ ζ : ℝ) : (plusLam c S).nu θ ζ = S.nu θ ζ - S.I * c / (S.G + S.iota * S.I) := by
  unfold Surface.nu plusLam
  dsimp only
  ring

theorem plusLam_zetaB (θ ζ : ℝ) : (plusLam c S).zetaB θ ζ = S.zetaB θ ζ - S.I * c / (S.G + S.iota * S.I) := by
  unfold Surface.zetaB
  rw [plusLam_nu]
  ring

theorem plusLam_thetaB (hD : S.G + S.iota * S.I ≠ 0) (θ ζ : ℝ) :
    (plusLam c S).thetaB θ ζ = S.thetaB θ ζ + S.G * c / (S.G + S.iota * S.I) := by
  unfold Surface.thetaB
  rw [plusLam_nu]
  unfold plusLam
  dsimp only
  field_simp
  ring

theorem plusLam_det (hD : S.G + S.iota * S.I ≠ 0) (θ ζ : ℝ) : (plusLam c S).det θ ζ = S.det θ ζ := by
  unfold Surface.det
  rw [funext fun t => plusLam_thetaB S c hD t ζ, funext fun z => plusLam_zetaB S c θ z,
    funext fun z => plusLam_thetaB S c hD θ z, funext fun t => plusLam_zetaB S c t ζ]
  simp only [deriv_add_const, deriv_sub_const]

theorem plusLam_quad (hD : S.G + S.iota * S.I ≠ 0) (nt nz nfp : ℕ) (q : ℝ → ℝ → ℝ) (m n : ℤ) :
    let φ := -((m * S.G + n * S.I) * c / (S.G + S.iota * S.I))
    (plusLam c S).quadCos nt nz nfp q m n =
      Real.cos φ * S.quadCos nt nz nfp q m n + Real.sin φ * S.quadSin nt nz nfp q m n ∧
    (plusLam c S).quadSin nt nz nfp q m n =
      Real.cos φ * S.quadSin nt nz nfp q m n - Real.sin φ * S.quadCos nt nz nfp q m n := by
  intro φ
  have ang : ∀ θ ζ, (m : ℝ) * (plusLam c S).thetaB θ ζ - n * (plusLam c S).zetaB θ ζ =
      (m * S.thetaB θ ζ - n * S.zetaB θ ζ) - φ := by
    intro θ ζ
    rw [plusLam_thetaB S c hD, plusLam_zetaB]
    show _ = _ - -((m * S.G + n * S.I) * c / (S.G + S.iota * S.I))
    ring
  have eC : intC (plusLam c S) q m n = fun θ ζ => Real.cos φ * intC S q m n θ ζ + Real.sin φ * intS S q m n θ ζ := by
    funext θ ζ
    unfold intC intS
    rw [ang, plusLam_det S c hD, Real.cos_sub]
    ring
  have eS : intS (plusLam c S) q m n = fun θ ζ => Real.cos φ * intS S q m n θ ζ + -Real.sin φ * intC S q m n θ ζ := by
    funext θ ζ
    unfold intC intS
    rw [ang, plusLam_det S c hD, Real.sin_sub]
    ring
  constructor
  · rw [quadCos_eq, quadCos_eq, quadSin_eq, eC, gridSum_add nt nz nfp (fun θ ζ => Real.cos φ * intC S q m n θ ζ),
      gridSum_mul, gridSum_mul]
    ring
  · rw [quadSin_eq, quadSin_eq, quadCos_eq, eS, gridSum_add nt nz nfp (fun θ ζ => Real.cos φ * intS S q m n θ ζ),
      gridSum_mul, gridSum_mul]
    ring

end

theorem RunReady.shiftLam {s : St ℝ} {d : Dims} (h : RunReady s.inp d) (k₀ : ℕ) (c : ℕ → ℝ) :
    RunReady (Spec.shiftLam k₀ c s).inp d :=
  { h with
    lmnc := fun ha => by
      show (addToRow k₀ c s.inp.lmnc).Full d.mnmax d.ns
      unfold addToRow
      rw [(h.lmnc ha).1, (h.lmnc ha).2.1]
      exact full_mat_tab _ _ _ }

/-- One term more in the series. -/
theorem surface_shiftLam {s : St ℝ} {d : Dims} (h : RunReady s.inp d) (ha : d.asym = true) {k₀ : ℕ} (hk : k₀ < d.mnmax)
    (hm : s.inp.xm.val 0 k₀ = 0) (hn : s.inp.xn.val 0 k₀ = 0) (c : ℕ → ℝ) {js : ℕ} (hj : js < d.ns) :
    surface (shiftLam k₀ c s).inp d.asym js = plusLam (c js) (surface s.inp d.asym js) := by
  have e : (surface (shiftLam k₀ c s).inp d.asym js).lam = fun θ ζ => (surface s.inp d.asym js).lam θ ζ + c js := by
    funext θ ζ
    show series s.inp.xm.size (s.inp.xm.val 0) (s.inp.xn.val 0)
        (fun k => onlyIf d.asym (entry (addToRow k₀ c s.inp.lmnc) k js)) (fun k => entry s.inp.lmns k js) θ ζ =
      series s.inp.xm.size (s.inp.xm.val 0) (s.inp.xn.val 0)
        (fun k => onlyIf d.asym (entry s.inp.lmnc k js)) (fun k => entry s.inp.lmns k js) θ ζ + c js
    unfold series
    have hs : s.inp.xm.size = d.mnmax := h.xm.1
    rw [hs]
    have ent : ∀ k ∈ range d.mnmax, entry (addToRow k₀ c s.inp.lmnc) k js = entry s.inp.lmnc k js + if k = k₀ then c js else 0 := by
      intro k hk
      unfold addToRow
      exact Mat.val_tab (by rw [(h.lmnc ha).1]; exact mem_range.mp hk) (by rw [(h.lmnc ha).2.1]; exact hj)
    have hon : ∀ x, onlyIf d.asym x = x := fun x => by rw [ha]; rfl
    have one : ∑ k ∈ range d.mnmax, (if k = k₀ then c js else 0) = c js := by
      rw [sum_ite_eq' (range d.mnmax) k₀ fun _ => c js, if_pos (mem_range.mpr hk)]
    rw [← one, ← sum_add_distrib]
    refine sum_congr rfl fun k hk' => ?_
    beta_reduce
    rw [hon, hon, ent k hk']
    split
    · next e => subst e; rw [hm, hn]; simp
    · ring
  unfold plusLam
  rw [← e]
  rfl

/-- **C113.**  Adding a constant `c` to λ on a surface (through the cosine amplitude of the mode (0, 0)) leaves `Boozer_I`
and `Boozer_G` as they are, moves the origin of the Boozer angles by `(G c, -I c)/(G + ι I)`: the pairs of amplitudes of
|B|, R, Z and the Jacobian are rotated by the phase of their mode, and those of ν are the rotated ones of `ν - I c/(G + ι I)`. -/
theorem C113_constant {s : St ℝ} {d : Dims} {dbg : Bool} (h : RunReady s.inp d) (hp : FieldPeriodic s.inp d.nfp)
    (ho : OriginOnce s.inp) (hreg : ∀ b < d.nsb, (surface s.inp d.asym (selected s.inp b)).Regular) (ha : d.asym = true)
    {k₀ : ℕ} (hk₀ : k₀ < d.mnmax) (hm : s.inp.xm.val 0 k₀ = 0) (hn : s.inp.xn.val 0 k₀ = 0) (c : ℕ → ℝ) :
    ∃ s₁ r₁ s₂ r₂, run dbg s = .ok (s₁, r₁) ∧ run dbg (shiftLam k₀ c s) = .ok (s₂, r₂) ∧
      ∀ b < d.nsb, s₂.out.boozer_I.rdN b = s₁.out.boozer_I.rdN b ∧ s₂.out.boozer_G.rdN b = s₁.out.boozer_G.rdN b ∧
      ∃ ι I G, s.inp.iota.rdN (selected s.inp b) = .ok ι ∧ s₁.out.boozer_I.rdN b = .ok I ∧ s₁.out.boozer_G.rdN b = .ok G ∧
      let cj := c (selected s.inp b)
      let δθ := G * cj / (G + ι * I)
      let δζ := -(I * cj / (G + ι * I))
      let S := surface s.inp d.asym (selected s.inp b)
      let T := surface (shiftLam k₀ c s).inp d.asym (selected s.inp b)
      (∀ θ ζ, T.thetaB θ ζ = S.thetaB θ ζ + δθ ∧ T.zetaB θ ζ = S.zetaB θ ζ + δζ) ∧
      ∀ k < numModes d.M d.N, ∃ m n, s₁.out.xm_b.rdN k = .ok m ∧ s₁.out.xn_b.rdN k = .ok n ∧
        s₂.out.xm_b.rdN k = .ok m ∧ s₂.out.xn_b.rdN k = .ok n ∧
        let φ := -(m * δθ - n * δζ)
        RotatedAt φ k b s₁.out.spec.bmnc_b s₁.out.spec.bmns_b s₂.out.spec.bmnc_b s₂.out.spec.bmns_b 0 ∧
        RotatedAt φ k b s₁.out.spec.rmnc_b s₁.out.spec.rmns_b s₂.out.spec.rmnc_b s₂.out.spec.rmns_b 0 ∧
        RotatedAt φ k b s₁.out.spec.zmnc_b s₁.out.spec.zmns_b s₂.out.spec.zmnc_b s₂.out.spec.zmns_b 0 ∧
        RotatedAt φ k b s₁.out.spec.gmnc_b s₁.out.spec.gmns_b s₂.out.spec.gmnc_b s₂.out.spec.gmns_b 0 ∧
        ∃ x y x' y', s₁.out.spec.numnc_b.rdN k b = .ok x ∧ s₁.out.spec.numns_b.rdN k b = .ok y ∧
          s₂.out.spec.numnc_b.rdN k b = .ok x' ∧ s₂.out.spec.numns_b.rdN k b = .ok y' ∧
          let u := x + δζ * S.quadCos (ntheta d.M) (nzeta d.N) d.nfp (fun _ _ => 1) m n
          let v := y + δζ * S.quadSin (ntheta d.M) (nzeta d.N) d.nfp (fun _ _ => 1) m n
          x' = Real.cos φ * u + Real.sin φ * v ∧ y' = Real.cos φ * v - Real.sin φ * u := by
  have h' : RunReady (shiftLam k₀ c s).inp d := h.shiftLam k₀ c
  refine ⟨_, _, _, _, originFirst_of h ho dbg, originFirst_of (s := shiftLam k₀ c s) h' ho dbg, fun b hb => ?_⟩
  obtain ⟨-, -, -, -, -, a2⟩ := C15_flux_functions h ho (originFirst_of h ho false)
  obtain ⟨-, -, -, -, -, b2⟩ := C15_flux_functions (s := shiftLam k₀ c s) h' ho
    (originFirst_of (s := shiftLam k₀ c s) h' ho false)
  have hq : 0 < d.mnq := h.mnmax_nyq_ge
  have hs := sel_lt h hb
  have rI := h.bsubumnc.rdN 0 hq hs
  have rG := h.bsubvmnc.rdN 0 hq hs
  have ri := h.iota.rdN 0 hs
  have hI : (runSt d s d.nsb).out.boozer_I.rdN b = .ok (surface s.inp d.asym (selected s.inp b)).I := (a2 b hb).1.trans rI
  have hG : (runSt d s d.nsb).out.boozer_G.rdN b = .ok (surface s.inp d.asym (selected s.inp b)).G := (a2 b hb).2.trans rG
  refine ⟨(b2 b hb).1.trans (a2 b hb).1.symm, (b2 b hb).2.trans (a2 b hb).2.symm, _, _, _, ri, hI, hG, ?_⟩
  intro cj δθ δζ S T
  have hD : S.G + S.iota * S.I ≠ 0 := (hreg b hb).1
  have eT : T = plusLam cj S := surface_shiftLam h ha hk₀ hm hn c hs
  refine ⟨fun θ ζ => ?_, fun k hk => ?_⟩
  · rw [eT, plusLam_thetaB S cj hD, plusLam_zetaB]
    exact ⟨rfl, rfl⟩
  refine ⟨(modeM d.N k : ℤ), modeN d.N k * d.nfp, Vec.rdN_tab hk, Vec.rdN_tab hk, Vec.rdN_tab hk, Vec.rdN_tab hk, ?_⟩
  intro φ
  have Q := fun q => plusLam_quad S cj hD (ntheta d.M) (nzeta d.N) d.nfp q (modeM d.N k) (modeN d.N k * d.nfp)
  have eφ : -((((modeM d.N k : ℕ) : ℤ) * S.G + ((modeN d.N k * d.nfp : ℤ) : ℝ) * S.I) * cj / (S.G + S.iota * S.I)) = φ := by
    show _ = -((((modeM d.N k : ℕ) : ℤ) : ℝ) * (S.G * cj / (S.G + S.iota * S.I)) -
      ((modeN d.N k * d.nfp : ℤ) : ℝ) * -(S.I * cj / (S.G + S.iota * S.I)))
    ring
  simp only [eφ] at Q
  obtain ⟨a1, a2, a3, a4, a5, a6⟩ := spectrum_at h hp ho hb hk
  obtain ⟨b1, b2, b3, b4, b5, b6⟩ := spectrum_at (s := shiftLam k₀ c s) h' hp ho hb hk
  obtain ⟨a6, a7, a8, a9, a10⟩ := a6 ha
  obtain ⟨b6, b7, b8, b9, b10⟩ := b6 ha
  have rot : ∀ {q : ℝ → ℝ → ℝ} {C D C' D' : Mat ℝ},
      C.rdN k b = .ok (S.quadCos (ntheta d.M) (nzeta d.N) d.nfp q (modeM d.N k) (modeN d.N k * d.nfp)) →
      D.rdN k b = .ok (S.quadSin (ntheta d.M) (nzeta d.N) d.nfp q (modeM d.N k) (modeN d.N k * d.nfp)) →
      C'.rdN k b = .ok (T.quadCos (ntheta d.M) (nzeta d.N) d.nfp q (modeM d.N k) (modeN d.N k * d.nfp)) →
      D'.rdN k b = .ok (T.quadSin (ntheta d.M) (nzeta d.N) d.nfp q (modeM d.N k) (modeN d.N k * d.nfp)) →
      RotatedAt φ k b C D C' D' 0 := by
    intro q C D C' D' e1 e2 e3 e4
    refine ⟨_, _, _, _, e1, e2, e3, e4, ?_, ?_⟩
    · rw [eT, (Q q).1, sub_self, abs_zero]
    · rw [eT, (Q q).2, sub_self, abs_zero]
  have eB : T.B = S.B := by rw [eT]; rfl
  have eR : T.R = S.R := by rw [eT]; rfl
  have eZ : T.Z = S.Z := by rw [eT]; rfl
  have eJ : T.jacobian = S.jacobian := by rw [eT]; rfl
  refine ⟨rot a1 a6 (eB ▸ b1) (eB ▸ b6), rot a2 a7 (eR ▸ b2) (eR ▸ b7), rot a8 a3 (eZ ▸ b8) (eZ ▸ b3),
    rot a5 a10 (eJ ▸ b5) (eJ ▸ b10), _, _, _, _, a9, a4, b9, b4, ?_⟩
  have eN : T.nu = fun θ ζ => 1 * S.nu θ ζ + δζ * (fun _ _ => (1 : ℝ)) θ ζ := by
    funext θ ζ
    rw [eT, plusLam_nu]
    show _ = 1 * S.nu θ ζ + -(S.I * cj / (S.G + S.iota * S.I)) * 1
    ring
  constructor
  · show T.quadCos (ntheta d.M) (nzeta d.N) d.nfp T.nu (modeM d.N k) (modeN d.N k * d.nfp) = _
    rw [eN, eT, (Q _).1, quadCos_lin, quadSin_lin]
    ring
  · show T.quadSin (ntheta d.M) (nzeta d.N) d.nfp T.nu (modeM d.N k) (modeN d.N k * d.nfp) = _
    rw [eN, eT, (Q _).2, quadCos_lin, quadSin_lin]
    ring

/-- The hypotheses are met: mode 0 of the example is (0, 0). -/
example (dbg : Bool) : ∃ s₂ r₂, run dbg (shiftLam 0 (fun j => j + 1) (Ex.st (α := ℝ) true)) = .ok (s₂, r₂) := by
  obtain ⟨_, _, s₂, r₂, -, h, -⟩ := C113_constant (dbg := dbg) (s := Ex.st true) (d := Ex.dims true)
    (Ex.ready true) (Ex.fieldPeriodic true) (Ex.originOnce true)
    (fun b hb => Ex.regular true (Ex.selected_lt true b hb)) rfl (k₀ := 0) (by decide) rfl rfl fun j => j + 1
  exact ⟨s₂, r₂, h⟩

end Booz
