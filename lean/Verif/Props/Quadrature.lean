import Verif.Props.Run

/-!
# C16: every output harmonic is the quadrature of the theory's integral
-/

namespace Booz
open Spec

/-- Surface `b` of the outputs `o` is the Boozer spectrum of the surface `S`, with the integrals over
the angles replaced by sums over the uniform grid of `ntheta M` x `nzeta N` points of one field
period.  The mode numbers `m`, `n` are the ones listed in `xm_b`, `xn_b`. -/
def Spec.IsSpectrum (o : Outputs ℝ) (S : Surface) (asym : Bool) (M N nfp b : ℕ) : Prop :=
  let C := S.quadCos (ntheta M) (nzeta N) nfp
  let D := S.quadSin (ntheta M) (nzeta N) nfp
  ∀ k < numModes M N, ∃ m n : ℤ, o.xm_b.rdN k = .ok m ∧ o.xn_b.rdN k = .ok n ∧
    o.spec.bmnc_b.rdN k b = .ok (C S.B m n) ∧
    o.spec.rmnc_b.rdN k b = .ok (C S.R m n) ∧
    o.spec.zmns_b.rdN k b = .ok (D S.Z m n) ∧
    o.spec.numns_b.rdN k b = .ok (D S.nu m n) ∧
    o.spec.gmnc_b.rdN k b = .ok (C S.jacobian m n) ∧
    (asym = true →
      o.spec.bmns_b.rdN k b = .ok (D S.B m n) ∧
      o.spec.rmns_b.rdN k b = .ok (D S.R m n) ∧
      o.spec.zmnc_b.rdN k b = .ok (C S.Z m n) ∧
      o.spec.numnc_b.rdN k b = .ok (C S.nu m n) ∧
      o.spec.gmns_b.rdN k b = .ok (D S.jacobian m n))

/-- Nonvanishing of the denominators of the transformation on a surface. -/
def Spec.Surface.Regular (S : Surface) : Prop :=
  S.G + S.iota * S.I ≠ 0 ∧ ∀ θ ζ, S.B θ ζ ≠ 0

section
variable {I : Inputs ℝ} {d : Dims}

theorem PerF.congr {nfp : ℕ} {f g : ℝ → ℝ → ℝ} (h : PerF nfp f) (e : ∀ θ ζ, g θ ζ = f θ ζ) :
    PerF nfp g := by
  have : g = f := by funext θ ζ; exact e θ ζ
  rw [this]; exact h

/-- The closed-form output functions are the quadratures. -/
theorem outF_real (h : RunReady I d) (hp : FieldPeriodic I d.nfp) (ho : OriginOnce I) {b : ℕ}
    (hb : b < d.nsb) (k : ℕ) :
    let S := surface I d.asym (surf I b)
    let m : ℤ := modeM d.N k
    let n : ℤ := modeN d.N k * d.nfp
    let C := S.quadCos (ntheta d.M) (nzeta d.N) d.nfp
    let D := S.quadSin (ntheta d.M) (nzeta d.N) d.nfp
    let F := outF I d d.nsb
    F.bc k b = C S.B m n ∧ F.rc k b = C S.R m n ∧ F.zs k b = D S.Z m n ∧ F.ns k b = D S.nu m n ∧
    F.gc k b = C S.jacobian m n ∧ (d.asym = true → F.bs k b = D S.B m n ∧ F.rs k b = D S.R m n ∧
      F.zc k b = C S.Z m n ∧ F.nc k b = C S.nu m n ∧ F.gs k b = D S.jacobian m n) := by
  intro S m n C D F
  obtain ⟨pl, pw, pR, pZ, pB⟩ := surf_per h hp d.asym (surf I b)
  have hpar : d.asym = false → OddF S.lam ∧ OddF S.w ∧ EvenF S.R ∧ OddF S.Z ∧ EvenF S.B := by
    intro ha
    have := surf_parity I (surf I b)
    rw [← ha] at this
    exact this
  have hS : d.asym = false → OddF S.lam ∧ OddF S.w := fun ha => ⟨(hpar ha).1, (hpar ha).2.1⟩
  have eB : bP I d (surf I b) d.mnq = S.B := by funext θ ζ; exact bP_real h hp _ θ ζ
  have eR : rP I d (surf I b) d.mnmax = S.R := by funext θ ζ; exact rP_real h hp _ θ ζ
  have eZ : zP I d (surf I b) d.mnmax = S.Z := by funext θ ζ; exact zP_real h hp _ θ ζ
  have eN : nuV I d (surf I b) = S.nu := by funext θ ζ; exact nuV_real h hp ho _ θ ζ
  have eJ : jacB I d (surf I b) = S.jacobian := by funext θ ζ; exact jacB_real h hp ho _ θ ζ
  have cC : ∀ {q : ℝ → ℝ → ℝ}, (d.asym = false → EvenF q ∧ PerF d.nfp q) →
      coefF d (tC I d (surf I b)) q (ofInt 0) k = C q m n :=
    fun hq => coefC_real h hp ho _ hq hS pl pw
  have cS : ∀ {q : ℝ → ℝ → ℝ}, (d.asym = false → OddF q ∧ PerF d.nfp q) →
      coefF d (tS I d (surf I b)) q (ofInt 0) k = D q m n :=
    fun hq => coefS_real h hp ho _ hq hS pl pw
  simp only [F, outF, hb, if_true, eB, eR, eZ, eN, eJ]
  refine ⟨cC fun ha => ⟨(hpar ha).2.2.2.2, pB⟩, cC fun ha => ⟨(hpar ha).2.2.1, pR⟩,
    cS fun ha => ⟨(hpar ha).2.2.2.1, pZ⟩, cS fun ha => ⟨nu_odd (hS ha).1 (hS ha).2, nu_per pl pw⟩,
    cC fun ha => ⟨jac_even (hpar ha).2.2.2.2, jac_per pB⟩, fun ha => ?_⟩
  have no : ∀ {P : Prop}, d.asym = false → P := fun h => by rw [ha] at h; cases h
  exact ⟨cS no, cS no, cC no, cC no, cS no⟩

theorem isSpectrum_runSt {s : St ℝ} (h : RunReady s.inp d) (hp : FieldPeriodic s.inp d.nfp)
    (ho : OriginOnce s.inp) {b : ℕ} (hb : b < d.nsb) :
    IsSpectrum (runSt d s d.nsb).out (surface s.inp d.asym (selected s.inp b)) d.asym d.M d.N d.nfp b := by
  intro k hk
  have hk : k < d.nmodes := hk
  obtain ⟨e1, e2, e3, e4, e5, e6⟩ := outF_real h hp ho hb k
  refine ⟨modeM d.N k, modeN d.N k * d.nfp, Vec.rdN_tab hk, Vec.rdN_tab hk, ?_⟩
  have hsp : (runSt d s d.nsb).out.spec = specTab d (outF s.inp d d.nsb) s.out.spec := rfl
  rw [hsp]
  have r : ∀ {f : ℕ → ℕ → ℝ} {x : ℝ}, f k b = x → (Mat.tab d.nmodes d.nsb f).rdN k b = .ok x := by
    intro f x e; rw [Mat.rdN_tab hk hb, e]
  unfold specTab
  cases ha : d.asym
  · rw [ha] at e1 e2 e3 e4 e5
    exact ⟨r e1, r e2, r e3, r e4, r e5, by simp⟩
  · obtain ⟨f1, f2, f3, f4, f5⟩ := e6 ha
    rw [ha] at e1 e2 e3 e4 e5 f1 f2 f3 f4 f5
    exact ⟨r e1, r e2, r e3, r e4, r e5, fun _ => ⟨r f1, r f2, r f3, r f4, r f5⟩⟩

end

/-- **C16.** In exact arithmetic, for every well-formed input whose surfaces have nonvanishing
`G + iota I` and |B|, `run()` succeeds and every output harmonic of every surface is the uniform-grid
quadrature of the documented integral, over the *full* grid, also in the stellarator-symmetric case
where the code sums over half of it. -/
theorem C16_quadrature {dbg : Bool} {s : St ℝ} {d : Dims} (h : RunReady s.inp d)
    (hp : FieldPeriodic s.inp d.nfp) (ho : OriginOnce s.inp)
    (_hreg : ∀ b < d.nsb, (surface s.inp d.asym (selected s.inp b)).Regular) :
    ∃ s' r, run dbg s = .ok (s', r) ∧ ∀ b < d.nsb,
      IsSpectrum s'.out (surface s.inp d.asym (selected s.inp b)) d.asym d.M d.N d.nfp b :=
  ⟨_, _, run_real h fun _ => originOnce_first h ho, fun _ hb => isSpectrum_runSt h hp ho hb⟩

/-! Non-vacuity: the example object. -/

theorem Ex.selected_lt (asym : Bool) (b : ℕ) (hb : b < 2) : selected (Ex.inputs (α := ℝ) asym) b < 2 := by
  have h := (Ex.ready (α := ℝ) asym).surfs_range b hb
  have e : ((Ex.dims asym).ns : ℤ) = 2 := rfl
  unfold selected
  omega

theorem Ex.B_ge (asym : Bool) {js : ℕ} (hj : js < 2) (θ ζ : ℝ) :
    1 ≤ (surface (Ex.inputs (α := ℝ) asym) asym js).B θ ζ := by
  have hsz : Array.size (Ex.inputs (α := ℝ) asym).xm_nyq = 4 := rfl
  have e1 : ∀ k < 4, entry (Ex.inputs (α := ℝ) asym).bmnc k js =
      (((if k = 0 then 7 + (js : ℤ) else 1) : ℤ) : ℝ) := by
    intro k hk
    show (Mat.tab 4 2 fun k j => (ofInt (if k = 0 then 7 + (j : ℤ) else 1) : ℝ)).val 0 k js = _
    rw [Mat.val_tab hk hj, real_ofInt]
  have e2 : ∀ k < 4, onlyIf asym (entry (Ex.inputs (α := ℝ) asym).bmns k js) =
      if asym = true ∧ k ≠ 0 then 1 else 0 := by
    intro k hk
    cases asym
    · simp [onlyIf]
    · have : entry (Ex.inputs (α := ℝ) true).bmns k js = (((if k = 0 then 0 else 1) : ℤ) : ℝ) := by
        show (Mat.tab 4 2 fun k _ => (ofInt (if k = 0 then 0 else 1) : ℝ)).val 0 k js = _
        rw [Mat.val_tab hk hj, real_ofInt]
      simp only [onlyIf, if_true, this]
      by_cases h0 : k = 0 <;> simp [h0]
  show 1 ≤ series _ _ _ _ _ θ ζ
  unfold series
  rw [hsz, Finset.sum_range_succ, Finset.sum_range_succ, Finset.sum_range_succ, Finset.sum_range_one]
  simp only [e1 0 (by omega), e1 1 (by omega), e1 2 (by omega), e1 3 (by omega), e2 0 (by omega),
    e2 1 (by omega), e2 2 (by omega), e2 3 (by omega)]
  have hm : (Ex.inputs (α := ℝ) asym).xm_nyq.val 0 0 = 0 := rfl
  have hn : (Ex.inputs (α := ℝ) asym).xn_nyq.val 0 0 = 0 := rfl
  rw [hm, hn]
  have key : ∀ x : ℝ, -2 ≤ ((1 : ℤ) : ℝ) * Real.cos x + (if asym = true ∧ True then 1 else 0) * Real.sin x := by
    intro x
    have := Real.neg_one_le_cos x
    have := Real.neg_one_le_sin x
    cases asym <;> simp <;> linarith
  have k1 := key (((Ex.inputs (α := ℝ) asym).xm_nyq.val 0 1) * θ - ((Ex.inputs (α := ℝ) asym).xn_nyq.val 0 1) * ζ)
  have k2 := key (((Ex.inputs (α := ℝ) asym).xm_nyq.val 0 2) * θ - ((Ex.inputs (α := ℝ) asym).xn_nyq.val 0 2) * ζ)
  have k3 := key (((Ex.inputs (α := ℝ) asym).xm_nyq.val 0 3) * θ - ((Ex.inputs (α := ℝ) asym).xn_nyq.val 0 3) * ζ)
  have hj' : (0 : ℝ) ≤ js := by positivity
  simp only [one_ne_zero, ne_eq, not_false_eq_true, OfNat.ofNat_ne_zero, if_false, not_true_eq_false,
    and_false, if_true, Int.cast_zero, zero_mul, sub_zero, Real.cos_zero, mul_one, add_zero,
    Int.cast_add, Int.cast_ofNat, Int.cast_natCast, and_true] at k1 k2 k3 ⊢
  linarith

theorem Ex.regular (asym : Bool) {js : ℕ} (hj : js < 2) :
    (surface (Ex.inputs (α := ℝ) asym) asym js).Regular := by
  constructor
  · have e1 : (surface (Ex.inputs (α := ℝ) asym) asym js).G = ((20 : ℤ) : ℝ) := by
      show (Mat.tab 4 2 fun k j => (ofInt (if k = 0 then 20 else if k = 1 then 5 else if k = 2 then 0
        else 2 + (j : ℤ)) : ℝ)).val 0 0 js = _
      rw [Mat.val_tab (by omega) hj, real_ofInt]; rfl
    have e2 : (surface (Ex.inputs (α := ℝ) asym) asym js).I = ((1 : ℤ) : ℝ) := by
      show (Mat.tab 4 2 fun k j => (ofInt (if k = 0 then 1 else if k = 1 then 0 else (k : ℤ) - 1 + (j : ℤ)) :
        ℝ)).val 0 0 js = _
      rw [Mat.val_tab (by omega) hj, real_ofInt]; rfl
    have e3 : (surface (Ex.inputs (α := ℝ) asym) asym js).iota = (((js : ℤ) + 1 : ℤ) : ℝ) := by
      show (Vec.tab 2 fun j => (ofInt ((j : ℤ) + 1) : ℝ)).val 0 js = _
      rw [Vec.val_tab hj, real_ofInt]
    rw [e1, e2, e3]
    push_cast
    positivity
  · intro θ ζ
    have := Ex.B_ge asym hj θ ζ
    linarith

example (dbg asym : Bool) : ∃ s' r, run dbg (Ex.st asym) = .ok (s', r) ∧ ∀ b < 2,
    IsSpectrum s'.out (surface (Ex.inputs asym) asym (selected (Ex.inputs (α := ℝ) asym) b)) asym 2 1 2 b :=
  C16_quadrature (d := Ex.dims asym) (Ex.ready asym) (Ex.fieldPeriodic asym) (Ex.originOnce asym)
    fun b hb => Ex.regular asym (Ex.selected_lt asym b hb)

end Booz
