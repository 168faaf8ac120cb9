import Verif.Lemmas.QuadMore
import Verif.Spec.Scale
import Verif.Props.Theory

/-!
# C20, C22, C31, C32, C55: how the outputs respond to changes of the inputs (exact arithmetic)
-/

namespace Booz
open Spec

section
variable {s : St ℝ} {d : Dims}

theorem originFirst_of (h : RunReady s.inp d) (ho : OriginOnce s.inp) (dbg : Bool) :
    run dbg s = .ok (runSt d s d.nsb, runReports s.inp d d.nsb) :=
  run_real h fun _ => originOnce_first h ho

/-! ### C20 -/

/-- **C20, grids.** At every grid point of every selected surface the Jacobian and field-strength
arrays satisfy `jacobian * |B|^2 = G + iota I`. -/
theorem C20_product {dbg : Bool} (h : RunReady s.inp d) (hp : FieldPeriodic s.inp d.nfp)
    (ho : OriginOnce s.inp) {b : ℕ} (hb : b < d.nsb) :
    let S := surface s.inp d.asym (selected s.inp b)
    S.Regular → ∃ L, workOf dbg b s = .ok L ∧ ∀ p < numPoints d.asym d.M d.N, ∃ g B,
      L.har.jacobian.rdN p = .ok g ∧ L.wb.bmod.rdN p = .ok B ∧
      B = S.B (pointTheta d.M d.N p) (pointZeta d.N d.nfp p) ∧ B ≠ 0 ∧
      g * (B * B) = S.G + S.iota * S.I := by
  intro S hreg
  refine ⟨_, workOf_real h ho hb, ?_⟩
  intro p hp'
  have hpn : p < d.np := by rw [np_eq]; exact hp'
  have hB : bP s.inp d (selected s.inp b) d.mnq (gridT d p) (gridZ d p) =
      S.B (gridT d p) (gridZ d p) := bP_real h hp _ _ _
  have hB0 := hreg.2 (gridT d p) (gridZ d p)
  refine ⟨_, _, Vec.rdN_tab hpn, Vec.rdN_tab hpn, ?_, ?_, ?_⟩
  · rw [hB, gridT_eq, gridZ_eq]
  · rw [hB]; exact hB0
  · unfold jacB
    rw [gi_real h ho, hB, div_mul_cancel₀ _ (mul_ne_zero hB0 hB0)]

/-- The object with |B| multiplied by `c`. -/
def Spec.scaleB (c : ℝ) (s : St ℝ) : St ℝ :=
  { s with inp := { s.inp with bmnc := s.inp.bmnc.scale c, bmns := s.inp.bmns.scale c } }

theorem RunReady.scaleB (h : RunReady s.inp d) (c : ℝ) : RunReady (scaleB c s).inp d :=
  { h with
    bmnc := h.bmnc.scale c
    bmns := fun ha => (h.bmns ha).scale c }

theorem surface_scaleB (c : ℝ) (a : Bool) (js : ℕ) :
    surface (scaleB c s).inp a js =
      { surface s.inp a js with B := fun θ ζ => c * (surface s.inp a js).B θ ζ } := by
  unfold surface
  rw [Surface.mk.injEq]
  refine ⟨rfl, rfl, rfl, rfl, rfl, rfl, rfl, ?_⟩
  funext θ ζ
  exact series_mul _ _ _ c _ _ _ _ (fun k _ => Mat.val_scale _ _ _ _)
    (fun k _ => by rw [← onlyIf_mul]; exact congrArg _ (Mat.val_scale _ _ _ _)) θ ζ

/-- **C20, scaling.** Multiplying |B| alone by `c ≠ 0` divides the Jacobian harmonics by `c²`. (That
they are the spectrum of `(G + iota I)/B²` is part of C16.) -/
theorem C20_scaling {dbg : Bool} (h : RunReady s.inp d) (hp : FieldPeriodic s.inp d.nfp)
    (ho : OriginOnce s.inp) (_hreg : ∀ b < d.nsb, (surface s.inp d.asym (selected s.inp b)).Regular)
    {c : ℝ} (_hc : c ≠ 0) :
    ∃ s₁ r₁ s₂ r₂, run dbg s = .ok (s₁, r₁) ∧ run dbg (scaleB c s) = .ok (s₂, r₂) ∧
      Mapped (numModes d.M d.N) d.nsb (· / c ^ 2) s₁.out.spec.gmnc_b s₂.out.spec.gmnc_b ∧
      (d.asym = true →
        Mapped (numModes d.M d.N) d.nsb (· / c ^ 2) s₁.out.spec.gmns_b s₂.out.spec.gmns_b) := by
  refine ⟨_, _, _, _, originFirst_of h ho dbg, originFirst_of (s := scaleB c s) (h.scaleB c) ho dbg, ?_⟩
  have key : ∀ js, SameAngles (surface (scaleB c s).inp d.asym js) (surface s.inp d.asym js) ∧
      (surface (scaleB c s).inp d.asym js).jacobian =
        fun θ ζ => (1 / c ^ 2) * (surface s.inp d.asym js).jacobian θ ζ := by
    intro js
    rw [surface_scaleB]
    refine ⟨⟨rfl, rfl, rfl⟩, ?_⟩
    funext θ ζ
    unfold Surface.jacobian
    simp only [mul_pow, one_div]
    rw [div_mul_eq_div_div, div_div, mul_comm (c ^ 2), ← div_div, div_eq_inv_mul _ (c ^ 2)]
  have sel : ∀ b, selected (scaleB c s).inp b = selected s.inp b := fun _ => rfl
  constructor
  · intro k hk b hb
    have hk : k < d.nmodes := hk
    have e1 := (spectrum_at h hp ho hb hk).2.2.2.2.1
    have e2 := (spectrum_at (s := scaleB c s) (h.scaleB c) hp ho hb hk).2.2.2.2.1
    rw [sel, (key _).1.quadCos, (key _).2, quadCos_mul] at e2
    refine ⟨_, e1, ?_⟩
    rw [e2]; congr 1; ring
  · intro ha k hk b hb
    have hk : k < d.nmodes := hk
    have e1 := ((spectrum_at h hp ho hb hk).2.2.2.2.2 ha).2.2.2.2
    have e2 := ((spectrum_at (s := scaleB c s) (h.scaleB c) hp ho hb hk).2.2.2.2.2 ha).2.2.2.2
    rw [sel, (key _).1.quadSin, (key _).2, quadSin_mul] at e2
    refine ⟨_, e1, ?_⟩
    rw [e2]; congr 1; ring

/-! Non-vacuity of C20. -/

example (dbg asym : Bool) : ∃ L, workOf dbg 0 (Ex.st (α := ℝ) asym) = .ok L := by
  obtain ⟨L, h, -⟩ := C20_product (dbg := dbg) (s := Ex.st asym) (d := Ex.dims asym) (b := 0)
    (Ex.ready asym) (Ex.fieldPeriodic asym) (Ex.originOnce asym) (by show 0 < 2; decide)
    (Ex.regular asym (Ex.selected_lt asym 0 (by decide)))
  exact ⟨L, h⟩

example (dbg asym : Bool) : ∃ s₂ r₂, run dbg (scaleB 3 (Ex.st (α := ℝ) asym)) = .ok (s₂, r₂) := by
  obtain ⟨_, _, s₂, r₂, -, h, -⟩ := C20_scaling (dbg := dbg) (s := Ex.st asym) (d := Ex.dims asym)
    (Ex.ready asym) (Ex.fieldPeriodic asym) (Ex.originOnce asym)
    (fun b hb => Ex.regular asym (Ex.selected_lt asym b hb)) (c := 3) (by norm_num)
  exact ⟨s₂, r₂, h⟩

/-! ### C31 -/

/-- The object with the harmonics of R replaced. -/
def Spec.setR (A A' : Mat ℝ) (s : St ℝ) : St ℝ :=
  { s with inp := { s.inp with rmnc := A, rmns := A' } }
/-- The object with the harmonics of Z replaced. -/
def Spec.setZ (A A' : Mat ℝ) (s : St ℝ) : St ℝ :=
  { s with inp := { s.inp with zmns := A, zmnc := A' } }
/-- The object with the harmonics of |B| replaced. -/
def Spec.setB (A A' : Mat ℝ) (s : St ℝ) : St ℝ :=
  { s with inp := { s.inp with bmnc := A, bmns := A' } }

theorem LinComb.val {K n : ℕ} {x y : ℝ} {A B C : Mat ℝ} (h : LinComb K n x y A B C) {k j : ℕ} (hk : k < K)
    (hj : j < n) (hA : A.Full K n) (hB : B.Full K n) (hC : C.Full K n) :
    entry C k j = x * entry A k j + y * entry B k j := by
  obtain ⟨a, b, h1, h2, h3⟩ := h k hk j hj
  rw [Mat.Full.rdN 0 hA hk hj] at h1
  rw [Mat.Full.rdN 0 hB hk hj] at h2
  rw [Mat.Full.rdN 0 hC hk hj] at h3
  injection h1 with h1
  injection h2 with h2
  injection h3 with h3
  show C.val 0 k j = x * A.val 0 k j + y * B.val 0 k j
  rw [h1, h2, h3]

theorem sel_lt (h : RunReady s.inp d) {b : ℕ} (hb : b < d.nsb) : selected s.inp b < d.ns := by
  have := h.surfs_range b hb
  unfold selected; omega

/-- The outputs of a run, expressed with a surface `T` that has the same angle map. -/
theorem spectrum_via {T : Surface} {R Z B : ℝ → ℝ → ℝ} {s : St ℝ} (h : RunReady s.inp d)
    (hp : FieldPeriodic s.inp d.nfp) (ho : OriginOnce s.inp) {b k : ℕ} (hb : b < d.nsb) (hk : k < d.nmodes)
    (e : surface s.inp d.asym (selected s.inp b) = { T with R := R, Z := Z, B := B }) :
    let m : ℤ := modeM d.N k
    let n : ℤ := modeN d.N k * d.nfp
    let C := T.quadCos (ntheta d.M) (nzeta d.N) d.nfp
    let D := T.quadSin (ntheta d.M) (nzeta d.N) d.nfp
    let J := fun θ ζ => (T.G + T.iota * T.I) / B θ ζ ^ 2
    let o := (runSt d s d.nsb).out.spec
    o.bmnc_b.rdN k b = .ok (C B m n) ∧ o.rmnc_b.rdN k b = .ok (C R m n) ∧
    o.zmns_b.rdN k b = .ok (D Z m n) ∧ o.numns_b.rdN k b = .ok (D T.nu m n) ∧
    o.gmnc_b.rdN k b = .ok (C J m n) ∧
    (d.asym = true → o.bmns_b.rdN k b = .ok (D B m n) ∧ o.rmns_b.rdN k b = .ok (D R m n) ∧
      o.zmnc_b.rdN k b = .ok (C Z m n) ∧ o.numnc_b.rdN k b = .ok (C T.nu m n) ∧
      o.gmns_b.rdN k b = .ok (D J m n)) := by
  have H := spectrum_at h hp ho hb hk
  have sa : SameAngles { T with R := R, Z := Z, B := B } T := ⟨rfl, rfl, rfl⟩
  simp only [e, sa.quadCos, sa.quadSin] at H
  exact H

/-- All ten spectra except those of R agree. -/
def Spec.SameButR (K n : ℕ) (asym : Bool) (o₁ o₂ : Spectra ℝ) : Prop :=
  Mapped K n id o₁.bmnc_b o₂.bmnc_b ∧ Mapped K n id o₁.zmns_b o₂.zmns_b ∧
  Mapped K n id o₁.numns_b o₂.numns_b ∧ Mapped K n id o₁.gmnc_b o₂.gmnc_b ∧
  (asym = true → Mapped K n id o₁.bmns_b o₂.bmns_b ∧ Mapped K n id o₁.zmnc_b o₂.zmnc_b ∧
    Mapped K n id o₁.numnc_b o₂.numnc_b ∧ Mapped K n id o₁.gmns_b o₂.gmns_b)
/-- All ten spectra except those of Z agree. -/
def Spec.SameButZ (K n : ℕ) (asym : Bool) (o₁ o₂ : Spectra ℝ) : Prop :=
  Mapped K n id o₁.bmnc_b o₂.bmnc_b ∧ Mapped K n id o₁.rmnc_b o₂.rmnc_b ∧
  Mapped K n id o₁.numns_b o₂.numns_b ∧ Mapped K n id o₁.gmnc_b o₂.gmnc_b ∧
  (asym = true → Mapped K n id o₁.bmns_b o₂.bmns_b ∧ Mapped K n id o₁.rmns_b o₂.rmns_b ∧
    Mapped K n id o₁.numnc_b o₂.numnc_b ∧ Mapped K n id o₁.gmns_b o₂.gmns_b)
/-- All ten spectra except those of |B| and the Jacobian agree. -/
def Spec.SameButB (K n : ℕ) (asym : Bool) (o₁ o₂ : Spectra ℝ) : Prop :=
  Mapped K n id o₁.rmnc_b o₂.rmnc_b ∧ Mapped K n id o₁.zmns_b o₂.zmns_b ∧
  Mapped K n id o₁.numns_b o₂.numns_b ∧
  (asym = true → Mapped K n id o₁.rmns_b o₂.rmns_b ∧ Mapped K n id o₁.zmnc_b o₂.zmnc_b ∧
    Mapped K n id o₁.numnc_b o₂.numnc_b)

/-- **C31 for R.** With everything else fixed, the harmonics of R in the output depend linearly on
the input harmonics of R, and no other output depends on them. -/
theorem C31_linear_R {dbg : Bool} {A A' B B' C C' : Mat ℝ} {x y : ℝ}
    (h₁ : RunReady (setR A A' s).inp d) (h₂ : RunReady (setR B B' s).inp d)
    (h₃ : RunReady (setR C C' s).inp d) (hp : FieldPeriodic s.inp d.nfp) (ho : OriginOnce s.inp)
    (_hreg : ∀ b < d.nsb, (surface s.inp d.asym (selected s.inp b)).Regular)
    (hl : LinComb d.mnmax d.ns x y A B C) (hl' : d.asym = true → LinComb d.mnmax d.ns x y A' B' C') :
    ∃ s₁ r₁ s₂ r₂ s₃ r₃, run dbg (setR A A' s) = .ok (s₁, r₁) ∧ run dbg (setR B B' s) = .ok (s₂, r₂) ∧
      run dbg (setR C C' s) = .ok (s₃, r₃) ∧
      LinComb (numModes d.M d.N) d.nsb x y s₁.out.spec.rmnc_b s₂.out.spec.rmnc_b s₃.out.spec.rmnc_b ∧
      (d.asym = true → LinComb (numModes d.M d.N) d.nsb x y s₁.out.spec.rmns_b s₂.out.spec.rmns_b
        s₃.out.spec.rmns_b) ∧
      SameButR (numModes d.M d.N) d.nsb d.asym s₁.out.spec s₂.out.spec := by
  refine ⟨_, _, _, _, _, _, originFirst_of h₁ ho dbg, originFirst_of h₂ ho dbg,
    originFirst_of h₃ ho dbg, ?_⟩
  have lin : ∀ b < d.nsb, (surface (setR C C' s).inp d.asym (selected s.inp b)).R = fun θ ζ =>
      x * (surface (setR A A' s).inp d.asym (selected s.inp b)).R θ ζ +
      y * (surface (setR B B' s).inp d.asym (selected s.inp b)).R θ ζ := by
    intro b hb
    have hs : selected s.inp b < d.ns := sel_lt h₁ hb
    funext θ ζ
    have hsz : (setR C C' s).inp.xm.size = d.mnmax := h₃.xm.1
    refine series_lin _ _ _ x y _ _ _ _ _ _ (fun k hk => ?_) (fun k hk => ?_) θ ζ
    · rw [hsz] at hk
      exact LinComb.val hl hk hs h₁.rmnc h₂.rmnc h₃.rmnc
    · rw [hsz] at hk
      cases ha : d.asym
      · simp [onlyIf]
      · simp only [onlyIf, if_true]
        exact LinComb.val (hl' ha) hk hs (h₁.rmns ha) (h₂.rmns ha) (h₃.rmns ha)
  have base : ∀ (A A' : Mat ℝ) (js : ℕ), surface (setR A A' s).inp d.asym js =
      { surface s.inp d.asym js with R := (surface (setR A A' s).inp d.asym js).R } := fun _ _ _ => rfl
  have g₁ := fun (k : ℕ) (hk : k < d.nmodes) (b : ℕ) (hb : b < d.nsb) =>
    spectrum_via (T := surface s.inp d.asym (selected s.inp b)) h₁ hp ho hb hk (base A A' _)
  have g₂ := fun (k : ℕ) (hk : k < d.nmodes) (b : ℕ) (hb : b < d.nsb) =>
    spectrum_via (T := surface s.inp d.asym (selected s.inp b)) h₂ hp ho hb hk (base B B' _)
  have g₃ := fun (k : ℕ) (hk : k < d.nmodes) (b : ℕ) (hb : b < d.nsb) =>
    spectrum_via (T := surface s.inp d.asym (selected s.inp b)) h₃ hp ho hb hk (base C C' _)
  refine ⟨fun k hk b hb => ?_, fun ha k hk b hb => ?_, ?_⟩
  · have e₃ := (g₃ k hk b hb).2.1
    rw [show (surface (setR C C' s).inp d.asym (selected (setR C C' s).inp b)).R = _ from
      lin b hb, quadCos_lin] at e₃
    exact ⟨_, _, (g₁ k hk b hb).2.1, (g₂ k hk b hb).2.1, e₃⟩
  · have e₃ := ((g₃ k hk b hb).2.2.2.2.2 ha).2.1
    rw [show (surface (setR C C' s).inp d.asym (selected (setR C C' s).inp b)).R = _ from
      lin b hb, quadSin_lin] at e₃
    exact ⟨_, _, ((g₁ k hk b hb).2.2.2.2.2 ha).2.1, ((g₂ k hk b hb).2.2.2.2.2 ha).2.1, e₃⟩
  · exact ⟨fun k hk b hb => ⟨_, (g₁ k hk b hb).1, (g₂ k hk b hb).1⟩,
      fun k hk b hb => ⟨_, (g₁ k hk b hb).2.2.1, (g₂ k hk b hb).2.2.1⟩,
      fun k hk b hb => ⟨_, (g₁ k hk b hb).2.2.2.1, (g₂ k hk b hb).2.2.2.1⟩,
      fun k hk b hb => ⟨_, (g₁ k hk b hb).2.2.2.2.1, (g₂ k hk b hb).2.2.2.2.1⟩,
      fun ha => ⟨fun k hk b hb => ⟨_, ((g₁ k hk b hb).2.2.2.2.2 ha).1, ((g₂ k hk b hb).2.2.2.2.2 ha).1⟩,
      fun k hk b hb => ⟨_, ((g₁ k hk b hb).2.2.2.2.2 ha).2.2.1, ((g₂ k hk b hb).2.2.2.2.2 ha).2.2.1⟩,
      fun k hk b hb => ⟨_, ((g₁ k hk b hb).2.2.2.2.2 ha).2.2.2.1, ((g₂ k hk b hb).2.2.2.2.2 ha).2.2.2.1⟩,
      fun k hk b hb => ⟨_, ((g₁ k hk b hb).2.2.2.2.2 ha).2.2.2.2, ((g₂ k hk b hb).2.2.2.2.2 ha).2.2.2.2⟩⟩⟩

/-- **C31 for Z.** With everything else fixed, the harmonics of Z in the output depend linearly on
the input harmonics of Z, and no other output depends on them. -/
theorem C31_linear_Z {dbg : Bool} {A A' B B' C C' : Mat ℝ} {x y : ℝ}
    (h₁ : RunReady (setZ A A' s).inp d) (h₂ : RunReady (setZ B B' s).inp d)
    (h₃ : RunReady (setZ C C' s).inp d) (hp : FieldPeriodic s.inp d.nfp) (ho : OriginOnce s.inp)
    (_hreg : ∀ b < d.nsb, (surface s.inp d.asym (selected s.inp b)).Regular)
    (hl : LinComb d.mnmax d.ns x y A B C) (hl' : d.asym = true → LinComb d.mnmax d.ns x y A' B' C') :
    ∃ s₁ r₁ s₂ r₂ s₃ r₃, run dbg (setZ A A' s) = .ok (s₁, r₁) ∧ run dbg (setZ B B' s) = .ok (s₂, r₂) ∧
      run dbg (setZ C C' s) = .ok (s₃, r₃) ∧
      LinComb (numModes d.M d.N) d.nsb x y s₁.out.spec.zmns_b s₂.out.spec.zmns_b s₃.out.spec.zmns_b ∧
      (d.asym = true → LinComb (numModes d.M d.N) d.nsb x y s₁.out.spec.zmnc_b s₂.out.spec.zmnc_b
        s₃.out.spec.zmnc_b) ∧
      SameButZ (numModes d.M d.N) d.nsb d.asym s₁.out.spec s₂.out.spec := by
  refine ⟨_, _, _, _, _, _, originFirst_of h₁ ho dbg, originFirst_of h₂ ho dbg,
    originFirst_of h₃ ho dbg, ?_⟩
  have lin : ∀ b < d.nsb, (surface (setZ C C' s).inp d.asym (selected s.inp b)).Z = fun θ ζ =>
      x * (surface (setZ A A' s).inp d.asym (selected s.inp b)).Z θ ζ +
      y * (surface (setZ B B' s).inp d.asym (selected s.inp b)).Z θ ζ := by
    intro b hb
    have hs : selected s.inp b < d.ns := sel_lt h₁ hb
    funext θ ζ
    have hsz : (setZ C C' s).inp.xm.size = d.mnmax := h₃.xm.1
    refine series_lin _ _ _ x y _ _ _ _ _ _ (fun k hk => ?_) (fun k hk => ?_) θ ζ
    · rw [hsz] at hk
      cases ha : d.asym
      · simp [onlyIf]
      · simp only [onlyIf, if_true]
        exact LinComb.val (hl' ha) hk hs (h₁.zmnc ha) (h₂.zmnc ha) (h₃.zmnc ha)
    · rw [hsz] at hk
      exact LinComb.val hl hk hs h₁.zmns h₂.zmns h₃.zmns
  have base : ∀ (A A' : Mat ℝ) (js : ℕ), surface (setZ A A' s).inp d.asym js =
      { surface s.inp d.asym js with Z := (surface (setZ A A' s).inp d.asym js).Z } := fun _ _ _ => rfl
  have g₁ := fun (k : ℕ) (hk : k < d.nmodes) (b : ℕ) (hb : b < d.nsb) =>
    spectrum_via (T := surface s.inp d.asym (selected s.inp b)) h₁ hp ho hb hk (base A A' _)
  have g₂ := fun (k : ℕ) (hk : k < d.nmodes) (b : ℕ) (hb : b < d.nsb) =>
    spectrum_via (T := surface s.inp d.asym (selected s.inp b)) h₂ hp ho hb hk (base B B' _)
  have g₃ := fun (k : ℕ) (hk : k < d.nmodes) (b : ℕ) (hb : b < d.nsb) =>
    spectrum_via (T := surface s.inp d.asym (selected s.inp b)) h₃ hp ho hb hk (base C C' _)
  refine ⟨fun k hk b hb => ?_, fun ha k hk b hb => ?_, ?_⟩
  · have e₃ := (g₃ k hk b hb).2.2.1
    rw [show (surface (setZ C C' s).inp d.asym (selected (setZ C C' s).inp b)).Z = _ from
      lin b hb, quadSin_lin] at e₃
    exact ⟨_, _, (g₁ k hk b hb).2.2.1, (g₂ k hk b hb).2.2.1, e₃⟩
  · have e₃ := ((g₃ k hk b hb).2.2.2.2.2 ha).2.2.1
    rw [show (surface (setZ C C' s).inp d.asym (selected (setZ C C' s).inp b)).Z = _ from
      lin b hb, quadCos_lin] at e₃
    exact ⟨_, _, ((g₁ k hk b hb).2.2.2.2.2 ha).2.2.1, ((g₂ k hk b hb).2.2.2.2.2 ha).2.2.1, e₃⟩
  · exact ⟨fun k hk b hb => ⟨_, (g₁ k hk b hb).1, (g₂ k hk b hb).1⟩,
      fun k hk b hb => ⟨_, (g₁ k hk b hb).2.1, (g₂ k hk b hb).2.1⟩,
      fun k hk b hb => ⟨_, (g₁ k hk b hb).2.2.2.1, (g₂ k hk b hb).2.2.2.1⟩,
      fun k hk b hb => ⟨_, (g₁ k hk b hb).2.2.2.2.1, (g₂ k hk b hb).2.2.2.2.1⟩,
      fun ha => ⟨fun k hk b hb => ⟨_, ((g₁ k hk b hb).2.2.2.2.2 ha).1, ((g₂ k hk b hb).2.2.2.2.2 ha).1⟩,
      fun k hk b hb => ⟨_, ((g₁ k hk b hb).2.2.2.2.2 ha).2.1, ((g₂ k hk b hb).2.2.2.2.2 ha).2.1⟩,
      fun k hk b hb => ⟨_, ((g₁ k hk b hb).2.2.2.2.2 ha).2.2.2.1, ((g₂ k hk b hb).2.2.2.2.2 ha).2.2.2.1⟩,
      fun k hk b hb => ⟨_, ((g₁ k hk b hb).2.2.2.2.2 ha).2.2.2.2, ((g₂ k hk b hb).2.2.2.2.2 ha).2.2.2.2⟩⟩⟩

/-- **C31 for |B|.** With everything else fixed, the harmonics of |B| in the output depend linearly on
the input harmonics of |B|, and no other output (except the Jacobian) depends on them. -/
theorem C31_linear_B {dbg : Bool} {A A' B B' C C' : Mat ℝ} {x y : ℝ}
    (h₁ : RunReady (setB A A' s).inp d) (h₂ : RunReady (setB B B' s).inp d)
    (h₃ : RunReady (setB C C' s).inp d) (hp : FieldPeriodic s.inp d.nfp) (ho : OriginOnce s.inp)
    (_hreg : ∀ b < d.nsb, (surface s.inp d.asym (selected s.inp b)).Regular)
    (hl : LinComb d.mnq d.ns x y A B C) (hl' : d.asym = true → LinComb d.mnq d.ns x y A' B' C') :
    ∃ s₁ r₁ s₂ r₂ s₃ r₃, run dbg (setB A A' s) = .ok (s₁, r₁) ∧ run dbg (setB B B' s) = .ok (s₂, r₂) ∧
      run dbg (setB C C' s) = .ok (s₃, r₃) ∧
      LinComb (numModes d.M d.N) d.nsb x y s₁.out.spec.bmnc_b s₂.out.spec.bmnc_b s₃.out.spec.bmnc_b ∧
      (d.asym = true → LinComb (numModes d.M d.N) d.nsb x y s₁.out.spec.bmns_b s₂.out.spec.bmns_b
        s₃.out.spec.bmns_b) ∧
      SameButB (numModes d.M d.N) d.nsb d.asym s₁.out.spec s₂.out.spec := by
  refine ⟨_, _, _, _, _, _, originFirst_of h₁ ho dbg, originFirst_of h₂ ho dbg,
    originFirst_of h₃ ho dbg, ?_⟩
  have lin : ∀ b < d.nsb, (surface (setB C C' s).inp d.asym (selected s.inp b)).B = fun θ ζ =>
      x * (surface (setB A A' s).inp d.asym (selected s.inp b)).B θ ζ +
      y * (surface (setB B B' s).inp d.asym (selected s.inp b)).B θ ζ := by
    intro b hb
    have hs : selected s.inp b < d.ns := sel_lt h₁ hb
    funext θ ζ
    have hsz : (setB C C' s).inp.xm_nyq.size = d.mnq := h₃.xm_nyq.1
    refine series_lin _ _ _ x y _ _ _ _ _ _ (fun k hk => ?_) (fun k hk => ?_) θ ζ
    · rw [hsz] at hk
      exact LinComb.val hl hk hs h₁.bmnc h₂.bmnc h₃.bmnc
    · rw [hsz] at hk
      cases ha : d.asym
      · simp [onlyIf]
      · simp only [onlyIf, if_true]
        exact LinComb.val (hl' ha) hk hs (h₁.bmns ha) (h₂.bmns ha) (h₃.bmns ha)
  have base : ∀ (A A' : Mat ℝ) (js : ℕ), surface (setB A A' s).inp d.asym js =
      { surface s.inp d.asym js with B := (surface (setB A A' s).inp d.asym js).B } := fun _ _ _ => rfl
  have g₁ := fun (k : ℕ) (hk : k < d.nmodes) (b : ℕ) (hb : b < d.nsb) =>
    spectrum_via (T := surface s.inp d.asym (selected s.inp b)) h₁ hp ho hb hk (base A A' _)
  have g₂ := fun (k : ℕ) (hk : k < d.nmodes) (b : ℕ) (hb : b < d.nsb) =>
    spectrum_via (T := surface s.inp d.asym (selected s.inp b)) h₂ hp ho hb hk (base B B' _)
  have g₃ := fun (k : ℕ) (hk : k < d.nmodes) (b : ℕ) (hb : b < d.nsb) =>
    spectrum_via (T := surface s.inp d.asym (selected s.inp b)) h₃ hp ho hb hk (base C C' _)
  refine ⟨fun k hk b hb => ?_, fun ha k hk b hb => ?_, ?_⟩
  · have e₃ := (g₃ k hk b hb).1
    rw [show (surface (setB C C' s).inp d.asym (selected (setB C C' s).inp b)).B = _ from
      lin b hb, quadCos_lin] at e₃
    exact ⟨_, _, (g₁ k hk b hb).1, (g₂ k hk b hb).1, e₃⟩
  · have e₃ := ((g₃ k hk b hb).2.2.2.2.2 ha).1
    rw [show (surface (setB C C' s).inp d.asym (selected (setB C C' s).inp b)).B = _ from
      lin b hb, quadSin_lin] at e₃
    exact ⟨_, _, ((g₁ k hk b hb).2.2.2.2.2 ha).1, ((g₂ k hk b hb).2.2.2.2.2 ha).1, e₃⟩
  · exact ⟨fun k hk b hb => ⟨_, (g₁ k hk b hb).2.1, (g₂ k hk b hb).2.1⟩,
      fun k hk b hb => ⟨_, (g₁ k hk b hb).2.2.1, (g₂ k hk b hb).2.2.1⟩,
      fun k hk b hb => ⟨_, (g₁ k hk b hb).2.2.2.1, (g₂ k hk b hb).2.2.2.1⟩,
      fun ha => ⟨fun k hk b hb => ⟨_, ((g₁ k hk b hb).2.2.2.2.2 ha).2.1, ((g₂ k hk b hb).2.2.2.2.2 ha).2.1⟩,
      fun k hk b hb => ⟨_, ((g₁ k hk b hb).2.2.2.2.2 ha).2.2.1, ((g₂ k hk b hb).2.2.2.2.2 ha).2.2.1⟩,
      fun k hk b hb => ⟨_, ((g₁ k hk b hb).2.2.2.2.2 ha).2.2.2.1, ((g₂ k hk b hb).2.2.2.2.2 ha).2.2.2.1⟩⟩⟩

/-! Non-vacuity of C31: three versions of the example object. -/

theorem linComb_scale {A : Mat ℝ} {K n : ℕ} (h : A.Full K n) (x y c : ℝ) :
    LinComb K n x y A (A.scale c) (A.scale (x + y * c)) := by
  intro k hk j hj
  refine ⟨_, _, h.rdN 0 hk hj, (h.scale c).rdN 0 hk hj, ?_⟩
  rw [(h.scale _).rdN 0 hk hj, Mat.val_scale, Mat.val_scale]
  congr 1; ring

example (dbg asym : Bool) :
    let A := (Ex.inputs (α := ℝ) asym).rmnc
    let A' := (Ex.inputs (α := ℝ) asym).rmns
    ∃ s₃ r₃, run dbg (setR (A.scale (2 + 3 * 5)) (A'.scale (2 + 3 * 5)) (Ex.st asym)) = .ok (s₃, r₃) := by
  intro A A'
  have h := Ex.ready (α := ℝ) asym
  have hc : ∀ c, RunReady (setR (A.scale c) (A'.scale c) (Ex.st asym)).inp (Ex.dims asym) := fun c =>
    { h with rmnc := h.rmnc.scale c, rmns := fun ha => (h.rmns ha).scale c }
  obtain ⟨_, _, _, _, s₃, r₃, -, -, e, -⟩ := C31_linear_R (dbg := dbg) (s := Ex.st asym) (d := Ex.dims asym)
    (A := A) (A' := A') (B := A.scale 5) (B' := A'.scale 5) (x := 2) (y := 3) h (hc 5) (hc (2 + 3 * 5))
    (Ex.fieldPeriodic asym) (Ex.originOnce asym)
    (fun b hb => Ex.regular asym (Ex.selected_lt asym b hb))
    (linComb_scale h.rmnc 2 3 5) (fun ha => linComb_scale (h.rmns ha) 2 3 5)
  exact ⟨s₃, r₃, e⟩

example (dbg asym : Bool) :
    let A := (Ex.inputs (α := ℝ) asym).zmns
    let A' := (Ex.inputs (α := ℝ) asym).zmnc
    ∃ s₃ r₃, run dbg (setZ (A.scale (2 + 3 * 5)) (A'.scale (2 + 3 * 5)) (Ex.st asym)) = .ok (s₃, r₃) := by
  intro A A'
  have h := Ex.ready (α := ℝ) asym
  have hc : ∀ c, RunReady (setZ (A.scale c) (A'.scale c) (Ex.st asym)).inp (Ex.dims asym) := fun c =>
    { h with zmns := h.zmns.scale c, zmnc := fun ha => (h.zmnc ha).scale c }
  obtain ⟨_, _, _, _, s₃, r₃, -, -, e, -⟩ := C31_linear_Z (dbg := dbg) (s := Ex.st asym) (d := Ex.dims asym)
    (A := A) (A' := A') (B := A.scale 5) (B' := A'.scale 5) (x := 2) (y := 3) h (hc 5) (hc (2 + 3 * 5))
    (Ex.fieldPeriodic asym) (Ex.originOnce asym)
    (fun b hb => Ex.regular asym (Ex.selected_lt asym b hb))
    (linComb_scale h.zmns 2 3 5) (fun ha => linComb_scale (h.zmnc ha) 2 3 5)
  exact ⟨s₃, r₃, e⟩

example (dbg asym : Bool) :
    let A := (Ex.inputs (α := ℝ) asym).bmnc
    let A' := (Ex.inputs (α := ℝ) asym).bmns
    ∃ s₃ r₃, run dbg (setB (A.scale (2 + 3 * 5)) (A'.scale (2 + 3 * 5)) (Ex.st asym)) = .ok (s₃, r₃) := by
  intro A A'
  have h := Ex.ready (α := ℝ) asym
  have hc : ∀ c, RunReady (setB (A.scale c) (A'.scale c) (Ex.st asym)).inp (Ex.dims asym) := fun c =>
    { h with bmnc := h.bmnc.scale c, bmns := fun ha => (h.bmns ha).scale c }
  obtain ⟨_, _, _, _, s₃, r₃, -, -, e, -⟩ := C31_linear_B (dbg := dbg) (s := Ex.st asym) (d := Ex.dims asym)
    (A := A) (A' := A') (B := A.scale 5) (B' := A'.scale 5) (x := 2) (y := 3) h (hc 5) (hc (2 + 3 * 5))
    (Ex.fieldPeriodic asym) (Ex.originOnce asym)
    (fun b hb => Ex.regular asym (Ex.selected_lt asym b hb))
    (linComb_scale h.bmnc 2 3 5) (fun ha => linComb_scale (h.bmns ha) 2 3 5)
  exact ⟨s₃, r₃, e⟩

end

end Booz
