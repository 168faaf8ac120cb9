import Verif.Props.Covariance

/-!
# C22, C32, C55: symmetries of the transformation (exact arithmetic)
-/

namespace Booz
open Spec

section
variable {s : St ℝ} {d : Dims}

theorem mapped_of {K n : ℕ} {f : ℝ → ℝ} {A B : Mat ℝ} {F G : ℕ → ℕ → ℝ}
    (hA : ∀ k < K, ∀ b < n, A.rdN k b = .ok (F k b)) (hB : ∀ k < K, ∀ b < n, B.rdN k b = .ok (G k b))
    (e : ∀ k < K, ∀ b < n, G k b = f (F k b)) : Mapped K n f A B := by
  intro k hk b hb
  exact ⟨_, hA k hk b hb, by rw [hB k hk b hb, e k hk b hb]⟩

/-! ### C32 -/

/-- The object with the magnetic field multiplied by `c`: |B| and both covariant components. -/
def Spec.scaleField (c : ℝ) (s : St ℝ) : St ℝ :=
  { s with inp := { s.inp with
      bmnc := s.inp.bmnc.scale c, bmns := s.inp.bmns.scale c
      bsubumnc := s.inp.bsubumnc.scale c, bsubumns := s.inp.bsubumns.scale c
      bsubvmnc := s.inp.bsubvmnc.scale c, bsubvmns := s.inp.bsubvmns.scale c } }

theorem RunReady.scaleField (h : RunReady s.inp d) (c : ℝ) : RunReady (scaleField c s).inp d :=
  { h with
    bmnc := h.bmnc.scale c
    bmns := fun ha => (h.bmns ha).scale c
    bsubumnc := h.bsubumnc.scale c
    bsubumns := fun ha => (h.bsubumns ha).scale c
    bsubvmnc := h.bsubvmnc.scale c
    bsubvmns := fun ha => (h.bsubvmns ha).scale c }

theorem surface_scaleField (c : ℝ) (a : Bool) (js : ℕ) :
    let S := surface s.inp a js
    surface (scaleField c s).inp a js = { S with
      I := c * S.I, G := c * S.G
      w := fun θ ζ => c * S.w θ ζ
      B := fun θ ζ => c * S.B θ ζ } := by
  intro S
  show Surface.mk _ _ _ _ _ _ _ _ = _
  rw [Surface.mk.injEq]
  refine ⟨rfl, Mat.val_scale _ _ _ _, Mat.val_scale _ _ _ _, rfl, ?_, rfl, rfl, ?_⟩
  · funext θ ζ
    refine series_mul _ _ _ c _ _ _ _ (fun k _ => ?_) (fun k _ => ?_) θ ζ
    · rw [← onlyIf_mul, ← wCos_mul]
      exact congrArg _ (congrArg₂ _ (Mat.val_scale _ _ _ _) (Mat.val_scale _ _ _ _))
    · rw [← wSin_mul]
      exact congrArg₂ _ (Mat.val_scale _ _ _ _) (Mat.val_scale _ _ _ _)
  · funext θ ζ
    exact series_mul _ _ _ c _ _ _ _ (fun k _ => Mat.val_scale _ _ _ _)
      (fun k _ => by rw [← onlyIf_mul]; exact congrArg _ (Mat.val_scale _ _ _ _)) θ ζ

/-- Entries of `w` are `c` times those of `v`. -/
def Spec.VecScaled (n : ℕ) (c : ℝ) (v w : Vec ℝ) : Prop :=
  ∀ j < n, ∃ x, v.rdN j = .ok x ∧ w.rdN j = .ok (c * x)

/-- **C32.** Multiplying the field by `c ≠ 0` multiplies the flux functions and the spectrum of |B| by
`c`, divides that of the Jacobian by `c` and leaves R, Z and ν unchanged. -/
theorem C32_field_scaling {dbg : Bool} (h : RunReady s.inp d) (hp : FieldPeriodic s.inp d.nfp)
    (ho : OriginOnce s.inp) (_hreg : ∀ b < d.nsb, (surface s.inp d.asym (selected s.inp b)).Regular)
    {c : ℝ} (hc : c ≠ 0) :
    let K := numModes d.M d.N
    ∃ s₁ r₁ s₂ r₂, run dbg s = .ok (s₁, r₁) ∧ run dbg (scaleField c s) = .ok (s₂, r₂) ∧
      VecScaled d.ns c s₁.out.boozer_I_all s₂.out.boozer_I_all ∧
      VecScaled d.ns c s₁.out.boozer_G_all s₂.out.boozer_G_all ∧
      VecScaled d.nsb c s₁.out.boozer_I s₂.out.boozer_I ∧
      VecScaled d.nsb c s₁.out.boozer_G s₂.out.boozer_G ∧
      Mapped K d.nsb (c * ·) s₁.out.spec.bmnc_b s₂.out.spec.bmnc_b ∧
      Mapped K d.nsb id s₁.out.spec.rmnc_b s₂.out.spec.rmnc_b ∧
      Mapped K d.nsb id s₁.out.spec.zmns_b s₂.out.spec.zmns_b ∧
      Mapped K d.nsb id s₁.out.spec.numns_b s₂.out.spec.numns_b ∧
      Mapped K d.nsb (· / c) s₁.out.spec.gmnc_b s₂.out.spec.gmnc_b ∧
      (d.asym = true →
        Mapped K d.nsb (c * ·) s₁.out.spec.bmns_b s₂.out.spec.bmns_b ∧
        Mapped K d.nsb id s₁.out.spec.rmns_b s₂.out.spec.rmns_b ∧
        Mapped K d.nsb id s₁.out.spec.zmnc_b s₂.out.spec.zmnc_b ∧
        Mapped K d.nsb id s₁.out.spec.numnc_b s₂.out.spec.numnc_b ∧
        Mapped K d.nsb (· / c) s₁.out.spec.gmns_b s₂.out.spec.gmns_b) := by
  intro K
  have h' := h.scaleField c
  refine ⟨_, _, _, _, originFirst_of h ho dbg, originFirst_of (s := scaleField c s) h' ho dbg, ?_⟩
  have hq : 0 < d.mnq := h.mnmax_nyq_ge
  obtain ⟨-, -, -, -, a1, a2⟩ := C15_flux_functions h ho (originFirst_of h ho false)
  obtain ⟨-, -, -, -, b1, b2⟩ := C15_flux_functions (s := scaleField c s) h' ho
    (originFirst_of (s := scaleField c s) h' ho false)
  have vI : ∀ j < d.ns, ∃ x, s.inp.bsubumnc.rdN 0 j = .ok x ∧
      (s.inp.bsubumnc.scale c).rdN 0 j = .ok (c * x) := fun j hj =>
    ⟨_, h.bsubumnc.rdN 0 hq hj, by rw [(h.bsubumnc.scale c).rdN 0 hq hj, Mat.val_scale]⟩
  have vG : ∀ j < d.ns, ∃ x, s.inp.bsubvmnc.rdN 0 j = .ok x ∧
      (s.inp.bsubvmnc.scale c).rdN 0 j = .ok (c * x) := fun j hj =>
    ⟨_, h.bsubvmnc.rdN 0 hq hj, by rw [(h.bsubvmnc.scale c).rdN 0 hq hj, Mat.val_scale]⟩
  refine ⟨fun j hj => ?_, fun j hj => ?_, fun b hb => ?_, fun b hb => ?_, ?_⟩
  · rw [(a1 j hj).1, (b1 j hj).1]; exact vI j hj
  · rw [(a1 j hj).2, (b1 j hj).2]; exact vG j hj
  · rw [(a2 b hb).1, (b2 b hb).1]; exact vI _ (sel_lt h hb)
  · rw [(a2 b hb).2, (b2 b hb).2]; exact vG _ (sel_lt h hb)
  have key : ∀ js, let S := surface s.inp d.asym js; let T := surface (scaleField c s).inp d.asym js
      SameAngles T S ∧ T.R = S.R ∧ T.Z = S.Z ∧ T.nu = S.nu ∧ T.B = (fun θ ζ => c * S.B θ ζ) ∧
      T.jacobian = fun θ ζ => (1 / c) * S.jacobian θ ζ := by
    intro js S T
    have hT : T = _ := surface_scaleField c d.asym js
    have hnu : T.nu = S.nu := by
      rw [hT]; funext θ ζ
      show (c * S.w θ ζ - c * S.I * S.lam θ ζ) / (c * S.G + S.iota * (c * S.I)) = _
      unfold Surface.nu
      rw [show c * S.w θ ζ - c * S.I * S.lam θ ζ = c * (S.w θ ζ - S.I * S.lam θ ζ) by ring,
        show c * S.G + S.iota * (c * S.I) = c * (S.G + S.iota * S.I) by ring,
        mul_div_mul_left _ _ hc]
    refine ⟨⟨?_, ?_, hnu⟩, ?_, ?_, hnu, ?_, ?_⟩
    · rw [hT]
    · rw [hT]
    · rw [hT]
    · rw [hT]
    · rw [hT]
    · rw [hT]; funext θ ζ
      show (c * S.G + S.iota * (c * S.I)) / (c * S.B θ ζ) ^ 2 = _
      unfold Surface.jacobian
      rw [show c * S.G + S.iota * (c * S.I) = c * (S.G + S.iota * S.I) by ring,
        show (c * S.B θ ζ) ^ 2 = c * (c * S.B θ ζ ^ 2) by ring, mul_div_mul_left _ _ hc,
        one_div, ← div_div, div_right_comm, div_eq_inv_mul]
  have sel : ∀ b, selected (scaleField c s).inp b = selected s.inp b := fun _ => rfl
  have g₁ := fun (k : ℕ) (hk : k < d.nmodes) (b : ℕ) (hb : b < d.nsb) => spectrum_at h hp ho hb hk
  have g₂ := fun (k : ℕ) (hk : k < d.nmodes) (b : ℕ) (hb : b < d.nsb) =>
    spectrum_at (s := scaleField c s) h' hp ho hb hk
  simp only [sel, (key _).1.quadCos, (key _).1.quadSin, (key _).2.1, (key _).2.2.1, (key _).2.2.2.1,
    (key _).2.2.2.2.1, (key _).2.2.2.2.2, quadCos_mul, quadSin_mul] at g₂
  refine ⟨?_, ?_, ?_, ?_, ?_, fun ha => ⟨?_, ?_, ?_, ?_, ?_⟩⟩
  · exact fun k hk b hb => ⟨_, (g₁ k hk b hb).1, (g₂ k hk b hb).1⟩
  · exact fun k hk b hb => ⟨_, (g₁ k hk b hb).2.1, (g₂ k hk b hb).2.1⟩
  · exact fun k hk b hb => ⟨_, (g₁ k hk b hb).2.2.1, (g₂ k hk b hb).2.2.1⟩
  · exact fun k hk b hb => ⟨_, (g₁ k hk b hb).2.2.2.1, (g₂ k hk b hb).2.2.2.1⟩
  · intro k hk b hb
    refine ⟨_, (g₁ k hk b hb).2.2.2.2.1, ?_⟩
    rw [(g₂ k hk b hb).2.2.2.2.1]; congr 1; ring
  · exact fun k hk b hb => ⟨_, ((g₁ k hk b hb).2.2.2.2.2 ha).1, ((g₂ k hk b hb).2.2.2.2.2 ha).1⟩
  · exact fun k hk b hb => ⟨_, ((g₁ k hk b hb).2.2.2.2.2 ha).2.1, ((g₂ k hk b hb).2.2.2.2.2 ha).2.1⟩
  · exact fun k hk b hb => ⟨_, ((g₁ k hk b hb).2.2.2.2.2 ha).2.2.1, ((g₂ k hk b hb).2.2.2.2.2 ha).2.2.1⟩
  · exact fun k hk b hb => ⟨_, ((g₁ k hk b hb).2.2.2.2.2 ha).2.2.2.1, ((g₂ k hk b hb).2.2.2.2.2 ha).2.2.2.1⟩
  · intro k hk b hb
    refine ⟨_, ((g₁ k hk b hb).2.2.2.2.2 ha).2.2.2.2, ?_⟩
    rw [((g₂ k hk b hb).2.2.2.2.2 ha).2.2.2.2]; congr 1; ring

example (dbg asym : Bool) : ∃ s₂ r₂, run dbg (scaleField (-3) (Ex.st (α := ℝ) asym)) = .ok (s₂, r₂) := by
  obtain ⟨_, _, s₂, r₂, -, h, -⟩ := C32_field_scaling (dbg := dbg) (s := Ex.st asym) (d := Ex.dims asym)
    (Ex.ready asym) (Ex.fieldPeriodic asym) (Ex.originOnce asym)
    (fun b hb => Ex.regular asym (Ex.selected_lt asym b hb)) (c := -3) (by norm_num)
  exact ⟨s₂, r₂, h⟩

/-! ### C55 -/

/-- The image of the configuration under (θ, ζ, Z) → (-θ, -ζ, -Z). -/
def Spec.reflect (s : St ℝ) : St ℝ :=
  { s with inp := { s.inp with
      rmns := s.inp.rmns.scale (-1), zmnc := s.inp.zmnc.scale (-1), lmnc := s.inp.lmnc.scale (-1)
      bmns := s.inp.bmns.scale (-1), bsubumns := s.inp.bsubumns.scale (-1)
      bsubvmns := s.inp.bsubvmns.scale (-1) } }

theorem RunReady.reflect (h : RunReady s.inp d) : RunReady (reflect s).inp d :=
  { h with
    rmns := fun ha => (h.rmns ha).scale _
    zmnc := fun ha => (h.zmnc ha).scale _
    lmnc := fun ha => (h.lmnc ha).scale _
    bmns := fun ha => (h.bmns ha).scale _
    bsubumns := fun ha => (h.bsubumns ha).scale _
    bsubvmns := fun ha => (h.bsubvmns ha).scale _ }

theorem reflected (a : Bool) (js : ℕ) :
    Reflected (surface s.inp a js) (surface (Spec.reflect s).inp a js) := by
  have e : ∀ A : Mat ℝ, ∀ k j, onlyIf a (entry (A.scale (-1)) k j) = -onlyIf a (entry A k j) := by
    intro A k j
    show onlyIf a ((A.scale (-1)).val 0 k j) = _
    rw [Mat.val_scale, onlyIf_mul]; ring
  refine ⟨rfl, rfl, rfl, fun θ ζ => ?_, fun θ ζ => ?_, fun θ ζ => ?_, fun θ ζ => ?_, fun θ ζ => ?_⟩
  · exact series_refl' _ _ _ _ _ _ _ (fun k _ => e _ _ _) (fun k _ => rfl) θ ζ
  · refine series_refl' _ _ _ _ _ _ _ (fun k _ => ?_) (fun k _ => rfl) θ ζ
    show onlyIf a (wCos _ _ ((s.inp.bsubumns.scale (-1)).val 0 k js) ((s.inp.bsubvmns.scale (-1)).val 0 k js)) = _
    rw [Mat.val_scale, Mat.val_scale, wCos_mul, onlyIf_mul, neg_one_mul]
    rfl
  · exact series_refl _ _ _ _ _ _ _ (fun k _ => rfl) (fun k _ => e _ _ _) θ ζ
  · exact series_refl' _ _ _ _ _ _ _ (fun k _ => e _ _ _) (fun k _ => rfl) θ ζ
  · exact series_refl _ _ _ _ _ _ _ (fun k _ => rfl) (fun k _ => e _ _ _) θ ζ

/-- **C55.** Reflecting the configuration negates the stellarator-antisymmetric output harmonics and
leaves the symmetric ones unchanged. -/
theorem C55_reflection {dbg : Bool} (h : RunReady s.inp d) (hp : FieldPeriodic s.inp d.nfp)
    (ho : OriginOnce s.inp) (_hreg : ∀ b < d.nsb, (surface s.inp d.asym (selected s.inp b)).Regular)
    (ha : d.asym = true) :
    let K := numModes d.M d.N
    ∃ s₁ r₁ s₂ r₂, run dbg s = .ok (s₁, r₁) ∧ run dbg (Spec.reflect s) = .ok (s₂, r₂) ∧
      Mapped K d.nsb id s₁.out.spec.bmnc_b s₂.out.spec.bmnc_b ∧
      Mapped K d.nsb id s₁.out.spec.rmnc_b s₂.out.spec.rmnc_b ∧
      Mapped K d.nsb id s₁.out.spec.zmns_b s₂.out.spec.zmns_b ∧
      Mapped K d.nsb id s₁.out.spec.numns_b s₂.out.spec.numns_b ∧
      Mapped K d.nsb id s₁.out.spec.gmnc_b s₂.out.spec.gmnc_b ∧
      Mapped K d.nsb (- ·) s₁.out.spec.bmns_b s₂.out.spec.bmns_b ∧
      Mapped K d.nsb (- ·) s₁.out.spec.rmns_b s₂.out.spec.rmns_b ∧
      Mapped K d.nsb (- ·) s₁.out.spec.zmnc_b s₂.out.spec.zmnc_b ∧
      Mapped K d.nsb (- ·) s₁.out.spec.numnc_b s₂.out.spec.numnc_b ∧
      Mapped K d.nsb (- ·) s₁.out.spec.gmns_b s₂.out.spec.gmns_b := by
  intro K
  have h' := h.reflect
  refine ⟨_, _, _, _, originFirst_of h ho dbg, originFirst_of (s := Spec.reflect s) h' ho dbg, ?_⟩
  have sel : ∀ b, selected (Spec.reflect s).inp b = selected s.inp b := fun _ => rfl
  have g₁ := fun (k : ℕ) (hk : k < d.nmodes) (b : ℕ) (hb : b < d.nsb) => spectrum_at h hp ho hb hk
  have g₂ := fun (k : ℕ) (hk : k < d.nmodes) (b : ℕ) (hb : b < d.nsb) =>
    spectrum_at (s := Spec.reflect s) h' hp ho hb hk
  simp only [sel] at g₂
  have R := fun b => reflected (s := s) d.asym (selected s.inp b)
  have nt := ntheta_pos d.M
  have nz := nzeta_pos d.N
  have per := fun b => surf_per h hp d.asym (selected s.inp b)
  have dv := fun k : ℕ => dvd_mul_left (d.nfp : ℤ) (modeN d.N k)
  have qc : ∀ b k, let S := surface s.inp d.asym (selected s.inp b)
      let T := surface (Spec.reflect s).inp d.asym (selected s.inp b)
      ∀ q q' : ℝ → ℝ → ℝ, (∀ θ ζ, q' θ ζ = q (-θ) (-ζ)) → PerF d.nfp q →
      T.quadCos (ntheta d.M) (nzeta d.N) d.nfp q' (modeM d.N k) (modeN d.N k * d.nfp) =
        S.quadCos (ntheta d.M) (nzeta d.N) d.nfp q (modeM d.N k) (modeN d.N k * d.nfp) := by
    intro b k S T q q' hq hper
    exact (R b).quadCos h.nfp_pos nt nz (per b).1 (per b).2.1 hq hper _ _ (dv k)
  have qs : ∀ b k, let S := surface s.inp d.asym (selected s.inp b)
      let T := surface (Spec.reflect s).inp d.asym (selected s.inp b)
      ∀ q q' : ℝ → ℝ → ℝ, (∀ θ ζ, q' θ ζ = q (-θ) (-ζ)) → PerF d.nfp q →
      T.quadSin (ntheta d.M) (nzeta d.N) d.nfp q' (modeM d.N k) (modeN d.N k * d.nfp) =
        -S.quadSin (ntheta d.M) (nzeta d.N) d.nfp q (modeM d.N k) (modeN d.N k * d.nfp) := by
    intro b k S T q q' hq hper
    exact (R b).quadSin h.nfp_pos nt nz (per b).1 (per b).2.1 hq hper _ _ (dv k)
  have neg : ∀ {q : ℝ → ℝ → ℝ}, PerF d.nfp q → PerF d.nfp (fun θ ζ => -1 * q θ ζ) := fun hq =>
    ⟨fun θ ζ => congrArg (-1 * ·) (hq.1 θ ζ), fun θ ζ => congrArg (-1 * ·) (hq.2 θ ζ)⟩
  have qc' : ∀ b k, let S := surface s.inp d.asym (selected s.inp b)
      let T := surface (Spec.reflect s).inp d.asym (selected s.inp b)
      ∀ q q' : ℝ → ℝ → ℝ, (∀ θ ζ, q' θ ζ = -q (-θ) (-ζ)) → PerF d.nfp q →
      T.quadCos (ntheta d.M) (nzeta d.N) d.nfp q' (modeM d.N k) (modeN d.N k * d.nfp) =
        -S.quadCos (ntheta d.M) (nzeta d.N) d.nfp q (modeM d.N k) (modeN d.N k * d.nfp) := by
    intro b k S T q q' hq hper
    rw [qc b k (fun θ ζ => -1 * q θ ζ) q' (fun θ ζ => by rw [hq]; ring) (neg hper), quadCos_mul]; ring
  have qs' : ∀ b k, let S := surface s.inp d.asym (selected s.inp b)
      let T := surface (Spec.reflect s).inp d.asym (selected s.inp b)
      ∀ q q' : ℝ → ℝ → ℝ, (∀ θ ζ, q' θ ζ = -q (-θ) (-ζ)) → PerF d.nfp q →
      T.quadSin (ntheta d.M) (nzeta d.N) d.nfp q' (modeM d.N k) (modeN d.N k * d.nfp) =
        S.quadSin (ntheta d.M) (nzeta d.N) d.nfp q (modeM d.N k) (modeN d.N k * d.nfp) := by
    intro b k S T q q' hq hper
    rw [qs b k (fun θ ζ => -1 * q θ ζ) q' (fun θ ζ => by rw [hq]; ring) (neg hper), quadSin_mul]; ring
  refine ⟨?_, ?_, ?_, ?_, ?_, ?_, ?_, ?_, ?_, ?_⟩
  · exact fun k hk b hb => ⟨_, (g₁ k hk b hb).1, by
      rw [(g₂ k hk b hb).1, qc b k _ _ (R b).B (per b).2.2.2.2]; rfl⟩
  · exact fun k hk b hb => ⟨_, (g₁ k hk b hb).2.1, by
      rw [(g₂ k hk b hb).2.1, qc b k _ _ (R b).R (per b).2.2.1]; rfl⟩
  · exact fun k hk b hb => ⟨_, (g₁ k hk b hb).2.2.1, by
      rw [(g₂ k hk b hb).2.2.1, qs' b k _ _ (R b).Z (per b).2.2.2.1]; rfl⟩
  · exact fun k hk b hb => ⟨_, (g₁ k hk b hb).2.2.2.1, by
      rw [(g₂ k hk b hb).2.2.2.1, qs' b k _ _ (R b).nu (nu_per (per b).1 (per b).2.1)]; rfl⟩
  · exact fun k hk b hb => ⟨_, (g₁ k hk b hb).2.2.2.2.1, by
      rw [(g₂ k hk b hb).2.2.2.2.1, qc b k _ _ (R b).jacobian (jac_per (per b).2.2.2.2)]; rfl⟩
  · exact fun k hk b hb => ⟨_, ((g₁ k hk b hb).2.2.2.2.2 ha).1, by
      rw [((g₂ k hk b hb).2.2.2.2.2 ha).1, qs b k _ _ (R b).B (per b).2.2.2.2]⟩
  · exact fun k hk b hb => ⟨_, ((g₁ k hk b hb).2.2.2.2.2 ha).2.1, by
      rw [((g₂ k hk b hb).2.2.2.2.2 ha).2.1, qs b k _ _ (R b).R (per b).2.2.1]⟩
  · exact fun k hk b hb => ⟨_, ((g₁ k hk b hb).2.2.2.2.2 ha).2.2.1, by
      rw [((g₂ k hk b hb).2.2.2.2.2 ha).2.2.1, qc' b k _ _ (R b).Z (per b).2.2.2.1]⟩
  · exact fun k hk b hb => ⟨_, ((g₁ k hk b hb).2.2.2.2.2 ha).2.2.2.1, by
      rw [((g₂ k hk b hb).2.2.2.2.2 ha).2.2.2.1, qc' b k _ _ (R b).nu (nu_per (per b).1 (per b).2.1)]⟩
  · exact fun k hk b hb => ⟨_, ((g₁ k hk b hb).2.2.2.2.2 ha).2.2.2.2, by
      rw [((g₂ k hk b hb).2.2.2.2.2 ha).2.2.2.2, qs b k _ _ (R b).jacobian (jac_per (per b).2.2.2.2)]⟩

example (dbg : Bool) : ∃ s₂ r₂, run dbg (Spec.reflect (Ex.st (α := ℝ) true)) = .ok (s₂, r₂) := by
  obtain ⟨_, _, s₂, r₂, -, h, -⟩ := C55_reflection (dbg := dbg) (s := Ex.st true) (d := Ex.dims true)
    (Ex.ready true) (Ex.fieldPeriodic true) (Ex.originOnce true)
    (fun b hb => Ex.regular true (Ex.selected_lt true b hb)) rfl
  exact ⟨s₂, r₂, h⟩

/-! ### C22 -/

/-- All asymmetric input arrays are zero. -/
def Spec.AsymZero (I : Inputs ℝ) (mnmax mnq ns : ℕ) : Prop :=
  (∀ k < mnmax, ∀ j < ns, I.rmns.rdN k j = .ok 0 ∧ I.zmnc.rdN k j = .ok 0 ∧ I.lmnc.rdN k j = .ok 0) ∧
  (∀ k < mnq, ∀ j < ns, I.bmns.rdN k j = .ok 0 ∧ I.bsubumns.rdN k j = .ok 0 ∧
    I.bsubvmns.rdN k j = .ok 0)

/-- The same object declared stellarator-symmetric. -/
def Spec.declareSymmetric (s : St ℝ) : St ℝ := { s with inp := { s.inp with asym := some false } }

theorem np_sym_le (d : Dims) : ({ d with asym := false } : Dims).np ≤ ({ d with asym := true } : Dims).np := by
  show d.nu2 * d.nz ≤ d.nt * d.nz
  apply Nat.mul_le_mul_right
  unfold Dims.nu2 Dims.nt; omega

theorem RunReady.declareSymmetric (h : RunReady s.inp d) (ha : d.asym = true) :
    RunReady (Spec.declareSymmetric s).inp { d with asym := false } :=
  { h with
    asym := rfl
    rmns := fun h => by cases h
    zmnc := fun h => by cases h
    lmnc := fun h => by cases h
    bmns := fun h => by cases h
    bsubumns := fun h => by cases h
    bsubvmns := fun h => by cases h
    fit_pts := by
      have h1 := h.fit_pts
      have h2 := np_sym_le d
      have : ({ d with asym := true } : Dims) = d := by cases d; cases ha; rfl
      rw [this] at h2
      exact lt_of_le_of_lt h2 h1 }

theorem val_of_rdN {A : Mat ℝ} {K n k j : ℕ} {x : ℝ} (hA : A.Full K n) (hk : k < K) (hj : j < n)
    (e : A.rdN k j = .ok x) : A.val 0 k j = x := by
  rw [hA.rdN 0 hk hj] at e
  injection e

theorem surface_asymZero (h : RunReady s.inp d) (ha : d.asym = true)
    (hz : AsymZero s.inp d.mnmax d.mnq d.ns) {js : ℕ} (hj : js < d.ns) :
    surface s.inp true js = surface s.inp false js := by
  have e1 : s.inp.xm.size = d.mnmax := h.xm.1
  have e2 : s.inp.xm_nyq.size = d.mnq := h.xm_nyq.1
  unfold surface
  rw [Surface.mk.injEq]
  have f1 : ∀ k < d.mnmax, s.inp.rmns.val 0 k js = 0 ∧ s.inp.zmnc.val 0 k js = 0 ∧ s.inp.lmnc.val 0 k js = 0 :=
    fun k hk => ⟨val_of_rdN (h.rmns ha) hk hj (hz.1 k hk js hj).1,
      val_of_rdN (h.zmnc ha) hk hj (hz.1 k hk js hj).2.1, val_of_rdN (h.lmnc ha) hk hj (hz.1 k hk js hj).2.2⟩
  have f2 : ∀ k < d.mnq, s.inp.bmns.val 0 k js = 0 ∧ s.inp.bsubumns.val 0 k js = 0 ∧
      s.inp.bsubvmns.val 0 k js = 0 :=
    fun k hk => ⟨val_of_rdN (h.bmns ha) hk hj (hz.2 k hk js hj).1,
      val_of_rdN (h.bsubumns ha) hk hj (hz.2 k hk js hj).2.1,
      val_of_rdN (h.bsubvmns ha) hk hj (hz.2 k hk js hj).2.2⟩
  have w0 : ∀ m n : ℤ, wCos m n 0 0 = 0 := by intro m n; unfold wCos; split <;> simp
  rw [e1, e2]
  refine ⟨rfl, rfl, rfl, ?_, ?_, ?_, ?_, ?_⟩
  · exact series_congr _ _ _ _ _ _ _ (fun k hk => (f1 k hk).2.2) (fun k _ => rfl)
  · refine series_congr _ _ _ _ _ _ _ (fun k hk => ?_) (fun k _ => rfl)
    show wCos _ _ (s.inp.bsubumns.val 0 k js) (s.inp.bsubvmns.val 0 k js) = 0
    rw [(f2 k hk).2.1, (f2 k hk).2.2, w0]
  · exact series_congr _ _ _ _ _ _ _ (fun k _ => rfl) (fun k hk => (f1 k hk).1)
  · exact series_congr _ _ _ _ _ _ _ (fun k hk => (f1 k hk).2.1) (fun k _ => rfl)
  · exact series_congr _ _ _ _ _ _ _ (fun k _ => rfl) (fun k hk => (f2 k hk).1)

/-- **C22.** A general (`asym = true`) run with zero asymmetric arrays gives the same symmetric
harmonics as the stellarator-symmetric run of the same data, and zero antisymmetric harmonics. -/
theorem C22_symmetric_agrees {dbg : Bool} (h : RunReady s.inp d) (hp : FieldPeriodic s.inp d.nfp)
    (ho : OriginOnce s.inp) (_hreg : ∀ b < d.nsb, (surface s.inp d.asym (selected s.inp b)).Regular)
    (ha : d.asym = true) (hz : AsymZero s.inp d.mnmax d.mnq d.ns) :
    let K := numModes d.M d.N
    ∃ s₁ r₁ s₂ r₂, run dbg s = .ok (s₁, r₁) ∧ run dbg (Spec.declareSymmetric s) = .ok (s₂, r₂) ∧
      Mapped K d.nsb id s₁.out.spec.bmnc_b s₂.out.spec.bmnc_b ∧
      Mapped K d.nsb id s₁.out.spec.rmnc_b s₂.out.spec.rmnc_b ∧
      Mapped K d.nsb id s₁.out.spec.zmns_b s₂.out.spec.zmns_b ∧
      Mapped K d.nsb id s₁.out.spec.numns_b s₂.out.spec.numns_b ∧
      Mapped K d.nsb id s₁.out.spec.gmnc_b s₂.out.spec.gmnc_b ∧
      ∀ k < K, ∀ b < d.nsb,
        s₁.out.spec.bmns_b.rdN k b = .ok 0 ∧ s₁.out.spec.rmns_b.rdN k b = .ok 0 ∧
        s₁.out.spec.zmnc_b.rdN k b = .ok 0 ∧ s₁.out.spec.numnc_b.rdN k b = .ok 0 ∧
        s₁.out.spec.gmns_b.rdN k b = .ok 0 := by
  intro K
  have h' := h.declareSymmetric ha
  refine ⟨_, _, _, _, originFirst_of h ho dbg, originFirst_of (s := Spec.declareSymmetric s) h' ho dbg, ?_⟩
  have g₁ := fun (k : ℕ) (hk : k < d.nmodes) (b : ℕ) (hb : b < d.nsb) => spectrum_at h hp ho hb hk
  have g₂ := fun (k : ℕ) (hk : k < d.nmodes) (b : ℕ) (hb : b < d.nsb) =>
    spectrum_at (s := Spec.declareSymmetric s) (d := { d with asym := false }) h' hp ho hb hk
  have key : ∀ b < d.nsb, surface s.inp d.asym (selected s.inp b) =
      surface (Spec.declareSymmetric s).inp false (selected (Spec.declareSymmetric s).inp b) := by
    intro b hb
    rw [ha]
    exact surface_asymZero h ha hz (sel_lt h hb)
  have nt := ntheta_pos d.M
  have nz := nzeta_pos d.N
  refine ⟨?_, ?_, ?_, ?_, ?_, ?_⟩
  · intro k hk b hb
    have e := (g₁ k hk b hb).1
    rw [key b hb] at e
    exact ⟨_, e, (g₂ k hk b hb).1⟩
  · intro k hk b hb
    have e := (g₁ k hk b hb).2.1
    rw [key b hb] at e
    exact ⟨_, e, (g₂ k hk b hb).2.1⟩
  · intro k hk b hb
    have e := (g₁ k hk b hb).2.2.1
    rw [key b hb] at e
    exact ⟨_, e, (g₂ k hk b hb).2.2.1⟩
  · intro k hk b hb
    have e := (g₁ k hk b hb).2.2.2.1
    rw [key b hb] at e
    exact ⟨_, e, (g₂ k hk b hb).2.2.2.1⟩
  · intro k hk b hb
    have e := (g₁ k hk b hb).2.2.2.2.1
    rw [key b hb] at e
    exact ⟨_, e, (g₂ k hk b hb).2.2.2.2.1⟩
  · intro k hk b hb
    have e := (g₁ k hk b hb).2.2.2.2.2 ha
    rw [key b hb] at e
    obtain ⟨pl, pw, pR, pZ, pB⟩ := surf_per h' hp false (selected (Spec.declareSymmetric s).inp b)
    obtain ⟨ol, ow, eR, oZ, eB⟩ := surf_parity (Spec.declareSymmetric s).inp
      (selected (Spec.declareSymmetric s).inp b)
    have dv := dvd_mul_left (d.nfp : ℤ) (modeN d.N k)
    have z : ∀ {x y : ℝ}, x = 0 → (Except.ok (y * x) : Res ℝ) = .ok 0 := fun hx => by rw [hx, mul_zero]
    refine ⟨e.1.trans (z ?_), e.2.1.trans (z ?_), e.2.2.1.trans (z ?_), e.2.2.2.1.trans (z ?_),
      e.2.2.2.2.trans (z ?_)⟩
    · exact gridSum_odd h.nfp_pos nt nz (intS_per h.nfp_pos pl pw pB _ _ dv) (intS_odd ol ow eB _ _)
    · exact gridSum_odd h.nfp_pos nt nz (intS_per h.nfp_pos pl pw pR _ _ dv) (intS_odd ol ow eR _ _)
    · exact gridSum_odd h.nfp_pos nt nz (intC_per h.nfp_pos pl pw pZ _ _ dv) (intC_odd ol ow oZ _ _)
    · exact gridSum_odd h.nfp_pos nt nz (intC_per h.nfp_pos pl pw (nu_per pl pw) _ _ dv)
        (intC_odd ol ow (nu_odd ol ow) _ _)
    · exact gridSum_odd h.nfp_pos nt nz (intS_per h.nfp_pos pl pw (jac_per pB) _ _ dv)
        (intS_odd ol ow (jac_even eB) _ _)

end

/-! Non-vacuity of C22: the symmetric example with zero asymmetric arrays. -/

/-- The symmetric example, declared asymmetric with zero arrays. -/
noncomputable def Ex.padded : St ℝ :=
  { Ex.st false with inp := { Ex.inputs false with
      asym := some true
      rmns := Mat.tab 3 2 fun _ _ => 0, zmnc := Mat.tab 3 2 fun _ _ => 0, lmnc := Mat.tab 3 2 fun _ _ => 0
      bmns := Mat.tab 4 2 fun _ _ => 0, bsubumns := Mat.tab 4 2 fun _ _ => 0
      bsubvmns := Mat.tab 4 2 fun _ _ => 0 } }

theorem Ex.padded_ready : RunReady Ex.padded.inp (Ex.dims true) :=
  { Ex.ready (α := ℝ) false with
    asym := rfl
    rmns := fun _ => Mat.full_tab 3 2 _
    zmnc := fun _ => Mat.full_tab 3 2 _
    lmnc := fun _ => Mat.full_tab 3 2 _
    bmns := fun _ => Mat.full_tab 4 2 _
    bsubumns := fun _ => Mat.full_tab 4 2 _
    bsubvmns := fun _ => Mat.full_tab 4 2 _
    fit_pts := (by decide : (60 : ℕ) < 2147483648) }

theorem Ex.padded_zero : AsymZero Ex.padded.inp 3 4 2 :=
  ⟨fun _ hk _ hj => ⟨Mat.rdN_tab hk hj, Mat.rdN_tab hk hj, Mat.rdN_tab hk hj⟩,
   fun _ hk _ hj => ⟨Mat.rdN_tab hk hj, Mat.rdN_tab hk hj, Mat.rdN_tab hk hj⟩⟩

example (dbg : Bool) : ∃ s₂ r₂, run dbg (Spec.declareSymmetric Ex.padded) = .ok (s₂, r₂) := by
  have hr : ∀ b < 2, (surface Ex.padded.inp true (selected Ex.padded.inp b)).Regular := by
    intro b hb
    rw [surface_asymZero Ex.padded_ready rfl Ex.padded_zero (sel_lt Ex.padded_ready hb)]
    exact Ex.regular false (Ex.selected_lt false b hb)
  obtain ⟨_, _, s₂, r₂, -, h, -⟩ := C22_symmetric_agrees (dbg := dbg) (s := Ex.padded) (d := Ex.dims true)
    Ex.padded_ready (Ex.fieldPeriodic (α := ℝ) false) (Ex.originOnce (α := ℝ) false) hr rfl Ex.padded_zero
  exact ⟨s₂, r₂, h⟩

end Booz
