import Verif.Props.Translation

/-!
# C77 for shifts by half turns, which keep stellarator symmetry
-/

namespace Booz
open Spec Trapezoid Finset Function

variable {nfp : ℕ}

theorem half_phase (hp : 1 ≤ nfp) (a b : ℕ) (m : ℤ) {n : ℤ} (hn : (nfp : ℤ) ∣ n) :
    Real.cos (m * (Real.pi * a) - n * (Real.pi * b / nfp)) = halfSign nfp a b m n ∧
    Real.sin (m * (Real.pi * a) - n * (Real.pi * b / nfp)) = 0 := by
  obtain ⟨n', rfl⟩ := hn
  have hp' : (nfp : ℝ) ≠ 0 := by positivity
  have hz : (nfp : ℤ) ≠ 0 := by omega
  have e : (m : ℝ) * (Real.pi * a) - ((nfp * n' : ℤ) : ℝ) * (Real.pi * b / nfp) = ((m * a - n' * b : ℤ) : ℝ) * Real.pi := by
    push_cast
    field_simp
  rw [e, Real.cos_int_mul_pi, Real.sin_int_mul_pi]
  unfold halfSign
  rw [Int.mul_ediv_cancel_left _ hz]
  exact ⟨rfl, rfl⟩

theorem wCos_flip (m n : ℤ) (a s s' : ℝ) : wCos m n (a * s) (a * s') = a * wCos m n s s' := by
  have := wCos_rot m n a 0 0 s 0 s'
  simpa using this

theorem wSin_flip (m n : ℤ) (a s s' : ℝ) : wSin m n (a * s) (a * s') = a * wSin m n s s' := by
  have := wSin_rot m n a 0 s 0 s' 0
  simpa using this

theorem onlyIf_flip (asym : Bool) (a x : ℝ) : onlyIf asym (a * x) = a * onlyIf asym x := by
  cases asym <;> simp [onlyIf]

theorem half_surface {s : St ℝ} {d : Dims} (h : RunReady s.inp d) (hp : FieldPeriodic s.inp d.nfp) (ho : OriginOnce s.inp)
    (a b : ℕ) {js : ℕ} (hj : js < d.ns) :
    Translated (Real.pi * a) (Real.pi * b / d.nfp) (surface s.inp d.asym js) (surface (halfTurn d.nfp a b s).inp d.asym js) := by
  have eF : ∀ {σ : ℕ → ℝ} {A : Mat ℝ} {K : ℕ}, A.Full K d.ns → ∀ k < K, entry (flipRows σ A) k js = σ k * entry A k js := by
    intro σ A K hA k hk
    exact Mat.val_tab (by rw [hA.1]; exact hk) (by rw [hA.2.1]; exact hj)
  have eA : ∀ {σ : ℕ → ℝ} {A : Mat ℝ} {K : ℕ}, (d.asym = true → A.Full K d.ns) → ∀ k < K,
      onlyIf d.asym (entry (flipRows σ A) k js) = σ k * onlyIf d.asym (entry A k js) := by
    intro σ A K hA k hk
    cases ha : d.asym with
    | false => simp [onlyIf]
    | true => exact eF (hA ha) k hk
  have s1 : s.inp.xm.size = d.mnmax := h.xm.1
  have s2 : s.inp.xm_nyq.size = d.mnq := h.xm_nyq.1
  have p1 : ∀ k < s.inp.xm.size, _ := fun k hk =>
    half_phase h.nfp_pos a b (s.inp.xm.val 0 k) (hp.1 k (by rw [h.xn.1]; exact s1 ▸ hk))
  have p2 : ∀ k < s.inp.xm_nyq.size, _ := fun k hk =>
    half_phase h.nfp_pos a b (s.inp.xm_nyq.val 0 k) (hp.2 k (by rw [h.xn_nyq.1]; exact s2 ▸ hk))
  have tr : ∀ {K : ℕ} {m n : ℕ → ℤ} {c t c' t' : ℕ → ℝ},
      (∀ k < K, Real.cos (m k * (Real.pi * a) - n k * (Real.pi * b / d.nfp)) = halfSign d.nfp a b (m k) (n k) ∧
        Real.sin (m k * (Real.pi * a) - n k * (Real.pi * b / d.nfp)) = 0) →
      (∀ k < K, c' k = halfSign d.nfp a b (m k) (n k) * c k) → (∀ k < K, t' k = halfSign d.nfp a b (m k) (n k) * t k) → ∀ θ ζ,
      series K m n c' t' θ ζ = series K m n c t (θ + Real.pi * a) (ζ + Real.pi * b / d.nfp) := by
    intro K m n c t c' t' hph hc ht θ ζ
    refine series_translate (fun k hk => ?_) (fun k hk => ?_) θ ζ
    · rw [hc k hk, (hph k hk).1, (hph k hk).2]; ring
    · rw [ht k hk, (hph k hk).1, (hph k hk).2]; ring
  have z : halfSign d.nfp a b (s.inp.xm_nyq.val 0 0) (s.inp.xn_nyq.val 0 0) = 1 := by
    obtain ⟨z1, z2⟩ := (ho 0 (by rw [s2]; exact h.mnmax_nyq_ge)).2 rfl
    rw [z1, z2]
    simp [halfSign]
  refine ⟨rfl, ?_, ?_, fun θ ζ => ?_, fun θ ζ => ?_, fun θ ζ => ?_, fun θ ζ => ?_, fun θ ζ => ?_⟩
  · show entry (flipRows _ s.inp.bsubumnc) 0 js = entry s.inp.bsubumnc 0 js
    rw [eF h.bsubumnc 0 h.mnmax_nyq_ge, z, one_mul]
  · show entry (flipRows _ s.inp.bsubvmnc) 0 js = entry s.inp.bsubvmnc 0 js
    rw [eF h.bsubvmnc 0 h.mnmax_nyq_ge, z, one_mul]
  · exact tr p1 (fun k hk => eA h.lmnc k (s1 ▸ hk)) (fun k hk => eF h.lmns k (s1 ▸ hk)) θ ζ
  · refine tr p2 (fun k hk => ?_) (fun k hk => ?_) θ ζ
    · cases ha : d.asym with
      | false => simp [onlyIf]
      | true =>
        refine Eq.trans (congrArg₂ (wCos _ _) (eF (h.bsubumns ha) k (s2 ▸ hk)) (eF (h.bsubvmns ha) k (s2 ▸ hk))) ?_
        exact wCos_flip _ _ _ _ _
    · refine Eq.trans (congrArg₂ (wSin _ _) (eF h.bsubumnc k (s2 ▸ hk)) (eF h.bsubvmnc k (s2 ▸ hk))) ?_
      exact wSin_flip _ _ _ _ _
  · exact tr p1 (fun k hk => eF h.rmnc k (s1 ▸ hk)) (fun k hk => eA h.rmns k (s1 ▸ hk)) θ ζ
  · exact tr p1 (fun k hk => eA h.zmnc k (s1 ▸ hk)) (fun k hk => eF h.zmns k (s1 ▸ hk)) θ ζ
  · exact tr p2 (fun k hk => eF h.bmnc k (s2 ▸ hk)) (fun k hk => eA h.bmns k (s2 ▸ hk)) θ ζ

theorem RunReady.halfTurn {s : St ℝ} {d : Dims} (h : RunReady s.inp d) (a b : ℕ) : RunReady (halfTurn d.nfp a b s).inp d := by
  have f : ∀ {σ : ℕ → ℝ} {A : Mat ℝ} {K : ℕ}, A.Full K d.ns → (flipRows σ A).Full K d.ns := by
    intro σ A K hA
    have := full_mat_tab A.rows A.cols fun k j => σ k * entry A k j
    rw [hA.1, hA.2.1] at this
    unfold flipRows
    rwa [hA.1, hA.2.1]
  exact { h with
    rmnc := f h.rmnc, rmns := fun ha => f (h.rmns ha), zmnc := fun ha => f (h.zmnc ha), zmns := f h.zmns
    lmnc := fun ha => f (h.lmnc ha), lmns := f h.lmns, bmnc := f h.bmnc, bmns := fun ha => f (h.bmns ha)
    bsubumnc := f h.bsubumnc, bsubumns := fun ha => f (h.bsubumns ha)
    bsubvmnc := f h.bsubvmnc, bsubvmns := fun ha => f (h.bsubvmns ha) }

/-- **C77, half turns.** Moving the origin by `c` poloidal half turns and `e` toroidal half periods multiplies every
harmonic by the sign of its mode, exactly and at every resolution, also in stellarator symmetry. (With `nboz = 0` there is
one toroidal grid point, and `e` has to be even.) -/
theorem C77_half_turn {s : St ℝ} {d : Dims} {dbg : Bool} (h : RunReady s.inp d) (hp : FieldPeriodic s.inp d.nfp)
    (ho : OriginOnce s.inp) (_hreg : ∀ b < d.nsb, (surface s.inp d.asym (selected s.inp b)).Regular) (c e : ℕ)
    (he : d.N = 0 → Even e) :
    ∃ s₁ r₁ s₂ r₂, run dbg s = .ok (s₁, r₁) ∧ run dbg (halfTurn d.nfp c e s) = .ok (s₂, r₂) ∧
      ∀ b < d.nsb, ∀ k < numModes d.M d.N, ∃ m n, s₁.out.xm_b.rdN k = .ok m ∧ s₁.out.xn_b.rdN k = .ok n ∧
        s₂.out.xm_b.rdN k = .ok m ∧ s₂.out.xn_b.rdN k = .ok n ∧
        (amplitudes s₂.out d.asym).map (fun A => A.rdN k b) =
          (amplitudes s₁.out d.asym).map (fun A => (A.rdN k b).map (halfSign d.nfp c e m n * ·)) := by
  have h' := h.halfTurn c e
  refine ⟨_, _, _, _, originFirst_of h ho dbg, originFirst_of (s := halfTurn d.nfp c e s) h' ho dbg, fun b hb k hk => ?_⟩
  refine ⟨(modeM d.N k : ℤ), modeN d.N k * d.nfp, Vec.rdN_tab hk, Vec.rdN_tab hk, Vec.rdN_tab hk, Vec.rdN_tab hk, ?_⟩
  have hp' : (d.nfp : ℝ) ≠ 0 := by
    have := h.nfp_pos
    positivity
  have tr := half_surface h hp ho c e (sel_lt h hb)
  obtain ⟨i, hi⟩ : ∃ i : ℕ, Real.pi * c = 2 * Real.pi * i / ntheta d.M := ⟨c * (2 * d.M + 1), by
    unfold ntheta
    push_cast
    field_simp
    ring⟩
  obtain ⟨j, hj⟩ : ∃ j : ℕ, Real.pi * e / d.nfp = 2 * Real.pi * j / (d.nfp * nzeta d.N) := by
    by_cases hN : d.N = 0
    · obtain ⟨j, rfl⟩ := he hN
      refine ⟨j, ?_⟩
      rw [hN]
      unfold nzeta
      push_cast
      simp
      ring
    · refine ⟨e * (2 * d.N + 1), ?_⟩
      have : nzeta d.N = 2 * (2 * d.N + 1) := by unfold nzeta; rw [if_neg hN]; ring
      rw [this]
      push_cast
      field_simp
  obtain ⟨pl, pw, pR, pZ, pB⟩ := surf_per h hp d.asym (selected s.inp b)
  have dv := dvd_mul_left (d.nfp : ℤ) (modeN d.N k)
  obtain ⟨ph1, ph2⟩ := half_phase h.nfp_pos c e (modeM d.N k) dv
  have key : ∀ {q q' : ℝ → ℝ → ℝ}, PerF d.nfp q → (∀ θ ζ, q' θ ζ = q (θ + Real.pi * c) (ζ + Real.pi * e / d.nfp)) →
      let S := surface s.inp d.asym (selected s.inp b)
      let T := surface (halfTurn d.nfp c e s).inp d.asym (selected s.inp b)
      let σ := halfSign d.nfp c e (modeM d.N k) (modeN d.N k * d.nfp)
      T.quadCos (ntheta d.M) (nzeta d.N) d.nfp q' (modeM d.N k) (modeN d.N k * d.nfp) =
        σ * S.quadCos (ntheta d.M) (nzeta d.N) d.nfp q (modeM d.N k) (modeN d.N k * d.nfp) ∧
      T.quadSin (ntheta d.M) (nzeta d.N) d.nfp q' (modeM d.N k) (modeN d.N k * d.nfp) =
        σ * S.quadSin (ntheta d.M) (nzeta d.N) d.nfp q (modeM d.N k) (modeN d.N k * d.nfp) := by
    intro q q' pq hqq S T σ
    rw [hi, hj] at tr ph1 ph2
    rw [hi] at hqq
    simp only [hj] at hqq
    obtain ⟨e1, e2⟩ := tr.quad h.nfp_pos (ntheta_pos _) (nzeta_pos _) pl pw pq hqq (modeM d.N k) dv
    rw [e1, e2, ph1, ph2]
    exact ⟨by ring, by ring⟩
  have q1 := key pB tr.B
  have q2 := key pR tr.R
  have q3 := key pZ tr.Z
  have q4 := key (nu_per pl pw) tr.nu
  have q5 := key (jac_per pB) tr.jacobian
  obtain ⟨a1, a2, a3, a4, a5, a6⟩ := spectrum_at h hp ho hb hk
  obtain ⟨c1, c2, c3, c4, c5, c6⟩ := spectrum_at (s := halfTurn d.nfp c e s) h' hp ho hb hk
  have fin : ∀ {A A' : Mat ℝ} {x x' : ℝ}, A.rdN k b = .ok x → A'.rdN k b = .ok x' →
      x' = halfSign d.nfp c e (modeM d.N k) (modeN d.N k * d.nfp) * x → A'.rdN k b =
      (A.rdN k b).map (halfSign d.nfp c e (modeM d.N k) (modeN d.N k * d.nfp) * ·) := by
    intro A A' x x' r r' ex
    rw [r, r', ex]
    rfl
  exact amplitudes_map (Except.map (halfSign d.nfp c e (modeM d.N k) (modeN d.N k * d.nfp) * ·)) (fin a1 c1 q1.1)
    (fin a2 c2 q2.1) (fin a3 c3 q3.2) (fin a4 c4 q4.2) (fin a5 c5 q5.1) fun has => by
    obtain ⟨a6, a7, a8, a9, a10⟩ := a6 has
    obtain ⟨c6, c7, c8, c9, c10⟩ := c6 has
    exact ⟨fin a6 c6 q1.2, fin a7 c7 q2.2, fin a8 c8 q3.1, fin a9 c9 q4.1, fin a10 c10 q5.2⟩

/-! Non-vacuity -/

example (asym dbg : Bool) : ∃ s₁ r₁ s₂ r₂, run dbg (Ex.st (α := ℝ) asym) = .ok (s₁, r₁) ∧
    run dbg (halfTurn 2 1 1 (Ex.st asym)) = .ok (s₂, r₂) ∧ ∀ b < 2, ∀ k < numModes 2 1, ∃ m n,
      s₁.out.xm_b.rdN k = .ok m ∧ s₁.out.xn_b.rdN k = .ok n ∧ (amplitudes s₂.out asym).map (fun A => A.rdN k b) =
          (amplitudes s₁.out asym).map (fun A => (A.rdN k b).map (halfSign 2 1 1 m n * ·)) := by
  obtain ⟨s₁, r₁, s₂, r₂, h1, h2, H⟩ := C77_half_turn (dbg := dbg) (s := Ex.st asym) (d := Ex.dims asym) (Ex.ready asym)
    (Ex.fieldPeriodic asym) (Ex.originOnce asym) (fun b hb => Ex.regular asym (Ex.selected_lt asym b hb)) 1 1
    (by intro h0; simp [Ex.dims] at h0)
  refine ⟨s₁, r₁, s₂, r₂, h1, h2, fun b hb k hk => ?_⟩
  obtain ⟨m, n, a1, a2, -, -, a3⟩ := H b hb k hk
  exact ⟨m, n, a1, a2, a3⟩

/-- The signs are not trivial: the mode (1, 0) changes sign. -/
example : halfSign 2 1 1 1 0 = -1 := by norm_num [halfSign]

end Booz
