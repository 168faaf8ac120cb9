import Verif.Spec.Mirror
import Verif.Props.Reparam

/-!
# C80: the direction of the toroidal angle and the sign of the field do not matter
-/

namespace Booz
open Spec Finset

/-! ### Reflection of ζ -/

theorem gridSum_negZ {nt nz nfp : ℕ} (hp : 1 ≤ nfp) (h2 : 1 ≤ nz) {F : ℝ → ℝ → ℝ}
    (hF : PerF nfp F) : gridSum nt nz nfp (fun θ ζ => F θ (-ζ)) = gridSum nt nz nfp F := by
  have hp' : (nfp : ℝ) ≠ 0 := by positivity
  have h2' : (nz : ℝ) ≠ 0 := by positivity
  have step : ∀ θ, ∑ b ∈ range nz, F θ (-(2 * Real.pi * b / (nfp * nz))) =
      ∑ b ∈ range nz, F θ (2 * Real.pi * b / (nfp * nz)) := by
    intro θ
    rw [← sum_range_refl (fun b : ℕ => F θ (2 * Real.pi * b / (nfp * nz)))]
    · apply sum_congr rfl
      intro b hb
      have hb := mem_range.mp hb
      rw [← hF.2]
      congr 1
      push_cast [Nat.cast_sub hb.le]
      field_simp
      ring
    · have := hF.2 θ 0
      rw [show 2 * Real.pi * (nz : ℝ) / (nfp * nz) = 0 + 2 * Real.pi / nfp by field_simp; ring, this]
      simp
  unfold gridSum
  simp only [step]

/-- `T` is the image of `S` under (θ, ζ) → (θ, -ζ). -/
structure Mirrored (S T : Surface) : Prop where
  iota : T.iota = -S.iota
  I : T.I = S.I
  G : T.G = -S.G
  lam : ∀ θ ζ, T.lam θ ζ = S.lam θ (-ζ)
  w : ∀ θ ζ, T.w θ ζ = S.w θ (-ζ)
  R : ∀ θ ζ, T.R θ ζ = S.R θ (-ζ)
  Z : ∀ θ ζ, T.Z θ ζ = S.Z θ (-ζ)
  B : ∀ θ ζ, T.B θ ζ = S.B θ (-ζ)

namespace Mirrored
variable {S T : Surface} (h : Mirrored S T)
include h

theorem nu (θ ζ : ℝ) : T.nu θ ζ = -S.nu θ (-ζ) := by
  unfold Surface.nu
  rw [h.w, h.lam, h.I, h.G, h.iota, show -S.G + -S.iota * S.I = -(S.G + S.iota * S.I) by ring, div_neg]
theorem thetaB (θ ζ : ℝ) : T.thetaB θ ζ = S.thetaB θ (-ζ) := by
  unfold Surface.thetaB; rw [h.lam, h.nu, h.iota]; ring
theorem zetaB (θ ζ : ℝ) : T.zetaB θ ζ = -S.zetaB θ (-ζ) := by
  unfold Surface.zetaB; rw [h.nu]; ring
theorem jacobian (θ ζ : ℝ) : T.jacobian θ ζ = -S.jacobian θ (-ζ) := by
  unfold Surface.jacobian
  rw [h.B, h.G, h.iota, h.I, show -S.G + -S.iota * S.I = -(S.G + S.iota * S.I) by ring, neg_div]

theorem det (θ ζ : ℝ) : T.det θ ζ = S.det θ (-ζ) := by
  unfold Surface.det
  simp only [h.thetaB, h.zetaB]
  rw [Reflected.dneg (fun z => S.zetaB θ z), deriv_comp_neg (fun z => S.thetaB θ z), deriv.fun_neg]
  ring

theorem intC {q q' : ℝ → ℝ → ℝ} (hq : ∀ θ ζ, q' θ ζ = q θ (-ζ)) (m n : ℤ) :
    Booz.intC T q' m n = fun θ ζ => Booz.intC S q m (-n) θ (-ζ) := by
  funext θ ζ
  unfold Booz.intC
  rw [hq, h.det, h.thetaB, h.zetaB]
  push_cast
  ring_nf

theorem intS {q q' : ℝ → ℝ → ℝ} (hq : ∀ θ ζ, q' θ ζ = q θ (-ζ)) (m n : ℤ) :
    Booz.intS T q' m n = fun θ ζ => Booz.intS S q m (-n) θ (-ζ) := by
  funext θ ζ
  unfold Booz.intS
  rw [hq, h.det, h.thetaB, h.zetaB]
  push_cast
  ring_nf

variable {nt nz nfp : ℕ} (hp : 1 ≤ nfp) (h2 : 1 ≤ nz)
  (hl : PerF nfp S.lam) (hw : PerF nfp S.w)
include hp h2 hl hw

theorem quad {q q' : ℝ → ℝ → ℝ} (hq : ∀ θ ζ, q' θ ζ = q θ (-ζ)) (hper : PerF nfp q) (m n : ℤ)
    (hn : (nfp : ℤ) ∣ n) :
    T.quadCos nt nz nfp q' m n = S.quadCos nt nz nfp q m (-n) ∧ T.quadSin nt nz nfp q' m n = S.quadSin nt nz nfp q m (-n) := by
  have hn' : (nfp : ℤ) ∣ -n := (dvd_neg).2 hn
  rw [quadCos_eq, quadCos_eq, quadSin_eq, quadSin_eq, h.intC hq, h.intS hq,
    gridSum_negZ hp h2 (intC_per hp hl hw hper m (-n) hn'), gridSum_negZ hp h2 (intS_per hp hl hw hper m (-n) hn')]
  simp only [neg_eq_zero, and_self]

end Mirrored

theorem quad_neg_zero (S : Surface) (nt nz nfp : ℕ) (q : ℝ → ℝ → ℝ) (n : ℤ) :
    S.quadCos nt nz nfp q 0 (-n) = S.quadCos nt nz nfp q 0 n ∧
    S.quadSin nt nz nfp q 0 (-n) = -S.quadSin nt nz nfp q 0 n := by
  rw [quadCos_eq, quadCos_eq, quadSin_eq, quadSin_eq]
  have e1 : intC S q 0 (-n) = intC S q 0 n := by
    funext θ ζ
    unfold intC
    rw [← Real.cos_neg]
    push_cast
    ring_nf
  have e2 : intS S q 0 (-n) = fun θ ζ => -1 * intS S q 0 n θ ζ := by
    funext θ ζ
    unfold intS
    push_cast
    rw [show (0 : ℝ) * S.thetaB θ ζ - -(n : ℝ) * S.zetaB θ ζ = -(0 * S.thetaB θ ζ - n * S.zetaB θ ζ) by ring, Real.sin_neg]
    ring
  rw [e1, e2, gridSum_mul]
  simp only [neg_eq_zero, true_and]
  ring

/-! ### The mirrored input -/

theorem negate_val {v : Vec ℤ} (k : ℕ) : (negate v).val 0 k = -v.val 0 k := by
  unfold negate Vec.val
  simp only [Array.getElem?_map]
  cases h : v[k]? with
  | none => simp
  | some o => cases o <;> simp

theorem negate_valR {v : Vec ℝ} (k : ℕ) : (negate v).val 0 k = -v.val 0 k := by
  unfold negate Vec.val
  simp only [Array.getElem?_map]
  cases h : v[k]? with
  | none => simp
  | some o => cases o <;> simp

theorem negate_full {β : Type} [Neg β] {v : Vec β} {n : ℕ} (h : v.Full n) : (negate v).Full n := by
  obtain ⟨h1, h2⟩ := h
  refine ⟨by simp [negate, h1], fun i hi => ?_⟩
  obtain ⟨x, hx⟩ := h2 i hi
  exact ⟨-x, by simp [negate, hx]⟩

theorem negate_size {β : Type} [Neg β] (v : Vec β) : (negate v).size = v.size := by simp [negate]

theorem RunReady.mirror {s : St ℝ} {d : Dims} (h : RunReady s.inp d) : RunReady (mirror s).inp d :=
  { h with
    xn := negate_full h.xn
    xn_range := fun k hk => by
      have := h.xn_range k hk
      show ((negate s.inp.xn).val 0 k).natAbs / d.nfp ≤ d.ntor
      rwa [negate_val, Int.natAbs_neg]
    xn_int := fun k hk => by
      have := h.xn_int k hk
      show ((negate s.inp.xn).val 0 k).natAbs < 2147483648
      rwa [negate_val, Int.natAbs_neg]
    xn_nyq := negate_full h.xn_nyq
    xn_nyq_range := fun k hk => by
      have := h.xn_nyq_range k hk
      show ((negate s.inp.xn_nyq).val 0 k).natAbs / d.nfp ≤ d.nq
      rwa [negate_val, Int.natAbs_neg]
    xn_nyq_int := fun k hk => by
      have := h.xn_nyq_int k hk
      show ((negate s.inp.xn_nyq).val 0 k).natAbs < 2147483648
      rwa [negate_val, Int.natAbs_neg]
    iota := negate_full h.iota
    bsubvmnc := h.bsubvmnc.scale (-1)
    bsubvmns := fun ha => (h.bsubvmns ha).scale (-1) }

theorem mirror_periodic {s : St ℝ} {nfp : ℕ} (h : FieldPeriodic s.inp nfp) : FieldPeriodic (mirror s).inp nfp := by
  refine ⟨fun k hk => ?_, fun k hk => ?_⟩
  · show (nfp : ℤ) ∣ (negate s.inp.xn).val 0 k
    rw [negate_val]
    exact (dvd_neg).2 (h.1 k (by simpa [Spec.mirror, negate_size] using hk))
  · show (nfp : ℤ) ∣ (negate s.inp.xn_nyq).val 0 k
    rw [negate_val]
    exact (dvd_neg).2 (h.2 k (by simpa [Spec.mirror, negate_size] using hk))

theorem mirror_origin {s : St ℝ} (h : OriginOnce s.inp) : OriginOnce (mirror s).inp := by
  intro k hk
  show (s.inp.xm_nyq.val 0 k = 0 ∧ (negate s.inp.xn_nyq).val 0 k = 0) ↔ k = 0
  rw [negate_val, neg_eq_zero]
  exact h k hk

theorem series_mirror {K : ℕ} {m n n' : ℕ → ℤ} {c t c' t' : ℕ → ℝ} (hn : ∀ k, n' k = -n k) (hc : ∀ k, c' k = c k)
    (ht : ∀ k, t' k = t k) (θ ζ : ℝ) : series K m n' c' t' θ ζ = series K m n c t θ (-ζ) := by
  unfold series
  refine sum_congr rfl fun k _ => ?_
  rw [hn, hc, ht]
  push_cast
  ring_nf

theorem wSin_mirror (m n : ℤ) (u v : ℝ) : wSin m (-n) u (-1 * v) = wSin m n u v := by
  unfold wSin
  simp only [ne_eq, neg_eq_zero]
  push_cast
  simp only [neg_mul, one_mul, neg_neg, div_neg, neg_div]

theorem wCos_mirror (m n : ℤ) (u v : ℝ) : wCos m (-n) u (-1 * v) = wCos m n u v := by
  unfold wCos
  simp only [ne_eq, neg_eq_zero]
  push_cast
  simp only [neg_mul, one_mul, neg_neg, div_neg, neg_div]

theorem mirror_surface (s : St ℝ) (asym : Bool) (js : ℕ) : Mirrored (surface s.inp asym js) (surface (mirror s).inp asym js) where
  iota := negate_valR js
  I := rfl
  G := by
    show (s.inp.bsubvmnc.scale (-1)).val 0 0 js = _
    rw [Mat.val_scale, neg_one_mul]
    rfl
  lam := series_mirror (fun k => negate_val k) (fun _ => rfl) fun _ => rfl
  R := series_mirror (fun k => negate_val k) (fun _ => rfl) fun _ => rfl
  Z := series_mirror (fun k => negate_val k) (fun _ => rfl) fun _ => rfl
  B := series_mirror (fun k => negate_val k) (fun _ => rfl) fun _ => rfl
  w := by
    refine series_mirror (fun k => negate_val k) (fun k => ?_) fun k => ?_
    · show onlyIf asym (wCos _ ((negate s.inp.xn_nyq).val 0 k) _ ((s.inp.bsubvmns.scale (-1)).val 0 k js)) = _
      rw [negate_val, Mat.val_scale, wCos_mirror]
      rfl
    · show wSin _ ((negate s.inp.xn_nyq).val 0 k) _ ((s.inp.bsubvmnc.scale (-1)).val 0 k js) = _
      rw [negate_val, Mat.val_scale, wSin_mirror]
      rfl

/-! ### The mirrored mode -/

/-- Index of the mode (m, -n); for m = 0 of the mode itself. -/
def mirrorMode (N k : ℕ) : ℕ :=
  if modeM N k = 0 then k else modeM N k * (2 * N + 1) + N - (k + N) % (2 * N + 1)

theorem mirrorMode_spec {M N k : ℕ} (hk : k < numModes M N) : mirrorMode N k < numModes M N ∧
    modeM N (mirrorMode N k) = modeM N k ∧
    modeN N (mirrorMode N k) = if modeM N k = 0 then modeN N k else -modeN N k := by
  unfold mirrorMode
  by_cases h0 : modeM N k = 0
  · simp only [h0, if_true]
    exact ⟨hk, trivial, trivial⟩
  simp only [h0, if_false]
  have hr : (k + N) % (2 * N + 1) < 2 * N + 1 := Nat.mod_lt _ (by omega)
  have hd := Nat.div_add_mod (k + N) (2 * N + 1)
  set r := (k + N) % (2 * N + 1) with hrd
  have hm : modeM N k = (k + N) / (2 * N + 1) := rfl
  set m := modeM N k with hmd
  rw [← hm] at hd
  have hm1 : 2 * N + 1 ≤ m * (2 * N + 1) := Nat.le_mul_of_pos_left _ (by omega)
  have hmM : m ≤ M - 1 := by
    rw [hm]
    refine Nat.le_of_lt_succ ((Nat.div_lt_iff_lt_mul (by omega)).2 ?_)
    unfold numModes at hk
    have : (2 * N + 1) * (M - 1) = (M - 1) * (2 * N + 1) := Nat.mul_comm _ _
    rw [Nat.succ_eq_add_one, Nat.add_mul]
    omega
  have hmul : m * (2 * N + 1) ≤ (M - 1) * (2 * N + 1) := Nat.mul_le_mul_right _ hmM
  have e : m * (2 * N + 1) + N - r + N = (2 * N + 1) * m + (2 * N - r) := by
    rw [Nat.mul_comm (2 * N + 1) m]; omega
  refine ⟨?_, ?_, ?_⟩
  · unfold numModes
    have : (2 * N + 1) * (M - 1) = (M - 1) * (2 * N + 1) := Nat.mul_comm _ _
    omega
  · unfold modeM
    rw [e, Nat.mul_add_div (by omega), Nat.div_eq_of_lt (by omega), Nat.add_zero]
  · unfold modeN
    rw [e, Nat.mul_add_mod, Nat.mod_eq_of_lt (by omega), ← hrd]
    omega

/-! ### The theorems -/

variable {s : St ℝ} {d : Dims}

/-- **C80, toroidal direction.** If the equilibrium is described with the toroidal angle -ζ instead of ζ, Boozer I stays and
Boozer G changes sign, and each harmonic (m, n) is the former (m, -n), exactly and at every resolution; ν and the Jacobian
change sign. (For m = 0 the outputs contain (0, n) for n ≥ 0 only: cosine harmonics stay and sine harmonics change sign.) -/
theorem C80_mirror {dbg : Bool} (h : RunReady s.inp d) (hp : FieldPeriodic s.inp d.nfp) (ho : OriginOnce s.inp)
    (_hreg : ∀ b < d.nsb, (surface s.inp d.asym (selected s.inp b)).Regular) :
    ∃ s₁ r₁ s₂ r₂, run dbg s = .ok (s₁, r₁) ∧ run dbg (mirror s) = .ok (s₂, r₂) ∧ ∀ b < d.nsb,
      (∃ i g, s₁.out.boozer_I.rdN b = .ok i ∧ s₁.out.boozer_G.rdN b = .ok g ∧
        s₂.out.boozer_I.rdN b = .ok i ∧ s₂.out.boozer_G.rdN b = .ok (-g)) ∧
      ∀ k < numModes d.M d.N, ∃ k' < numModes d.M d.N, ∃ m n n' τ, s₂.out.xm_b.rdN k = .ok m ∧ s₂.out.xn_b.rdN k = .ok n ∧
        s₁.out.xm_b.rdN k' = .ok m ∧ s₁.out.xn_b.rdN k' = .ok n' ∧ (n' = -n ∧ τ = 1 ∨ m = 0 ∧ n' = n ∧ τ = -1) ∧
        RowIs d.asym τ (-1) (-1) b k s₂.out.spec k' s₁.out.spec := by
  have h' : RunReady (mirror s).inp d := h.mirror
  have hp' := mirror_periodic hp
  have ho' := mirror_origin ho
  have ok₁ := originFirst_of h ho dbg
  have ok₂ := originFirst_of (s := mirror s) h' ho' dbg
  refine ⟨_, _, _, _, ok₁, ok₂, fun b hb => ?_⟩
  have mr := mirror_surface s d.asym (selected s.inp b)
  constructor
  · obtain ⟨i1, i2⟩ := run_flux h ho ok₁ hb
    obtain ⟨i3, i4⟩ := run_flux h' ho' ok₂ hb
    exact ⟨_, _, i1, i2, i3.trans (congrArg _ mr.I), i4.trans (congrArg _ mr.G)⟩
  intro k hk
  obtain ⟨hk', em, en⟩ := mirrorMode_spec hk
  obtain ⟨pl, pw, pR, pZ, pB⟩ := surf_per h hp d.asym (selected s.inp b)
  have dv := dvd_mul_left (d.nfp : ℤ) (modeN d.N k)
  set k' := mirrorMode d.N k with hkd
  obtain ⟨τ, hτ, key⟩ : ∃ τ : ℝ, (modeN d.N k' * d.nfp = -(modeN d.N k * d.nfp) ∧ τ = 1 ∨
        (modeM d.N k : ℤ) = 0 ∧ modeN d.N k' * d.nfp = modeN d.N k * d.nfp ∧ τ = -1) ∧
      ∀ {q q' : ℝ → ℝ → ℝ}, PerF d.nfp q → (∀ θ ζ, q' θ ζ = q θ (-ζ)) →
      let S := surface s.inp d.asym (selected s.inp b)
      let T := surface (mirror s).inp d.asym (selected s.inp b)
      T.quadCos (ntheta d.M) (nzeta d.N) d.nfp q' (modeM d.N k) (modeN d.N k * d.nfp) =
        S.quadCos (ntheta d.M) (nzeta d.N) d.nfp q (modeM d.N k') (modeN d.N k' * d.nfp) ∧
      T.quadSin (ntheta d.M) (nzeta d.N) d.nfp q' (modeM d.N k) (modeN d.N k * d.nfp) =
        τ * S.quadSin (ntheta d.M) (nzeta d.N) d.nfp q (modeM d.N k') (modeN d.N k' * d.nfp) := by
    have base : ∀ {q q' : ℝ → ℝ → ℝ}, PerF d.nfp q → (∀ θ ζ, q' θ ζ = q θ (-ζ)) → _ := fun {q q'} pq hq =>
      mr.quad (nt := ntheta d.M) h.nfp_pos (nzeta_pos d.N) pl pw hq pq (modeM d.N k) (modeN d.N k * d.nfp) dv
    by_cases h0 : modeM d.N k = 0
    · rw [if_pos h0] at en
      refine ⟨-1, .inr ⟨by rw [h0]; rfl, by rw [en], rfl⟩, fun {q q'} pq hq => ?_⟩
      obtain ⟨e1, e2⟩ := base pq hq
      obtain ⟨z1, z2⟩ := quad_neg_zero (surface s.inp d.asym (selected s.inp b)) (ntheta d.M) (nzeta d.N) d.nfp q
        (modeN d.N k * d.nfp)
      rw [em, en]
      simp only
      rw [e1, e2, h0]
      exact ⟨z1, by rw [Nat.cast_zero, z2]; ring⟩
    · rw [if_neg h0] at en
      refine ⟨1, .inl ⟨by rw [en]; ring, rfl⟩, fun {q q'} pq hq => ?_⟩
      obtain ⟨e1, e2⟩ := base pq hq
      rw [em, en, neg_mul]
      exact ⟨e1, by rw [one_mul]; exact e2⟩
  refine ⟨k', hk', _, _, _, τ, Vec.rdN_tab hk, Vec.rdN_tab hk, by rw [← em]; exact Vec.rdN_tab hk', Vec.rdN_tab hk', hτ, ?_⟩
  have neg : ∀ {q q' : ℝ → ℝ → ℝ}, PerF d.nfp q → (∀ θ ζ, q' θ ζ = -q θ (-ζ)) → _ := fun {q q'} pq hq =>
    key (q := fun θ ζ => -1 * q θ ζ) (q' := q') ⟨fun θ ζ => congrArg (-1 * ·) (pq.1 θ ζ), fun θ ζ => congrArg (-1 * ·) (pq.2 θ ζ)⟩
      fun θ ζ => by rw [hq]; ring
  simp only [quadCos_mul, quadSin_mul] at neg
  have q1 := key pB mr.B
  have q2 := key pR mr.R
  have q3 := key pZ mr.Z
  have q4 := neg (nu_per pl pw) mr.nu
  have q5 := neg (jac_per pB) mr.jacobian
  obtain ⟨a1, a2, a3, a4, a5, a6⟩ := spectrum_at h hp ho hb hk'
  obtain ⟨c1, c2, c3, c4, c5, c6⟩ := spectrum_at (s := mirror s) h' hp' ho' hb hk
  have fin : ∀ {A A' : Mat ℝ} {x x' c : ℝ}, A.rdN k' b = .ok x → A'.rdN k b = .ok x' → x' = c * x → EntryIs c k b A' k' A := by
    intro A A' x x' c r r' ex
    exact ⟨x, r, r'.trans (congrArg _ ex)⟩
  exact
    { bmnc := fin a1 c1 (q1.1.trans (one_mul _).symm)
      rmnc := fin a2 c2 (q2.1.trans (one_mul _).symm)
      zmns := fin a3 c3 q3.2
      numns := fin a4 c4 (q4.2.trans (by ring))
      gmnc := fin a5 c5 q5.1
      bmns := fun ha => fin (a6 ha).1 (c6 ha).1 q1.2
      rmns := fun ha => fin (a6 ha).2.1 (c6 ha).2.1 q2.2
      zmnc := fun ha => fin (a6 ha).2.2.1 (c6 ha).2.2.1 (q3.1.trans (one_mul _).symm)
      numnc := fun ha => fin (a6 ha).2.2.2.1 (c6 ha).2.2.2.1 q4.1
      gmns := fun ha => fin (a6 ha).2.2.2.2 (c6 ha).2.2.2.2 (q5.2.trans (by ring)) }

theorem RunReady.scaleCov (h : RunReady s.inp d) (c : ℝ) : RunReady (scaleCov c s).inp d :=
  { h with
    bsubumnc := h.bsubumnc.scale c
    bsubumns := fun ha => (h.bsubumns ha).scale c
    bsubvmnc := h.bsubvmnc.scale c
    bsubvmns := fun ha => (h.bsubvmns ha).scale c }

theorem surface_scaleCov (c : ℝ) (s : St ℝ) (asym : Bool) (js : ℕ) :
    let S := surface s.inp asym js
    surface (scaleCov c s).inp asym js = { S with I := c * S.I, G := c * S.G, w := fun θ ζ => c * S.w θ ζ } := by
  unfold surface
  rw [Surface.mk.injEq]
  refine ⟨rfl, Mat.val_scale _ _ _ _, Mat.val_scale _ _ _ _, rfl, ?_, rfl, rfl, rfl⟩
  funext θ ζ
  refine series_mul _ _ _ c _ _ _ _ (fun k _ => ?_) (fun k _ => ?_) θ ζ
  · rw [← onlyIf_mul, ← wCos_mul]
    exact congrArg _ (congrArg₂ _ (Mat.val_scale _ _ _ _) (Mat.val_scale _ _ _ _))
  · rw [← wSin_mul]
    exact congrArg₂ _ (Mat.val_scale _ _ _ _) (Mat.val_scale _ _ _ _)

/-- **C80, sign of the field.** If the covariant components of the field are multiplied by `c ≠ 0` (c = -1: the field is
reversed), Boozer I and G and the harmonics of the Jacobian are multiplied by `c`; the other harmonics stay exactly as they
are. -/
theorem C80_reversed_field {dbg : Bool} (h : RunReady s.inp d) (hp : FieldPeriodic s.inp d.nfp) (ho : OriginOnce s.inp)
    (_hreg : ∀ b < d.nsb, (surface s.inp d.asym (selected s.inp b)).Regular) {c : ℝ} (hc : c ≠ 0) :
    ∃ s₁ r₁ s₂ r₂, run dbg s = .ok (s₁, r₁) ∧ run dbg (scaleCov c s) = .ok (s₂, r₂) ∧ ∀ b < d.nsb,
      (∃ i g, s₁.out.boozer_I.rdN b = .ok i ∧ s₁.out.boozer_G.rdN b = .ok g ∧
        s₂.out.boozer_I.rdN b = .ok (c * i) ∧ s₂.out.boozer_G.rdN b = .ok (c * g)) ∧
      ∀ k < numModes d.M d.N, s₂.out.xm_b.rdN k = s₁.out.xm_b.rdN k ∧ s₂.out.xn_b.rdN k = s₁.out.xn_b.rdN k ∧
        RowIs d.asym 1 1 c b k s₂.out.spec k s₁.out.spec := by
  have h' : RunReady (scaleCov c s).inp d := h.scaleCov c
  have ok₁ := originFirst_of h ho dbg
  have ok₂ := originFirst_of (s := scaleCov c s) h' ho dbg
  refine ⟨_, _, _, _, ok₁, ok₂, fun b hb => ?_⟩
  have sf := surface_scaleCov c s d.asym (selected s.inp b)
  constructor
  · obtain ⟨i1, i2⟩ := run_flux h ho ok₁ hb
    obtain ⟨i3, i4⟩ := run_flux (s := scaleCov c s) h' ho ok₂ hb
    exact ⟨_, _, i1, i2, i3.trans (congrArg _ (congrArg Surface.I sf)), i4.trans (congrArg _ (congrArg Surface.G sf))⟩
  intro k hk
  refine ⟨(run_modes (s := scaleCov c s) h' ho ok₂ hk).1.trans (run_modes h ho ok₁ hk).1.symm,
    (run_modes (s := scaleCov c s) h' ho ok₂ hk).2.trans (run_modes h ho ok₁ hk).2.symm, ?_⟩
  have sa : SameAngles (surface (scaleCov c s).inp d.asym (selected s.inp b)) (surface s.inp d.asym (selected s.inp b)) := by
    rw [sf]
    refine ⟨rfl, rfl, ?_⟩
    funext θ ζ
    show (c * _ - c * _ * _) / (c * _ + _ * (c * _)) = _ / _
    rw [mul_assoc, ← mul_sub, mul_left_comm _ c, ← mul_add, mul_div_mul_left _ _ hc]
  have ej : (surface (scaleCov c s).inp d.asym (selected s.inp b)).jacobian =
      fun θ ζ => c * (surface s.inp d.asym (selected s.inp b)).jacobian θ ζ := by
    rw [sf]
    funext θ ζ
    show (c * _ + _ * (c * _)) / _ = c * (_ / _)
    rw [← mul_div_assoc]
    congr 1
    ring
  obtain ⟨a1, a2, a3, a4, a5, a6⟩ := spectrum_at h hp ho hb hk
  obtain ⟨c1, c2, c3, c4, c5, c6⟩ := spectrum_at (s := scaleCov c s) h' hp ho hb hk
  have eB : (surface (scaleCov c s).inp d.asym (selected s.inp b)).B = (surface s.inp d.asym (selected s.inp b)).B := by rw [sf]
  have eR : (surface (scaleCov c s).inp d.asym (selected s.inp b)).R = (surface s.inp d.asym (selected s.inp b)).R := by rw [sf]
  have eZ : (surface (scaleCov c s).inp d.asym (selected s.inp b)).Z = (surface s.inp d.asym (selected s.inp b)).Z := by rw [sf]
  have es : selected (scaleCov c s).inp b = selected s.inp b := rfl
  rw [es, sa.quadCos] at c1 c2 c5 c6
  rw [es, sa.quadSin] at c3 c4
  rw [sa.quadSin] at c6
  rw [eB] at c1
  rw [eR] at c2
  rw [eZ] at c3
  rw [sa.2.2] at c4
  rw [ej, quadCos_mul] at c5
  rw [eB, eR, eZ, sa.2.2, ej, quadSin_mul] at c6
  have fin : ∀ {A A' : Mat ℝ} {x x' c : ℝ}, A.rdN k b = .ok x → A'.rdN k b = .ok x' → x' = c * x → EntryIs c k b A' k A := by
    intro A A' x x' c r r' ex
    exact ⟨x, r, r'.trans (congrArg _ ex)⟩
  exact
    { bmnc := fin a1 c1 (one_mul _).symm
      rmnc := fin a2 c2 (one_mul _).symm
      zmns := fin a3 c3 (one_mul _).symm
      numns := fin a4 c4 (by ring)
      gmnc := fin a5 c5 rfl
      bmns := fun ha => fin (a6 ha).1 (c6 ha).1 (one_mul _).symm
      rmns := fun ha => fin (a6 ha).2.1 (c6 ha).2.1 (one_mul _).symm
      zmnc := fun ha => fin (a6 ha).2.2.1 (c6 ha).2.2.1 (one_mul _).symm
      numnc := fun ha => fin (a6 ha).2.2.2.1 (c6 ha).2.2.2.1 (one_mul _).symm
      gmns := fun ha => fin (a6 ha).2.2.2.2 (c6 ha).2.2.2.2 (by ring) }

/-! ### Non-vacuity -/

example (asym dbg : Bool) : ∃ s₁ r₁ s₂ r₂, run dbg (Ex.st (α := ℝ) asym) = .ok (s₁, r₁) ∧
    run dbg (mirror (Ex.st asym)) = .ok (s₂, r₂) ∧ ∀ b < 2, ∀ k < numModes 2 1, ∃ k' τ,
      RowIs asym τ (-1) (-1) b k s₂.out.spec k' s₁.out.spec := by
  obtain ⟨s₁, r₁, s₂, r₂, h1, h2, H⟩ := C80_mirror (dbg := dbg) (s := Ex.st asym) (d := Ex.dims asym) (Ex.ready asym)
    (Ex.fieldPeriodic asym) (Ex.originOnce asym) (fun b hb => Ex.regular asym (Ex.selected_lt asym b hb))
  refine ⟨s₁, r₁, s₂, r₂, h1, h2, fun b hb k hk => ?_⟩
  obtain ⟨k', -, -, -, -, τ, -, -, -, -, -, H⟩ := (H b hb).2 k hk
  exact ⟨k', τ, H⟩

example (asym dbg : Bool) : ∃ s₁ r₁ s₂ r₂, run dbg (Ex.st (α := ℝ) asym) = .ok (s₁, r₁) ∧
    run dbg (scaleCov (-1) (Ex.st asym)) = .ok (s₂, r₂) ∧ ∀ b < 2, ∀ k < numModes 2 1,
      RowIs asym 1 1 (-1) b k s₂.out.spec k s₁.out.spec := by
  obtain ⟨s₁, r₁, s₂, r₂, h1, h2, H⟩ := C80_reversed_field (dbg := dbg) (s := Ex.st asym) (d := Ex.dims asym) (Ex.ready asym)
    (Ex.fieldPeriodic asym) (Ex.originOnce asym) (fun b hb => Ex.regular asym (Ex.selected_lt asym b hb)) (c := -1) (by norm_num)
  exact ⟨s₁, r₁, s₂, r₂, h1, h2, fun b hb k hk => ((H b hb).2 k hk).2.2⟩

end Booz
