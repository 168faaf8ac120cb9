import Verif.Lemmas.Plots
import Verif.Lemmas.Quad
import Mathlib.Tactic.FieldSimp

/-!
# Lemmas about `surfplot` and `wireplot` in real arithmetic
-/

namespace Booz.Plots
open Spec Finset

/-! ### `np.linspace` -/

theorem linspaceAt_real (stop : ℝ) {n i : ℕ} (hi : i ≤ n) : linspaceAt stop ((n : Int) + 1) i = stop * i / n := by
  unfold linspaceAt
  by_cases h : n = 0
  · subst h
    have : i = 0 := by omega
    subst this
    simp
  · have hn : (n : ℝ) ≠ 0 := by exact_mod_cast h
    rw [if_pos (by omega)]
    by_cases h2 : i = n
    · rw [if_pos (by omega), h2]
      field_simp
    · rw [if_neg (by omega)]
      simp only [real_ofInt]
      push_cast
      have : ((n : ℝ) + 1 - 1) = n := by ring
      rw [this]
      field_simp
      ring

theorem linspace_ok (stop : ℝ) (n : ℕ) : linspace stop ((n : Int) + 1) = .ok (linspaceAt stop ((n : Int) + 1)) := by
  unfold linspace
  rw [if_neg (by omega)]

/-! ### Sums -/

theorem series_succ (K : ℕ) (m n : ℕ → ℤ) (c s : ℕ → ℝ) (θ ζ : ℝ) :
    series (K + 1) m n c s θ ζ = series K m n c s θ ζ +
      (c K * Real.cos (m K * θ - n K * ζ) + s K * Real.sin (m K * θ - n K * ζ)) := by
  unfold series
  rw [Finset.sum_range_succ]

theorem series_zero (m n : ℕ → ℤ) (c s : ℕ → ℝ) (θ ζ : ℝ) : series 0 m n c s θ ζ = 0 := by
  unfold series
  simp

variable {b : St ℝ} {K nb nfp : ℕ} {asym : Bool}

theorem modB_ok (h : Computed b K nb nfp asym) {js : Int} {c : ℕ} (hc : IsColumn nb js c) (th ph : ℕ → ℝ) :
    loop K (modBStep b js th ph) (fun _ _ => ofInt 0) = .ok fun i j => seriesB b K asym c (th i) (ph j) := by
  refine loop_traj' (fun k => fun i j => seriesB b k asym c (th i) (ph j)) (fun k hk => ?_) ?_ rfl
  · unfold modBStep
    rw [at1_full 0 h.xm_b hk, at1_full 0 h.xn_b hk, at2_full 0 h.bmnc_b hk hc, h.asym_eq]
    cases asym with
    | false =>
      refine congrArg Except.ok (funext fun i => funext fun j => ?_)
      unfold seriesB
      rw [series_succ]
      simp [onlyIf, entry]
    | true =>
      show (at2 b.out.spec.bmns_b (k : Int) js >>= fun s => _) = _
      rw [at2_full 0 (h.asym_b rfl).1 hk hc]
      refine congrArg Except.ok (funext fun i => funext fun j => ?_)
      unfold seriesB
      rw [series_succ]
      simp [onlyIf, entry, add_assoc]
  · funext i j
    unfold seriesB
    rw [series_zero]
    simp

/-- A loop whose first pass raises an exception. -/
theorem loop_first {σ : Type} {body : Nat → σ → Res σ} {m : String} {n : Nat} (hn : 1 ≤ n)
    (s : σ) (h : body 0 s = thrown m) : loop n body s = thrown m := by
  induction n, hn using Nat.le_induction with
  | base => rw [loop_succ]; exact h
  | succ n _ ih => rw [loop_succ, ih]; rfl

/-- No such surface. -/
theorem modB_exc (h : Computed b K nb nfp asym) (hK : 1 ≤ K) {js : Int} (hc : ∀ c, ¬ IsColumn nb js c) (th ph : ℕ → ℝ)
    (z : ℕ → ℕ → ℝ) : loop K (modBStep b js th ph) z = thrown "IndexError" := by
  refine loop_first hK _ ?_
  unfold modBStep
  rw [at1_full 0 h.xm_b hK, at1_full 0 h.xn_b hK]
  show (at2 b.out.spec.bmnc_b ((0 : ℕ) : Int) js >>= fun c => _) = _
  unfold at2
  rw [h.bmnc_b.1, h.bmnc_b.2.1, pyIndex_nat hK, pyIndex_out hc]
  rfl

/-- The sums for R, Z and ν; the two derivatives are those of the symmetric parts of R and Z. -/
noncomputable def wireSums (b : St ℝ) (K : ℕ) (asym : Bool) (c : ℕ) (th ph : ℕ → ℝ) : WireSums ℝ where
  R := fun i j => seriesR b K asym c (th i) (ph j)
  Z := fun i j => seriesZ b K asym c (th i) (ph j)
  dR := fun i j => series K (outM b) (outN b) (fun _ => 0) (fun k => -outM b k * entry b.out.spec.rmnc_b k c)
    (th i) (ph j)
  dZ := fun i j => series K (outM b) (outN b) (fun k => outM b k * entry b.out.spec.zmns_b k c) (fun _ => 0)
    (th i) (ph j)
  nu := fun i j => seriesNu b K asym c (th i) (ph j)

theorem wire_ok (h : Computed b K nb nfp asym) {js : Int} {c : ℕ} (hc : IsColumn nb js c) (th ph : ℕ → ℝ) :
    loop K (wireStep b js th ph) ⟨fun _ _ => ofInt 0, fun _ _ => ofInt 0, fun _ _ => ofInt 0, fun _ _ => ofInt 0,
        fun _ _ => ofInt 0⟩ = .ok (wireSums b K asym c th ph) := by
  refine loop_traj' (fun k =>
    { R := fun i j => seriesR b k asym c (th i) (ph j)
      Z := fun i j => seriesZ b k asym c (th i) (ph j)
      dR := fun i j => series k (outM b) (outN b) (fun _ => 0) (fun k => -outM b k * entry b.out.spec.rmnc_b k c)
        (th i) (ph j)
      dZ := fun i j => series k (outM b) (outN b) (fun k => outM b k * entry b.out.spec.zmns_b k c) (fun _ => 0)
        (th i) (ph j)
      nu := fun i j => seriesNu b k asym c (th i) (ph j) }) (fun k hk => ?_) ?_ rfl
  · unfold wireStep
    rw [at1_full 0 h.xm_b hk, at1_full 0 h.xn_b hk, at2_full 0 h.rmnc_b hk hc, at2_full 0 h.zmns_b hk hc,
      at2_full 0 h.numns_b hk hc, h.asym_eq]
    cases asym with
    | false =>
      refine congrArg Except.ok ?_
      unfold seriesR seriesZ seriesNu
      congr 1 <;> funext i j <;> rw [series_succ] <;> simp [onlyIf, entry]
    | true =>
      show (at2 b.out.spec.rmns_b (k : Int) js >>= fun s => at2 b.out.spec.zmnc_b (k : Int) js >>= fun t =>
        at2 b.out.spec.numnc_b (k : Int) js >>= fun u => _) = _
      rw [at2_full 0 (h.asym_b rfl).2.1 hk hc, at2_full 0 (h.asym_b rfl).2.2.1 hk hc, at2_full 0 (h.asym_b rfl).2.2.2 hk hc]
      refine congrArg Except.ok ?_
      unfold seriesR seriesZ seriesNu
      congr 1 <;> funext i j <;> rw [series_succ] <;> simp [onlyIf, entry] <;> ring
  · unfold seriesR seriesZ seriesNu
    congr 1 <;> funext i j <;> rw [series_zero] <;> simp

/-! ### Selecting the curves -/

theorem npMod_one {i r : ℕ} (hr : 2 ≤ r) : npMod ((i : Int) + 1) (r : Int) = 1 ↔ r ∣ i := by
  unfold npMod
  rw [if_neg (by omega), Int.fmod_eq_emod_of_nonneg _ (by omega)]
  have : ((i : Int) + 1) % (r : Int) = (((i + 1) % r : ℕ) : Int) := by push_cast; rfl
  rw [this]
  constructor
  · intro h
    have h' : (i + 1) % r = 1 := by exact_mod_cast h
    have := Nat.div_add_mod (i + 1) r
    exact ⟨(i + 1) / r, by omega⟩
  · rintro ⟨q, rfl⟩
    have : (r * q + 1) % r = 1 := by rw [Nat.mul_add_mod]; exact Nat.mod_eq_of_lt (by omega)
    exact_mod_cast this

theorem select {β : Type} {r : ℕ} (hr : 1 ≤ r) (n : ℕ) (f : ℕ → β) :
    (List.range (n * r + 1)).filterMap (fun i => if r ∣ i then some (f i) else none) =
      (List.range (n + 1)).map fun p => f (p * r) := by
  induction n with
  | zero => simp
  | succ n ih =>
    obtain ⟨r', rfl⟩ : ∃ r', r = r' + 1 := ⟨r - 1, by omega⟩
    rw [show (n + 1) * (r' + 1) + 1 = (n * (r' + 1) + 1) + (r' + 1) by ring, List.range_add, List.filterMap_append, ih,
      List.range_succ (n := n + 1), List.map_append]
    congr 1
    rw [List.range_succ, List.map_append, List.filterMap_append]
    have h1 : ((List.range r').map fun x => n * (r' + 1) + 1 + x).filterMap
        (fun i => if r' + 1 ∣ i then some (f i) else none) = [] := by
      rw [List.filterMap_eq_nil_iff]
      intro x hx
      obtain ⟨y, hy, rfl⟩ := List.mem_map.1 hx
      have hy' := List.mem_range.1 hy
      rw [if_neg]
      intro hd
      have : r' + 1 ∣ 1 + y := by
        rw [add_assoc] at hd
        exact (Nat.dvd_add_right ⟨n, by ring⟩).1 hd
      have := Nat.le_of_dvd (by omega) this
      omega
    rw [h1]
    have e : n * (r' + 1) + 1 + r' = (n + 1) * (r' + 1) := by ring
    simp only [List.map_cons, List.map_nil, List.nil_append, e]
    rw [List.filterMap_cons, if_pos ⟨n + 1, by ring⟩]
    rfl

/-- The two families of curves. -/
theorem wires_ok {nt np r : ℕ} (hr : 2 ≤ r) (boozer : Bool) (X Y Z : ℕ → ℕ → ℝ) (pt : ℝ → ℝ → ℝ × ℝ × ℝ)
    (h : ∀ i ≤ nt * r, ∀ j ≤ np * r, (X i j, Y i j, Z i j) =
      pt (2 * Real.pi * i / (nt * r : ℕ)) (2 * Real.pi * j / (np * r : ℕ))) :
    wires boozer (r : Int) (nt * r + 1) (np * r + 1) X Y Z =
      poloidalCurves boozer nt np r pt ++ toroidalCurves boozer nt np r pt := by
  have hr0 : (r : ℝ) ≠ 0 := by positivity
  have frac : ∀ p n : ℕ, 2 * Real.pi * ((p * r : ℕ) : ℝ) / ((n * r : ℕ) : ℝ) = 2 * Real.pi * p / n := by
    intro p n
    push_cast
    rw [← mul_assoc, mul_div_mul_right _ _ hr0]
  unfold wires poloidalCurves toroidalCurves
  simp only [npMod_one hr]
  rw [select (by omega), select (by omega)]
  congr 1
  · refine List.map_congr_left fun p hp => ?_
    have hp' : p ≤ nt := by have := List.mem_range.1 hp; omega
    have hpr : p * r ≤ nt * r := Nat.mul_le_mul_right _ hp'
    have hd : decide (p * r + 1 ≤ 1) = decide (p = 0) := by
      apply decide_eq_decide.2
      constructor
      · intro h0
        have : p * r = 0 := by omega
        rcases Nat.mul_eq_zero.1 this with h1 | h1 <;> omega
      · rintro rfl; simp
    rw [hd]
    unfold lineThrough
    simp only [List.map_map]
    have key : ∀ q, q ∈ List.range (np * r + 1) → pt (2 * Real.pi * p / nt) (2 * Real.pi * q / (np * r)) =
        (X (p * r) q, Y (p * r) q, Z (p * r) q) := by
      intro q hq
      rw [h (p * r) hpr q (by have := List.mem_range.1 hq; omega), frac, Nat.cast_mul]
    congr 1 <;> refine List.map_congr_left fun q hq => ?_ <;> simp only [Function.comp_apply, key q hq]
  · refine List.map_congr_left fun p hp => ?_
    have hp' : p ≤ np := by have := List.mem_range.1 hp; omega
    have hpr : p * r ≤ np * r := Nat.mul_le_mul_right _ hp'
    unfold lineThrough
    simp only [List.map_map]
    have key : ∀ q, q ∈ List.range (nt * r + 1) → pt (2 * Real.pi * q / (nt * r)) (2 * Real.pi * p / np) =
        (X q (p * r), Y q (p * r), Z q (p * r)) := by
      intro q hq
      rw [h q (by have := List.mem_range.1 hq; omega) (p * r) hpr, frac, Nat.cast_mul]
    congr 1 <;> refine List.map_congr_left fun q hq => ?_ <;> simp only [Function.comp_apply, key q hq]

end Booz.Plots
