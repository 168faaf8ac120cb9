import Verif.Props.Plots
import Mathlib.Order.Bounds.Basic

/-!
# C96, C97: what is visible on the radial plots
-/

namespace Booz
open Spec Plots
variable {α : Type} [Arith α] {b : St α} {K nb nfp : Nat} {asym : Bool}

/-! ### The values shown -/

omit [Arith α] in
theorem Spec.Shows.append {f g : List (Drawn α)} {v : α} : Shows (f ++ g) v ↔ Shows f v ∨ Shows g v := by
  constructor
  · rintro ⟨c, l, x, y, h, hv⟩
    rcases List.mem_append.1 h with h | h
    · exact .inl ⟨c, l, x, y, h, hv⟩
    · exact .inr ⟨c, l, x, y, h, hv⟩
  · rintro (⟨c, l, x, y, h, hv⟩ | ⟨c, l, x, y, h, hv⟩)
    · exact ⟨c, l, x, y, List.mem_append_left _ h, hv⟩
    · exact ⟨c, l, x, y, List.mem_append_right _ h, hv⟩

omit [Arith α] in
theorem Spec.Shows.nil {v : α} : ¬ Shows ([] : List (Drawn α)) v := by
  rintro ⟨_, _, _, _, h, _⟩
  cases h

omit [Arith α] in
theorem Spec.Shows.single {c : Color} {l : Option Label} {x y : List α} {v : α} :
    Shows [.curve c l x y] v ↔ v ∈ y := by
  constructor
  · rintro ⟨c', l', x', y', h, hv⟩
    rw [List.mem_singleton] at h
    cases h
    exact hv
  · exact fun h => ⟨c, l, x, y, List.mem_singleton_self _, h⟩

theorem mem_profile {remove : Option (Int × Int)} {k : Nat} {v : α} :
    v ∈ profile b nb remove true k ↔ ∃ j < nb, v = Arith.abs (amplitude b remove k j) := by
  unfold profile
  simp only [List.mem_map, List.mem_range, if_true]
  exact ⟨fun ⟨j, hj, e⟩ => ⟨j, hj, e.symm⟩, fun ⟨j, hj, e⟩ => ⟨j, hj, e.symm⟩⟩

theorem legendEntry_shows {a : SymArgs α} {c : ModeClass} {p : Int → Int → Prop} {L : List (Drawn α)}
    (h : LegendEntry b K nb a c p L) (hl : a.log = true) {v : α} (hv : Shows L v) :
    ∃ k < K, p (outM b k) (outN b k) ∧ ∃ j < nb, v = Arith.abs (amplitude b a.remove k j) := by
  rcases h with ⟨_, rfl⟩ | ⟨k, hk, hp, _, rfl⟩
  · exact absurd hv Spec.Shows.nil
  · rw [Spec.Shows.single, hl] at hv
    exact ⟨k, hk, hp, mem_profile.1 hv⟩

/-- Values in the legend lines of `symplot`: of some mode, not of (0,0) unless `B0`. -/
theorem legend_shows {a : SymArgs α} {N : Int} {L : List (Drawn α)} (h : Legend b K nb a N L) (hl : a.log = true)
    {v : α} (hv : Shows L v) :
    ∃ k < K, (a.B0 = false → ¬ (outM b k = 0 ∧ outN b k = 0)) ∧
      ∃ j < nb, v = Arith.abs (amplitude b a.remove k j) := by
  obtain ⟨L0, L1, L2, L3, rfl, h0, h0', h1, h2, h3, h3'⟩ := h
  rw [Spec.Shows.append, Spec.Shows.append, Spec.Shows.append] at hv
  have done : ∀ {c : ModeClass} {p : Int → Int → Prop} {L : List (Drawn α)}, LegendEntry b K nb a c p L → Shows L v →
      (∀ m n, p m n → ¬ (m = 0 ∧ n = 0)) → ∃ k < K, (a.B0 = false → ¬ (outM b k = 0 ∧ outN b k = 0)) ∧
      ∃ j < nb, v = Arith.abs (amplitude b a.remove k j) := by
    intro c p L hL hs hp
    obtain ⟨k, hk, hpk, r⟩ := legendEntry_shows hL hl hs
    exact ⟨k, hk, fun _ => hp _ _ hpk, r⟩
  rcases hv with ((hv | hv) | hv) | hv
  · cases hB : a.B0
    · rw [h0' hB] at hv
      exact absurd hv Spec.Shows.nil
    · obtain ⟨k, hk, _, r⟩ := legendEntry_shows (h0 hB) hl hv
      exact ⟨k, hk, fun e => (by cases e), r⟩
  · exact done h1 hv fun m n hp hz => hp.1 hz.1
  · exact done h2 hv fun m n hp hz => hp.2 hz.2
  · cases hd : a.detail
    · exact done (h3' hd) hv fun m n hp hz => hp.1 hz.1
    · obtain ⟨P, M, O, rfl, hP, hM, hO⟩ := h3 hd
      rw [Spec.Shows.append, Spec.Shows.append] at hv
      rcases hv with (hv | hv) | hv
      · exact done hP hv fun m n hp hz => hp.2.1 hz.1
      · exact done hM hv fun m n hp hz => hp.2.1 hz.1
      · exact done hO hv fun m n hp hz => hp.1 hz.1

/-- Values on the curves of `symplot` with a logarithmic axis: absolute values of amplitudes, not of the
mode (0,0) unless `B0`; and the amplitudes of all modes within the limits are there. -/
theorem symplot_shows (h : Computed b K nb nfp asym) (a : SymArgs α) (hl : a.log = true) {bottom : α}
    (hbot : axisBottom (Mat.tab K nb (amplitude b a.remove)) a.ymin = .ok bottom) :
    ∃ fig, (∀ disk, symplot disk (.object b) a [] = .ok () (fig ++ [.logAxis bottom])) ∧
      (∀ v, Shows fig v → ∃ k < K, (a.B0 = false → ¬ (outM b k = 0 ∧ outN b k = 0)) ∧
        ∃ j < nb, v = Arith.abs (amplitude b a.remove k j)) ∧
      ∀ k < K, Within a.max_m a.max_n nfp (outM b k) (outN b k) →
        (a.B0 = false → ¬ (outM b k = 0 ∧ outN b k = 0)) →
        ∀ j < nb, Shows fig (Arith.abs (amplitude b a.remove k j)) := by
  obtain ⟨cls, hc⟩ := exists_classes b a.detail nfp
  have hbg : ∀ k, cls k = .background ↔ outM b k = 0 ∧ outN b k = 0 := by
    intro k
    have := hc k
    generalize cls k = c at this ⊢
    cases c <;> simp only [InClass] at this <;> simp [this]
  obtain ⟨legend, hleg, hs⟩ := symplot_curves h a cls (fun k _ => hc k) hbot []
  refine ⟨legend ++ (((List.range K).filter fun k => decide (Within a.max_m a.max_n nfp (outM b k) (outN b k) ∧
      (cls k = .background → a.B0 = true))).map fun k =>
        .curve (cls k).color none (axis b nb a.sqrts) (profile b nb a.remove a.log k)), fun disk => ?_, ?_, ?_⟩
  · rw [hs disk, hl]
    rfl
  · intro v hv
    rw [Spec.Shows.append] at hv
    rcases hv with hv | ⟨c, l, x, y, hm, hv⟩
    · exact legend_shows hleg hl hv
    · obtain ⟨k, hk, e⟩ := List.mem_map.1 hm
      rw [List.mem_filter, List.mem_range, decide_eq_true_iff] at hk
      injection e with _ _ _ e
      rw [← e, hl] at hv
      exact ⟨k, hk.1, fun hB hz => by simpa [hB] using hk.2.2 ((hbg k).2 hz), mem_profile.1 hv⟩
  · intro k hk hw hB j hj
    rw [Spec.Shows.append]
    refine .inr ⟨_, _, _, _, List.mem_map.2 ⟨k, List.mem_filter.2 ⟨List.mem_range.2 hk, decide_eq_true ⟨hw, fun e => ?_⟩⟩, rfl⟩, ?_⟩
    · cases hb : a.B0
      · exact absurd ((hbg k).1 e) (hB hb)
      · rfl
    · rw [hl]
      exact mem_profile.2 ⟨j, hj, rfl⟩

/-! ### C96: the lower end of a logarithmic axis -/

/-- The default lower end of the axis is 10⁻⁴ of the greatest entry. -/
theorem axisBottom_real {a : Mat ℝ} {r c : Nat} (h : a.Full r c) (hr : 1 ≤ r) (hc : 1 ≤ c) :
    ∃ x, axisBottom a none = .ok x ∧ (∀ i < r, ∀ j < c, a.val 0 i j ≤ 10000 * x) ∧
      ∃ i < r, ∃ j < c, a.val 0 i j = 10000 * x := by
  obtain ⟨x, hx, ⟨i, hi, j, hj, e⟩, hle⟩ := npMax_total (0 : ℝ) h hr hc
    (fun i j x => (∃ i' < r, ∃ j' < c, x = a.val 0 i' j') ∧
      ∀ i' < r, ∀ j' < c, (j' < j ∨ (j' = j ∧ i' < i)) → a.val 0 i' j' ≤ x)
    ⟨⟨0, by omega, 0, by omega, rfl⟩, fun i' _ j' _ hh => by omega⟩
    (fun i hi j hj x ⟨⟨i1, h1, j1, h2, e⟩, hle⟩ => by
      rw [real_max]
      refine ⟨?_, fun i' h3 j' h4 hh => ?_⟩
      · rcases max_choice x (a.val 0 i j) with hm | hm <;> rw [hm]
        · exact ⟨i1, h1, j1, h2, e⟩
        · exact ⟨i, hi, j, hj, rfl⟩
      · by_cases h5 : j' = j ∧ i' = i
        · rw [h5.1, h5.2]
          exact le_max_right _ _
        · exact le_trans (hle i' h3 j' h4 (by omega)) (le_max_left _ _))
    (fun j hj x ⟨hx, hle⟩ => ⟨hx, fun i' h3 j' h4 hh => hle i' h3 j' h4 (by omega)⟩)
  refine ⟨x * (ofInt 1 / ofInt 10000), ?_, fun i hi j hj => ?_, i, hi, j, hj, ?_⟩
  · unfold axisBottom
    dsimp only
    rw [hx]
    rfl
  · have := hle i hi j hj (by omega)
    rw [real_ofInt, real_ofInt]
    norm_num
    linarith
  · rw [real_ofInt, real_ofInt, ← e]
    norm_num
    ring

/-- **C96 (partial), `symplot`.**  If the largest amplitude in magnitude is positive there and belongs to a
mode that is drawn, then the default lower end of the axis is 10⁻⁴ of the largest value on the figure. -/
theorem C96_partial {b : St ℝ} (h : Computed b K nb nfp asym) (a : SymArgs ℝ) (hl : a.log = true)
    (hy : a.ymin = none) {k j : Nat} (hk : k < K) (hj : j < nb)
    (hmax : ∀ k' < K, ∀ j' < nb, |amplitude b a.remove k' j'| ≤ amplitude b a.remove k j)
    (hw : Within a.max_m a.max_n nfp (outM b k) (outN b k))
    (hB : a.B0 = false → ¬ (outM b k = 0 ∧ outN b k = 0)) :
    ∃ fig bottom, (∀ disk, symplot disk (.object b) a [] = .ok () (fig ++ [.logAxis bottom])) ∧
      IsGreatest {v | Shows fig v} (10000 * bottom) := by
  have ht := Mat.full_tab K nb (amplitude b a.remove)
  obtain ⟨x, hx, h1, i', hi', j', hj', h2⟩ := axisBottom_real ht (by omega) (by omega)
  obtain ⟨fig, hf, hs, hd⟩ := symplot_shows h a hl (bottom := x) (by rw [hy]; exact hx)
  have e : amplitude b a.remove k j = 10000 * x := by
    have h3 := h1 k hk j hj
    rw [Mat.val_tab hk hj] at h3
    rw [Mat.val_tab hi' hj'] at h2
    have := hmax i' hi' j' hj'
    have := le_abs_self (amplitude b a.remove i' j')
    linarith
  refine ⟨fig, x, hf, ?_, ?_⟩
  · have := hd k hk hw hB j hj
    rw [real_abs, abs_of_nonneg (le_trans (abs_nonneg _) (hmax k hk j hj)), e] at this
    exact this
  · rintro v hv
    obtain ⟨k', hk', _, j', hj', rfl⟩ := hs v hv
    rw [real_abs, ← e]
    exact hmax k' hk' j' hj'

/-- **C96 (partial), `modeplot`.**  The same if the largest amplitude is on the last surface and belongs to
a mode that takes part (neither removed nor left out as background), and at least one mode is asked for. -/
theorem C96_modeplot_partial {b : St ℝ} {argsort : List ℝ → List Nat}
    (hsort : ∀ keys, IsArgsort (· ≤ ·) keys (argsort keys)) (h : Computed b K nb nfp asym)
    (h0 : outM b 0 = 0 ∧ outN b 0 = 0) (a : ModeArgs ℝ) (hn : 1 ≤ a.nmodes)
    (hle : a.nmodes ≤ K - firstRow a.B0) (hl : a.log = true) (hy : a.ymin = none) {k : Nat} (hk : k < K)
    (hb : 1 ≤ nb) (hmax : ∀ k' < K, ∀ j' < nb, |amplitude b none k' j'| ≤ amplitude b none k (nb - 1))
    (hr : amplitude b a.remove k (nb - 1) = amplitude b none k (nb - 1))
    (hB : a.B0 = false → k ≠ 0) :
    ∃ fig bottom, (∀ disk, modeplot argsort disk (.object b) a [] = .ok () (fig ++ [.logAxis bottom])) ∧
      IsGreatest {v | Shows fig v} (10000 * bottom) := by
  obtain ⟨x, hx, h1, i', hi', j', hj', h2⟩ := axisBottom_real h.bmnc_b (by omega) hb
  have hv : ∀ k j, amplitude b none k j = b.out.spec.bmnc_b.val 0 k j := fun k j => by
    unfold amplitude
    rw [real_ofInt, Int.cast_zero]
  obtain ⟨idx, _, i2, i3, _, i5, i6⟩ := modeplot_curves_real hsort h (by omega) hb h0 a (by omega) hle
    (bottom := x) (by rw [hy]; exact hx) []
  have e : amplitude b none k (nb - 1) = 10000 * x := by
    have h3 := h1 k hk (nb - 1) (by omega)
    rw [← hv] at h2 h3
    have := hmax i' hi' j' hj'
    have := le_abs_self (amplitude b none i' j')
    linarith
  have hnn : 0 ≤ amplitude b none k (nb - 1) := le_trans (abs_nonneg _) (hmax k hk (nb - 1) (by omega))
  have hrem : ∀ k' < K, ∀ j' < nb, |amplitude b a.remove k' j'| ≤ amplitude b none k (nb - 1) := by
    intro k' hk' j' hj'
    have := hmax k' hk' j' hj'
    cases hh : a.remove with
    | none => exact this
    | some q =>
      have e : amplitude b (some q) k' j' = if q.2 * outM b k' = q.1 * outN b k' then 0 else amplitude b none k' j' := by
        unfold amplitude
        rw [real_ofInt, Int.cast_zero]
      rw [e]
      split
      · rw [abs_zero]
        exact hnn
      · exact this
  refine ⟨idx.map (modeCurve b nb a), x, fun disk => ?_, ?_, ?_⟩
  · rw [i6 disk]
    simp [zeroLine, lowerEnd, hl]
  · obtain ⟨i, hi⟩ : ∃ i, i ∈ idx := by
      cases idx with
      | nil => simp at i2; omega
      | cons i _ => exact ⟨i, List.mem_cons_self ..⟩
    have hge : |amplitude b a.remove k (nb - 1)| ≤ |amplitude b a.remove (if k ∈ idx then k else i) (nb - 1)| := by
      split
      · exact le_rfl
      · rename_i hni
        exact i5 i hi k hk hB hni
    obtain ⟨i, hi, rfl⟩ : ∃ i', i' ∈ idx ∧ (if k ∈ idx then k else i) = i' := by
      split
      · rename_i hki
        exact ⟨k, hki, rfl⟩
      · exact ⟨i, hi, rfl⟩
    refine ⟨_, _, _, _, List.mem_map.2 ⟨_, hi, rfl⟩, ?_⟩
    rw [hl, mem_profile]
    refine ⟨nb - 1, by omega, ?_⟩
    rw [real_abs, ← e]
    have := hrem _ (i3 _ hi).1 (nb - 1) (by omega)
    rw [hr, abs_of_nonneg hnn] at hge
    linarith
  · rintro v ⟨c, l, x', y, hm, hv⟩
    obtain ⟨i, hi, e'⟩ := List.mem_map.1 hm
    injection e' with _ _ _ e'
    rw [← e', hl] at hv
    obtain ⟨j, hj, rfl⟩ := mem_profile.1 hv
    rw [real_abs, ← e]
    exact hrem _ (i3 _ hi).1 j hj

/-- The example: a large (0,0) mode and two small ones. -/
noncomputable def Ex.steep : St ℝ :=
  Ex.small false (fun k _ => if k = 0 then 100000 else k) (fun _ _ => 0) (fun j => j)

theorem Ex.steep_amp {k j : Nat} (hk : k < 3) (hj : j < 2) :
    amplitude Ex.steep none k j = if k = 0 then 100000 else (k : ℝ) := Ex.small_amp _ _ _ _ hk hj

/-- The default lower end of the axis for the example: 10 Tesla. -/
theorem Ex.steep_bottom : axisBottom Ex.steep.out.spec.bmnc_b none = .ok 10 := by
  obtain ⟨x, hx, h1, i, hi, j, hj, h2⟩ := axisBottom_real (Ex.small_computed false (fun k _ => if k = 0 then 100000 else k)
    (fun _ _ => 0) (fun j => j)).bmnc_b (by decide) (by decide)
  have hv : ∀ k < 3, ∀ j < 2, Ex.steep.out.spec.bmnc_b.val 0 k j = if k = 0 then 100000 else (k : ℝ) :=
    fun k hk j hj => Mat.val_tab hk hj
  have h3 := h1 0 (by decide) 0 (by decide)
  have e3 := hv 0 (by decide) 0 (by decide)
  have e2 := hv i hi j hj
  rw [if_pos rfl] at e3
  have : (i : ℝ) ≤ 3 := by exact_mod_cast (by omega : i ≤ 3)
  have e : x = 10 := by
    have h2' : Ex.steep.out.spec.bmnc_b.val 0 i j = 10000 * x := h2
    have h3' : Ex.steep.out.spec.bmnc_b.val 0 0 0 ≤ 10000 * x := h3
    rw [e2] at h2'
    rw [e3] at h3'
    split at h2' <;> linarith
  rw [← e]
  exact hx

/-- **C96 is false**, for `modeplot` and for `symplot`: the default takes the mode (0,0) into account even
if it is not drawn.  Both figures show curves, all of them below the lower end of the axis. -/
theorem C96_false : ∃ b : St ℝ, Computed b 3 2 1 false ∧
    (∀ argsort : List ℝ → List Nat, (∀ keys, IsArgsort (· ≤ ·) keys (argsort keys)) →
      ∃ fig bottom, (∀ disk, modeplot argsort disk (.object b) ⟨1, none, false, true, false, none⟩ [] =
        .ok () (fig ++ [.logAxis bottom])) ∧ (∃ v, Shows fig v) ∧ ∀ v, Shows fig v → v < bottom) ∧
    ∃ fig bottom, (∀ disk, symplot disk (.object b) ⟨20, 20, none, false, true, false, none, false⟩ [] =
      .ok () (fig ++ [.logAxis bottom])) ∧ (∃ v, Shows fig v) ∧ ∀ v, Shows fig v → v < bottom := by
  have hC : Computed Ex.steep 3 2 1 false := Ex.small_computed _ _ _ _
  refine ⟨Ex.steep, hC, fun argsort hs => ?_, ?_⟩
  · have := Ex.small_one hs false (fun k _ => if k = 0 then 100000 else (k : ℝ)) (fun _ _ => 0) (fun j => (j : ℝ))
      (k := 2) (.inr rfl) (by norm_num) Ex.steep_bottom
    refine ⟨[_], 10, this, ⟨_, Spec.Shows.single.2 (mem_profile.2 ⟨0, by decide, rfl⟩)⟩, fun v hv => ?_⟩
    obtain ⟨j, hj, rfl⟩ := mem_profile.1 (Spec.Shows.single.1 hv)
    have e : amplitude (Ex.small false (fun k _ => if k = 0 then 100000 else (k : ℝ)) (fun _ _ => 0) (fun j => (j : ℝ))) none 2 j = 2 := by
      have := Ex.steep_amp (k := 2) (by decide) hj
      rw [if_neg (by decide)] at this
      exact_mod_cast this
    rw [e, real_abs]
    norm_num
  · have hbot : axisBottom (Mat.tab 3 2 (amplitude Ex.steep none)) none = .ok 10 := by
      obtain ⟨x, hx, h1, i, hi, j, hj, h2⟩ := axisBottom_real (Mat.full_tab 3 2 (amplitude Ex.steep none)) (by decide) (by decide)
      have h3 := h1 0 (by decide) 0 (by decide)
      rw [Mat.val_tab (by decide) (by decide), Ex.steep_amp (by decide) (by decide), if_pos rfl] at h3
      rw [Mat.val_tab hi hj, Ex.steep_amp hi hj] at h2
      have : (i : ℝ) ≤ 3 := by exact_mod_cast (by omega : i ≤ 3)
      have e : x = 10 := by split at h2 <;> linarith
      rw [← e]
      exact hx
    obtain ⟨fig, hf, hs, hd⟩ := symplot_shows hC ⟨20, 20, none, false, true, false, none, false⟩ rfl hbot
    have hm : ∀ k < 3, outM Ex.steep k = k ∧ outN Ex.steep k = 0 := fun k hk => ⟨Vec.val_tab hk, Vec.val_tab hk⟩
    refine ⟨fig, 10, hf, ⟨_, hd 1 (by decide) ?_ (fun _ => ?_) 0 (by decide)⟩, fun v hv => ?_⟩
    · rw [(hm 1 (by decide)).1, (hm 1 (by decide)).2]
      decide
    · rw [(hm 1 (by decide)).1]
      decide
    · obtain ⟨k, hk, hz, j, hj, rfl⟩ := hs v hv
      have hk0 : k ≠ 0 := by
        intro e
        refine hz rfl ?_
        rw [(hm k hk).1, (hm k hk).2, e]
        exact ⟨rfl, rfl⟩
      show |amplitude Ex.steep none k j| < 10
      rw [Ex.steep_amp hk hj, if_neg hk0, abs_of_nonneg (Nat.cast_nonneg k)]
      have : (k : ℝ) ≤ 3 := by exact_mod_cast (by omega : k ≤ 3)
      linarith

/-- The hypotheses of the partial theorems can be met: the same object with the (0,0) mode drawn. -/
example : ∃ fig bottom, (∀ disk, symplot disk (.object Ex.steep) ⟨20, 20, none, false, true, true, none, false⟩ [] =
    .ok () (fig ++ [.logAxis bottom])) ∧ IsGreatest {v | Shows fig v} (10000 * bottom) := by
  refine C96_partial (k := 0) (j := 0) (Ex.small_computed _ _ _ _) _ rfl rfl (by decide) (by decide) (fun k hk j hj => ?_) ?_
    (fun h => by cases h)
  · show |amplitude Ex.steep none k j| ≤ amplitude Ex.steep none 0 0
    rw [Ex.steep_amp hk hj, Ex.steep_amp (by decide) (by decide), if_pos rfl]
    have : (k : ℝ) ≤ 3 := by exact_mod_cast (by omega : k ≤ 3)
    split
    · norm_num
    · rw [abs_of_nonneg (Nat.cast_nonneg k)]
      linarith
  · have h1 : outM Ex.steep 0 = 0 := Vec.val_tab (by decide)
    have h2 : outN Ex.steep 0 = 0 := Vec.val_tab (by decide)
    show Within _ _ _ (outM Ex.steep 0) (outN Ex.steep 0)
    rw [h1, h2]
    decide

example : ∃ fig bottom, (∀ disk, modeplot Ex.argsort disk (.object Ex.steep) ⟨2, none, false, true, true, none⟩ [] =
    .ok () (fig ++ [.logAxis bottom])) ∧ IsGreatest {v | Shows fig v} (10000 * bottom) := by
  refine C96_modeplot_partial (k := 0) Ex.argsort_ok (Ex.small_computed _ _ _ _) ⟨rfl, rfl⟩ _ (by decide) (by decide) rfl rfl
    (by decide) (by decide) (fun k hk j hj => ?_) rfl (fun h => by cases h)
  show |amplitude Ex.steep none k j| ≤ amplitude Ex.steep none 0 1
  rw [Ex.steep_amp hk hj, Ex.steep_amp (by decide) (by decide), if_pos rfl]
  have : (k : ℝ) ≤ 3 := by exact_mod_cast (by omega : k ≤ 3)
  split
  · norm_num
  · rw [abs_of_nonneg (Nat.cast_nonneg k)]
    linarith

/-! ### C97: the limits on the mode numbers -/

/-- **C97 is false.**  After every run with `mboz ≥ 2` and `nboz ≥ 2`, if `max_n` is less than `nboz`, the
figure has a curve of a mode beyond the limit: the legend line for helical modes shows n = -nboz nfp. -/
theorem C97_false {s : St α} {d : Dims} (h : RunReady s.inp d) (hM : 2 ≤ d.M) (hN : 2 ≤ d.N)
    (hb : 1 ≤ d.nsb) (a : SymArgs α) (hn : a.max_n < d.N) (fig : List (Drawn α)) :
    ∃ fig' c l, ∃ k < d.nmodes, ¬ Within a.max_m a.max_n d.nfp (outM (runSt d s d.nsb) k) (outN (runSt d s d.nsb) k) ∧
      (∀ disk, symplot disk (.object (runSt d s d.nsb)) a fig = .ok () fig') ∧
      Drawn.curve c l (axis (runSt d s d.nsb) d.nsb a.sqrts)
        (profile (runSt d s d.nsb) d.nsb a.remove a.log k) ∈ fig' := by
  have hK : d.N + 1 < d.nmodes := by
    unfold Dims.nmodes
    have : 2 * d.N + 1 ≤ (d.M - 1) * (2 * d.N + 1) := Nat.le_mul_of_pos_left _ (by omega)
    have e : (d.M - 1) * (2 * d.N + 1) = (2 * d.N + 1) * (d.M - 1) := Nat.mul_comm _ _
    omega
  have hp : 1 ≤ d.nfp := h.nfp_pos
  have e1 : ∀ k < d.nmodes, outM (runSt d s d.nsb) k = modeM d.N k := fun k hk => Vec.val_tab hk
  have e2 : ∀ k < d.nmodes, outN (runSt d s d.nsb) k = modeN d.N k * d.nfp := fun k hk => Vec.val_tab hk
  have z : ∀ k < d.N + 1, modeM d.N k = 0 := fun k hk => Nat.div_eq_of_lt (by omega)
  have m1 : modeM d.N (d.N + 1) = 1 := by
    unfold modeM
    rw [show d.N + 1 + d.N = 2 * d.N + 1 by omega]
    exact Nat.div_self (by omega)
  have n1 : modeN d.N (d.N + 1) = -(d.N : Int) := by
    unfold modeN
    rw [show d.N + 1 + d.N = 2 * d.N + 1 by omega, Nat.mod_self]
    simp
  have M1 : outM (runSt d s d.nsb) (d.N + 1) = 1 := by rw [e1 _ hK, m1]; rfl
  have N1 : outN (runSt d s d.nsb) (d.N + 1) = -((d.N : Int) * d.nfp) := by rw [e2 _ hK, n1, Int.neg_mul]
  have hNp : (d.nfp : Int) < (d.N : Int) * d.nfp := by
    have : 2 * d.nfp ≤ d.N * d.nfp := Nat.mul_le_mul_right _ hN
    have : ((2 * d.nfp : Nat) : Int) ≤ ((d.N * d.nfp : Nat) : Int) := Int.ofNat_le.2 this
    push_cast at this
    omega
  obtain ⟨cls, hc⟩ := exists_classes (runSt d s d.nsb) a.detail d.nfp
  obtain ⟨L, _, ⟨L0, L1, L2, L3, e, _, _, _, _, h5, h6⟩, _, hs⟩ :=
    C49_partial (run_computed (s := s) h) (by omega) hb a cls (fun k _ => hc k) fig
  have key : ∀ {c : ModeClass} {p : Int → Int → Prop} {O : List (Drawn α)},
      LegendEntry (runSt d s d.nsb) d.nmodes d.nsb a c p O → p 1 (-((d.N : Int) * d.nfp)) → (∀ n, ¬ p 0 n) →
      O = [.curve c.color (some c.label) (axis (runSt d s d.nsb) d.nsb a.sqrts)
        (profile (runSt d s d.nsb) d.nsb a.remove a.log (d.N + 1))] := by
    intro c p O hO hp1 hp0
    rcases hO with ⟨hno, _⟩ | ⟨k, hk, hpk, hfirst, rfl⟩
    · refine absurd ?_ (hno (d.N + 1) hK)
      rw [M1, N1]
      exact hp1
    · have : ¬ k < d.N + 1 := by
        intro hlt
        rw [e1 k hk, z k hlt] at hpk
        exact hp0 _ hpk
      have : ¬ d.N + 1 < k := by
        intro hlt
        refine hfirst _ hlt ?_
        rw [M1, N1]
        exact hp1
      have : k = d.N + 1 := by omega
      rw [this]
  have hout : ¬ Within a.max_m a.max_n d.nfp (outM (runSt d s d.nsb) (d.N + 1)) (outN (runSt d s d.nsb) (d.N + 1)) := by
    rw [M1, N1]
    rintro ⟨_, h2⟩
    rw [abs_neg, abs_of_nonneg (by omega)] at h2
    have := Int.le_of_mul_le_mul_right h2 (by omega)
    omega
  cases hd : a.detail
  · have := key (h6 hd) ⟨by decide, by omega, by omega, by omega⟩ (fun n hp => hp.1 rfl)
    refine ⟨_, ModeClass.helical.color, some ModeClass.helical.label, d.N + 1, hK, hout, hs, ?_⟩
    rw [e, this]
    simp
  · obtain ⟨P, M, O, e3, _, _, hO⟩ := h5 hd
    have := key hO ⟨by decide, by omega⟩ (fun n hp => hp.1 rfl)
    refine ⟨_, ModeClass.otherHelical.color, some ModeClass.otherHelical.label, d.N + 1, hK, hout, hs, ?_⟩
    rw [e, e3, this]
    simp

/-- The example with `nboz = 32`. -/
theorem Ex.ready_wide (asym : Bool) :
    RunReady { Ex.inputs (α := α) asym with nboz := 32 } { Ex.dims asym with N := 32 } :=
  { Ex.ready (α := α) asym with
    nboz := rfl
    fit_theta := (by decide : (10 : Nat) < 2147483648)
    fit_zeta := (by decide : (130 : Nat) < 2147483648)
    fit_pts := by
      have : ({ Ex.dims asym with N := 32 } : Dims).np ≤ 1300 := by cases asym <;> decide
      omega
    fit_nfp := (by decide : (260 : Nat) < 2147483648) }

/-- The hypotheses of `C97_false` can be met, with the default limits `max_m = max_n = 20`. -/
example (asym : Bool) (ymin : Option α) (sqrts log B0 detail : Bool) (remove : Option (Int × Int)) :
    RunReady { Ex.inputs (α := α) asym with nboz := 32 } { Ex.dims asym with N := 32 } ∧
    2 ≤ ({ Ex.dims asym with N := 32 } : Dims).M ∧ 2 ≤ ({ Ex.dims asym with N := 32 } : Dims).N ∧
    1 ≤ ({ Ex.dims asym with N := 32 } : Dims).nsb ∧
    (⟨20, 20, ymin, sqrts, log, B0, remove, detail⟩ : SymArgs α).max_n < (({ Ex.dims asym with N := 32 } : Dims).N : Int) :=
  ⟨Ex.ready_wide asym, by show 2 ≤ 2; decide, by show 2 ≤ 32; decide, by show 1 ≤ 2; decide, by show (20 : Int) < 32; decide⟩

/-- **C97 (partial).**  Every curve that `symplot` adds is the reference line, carries a legend label, or
shows a mode within the limits.  Missing (false, see above): the lines with a legend label may show modes
beyond the limits. -/
theorem C97_partial (h : Computed b K nb nfp asym) (hK : 1 ≤ K) (hb : 1 ≤ nb) (a : SymArgs α)
    (fig : List (Drawn α)) :
    ∃ added, (∀ disk, symplot disk (.object b) a fig = .ok () (fig ++ added)) ∧
      ∀ c l x y, Drawn.curve c l x y ∈ added → c = .reference ∨ l ≠ none ∨
        ∃ k < K, Within a.max_m a.max_n nfp (outM b k) (outN b k) ∧ x = axis b nb a.sqrts ∧
          y = profile b nb a.remove a.log k := by
  obtain ⟨cls, hc⟩ := exists_classes b a.detail nfp
  obtain ⟨L, bottom, ⟨L0, L1, L2, L3, e, h0, h0', h1, h2, h5, h6⟩, _, hs⟩ := C49_partial h hK hb a cls (fun k _ => hc k) fig
  refine ⟨_, fun disk => by rw [hs disk, List.append_assoc, List.append_assoc, List.append_assoc], fun c l x y hm => ?_⟩
  have leg : ∀ {cl : ModeClass} {p : Int → Int → Prop} {O : List (Drawn α)}, LegendEntry b K nb a cl p O →
      Drawn.curve c l x y ∈ O → l ≠ none := by
    rintro cl p O (⟨_, rfl⟩ | ⟨k, _, _, _, rfl⟩) hx
    · cases hx
    · rw [List.mem_singleton] at hx
      injection hx with _ e2
      rw [e2]
      exact fun hh => by cases hh
  rw [e] at hm
  simp only [List.mem_append, List.mem_map] at hm
  rcases hm with hx | ((((hx | hx) | hx) | hx) | (⟨k, hk, hx⟩ | hx))
  · unfold zeroLine at hx
    split at hx
    · cases hx
    · rw [List.mem_singleton] at hx
      injection hx with e1
      exact .inl e1
  · cases hB : a.B0
    · rw [h0' hB] at hx
      cases hx
    · exact .inr (.inl (leg (h0 hB) hx))
  · exact .inr (.inl (leg h1 hx))
  · exact .inr (.inl (leg h2 hx))
  · cases hd : a.detail
    · exact .inr (.inl (leg (h6 hd) hx))
    · obtain ⟨P, M, O, rfl, hP, hM, hO⟩ := h5 hd
      simp only [List.mem_append] at hx
      rcases hx with (hx | hx) | hx
      · exact .inr (.inl (leg hP hx))
      · exact .inr (.inl (leg hM hx))
      · exact .inr (.inl (leg hO hx))
  · rw [List.mem_filter, List.mem_range, decide_eq_true_iff] at hk
    injection hx with _ _ e3 e4
    exact .inr (.inr ⟨k, hk.1, hk.2.1, e3.symm, e4.symm⟩)
  · unfold lowerEnd at hx
    split at hx
    · rw [List.mem_singleton] at hx
      cases hx
    · cases hx

example (asym fl : Bool) (a : SymArgs α) : ∃ added, (∀ disk, symplot disk (.object (Ex.done (α := α) asym fl)) a [] =
    .ok () ([] ++ added)) ∧ ∀ c l x y, Drawn.curve c l x y ∈ added → c = .reference ∨ l ≠ none ∨
      ∃ k < 5, Within a.max_m a.max_n (2 : Nat) (outM (Ex.done (α := α) asym fl) k) (outN (Ex.done (α := α) asym fl) k) ∧
        x = axis (Ex.done (α := α) asym fl) 2 a.sqrts ∧ y = profile (Ex.done (α := α) asym fl) 2 a.remove a.log k :=
  C97_partial (Ex.done_computed asym fl) (by decide) (by decide) a []

end Booz
