import Verif.Lemmas.Arrays
import Verif.Model.InitTrig

/-!
# Closed form of `init_trig`
-/

namespace Booz
variable {α : Type} [Arith α]

/-- Column `m` of a cosine/sine table pair as produced by the recurrence, at a point whose first
cosine and sine are `c1`, `s1` and whose sine column 0 holds `s0`. -/
def trigCol (c1 s1 s0 : α) : Nat → α × α
  | 0 => (ofInt 1, s0)
  | 1 => (c1, s1)
  | k + 2 =>
    let p := trigCol c1 s1 s0 (k + 1)
    (p.1 * c1 - p.2 * s1, p.2 * c1 + p.1 * s1)

theorem trigCol_s0 (c1 s1 s0 s0' : α) (m : Nat) (hm : 1 ≤ m) :
    trigCol c1 s1 s0 m = trigCol c1 s1 s0' m := by
  induction m with
  | zero => omega
  | succ m ih =>
    cases m with
    | zero => rfl
    | succ m => simp only [trigCol]; rw [ih (by omega)]

/-- Inner loop of the recurrence for column `k+2`. -/
theorem trigStep_loop {R C p k : Nat} {fc fs : Nat → Nat → α} {col : Nat → Nat → α × α}
    (hp : p ≤ R) (hk : k + 2 < C)
    (h1 : ∀ j, j < p → fc j 1 = (col j 1).1 ∧ fs j 1 = (col j 1).2)
    (hk1 : ∀ j, j < p → fc j (k + 1) = (col j (k + 1)).1 ∧ fs j (k + 1) = (col j (k + 1)).2)
    (hcol : ∀ j, j < p → col j (k + 2) =
      ((col j (k + 1)).1 * (col j 1).1 - (col j (k + 1)).2 * (col j 1).2,
       (col j (k + 1)).2 * (col j 1).1 + (col j (k + 1)).1 * (col j 1).2)) :
    loop p (trigStep (k + 2)) (Mat.tab R C fc, Mat.tab R C fs) =
      .ok (Mat.tab R C (fun j m => if j < p ∧ m = k + 2 then (col j m).1 else fc j m),
           Mat.tab R C (fun j m => if j < p ∧ m = k + 2 then (col j m).2 else fs j m)) := by
  refine loop_traj' (fun i =>
    (Mat.tab R C (fun j m => if j < i ∧ m = k + 2 then (col j m).1 else fc j m),
     Mat.tab R C (fun j m => if j < i ∧ m = k + 2 then (col j m).2 else fs j m))) ?_ ?_ rfl
  · intro i hi
    simp only [trigStep]
    have e1 : k + 2 - 1 = k + 1 := by omega
    rw [e1]
    rw [Mat.rdN_tab (by omega) (by omega), ok_bind, Mat.rdN_tab (by omega) (by omega), ok_bind,
      Mat.rdN_tab (by omega) (by omega), ok_bind, Mat.rdN_tab (by omega) (by omega), ok_bind,
      Mat.wrN_tab (by omega) (by omega), ok_bind, ok_bind, Mat.rdN_tab (by omega) (by omega), ok_bind,
      Mat.rdN_tab (by omega) (by omega), ok_bind, ok_bind, Mat.wrN_tab (by omega) (by omega), ok_bind]
    simp only [pure_eq_ok]
    have hne : ¬ (k + 1 = k + 2) := by omega
    have hne' : ¬ (1 = k + 2) := by omega
    obtain ⟨a1, a2⟩ := h1 i hi
    obtain ⟨b1, b2⟩ := hk1 i hi
    have hc := hcol i hi
    congr 2
    · apply Mat.tab_congr
      intro j hj m hm
      simp only [Mat.upd, hne, hne', and_false, if_false, a1, a2, b1, b2]
      by_cases hji : j = i ∧ m = k + 2
      · obtain ⟨rfl, rfl⟩ := hji
        simp [hc]
      · simp only [hji, if_false]
        have : (j < i + 1 ∧ m = k + 2) ↔ (j < i ∧ m = k + 2) := by omega
        simp only [this]
    · apply Mat.tab_congr
      intro j hj m hm
      simp only [Mat.upd, hne, hne', and_false, if_false, a1, a2, b1, b2]
      by_cases hji : j = i ∧ m = k + 2
      · obtain ⟨rfl, rfl⟩ := hji
        simp [hc]
      · simp only [hji, if_false]
        have : (j < i + 1 ∧ m = k + 2) ↔ (j < i ∧ m = k + 2) := by omega
        simp only [this]
  · simp

theorem trigRest_ok {R C p : Nat} {mmax : Int} {fc fs : Nat → Nat → α} (s0 : Nat → α)
    (hp : p ≤ R) (hm : mmax < C) :
    trigRest p mmax (Mat.tab R C fc, Mat.tab R C fs) =
      .ok (Mat.tab R C (fun j m => if j < p ∧ 2 ≤ m ∧ (m : Int) ≤ mmax then
              (trigCol (fc j 1) (fs j 1) (s0 j) m).1 else fc j m),
           Mat.tab R C (fun j m => if j < p ∧ 2 ≤ m ∧ (m : Int) ≤ mmax then
              (trigCol (fc j 1) (fs j 1) (s0 j) m).2 else fs j m)) := by
  unfold trigRest
  refine loop_traj' (fun k =>
    (Mat.tab R C (fun j m => if j < p ∧ 2 ≤ m ∧ m < k + 2 then
        (trigCol (fc j 1) (fs j 1) (s0 j) m).1 else fc j m),
     Mat.tab R C (fun j m => if j < p ∧ 2 ≤ m ∧ m < k + 2 then
        (trigCol (fc j 1) (fs j 1) (s0 j) m).2 else fs j m))) ?_ ?_ ?_
  · intro k hk
    have hkC : k + 2 < C := by omega
    rw [trigStep_loop (col := fun j m => trigCol (fc j 1) (fs j 1) (s0 j) m) hp hkC]
    · congr 2
      · apply Mat.tab_congr
        intro j hj m hm
        grind
      · apply Mat.tab_congr
        intro j hj m hm
        grind
    · intro j hj
      simp [trigCol]
    · intro j hj
      by_cases h0 : k = 0
      · subst h0; simp [trigCol]
      · have : 2 ≤ k + 1 := by omega
        simp [hj, this]
    · intro j hj
      simp [trigCol]
  · simp only [Prod.mk.injEq]
    constructor
    · apply Mat.tab_congr
      intro j _ m _
      have : ¬ (j < p ∧ 2 ≤ m ∧ m < 0 + 2) := by omega
      simp only [this, if_false]
    · apply Mat.tab_congr
      intro j _ m _
      have : ¬ (j < p ∧ 2 ≤ m ∧ m < 0 + 2) := by omega
      simp only [this, if_false]
  · simp only [Prod.mk.injEq]
    constructor
    · apply Mat.tab_congr
      intro j _ m _
      have : (j < p ∧ 2 ≤ m ∧ (m : Int) ≤ mmax) ↔ (j < p ∧ 2 ≤ m ∧ m < (mmax - 1).toNat + 2) := by
        omega
      simp only [this]
    · apply Mat.tab_congr
      intro j _ m _
      have : (j < p ∧ 2 ≤ m ∧ (m : Int) ≤ mmax) ↔ (j < p ∧ 2 ≤ m ∧ m < (mmax - 1).toNat + 2) := by
        omega
      simp only [this]

theorem initTrigFirst_loop {R Cm Cn p : Nat} {fc fs gc : Nat → Nat → α} {sinn : Mat α}
    {θ : Nat → α} (hp : p ≤ R) (hm : 2 ≤ Cm) (hn : 1 ≤ Cn) :
    loop p (initTrigFirst (Vec.tab p θ))
        ⟨Mat.tab R Cm fc, Mat.tab R Cm fs, Mat.tab R Cn gc, sinn⟩ =
      .ok ⟨Mat.tab R Cm (fun j m => if j < p ∧ m = 0 then ofInt 1 else
              if j < p ∧ m = 1 then Arith.cos (θ j) else fc j m),
           Mat.tab R Cm (fun j m => if j < p ∧ m = 1 then Arith.sin (θ j) else fs j m),
           Mat.tab R Cn (fun j n => if j < p ∧ n = 0 then ofInt 1 else gc j n), sinn⟩ := by
  refine loop_traj' (fun i =>
      ⟨Mat.tab R Cm (fun j m => if j < i ∧ m = 0 then ofInt 1 else
              if j < i ∧ m = 1 then Arith.cos (θ j) else fc j m),
           Mat.tab R Cm (fun j m => if j < i ∧ m = 1 then Arith.sin (θ j) else fs j m),
           Mat.tab R Cn (fun j n => if j < i ∧ n = 0 then ofInt 1 else gc j n), sinn⟩) ?_ ?_ rfl
  · intro i hi
    simp only [initTrigFirst]
    rw [Mat.wrN_tab (by omega) (by omega), ok_bind, Mat.wrN_tab (by omega) (by omega), ok_bind,
      Vec.rdN_tab hi, ok_bind, Mat.wrN_tab (by omega) (by omega), ok_bind, ok_bind,
      Mat.wrN_tab (by omega) (by omega), ok_bind]
    simp only [pure_eq_ok]
    congr 2
    · apply Mat.tab_congr
      intro j hj m hm
      simp only [Mat.upd]
      grind
    · apply Mat.tab_congr
      intro j hj m hm
      simp only [Mat.upd]
      grind
    · apply Mat.tab_congr
      intro j hj m hm
      simp only [Mat.upd]
      grind
  · simp

theorem initTrigFirstN_loop {R Cn p q : Nat} {gc gs : Nat → Nat → α} {cosm sinm : Mat α}
    {ζ : Nat → α} {nfpx : Int} (hp : p ≤ R) (hn : 2 ≤ Cn) (hq : p ≤ q) :
    loop p (initTrigFirstN (Vec.tab q ζ) nfpx)
        ⟨cosm, sinm, Mat.tab R Cn gc, Mat.tab R Cn gs⟩ =
      .ok ⟨cosm, sinm,
           Mat.tab R Cn (fun j n => if j < p ∧ n = 1 then Arith.cos (ofInt nfpx * ζ j) else gc j n),
           Mat.tab R Cn (fun j n => if j < p ∧ n = 1 then Arith.sin (ofInt nfpx * ζ j) else gs j n)⟩
    := by
  refine loop_traj' (fun i =>
      ⟨cosm, sinm,
       Mat.tab R Cn (fun j n => if j < i ∧ n = 1 then Arith.cos (ofInt nfpx * ζ j) else gc j n),
       Mat.tab R Cn (fun j n => if j < i ∧ n = 1 then Arith.sin (ofInt nfpx * ζ j) else gs j n)⟩)
    ?_ ?_ rfl
  · intro i hi
    simp only [initTrigFirstN]
    rw [Vec.rdN_tab (by omega), ok_bind, Mat.wrN_tab (by omega) (by omega), ok_bind, ok_bind,
      Mat.wrN_tab (by omega) (by omega), ok_bind]
    simp only [pure_eq_ok]
    congr 2
    · apply Mat.tab_congr
      intro j hj m hm
      simp only [Mat.upd]
      grind
    · apply Mat.tab_congr
      intro j hj m hm
      simp only [Mat.upd]
      grind
  · simp

/-- Closed form of `init_trig`: every entry in range is given by the recurrence, the rest of the
tables is left as it was. -/
theorem initTrig_ok {R Cm Cn p q : Nat} {fc fs gc gs : Nat → Nat → α} {θ ζ : Nat → α}
    {mmax nmax nfpx : Int} (hp : p ≤ R) (hm : 2 ≤ Cm) (hmm : mmax < Cm) (hn : 1 ≤ Cn)
    (hnn : nmax < Cn) (hq : p ≤ q) :
    initTrig (Vec.tab p θ) (Vec.tab q ζ)
        ⟨Mat.tab R Cm fc, Mat.tab R Cm fs, Mat.tab R Cn gc, Mat.tab R Cn gs⟩ mmax nmax nfpx =
      .ok ⟨Mat.tab R Cm (fun j m => if j < p ∧ (m ≤ 1 ∨ (m : Int) ≤ mmax) then
              (trigCol (Arith.cos (θ j)) (Arith.sin (θ j)) (fs j 0) m).1 else fc j m),
           Mat.tab R Cm (fun j m => if j < p ∧ (m ≤ 1 ∨ (m : Int) ≤ mmax) then
              (trigCol (Arith.cos (θ j)) (Arith.sin (θ j)) (fs j 0) m).2 else fs j m),
           Mat.tab R Cn (fun j n => if j < p ∧ (n = 0 ∨ (n : Int) ≤ nmax) then
              (trigCol (Arith.cos (ofInt nfpx * ζ j)) (Arith.sin (ofInt nfpx * ζ j)) (gs j 0) n).1
              else gc j n),
           Mat.tab R Cn (fun j n => if j < p ∧ (n = 0 ∨ (n : Int) ≤ nmax) then
              (trigCol (Arith.cos (ofInt nfpx * ζ j)) (Arith.sin (ofInt nfpx * ζ j)) (gs j 0) n).2
              else gs j n)⟩ := by
  unfold initTrig
  simp only [Vec.size_tab]
  rw [initTrigFirst_loop hp hm hn, ok_bind]
  by_cases h1 : nmax ≥ 1
  · rw [if_pos h1, initTrigFirstN_loop hp (by omega) hq, ok_bind]
    rw [trigRest_ok (fun j => fs j 0) hp hmm, ok_bind]
    rw [trigRest_ok (fun j => gs j 0) hp hnn]
    simp only [ok_bind, pure_eq_ok]
    congr 2
    · apply Mat.tab_congr
      intro j hj m hm
      rcases m with _ | _ | m
      · by_cases hjp : j < p <;> simp [trigCol, hjp]
      · by_cases hjp : j < p <;> simp [trigCol, hjp]
      · by_cases hjp : j < p <;> simp [hjp]
    · apply Mat.tab_congr
      intro j hj m hm
      rcases m with _ | _ | m
      · by_cases hjp : j < p <;> simp [trigCol, hjp]
      · by_cases hjp : j < p <;> simp [trigCol, hjp]
      · by_cases hjp : j < p <;> simp [hjp]
    · apply Mat.tab_congr
      intro j hj m hm
      have h1' : (1 : Int) ≤ nmax := h1
      rcases m with _ | _ | m
      · by_cases hjp : j < p <;> simp [trigCol, hjp]
      · by_cases hjp : j < p <;> simp [trigCol, hjp, h1']
      · by_cases hjp : j < p <;> simp [hjp]
    · apply Mat.tab_congr
      intro j hj m hm
      have h1' : (1 : Int) ≤ nmax := h1
      rcases m with _ | _ | m
      · by_cases hjp : j < p <;> simp [trigCol, hjp]
      · by_cases hjp : j < p <;> simp [trigCol, hjp, h1']
      · by_cases hjp : j < p <;> simp [hjp]
  · rw [if_neg h1]
    simp only [pure_eq_ok, ok_bind]
    rw [trigRest_ok (fun j => fs j 0) hp hmm, ok_bind]
    rw [trigRest_ok (fun j => gs j 0) hp hnn]
    simp only [ok_bind]
    congr 2
    · apply Mat.tab_congr
      intro j hj m hm
      rcases m with _ | _ | m
      · by_cases hjp : j < p <;> simp [trigCol, hjp]
      · by_cases hjp : j < p <;> simp [trigCol, hjp]
      · by_cases hjp : j < p <;> simp [hjp]
    · apply Mat.tab_congr
      intro j hj m hm
      rcases m with _ | _ | m
      · by_cases hjp : j < p <;> simp [trigCol, hjp]
      · by_cases hjp : j < p <;> simp [trigCol, hjp]
      · by_cases hjp : j < p <;> simp [hjp]
    · apply Mat.tab_congr
      intro j hj m hm
      have h1' : ¬ (1 : Int) ≤ nmax := h1
      rcases m with _ | _ | m
      · by_cases hjp : j < p <;> simp [trigCol, hjp]
      · by_cases hjp : j < p <;> simp [hjp, h1']
      · have : ¬ ((m : Int) + 1 + 1 ≤ nmax) := by omega
        by_cases hjp : j < p <;> simp [hjp, this]
    · apply Mat.tab_congr
      intro j hj m hm
      have h1' : ¬ (1 : Int) ≤ nmax := h1
      rcases m with _ | _ | m
      · by_cases hjp : j < p <;> simp [trigCol, hjp]
      · by_cases hjp : j < p <;> simp [hjp, h1']
      · have : ¬ ((m : Int) + 1 + 1 ≤ nmax) := by omega
        by_cases hjp : j < p <;> simp [hjp, this]

end Booz
