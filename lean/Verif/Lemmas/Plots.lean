import Verif.Spec.Plots
import Verif.Lemmas.Arrays

/-!
# Lemmas about the model of `plots.py`
-/

namespace Booz.Plots
open Spec

/-! ### Reading -/

theorem pyIndex_nat {n i : Nat} (h : i < n) : pyIndex n (i : Int) = .ok i := by
  unfold pyIndex
  rw [if_pos ⟨by omega, by omega⟩]
  rfl

theorem pyIndex_col {n c : Nat} {js : Int} (h : IsColumn n js c) : pyIndex n js = .ok c := by
  obtain ⟨h1, h2 | h2⟩ := h
  · rw [h2]; exact pyIndex_nat h1
  · unfold pyIndex
    rw [if_neg (by omega), if_pos (by omega)]
    congr 1
    omega

theorem pyIndex_out {n : Nat} {js : Int} (h : ∀ c, ¬ IsColumn n js c) : pyIndex n js = thrown "IndexError" := by
  unfold pyIndex
  have h1 : ¬ (0 ≤ js ∧ js < n) := fun h0 => h js.toNat ⟨by omega, .inl (by omega)⟩
  have h2 : ¬ (-(n : Int) ≤ js ∧ js < 0) := fun h0 => h (js + n).toNat ⟨by omega, .inr (by omega)⟩
  rw [if_neg h1, if_neg h2]

theorem at1_full {β : Type} {v : Vec β} {n i : Nat} (d : β) (h : v.Full n) (hi : i < n) :
    at1 v (i : Int) = .ok (v.val d i) := by
  unfold at1
  rw [h.1, pyIndex_nat hi]
  exact Vec.Full.rdN d h hi

theorem at1_col {β : Type} {v : Vec β} {n c : Nat} {js : Int} (d : β) (h : v.Full n) (hc : IsColumn n js c) :
    at1 v js = .ok (v.val d c) := by
  unfold at1
  rw [h.1, pyIndex_col hc]
  exact Vec.Full.rdN d h hc.1

theorem Mat.Full.rdN {β : Type} {a : Mat β} {r c i j : Nat} (d : β) (h : a.Full r c) (hi : i < r) (hj : j < c) :
    a.rdN i j = .ok (a.val d i j) := by
  have e := Mat.Full.eq_tab d h
  rw [e, Mat.rdN_tab hi hj, ← e]

theorem at2_full {β : Type} {a : Mat β} {r c i j : Nat} {js : Int} (d : β) (h : a.Full r c) (hi : i < r)
    (hj : IsColumn c js j) : at2 a (i : Int) js = .ok (a.val d i j) := by
  unfold at2
  rw [h.1, h.2.1, pyIndex_nat hi, pyIndex_col hj]
  exact Mat.Full.rdN d h hi hj.1

theorem collect {β : Type} {n : Nat} {g : Nat → Res β} {f : Nat → β} (h : ∀ i < n, g i = .ok (f i)) :
    loop n (fun i l => do let x ← g i; pure (l ++ [x])) ([] : List β) = .ok ((List.range n).map f) := by
  induction n with
  | zero => rfl
  | succ n ih =>
    rw [loop_succ, ih fun i hi => h i (by omega)]
    show (g n >>= fun x => _) = _
    rw [h n (by omega), List.range_succ, List.map_append]
    rfl

theorem entries_full {β : Type} {v : Vec β} {n : Nat} (d : β) (h : v.Full n) :
    entries v = .ok ((List.range n).map (v.val d)) := by
  unfold entries
  rw [h.1]
  exact collect fun i hi => Vec.Full.rdN d h hi

theorem rowOf_full {β : Type} {a : Mat β} {r c i : Nat} (d : β) (h : a.Full r c) (hi : i < r) :
    rowOf a i = .ok ((List.range c).map (a.val d i)) := by
  unfold rowOf
  rw [h.1, h.2.1, if_pos hi]
  exact collect fun j hj => Mat.Full.rdN d h hi hj

/-! ### Drawing -/

theorem plot_ok {α : Type} {c : Color} {l : Option Label} {x y : List α} (h : x.length = y.length)
    (f : List (Drawn α)) : plot c l x y f = .ok () (f ++ [.curve c l x y]) := by
  unfold plot
  rw [if_pos h]
  rfl

theorem forRange_ok {α : Type} {n : Nat} {body : Nat → Fig α Unit} {g : Nat → List (Drawn α)}
    (h : ∀ i < n, ∀ f, body i f = .ok () (f ++ g i)) (f : List (Drawn α)) :
    forRange n body f = .ok () (f ++ (List.range n).flatMap g) := by
  induction n with
  | zero => simp [forRange]
  | succ n ih =>
    unfold forRange
    rw [Prog.bind_def, ih fun i hi => h i (by omega)]
    show body n _ = _
    rw [h n (by omega), List.range_succ, List.flatMap_append]
    simp

/-- The loop stops with the exception of its first failing pass. -/
theorem forRange_exc {α : Type} {n k : Nat} {body : Nat → Fig α Unit} {g : Nat → List (Drawn α)} {m : String}
    (hk : k < n) (h : ∀ i < k, ∀ f, body i f = .ok () (f ++ g i)) (he : ∀ f, body k f = .exc m f)
    (f : List (Drawn α)) :
    forRange n body f = .exc m (f ++ (List.range k).flatMap g) := by
  induction n with
  | zero => omega
  | succ n ih =>
    unfold forRange
    rw [Prog.bind_def]
    rcases Nat.lt_succ_iff_lt_or_eq.1 hk with h1 | h1
    · rw [ih h1]
    · subst h1
      rw [forRange_ok h]
      exact he _

variable {α : Type} [Arith α]

/-! ### The common parts of the radial plots -/

theorem zeroRow_tab {r c i : Nat} (f : Nat → Nat → α) (hi : i < r) :
    zeroRow (Mat.tab r c f) i = .ok (Mat.tab r c fun k j => if k = i then ofInt 0 else f k j) := by
  unfold zeroRow
  rw [Mat.cols_tab]
  refine loop_traj' (fun n => Mat.tab r c fun k j => if k = i ∧ j < n then ofInt 0 else f k j)
    (fun n hn => ?_) (Mat.tab_congr fun k _ j _ => by simp) (Mat.tab_congr fun k _ j hj => by simp [hj])
  rw [Mat.wrN_tab hi hn]
  congr 1
  refine Mat.tab_congr fun k _ j _ => ?_
  unfold Mat.upd
  by_cases h1 : k = i
  · by_cases h2 : j = n
    · simp [h1, h2]
    · have : j < n ↔ j < n + 1 := by omega
      simp [h1, h2, this]
  · simp [h1]

variable {b : St α} {K nb nfp : Nat} {asym : Bool}

theorem filtered_ok (h : Computed b K nb nfp asym) (remove : Option (Int × Int)) :
    filtered b remove = .ok (Mat.tab K nb (amplitude b remove)) := by
  unfold filtered
  match remove with
  | none => exact congrArg Except.ok (Mat.Full.eq_tab (ofInt 0) h.bmnc_b)
  | some (hm, hn) =>
    dsimp only
    rw [h.xm_b.1, h.xn_b.1, h.bmnc_b.1, if_neg (by simp), if_neg (by simp)]
    conv_lhs => rw [Mat.Full.eq_tab (ofInt 0) h.bmnc_b]
    refine loop_traj' (fun n => Mat.tab K nb fun k j => if k < n then amplitude b (some (hm, hn)) k j
      else b.out.spec.bmnc_b.val (ofInt 0) k j) (fun n hlt => ?_)
      (Mat.tab_congr fun k _ j _ => by simp) (Mat.tab_congr fun k hk j _ => by simp [hk])
    simp only [Vec.Full.rdN 0 h.xm_b hlt, Vec.Full.rdN 0 h.xn_b hlt, bind, Except.bind]
    by_cases hc : hn * b.out.xm_b.val 0 n = hm * b.out.xn_b.val 0 n
    · rw [if_pos hc, zeroRow_tab _ hlt]
      congr 1
      refine Mat.tab_congr fun k _ j _ => ?_
      by_cases h1 : k = n
      · subst h1
        simp [amplitude, hc]
      · have : k < n ↔ k < n + 1 := by omega
        simp [h1, this]
    · rw [if_neg hc]
      refine congrArg Except.ok (Mat.tab_congr fun k _ j _ => ?_)
      by_cases h1 : k = n
      · subst h1
        simp [amplitude, hc]
      · have : k < n ↔ k < n + 1 := by omega
        simp [this]

theorem radial_ok (h : Computed b K nb nfp asym) (sqrts : Bool) : radial b sqrts = .ok (axis b nb sqrts) := by
  unfold radial
  rw [entries_full (ofInt 0) h.s_b]
  show Except.ok _ = _
  unfold axis
  cases sqrts <;> simp

theorem length_axis (b : St α) (nb : Nat) (sqrts : Bool) : (axis b nb sqrts).length = nb := by simp [axis]
theorem length_profile (b : St α) (nb : Nat) (remove : Option (Int × Int)) (log : Bool) (k : Nat) :
    (profile b nb remove log k).length = nb := by simp [profile]

theorem reference_ok (log : Bool) (f : List (Drawn α)) : reference log f = .ok () (f ++ zeroLine log) := by
  unfold reference zeroLine
  cases log
  · exact plot_ok (x := [ofInt 0, ofInt 1]) (y := [ofInt 0, ofInt 0]) rfl f
  · simp

theorem row_profile (remove : Option (Int × Int)) (log : Bool) {k : Nat} (hk : k < K) :
    ∃ y, rowOf (Mat.tab K nb (amplitude b remove)) k = .ok y ∧ myAbs log y = profile b nb remove log k := by
  refine ⟨_, rowOf_full (ofInt 0) (Mat.full_tab K nb _) hk, ?_⟩
  have e : (List.range nb).map ((Mat.tab K nb (amplitude b remove)).val (ofInt 0) k) =
      (List.range nb).map (amplitude b remove k) :=
    List.map_congr_left fun j hj => Mat.val_tab hk (List.mem_range.1 hj)
  rw [e]
  unfold myAbs profile
  cases log <;> simp

theorem plotMode_ok (sqrts : Bool) (remove : Option (Int × Int)) (log : Bool) (c : Color)
    (l : Option Label) {k : Nat} (hk : k < K) (f : List (Drawn α)) :
    plotMode (Mat.tab K nb (amplitude b remove)) (axis b nb sqrts) log c l k f =
      .ok () (f ++ [.curve c l (axis b nb sqrts) (profile b nb remove log k)]) := by
  obtain ⟨y, h1, h2⟩ := row_profile (b := b) (nb := nb) remove log hk
  unfold plotMode
  rw [h1, Prog.lift_ok_bind, h2]
  exact plot_ok (by rw [length_axis, length_profile]) f

/-- A loop whose passes all succeed, with an invariant. -/
theorem loop_total {σ : Type} {n : Nat} {body : Nat → σ → Res σ} (P : Nat → σ → Prop)
    (h : ∀ i < n, ∀ s, P i s → ∃ t, body i s = .ok t ∧ P (i + 1) t) {s : σ} (hs : P 0 s) :
    ∃ t, loop n body s = .ok t ∧ P n t := by
  induction n with
  | zero => exact ⟨s, rfl, hs⟩
  | succ n ih =>
    obtain ⟨t, ht, hp⟩ := ih fun i hi => h i (by omega)
    obtain ⟨u, hu, hq⟩ := h n (by omega) t hp
    exact ⟨u, by rw [loop_succ, ht]; exact hu, hq⟩

/-- `np.max` succeeds on a filled array; `P` holds of the result if it holds of the first entry and is
kept by every comparison. -/
theorem npMax_total {a : Mat α} {r c : Nat} (d : α) (h : a.Full r c) (hr : 1 ≤ r) (hc : 1 ≤ c)
    (P : Nat → Nat → α → Prop) (h0 : P 0 0 (a.val d 0 0))
    (hs : ∀ i < r, ∀ j < c, ∀ x, P i j x → P (i + 1) j (Arith.max x (a.val d i j)))
    (hn : ∀ j < c, ∀ x, P r j x → P 0 (j + 1) x) :
    ∃ x, npMax a = .ok x ∧ P 0 c x := by
  unfold npMax
  rw [h.1, h.2.1, if_neg (by omega), Mat.Full.rdN d h (by omega) (by omega)]
  refine loop_total (P 0) (fun j hj x hx => ?_) h0
  obtain ⟨y, hy, hp⟩ := loop_total (n := r) (body := fun i y => do let z ← a.rdN i j; pure (Arith.max y z))
    (fun i => P i j) (fun i hi x hx => ⟨_, by rw [Mat.Full.rdN d h hi hj]; rfl, hs i hi j hj x hx⟩) hx
  exact ⟨y, hy, hn j hj y hp⟩

theorem axisBottom_ok {a : Mat α} {r c : Nat} (h : a.Full r c) (hr : 1 ≤ r) (hc : 1 ≤ c) (ymin : Option α) :
    ∃ x, axisBottom a ymin = .ok x ∧ ∀ y, ymin = some y → x = y := by
  unfold axisBottom
  cases ymin with
  | some y => exact ⟨y, rfl, fun _ e => by cases e; rfl⟩
  | none =>
    obtain ⟨x, hx, _⟩ := npMax_total (ofInt 0) h hr hc (fun _ _ _ => True) trivial (fun _ _ _ _ _ _ => trivial)
      (fun _ _ _ _ => trivial)
    exact ⟨_, by dsimp only; rw [hx]; rfl, fun _ e => by cases e⟩

omit [Arith α] in
theorem logScale_ok (log : Bool) (x : α) (f : List (Drawn α)) :
    logScale log x f = .ok () (f ++ lowerEnd log x) := by
  cases log
  · exact congrArg (Out.ok ()) (List.append_nil f).symm
  · rfl

/-! ### `symplot` -/

omit [Arith α] in
theorem modeAt_ok (h : Computed b K nb nfp asym) {i : Nat} (hi : i < K) :
    modeAt b i = .ok (outM b i, outN b i) := by
  unfold modeAt
  rw [at1_full 0 h.xn_b hi, at1_full 0 h.xm_b hi]
  rfl

omit [Arith α] in
theorem firstMode_ok (h : Computed b K nb nfp asym) {test : Int → Int → Res Bool} {t : Int → Int → Bool}
    (ht : ∀ m n, test m n = .ok (t m n)) :
    firstMode b test = .ok ((List.range K).find? fun i => t (outM b i) (outN b i)) := by
  unfold firstMode
  rw [h.xm_b.1]
  refine loop_traj (fun n => (List.range n).find? fun i => t (outM b i) (outN b i)) fun n hn => ?_
  dsimp only
  rw [List.range_succ, List.find?_append]
  cases hf : (List.range n).find? fun i => t (outM b i) (outN b i) with
  | some k => rfl
  | none =>
    dsimp only
    rw [modeAt_ok h hn]
    simp only [bind, Except.bind, ht, pure, Except.pure, Option.none_or, List.find?_cons]
    cases t (outM b n) (outN b n) <;> simp

/-- The lines drawn for one legend entry. -/
def legendOf (b : St α) (K nb : Nat) (a : SymArgs α) (c : Color) (l : Label) (t : Int → Int → Bool) :
    List (Drawn α) :=
  match (List.range K).find? fun i => t (outM b i) (outN b i) with
  | none => []
  | some i => [.curve c (some l) (axis b nb a.sqrts) (profile b nb a.remove a.log i)]

theorem legendLine_ok (h : Computed b K nb nfp asym) (a : SymArgs α) (c : Color) (l : Label)
    {test : Int → Int → Res Bool} {t : Int → Int → Bool}
    (ht : ∀ m n, test m n = .ok (t m n)) (f : List (Drawn α)) :
    legendLine b (Mat.tab K nb (amplitude b a.remove)) (axis b nb a.sqrts) a.log c l test f =
      .ok () (f ++ legendOf b K nb a c l t) := by
  unfold legendLine legendOf
  rw [firstMode_ok h ht, Prog.lift_ok_bind]
  cases hf : (List.range K).find? fun i => t (outM b i) (outN b i) with
  | none => simp
  | some i =>
    have hi : i < K := List.mem_range.1 (List.mem_of_find?_eq_some hf)
    exact plotMode_ok a.sqrts a.remove a.log c (some l) hi f

end Booz.Plots
