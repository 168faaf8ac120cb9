import Verif.Lemmas.Plots
import Verif.ExamplesBoozmn
import Verif.RealArith
import Mathlib.Tactic.ByContra
import Mathlib.Tactic.Linarith

/-!
# C48, C49: the radial plots
-/

namespace Booz
open Spec Plots
variable {α : Type} [Arith α] {b : St α} {K nb nfp : Nat} {asym : Bool}

/-! ### Objects after `run` -/

theorem run_computed {s : St α} {d : Dims} (h : RunReady s.inp d) :
    Computed (runSt d s d.nsb) d.nmodes d.nsb d.nfp d.asym := by
  have key : ∀ g : Nat → Nat → α, (Mat.tab d.nmodes d.nsb g).Full d.nmodes d.nsb := fun g => Mat.full_tab _ _ _
  have hs : (runSt d s d.nsb).out.spec.bmnc_b.Full d.nmodes d.nsb ∧
      (runSt d s d.nsb).out.spec.rmnc_b.Full d.nmodes d.nsb ∧
      (runSt d s d.nsb).out.spec.zmns_b.Full d.nmodes d.nsb ∧
      (runSt d s d.nsb).out.spec.numns_b.Full d.nmodes d.nsb := by
    show (specTab d (outF s.inp d d.nsb) s.out.spec).bmnc_b.Full _ _ ∧ (specTab d (outF s.inp d d.nsb) s.out.spec).rmnc_b.Full _ _ ∧
      (specTab d (outF s.inp d d.nsb) s.out.spec).zmns_b.Full _ _ ∧ (specTab d (outF s.inp d d.nsb) s.out.spec).numns_b.Full _ _
    unfold specTab
    split <;> exact ⟨key _, key _, key _, key _⟩
  have ha : d.asym = true → (runSt d s d.nsb).out.spec.bmns_b.Full d.nmodes d.nsb ∧
      (runSt d s d.nsb).out.spec.rmns_b.Full d.nmodes d.nsb ∧
      (runSt d s d.nsb).out.spec.zmnc_b.Full d.nmodes d.nsb ∧
      (runSt d s d.nsb).out.spec.numnc_b.Full d.nmodes d.nsb := by
    intro e
    show (specTab d (outF s.inp d d.nsb) s.out.spec).bmns_b.Full _ _ ∧ (specTab d (outF s.inp d d.nsb) s.out.spec).rmns_b.Full _ _ ∧
      (specTab d (outF s.inp d d.nsb) s.out.spec).zmnc_b.Full _ _ ∧ (specTab d (outF s.inp d d.nsb) s.out.spec).numnc_b.Full _ _
    unfold specTab
    rw [if_pos e]
    exact ⟨key _, key _, key _, key _⟩
  exact
  { asym_eq := h.asym
    nfp_eq := h.nfp
    nfp_pos := h.nfp_pos
    mnboz := rfl
    ns_b := rfl
    xm_b := Vec.full_tab _ _
    xn_b := Vec.full_tab _ _
    s_b := Vec.full_tab _ _
    bmnc_b := hs.1
    rmnc_b := hs.2.1
    zmns_b := hs.2.2.1
    numns_b := hs.2.2.2
    asym_b := ha }

theorem Ex.done_computed (asym fl : Bool) : Computed (Ex.done (α := α) asym fl) 5 2 2 asym :=
  run_computed (s := Ex.stF asym fl) (Ex.readyH asym)

/-! ### C49: classes -/

/-- Every mode belongs to exactly one class. -/
theorem C49_classes (detail : Bool) (nfp m n : Int) :
    ∃! c, InClass detail nfp m n c := by
  have key : ∀ c, InClass detail nfp m n c → ∃! c, InClass detail nfp m n c := by
    intro c hc
    refine ⟨c, hc, fun c' hc' => ?_⟩
    cases c <;> cases c' <;> simp only [InClass] at hc hc' <;>
      first
      | rfl
      | (exfalso; omega)
      | (exfalso; have h1 := hc.1; rw [hc'.1] at h1; cases h1)
  by_cases hm : m = 0
  · by_cases h0 : n = 0
    · exact key .background ⟨hm, h0⟩
    · exact key .mirror ⟨hm, h0⟩
  · by_cases h0 : n = 0
    · exact key .quasiaxisymmetric ⟨hm, h0⟩
    · cases hd : detail
      · rw [hd] at key; exact key .helical ⟨rfl, hm, h0⟩
      · rw [hd] at key
        by_cases h1 : n = nfp * m
        · exact key .helicalPlus ⟨rfl, hm, h0, h1⟩
        · by_cases h2 : n = -(nfp * m)
          · exact key .helicalMinus ⟨rfl, hm, h0, h2⟩
          · exact key .otherHelical ⟨rfl, hm, h0, h1, h2⟩

example : InClass true 5 2 10 .helicalPlus ∧ InClass true 5 2 (-10) .helicalMinus ∧
    InClass true 5 2 5 .otherHelical ∧ InClass false 5 2 10 .helical := by
  simp [InClass]

omit [Arith α] in
theorem modeColor_class (a : SymArgs α) {m n : Int} {c : ModeClass} (hc : InClass a.detail nfp m n c) :
    modeColor a nfp m n = if c = .background ∧ a.B0 = false then none else some c.color := by
  unfold modeColor
  have e1 : (n = m * (nfp : Int)) ↔ n = nfp * m := by rw [Int.mul_comm]
  have e2 : (n = -m * (nfp : Int)) ↔ n = -(nfp * m) := by rw [Int.neg_mul, Int.mul_comm]
  simp only [e1, e2]
  have hz : n = nfp * m → n = -(nfp * m) → n = 0 := by intro h1 h2; omega
  cases c with
  | background =>
    obtain ⟨h1, h2⟩ := hc
    rw [if_pos h2, if_pos h1]
    cases a.B0 <;> simp [ModeClass.color]
  | quasiaxisymmetric =>
    obtain ⟨h1, h2⟩ := hc
    rw [if_pos h2, if_neg h1]
    simp [ModeClass.color]
  | mirror =>
    obtain ⟨h1, h2⟩ := hc
    rw [if_neg h2, if_pos h1]
    simp [ModeClass.color]
  | helicalPlus =>
    obtain ⟨h0, h1, h2, h3⟩ := hc
    rw [if_neg h2, if_neg h1, if_pos h0, if_pos h3]
    simp [ModeClass.color]
  | helicalMinus =>
    obtain ⟨h0, h1, h2, h3⟩ := hc
    rw [if_neg h2, if_neg h1, if_pos h0, if_neg (fun h => h2 (hz h h3)), if_pos h3]
    simp [ModeClass.color]
  | otherHelical =>
    obtain ⟨h0, h1, h2, h3, h4⟩ := hc
    rw [if_neg h2, if_neg h1, if_pos h0, if_neg h3, if_neg h4]
    simp [ModeClass.color]
  | helical =>
    obtain ⟨h0, h1, h2⟩ := hc
    rw [if_neg h2, if_neg h1, h0]
    simp [ModeClass.color]

theorem legendEntry_of (a : SymArgs α) (c : ModeClass) {t : Int → Int → Bool} {p : Int → Int → Prop}
    (hp : ∀ m n, t m n = true ↔ p m n) :
    LegendEntry b K nb a c p (legendOf b K nb a c.color c.label t) := by
  unfold legendOf
  cases hf : (List.range K).find? fun i => t (outM b i) (outN b i) with
  | none =>
    refine .inl ⟨fun k hk hk2 => ?_, rfl⟩
    have := List.find?_eq_none.1 hf k (List.mem_range.2 hk)
    exact this ((hp _ _).2 hk2)
  | some k =>
    rw [List.find?_range_eq_some] at hf
    obtain ⟨h1, h2, h3⟩ := hf
    refine .inr ⟨k, List.mem_range.1 h2, (hp _ _).1 h1, fun j hj hj2 => ?_, rfl⟩
    have := h3 j hj
    rw [(hp _ _).2 hj2] at this
    cases this

/-- The legend of `symplot`. -/
theorem symLegend_ok (h : Computed b K nb nfp asym) (a : SymArgs α) (fig : List (Drawn α)) :
    symLegend b a (Mat.tab K nb (amplitude b a.remove)) (axis b nb a.sqrts) fig = .ok () (fig ++
      ((if a.B0 then legendOf b K nb a .background .background (fun m n => decide (n = 0 ∧ m = 0)) else []) ++
        legendOf b K nb a .qa .qa (fun m n => decide (n = 0 ∧ m ≠ 0)) ++
        legendOf b K nb a .mirror .mirror (fun m n => decide (n ≠ 0 ∧ m = 0)) ++
        (if a.detail then
          legendOf b K nb a .plus .plus (fun m n => decide (n = m * nfp ∧ m ≠ 0)) ++
          legendOf b K nb a .minus .minus (fun m n => decide (n = -m * nfp ∧ m ≠ 0)) ++
          legendOf b K nb a .helical .otherHelical (fun m n => decide (n ≠ 0 ∧ m ≠ 0))
        else legendOf b K nb a .helical .helical
          (fun m n => decide (n ≠ 0 ∧ m ≠ 0 ∧ n ≠ m * nfp ∧ n ≠ -m * nfp))))) := by
  have L := fun (c : Color) (l : Label) (test : Int → Int → Res Bool) (t : Int → Int → Bool)
    (ht : ∀ m n, test m n = .ok (t m n)) (f : List (Drawn α)) => legendLine_ok h a c l ht f
  have hn : need b.inp.nfp "nfp" = .ok (nfp : Int) := by rw [h.nfp_eq]; rfl
  unfold symLegend
  rw [Prog.bind_def]
  have s0 : (if a.B0 = true then
      legendLine b (Mat.tab K nb (amplitude b a.remove)) (axis b nb a.sqrts) a.log .background .background
        (fun m n => .ok (decide (n = 0 ∧ m = 0))) else pure ()) fig = .ok () (fig ++
      (if a.B0 then legendOf b K nb a .background .background (fun m n => decide (n = 0 ∧ m = 0)) else [])) := by
    cases a.B0
    · simp
    · exact L _ _ _ _ (fun _ _ => rfl) fig
  rw [s0]
  dsimp only
  rw [Prog.bind_def, L .qa .qa _ _ (fun _ _ => rfl)]
  dsimp only
  rw [Prog.bind_def, L .mirror .mirror _ _ (fun _ _ => rfl)]
  dsimp only
  cases a.detail
  · simp only [Bool.false_eq_true, if_false]
    rw [L .helical .helical _
      (fun m n => decide (n ≠ 0 ∧ m ≠ 0 ∧ n ≠ m * nfp ∧ n ≠ -m * nfp)) (fun _ _ => by rw [hn]; rfl)]
    simp only [List.append_assoc]
  · rw [if_pos rfl, if_pos rfl, Prog.bind_def, L .plus .plus _ (fun m n => decide (n = m * nfp ∧ m ≠ 0))
      (fun _ _ => by rw [hn]; rfl)]
    dsimp only
    rw [Prog.bind_def, L .minus .minus _ (fun m n => decide (n = -m * nfp ∧ m ≠ 0)) (fun _ _ => by rw [hn]; rfl)]
    dsimp only
    rw [L .helical .otherHelical _ _ (fun _ _ => rfl)]
    simp only [List.append_assoc]

theorem symStep_ok (h : Computed b K nb nfp asym) (a : SymArgs α)
    (cls : Nat → ModeClass) (hc : ∀ k < K, InClass a.detail nfp (outM b k) (outN b k) (cls k)) (k : Nat)
    (hk : k < K) (f : List (Drawn α)) :
    symStep b a (Mat.tab K nb (amplitude b a.remove)) (axis b nb a.sqrts) k f = .ok () (f ++
      if Within a.max_m a.max_n nfp (outM b k) (outN b k) ∧ ¬ (cls k = .background ∧ a.B0 = false) then
        [.curve (cls k).color none (axis b nb a.sqrts) (profile b nb a.remove a.log k)]
      else []) := by
  have hn : need b.inp.nfp "nfp" = .ok (nfp : Int) := by rw [h.nfp_eq]; rfl
  unfold symStep
  rw [at1_full 0 h.xm_b hk, Prog.lift_ok_bind]
  by_cases h1 : ((outM b k).natAbs : Int) > a.max_m
  · rw [if_pos h1, if_neg (fun hw => by have := hw.1.1; rw [Int.abs_eq_natAbs] at this; omega)]
    simp
  rw [if_neg h1, at1_full 0 h.xn_b hk, Prog.lift_ok_bind, hn, Prog.lift_ok_bind]
  by_cases h2 : ((outN b k).natAbs : Int) > a.max_n * nfp
  · rw [if_pos h2, if_neg (fun hw => by have := hw.1.2; rw [Int.abs_eq_natAbs] at this; omega)]
    simp
  rw [if_neg h2, modeColor_class a (hc k hk)]
  have hw : Within a.max_m a.max_n nfp (outM b k) (outN b k) := by
    unfold Within
    rw [Int.abs_eq_natAbs, Int.abs_eq_natAbs]
    omega
  by_cases h3 : cls k = .background ∧ a.B0 = false
  · rw [if_pos h3, if_neg (fun hw => hw.2 h3)]
    simp
  · rw [if_neg h3, if_pos ⟨hw, h3⟩]
    exact plotMode_ok a.sqrts a.remove a.log _ none hk f

/-- The whole of `symplot`. -/
theorem symplot_ok (h : Computed b K nb nfp asym) (a : SymArgs α)
    (cls : Nat → ModeClass) (hc : ∀ k < K, InClass a.detail nfp (outM b k) (outN b k) (cls k))
    {bottom : α} (hbot : axisBottom (Mat.tab K nb (amplitude b a.remove)) a.ymin = .ok bottom)
    (fig : List (Drawn α)) :
    symplotObj b a fig = .ok () (fig ++ zeroLine a.log ++
      ((if a.B0 then legendOf b K nb a .background .background (fun m n => decide (n = 0 ∧ m = 0)) else []) ++
        legendOf b K nb a .qa .qa (fun m n => decide (n = 0 ∧ m ≠ 0)) ++
        legendOf b K nb a .mirror .mirror (fun m n => decide (n ≠ 0 ∧ m = 0)) ++
        (if a.detail then
          legendOf b K nb a .plus .plus (fun m n => decide (n = m * nfp ∧ m ≠ 0)) ++
          legendOf b K nb a .minus .minus (fun m n => decide (n = -m * nfp ∧ m ≠ 0)) ++
          legendOf b K nb a .helical .otherHelical (fun m n => decide (n ≠ 0 ∧ m ≠ 0))
        else legendOf b K nb a .helical .helical
          (fun m n => decide (n ≠ 0 ∧ m ≠ 0 ∧ n ≠ m * nfp ∧ n ≠ -m * nfp)))) ++
      ((List.range K).flatMap fun k =>
        if Within a.max_m a.max_n nfp (outM b k) (outN b k) ∧ ¬ (cls k = .background ∧ a.B0 = false) then
          [.curve (cls k).color none (axis b nb a.sqrts) (profile b nb a.remove a.log k)]
        else []) ++ lowerEnd a.log bottom) := by
  unfold symplotObj
  rw [filtered_ok h, Prog.lift_ok_bind, hbot, Prog.lift_ok_bind, radial_ok h, Prog.lift_ok_bind]
  rw [Prog.bind_def, reference_ok]
  dsimp only
  rw [Prog.bind_def, symLegend_ok h a]
  dsimp only
  rw [Prog.bind_def, h.xm_b.1, forRange_ok (symStep_ok h a cls hc)]
  exact logScale_ok _ _ _

/-- What the legend contains: for every class the first mode of it, except for the last entry.  In
detail mode the entry "Other helical" shows the first mode with m, n ≠ 0, whether or not n = ±nfp m;
otherwise the entry "Helical" shows the first one with n ≠ ±nfp m. -/
def Spec.Legend (b : St α) (K nb : Nat) (a : SymArgs α) (nfp : Int) (L : List (Drawn α)) : Prop :=
  ∃ L0 L1 L2 L3, L = L0 ++ L1 ++ L2 ++ L3 ∧
    (a.B0 = true → LegendEntry b K nb a .background (InClass a.detail nfp · · .background) L0) ∧
    (a.B0 = false → L0 = []) ∧
    LegendEntry b K nb a .quasiaxisymmetric (InClass a.detail nfp · · .quasiaxisymmetric) L1 ∧
    LegendEntry b K nb a .mirror (InClass a.detail nfp · · .mirror) L2 ∧
    (a.detail = true → ∃ P M O, L3 = P ++ M ++ O ∧
      LegendEntry b K nb a .helicalPlus (InClass a.detail nfp · · .helicalPlus) P ∧
      LegendEntry b K nb a .helicalMinus (InClass a.detail nfp · · .helicalMinus) M ∧
      LegendEntry b K nb a .otherHelical (fun m n => m ≠ 0 ∧ n ≠ 0) O) ∧
    (a.detail = false → LegendEntry b K nb a .helical
      (fun m n => m ≠ 0 ∧ n ≠ 0 ∧ n ≠ nfp * m ∧ n ≠ -(nfp * m)) L3)

/-- `symplot` drawn with a given lower end of the axis. -/
theorem symplot_curves (h : Computed b K nb nfp asym) (a : SymArgs α)
    (cls : Nat → ModeClass) (hc : ∀ k < K, InClass a.detail nfp (outM b k) (outN b k) (cls k))
    {bottom : α} (hbot : axisBottom (Mat.tab K nb (amplitude b a.remove)) a.ymin = .ok bottom)
    (fig : List (Drawn α)) :
    ∃ legend, Legend b K nb a nfp legend ∧ ∀ disk, symplot disk (.object b) a fig = .ok () (fig ++ zeroLine a.log ++ legend ++
      (((List.range K).filter fun k => decide (Within a.max_m a.max_n nfp (outM b k) (outN b k) ∧
          (cls k = .background → a.B0 = true))).map fun k =>
        .curve (cls k).color none (axis b nb a.sqrts) (profile b nb a.remove a.log k)) ++
      lowerEnd a.log bottom) := by
  have hs := symplot_ok h a cls hc hbot fig
  have hbody : ((List.range K).flatMap fun k =>
        if Within a.max_m a.max_n nfp (outM b k) (outN b k) ∧ ¬ (cls k = .background ∧ a.B0 = false) then
          [Drawn.curve (cls k).color none (axis b nb a.sqrts) (profile b nb a.remove a.log k)]
        else []) =
      ((List.range K).filter fun k => decide (Within a.max_m a.max_n nfp (outM b k) (outN b k) ∧
          (cls k = .background → a.B0 = true))).map fun k =>
        Drawn.curve (cls k).color none (axis b nb a.sqrts) (profile b nb a.remove a.log k) := by
    generalize List.range K = l
    induction l with
    | nil => rfl
    | cons k l ih =>
      rw [List.flatMap_cons, ih, List.filter_cons]
      have e : (Within a.max_m a.max_n nfp (outM b k) (outN b k) ∧ ¬ (cls k = .background ∧ a.B0 = false)) ↔
          (Within a.max_m a.max_n nfp (outM b k) (outN b k) ∧ (cls k = .background → a.B0 = true)) := by
        cases a.B0 <;> simp
      by_cases hw : Within a.max_m a.max_n nfp (outM b k) (outN b k) ∧ (cls k = .background → a.B0 = true)
      · rw [if_pos (e.2 hw), if_pos (decide_eq_true hw)]
        rfl
      · rw [if_neg (fun x => hw (e.1 x)), if_neg (by simpa using hw)]
        rfl
  rw [hbody] at hs
  have hnf := h.nfp_pos
  have mp : ∀ m : Int, m ≠ 0 → m * (nfp : Int) ≠ 0 := fun m hm => Int.mul_ne_zero hm (by omega)
  have e1 : ∀ m : Int, m * (nfp : Int) = nfp * m := fun m => Int.mul_comm _ _
  have e2 : ∀ m : Int, -m * (nfp : Int) = -(nfp * m) := fun m => by rw [Int.neg_mul, Int.mul_comm]
  refine ⟨_, ⟨_, _, _, _, rfl, fun h0 => ?_, fun h0 => by rw [h0]; rfl, ?_, ?_, fun hd => ?_, fun hd => ?_⟩, fun _ => hs⟩
  · rw [if_pos h0]
    exact legendEntry_of a .background fun m n => by simp [InClass, And.comm]
  · exact legendEntry_of a .quasiaxisymmetric fun m n => by simp [InClass, And.comm]
  · exact legendEntry_of a .mirror fun m n => by simp [InClass, And.comm]
  · rw [if_pos hd]
    refine ⟨_, _, _, rfl, legendEntry_of a .helicalPlus fun m n => ?_,
      legendEntry_of a .helicalMinus fun m n => ?_,
      legendEntry_of a .otherHelical fun m n => by simp [And.comm]⟩
    · have := mp m
      rw [decide_eq_true_iff]
      simp only [InClass, hd, true_and, ← e1]
      constructor
      · rintro ⟨r1, r2⟩
        exact ⟨r2, by rw [r1]; exact this r2, r1⟩
      · rintro ⟨r1, _, r2⟩
        exact ⟨r2, r1⟩
    · have := mp m
      rw [decide_eq_true_iff]
      simp only [InClass, hd, true_and, ← e2]
      constructor
      · rintro ⟨r1, r2⟩
        exact ⟨r2, by rw [r1, Int.neg_mul]; have := this r2; omega, r1⟩
      · rintro ⟨r1, _, r2⟩
        exact ⟨r2, r1⟩
  · rw [if_neg (by simp [hd])]
    refine legendEntry_of a .helical fun m n => ?_
    rw [decide_eq_true_iff, e1, e2]
    constructor
    · rintro ⟨r1, r2, r3⟩; exact ⟨r2, r1, r3⟩
    · rintro ⟨r1, r2, r3⟩; exact ⟨r2, r1, r3⟩

/-- **C49 (partial).**  After the legend, `symplot` draws each mode within the limits exactly once, in
the order of the mode list and in the colour of its class; the (0,0) mode only if `B0`.  Every legend
entry except the last shows the first mode of its class.  A logarithmic axis ends at `ymin` if it is
given.  Missing (false, see below): the last entry
does not always show a mode of its class, or is absent although the class is not empty. -/
theorem C49_partial (h : Computed b K nb nfp asym) (hK : 1 ≤ K) (hb : 1 ≤ nb) (a : SymArgs α)
    (cls : Nat → ModeClass) (hc : ∀ k < K, InClass a.detail nfp (outM b k) (outN b k) (cls k))
    (fig : List (Drawn α)) :
    ∃ legend bottom, Legend b K nb a nfp legend ∧ (∀ y, a.ymin = some y → bottom = y) ∧
      ∀ disk, symplot disk (.object b) a fig = .ok () (fig ++ zeroLine a.log ++ legend ++
      (((List.range K).filter fun k => decide (Within a.max_m a.max_n nfp (outM b k) (outN b k) ∧
          (cls k = .background → a.B0 = true))).map fun k =>
        .curve (cls k).color none (axis b nb a.sqrts) (profile b nb a.remove a.log k)) ++
      lowerEnd a.log bottom) := by
  obtain ⟨bottom, hbot, hy⟩ := axisBottom_ok (Mat.full_tab K nb (amplitude b a.remove)) hK hb a.ymin
  obtain ⟨legend, hl, hs⟩ := symplot_curves h a cls hc hbot fig
  exact ⟨legend, bottom, hl, hy, hs⟩

theorem exists_classes (b : St α) (detail : Bool) (nfp : Int) :
    ∃ cls : Nat → ModeClass, ∀ k, InClass detail nfp (outM b k) (outN b k) (cls k) :=
  ⟨fun k => Classical.choose (C49_classes detail nfp (outM b k) (outN b k)),
    fun k => (Classical.choose_spec (C49_classes detail nfp (outM b k) (outN b k))).1⟩

/-- The mode list of a run with `mboz = 2`, `nboz = 1`. -/
theorem modes_21 {s : St α} {d : Dims} (hM : d.M = 2) (hN : d.N = 1) :
    d.nmodes = 5 ∧ (∀ k < 5, outM (runSt d s d.nsb) k = [0, 0, 1, 1, 1].getD k 0 ∧
      outN (runSt d s d.nsb) k = [0, 1, -1, 0, 1].getD k 0 * d.nfp) := by
  have hK : d.nmodes = 5 := by unfold Dims.nmodes; rw [hM, hN]
  refine ⟨hK, fun k hk => ?_⟩
  have e1 : outM (runSt d s d.nsb) k = modeM d.N k := Vec.val_tab (by rw [hK]; exact hk)
  have e2 : outN (runSt d s d.nsb) k = modeN d.N k * d.nfp := Vec.val_tab (by rw [hK]; exact hk)
  rw [e1, e2, hN]
  have : ∀ k < 5, (modeM 1 k : Int) = [0, 0, 1, 1, 1].getD k 0 ∧ modeN 1 k = [0, 1, -1, 0, 1].getD k 0 := by decide
  rw [(this k hk).1, (this k hk).2]
  exact ⟨rfl, rfl⟩

/-- **C49 is false in detail mode.**  After any run with `mboz = 2`, `nboz = 1` there is no mode of the
class "Other helical" (all helical modes have n = ±nfp m), yet the figure has a curve with this legend
label: it shows one of the modes with n = ±nfp m in the wrong colour. -/
theorem C49_false_detail {s : St α} {d : Dims} (h : RunReady s.inp d) (hM : d.M = 2) (hN : d.N = 1)
    (hb : 1 ≤ d.nsb) (a : SymArgs α) (hd : a.detail = true) (fig : List (Drawn α)) :
    (∀ k < d.nmodes, ¬ InClass true d.nfp (outM (runSt d s d.nsb) k) (outN (runSt d s d.nsb) k) .otherHelical) ∧
    ∃ fig' x y, (∀ disk, symplot disk (.object (runSt d s d.nsb)) a fig = .ok () fig') ∧
      Drawn.curve .helical (some .otherHelical) x y ∈ fig' := by
  obtain ⟨hK, hm⟩ := modes_21 (s := s) hM hN
  have hn := h.nfp_pos
  constructor
  · intro k hk
    rw [hK] at hk
    rw [(hm k hk).1, (hm k hk).2]
    rintro ⟨_, h1, h2, h3, h4⟩
    obtain rfl | rfl | rfl | rfl | rfl : k = 0 ∨ k = 1 ∨ k = 2 ∨ k = 3 ∨ k = 4 := by omega
    all_goals simp at h1 h2 h3 h4
  · obtain ⟨cls, hc⟩ := exists_classes (runSt d s d.nsb) a.detail d.nfp
    obtain ⟨L, _, ⟨L0, L1, L2, L3, e, _, _, _, _, h5, _⟩, _, hs⟩ :=
      C49_partial (run_computed (s := s) h) (by omega) hb a cls (fun k _ => hc k) fig
    obtain ⟨P, M, O, e3, _, _, hO⟩ := h5 hd
    rcases hO with ⟨hO, _⟩ | ⟨k, _, _, _, hO⟩
    · exfalso
      refine hO 2 (by omega) ?_
      rw [(hm 2 (by omega)).1, (hm 2 (by omega)).2]
      simp
      omega
    · refine ⟨_, axis (runSt d s d.nsb) d.nsb a.sqrts, profile (runSt d s d.nsb) d.nsb a.remove a.log k, hs, ?_⟩
      rw [e, e3, hO]
      simp [ModeClass.color, ModeClass.label]

/-- **C49 is false without detail, too.**  After such a run there are helical modes, drawn in the
helical colour, but no curve with the legend label "Helical". -/
theorem C49_false_missing {s : St α} {d : Dims} (h : RunReady s.inp d) (hM : d.M = 2) (hN : d.N = 1)
    (hb : 1 ≤ d.nsb) (a : SymArgs α) (hd : a.detail = false) (fig : List (Drawn α))
    (hfig : ∀ x y, Drawn.curve .helical (some .helical) x y ∉ fig) :
    (∃ k < d.nmodes, InClass false d.nfp (outM (runSt d s d.nsb) k) (outN (runSt d s d.nsb) k) .helical) ∧
    ∃ fig', (∀ disk, symplot disk (.object (runSt d s d.nsb)) a fig = .ok () fig') ∧
      ∀ x y, Drawn.curve .helical (some .helical) x y ∉ fig' := by
  obtain ⟨hK, hm⟩ := modes_21 (s := s) hM hN
  have hn := h.nfp_pos
  constructor
  · refine ⟨2, by omega, rfl, ?_, ?_⟩
    · rw [(hm 2 (by omega)).1]; decide
    · rw [(hm 2 (by omega)).2]; simp; omega
  · obtain ⟨cls, hc⟩ := exists_classes (runSt d s d.nsb) a.detail d.nfp
    obtain ⟨L, _, ⟨L0, L1, L2, L3, e, h1, h2, h3, h4, _, h6⟩, _, hs⟩ :=
      C49_partial (run_computed (s := s) h) (by omega) hb a cls (fun k _ => hc k) fig
    refine ⟨_, hs, fun x y hmem => ?_⟩
    have hL : ∀ {c : ModeClass} {p : Int → Int → Prop} {L : List (Drawn α)},
        LegendEntry (runSt d s d.nsb) d.nmodes d.nsb a c p L → c ≠ .helical →
        Drawn.curve .helical (some .helical) x y ∉ L := by
      intro c p L hl hne hx
      rcases hl with ⟨_, rfl⟩ | ⟨k, _, _, _, rfl⟩
      · cases hx
      · rw [List.mem_singleton] at hx
        injection hx with _ e2
        cases c <;> simp [ModeClass.label] at e2 hne
    have h6 := h6 hd
    rw [e] at hmem
    simp only [List.mem_append, List.mem_map] at hmem
    rcases hmem with (((hx | hx) | (((hx | hx) | hx) | hx)) | ⟨k, _, hx⟩) | hx
    · exact hfig _ _ hx
    · unfold zeroLine at hx
      split at hx
      · cases hx
      · simp at hx
    · cases hB : a.B0
      · rw [h2 hB] at hx; cases hx
      · exact hL (h1 hB) (by decide) hx
    · exact hL h3 (by decide) hx
    · exact hL h4 (by decide) hx
    · rcases h6 with ⟨_, rfl⟩ | ⟨k, hk, hp, _⟩
      · cases hx
      · rw [hK] at hk
        rw [(hm k hk).1, (hm k hk).2] at hp
        obtain ⟨h1, h2, h3, h4⟩ := hp
        obtain rfl | rfl | rfl | rfl | rfl : k = 0 ∨ k = 1 ∨ k = 2 ∨ k = 3 ∨ k = 4 := by omega
        all_goals simp at h1 h2 h3 h4
    · injection hx with _ e2
      cases e2
    · unfold lowerEnd at hx
      split at hx
      · simp at hx
      · cases hx

/-! Non-vacuity: the example object, both with and without detail. -/

example (asym fl : Bool) (a : SymArgs α) (cls : Nat → ModeClass)
    (hc : ∀ k < 5, InClass a.detail 2 (outM (Ex.done (α := α) asym fl) k) (outN (Ex.done (α := α) asym fl) k) (cls k)) :
    ∃ legend bottom, Legend (Ex.done (α := α) asym fl) 5 2 a 2 legend ∧ (∀ y, a.ymin = some y → bottom = y) ∧
      ∀ disk, symplot disk (.object (Ex.done (α := α) asym fl)) a [] =
      .ok () ([] ++ zeroLine a.log ++ legend ++
      (((List.range 5).filter fun k => decide (Within a.max_m a.max_n (2 : Nat) (outM (Ex.done (α := α) asym fl) k) (outN (Ex.done (α := α) asym fl) k) ∧
          (cls k = .background → a.B0 = true))).map fun k =>
        .curve (cls k).color none (axis (Ex.done (α := α) asym fl) 2 a.sqrts) (profile (Ex.done (α := α) asym fl) 2 a.remove a.log k)) ++
      lowerEnd a.log bottom) :=
  C49_partial (Ex.done_computed asym fl) (by decide) (by decide) a cls hc []

example (asym fl : Bool) (a : SymArgs α) (hd : a.detail = true) :
    ∃ fig' x y, (∀ disk, symplot disk (.object (Ex.done (α := α) asym fl)) a [] = .ok () fig') ∧
      Drawn.curve .helical (some .otherHelical) x y ∈ fig' :=
  (C49_false_detail (s := Ex.stF asym fl) (Ex.readyH asym) rfl rfl (by show 1 ≤ 2; decide) a hd []).2

/-! ### C48: `modeplot` -/

/-- First row that takes part: row 0 is the (0,0) mode. -/
def Spec.firstRow (B0 : Bool) : Nat := if B0 then 0 else 1

/-- Sort key of mode `k`: minus the magnitude on the last output surface. -/
def Spec.lastKey (b : St α) (nb : Nat) (remove : Option (Int × Int)) (k : Nat) : α :=
  -(Arith.abs (amplitude b remove k (nb - 1)))

theorem sortKeys_ok (remove : Option (Int × Int)) (off : Nat) (hb : 1 ≤ nb) :
    sortKeys (Mat.tab K nb (amplitude b remove)) off =
      .ok ((List.range (K - off)).map fun i => lastKey b nb remove (i + off)) := by
  unfold sortKeys
  rw [Mat.cols_tab, Mat.rows_tab, if_neg (by omega)]
  have := collect (n := K - off) (g := fun i => do
    let x ← (Mat.tab K nb (amplitude b remove)).rdN (i + off) (nb - 1)
    pure (-(Arith.abs x))) (f := fun i => lastKey b nb remove (i + off)) fun i hi => by
      rw [Mat.rdN_tab (by omega) (by omega)]; rfl
  rw [← this]
  refine loop_congr _ fun i hi l => ?_
  rw [Mat.rdN_tab (by omega) (by omega)]
  rfl

/-- The curve of mode `k` with its legend label. -/
def Spec.modeCurve (b : St α) (nb : Nat) (a : ModeArgs α) (k : Nat) : Drawn α :=
  .curve .cycle (some (.mode (outM b k) (outN b k))) (axis b nb a.sqrts) (profile b nb a.remove a.log k)

theorem modeplotStep_ok (h : Computed b K nb nfp asym) (a : ModeArgs α) (off : Nat) (indices : List Nat) {j i : Nat}
    (hi : indices[j]? = some i) (hk : i + off < K) (f : List (Drawn α)) :
    modeplotStep b a (Mat.tab K nb (amplitude b a.remove)) (axis b nb a.sqrts) off indices j f =
      .ok () (f ++ [modeCurve b nb a (i + off)]) := by
  obtain ⟨y, h1, h2⟩ := row_profile (b := b) (nb := nb) a.remove a.log hk
  unfold modeplotStep
  rw [hi]
  dsimp only
  rw [h1, Prog.lift_ok_bind, at1_full 0 h.xm_b hk, Prog.lift_ok_bind, at1_full 0 h.xn_b hk, Prog.lift_ok_bind, h2]
  exact plot_ok (by rw [length_axis, length_profile]) f

theorem flatMap_get {β γ : Type} (l : List β) (g : β → γ) (G : Nat → List γ)
    (h : ∀ j x, l[j]? = some x → G j = [g x]) : (List.range l.length).flatMap G = l.map g := by
  have : (List.range l.length).flatMap G = (List.range l.length).flatMap fun j => (l[j]?.map g).toList := by
    refine List.flatMap_congr fun j hj => ?_
    obtain ⟨x, hx⟩ : ∃ x, l[j]? = some x := ⟨l[j]'(List.mem_range.1 hj), by simp [List.mem_range.1 hj]⟩
    rw [h j x hx, hx]
    rfl
  rw [this]
  clear this h
  induction l with
  | nil => rfl
  | cons x l ih =>
    rw [List.length_cons, List.range_succ_eq_map, List.flatMap_cons, List.flatMap_map]
    simp [ih]

/-- `modeplot` drawn with a given lower end of the axis. -/
theorem modeplot_curves {le : α → α → Prop} {argsort : List α → List Nat}
    (hsort : ∀ keys, IsArgsort le keys (argsort keys)) (h : Computed b K nb nfp asym)
    (hK : 1 ≤ K) (hb : 1 ≤ nb) (h0 : outM b 0 = 0 ∧ outN b 0 = 0) (a : ModeArgs α) (hn : 0 ≤ a.nmodes)
    {bottom : α} (hbot : axisBottom b.out.spec.bmnc_b a.ymin = .ok bottom) (fig : List (Drawn α)) :
    ∃ idx : List Nat, idx.Nodup ∧ idx.length = min a.nmodes.toNat (K - firstRow a.B0) ∧
      (∀ k ∈ idx, firstRow a.B0 ≤ k ∧ k < K) ∧
      (idx.Pairwise fun i j => le (lastKey b nb a.remove i) (lastKey b nb a.remove j)) ∧
      (∀ i ∈ idx, ∀ k, firstRow a.B0 ≤ k → k < K → k ∉ idx →
        le (lastKey b nb a.remove i) (lastKey b nb a.remove k)) ∧
      ∀ disk, modeplot argsort disk (.object b) a fig =
        if a.nmodes ≤ K - firstRow a.B0 then
          .ok () (fig ++ zeroLine a.log ++ idx.map (modeCurve b nb a) ++ lowerEnd a.log bottom)
        else .exc "IndexError" (fig ++ zeroLine a.log ++ idx.map (modeCurve b nb a)) := by
  obtain ⟨off, hoff⟩ : ∃ off, firstRow a.B0 = off := ⟨_, rfl⟩
  have hoff1 : off ≤ 1 := by rw [← hoff]; unfold firstRow; split <;> omega
  obtain ⟨n, hnn⟩ : ∃ n : Nat, a.nmodes = n := ⟨a.nmodes.toNat, by omega⟩
  obtain ⟨keys, hkeys⟩ : ∃ keys, keys = (List.range (K - off)).map fun i => lastKey b nb a.remove (i + off) := ⟨_, rfl⟩
  obtain ⟨hperm, hpair⟩ := hsort keys
  have hlen : keys.length = K - off := by rw [hkeys]; simp
  have hkey : ∀ i < K - off, keys[i]? = some (lastKey b nb a.remove (i + off)) := by
    intro i hi
    rw [hkeys, List.getElem?_map, List.getElem?_range hi]
    rfl
  rw [hlen] at hperm
  have hmem : ∀ i, i ∈ argsort keys ↔ i < K - off := fun i => by rw [hperm.mem_iff, List.mem_range]
  have hlen2 : (argsort keys).length = K - off := by rw [hperm.length_eq, List.length_range]
  have hnod : (argsort keys).Nodup := hperm.nodup_iff.2 List.nodup_range
  have htake : pyTake (argsort keys) a.nmodes = (argsort keys).take n := by
    unfold pyTake
    rw [if_pos hn, hnn]
    rfl
  have hsub : ∀ i ∈ (argsort keys).take n, i < K - off := fun i hi => (hmem i).1 (List.mem_of_mem_take hi)
  rw [hoff, hnn, Int.toNat_natCast]
  have hp2 : (argsort keys).Pairwise fun i j => le (lastKey b nb a.remove (i + off)) (lastKey b nb a.remove (j + off)) := by
    refine List.Pairwise.imp_of_mem ?_ hpair
    intro i j hi hj hij
    exact hij _ _ (hkey i ((hmem i).1 hi)) (hkey j ((hmem j).1 hj))
  refine ⟨((argsort keys).take n).map (· + off), ?_, ?_, ?_, ?_, ?_, ?_⟩
  · exact (hnod.sublist (List.take_sublist _ _)).map fun i j hij => Nat.add_right_cancel hij
  · rw [List.length_map, List.length_take, hlen2]
  · intro k hk
    obtain ⟨i, hi, rfl⟩ := List.mem_map.1 hk
    have := hsub i hi
    omega
  · rw [List.pairwise_map]
    exact hp2.sublist (List.take_sublist _ _)
  · intro i hi k hk1 hk2 hk3
    obtain ⟨i, hi', rfl⟩ := List.mem_map.1 hi
    have hkm : k - off ∈ argsort keys := (hmem _).2 (by omega)
    have hkd : k - off ∈ (argsort keys).drop n := by
      rw [← List.take_append_drop n (argsort keys), List.mem_append] at hkm
      rcases hkm with hk | hk
      · exact absurd (List.mem_map.2 ⟨k - off, hk, by omega⟩) hk3
      · exact hk
    rw [← List.take_append_drop n (argsort keys)] at hp2
    have := (List.pairwise_append.1 hp2).2.2 i hi' (k - off) hkd
    rwa [Nat.sub_add_cancel hk1] at this
  · intro disk
    show modeplotObj argsort b a fig = _
    unfold modeplotObj
    rw [hbot, Prog.lift_ok_bind, filtered_ok h, Prog.lift_ok_bind]
    have e0 : at1 b.out.xm_b 0 = .ok (outM b 0) := at1_full 0 h.xm_b (i := 0) hK
    have e1 : at1 b.out.xn_b 0 = .ok (outN b 0) := at1_full 0 h.xn_b (i := 0) hK
    rw [e0, Prog.lift_ok_bind, if_neg (by simp [h0.1]), e1]
    show (Prog.lift (.ok (outN b 0)) >>= _) fig = _
    rw [Prog.lift_ok_bind, if_neg (by simp [h0.2])]
    dsimp only
    have eo : (if a.B0 = true then 0 else 1) = off := hoff
    rw [eo, sortKeys_ok a.remove off hb, ← hkeys]
    show (Prog.lift (.ok keys) >>= _) fig = _
    rw [Prog.lift_ok_bind, radial_ok h, Prog.lift_ok_bind, Prog.bind_def, reference_ok]
    dsimp only
    rw [htake, hnn, Int.toNat_natCast]
    have hl : ((argsort keys).take n).length = min n (K - off) := by rw [List.length_take, hlen2]
    have hstep : ∀ j < min n (K - off), ∀ f, modeplotStep b a (Mat.tab K nb (amplitude b a.remove)) (axis b nb a.sqrts) off
        ((argsort keys).take n) j f =
        .ok () (f ++ (((argsort keys).take n)[j]?.map fun i => modeCurve b nb a (i + off)).toList) := by
      intro j hj f
      rw [← hl] at hj
      have hx : ((argsort keys).take n)[j]? = some (((argsort keys).take n)[j]'hj) :=
        List.getElem?_eq_getElem hj
      have := hsub _ (List.getElem_mem hj)
      rw [modeplotStep_ok h a off _ hx (by omega), hx]
      rfl
    have hfm : ((List.range (min n (K - off))).flatMap fun j =>
        (((argsort keys).take n)[j]?.map fun i => modeCurve b nb a (i + off)).toList) =
        (((argsort keys).take n).map (· + off)).map (modeCurve b nb a) := by
      rw [← hl, flatMap_get ((argsort keys).take n) (fun i => modeCurve b nb a (i + off)) _
        (fun j x hx => by rw [hx]; rfl), List.map_map]
      rfl
    by_cases hc : n ≤ K - off
    · rw [if_pos (by omega)]
      rw [Nat.min_eq_left hc] at hstep hfm
      rw [Prog.bind_def, forRange_ok hstep, hfm]
      exact logScale_ok _ _ _
    · rw [if_neg (by omega)]
      rw [Nat.min_eq_right (by omega)] at hstep hfm
      rw [Prog.bind_def, forRange_exc (k := K - off) (m := "IndexError") (by omega) hstep, hfm]
      intro f
      unfold modeplotStep
      rw [List.getElem?_eq_none (by rw [List.length_take, hlen2]; omega)]
      rfl

/-- **C48 (partial).**  Let `nmodes ≥ 0`, and let NumPy's `argsort` sort the keys (in any way that is
compatible with the order `le` of numbers).  There is a list of distinct modes, without (0,0) if `B0`
is false, of length `nmodes` or of all modes if there are fewer; their magnitudes at the last output
surface decrease, and no mode left out is larger.  Exactly these are drawn, in this order; afterwards
`IndexError` is raised if there were fewer than `nmodes`; otherwise a logarithmic axis ends at `ymin` if
it is given.  Missing (false, see below): the last output
surface need not be the outermost one. -/
theorem C48_partial {le : α → α → Prop} {argsort : List α → List Nat}
    (hsort : ∀ keys, IsArgsort le keys (argsort keys)) (h : Computed b K nb nfp asym)
    (hK : 1 ≤ K) (hb : 1 ≤ nb) (h0 : outM b 0 = 0 ∧ outN b 0 = 0) (a : ModeArgs α) (hn : 0 ≤ a.nmodes)
    (fig : List (Drawn α)) :
    ∃ (idx : List Nat) (bottom : α), (∀ y, a.ymin = some y → bottom = y) ∧ idx.Nodup ∧ idx.length = min a.nmodes.toNat (K - firstRow a.B0) ∧
      (∀ k ∈ idx, firstRow a.B0 ≤ k ∧ k < K) ∧
      (idx.Pairwise fun i j => le (lastKey b nb a.remove i) (lastKey b nb a.remove j)) ∧
      (∀ i ∈ idx, ∀ k, firstRow a.B0 ≤ k → k < K → k ∉ idx →
        le (lastKey b nb a.remove i) (lastKey b nb a.remove k)) ∧
      ∀ disk, modeplot argsort disk (.object b) a fig =
        if a.nmodes ≤ K - firstRow a.B0 then
          .ok () (fig ++ zeroLine a.log ++ idx.map (modeCurve b nb a) ++ lowerEnd a.log bottom)
        else .exc "IndexError" (fig ++ zeroLine a.log ++ idx.map (modeCurve b nb a)) := by
  obtain ⟨bottom, hbot, hy⟩ := axisBottom_ok h.bmnc_b hK hb a.ymin
  obtain ⟨idx, r⟩ := modeplot_curves hsort h hK hb h0 a hn hbot fig
  exact ⟨idx, bottom, hy, r⟩

/-- The same for real numbers. -/
theorem modeplot_curves_real {b : St ℝ} {argsort : List ℝ → List Nat}
    (hsort : ∀ keys, IsArgsort (· ≤ ·) keys (argsort keys)) (h : Computed b K nb nfp asym)
    (hK : 1 ≤ K) (hb : 1 ≤ nb) (h0 : outM b 0 = 0 ∧ outN b 0 = 0) (a : ModeArgs ℝ) (hn : 0 ≤ a.nmodes)
    (hle : a.nmodes ≤ K - firstRow a.B0) {bottom : ℝ} (hbot : axisBottom b.out.spec.bmnc_b a.ymin = .ok bottom)
    (fig : List (Drawn ℝ)) :
    ∃ idx : List Nat, idx.Nodup ∧ (idx.length : Int) = a.nmodes ∧
      (∀ k ∈ idx, k < K ∧ (a.B0 = false → k ≠ 0)) ∧
      (idx.Pairwise fun i j => |amplitude b a.remove j (nb - 1)| ≤ |amplitude b a.remove i (nb - 1)|) ∧
      (∀ i ∈ idx, ∀ k < K, (a.B0 = false → k ≠ 0) → k ∉ idx →
        |amplitude b a.remove k (nb - 1)| ≤ |amplitude b a.remove i (nb - 1)|) ∧
      ∀ disk, modeplot argsort disk (.object b) a fig =
        .ok () (fig ++ zeroLine a.log ++ idx.map (modeCurve b nb a) ++ lowerEnd a.log bottom) := by
  obtain ⟨idx, h1, h2, h3, h4, h5, h6⟩ := modeplot_curves hsort h hK hb h0 a hn hbot fig
  rw [if_pos hle] at h6
  have hkey : ∀ i j, lastKey b nb a.remove i ≤ lastKey b nb a.remove j →
      |amplitude b a.remove j (nb - 1)| ≤ |amplitude b a.remove i (nb - 1)| := by
    intro i j hij
    unfold lastKey at hij
    simpa using hij
  have hf : ∀ k, firstRow a.B0 ≤ k ↔ (a.B0 = false → k ≠ 0) := by
    intro k
    unfold firstRow
    cases a.B0 <;> simp <;> omega
  refine ⟨idx, h1, ?_, fun k hk => ⟨(h3 k hk).2, (hf k).1 (h3 k hk).1⟩, h4.imp (hkey _ _), fun i hi k hk hz hn => ?_, h6⟩
  · rw [h2]
    have : (firstRow a.B0 : Int) ≤ 1 := by unfold firstRow; split <;> simp
    omega
  · exact hkey _ _ (h5 i hi k ((hf k).2 hz) hk hn)

/-- **C48 (partial), real numbers.**  The modes drawn, in order of decreasing magnitude at the last
output surface. -/
theorem C48_real_partial {b : St ℝ} {argsort : List ℝ → List Nat}
    (hsort : ∀ keys, IsArgsort (· ≤ ·) keys (argsort keys)) (h : Computed b K nb nfp asym)
    (hK : 1 ≤ K) (hb : 1 ≤ nb) (h0 : outM b 0 = 0 ∧ outN b 0 = 0) (a : ModeArgs ℝ) (hn : 0 ≤ a.nmodes)
    (hle : a.nmodes ≤ K - firstRow a.B0) (fig : List (Drawn ℝ)) :
    ∃ (idx : List Nat) (bottom : ℝ), (∀ y, a.ymin = some y → bottom = y) ∧ idx.Nodup ∧ (idx.length : Int) = a.nmodes ∧
      (∀ k ∈ idx, k < K ∧ (a.B0 = false → k ≠ 0)) ∧
      (idx.Pairwise fun i j => |amplitude b a.remove j (nb - 1)| ≤ |amplitude b a.remove i (nb - 1)|) ∧
      (∀ i ∈ idx, ∀ k < K, (a.B0 = false → k ≠ 0) → k ∉ idx →
        |amplitude b a.remove k (nb - 1)| ≤ |amplitude b a.remove i (nb - 1)|) ∧
      ∀ disk, modeplot argsort disk (.object b) a fig =
        .ok () (fig ++ zeroLine a.log ++ idx.map (modeCurve b nb a) ++ lowerEnd a.log bottom) := by
  obtain ⟨bottom, hbot, hy⟩ := axisBottom_ok h.bmnc_b hK hb a.ymin
  obtain ⟨idx, r⟩ := modeplot_curves_real hsort h hK hb h0 a hn hle hbot fig
  exact ⟨idx, bottom, hy, r⟩

/-- A sorting function, to show that the hypothesis about `argsort` can be met. -/
noncomputable def Ex.argsort (keys : List ℝ) : List Nat :=
  (List.range keys.length).mergeSort fun i j => decide (keys.getD i 0 ≤ keys.getD j 0)

theorem Ex.argsort_ok (keys : List ℝ) : IsArgsort (· ≤ ·) keys (Ex.argsort keys) := by
  refine ⟨List.mergeSort_perm _ _, ?_⟩
  have := List.pairwise_mergeSort (le := fun i j => decide (keys.getD i 0 ≤ keys.getD j 0))
    (fun a b c h1 h2 => by simp only [decide_eq_true_eq] at *; linarith)
    (fun a b => by simp only [Bool.or_eq_true, decide_eq_true_eq]; exact le_total _ _) (List.range keys.length)
  refine this.imp fun {i j} hij x y hx hy => ?_
  simp only [decide_eq_true_eq, List.getD_eq_getElem?_getD, hx, hy, Option.getD_some] at hij
  exact hij

/-- A small object with results: modes (0,0), (1,0), (2,0) on two surfaces; the amplitudes of |B| and
the flux label are given. -/
noncomputable def Ex.small (asym : Bool) (c s : Nat → Nat → ℝ) (flux : Nat → ℝ) : St ℝ :=
  { (construct : St ℝ) with
    inp := { (construct : St ℝ).inp with asym := some asym, nfp := some 1 }
    out := { (construct : St ℝ).out with
      ns_b := some 2, mnboz := some 3, s_b := Vec.tab 2 flux, xm_b := Vec.tab 3 fun k => (k : Int)
      xn_b := Vec.tab 3 fun _ => 0
      spec := { (Spectra.empty : Spectra ℝ) with
        bmnc_b := Mat.tab 3 2 c, rmnc_b := Mat.tab 3 2 c, zmns_b := Mat.tab 3 2 c, numns_b := Mat.tab 3 2 c
        bmns_b := Mat.tab 3 2 s, rmns_b := Mat.tab 3 2 s, zmnc_b := Mat.tab 3 2 s, numnc_b := Mat.tab 3 2 s } } }

theorem Ex.small_computed (asym : Bool) (c s : Nat → Nat → ℝ) (flux : Nat → ℝ) :
    Computed (Ex.small asym c s flux) 3 2 1 asym where
  asym_eq := rfl
  nfp_eq := rfl
  nfp_pos := le_refl 1
  mnboz := rfl
  ns_b := rfl
  xm_b := Vec.full_tab _ _
  xn_b := Vec.full_tab _ _
  s_b := Vec.full_tab _ _
  bmnc_b := Mat.full_tab _ _ _
  rmnc_b := Mat.full_tab _ _ _
  zmns_b := Mat.full_tab _ _ _
  numns_b := Mat.full_tab _ _ _
  asym_b := fun _ => ⟨Mat.full_tab _ _ _, Mat.full_tab _ _ _, Mat.full_tab _ _ _, Mat.full_tab _ _ _⟩

theorem Ex.small_amp (asym : Bool) (c s : Nat → Nat → ℝ) (flux : Nat → ℝ) {k j : Nat} (hk : k < 3) (hj : j < 2) :
    amplitude (Ex.small asym c s flux) none k j = c k j := by
  unfold amplitude
  exact Mat.val_tab hk hj

/-- Drawing one mode: it is the one whose cosine coefficient is largest on the last surface. -/
theorem Ex.small_one {argsort : List ℝ → List Nat} (hsort : ∀ keys, IsArgsort (· ≤ ·) keys (argsort keys))
    (asym : Bool) (c s : Nat → Nat → ℝ) (flux : Nat → ℝ) {k : Nat} (hk : k = 1 ∨ k = 2)
    (hc : |c (3 - k) 1| < |c k 1|) {bottom : ℝ} (hbot : axisBottom (Mat.tab 3 2 c) none = .ok bottom)
    (disk : Disk ℝ) :
    modeplot argsort disk (.object (Ex.small asym c s flux)) ⟨1, none, false, true, false, none⟩ [] =
      .ok () [modeCurve (Ex.small asym c s flux) 2 ⟨1, none, false, true, false, none⟩ k, .logAxis bottom] := by
  obtain ⟨idx, h1, h2, h3, _, h5, h6⟩ := modeplot_curves_real hsort (Ex.small_computed asym c s flux) (by decide) (by decide)
    ⟨rfl, rfl⟩ ⟨1, none, false, true, false, none⟩ (by decide) (by decide) hbot []
  have h2' : idx.length = 1 := by
    have : (idx.length : Int) = 1 := h2
    omega
  obtain ⟨i, rfl⟩ := List.length_eq_one_iff.1 h2'
  have hi := h3 i (List.mem_singleton_self i)
  have hi0 := hi.2 rfl
  have : i = k := by
    by_contra hne
    have hx := h5 i (List.mem_singleton_self i) k (by omega) (fun _ => by omega) (by simpa using fun e => hne e.symm)
    rw [Ex.small_amp asym c s flux (by omega) (by decide), Ex.small_amp asym c s flux (by omega) (by decide)] at hx
    have e : i = 3 - k := by omega
    rw [e] at hx
    have e1 : 2 - 1 = 1 := rfl
    rw [e1] at hx
    linarith
  rw [h6 disk, this]
  rfl

/-- **C48 is false as stated**: if the selected surfaces are listed inwards (here s = 3/4 and then
s = 1/4), the mode shown is the largest on the innermost surface, not on the outermost one. -/
theorem C48_false : ∃ b : St ℝ, Computed b 3 2 1 false ∧ b.out.s_b.val 0 1 < b.out.s_b.val 0 0 ∧
    |amplitude b none 1 0| < |amplitude b none 2 0| ∧
    ∀ argsort : List ℝ → List Nat, (∀ keys, IsArgsort (· ≤ ·) keys (argsort keys)) →
      ∃ bottom, ∀ disk, modeplot argsort disk (.object b) ⟨1, none, false, true, false, none⟩ [] =
        .ok () [modeCurve b 2 ⟨1, none, false, true, false, none⟩ 1, .logAxis bottom] := by
  refine ⟨Ex.small false (fun k j => if k = 2 then 2 else if j = 0 then 1 else 3) (fun _ _ => 0)
    (fun j => if j = 0 then 3 / 4 else 1 / 4), Ex.small_computed _ _ _ _, ?_, ?_, fun argsort hs =>
    (axisBottom_ok (Mat.full_tab 3 2 _) (by decide) (by decide) none).imp fun _ hx =>
      Ex.small_one hs _ _ _ _ (.inl rfl) ?_ hx.1⟩
  · show (Vec.tab 2 _).val 0 1 < (Vec.tab 2 _).val 0 0
    rw [Vec.val_tab (by decide), Vec.val_tab (by decide)]
    norm_num
  · rw [Ex.small_amp _ _ _ _ (by decide) (by decide), Ex.small_amp _ _ _ _ (by decide) (by decide)]
    norm_num
  · norm_num

example : ∃ argsort : List ℝ → List Nat, ∀ keys, IsArgsort (· ≤ ·) keys (argsort keys) :=
  ⟨Ex.argsort, Ex.argsort_ok⟩

/-! ### C62: asymmetric configurations -/

/-- Magnitude of a harmonic, from its cosine and sine coefficients. -/
noncomputable def Spec.fullMagnitude (b : St ℝ) (asym : Bool) (k j : Nat) : ℝ :=
  Real.sqrt (entry b.out.spec.bmnc_b k j ^ 2 + onlyIf asym (entry b.out.spec.bmns_b k j) ^ 2)

/-- **C62 is false for asymmetric configurations**: the one mode drawn has magnitude 2 on both
surfaces, the other has magnitude at least 100; its sine coefficient is not looked at. -/
theorem C62_false : ∃ b : St ℝ, Computed b 3 2 1 true ∧
    (∀ j < 2, fullMagnitude b true 2 j = 2 ∧ 100 ≤ fullMagnitude b true 1 j) ∧
    ∀ argsort : List ℝ → List Nat, (∀ keys, IsArgsort (· ≤ ·) keys (argsort keys)) →
      ∃ bottom, ∀ disk, modeplot argsort disk (.object b) ⟨1, none, false, true, false, none⟩ [] =
        .ok () [modeCurve b 2 ⟨1, none, false, true, false, none⟩ 2, .logAxis bottom] := by
  refine ⟨Ex.small true (fun k _ => k) (fun k _ => if k = 1 then 100 else 0) (fun j => j),
    Ex.small_computed _ _ _ _, fun j hj => ?_, fun argsort hs =>
    (axisBottom_ok (Mat.full_tab 3 2 _) (by decide) (by decide) none).imp fun _ hx =>
      Ex.small_one hs _ _ _ _ (.inr rfl) ?_ hx.1⟩
  · have e1 : ∀ k < 3, entry (Ex.small true (fun k _ => k) (fun k _ => if k = 1 then 100 else 0) (fun j => j)).out.spec.bmnc_b k j = k :=
      fun k hk => Mat.val_tab hk hj
    have e2 : ∀ k < 3, entry (Ex.small true (fun k _ => k) (fun k _ => if k = 1 then 100 else 0) (fun j => j)).out.spec.bmns_b k j =
        if k = 1 then 100 else 0 := fun k hk => Mat.val_tab hk hj
    unfold fullMagnitude onlyIf
    rw [e1 2 (by decide), e2 2 (by decide), e1 1 (by decide), e2 1 (by decide)]
    constructor
    · rw [if_pos rfl, if_neg (by decide), show ((2 : Nat) : ℝ) ^ 2 + 0 ^ 2 = 2 ^ 2 by norm_num]
      exact Real.sqrt_sq (by norm_num)
    · rw [if_pos rfl, if_pos rfl]
      exact Real.le_sqrt_of_sq_le (by norm_num)
  · norm_num

/-- **C62 (partial).**  For stellarator-symmetric objects (and no helicity removed) the order is by the
full magnitude of the harmonics on the last output surface. -/
theorem C62_partial {b : St ℝ} {argsort : List ℝ → List Nat}
    (hsort : ∀ keys, IsArgsort (· ≤ ·) keys (argsort keys)) (h : Computed b K nb nfp false)
    (hK : 1 ≤ K) (hb : 1 ≤ nb) (h0 : outM b 0 = 0 ∧ outN b 0 = 0) (a : ModeArgs ℝ) (hn : 0 ≤ a.nmodes)
    (hr : a.remove = none) (hle : a.nmodes ≤ K - firstRow a.B0) (fig : List (Drawn ℝ)) :
    ∃ (idx : List Nat) (bottom : ℝ), (∀ y, a.ymin = some y → bottom = y) ∧ idx.Nodup ∧ (idx.length : Int) = a.nmodes ∧
      (∀ k ∈ idx, k < K ∧ (a.B0 = false → k ≠ 0)) ∧
      (idx.Pairwise fun i j => fullMagnitude b false j (nb - 1) ≤ fullMagnitude b false i (nb - 1)) ∧
      (∀ i ∈ idx, ∀ k < K, (a.B0 = false → k ≠ 0) → k ∉ idx →
        fullMagnitude b false k (nb - 1) ≤ fullMagnitude b false i (nb - 1)) ∧
      ∀ disk, modeplot argsort disk (.object b) a fig =
        .ok () (fig ++ zeroLine a.log ++ idx.map (modeCurve b nb a) ++ lowerEnd a.log bottom) := by
  have e : ∀ k, |amplitude b a.remove k (nb - 1)| = fullMagnitude b false k (nb - 1) := by
    intro k
    rw [hr]
    unfold amplitude fullMagnitude onlyIf
    rw [if_neg (by simp), show (0 : ℝ) ^ 2 = 0 by norm_num, add_zero, Real.sqrt_sq_eq_abs]
    rw [real_ofInt, Int.cast_zero]
  have := C48_real_partial hsort h hK hb h0 a hn hle fig
  simp only [e] at this
  exact this

example : ∃ (b : St ℝ) (argsort : List ℝ → List Nat), (∀ keys, IsArgsort (· ≤ ·) keys (argsort keys)) ∧
    Computed b 3 2 1 false ∧ outM b 0 = 0 ∧ outN b 0 = 0 :=
  ⟨Ex.small false (fun k j => k + j) (fun _ _ => 0) (fun j => j), Ex.argsort, Ex.argsort_ok,
    Ex.small_computed _ _ _ _, rfl, rfl⟩

end Booz
