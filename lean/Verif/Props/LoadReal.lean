import Verif.Props.Load

/-!
# C10, C11, C12: radial interpolation in exact arithmetic
-/

namespace Booz
open Spec

/-- The loaded R, Z matrices with the arguments they come from. -/
def Spec.rzPairs (asym : Bool) (A : VmecArgs ℝ) (I : Inputs ℝ) : List (Mat ℝ × Mat ℝ) :=
  [(A.rmnc, I.rmnc), (A.zmns, I.zmns)] ++
    if asym then [(A.rmns, I.rmns), (A.zmnc, I.zmnc)] else []

theorem rz_loaded {ns : Int} {A : VmecArgs ℝ} {s s' : St ℝ} {z : Sizes} {u : Unit}
    (hg : Given A s.inp z) (h : initFromVmec ns A s = .ok u s') {a b : Mat ℝ}
    (hp : (a, b) ∈ Spec.rzPairs z.asym A s'.inp) :
    a.Full z.mnmax.toNat (ns - 1 + 1).toNat ∧
      b = interpMat ns s.inp.xm z.mnmax.toNat (ns - 1).toNat a := by
  obtain ⟨_, _, C, _⟩ := vmec_inv hg h
  have hns := C.ns_ge
  have hmn : z.mnmax = (z.mnmax.toNat : Int) := by have := C.rmnc.1; omega
  have hc : ns = ((ns - 1 + 1).toNat : Int) := by omega
  rw [vmec_result hg h] at hp
  unfold Spec.rzPairs at hp
  have key : ((a, b) = (A.rmnc, interpMat ns s.inp.xm z.mnmax.toNat (ns - 1).toNat A.rmnc) ∨
      (a, b) = (A.zmns, interpMat ns s.inp.xm z.mnmax.toNat (ns - 1).toNat A.zmns)) ∨
      z.asym = true ∧ ((a, b) = (A.rmns, interpMat ns s.inp.xm z.mnmax.toNat (ns - 1).toNat A.rmns) ∨
      (a, b) = (A.zmnc, interpMat ns s.inp.xm z.mnmax.toNat (ns - 1).toNat A.zmnc)) := by
    rcases List.mem_append.mp hp with hp | hp
    · rcases List.mem_cons.mp hp with hp | hp
      · exact Or.inl (Or.inl hp)
      · exact Or.inl (Or.inr (List.mem_singleton.mp hp))
    · split at hp
      · next ha =>
        right
        refine ⟨ha, ?_⟩
        unfold loadedInp at hp
        dsimp only at hp
        simp only [ha, if_true] at hp
        rcases List.mem_cons.mp hp with hp | hp
        · exact Or.inl hp
        · exact Or.inr (List.mem_singleton.mp hp)
      · exact absurd hp List.not_mem_nil
  rcases key with (hp | hp) | ⟨ha, hp | hp⟩
  · cases hp; exact ⟨full_of hg.args.rmnc C.rmnc hmn hc, rfl⟩
  · cases hp; exact ⟨full_of hg.args.zmns C.zmns hmn hc, rfl⟩
  · cases hp; exact ⟨full_of hg.args.rmns (C.asym ha).1 hmn hc, rfl⟩
  · cases hp; exact ⟨full_of hg.args.zmnc (C.asym ha).2.1 hmn hc, rfl⟩

theorem even_tmod {m : Int} : m.tmod 2 = 0 ↔ Even m := by
  rw [even_iff_two_dvd, Int.dvd_iff_tmod_eq_zero]

/-- Full-grid point `i` of `ns`. -/
noncomputable def Spec.sFull (ns : Int) (i : Nat) : ℝ := (i : ℝ) / ((ns : ℝ) - 1)
/-- Half-grid point `k` (between full-grid points `k` and `k+1`). -/
noncomputable def Spec.sHalfPt (ns : Int) (k : Nat) : ℝ := ((k : ℝ) + 1 / 2) / ((ns : ℝ) - 1)

/-- **C10.**  Even-`m` harmonics are the mean of their two full-grid neighbours; hence they lie
between them and affine profiles are reproduced exactly. -/
theorem C10_even_modes {ns : Int} {A : VmecArgs ℝ} {s s' : St ℝ} {z : Sizes} {u : Unit}
    (hg : Given A s.inp z) (h : initFromVmec ns A s = .ok u s') {a b : Mat ℝ}
    (hp : (a, b) ∈ Spec.rzPairs z.asym A s'.inp) {j k : Nat} (hj : (j : Int) < z.mnmax)
    (hk : (k : Int) < ns - 1) {m : Int} (hm : s.inp.xm.rdN j = .ok m) (he : Even m) :
    ∃ x y v, a.rdN j k = .ok x ∧ a.rdN j (k + 1) = .ok y ∧ b.rdN j k = .ok v ∧
      v = (x + y) / 2 ∧ min x y ≤ v ∧ v ≤ max x y ∧
      ∀ c d : ℝ, (∀ i : Nat, (i : Int) < ns → a.rdN j i = .ok (c + d * Spec.sFull ns i)) →
        v = c + d * Spec.sHalfPt ns k := by
  obtain ⟨_, _, C, _⟩ := vmec_inv hg h
  have hns := C.ns_ge
  obtain ⟨ha, hb⟩ := rz_loaded hg h hp
  have hx := Mat.Full.rdN' (ofInt 0) ha (i := j) (j := k) (by omega) (by omega)
  have hy := Mat.Full.rdN' (ofInt 0) ha (i := j) (j := k + 1) (by omega) (by omega)
  have hmv : s.inp.xm.val 0 j = m := by
    have := hg.lists.xm.rdN 0 (i := j) (by have := C.modes.xm_len; omega)
    rw [this] at hm; exact Except.ok.inj hm
  have hv : b.rdN j k = .ok ((a.val (ofInt 0) j k + a.val (ofInt 0) j (k + 1)) / 2) := by
    rw [hb, interpMat, Mat.rdN_tab (show j < z.mnmax.toNat by omega) (show k < (ns - 1).toNat by omega),
      interpV, hmv, if_pos (even_tmod.mpr he)]
    unfold evenV ev
    rw [real_half]
    congr 1; ring
  refine ⟨_, _, _, hx, hy, hv, rfl, ?_, ?_, ?_⟩
  · have h1 := min_le_left (a.val (ofInt 0) j k) (a.val (ofInt 0) j (k + 1))
    have h2 := min_le_right (a.val (ofInt 0) j k) (a.val (ofInt 0) j (k + 1))
    linarith
  · have h1 := le_max_left (a.val (ofInt 0) j k) (a.val (ofInt 0) j (k + 1))
    have h2 := le_max_right (a.val (ofInt 0) j k) (a.val (ofInt 0) j (k + 1))
    linarith
  · intro c d hcd
    have e1 := hcd k (by omega)
    have e2 := hcd (k + 1) (by omega)
    rw [hx] at e1
    rw [hy] at e2
    rw [Except.ok.inj e1, Except.ok.inj e2]
    unfold Spec.sFull Spec.sHalfPt
    have : (ns : ℝ) - 1 ≠ 0 := by
      have : (2 : ℝ) ≤ ns := by exact_mod_cast hns
      linarith
    push_cast
    field_simp
    ring

theorem sf_real {ns : Int} {k : Nat} (hk : k ≠ 0) : (sfV ns k : ℝ) = Real.sqrt (Spec.sFull ns k) := by
  unfold sfV hsV Spec.sFull
  rw [if_neg hk]
  simp only [real_sqrt, real_ofInt]
  congr 1; push_cast; ring

theorem sh_real {ns : Int} {k : Nat} : (shV ns k : ℝ) = Real.sqrt (Spec.sHalfPt ns k) := by
  unfold shV sinV hsV Spec.sHalfPt
  simp only [real_sqrt, real_ofInt, real_half]
  congr 1; push_cast; ring

/-- **C11, general form.**  Odd-`m` harmonics on the half grid, as documented: interpolation of
`x/√s` between the two neighbours; on the innermost surface the value of `x/√s` at the axis is 0 for
`m ≠ 1` data vanishing on the axis, and linearly extrapolated from the next two points for `m = 1`. -/
theorem C11_odd_formula {ns : Int} {A : VmecArgs ℝ} {s s' : St ℝ} {z : Sizes} {u : Unit}
    (hg : Given A s.inp z) (h : initFromVmec ns A s = .ok u s') {a b : Mat ℝ}
    (hp : (a, b) ∈ Spec.rzPairs z.asym A s'.inp) {j k : Nat} (hj : (j : Int) < z.mnmax)
    (hk : (k : Int) < ns - 1) {m : Int} (hm : s.inp.xm.rdN j = .ok m) (ho : ¬ Even m) :
    ∃ q : Nat → ℝ, (∀ i : Nat, (i : Int) < ns → a.rdN j i = .ok (q i)) ∧
      b.rdN j k = .ok (Real.sqrt (Spec.sHalfPt ns k) *
        (if k = 0 then
          if m = 1 then 3 / 2 * (q 1 / Real.sqrt (Spec.sFull ns 1)) -
            1 / 2 * (q 2 / Real.sqrt (Spec.sFull ns 2))
          else (q 0 + q 1 / Real.sqrt (Spec.sFull ns 1)) / 2
        else (q k / Real.sqrt (Spec.sFull ns k) + q (k + 1) / Real.sqrt (Spec.sFull ns (k + 1))) / 2)) := by
  obtain ⟨_, _, C, _⟩ := vmec_inv hg h
  have hns := C.ns_ge
  obtain ⟨ha, hb⟩ := rz_loaded hg h hp
  have hmv : s.inp.xm.val 0 j = m := by
    have := hg.lists.xm.rdN 0 (i := j) (by have := C.modes.xm_len; omega)
    rw [this] at hm; exact Except.ok.inj hm
  refine ⟨a.val (ofInt 0) j, fun i hi => Mat.Full.rdN' (ofInt 0) ha (by omega) (by omega), ?_⟩
  rw [hb, interpMat, Mat.rdN_tab (show j < z.mnmax.toNat by omega) (show k < (ns - 1).toNat by omega),
    interpV, hmv, if_neg (fun h => ho (even_tmod.mp h))]
  congr 1
  by_cases hk0 : k = 0
  · subst hk0
    by_cases h1 : m = 1
    · rw [if_pos ⟨h1, rfl⟩, if_pos rfl, if_pos h1]
      unfold axisV
      rw [sh_real, sf_real one_ne_zero, sf_real two_ne_zero, real_half, real_threeHalves]
      unfold ev; ring
    · rw [if_neg (fun h => h1 h.1), if_pos rfl, if_neg h1]
      unfold oddV
      rw [sh_real, sf_real (show 0 + 1 ≠ 0 by decide), real_half]
      have : (sfV ns 0 : ℝ) = 1 := by unfold sfV; rw [if_pos rfl, real_ofInt]; norm_num
      rw [this]
      unfold ev; ring
  · rw [if_neg (fun h => hk0 h.2), if_neg hk0]
    unfold oddV
    rw [sh_real, sf_real hk0, sf_real (Nat.succ_ne_zero k), real_half]
    unfold ev; ring

theorem sFull_pos {ns : Int} (h : 2 ≤ ns) {k : Nat} (hk : k ≠ 0) : 0 < Spec.sFull ns k := by
  unfold Spec.sFull
  have h1 : (2 : ℝ) ≤ ns := by exact_mod_cast h
  have h2 : (0 : ℝ) < k := by exact_mod_cast Nat.pos_of_ne_zero hk
  exact div_pos h2 (by linarith)

/-- **C11.**  An odd-`m` harmonic `√s (c + d s)`, with `c = 0` unless `m = 1`, is reproduced exactly
at every half-grid point, including the innermost one. -/
theorem C11_odd_exact {ns : Int} {A : VmecArgs ℝ} {s s' : St ℝ} {z : Sizes} {u : Unit}
    (hg : Given A s.inp z) (h : initFromVmec ns A s = .ok u s') {a b : Mat ℝ}
    (hp : (a, b) ∈ Spec.rzPairs z.asym A s'.inp) {j k : Nat} (hj : (j : Int) < z.mnmax)
    (hk : (k : Int) < ns - 1) {m : Int} (hm : s.inp.xm.rdN j = .ok m) (ho : ¬ Even m) {c d : ℝ}
    (hc : m ≠ 1 → c = 0)
    (hq : ∀ i : Nat, (i : Int) < ns →
      a.rdN j i = .ok (Real.sqrt (Spec.sFull ns i) * (c + d * Spec.sFull ns i))) :
    b.rdN j k = .ok (Real.sqrt (Spec.sHalfPt ns k) * (c + d * Spec.sHalfPt ns k)) := by
  obtain ⟨_, _, C, L⟩ := vmec_inv hg h
  have hns := C.ns_ge
  obtain ⟨q, h1, h2⟩ := C11_odd_formula hg h hp hj hk hm ho
  have hq' : ∀ i : Nat, (i : Int) < ns → q i = Real.sqrt (Spec.sFull ns i) * (c + d * Spec.sFull ns i) := by
    intro i hi
    have e := h1 i hi
    rw [hq i hi] at e
    exact (Except.ok.inj e).symm
  have hdiv : ∀ i : Nat, i ≠ 0 → (i : Int) < ns → q i / Real.sqrt (Spec.sFull ns i) =
      c + d * Spec.sFull ns i := by
    intro i h0 hi
    rw [hq' i hi]
    exact mul_div_cancel_left₀ _ (Real.sqrt_pos.mpr (sFull_pos hns h0)).ne'
  have hn1 : (ns : ℝ) - 1 ≠ 0 := by
    have : (2 : ℝ) ≤ ns := by exact_mod_cast hns
    linarith
  rw [h2]
  congr 2
  by_cases hk0 : k = 0
  · subst hk0
    rw [if_pos rfl]
    by_cases hm1 : m = 1
    · have h3 : 3 ≤ ns := by
        have hx := hg.lists.xm.rdN 0 (i := j) (by have := C.modes.xm_len; omega)
        refine L.axis j (by have := C.modes.xm_len; omega) ?_
        rw [hx] at hm; rw [Except.ok.inj hm]; exact hm1
      rw [if_pos hm1, hdiv 1 one_ne_zero (by omega), hdiv 2 two_ne_zero (by omega)]
      unfold Spec.sFull Spec.sHalfPt
      push_cast
      field_simp
      ring
    · rw [if_neg hm1, hdiv 1 one_ne_zero (by omega), hq' 0 (by omega), hc hm1]
      unfold Spec.sFull Spec.sHalfPt
      push_cast
      rw [zero_div, Real.sqrt_zero]
      field_simp
      ring
  · rw [if_neg hk0, hdiv k hk0 (by omega), hdiv (k + 1) (Nat.succ_ne_zero k) (by omega)]
    unfold Spec.sFull Spec.sHalfPt
    push_cast
    field_simp
    ring

/-- **C12.**  The input radial grid is the uniform half grid. -/
theorem C12_half_grid {ns : Int} {A : VmecArgs ℝ} {s s' : St ℝ} {z : Sizes} {u : Unit}
    (hg : Given A s.inp z) (h : initFromVmec ns A s = .ok u s') :
    ∃ σ : Nat → ℝ, (s'.inp.s_in.size : Int) = ns - 1 ∧
      (∀ j : Nat, (j : Int) < ns - 1 → s'.inp.s_in.rdN j = .ok (σ j)) ∧
      (∀ j : Nat, (j : Int) < ns - 1 → σ j = ((j : ℝ) + 1 / 2) / ((ns : ℝ) - 1) ∧
        0 < σ j ∧ σ j < 1) ∧
      (∀ i j : Nat, i < j → (j : Int) < ns - 1 → σ i < σ j) ∧
      (∀ i j : Nat, (i : Int) + j = ns - 2 → σ i + σ j = 1) := by
  obtain ⟨_, _, C, _⟩ := vmec_inv hg h
  have hns := C.ns_ge
  have hr : (2 : ℝ) ≤ ns := by exact_mod_cast hns
  have hp : (0 : ℝ) < (ns : ℝ) - 1 := by linarith
  refine ⟨Spec.sHalfPt ns, ?_, ?_, ?_, ?_, ?_⟩
  · rw [vmec_result hg h]
    show ((Vec.tab (ns - 1).toNat _).size : Int) = _
    rw [Vec.size_tab]; omega
  · intro j hj
    rw [vmec_result hg h]
    show (Vec.tab (ns - 1).toNat (sinV ns)).rdN j = _
    rw [Vec.rdN_tab (by omega)]
    congr 1
    unfold sinV hsV Spec.sHalfPt
    simp only [real_ofInt, real_half]
    push_cast; ring
  · intro j hj
    refine ⟨rfl, ?_, ?_⟩
    · unfold Spec.sHalfPt; positivity
    · unfold Spec.sHalfPt
      rw [div_lt_one hp]
      have h2 : (j : Int) + 1 ≤ ns - 1 := by omega
      have h3 : (j : ℝ) + 1 ≤ (ns : ℝ) - 1 := by exact_mod_cast h2
      linarith
  · intro i j hij _
    unfold Spec.sHalfPt
    have : (i : ℝ) < j := by exact_mod_cast hij
    exact div_lt_div_of_pos_right (by linarith) hp
  · intro i j hij
    unfold Spec.sHalfPt
    have : (i : ℝ) + j = ns - 2 := by exact_mod_cast hij
    rw [← add_div, div_eq_one_iff_eq hp.ne']
    linarith

/-! ### Instances -/

example : ∃ s', initFromVmec 4 (Ex.vmec (α := ℝ)) (Ex.vst true) = .ok () s' ∧
    ∃ v, s'.inp.zmnc.rdN 0 2 = .ok v ∧ v = 5 / 2 := by
  obtain ⟨s', h⟩ := Ex.loads (α := ℝ) true
  have hp : ((Ex.vmec (α := ℝ)).zmnc, s'.inp.zmnc) ∈ Spec.rzPairs (Ex.sizes true).asym Ex.vmec s'.inp := by
    show _ ∈ [_, _] ++ [_, _]
    simp
  obtain ⟨x, y, v, h1, h2, h3, h4, _⟩ := C10_even_modes (Ex.given true) h hp (j := 0) (k := 2)
    (by show (0 : Int) < 3; decide) (by decide) (m := 0) rfl (by decide)
  refine ⟨s', h, v, h3, ?_⟩
  have e1 : (Ex.vmec (α := ℝ)).zmnc.rdN 0 2 = .ok (ofInt (2 * ((0 : ℕ) : ℤ) + ((2 : ℕ) : ℤ))) :=
    Mat.rdN_tab (f := fun k j => ofInt (2 * (k : ℤ) + (j : ℤ))) (r := 3) (c := 4) (by decide) (by decide)
  have e2 : (Ex.vmec (α := ℝ)).zmnc.rdN 0 3 = .ok (ofInt (2 * ((0 : ℕ) : ℤ) + ((3 : ℕ) : ℤ))) :=
    Mat.rdN_tab (f := fun k j => ofInt (2 * (k : ℤ) + (j : ℤ))) (r := 3) (c := 4) (by decide) (by decide)
  rw [e1] at h1
  rw [e2] at h2
  rw [h4, ← Except.ok.inj h1, ← Except.ok.inj h2]
  norm_num

/-- The hypotheses of `C11_odd_formula` and `C12_half_grid` are met by mode 2 (`m = 1`). -/
example : ∃ s' v, initFromVmec 4 (Ex.vmec (α := ℝ)) (Ex.vst false) = .ok () s' ∧
    s'.inp.rmnc.rdN 2 0 = .ok v ∧ s'.inp.s_in.rdN 1 = .ok (1 / 2) := by
  obtain ⟨s', h⟩ := Ex.loads (α := ℝ) false
  have hp : ((Ex.vmec (α := ℝ)).rmnc, s'.inp.rmnc) ∈ Spec.rzPairs (Ex.sizes false).asym Ex.vmec s'.inp := by
    show _ ∈ [_, _] ++ []
    simp
  obtain ⟨q, h1, h2⟩ := C11_odd_formula (Ex.given false) h hp (j := 2) (k := 0)
    (by show (2 : Int) < 3; decide) (by decide) (m := 1) rfl (by decide)
  obtain ⟨σ, _, g1, g2, _⟩ := C12_half_grid (Ex.given false) h
  refine ⟨s', _, h, h2, ?_⟩
  rw [g1 1 (by decide), (g2 1 (by decide)).1]
  norm_num

/-- Data whose `m = 1` harmonic of R is `√s (1 + 2 s)`. -/
noncomputable def Ex.vmecSqrt : VmecArgs ℝ :=
  { Ex.vmec with
    rmnc := Mat.tab 3 4 fun _ i => Real.sqrt (Spec.sFull 4 i) * (1 + 2 * Spec.sFull 4 i) }

/-- The innermost value of that harmonic is exact. -/
example : ∃ s', initFromVmec 4 Ex.vmecSqrt (Ex.vst false) = .ok () s' ∧
    s'.inp.rmnc.rdN 2 0 =
      .ok (Real.sqrt (Spec.sHalfPt 4 0) * (1 + 2 * Spec.sHalfPt 4 0)) := by
  have hf : Ex.vmecSqrt.rmnc.Full 3 4 := by unfold Ex.vmecSqrt; dsimp only; exact Mat.full_tab 3 4 _
  have hg : Given Ex.vmecSqrt (Ex.vst (α := ℝ) false).inp (Ex.sizes false) :=
    ⟨(Ex.given false).sized, Ex.lists false, { Ex.args with rmnc := hf }⟩
  have C : Consistent 4 Ex.vmecSqrt (Ex.vst (α := ℝ) false).inp (Ex.sizes false) :=
    { Ex.consistent false with rmnc := ⟨rfl, rfl⟩ }
  have L : Loadable 4 Ex.vmecSqrt (Ex.vst (α := ℝ) false).inp (Ex.sizes false) :=
    { Ex.loadable false with print := Or.inl (by show (1 : Int) ≤ 1; decide) }
  obtain ⟨s', h⟩ : ∃ s', initFromVmec 4 Ex.vmecSqrt (Ex.vst false) = .ok () s' :=
    ⟨_, vmec_ok (by decide) hg (Ex.computable false) C L⟩
  have hp : (Ex.vmecSqrt.rmnc, s'.inp.rmnc) ∈ Spec.rzPairs (Ex.sizes false).asym Ex.vmecSqrt s'.inp := by
    show _ ∈ [_, _] ++ []
    simp
  exact ⟨s', h, C11_odd_exact hg h hp (j := 2) (k := 0) (by show (2 : Int) < 3; decide) (by decide)
    (m := 1) rfl (by decide) (by decide) fun i hi =>
      Mat.rdN_tab (r := 3) (c := 4)
        (f := fun _ i => Real.sqrt (Spec.sFull 4 i) * (1 + 2 * Spec.sFull 4 i)) (by decide) (by omega)⟩

end Booz
