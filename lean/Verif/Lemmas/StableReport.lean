import Verif.Lemmas.StableRun
import Verif.Spec.ReportRounding

/-!
# Forward error of the accuracy report
-/

namespace Booz
open Spec

section
variable {J : Inputs ℝ} {d : Dims} {K : ℝ}

/-- A machine with the inputs it is given, comparing without rounding. -/
structure MachC (J : Inputs ℝ) (d : Dims) (K : ℝ) extends Mach J d K where
  cmp : Compares α fin val

namespace Stable

/-- What is stable on all machines is stable on those that compare exactly. -/
theorem cmp {X : ∀ M : Mach J d K, M.α} {r : ℝ} (h : Stable (π := Mach.toMachine) X r) :
    Stable (π := fun M : MachC J d K => M.toMachine) (fun M => X M.toMach) r := by
  obtain ⟨C, u0, c, p, H⟩ := h
  exact ⟨C, u0, c, p, fun M => H M.toMach⟩

variable {X Y : ∀ M : MachC J d K, M.α} {r s : ℝ}

theorem abs (hX : Stable (π := fun M : MachC J d K => M.toMachine) X r) :
    Stable (π := fun M : MachC J d K => M.toMachine) (fun M => Arith.abs (X M)) |r| := by
  obtain ⟨C, u0, c, p, H⟩ := hX
  refine ⟨C, u0, c, p, fun M hM => ?_⟩
  obtain ⟨h1, h2⟩ := H M hM
  obtain ⟨h3, h4⟩ := M.cmp.abs _ h1
  refine ⟨h3, ?_⟩
  show |M.val (Arith.abs (X M)) - _| ≤ _
  rw [h4]
  exact (abs_abs_sub_abs_le _ _).trans h2

theorem max (hX : Stable (π := fun M : MachC J d K => M.toMachine) X r)
    (hY : Stable (π := fun M : MachC J d K => M.toMachine) Y s) :
    Stable (π := fun M : MachC J d K => M.toMachine) (fun M => Arith.max (X M) (Y M)) (Max.max r s) := by
  obtain ⟨C, u0, c, p, H⟩ := hX
  obtain ⟨D, v0, c', p', H'⟩ := hY
  refine ⟨Max.max C D, min u0 v0, le_max_of_le_left c, lt_min p p', fun M hM => ?_⟩
  obtain ⟨h1, h2⟩ := H M (hM.trans (min_le_left _ _))
  obtain ⟨h1', h2'⟩ := H' M (hM.trans (min_le_right _ _))
  obtain ⟨h3, h4⟩ := M.cmp.max _ _ h1 h1'
  refine ⟨h3, ?_⟩
  show |M.val (Arith.max (X M) (Y M)) - _| ≤ _
  rw [h4]
  have hu := M.ok.u_pos.le
  exact (abs_max_sub_max_le_max _ _ _ _).trans (max_le
    (h2.trans (mul_le_mul_of_nonneg_right (le_max_left _ _) hu))
    (h2'.trans (mul_le_mul_of_nonneg_right (le_max_right _ _) hu)))

section
variable {js : ℕ} (hJ : RunReady J d) (hK : 0 ≤ K) (hj : js < d.ns) (h0 : Booz.gi J d js ≠ 0)
include hJ hK hj

theorem chkV (c : ℕ) : Stable (fun M : Mach J d K => Booz.chkV M.I d js c) (Booz.chkV J d js c) :=
  bP hJ hK hj (gridT d _) (gridZ d hJ.nfp_pos _)

include h0

theorem chkT (c : ℕ) : Stable (fun M : Mach J d K => Booz.chkT M.I d js c) (Booz.chkT J d js c) :=
  thB hJ hK hj (gridT d _) (gridZ d hJ.nfp_pos _) h0

theorem chkZ (c : ℕ) : Stable (fun M : Mach J d K => Booz.chkZ M.I d js c) (Booz.chkZ J d js c) :=
  zeB hJ hK hj (gridT d _) (gridZ d hJ.nfp_pos _) h0

theorem chkTC (c k : ℕ) :
    Stable (fun M : Mach J d K => Booz.chkTC M.I d js c k) (Booz.chkTC J d js c k) := by
  have ht := chkT hJ hK hj h0 c
  have hz := (int (d.nfp : ℤ)).mul (chkZ hJ hK hj h0 c)
  have h := trigCol ht.cos ht.sin (wt (int 0) c) (modeM d.N k)
  exact (h.1.mul (hz.cosT _)).add ((h.2.mul (hz.sinT _)).mul (int _))

theorem chkTS (c k : ℕ) :
    Stable (fun M : Mach J d K => Booz.chkTS M.I d js c k) (Booz.chkTS J d js c k) := by
  have ht := chkT hJ hK hj h0 c
  have hz := (int (d.nfp : ℤ)).mul (chkZ hJ hK hj h0 c)
  have h := trigCol ht.cos ht.sin (wt (int 0) c) (modeM d.N k)
  exact (h.2.mul (hz.cosT _)).sub ((h.1.mul (hz.sinT _)).mul (int _))

end

theorem chkB {b : ℕ} (hJ : RunReady J d) (hK : 0 ≤ K) (hb : b < d.nsb) (hj : surf J b < d.ns)
    (h0 : Booz.gi J d (surf J b) ≠ 0) (c : ℕ) :
    Stable (fun M : Mach J d K => Booz.chkB M.I d (surf M.I b) b (outF M.I d d.nsb) c d.nmodes)
      (Booz.chkB J d (surf J b) b (outF J d d.nsb) c d.nmodes) := by
  have hs : ∀ M : Mach J d K, surf M.I b = surf J b := by
    intro M
    unfold surf
    rw [M.near.surfs]
  have hbP := fun j => bP hJ hK hj (gridT d j) (gridZ d hJ.nfp_pos j)
  simp only [Booz.chkB, outF, if_pos hb, hs]
  exact acc2 _ (fun k _ => (chkTC hJ hK hj h0 c k).mul (coefF k (tC hJ hK hj h0 k) hbP))
    fun _ k _ => (chkTS hJ hK hj h0 c k).mul (coefF k (tS hJ hK hj h0 k) hbP)

end Stable

/-- The reports of all surfaces, up to rounding. -/
theorem reports_near (h : RunReady J d) (hK : 0 ≤ K) (hg : ∀ b < d.nsb, gi J d (surf J b) ≠ 0)
    (hB : ∀ b < d.nsb, ∀ c < 4, 0 < chkV J d (surf J b) c) :
    ∃ C u₀, 0 ≤ C ∧ 0 < u₀ ∧ ∀ M : MachC J d K, M.u ≤ u₀ → ∀ b < d.nsb,
      ReportNear M.fin M.val (C * M.u) (runReport M.I d b) (runReport J d b) := by
  have hj : ∀ b < d.nsb, surf J b < d.ns := by
    intro b hb
    have := h.surfs_range b hb
    unfold surf
    omega
  have hs : ∀ (M : MachC J d K) b, surf M.I b = surf J b := by
    intro M b
    unfold surf
    rw [M.near.surfs]
  have V := fun b hb c => (Stable.chkV h hK (hj b hb) c).cmp
  have B := fun b hb c => (Stable.chkB h hK hb (hj b hb) (hg b hb) c).cmp
  have E : ∀ b hb, ∀ c < 4, Stable (π := fun M : MachC J d K => M.toMachine) _ _ := fun b hb c hc =>
    ((B b hb c).sub (V b hb c)).abs.div ((B b hb c).max (V b hb c))
      (lt_max_of_lt_right (hB b hb c hc)).ne'
  obtain ⟨C, u₀, c, p, H⟩ := (Linear.all d.nsb fun b hb =>
    Linear.and (Stable.vec (n := 4) fun c _ => V b hb c) <|
    Linear.and (Stable.vec (n := 4) fun c _ => B b hb c) (Stable.vec (n := 4) fun c hc => E b hb c hc)).1
  refine ⟨C, u₀, c, p, fun M hM b hb => ?_⟩
  obtain ⟨h1, h2, h3⟩ := H M hM b hb
  unfold runReport reportOf
  simp only [hs] at h2 h3 ⊢
  exact ⟨rfl, rfl, h1, h2, h3⟩

end
end Booz
