import Verif.Lemmas.RealTrig

/-!
# C01: the trigonometric tables
-/

namespace Booz

/-- **C01.** `init_trig` on tables with at least `max 2 (mmax+1)` poloidal and `max 1 (nmax+1)` toroidal
columns and at least as many rows as there are points, whose column 0 of sines is zero: every
entry of the columns `m ≤ mmax` (and `m ≤ 1`), `n ≤ nmax` (and `n = 0`) of the rows of points becomes
the exact cosine or sine, and every other entry is unchanged. -/
theorem C01_trig_tables {R Cm Cn p : ℕ} {mmax nmax nfp : ℤ} {θ ζ : ℕ → ℝ}
    {fc fs gc gs : ℕ → ℕ → ℝ} (hp : p ≤ R) (hCm : 2 ≤ Cm) (hmm : mmax < Cm) (hCn : 1 ≤ Cn)
    (hnn : nmax < Cn) (hs : ∀ j < p, fs j 0 = 0) (hg : ∀ j < p, gs j 0 = 0) :
    ∃ t : Trig ℝ,
      initTrig (Vec.tab p θ) (Vec.tab p ζ)
        ⟨Mat.tab R Cm fc, Mat.tab R Cm fs, Mat.tab R Cn gc, Mat.tab R Cn gs⟩ mmax nmax nfp = .ok t ∧
      t.cosm.Full R Cm ∧ t.sinm.Full R Cm ∧ t.cosn.Full R Cn ∧ t.sinn.Full R Cn ∧
      (∀ j < p, ∀ m < Cm, (m ≤ 1 ∨ (m : ℤ) ≤ mmax) →
        t.cosm.rdN j m = .ok (Real.cos (m * θ j)) ∧ t.sinm.rdN j m = .ok (Real.sin (m * θ j))) ∧
      (∀ j < p, ∀ n < Cn, (n = 0 ∨ (n : ℤ) ≤ nmax) →
        t.cosn.rdN j n = .ok (Real.cos (n * (nfp * ζ j))) ∧
        t.sinn.rdN j n = .ok (Real.sin (n * (nfp * ζ j)))) ∧
      (∀ j < R, ∀ m < Cm, ¬ (j < p ∧ (m ≤ 1 ∨ (m : ℤ) ≤ mmax)) →
        t.cosm.rdN j m = .ok (fc j m) ∧ t.sinm.rdN j m = .ok (fs j m)) ∧
      (∀ j < R, ∀ n < Cn, ¬ (j < p ∧ (n = 0 ∨ (n : ℤ) ≤ nmax)) →
        t.cosn.rdN j n = .ok (gc j n) ∧ t.sinn.rdN j n = .ok (gs j n)) := by
  refine ⟨_, initTrig_ok hp hCm hmm hCn hnn (Nat.le_refl p), Mat.full_tab _ _ _, Mat.full_tab _ _ _,
    Mat.full_tab _ _ _, Mat.full_tab _ _ _, ?_, ?_, ?_, ?_⟩
  · intro j hj m hm hr
    rw [Mat.rdN_tab (by omega) hm, Mat.rdN_tab (by omega) hm, if_pos ⟨hj, hr⟩, if_pos ⟨hj, hr⟩, hs j hj]
    have := trigCol_real (θ j) m
    rw [real_ofInt, Int.cast_zero] at this
    rw [this]
    exact ⟨rfl, rfl⟩
  · intro j hj n hn hr
    rw [Mat.rdN_tab (by omega) hn, Mat.rdN_tab (by omega) hn, if_pos ⟨hj, hr⟩, if_pos ⟨hj, hr⟩, hg j hj]
    have := trigCol_real (ofInt nfp * ζ j) n
    rw [real_ofInt 0, Int.cast_zero] at this
    rw [this]
    exact ⟨rfl, rfl⟩
  · intro j hj m hm hr
    rw [Mat.rdN_tab hj hm, Mat.rdN_tab hj hm, if_neg hr, if_neg hr]
    exact ⟨rfl, rfl⟩
  · intro j hj n hn hr
    rw [Mat.rdN_tab hj hn, Mat.rdN_tab hj hn, if_neg hr, if_neg hr]
    exact ⟨rfl, rfl⟩

/-- The hypotheses hold, for instance, for two points, tables with five rows, four poloidal and two
toroidal columns. -/
example : ∃ t : Trig ℝ, initTrig (Vec.tab 2 fun j => (j : ℝ)) (Vec.tab 2 fun _ => 3)
    ⟨Mat.tab 5 4 fun _ _ => 0, Mat.tab 5 4 fun _ _ => 0, Mat.tab 5 2 fun _ _ => 0,
     Mat.tab 5 2 fun _ _ => 0⟩ 3 1 7 = .ok t ∧
    t.cosm.rdN 1 3 = .ok (Real.cos ((3 : ℕ) * ((1 : ℕ) : ℝ))) := by
  obtain ⟨t, h, _, _, _, _, h1, _⟩ := C01_trig_tables (R := 5) (Cm := 4) (Cn := 2) (p := 2) (mmax := 3)
    (nmax := 1) (nfp := 7) (θ := fun j => (j : ℝ)) (ζ := fun _ => 3) (fc := fun _ _ => 0)
    (fs := fun _ _ => 0) (gc := fun _ _ => 0) (gs := fun _ _ => 0) (by omega) (by omega) (by omega)
    (by omega) (by omega) (fun _ _ => rfl) (fun _ _ => rfl)
  exact ⟨t, h, (h1 1 (by omega) 3 (by omega) (by omega)).1⟩

end Booz
