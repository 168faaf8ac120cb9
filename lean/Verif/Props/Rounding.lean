import Mathlib.Data.Int.Log
import Mathlib.Algebra.Order.Round
import Mathlib.Analysis.SpecialFunctions.Exponential
import Mathlib.Analysis.SpecialFunctions.Exp
import Verif.Lemmas.Rounding
import Verif.RealArith

/-!
# C53: rounding errors of the trigonometric recurrence
-/

namespace Booz
variable {α : Type} [Arith α]
open Spec

/-- Two computed numbers are finite and close to a cosine and a sine. -/
def Spec.NearTrig (fin : α → Prop) (val : α → ℝ) (c s : Mat α) (j m : ℕ) (x E : ℝ) : Prop :=
  ∃ a b, c.rdN j m = .ok a ∧ s.rdN j m = .ok b ∧ fin a ∧ fin b ∧
    |val a - Real.cos x| ≤ E ∧ |val b - Real.sin x| ≤ E

theorem nearTrig_of {fin : α → Prop} {val : α → ℝ} {u η : ℝ} (R : Rounded α fin val u η) {t s0 : α}
    (hs0 : s0 = ofInt 0) (ht : fin t) (m : ℕ) (hb : trigBound u η m ≤ 1) :
    let p := trigCol (Arith.cos t) (Arith.sin t) s0 m
    fin p.1 ∧ fin p.2 ∧ |val p.1 - Real.cos (m * val t)| ≤ trigBound u η m ∧
      |val p.2 - Real.sin (m * val t)| ≤ trigBound u η m := by
  intro p
  obtain ⟨f1, f2, h⟩ := trigCol_error R (s0 := s0) (by rw [hs0]; exact R.zero) (R.cos t ht) (R.sin t ht) m hb
  have h1 := (Complex.abs_re_le_norm _).trans h
  have h2 := (Complex.abs_im_le_norm _).trans h
  rw [exp_cs] at h1 h2
  exact ⟨f1, f2, h1, h2⟩

/-- **C53.**  In any arithmetic with relative precision `u` (and underflow threshold `η`), the entry `m`
of the tables computed by `init_trig` differs from the cosine or sine of `m` times the stored angle by
at most `(1 + 8u)^m (1 + 5mη) - 1`, as long as this is at most 1; with `η = 0` that is
`(1 + 8u)^m - 1`.  For the toroidal tables the stored angle is the computed product `nfp * ζ`. -/
theorem C53_tables {fin : α → Prop} {val : α → ℝ} {u η : ℝ} (hR : Rounded α fin val u η)
    {R Cm Cn p : ℕ} {mmax nmax nfp : ℤ} {θ ζ : ℕ → α} {fc fs gc gs : ℕ → ℕ → α} (hp : p ≤ R) (hCm : 2 ≤ Cm)
    (hmm : mmax < Cm) (hCn : 1 ≤ Cn) (hnn : nmax < Cn) (hs : ∀ j < p, fs j 0 = ofInt 0)
    (hg : ∀ j < p, gs j 0 = ofInt 0) (hθ : ∀ j < p, fin (θ j)) (hζ : ∀ j < p, fin (ofInt nfp * ζ j)) :
    ∃ t : Trig α,
      initTrig (Vec.tab p θ) (Vec.tab p ζ)
        ⟨Mat.tab R Cm fc, Mat.tab R Cm fs, Mat.tab R Cn gc, Mat.tab R Cn gs⟩ mmax nmax nfp = .ok t ∧
      ∀ j < p,
        (∀ m < Cm, (m ≤ 1 ∨ (m : ℤ) ≤ mmax) → (1 + 8 * u) ^ m * (1 + 5 * (m * η)) - 1 ≤ 1 →
          NearTrig fin val t.cosm t.sinm j m (m * val (θ j)) ((1 + 8 * u) ^ m * (1 + 5 * (m * η)) - 1)) ∧
        (∀ n < Cn, (n = 0 ∨ (n : ℤ) ≤ nmax) → (1 + 8 * u) ^ n * (1 + 5 * (n * η)) - 1 ≤ 1 →
          NearTrig fin val t.cosn t.sinn j n (n * val (ofInt nfp * ζ j))
            ((1 + 8 * u) ^ n * (1 + 5 * (n * η)) - 1)) := by
  refine ⟨_, initTrig_ok hp hCm hmm hCn hnn (Nat.le_refl p), fun j hj => ⟨?_, ?_⟩⟩
  · intro m hm hr hb
    obtain ⟨f1, f2, h1, h2⟩ := nearTrig_of hR (hs j hj) (hθ j hj) m hb
    refine ⟨_, _, Mat.rdN_tab (by omega) hm, Mat.rdN_tab (by omega) hm, ?_⟩
    rw [if_pos ⟨hj, hr⟩, if_pos ⟨hj, hr⟩]
    exact ⟨f1, f2, h1, h2⟩
  · intro m hm hr hb
    obtain ⟨f1, f2, h1, h2⟩ := nearTrig_of hR (hg j hj) (hζ j hj) m hb
    refine ⟨_, _, Mat.rdN_tab (by omega) hm, Mat.rdN_tab (by omega) hm, ?_⟩
    rw [if_pos ⟨hj, hr⟩, if_pos ⟨hj, hr⟩]
    exact ⟨f1, f2, h1, h2⟩

theorem bound_linear {u η : ℝ} (hu : 0 ≤ u) (hη : 0 ≤ η) (m : ℕ) (h1 : m * u ≤ 1 / 32)
    (h2 : m * η ≤ 1 / 32) :
    (1 + 8 * u) ^ m * (1 + 5 * (m * η)) - 1 ≤ 16 * (m * u) + 8 * (m * η) := by
  have hmu : 0 ≤ (m : ℝ) * u := by positivity
  have hme : 0 ≤ (m : ℝ) * η := by positivity
  have e1 : (1 + 8 * u) ^ m ≤ 1 + 16 * (m * u) := by
    have a1 : (1 + 8 * u) ^ m ≤ Real.exp (8 * u) ^ m :=
      pow_le_pow_left₀ (by linarith) (by linarith [Real.add_one_le_exp (8 * u)]) m
    have a2 : Real.exp (8 * u) ^ m = Real.exp (8 * (m * u)) := by
      rw [← Real.exp_nat_mul]
      ring_nf
    have a3 : |Real.exp (8 * (m * u)) - 1 - 8 * (m * u)| ≤ (8 * (m * u)) ^ 2 :=
      Real.abs_exp_sub_one_sub_id_le (by rw [abs_of_nonneg (by linarith)]; linarith)
    have a4 := (abs_le.1 a3).2
    rw [a2] at a1
    nlinarith
  have e2 : (1 + 8 * u) ^ m * (1 + 5 * (m * η)) ≤ (1 + 16 * (m * u)) * (1 + 5 * (m * η)) := by gcongr
  nlinarith

/-- **C53, linear form.**  As long as `m u` and `m η` are at most 1/32 the error is at most
`16 m u + 8 m η`. -/
theorem C53_linear {fin : α → Prop} {val : α → ℝ} {u η : ℝ} (hR : Rounded α fin val u η)
    {R Cm Cn p : ℕ} {mmax nmax nfp : ℤ} {θ ζ : ℕ → α} {fc fs gc gs : ℕ → ℕ → α} (hp : p ≤ R) (hCm : 2 ≤ Cm)
    (hmm : mmax < Cm) (hCn : 1 ≤ Cn) (hnn : nmax < Cn) (hs : ∀ j < p, fs j 0 = ofInt 0)
    (hg : ∀ j < p, gs j 0 = ofInt 0) (hθ : ∀ j < p, fin (θ j)) (hζ : ∀ j < p, fin (ofInt nfp * ζ j)) :
    ∃ t : Trig α,
      initTrig (Vec.tab p θ) (Vec.tab p ζ)
        ⟨Mat.tab R Cm fc, Mat.tab R Cm fs, Mat.tab R Cn gc, Mat.tab R Cn gs⟩ mmax nmax nfp = .ok t ∧
      ∀ j < p,
        (∀ m < Cm, (m ≤ 1 ∨ (m : ℤ) ≤ mmax) → m * u ≤ 1 / 32 → m * η ≤ 1 / 32 →
          NearTrig fin val t.cosm t.sinm j m (m * val (θ j)) (16 * (m * u) + 8 * (m * η))) ∧
        (∀ n < Cn, (n = 0 ∨ (n : ℤ) ≤ nmax) → n * u ≤ 1 / 32 → n * η ≤ 1 / 32 →
          NearTrig fin val t.cosn t.sinn j n (n * val (ofInt nfp * ζ j)) (16 * (n * u) + 8 * (n * η))) := by
  obtain ⟨t, h, H⟩ := C53_tables hR hp hCm hmm hCn hnn hs hg hθ hζ
  have hu := hR.u_nonneg
  have hη := hR.eta_nonneg
  have mono : ∀ {c s : Mat α} {j m : ℕ} {x E E' : ℝ}, NearTrig fin val c s j m x E → E ≤ E' →
      NearTrig fin val c s j m x E' := by
    rintro c s j m x E E' ⟨a, b, h1, h2, h3, h4, h5, h6⟩ hE
    exact ⟨a, b, h1, h2, h3, h4, h5.trans hE, h6.trans hE⟩
  refine ⟨t, h, fun j hj => ⟨fun m hm hr h1 h2 => ?_, fun m hm hr h1 h2 => ?_⟩⟩
  · have := bound_linear hu hη m h1 h2
    exact mono ((H j hj).1 m hm hr (by linarith)) this
  · have := bound_linear hu hη m h1 h2
    exact mono ((H j hj).2 m hm hr (by linarith)) this

/-! ### A concrete rounded arithmetic: 53-bit binary floating point with unbounded exponents -/

/-- A number of this arithmetic. -/
structure Ex.Flx where
  /-- its value -/
  val : ℝ

/-- Round to a nearest number with 53 significant bits. -/
noncomputable def Ex.fl (x : ℝ) : ℝ := round (x / 2 ^ (Int.log 2 |x| - 52)) * 2 ^ (Int.log 2 |x| - 52)

theorem Ex.fl_error (x : ℝ) : |Ex.fl x - x| ≤ 1 / 2 ^ 53 * |x| := by
  unfold Ex.fl
  by_cases h0 : x = 0
  · subst h0
    simp
  have hx : 0 < |x| := abs_pos.2 h0
  have h1 : (2 : ℝ) ^ Int.log 2 |x| ≤ |x| := by
    have := Int.zpow_log_le_self (b := 2) (by norm_num) hx
    exact_mod_cast this
  set e := Int.log 2 |x| with he
  have hs : (0 : ℝ) < 2 ^ (e - 52) := by positivity
  have h2 := abs_sub_round (x / 2 ^ (e - 52))
  have h3 : (round (x / 2 ^ (e - 52)) : ℝ) * 2 ^ (e - 52) - x =
      -((x / 2 ^ (e - 52) - round (x / 2 ^ (e - 52))) * 2 ^ (e - 52)) := by
    have hne := hs.ne'
    field_simp
    ring
  rw [h3, abs_neg, abs_mul, abs_of_pos hs]
  have h4 : (2 : ℝ) ^ (e - 52) = 2 ^ e / 2 ^ 52 := by
    rw [zpow_sub₀ (by norm_num)]
    norm_num
  calc _ ≤ 1 / 2 * (2 : ℝ) ^ (e - 52) := by gcongr
    _ = 1 / 2 ^ 53 * (2 : ℝ) ^ e := by rw [h4]; ring
    _ ≤ 1 / 2 ^ 53 * |x| := by gcongr

theorem Ex.fl_one : Ex.fl 1 = 1 := by
  unfold Ex.fl
  have e : Int.log 2 |(1 : ℝ)| = 0 := by
    rw [abs_one, Int.log_one_right]
  rw [e]
  norm_num

theorem Ex.fl_zero : Ex.fl 0 = 0 := by
  simp [Ex.fl]

noncomputable instance : Arith Ex.Flx where
  add a b := ⟨Ex.fl (a.val + b.val)⟩
  sub a b := ⟨Ex.fl (a.val - b.val)⟩
  mul a b := ⟨Ex.fl (a.val * b.val)⟩
  div a b := ⟨Ex.fl (a.val / b.val)⟩
  neg a := ⟨-a.val⟩
  ofInt n := ⟨Ex.fl n⟩
  half := ⟨1 / 2⟩
  threeHalves := ⟨3 / 2⟩
  pi := ⟨Ex.fl Real.pi⟩
  sqrt a := ⟨Ex.fl (Real.sqrt a.val)⟩
  sin a := ⟨Ex.fl (Real.sin a.val)⟩
  cos a := ⟨Ex.fl (Real.cos a.val)⟩
  abs a := ⟨|a.val|⟩
  max a b := ⟨Max.max a.val b.val⟩
  absTiny a := decide (|a.val| < 1 / 10 ^ 13)
  toInt a := Arith.toInt a.val

theorem Ex.flx_rounded : Rounded Ex.Flx (fun _ => True) Ex.Flx.val (1 / 2 ^ 53) 0 where
  u_nonneg := by positivity
  u_le := by norm_num
  eta_nonneg := le_refl _
  eta_le := by norm_num
  one := ⟨trivial, by
    show Ex.fl ((1 : ℤ) : ℝ) = 1
    rw [Int.cast_one, Ex.fl_one]⟩
  zero := ⟨trivial, by
    show Ex.fl ((0 : ℤ) : ℝ) = 0
    rw [Int.cast_zero, Ex.fl_zero]⟩
  mul a b _ _ _ _ := ⟨trivial, by rw [add_zero]; exact Ex.fl_error _⟩
  add a b _ _ _ _ := ⟨trivial, Ex.fl_error _⟩
  sub a b _ _ _ _ := ⟨trivial, Ex.fl_error _⟩
  cos a _ := ⟨trivial, (Ex.fl_error _).trans (by
    have := Real.abs_cos_le_one a.val
    exact mul_le_of_le_one_right (by positivity) this)⟩
  sin a _ := ⟨trivial, (Ex.fl_error _).trans (by
    have := Real.abs_sin_le_one a.val
    exact mul_le_of_le_one_right (by positivity) this)⟩

/-- In that arithmetic a table for `m ≤ 1000` has errors below `2e-12`, at any angle. -/
example (x y : Ex.Flx) : ∃ t : Trig Ex.Flx,
    initTrig (Vec.tab 1 fun _ => x) (Vec.tab 1 fun _ => y)
      ⟨Mat.tab 1 1001 fun _ _ => ofInt 0, Mat.tab 1 1001 fun _ _ => ofInt 0, Mat.tab 1 1 fun _ _ => ofInt 0,
       Mat.tab 1 1 fun _ _ => ofInt 0⟩ 1000 0 5 = .ok t ∧
    NearTrig (fun _ => True) Ex.Flx.val t.cosm t.sinm 0 1000 ((1000 : ℕ) * x.val) (2 / 10 ^ 12) := by
  obtain ⟨t, h, H⟩ := C53_linear Ex.flx_rounded (R := 1) (Cm := 1001) (Cn := 1) (p := 1) (mmax := 1000)
    (nmax := 0) (nfp := 5) (θ := fun _ => x) (ζ := fun _ => y) (fc := fun _ _ => ofInt 0)
    (fs := fun _ _ => ofInt 0) (gc := fun _ _ => ofInt 0) (gs := fun _ _ => ofInt 0) (by omega) (by omega)
    (by norm_num) (by omega) (by norm_num) (fun _ _ => rfl) (fun _ _ => rfl) (fun _ _ => trivial)
    (fun _ _ => trivial)
  refine ⟨t, h, ?_⟩
  obtain ⟨a, b, h1, h2, h3, h4, h5, h6⟩ := (H 0 (by omega)).1 1000 (by omega) (by right; norm_num)
    (by norm_num) (by norm_num)
  refine ⟨a, b, h1, h2, h3, h4, h5.trans ?_, h6.trans ?_⟩ <;> norm_num

end Booz
