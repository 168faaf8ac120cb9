import Verif.Lemmas.StableRun
import Verif.Props.Rounding
import Verif.Props.Quadrature

/-!
# C69, C70: rounding errors and perturbations of a whole run
-/

namespace Booz
open Spec

theorem outputs_near {s₀ : St ℝ} {d : Dims} {K : ℝ} (h : RunReady s₀.inp d) (hK : 0 ≤ K)
    (hg : ∀ b < d.nsb, gi s₀.inp d (surf s₀.inp b) ≠ 0)
    (hB : ∀ b < d.nsb, ∀ j, bP s₀.inp d (surf s₀.inp b) d.mnq (gridT d j) (gridZ d j) ≠ 0) :
    ∃ C u₀, 0 ≤ C ∧ 0 < u₀ ∧ ∀ M : Mach s₀.inp d K, M.u ≤ u₀ → ∀ s : St M.α, s.inp = M.I →
      OutputsNear M.fin M.val d (C * M.u) (runSt d s d.nsb).out (runSt d s₀ d.nsb).out := by
  have hj : ∀ b < d.nsb, surf s₀.inp b < d.ns := by
    intro b hb
    have := h.surfs_range b hb
    unfold surf
    omega
  have hs : ∀ (M : Mach s₀.inp d K) b, surf M.I b = surf s₀.inp b := by
    intro M b
    unfold surf
    rw [M.near.surfs]
  have T := fun j => Stable.gridT (π := Mach.toMachine (J := s₀.inp) (d := d) (K := K)) d j
  have Z := fun j => Stable.gridZ (π := Mach.toMachine (J := s₀.inp) (d := d) (K := K)) d h.nfp_pos j
  have bP := fun b hb j => Stable.bP h hK (hj b hb) (T j) (Z j)
  have rP := fun b hb j => Stable.rP h hK (hj b hb) (T j) (Z j)
  have zP := fun b hb j => Stable.zP h hK (hj b hb) (T j) (Z j)
  have nuV := fun b hb j => Stable.nuV h hK (hj b hb) (T j) (Z j) (hg b hb)
  have jacB := fun b hb j => Stable.jacB h hK (hj b hb) (T j) (Z j) (hB b hb j)
  have tC := fun b hb k j => Stable.tC h hK (hj b hb) (hg b hb) k j
  have tS := fun b hb k j => Stable.tS h hK (hj b hb) (hg b hb) k j
  obtain ⟨C, u₀, c, p, H⟩ := (Linear.and
    (Stable.vec (n := d.nsb) fun b hb => Stable.s_in (K := K) h hK (hj b hb)) <|
    Linear.and (Stable.vec (n := d.nsb) fun b hb => Stable.curI (K := K) h hK (hj b hb)) <|
    Linear.and (Stable.vec (n := d.nsb) fun b hb => Stable.curG (K := K) h hK (hj b hb)) <|
    Linear.and (Stable.vec (n := d.ns) fun b hb => Stable.bsubumnc (K := K) h hK hb h.mnmax_nyq_ge) <|
    Linear.and (Stable.vec (n := d.ns) fun b hb => Stable.bsubvmnc (K := K) h hK hb h.mnmax_nyq_ge) <|
    Linear.and (Stable.mat (r := d.nmodes) (c := d.nsb) fun k _ b hb => Stable.coefF k (tC b hb k) (bP b hb)) <|
    Linear.and (Stable.mat (r := d.nmodes) (c := d.nsb) fun k _ b hb => Stable.coefF k (tC b hb k) (rP b hb)) <|
    Linear.and (Stable.mat (r := d.nmodes) (c := d.nsb) fun k _ b hb => Stable.coefF k (tS b hb k) (zP b hb)) <|
    Linear.and (Stable.mat (r := d.nmodes) (c := d.nsb) fun k _ b hb => Stable.coefF k (tS b hb k) (nuV b hb)) <|
    Linear.and (Stable.mat (r := d.nmodes) (c := d.nsb) fun k _ b hb => Stable.coefF k (tC b hb k) (jacB b hb)) <|
    Linear.and (Stable.mat (r := d.nmodes) (c := d.nsb) fun k _ b hb => Stable.coefF k (tS b hb k) (bP b hb)) <|
    Linear.and (Stable.mat (r := d.nmodes) (c := d.nsb) fun k _ b hb => Stable.coefF k (tS b hb k) (rP b hb)) <|
    Linear.and (Stable.mat (r := d.nmodes) (c := d.nsb) fun k _ b hb => Stable.coefF k (tC b hb k) (zP b hb)) <|
    Linear.and (Stable.mat (r := d.nmodes) (c := d.nsb) fun k _ b hb => Stable.coefF k (tC b hb k) (nuV b hb))
    (Stable.mat (r := d.nmodes) (c := d.nsb) fun k _ b hb => Stable.coefF k (tS b hb k) (jacB b hb))).1
  refine ⟨C, u₀, c, p, fun M hM s hsI => ?_⟩
  obtain ⟨h1, h2, h3, h4, h5, g1, g2, g3, g4, g5, a1, a2, a3, a4, a5⟩ := H M hM
  have vtab : ∀ {n e} {f f' : ℕ → M.α} {g g' : ℕ → ℝ}, VecNear M.fin M.val n e (Vec.tab n f) (Vec.tab n g) →
      (∀ i < n, f' i = f i) → (∀ i < n, g' i = g i) →
      VecNear M.fin M.val n e (Vec.tab n f') (Vec.tab n g') := by
    intro n e f f' g g' hh e1 e2 i hi
    obtain ⟨x, y, r1, r2, r3⟩ := hh i hi
    rw [Vec.rdN_tab hi] at r1 r2
    exact ⟨x, y, by rw [Vec.rdN_tab hi, e1 i hi, r1], by rw [Vec.rdN_tab hi, e2 i hi, r2], r3⟩
  have mtab : ∀ {n c e} {f f' : ℕ → ℕ → M.α} {g g' : ℕ → ℕ → ℝ},
      MatNear M.fin M.val n c e (Mat.tab n c f) (Mat.tab n c g) →
      (∀ i < n, ∀ j < c, f' i j = f i j) → (∀ i < n, ∀ j < c, g' i j = g i j) →
      MatNear M.fin M.val n c e (Mat.tab n c f') (Mat.tab n c g') := by
    intro n c e f f' g g' hh e1 e2 i hi j hj
    obtain ⟨x, y, r1, r2, r3⟩ := hh i hi j hj
    rw [Mat.rdN_tab hi hj] at r1 r2
    exact ⟨x, y, by rw [Mat.rdN_tab hi hj, e1 i hi j hj, r1], by rw [Mat.rdN_tab hi hj, e2 i hi j hj, r2], r3⟩
  have sel : ∀ b, (M.I.compute_surfs.val 0 b).toNat = surf s₀.inp b := hs M
  have spec1 : ∀ {A : Type} [Arith A] (F : SpecF A) (o : Spectra A),
      (specTab d F o).bmnc_b = Mat.tab d.nmodes d.nsb F.bc ∧ (specTab d F o).rmnc_b = Mat.tab d.nmodes d.nsb F.rc ∧
      (specTab d F o).zmns_b = Mat.tab d.nmodes d.nsb F.zs ∧ (specTab d F o).numns_b = Mat.tab d.nmodes d.nsb F.ns ∧
      (specTab d F o).gmnc_b = Mat.tab d.nmodes d.nsb F.gc := by
    intro A _ F o
    unfold specTab
    cases d.asym <;> exact ⟨rfl, rfl, rfl, rfl, rfl⟩
  have spec2 : d.asym = true → ∀ {A : Type} [Arith A] (F : SpecF A) (o : Spectra A),
      (specTab d F o).bmns_b = Mat.tab d.nmodes d.nsb F.bs ∧ (specTab d F o).rmns_b = Mat.tab d.nmodes d.nsb F.rs ∧
      (specTab d F o).zmnc_b = Mat.tab d.nmodes d.nsb F.zc ∧ (specTab d F o).numnc_b = Mat.tab d.nmodes d.nsb F.nc ∧
      (specTab d F o).gmns_b = Mat.tab d.nmodes d.nsb F.gs := by
    intro ha A _ F o
    unfold specTab
    rw [ha]
    exact ⟨rfl, rfl, rfl, rfl, rfl⟩
  obtain ⟨p1, p2, p3, p4, p5⟩ := spec1 (outF s.inp d d.nsb) s.out.spec
  obtain ⟨q1, q2, q3, q4, q5⟩ := spec1 (outF s₀.inp d d.nsb) s₀.out.spec
  constructor
  case ns_b => rfl
  case mnboz => rfl
  case xm_b => rfl
  case xn_b => rfl
  case s_b => exact vtab h1 (fun b _ => by rw [hsI, sel]) fun b _ => rfl
  case boozer_I => exact vtab h2 (fun b hb => by rw [if_pos hb, hsI, hs]) fun b hb => by rw [if_pos hb]
  case boozer_G => exact vtab h3 (fun b hb => by rw [if_pos hb, hsI, hs]) fun b hb => by rw [if_pos hb]
  case boozer_I_all => exact vtab h4 (fun b _ => by rw [hsI]) fun b _ => rfl
  case boozer_G_all => exact vtab h5 (fun b _ => by rw [hsI]) fun b _ => rfl
  case bmnc =>
    show MatNear _ _ _ _ _ (specTab d _ _).bmnc_b (specTab d _ _).bmnc_b
    rw [p1, q1]
    exact mtab g1 (fun k _ b hb => by simp only [outF, if_pos hb, hsI, hs]) fun k _ b hb => by simp only [outF, if_pos hb]
  case rmnc =>
    show MatNear _ _ _ _ _ (specTab d _ _).rmnc_b (specTab d _ _).rmnc_b
    rw [p2, q2]
    exact mtab g2 (fun k _ b hb => by simp only [outF, if_pos hb, hsI, hs]) fun k _ b hb => by simp only [outF, if_pos hb]
  case zmns =>
    show MatNear _ _ _ _ _ (specTab d _ _).zmns_b (specTab d _ _).zmns_b
    rw [p3, q3]
    exact mtab g3 (fun k _ b hb => by simp only [outF, if_pos hb, hsI, hs]) fun k _ b hb => by simp only [outF, if_pos hb]
  case numns =>
    show MatNear _ _ _ _ _ (specTab d _ _).numns_b (specTab d _ _).numns_b
    rw [p4, q4]
    exact mtab g4 (fun k _ b hb => by simp only [outF, if_pos hb, hsI, hs]) fun k _ b hb => by simp only [outF, if_pos hb]
  case gmnc =>
    show MatNear _ _ _ _ _ (specTab d _ _).gmnc_b (specTab d _ _).gmnc_b
    rw [p5, q5]
    exact mtab g5 (fun k _ b hb => by simp only [outF, if_pos hb, hsI, hs]) fun k _ b hb => by simp only [outF, if_pos hb]
  case bmns =>
    intro ha
    show MatNear _ _ _ _ _ (specTab d _ _).bmns_b (specTab d _ _).bmns_b
    rw [(spec2 ha _ _).1, (spec2 ha _ _).1]
    exact mtab a1 (fun k _ b hb => by simp only [outF, if_pos hb, hsI, hs]) fun k _ b hb => by simp only [outF, if_pos hb]
  case rmns =>
    intro ha
    show MatNear _ _ _ _ _ (specTab d _ _).rmns_b (specTab d _ _).rmns_b
    rw [(spec2 ha _ _).2.1, (spec2 ha _ _).2.1]
    exact mtab a2 (fun k _ b hb => by simp only [outF, if_pos hb, hsI, hs]) fun k _ b hb => by simp only [outF, if_pos hb]
  case zmnc =>
    intro ha
    show MatNear _ _ _ _ _ (specTab d _ _).zmnc_b (specTab d _ _).zmnc_b
    rw [(spec2 ha _ _).2.2.1, (spec2 ha _ _).2.2.1]
    exact mtab a3 (fun k _ b hb => by simp only [outF, if_pos hb, hsI, hs]) fun k _ b hb => by simp only [outF, if_pos hb]
  case numnc =>
    intro ha
    show MatNear _ _ _ _ _ (specTab d _ _).numnc_b (specTab d _ _).numnc_b
    rw [(spec2 ha _ _).2.2.2.1, (spec2 ha _ _).2.2.2.1]
    exact mtab a4 (fun k _ b hb => by simp only [outF, if_pos hb, hsI, hs]) fun k _ b hb => by simp only [outF, if_pos hb]
  case gmns =>
    intro ha
    show MatNear _ _ _ _ _ (specTab d _ _).gmns_b (specTab d _ _).gmns_b
    rw [(spec2 ha _ _).2.2.2.2, (spec2 ha _ _).2.2.2.2]
    exact mtab a5 (fun k _ b hb => by simp only [outF, if_pos hb, hsI, hs]) fun k _ b hb => by simp only [outF, if_pos hb]

/-- **C69.**  Fix real data on whose selected surfaces G + ιI and |B| do not vanish.  There are a constant `C` and a
precision `u₀ > 0` such that every machine of precision `u ≤ u₀`, given these data rounded to within `K u`,
completes `run()` with finite outputs that are within `C u` of the outputs of the run in exact arithmetic:
every output harmonic, `s_b`, and the profiles `Boozer_I` and `Boozer_G`. -/
theorem C69_rounding {s₀ : St ℝ} {d : Dims} (h : RunReady s₀.inp d) (hp : FieldPeriodic s₀.inp d.nfp)
    (ho : OriginOnce s₀.inp) (hreg : ∀ b < d.nsb, (surface s₀.inp d.asym (selected s₀.inp b)).Regular)
    {K : ℝ} (hK : 0 ≤ K) :
    ∃ C u₀, 0 < u₀ ∧ ∀ (α : Type) [Arith α] (fin : α → Prop) (val : α → ℝ) (u : ℝ), Precision α fin val u → u ≤ u₀ →
      ∀ s : St α, RunReady s.inp d → InputsNear fin val d (K * u) s.inp s₀.inp →
        ∃ s' r s₀' r₀, run false s = .ok (s', r) ∧ run false s₀ = .ok (s₀', r₀) ∧
          OutputsNear fin val d (C * u) s'.out s₀'.out := by
  obtain ⟨C, u₀, -, p, H⟩ := outputs_near h hK
    (fun b hb => by rw [gi_real h ho]; exact (hreg b hb).1)
    (fun b hb j => by rw [bP_real h hp]; exact (hreg b hb).2 _ _)
  refine ⟨C, u₀, p, fun α _ fin val u hu hle s hs hn => ?_⟩
  refine ⟨_, _, _, _, run_ok hs (by simp) (by simp), run_ok h (by simp) (by simp), ?_⟩
  exact H ⟨⟨α, inferInstance, fin, val, u, hu⟩, s.inp, hs, hn⟩ hle s rfl

theorem precision_real {u : ℝ} (hu : 0 < u) : Precision ℝ (fun _ => True) id u where
  u_pos := hu
  ofInt n _ := ⟨trivial, by simp; positivity⟩
  half := ⟨trivial, by simp [hu.le]⟩
  threeHalves := ⟨trivial, by simp [hu.le]⟩
  pi := ⟨trivial, by simp [hu.le]⟩
  neg a _ := ⟨trivial, rfl⟩
  add a b _ _ _ := ⟨trivial, by simp; positivity⟩
  sub a b _ _ _ := ⟨trivial, by simp; positivity⟩
  mul a b _ _ _ := ⟨trivial, by simp; positivity⟩
  div a b _ _ _ _ := ⟨trivial, by simp; positivity⟩
  sqrt a _ _ _ := ⟨trivial, by simp; positivity⟩
  cos a _ := ⟨trivial, by simp [hu.le]⟩
  sin a _ := ⟨trivial, by simp [hu.le]⟩

/-- **C70.**  The transformation is well posed: in exact arithmetic, changing the profiles and Fourier
coefficients of the input by at most `e` changes no output by more than `C e`, for all `e` up to some `e₀ > 0`. -/
theorem C70_wellposed {s₀ : St ℝ} {d : Dims} (h : RunReady s₀.inp d) (hp : FieldPeriodic s₀.inp d.nfp)
    (ho : OriginOnce s₀.inp) (hreg : ∀ b < d.nsb, (surface s₀.inp d.asym (selected s₀.inp b)).Regular) :
    ∃ C e₀, 0 < e₀ ∧ ∀ e, 0 < e → e ≤ e₀ → ∀ (dbg : Bool) (s : St ℝ), RunReady s.inp d →
      InputsNear (fun _ => True) id d e s.inp s₀.inp →
        ∃ s' r s₀' r₀, run dbg s = .ok (s', r) ∧ run dbg s₀ = .ok (s₀', r₀) ∧
          OutputsNear (fun _ => True) id d (C * e) s'.out s₀'.out := by
  obtain ⟨C, u₀, p, H⟩ := C69_rounding h hp ho hreg (K := 1) zero_le_one
  refine ⟨C, u₀, p, fun e he hle dbg s hs hn => ?_⟩
  obtain ⟨s', r, s₀', r₀, h1, h2, h3⟩ := H ℝ (fun _ => True) id e (precision_real he) hle s hs (by rwa [one_mul])
  have first := originOnce_first h ho
  have first' : OriginFirst s.inp := by
    unfold OriginFirst at first ⊢
    rwa [hn.xm_nyq, hn.xn_nyq]
  refine ⟨s', r, s₀', r₀, ?_, ?_, h3⟩
  · rw [run_real hs fun _ => first', ← run_real (dbg := false) hs (by simp), h1]
  · rw [run_real h fun _ => first, ← run_real (dbg := false) h (by simp), h2]

/-! ### Concrete machines: binary floating point with `p + 1` significant bits -/

/-- A number of this arithmetic. -/
structure Ex.Flp (p : ℕ) where
  /-- its value -/
  val : ℝ

/-- Round to a nearest number with `p + 1` significant bits. -/
noncomputable def Ex.rnd (p : ℕ) (x : ℝ) : ℝ :=
  round (x / 2 ^ (Int.log 2 |x| - p)) * 2 ^ (Int.log 2 |x| - p)

theorem Ex.rnd_error (p : ℕ) (x : ℝ) : |Ex.rnd p x - x| ≤ 1 / 2 ^ p * |x| := by
  unfold Ex.rnd
  by_cases h0 : x = 0
  · subst h0
    simp
  have hx : 0 < |x| := abs_pos.2 h0
  have h1 : (2 : ℝ) ^ Int.log 2 |x| ≤ |x| := by
    have := Int.zpow_log_le_self (b := 2) (by norm_num) hx
    exact_mod_cast this
  set e := Int.log 2 |x| with he
  have hs : (0 : ℝ) < 2 ^ (e - p) := by positivity
  have h2 := abs_sub_round (x / 2 ^ (e - p))
  have h3 : (round (x / 2 ^ (e - p)) : ℝ) * 2 ^ (e - p) - x =
      -((x / 2 ^ (e - p) - round (x / 2 ^ (e - p))) * 2 ^ (e - p)) := by
    have hne := hs.ne'
    field_simp
    ring
  rw [h3, abs_neg, abs_mul, abs_of_pos hs]
  have h4 : (2 : ℝ) ^ (e - p) = 1 / 2 ^ p * 2 ^ e := by
    rw [zpow_sub₀ (by norm_num), zpow_natCast]
    ring
  calc _ ≤ 1 / 2 * (2 : ℝ) ^ (e - p) := by gcongr
    _ ≤ (2 : ℝ) ^ (e - p) := by linarith
    _ = 1 / 2 ^ p * (2 : ℝ) ^ e := h4
    _ ≤ 1 / 2 ^ p * |x| := by gcongr

noncomputable instance (p : ℕ) : Arith (Ex.Flp p) where
  add a b := ⟨Ex.rnd p (a.val + b.val)⟩
  sub a b := ⟨Ex.rnd p (a.val - b.val)⟩
  mul a b := ⟨Ex.rnd p (a.val * b.val)⟩
  div a b := ⟨Ex.rnd p (a.val / b.val)⟩
  neg a := ⟨-a.val⟩
  ofInt n := ⟨Ex.rnd p n⟩
  half := ⟨1 / 2⟩
  threeHalves := ⟨Ex.rnd p (3 / 2)⟩
  pi := ⟨Ex.rnd p Real.pi⟩
  sqrt a := ⟨Ex.rnd p (Real.sqrt a.val)⟩
  sin a := ⟨Ex.rnd p (Real.sin a.val)⟩
  cos a := ⟨Ex.rnd p (Real.cos a.val)⟩
  abs a := ⟨|a.val|⟩
  max a b := ⟨Max.max a.val b.val⟩
  absTiny a := decide (|a.val| < 1 / 10 ^ 13)
  toInt a := Arith.toInt a.val

theorem Ex.rnd_error' (p : ℕ) (x : ℝ) : |Ex.rnd p x - x| ≤ 4 / 2 ^ p * (1 + |x|) := by
  have h := Ex.rnd_error p x
  have h0 : (0 : ℝ) < 1 / 2 ^ p := by positivity
  have : (4 : ℝ) / 2 ^ p = 4 * (1 / 2 ^ p) := by ring
  rw [this]
  nlinarith [abs_nonneg x]

theorem Ex.flp_precision (p : ℕ) : Precision (Ex.Flp p) (fun _ => True) Ex.Flp.val (4 / 2 ^ p) where
  u_pos := by positivity
  ofInt n _ := ⟨trivial, Ex.rnd_error' p n⟩
  half := ⟨trivial, by
    show |(1 : ℝ) / 2 - 1 / 2| ≤ _
    rw [sub_self, abs_zero]
    positivity⟩
  threeHalves := ⟨trivial, by
    refine (Ex.rnd_error p (3 / 2)).trans ?_
    rw [abs_of_pos (by norm_num)]
    have h0 : (0 : ℝ) < 1 / 2 ^ p := by positivity
    have : (4 : ℝ) / 2 ^ p = 4 * (1 / 2 ^ p) := by ring
    nlinarith⟩
  pi := ⟨trivial, by
    refine (Ex.rnd_error p Real.pi).trans ?_
    rw [abs_of_pos Real.pi_pos]
    have := Real.pi_le_four
    have h0 : (0 : ℝ) < 1 / 2 ^ p := by positivity
    have : (4 : ℝ) / 2 ^ p = 4 * (1 / 2 ^ p) := by ring
    nlinarith⟩
  neg a _ := ⟨trivial, rfl⟩
  add a b _ _ _ := ⟨trivial, Ex.rnd_error' p _⟩
  sub a b _ _ _ := ⟨trivial, Ex.rnd_error' p _⟩
  mul a b _ _ _ := ⟨trivial, Ex.rnd_error' p _⟩
  div a b _ _ _ _ := ⟨trivial, Ex.rnd_error' p _⟩
  sqrt a _ _ _ := ⟨trivial, by
    have := Ex.rnd_error' p (√a.val)
    rwa [abs_of_nonneg (Real.sqrt_nonneg _)] at this⟩
  cos a _ := ⟨trivial, by
    refine (Ex.rnd_error p (Real.cos a.val)).trans ?_
    have := Real.abs_cos_le_one a.val
    have h0 : (0 : ℝ) < 1 / 2 ^ p := by positivity
    have : (4 : ℝ) / 2 ^ p = 4 * (1 / 2 ^ p) := by ring
    nlinarith⟩
  sin a _ := ⟨trivial, by
    refine (Ex.rnd_error p (Real.sin a.val)).trans ?_
    have := Real.abs_sin_le_one a.val
    have h0 : (0 : ℝ) < 1 / 2 ^ p := by positivity
    have : (4 : ℝ) / 2 ^ p = 4 * (1 / 2 ^ p) := by ring
    nlinarith⟩

/-- Apply `f` to every entry of a vector. -/
def Ex.mapV {α : Type} (f : ℝ → α) (v : Vec ℝ) : Vec α := Array.map (Option.map f) v

/-- Apply `f` to every entry of a matrix. -/
def Ex.mapM {α : Type} (f : ℝ → α) (a : Mat ℝ) : Mat α := ⟨a.rows, a.cols, Ex.mapV f a.data⟩

/-- Convert all the real data of the inputs. -/
def Ex.mapI {α : Type} (f : ℝ → α) (I : Inputs ℝ) : Inputs α :=
  { verbose := I.verbose, asym := I.asym, nfp := I.nfp, mpol := I.mpol, ntor := I.ntor, mnmax := I.mnmax,
    mpol_nyq := I.mpol_nyq, ntor_nyq := I.ntor_nyq, mnmax_nyq := I.mnmax_nyq, xm := I.xm, xn := I.xn,
    xm_nyq := I.xm_nyq, xn_nyq := I.xn_nyq, ns_in := I.ns_in, s_in := Ex.mapV f I.s_in, iota := Ex.mapV f I.iota,
    rmnc := Ex.mapM f I.rmnc, rmns := Ex.mapM f I.rmns, zmnc := Ex.mapM f I.zmnc, zmns := Ex.mapM f I.zmns,
    lmnc := Ex.mapM f I.lmnc, lmns := Ex.mapM f I.lmns, bmnc := Ex.mapM f I.bmnc, bmns := Ex.mapM f I.bmns,
    bsubumnc := Ex.mapM f I.bsubumnc, bsubumns := Ex.mapM f I.bsubumns, bsubvmnc := Ex.mapM f I.bsubvmnc,
    bsubvmns := Ex.mapM f I.bsubvmns, mboz := I.mboz, nboz := I.nboz, compute_surfs := I.compute_surfs,
    aspect := I.aspect.map f, toroidal_flux := I.toroidal_flux.map f }

section
variable {α : Type} (f : ℝ → α)

theorem Ex.mapV_get (v : Vec ℝ) {i : ℕ} {x : ℝ} (h : v[i]? = some (some x)) :
    (Ex.mapV f v)[i]? = some (some (f x)) := by
  unfold Ex.mapV
  rw [Array.getElem?_map, h]
  rfl

theorem Ex.mapV_full {v : Vec ℝ} {n : ℕ} (h : v.Full n) : (Ex.mapV f v).Full n := by
  refine ⟨by rw [← h.1]; exact Array.size_map, fun i hi => ?_⟩
  obtain ⟨x, hx⟩ := h.2 i hi
  exact ⟨_, Ex.mapV_get f v hx⟩

theorem Ex.mapM_full {a : Mat ℝ} {r c : ℕ} (h : a.Full r c) : (Ex.mapM f a).Full r c :=
  ⟨h.1, h.2.1, Ex.mapV_full f h.2.2⟩

theorem Ex.mapV_near {v : Vec ℝ} {n : ℕ} (h : v.Full n) {fin : α → Prop} {val : α → ℝ} {e : ℝ}
    (hf : ∀ i < n, ∀ x, v[i]? = some (some x) → fin (f x) ∧ |val (f x) - x| ≤ e) :
    VecNear fin val n e (Ex.mapV f v) v := by
  intro i hi
  obtain ⟨x, hx⟩ := h.2 i hi
  exact ⟨f x, x, by simp [Vec.rdN, Ex.mapV_get f v hx], by simp [Vec.rdN, hx], hf i hi x hx⟩

theorem Ex.mapM_near {a : Mat ℝ} {r c : ℕ} (h : a.Full r c) {fin : α → Prop} {val : α → ℝ} {e : ℝ}
    (hf : ∀ i < r * c, ∀ x, a.data[i]? = some (some x) → fin (f x) ∧ |val (f x) - x| ≤ e) :
    MatNear fin val r c e (Ex.mapM f a) a := by
  intro i hi j hj
  have hlt := Mat.idx_lt hi hj
  obtain ⟨x, hx⟩ := h.2.2.2 _ hlt
  refine ⟨f x, x, ?_, ?_, hf _ hlt x hx⟩
  · have : (Ex.mapM f a).rows = r ∧ (Ex.mapM f a).cols = c := ⟨h.1, h.2.1⟩
    simp only [Mat.rdN, this.1, this.2, hi, hj, and_self, if_true]
    simp [Vec.rdN, Ex.mapM, Ex.mapV_get f a.data hx]
  · simp only [Mat.rdN, h.1, h.2.1, hi, hj, and_self, if_true]
    simp [Vec.rdN, hx]

theorem Ex.mapI_ready {I : Inputs ℝ} {d : Dims} (h : RunReady I d) : RunReady (Ex.mapI f I) d :=
  { h with
    s_in := Ex.mapV_full f h.s_in
    iota := Ex.mapV_full f h.iota
    rmnc := Ex.mapM_full f h.rmnc
    zmns := Ex.mapM_full f h.zmns
    lmns := Ex.mapM_full f h.lmns
    bmnc := Ex.mapM_full f h.bmnc
    bsubumnc := Ex.mapM_full f h.bsubumnc
    bsubvmnc := Ex.mapM_full f h.bsubvmnc
    rmns := fun ha => Ex.mapM_full f (h.rmns ha)
    zmnc := fun ha => Ex.mapM_full f (h.zmnc ha)
    lmnc := fun ha => Ex.mapM_full f (h.lmnc ha)
    bmns := fun ha => Ex.mapM_full f (h.bmns ha)
    bsubumns := fun ha => Ex.mapM_full f (h.bsubumns ha)
    bsubvmns := fun ha => Ex.mapM_full f (h.bsubvmns ha) }

/-- Rounding any inputs gives inputs that are near them. -/
theorem Ex.mapI_near {I : Inputs ℝ} {d : Dims} (h : RunReady I d) :
    ∃ K, 0 ≤ K ∧ ∀ p, InputsNear (fun _ => True) Ex.Flp.val d (K * (4 / 2 ^ p))
      (Ex.mapI (fun x => (⟨Ex.rnd p x⟩ : Ex.Flp p)) I) I := by
  have bv : ∀ (v : Vec ℝ) (n : ℕ), ∃ B, 0 ≤ B ∧ ∀ i < n, ∀ x, v[i]? = some (some x) → |x| ≤ B := by
    intro v n
    induction n with
    | zero => exact ⟨0, le_rfl, fun i hi => absurd hi (Nat.not_lt_zero i)⟩
    | succ n ih =>
      obtain ⟨B, hB, hb⟩ := ih
      refine ⟨max B |v.val 0 n|, le_max_of_le_left hB, fun i hi x hx => ?_⟩
      rcases Nat.lt_succ_iff_lt_or_eq.1 hi with hi | rfl
      · exact (hb i hi x hx).trans (le_max_left _ _)
      · refine le_trans ?_ (le_max_right _ _)
        simp [Vec.val, hx]
  let A := max (d.mnmax * d.ns) (max (d.mnq * d.ns) d.ns)
  have a1 : d.mnmax * d.ns ≤ A := le_max_left _ _
  have a2 : d.mnq * d.ns ≤ A := (le_max_left _ _).trans (le_max_right _ _)
  have a3 : d.ns ≤ A := (le_max_right _ _).trans (le_max_right _ _)
  have bl : ∀ l : List (Vec ℝ), ∃ B, 0 ≤ B ∧ ∀ v ∈ l, ∀ i < A, ∀ x, v[i]? = some (some x) → |x| ≤ B := by
    intro l
    induction l with
    | nil => exact ⟨0, le_rfl, fun v hv => absurd hv (List.not_mem_nil)⟩
    | cons v l ih =>
      obtain ⟨B, hB, hb⟩ := ih
      obtain ⟨D, hD, hd⟩ := bv v A
      refine ⟨max B D, le_max_of_le_left hB, fun w hw i hi x hx => ?_⟩
      rcases List.mem_cons.1 hw with rfl | hw
      · exact (hd i hi x hx).trans (le_max_right _ _)
      · exact (hb w hw i hi x hx).trans (le_max_left _ _)
  obtain ⟨B, hB, hb⟩ := bl [I.s_in, I.iota, I.rmnc.data, I.rmns.data, I.zmnc.data, I.zmns.data, I.lmnc.data,
    I.lmns.data, I.bmnc.data, I.bmns.data, I.bsubumnc.data, I.bsubumns.data, I.bsubvmnc.data, I.bsubvmns.data]
  refine ⟨1 + B, by linarith, fun p => ?_⟩
  have key : ∀ v ∈ [I.s_in, I.iota, I.rmnc.data, I.rmns.data, I.zmnc.data, I.zmns.data, I.lmnc.data,
      I.lmns.data, I.bmnc.data, I.bmns.data, I.bsubumnc.data, I.bsubumns.data, I.bsubvmnc.data, I.bsubvmns.data],
      ∀ i < A, ∀ x, v[i]? = some (some x) → True ∧
        |Ex.Flp.val (⟨Ex.rnd p x⟩ : Ex.Flp p) - x| ≤ (1 + B) * (4 / 2 ^ p) := by
    intro v hv i hi x hx
    refine ⟨trivial, (Ex.rnd_error' p x).trans ?_⟩
    have := hb v hv i hi x hx
    have h0 : (0 : ℝ) < 4 / 2 ^ p := by positivity
    nlinarith
  exact
    { xm := rfl
      xn := rfl
      xm_nyq := rfl
      xn_nyq := rfl
      surfs := rfl
      s_in := Ex.mapV_near _ h.s_in fun i hi => key _ (by simp) i (hi.trans_le a3)
      iota := Ex.mapV_near _ h.iota fun i hi => key _ (by simp) i (hi.trans_le a3)
      rmnc := Ex.mapM_near _ h.rmnc fun i hi => key _ (by simp) i (hi.trans_le a1)
      zmns := Ex.mapM_near _ h.zmns fun i hi => key _ (by simp) i (hi.trans_le a1)
      lmns := Ex.mapM_near _ h.lmns fun i hi => key _ (by simp) i (hi.trans_le a1)
      bmnc := Ex.mapM_near _ h.bmnc fun i hi => key _ (by simp) i (hi.trans_le a2)
      bsubumnc := Ex.mapM_near _ h.bsubumnc fun i hi => key _ (by simp) i (hi.trans_le a2)
      bsubvmnc := Ex.mapM_near _ h.bsubvmnc fun i hi => key _ (by simp) i (hi.trans_le a2)
      rmns := fun ha => Ex.mapM_near _ (h.rmns ha) fun i hi => key _ (by simp) i (hi.trans_le a1)
      zmnc := fun ha => Ex.mapM_near _ (h.zmnc ha) fun i hi => key _ (by simp) i (hi.trans_le a1)
      lmnc := fun ha => Ex.mapM_near _ (h.lmnc ha) fun i hi => key _ (by simp) i (hi.trans_le a1)
      bmns := fun ha => Ex.mapM_near _ (h.bmns ha) fun i hi => key _ (by simp) i (hi.trans_le a2)
      bsubumns := fun ha => Ex.mapM_near _ (h.bsubumns ha) fun i hi => key _ (by simp) i (hi.trans_le a2)
      bsubvmns := fun ha => Ex.mapM_near _ (h.bsubvmns ha) fun i hi => key _ (by simp) i (hi.trans_le a2) }

end

/-- As the number of bits grows, the outputs of a floating-point run of the example tend to the exact ones. -/
example (asym : Bool) (flux : Flux ℝ) (grid : Grid ℝ) (out : Outputs ℝ) :
    ∃ C p₀, ∀ p ≥ p₀, ∀ (fl : Flux (Ex.Flp p)) (g : Grid (Ex.Flp p)) (o : Outputs (Ex.Flp p)),
      ∃ s' r s₀' r₀,
        run false (⟨Ex.mapI (fun x => (⟨Ex.rnd p x⟩ : Ex.Flp p)) (Ex.inputs asym), fl, g, o⟩ : St (Ex.Flp p)) =
          .ok (s', r) ∧
        run false (⟨Ex.inputs asym, flux, grid, out⟩ : St ℝ) = .ok (s₀', r₀) ∧
        OutputsNear (fun _ => True) Ex.Flp.val (Ex.dims asym) (C * (4 / 2 ^ p)) s'.out s₀'.out := by
  obtain ⟨K, hK, near⟩ := Ex.mapI_near (Ex.ready (α := ℝ) asym)
  obtain ⟨C, u₀, h0, H⟩ := C69_rounding (s₀ := ⟨Ex.inputs asym, flux, grid, out⟩) (d := Ex.dims asym)
    (Ex.ready (α := ℝ) asym) (Ex.fieldPeriodic (α := ℝ) asym) (Ex.originOnce (α := ℝ) asym)
    (fun b hb => Ex.regular asym (Ex.selected_lt asym b hb)) hK
  obtain ⟨p₀, hp₀⟩ := exists_pow_lt_of_lt_one (show 0 < u₀ / 4 by linarith) (show (1 : ℝ) / 2 < 1 by norm_num)
  refine ⟨C, p₀, fun p hp fl g o => ?_⟩
  refine H (Ex.Flp p) (fun _ => True) Ex.Flp.val (4 / 2 ^ p) (Ex.flp_precision p) ?_ _
    (Ex.mapI_ready _ (Ex.ready (α := ℝ) asym)) (near p)
  have h1 : ((1 : ℝ) / 2) ^ p ≤ (1 / 2) ^ p₀ := pow_le_pow_of_le_one (by norm_num) (by norm_num) hp
  have h2 : (4 : ℝ) / 2 ^ p = 4 * (1 / 2) ^ p := by rw [div_pow, one_pow]; ring
  rw [h2]
  linarith

/-- Perturbed data of the example: `t` is added to every real entry. -/
example (asym : Bool) (fl : Flux ℝ) (g : Grid ℝ) (o : Outputs ℝ) :
    ∃ C t₀, 0 < t₀ ∧ ∀ t, 0 < t → t ≤ t₀ → ∃ s' r s₀' r₀,
        run true (⟨Ex.mapI (fun x => x + t) (Ex.inputs asym), fl, g, o⟩ : St ℝ) = .ok (s', r) ∧
        run true (⟨Ex.inputs asym, fl, g, o⟩ : St ℝ) = .ok (s₀', r₀) ∧
        OutputsNear (fun _ => True) id (Ex.dims asym) (C * t) s'.out s₀'.out := by
  obtain ⟨C, e₀, h0, H⟩ := C70_wellposed (s₀ := ⟨Ex.inputs asym, fl, g, o⟩) (d := Ex.dims asym)
    (Ex.ready (α := ℝ) asym) (Ex.fieldPeriodic (α := ℝ) asym) (Ex.originOnce (α := ℝ) asym)
    (fun b hb => Ex.regular asym (Ex.selected_lt asym b hb))
  refine ⟨C, e₀, h0, fun t ht hle => H t ht hle true _ (Ex.mapI_ready _ (Ex.ready (α := ℝ) asym)) ?_⟩
  have h := Ex.ready (α := ℝ) asym
  have key : ∀ x : ℝ, True ∧ |id (x + t) - x| ≤ t := fun x => ⟨trivial, by simp [abs_of_pos ht]⟩
  exact
    { xm := rfl
      xn := rfl
      xm_nyq := rfl
      xn_nyq := rfl
      surfs := rfl
      s_in := Ex.mapV_near _ h.s_in fun _ _ x _ => key x
      iota := Ex.mapV_near _ h.iota fun _ _ x _ => key x
      rmnc := Ex.mapM_near _ h.rmnc fun _ _ x _ => key x
      zmns := Ex.mapM_near _ h.zmns fun _ _ x _ => key x
      lmns := Ex.mapM_near _ h.lmns fun _ _ x _ => key x
      bmnc := Ex.mapM_near _ h.bmnc fun _ _ x _ => key x
      bsubumnc := Ex.mapM_near _ h.bsubumnc fun _ _ x _ => key x
      bsubvmnc := Ex.mapM_near _ h.bsubvmnc fun _ _ x _ => key x
      rmns := fun ha => Ex.mapM_near _ (h.rmns ha) fun _ _ x _ => key x
      zmnc := fun ha => Ex.mapM_near _ (h.zmnc ha) fun _ _ x _ => key x
      lmnc := fun ha => Ex.mapM_near _ (h.lmnc ha) fun _ _ x _ => key x
      bmns := fun ha => Ex.mapM_near _ (h.bmns ha) fun _ _ x _ => key x
      bsubumns := fun ha => Ex.mapM_near _ (h.bsubumns ha) fun _ _ x _ => key x
      bsubvmns := fun ha => Ex.mapM_near _ (h.bsubvmns ha) fun _ _ x _ => key x }

end Booz
