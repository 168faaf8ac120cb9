import Verif.Spec.InterpFile
import Verif.Props.Interp
import Verif.Props.FileSeries

/-!
# C112, with files: from the equilibrium which a `wout` file samples to the `boozmn` file
-/

namespace Booz
open Spec Finset

/-- What the file holds is what is handed to `init_from_vmec`. -/
theorem file_on_grid {f : NcFile ℝ} {name : String} {z : WoutSizes} {x : ℕ → ℝ → ℝ}
    (h : FileProfiles f name z.ns z.mnmax.toNat x) : OnFullGrid z.ns z.mnmax.toNat x (woutMat f z.mnmax z.ns name) := by
  obtain ⟨v, d, h1, h2, h3⟩ := h
  intro j hj i hi
  have e : dblsOf f name = d := dblsOf_eq h1 (by unfold ncDbls; rw [h2])
  unfold woutMat Mat.rdN
  rw [if_pos ⟨hj, by show i < z.ns.toNat; omega⟩, e]
  show Vec.rdN d (i * z.mnmax.toNat + j) = _
  unfold Vec.rdN
  rw [h3 j hj i hi]

/-- The distance of points with the same toroidal angle. -/
theorem cartesian_near {R R' φ Z Z' e : ℝ} (h1 : |R' - R| ≤ e) (h2 : |Z' - Z| ≤ e) :
    dist (cartesian R' φ Z') (cartesian R φ Z) ≤ e := by
  have one : ∀ c : ℝ, |c| ≤ 1 → |R' * c - R * c| ≤ e := fun c hc => by
    rw [← sub_mul, abs_mul]
    exact (mul_le_of_le_one_right (abs_nonneg _) hc).trans h1
  unfold cartesian
  rw [Prod.dist_eq, Prod.dist_eq, Real.dist_eq, Real.dist_eq, Real.dist_eq]
  exact max_le (one _ (Real.abs_cos_le_one _)) (max_le (one _ (Real.abs_sin_le_one _)) h2)

/-- C112 for read_wout: the points of the surfaces which are loaded from a file are within `3/4 K mnmax / (ns - 1)²` of
the points of the equilibrium which the file samples. -/
theorem C112_wout {disk : Disk ℝ} {path : String} {f : NcFile ℝ} {z : WoutSizes} {b : St ℝ}
    (hd : disk path = .nc f) (hz : WoutShapes f z) (hl : readWout disk path false construct = .ok () b)
    {P : FluxShape} {K : ℝ} (hP : P.Regular b.inp.xm (decide (z.lasym ≠ 0)) K)
    (hf : P.InFile f z.ns z.mnmax.toNat (decide (z.lasym ≠ 0))) {k : ℕ} (hk : (k : ℤ) < z.ns - 1) (θ ζ : ℝ) :
    dist (inputPoint b.inp (decide (z.lasym ≠ 0)) k θ ζ)
      (P.point b.inp (decide (z.lasym ≠ 0)) (((k : ℝ) + 1 / 2) / ((z.ns : ℝ) - 1)) θ ζ) ≤
      3 / 4 * K * z.mnmax / ((z.ns : ℝ) - 1) ^ 2 := by
  obtain ⟨hg, h⟩ := wout_loaded hd hz hl
  obtain ⟨em, en⟩ := loaded_modes (s := { (construct : St ℝ) with inp := woutInp f z (construct : St ℝ).inp }) hg h
  obtain ⟨-, -, C, -⟩ := vmec_inv (s := { (construct : St ℝ) with inp := woutInp f z (construct : St ℝ).inp }) hg h
  have hlen : (woutInp f z (construct : St ℝ).inp).xm.size = z.mnmax.toNat := by
    have h1 := C.modes.xm_len
    have h2 : (woutSizesOf f z).mnmax = z.mnmax := rfl
    dsimp only at h1
    omega
  have hA : P.Stored z.ns (woutInp f z (construct : St ℝ).inp).xm.size (decide (z.lasym ≠ 0)) (woutArgs f z false) := by
    rw [hlen]
    refine ⟨file_on_grid hf.rc, file_on_grid hf.zs, fun ha => ?_, fun ha => ?_⟩
    · have := file_on_grid (hf.rs ha)
      unfold woutArgs
      dsimp only
      rwa [if_pos (of_decide_eq_true ha)]
    · have := file_on_grid (hf.zc ha)
      unfold woutArgs
      dsimp only
      rwa [if_pos (of_decide_eq_true ha)]
  rw [em] at hP
  have H := C112_surfaces (s := { (construct : St ℝ) with inp := woutInp f z (construct : St ℝ).inp }) hg h hP hA hk θ ζ
  have eR : ∀ s, P.R b.inp (decide (z.lasym ≠ 0)) s = P.R (woutInp f z (construct : St ℝ).inp) (decide (z.lasym ≠ 0)) s :=
    fun s => by unfold FluxShape.R; rw [em, en]
  have eZ : ∀ s, P.Z b.inp (decide (z.lasym ≠ 0)) s = P.Z (woutInp f z (construct : St ℝ).inp) (decide (z.lasym ≠ 0)) s :=
    fun s => by unfold FluxShape.Z; rw [em, en]
  unfold inputPoint FluxShape.point
  rw [eR, eZ]
  exact cartesian_near H.1 H.2

/-- The points which are rebuilt may be exchanged for near points. -/
theorem rebuilds_near {α : Type} {fin : α → Prop} {val : α → ℝ} {f : NcFile α} {S : Surface} {x x' : ℝ → ℝ → ℝ × ℝ × ℝ}
    {asym : Bool} {K b j : ℕ} {e e' : ℝ} (h : FileRebuilds fin val f S x asym K b j e)
    (hx : ∀ θ ζ, dist (x θ ζ) (x' θ ζ) ≤ e') : FileRebuilds fin val f S x' asym K b j (e + e') := by
  have he : 0 ≤ e' := dist_nonneg.trans (hx 0 0)
  have le : e ≤ e + e' := le_add_of_nonneg_right he
  obtain ⟨m, n, h1, ⟨c, s, h2, h3⟩, ⟨c', s', h4, h5⟩, ⟨rc, rs, zc, zs, pc, ps, h6, h7⟩, i, I, G, h8, h9, h10, h11, h12, h13⟩ := h
  exact ⟨m, n, h1, ⟨c, s, h2, fun θ ζ => (h3 θ ζ).trans le⟩, ⟨c', s', h4, fun θ ζ => (h5 θ ζ).trans le⟩,
    ⟨rc, rs, zc, zs, pc, ps, h6, fun θ ζ => (dist_triangle _ _ _).trans (add_le_add (h7 θ ζ) (hx θ ζ))⟩,
    i, I, G, h8, h9, h10, h11.trans le, h12.trans le, h13.trans le⟩

/-- C112 for the program: a `wout` file samples an equilibrium; whoever sums the series in the `boozmn` file finds the
points of the surface halfway between two surfaces of the full grid up to a power of 1/mboz, the rounding error, and
`3/4 K mnmax / (ns - 1)²`. -/
theorem C112_file {disk₀ : Disk ℝ} {path₀ : String} {f₀ : NcFile ℝ} {z : WoutSizes} {b₀ : St ℝ}
    (hd₀ : disk₀ path₀ = .nc f₀) (hz₀ : WoutShapes f₀ z) (hl₀ : readWout disk₀ path₀ false construct = .ok () b₀)
    (hi : ∀ k, k < (intsOf f₀ "xn_nyq").size → ((intsOf f₀ "xn_nyq").val 0 k).natAbs < 2147483648)
    (hns : z.ns ≤ 2147483644)
    (hfp : FieldPeriodic b₀.inp z.nfp.toNat) (ho : OriginOnce b₀.inp)
    (hreg : ∀ js : ℕ, (js : ℤ) < z.ns - 1 → (surface b₀.inp (decide (z.lasym ≠ 0)) js).Regular)
    (hdet : ∀ js : ℕ, (js : ℤ) < z.ns - 1 → ∀ θ ζ, (surface b₀.inp (decide (z.lasym ≠ 0)) js).det θ ζ ≠ 0)
    {P : FluxShape} {B : ℝ} (hP : P.Regular b₀.inp.xm (decide (z.lasym ≠ 0)) B)
    (hf : P.InFile f₀ z.ns z.mnmax.toNat (decide (z.lasym ≠ 0)))
    (surfs : List ℤ) (hlen : surfs.length ≤ 2147483644) {c : ℝ} (hc0 : 0 ≤ c) {ρ : ℝ} (hρ : ρ < 1) (p : ℕ) :
    ∃ C, ∀ r : Request, r.surfs = surfs → CanRun f₀ z r → 1 ≤ torRes z r →
      (polRes z r : ℝ) ≤ c * torRes z r → (torRes z r : ℝ) ≤ c * polRes z r → ∀ K : ℝ, 0 ≤ K → ∃ D u₀, 0 < u₀ ∧
      ∀ (α : Type) [Arith α] (fin : α → Prop) (val : α → ℝ) (u : ℝ), Precision α fin val u → u ≤ u₀ →
      ∀ (w : World α) (content : List Char) (path prog : String) (env : Env) (version : String) (f : NcFile α),
        w.disk path = .other content → Asks content r →
        w.disk ("wout_" ++ String.ofList r.ext ++ ".nc") = .nc f → WoutShapes f z → WoutNear fin val z (K * u) f f₀ →
        VersionOk version → NoFailure env →
        ∃ w' out, driver env version [prog, path] w = .ok 0 w' ∧
          w'.disk ("boozmn_" ++ String.ofList r.ext ++ ".nc") = .nc out ∧
          (∀ j, Wanted z r j ↔ ∃ b, FileInt out "jlist" b (j + 2)) ∧
          ∀ b j, FileInt out "jlist" b (j + 2) → let S := surface b₀.inp (decide (z.lasym ≠ 0)) j.toNat
            S.ResolvedBy z.nfp.toNat (polRes z r) (torRes z r) ρ →
            FileRebuilds fin val out S
              (P.point b₀.inp (decide (z.lasym ≠ 0)) (((j : ℝ) + 1 / 2) / ((z.ns : ℝ) - 1))) (decide (z.lasym ≠ 0))
              (numModes (polRes z r) (torRes z r)) b j.toNat
              (C * (1 / (polRes z r : ℝ)) ^ p + D * u + 3 / 4 * B * z.mnmax / ((z.ns : ℝ) - 1) ^ 2) := by
  obtain ⟨C, H⟩ := C110_file hd₀ hz₀ hl₀ hi hns hfp ho hreg hdet surfs hlen hc0 hρ p
  refine ⟨C, fun r hr hrun hN hc1 hc2 K hK => ?_⟩
  obtain ⟨D, u₀, h0, G⟩ := H r hr hrun hN hc1 hc2 K hK
  refine ⟨D, u₀, h0, ?_⟩
  intro α _ fin val u hu hle w content path prog env version f a1 a2 a3 a4 a5 a6 a7
  obtain ⟨w', out, g1, g2, g3, g4⟩ := G α fin val u hu hle w content path prog env version f a1 a2 a3 a4 a5 a6 a7
  refine ⟨w', out, g1, g2, g3, fun b j hb => ?_⟩
  intro S hS
  have hj : 0 ≤ j ∧ j < z.ns - 1 := by
    rcases (g3 j).2 ⟨b, hb⟩ with h | ⟨-, h⟩
    · exact hrun.2.1 j h
    · exact h
  have e : ((j.toNat : ℕ) : ℝ) = (j : ℝ) := by exact_mod_cast Int.toNat_of_nonneg hj.1
  refine rebuilds_near (g4 b j hb hS) fun θ ζ => ?_
  have := C112_wout hd₀ hz₀ hl₀ hP hf (k := j.toNat) (by omega) θ ζ
  rwa [e] at this

/-! ### Non-vacuity -/

theorem Ex.bends_quad (a b c : ℝ) : Bends (fun s => a + b * s + c * s ^ 2) |2 * c| := by
  refine ⟨fun s => b + 2 * c * s, fun s _ => ?_, fun s _ t _ => ?_⟩
  · have h1 := (hasDerivWithinAt_id s (Set.Icc (0 : ℝ) 1)).const_mul b
    have h2 := ((hasDerivWithinAt_id s (Set.Icc (0 : ℝ) 1)).pow 2).const_mul c
    refine ((h1.const_add a).add h2).congr_deriv ?_
    push_cast
    simp
    ring
  · rw [show b + 2 * c * s - (b + 2 * c * t) = 2 * c * (s - t) by ring, abs_mul]

/-- The quadratic function with the values `√3 q`, `√6 q`, `3 q` at 1/3, 2/3 and 1. -/
noncomputable def Ex.through (q s : ℝ) : ℝ :=
  q * (3 * √3 - 3 * √6 + 3) + q * (9 * √6 * (4 / 3) - 9 / 2 * √3 * (5 / 3) - 27 / 2) * s +
    q * (9 / 2 * √3 - 9 * √6 + 27 / 2) * s ^ 2

/-- The shape which the example file samples. -/
noncomputable def Ex.sampled : FluxShape where
  rc j s := if j = 2 then √s * Ex.through 1 s else 10 - 4 * (j : ℝ) + 3 * s
  rs _ _ := 0
  zc _ _ := 0
  zs j s := if j = 2 then √s * Ex.through 2 s else (j : ℝ) + 6 * s

theorem Ex.sampled_grid (q : ℤ) {i : ℕ} (hi : i < 4) : √((i : ℝ) / 3) * Ex.through q ((i : ℝ) / 3) = q * i := by
  have s3 : √(3 : ℝ) ^ 2 = 3 := Real.sq_sqrt (by norm_num)
  have s6 : √(6 : ℝ) ^ 2 = 6 := Real.sq_sqrt (by norm_num)
  match i, hi with
  | 0, _ => simp
  | 1, _ =>
    have e : √(((1 : ℕ) : ℝ) / 3) * √3 = 1 := by
      rw [← Real.sqrt_mul (by norm_num)]
      norm_num
    have : Ex.through q (((1 : ℕ) : ℝ) / 3) = q * √3 := by unfold Ex.through; push_cast; ring
    rw [this]
    linear_combination (q : ℝ) * e
  | 2, _ =>
    have e : √(((2 : ℕ) : ℝ) / 3) * √6 = 2 := by
      rw [← Real.sqrt_mul (by norm_num), show ((2 : ℕ) : ℝ) / 3 * 6 = 2 ^ 2 by norm_num]
      exact Real.sqrt_sq (by norm_num)
    have : Ex.through q (((2 : ℕ) : ℝ) / 3) = q * √6 := by unfold Ex.through; push_cast; ring
    rw [this]
    push_cast at e ⊢
    linear_combination (q : ℝ) * e
  | 3, _ =>
    have : Ex.through q (((3 : ℕ) : ℝ) / 3) = q * 3 := by unfold Ex.through; push_cast; ring
    rw [this]
    push_cast
    norm_num

theorem Ex.sampled_regular : Ex.sampled.Regular (Ex.vec [0, 0, 1]) false
    |2 * (2 * (9 / 2 * √3 - 9 * √6 + 27 / 2))| := by
  have mono : ∀ {f : ℝ → ℝ} {K K' : ℝ}, Bends f K → K ≤ K' → Bends f K' := fun ⟨f', h1, h2⟩ h =>
    ⟨f', h1, fun s hs t ht => (h2 s hs t ht).trans (mul_le_mul_of_nonneg_right h (abs_nonneg _))⟩
  have lin : ∀ a b K : ℝ, 0 ≤ K → Bends (fun s => a + b * s) K := fun a b K hK => by
    have := Ex.bends_quad a b 0
    simp only [zero_mul, add_zero, mul_zero, abs_zero] at this
    exact mono this hK
  have val : ∀ j < 3, (Ex.vec (β := ℤ) [0, 0, 1]).val 0 j = if j = 2 then 1 else 0 := by decide
  have quad : ∀ q : ℝ, |q| ≤ 2 → Bends (Ex.through q) |2 * (2 * (9 / 2 * √3 - 9 * √6 + 27 / 2))| := fun q hq => by
    refine mono (Ex.bends_quad _ _ _) ?_
    rw [abs_mul, abs_mul 2 (2 * _), abs_mul q, abs_mul 2 (_ + _), abs_of_pos (by norm_num : (0 : ℝ) < 2)]
    exact mul_le_mul_of_nonneg_left (mul_le_mul_of_nonneg_right hq (abs_nonneg _)) (by norm_num)
  refine ⟨fun j hj => ?_, fun j hj => ?_, fun h => absurd h (by decide), fun h => absurd h (by decide)⟩
  · have hj : j < 3 := hj
    rw [val j hj]
    match j, hj with
    | 0, _ => exact Or.inl ⟨by decide, lin _ _ _ (abs_nonneg _)⟩
    | 1, _ => exact Or.inl ⟨by decide, lin _ _ _ (abs_nonneg _)⟩
    | 2, _ => exact Or.inr ⟨by decide, _, quad 1 (by norm_num), by decide, fun s _ => rfl⟩
  · have hj : j < 3 := hj
    rw [val j hj]
    match j, hj with
    | 0, _ => exact Or.inl ⟨by decide, lin _ _ _ (abs_nonneg _)⟩
    | 1, _ => exact Or.inl ⟨by decide, lin _ _ _ (abs_nonneg _)⟩
    | 2, _ => exact Or.inr ⟨by decide, _, quad 2 (by norm_num), by decide, fun s _ => rfl⟩

theorem Ex.sampled_file : Ex.sampled.InFile (Ex.soft (α := ℝ)) 4 3 false := by
  have get : ∀ (g : ℕ → ℕ → ℝ) (j i : ℕ), j < 3 → i < 4 → (Mat.tab 3 4 g).data[i * 3 + j]? = some (some (g j i)) := by
    intro g j i hj hi
    have h : (Mat.tab 3 4 g).rdN j i = .ok (g j i) := Mat.rdN_tab hj hi
    unfold Mat.rdN Vec.rdN at h
    rw [if_pos ⟨hj, hi⟩] at h
    have er : (Mat.tab 3 4 g).rows = 3 := rfl
    rw [er] at h
    split at h
    · next x hx => rw [hx]; injection h with h; rw [h]
    · cases h
    · cases h
  refine ⟨⟨_, _, Ex.soft_rmnc, rfl, fun j hj i hi => ?_⟩, ⟨_, _, Ex.soft_zmns, rfl, fun j hj i hi => ?_⟩,
    fun h => absurd h (by decide), fun h => absurd h (by decide)⟩
  · rw [show Ex.softR (α := ℝ) = Mat.tab 3 4 fun k j => ofInt (if k = 2 then (j : ℤ) else 10 - 4 * k + j) from rfl,
      get _ j i hj (by omega), real_ofInt]
    refine congrArg some (congrArg some ?_)
    have e : ((4 : ℤ) : ℝ) - 1 = 3 := by norm_num
    unfold Ex.sampled
    dsimp only
    rw [e]
    split_ifs with h
    · have := Ex.sampled_grid 1 (show i < 4 by omega)
      push_cast at this ⊢
      rw [this]; ring
    · push_cast; ring
  · rw [show Ex.softZ (α := ℝ) = Mat.tab 3 4 fun k j => ofInt (if k = 2 then 2 * (j : ℤ) else k + 2 * j) from rfl,
      get _ j i hj (by omega), real_ofInt]
    refine congrArg some (congrArg some ?_)
    have e : ((4 : ℤ) : ℝ) - 1 = 3 := by norm_num
    unfold Ex.sampled
    dsimp only
    rw [e]
    split_ifs with h
    · have := Ex.sampled_grid 2 (show i < 4 by omega)
      push_cast at this ⊢
      rw [this]
    · push_cast; ring

/-- C112 for the file: the points of the surfaces at s = (j + 1/2)/3, on machines with more and more bits. -/
example : ∃ b₀ : St ℝ, readWout (Ex.softWorld Ex.input).disk ("wout_" ++ String.ofList ['x'] ++ ".nc") false construct =
      .ok () b₀ ∧ ∃ C D : ℝ, ∃ p₀, ∀ p ≥ p₀, ∃ w' out,
    driver Ex.calm "0.0.1" ["xbooz_xform", "in"] (Ex.softWorld (α := Ex.Flp p) Ex.input) = .ok 0 w' ∧
    w'.disk ("boozmn_" ++ String.ofList ['x'] ++ ".nc") = .nc out ∧
    ∀ b j, FileInt out "jlist" b (j + 2) → j.toNat < 3 →
      FileRebuilds (fun _ => True) Ex.Flp.val out (surface b₀.inp false j.toNat)
        (Ex.sampled.point b₀.inp false (((j : ℝ) + 1 / 2) / 3)) false
        (numModes 16 8) b j.toNat (C * (1 / 16) ^ 9 + D * (4 / 2 ^ p) + |9 / 2 * √3 - 9 * √6 + 27 / 2|) := by
  obtain ⟨b₀, h₀⟩ := Ex.soft_loads (α := ℝ) Ex.input
  have s := Ex.softened h₀
  obtain ⟨hp, ho, hreg, hdet⟩ := Ex.softened_ok s
  refine ⟨b₀, h₀, ?_⟩
  have hi : ∀ k, k < (intsOf (Ex.soft (α := ℝ)) "xn_nyq").size →
      ((intsOf (Ex.soft (α := ℝ)) "xn_nyq").val 0 k).natAbs < 2147483648 := by
    rw [Ex.soft_ints (by decide)]
    exact Ex.wout_nyq
  obtain ⟨C, H⟩ := C112_file (P := Ex.sampled) (Ex.softWorld_wout _) Ex.soft_shapes h₀ hi (by decide) hp ho hreg hdet
    (by rw [s.xm]; exact Ex.sampled_regular) Ex.sampled_file [1, 0] (by decide)
    (c := 2) (by norm_num) (ρ := 1 / 2) (by norm_num) 9
  have eM : polRes (Ex.woutZ 0) Ex.request = 16 := rfl
  have eN : torRes (Ex.woutZ 0) Ex.request = 8 := rfl
  obtain ⟨D, u₀, h0, G⟩ := H Ex.request rfl Ex.soft_can_run (by decide) (by rw [eM, eN]; norm_num)
    (by rw [eM, eN]; norm_num) 100 (by norm_num)
  obtain ⟨p₀, hp₀⟩ := Ex.bits h0
  refine ⟨C, D, p₀, fun p hp => ?_⟩
  obtain ⟨w', out, g1, g2, -, g3⟩ := G (Ex.Flp p) _ Ex.Flp.val (4 / 2 ^ p) (Ex.flp_precision p) (hp₀ p hp)
    (Ex.softWorld Ex.input) Ex.input "in" "xbooz_xform" Ex.calm "0.0.1" Ex.soft (Ex.softWorld_in _) Ex.input_asks
    (Ex.softWorld_wout _) Ex.soft_shapes (Ex.soft_near p) Ex.version Ex.noFailure
  refine ⟨w', out, g1, g2, fun b j hb hj => ?_⟩
  have := g3 b j hb (Ex.soft_resolved s hj)
  have e3 : ((Ex.woutZ 0).ns : ℝ) - 1 = 3 := by norm_num [Ex.woutZ]
  have e4 : 3 / 4 * |2 * (2 * (9 / 2 * √3 - 9 * √6 + 27 / 2))| * ((Ex.woutZ 0).mnmax : ℝ) / 3 ^ 2 =
      |9 / 2 * √3 - 9 * √6 + 27 / 2| := by
    rw [abs_mul, abs_mul, abs_of_pos (by norm_num : (0 : ℝ) < 2), show ((Ex.woutZ 0).mnmax : ℝ) = 3 by norm_num [Ex.woutZ]]
    ring
  rw [eM, eN, e3, e4] at this
  push_cast at this
  exact this

end Booz
