import Verif.Spec.RadialPlots
import Verif.Props.Plots
import Verif.Props.EndToEnd
import Verif.Props.ReportRounding
import Verif.Props.Quasisymmetry
import Verif.Props.FigureRounding

/-!
# What `symplot` and `modeplot` show of the equilibrium (C116)
-/

namespace Booz
open Spec Plots

section
variable {α : Type} [Arith α] {fin : α → Prop} {val : α → ℝ} {u : ℝ}

/-- One point of the curve of one mode. -/
theorem value_near (hu : Precision α fin val u) (hab : Compares α fin val) {t : St α} {k b : ℕ} {m n : ℤ}
    (hm : outM t k = m) (hn : outN t k = n) {c e : ℝ} (he : 0 ≤ e)
    (hc : ∃ x, t.out.spec.bmnc_b.rdN k b = .ok x ∧ fin x ∧ |val x - c| ≤ e) (log : Bool) (remove : Option (Int × Int)) :
    fin (if log then Arith.abs (amplitude t remove k b) else amplitude t remove k b) ∧
      |val (if log then Arith.abs (amplitude t remove k b) else amplitude t remove k b) - shownValue remove log m n c| ≤
        e + u := by
  obtain ⟨x, h1, h2, h3⟩ := hc
  have up := hu.u_pos
  have ev : t.out.spec.bmnc_b.val (ofInt 0) k b = x := Mat.val_of_rdN _ h1
  have zero := hu.ofInt 0 (by rw [Int.cast_zero, abs_zero]; positivity)
  rw [Int.cast_zero, abs_zero, sub_zero, add_zero, mul_one] at zero
  have plain : fin (if log = true then Arith.abs x else x) ∧
      |val (if log = true then Arith.abs x else x) - (if log = true then |c| else c)| ≤ e + u := by
    cases log with
    | false => exact ⟨h2, h3.trans (by linarith)⟩
    | true =>
      obtain ⟨k1, k2⟩ := hab.abs x h2
      refine ⟨k1, ?_⟩
      show |val (Arith.abs x) - (|c|)| ≤ e + u
      rw [k2]
      exact (abs_abs_sub_abs_le _ _).trans (h3.trans (by linarith))
  unfold amplitude shownValue
  cases remove with
  | none =>
    simp only [ev]
    exact plain
  | some h =>
    simp only [ev, hm, hn]
    by_cases hh : h.2 * m = h.1 * n
    · simp only [if_pos hh]
      cases log with
      | false =>
        refine ⟨zero.1, ?_⟩
        rw [sub_zero]
        exact zero.2.trans (by linarith)
      | true =>
        obtain ⟨k1, k2⟩ := hab.abs _ zero.1
        refine ⟨k1, ?_⟩
        show |val (Arith.abs (ofInt 0)) - 0| ≤ e + u
        rw [k2, sub_zero, abs_abs]
        exact zero.2.trans (by linarith)
    · simp only [if_neg hh]
      exact plain

/-- The curve of one mode. -/
theorem curve_near (hu : Precision α fin val u) (hab : Compares α fin val) {t : St α} {nb k : ℕ} {m n : ℤ}
    (hm : outM t k = m) (hn : outN t k = n) {s c : ℕ → ℝ} {δ e : ℝ} (he : 0 ≤ e)
    (hs : ∀ b < nb, ∃ x, t.out.s_b.rdN b = .ok x ∧ fin x ∧ |val x - s b| ≤ δ)
    (hc : ∀ b < nb, ∃ x, t.out.spec.bmnc_b.rdN k b = .ok x ∧ fin x ∧ |val x - c b| ≤ e)
    (sqrts log : Bool) (remove : Option (Int × Int)) :
    CurveNear fin val nb sqrts (axis t nb sqrts) (profile t nb remove log k) s (fun b => shownValue remove log m n (c b)) δ
      (e + u) := by
  refine ⟨by simp [axis], by simp [profile], fun b hb => ⟨?_, ?_⟩⟩
  · obtain ⟨x, h1, h2, h3⟩ := hs b hb
    refine ⟨x, h2, h3, ?_⟩
    unfold axis
    rw [List.getElem?_map, List.getElem?_range hb, Option.map_some, Vec.val_of_rdN _ h1]
  · obtain ⟨h1, h2⟩ := value_near hu hab hm hn he (hc b hb) log remove
    refine ⟨_, ?_, h1, h2⟩
    unfold profile
    rw [List.getElem?_map, List.getElem?_range hb, Option.map_some]

end

/-- **C116.**  Fix real data on whose selected surfaces G + ιI and |B| do not vanish, at least one of them, a mode (m, n) and
an order `p`.  There is a constant `C`, and for every resolution (M, N) a constant `D` and a precision `u₀`, such that the
following holds on every machine of precision `u ≤ u₀` that is given the data rounded to within `K u`, after `run` at this
resolution.  Every curve that `modeplot` labels (m, n), and the curve that `symplot` draws in the colour of the class of (m, n)
if this is an output mode within the limits, has at each surface the normalised flux of the input as its abscissa (or the
square root), and is within `C (1/ntheta^p + 1/nzeta^p) + D u` of the Fourier coefficient (m, n) of |B| as a function of the
Boozer angles (zero if the mode is to be removed, and the magnitude on a logarithmic axis). -/
theorem C116_radial_plots {s₀ : St ℝ} {d : Dims} (h : RunReady s₀.inp d) (hp : FieldPeriodic s₀.inp d.nfp)
    (ho : OriginOnce s₀.inp) (hreg : ∀ b < d.nsb, (surface s₀.inp d.asym (selected s₀.inp b)).Regular) (hnb : 1 ≤ d.nsb)
    (m n : ℤ) {p : ℕ} (hp1 : 1 ≤ p) :
    ∃ C, 0 ≤ C ∧ ∀ M N : ℕ, RunReady { s₀.inp with mboz := M, nboz := N } { d with M := M, N := N } → ∀ K : ℝ, 0 ≤ K →
      ∃ D u₀, 0 ≤ D ∧ 0 < u₀ ∧
        ∀ (α : Type) [Arith α] (fin : α → Prop) (val : α → ℝ) (u : ℝ), Precision α fin val u → Compares α fin val → u ≤ u₀ →
        ∀ s : St α, RunReady s.inp { d with M := M, N := N } →
          InputsNear fin val { d with M := M, N := N } (K * u) s.inp s₀.inp →
          ∃ t r, run false s = .ok (t, r) ∧ ∀ f,
            FieldsOf (fun b => surface s₀.inp d.asym (selected s₀.inp b)) d.nsb f → ∀ disk : Disk α,
            ModeplotNear fin val (fun argsort a => modeplot argsort disk (.object t) a) (numModes M N) d.nsb m n
              (fun b => s₀.inp.s_in.val 0 (selected s₀.inp b)) (fun b => fourierCos (f b) m n) (K * u)
              (C * gridError M N p + D * u) ∧
            (IsMode M N d.nfp (m, n) → SymplotNear fin val (fun a => symplot disk (.object t) a) d.nfp d.nsb m n
              (fun b => s₀.inp.s_in.val 0 (selected s₀.inp b)) (fun b => fourierCos (f b) m n) (K * u)
              (C * gridError M N p + D * u)) := by
  obtain ⟨C, H⟩ := C73_spectrum h hp ho hreg m n hp1
  refine ⟨|C|, abs_nonneg C, fun M N hr K hK => ?_⟩
  obtain ⟨D, u₀, h0, G⟩ := H M N hr K hK
  refine ⟨|D| + 1, u₀, by positivity, h0, fun α _ fin val u hu hab hle s hs hn => ?_⟩
  obtain ⟨t, r, g1, g2⟩ := G α fin val u hu hle s hs hn
  have up := hu.u_pos
  have et : t = runSt { d with M := M, N := N } s d.nsb := (run_false hs g1).1
  have hcomp : Computed t (numModes M N) d.nsb d.nfp d.asym := by rw [et]; exact run_computed hs
  have hK1 : 1 ≤ numModes M N := by
    have : 1 ≤ M := hs.mboz_ge
    unfold numModes
    omega
  have h00 : outM t 0 = 0 ∧ outN t 0 = 0 := by
    have e1 : outM t 0 = modeM N 0 := by rw [et]; exact Vec.val_tab hK1
    have e2 : outN t 0 = modeN N 0 * d.nfp := by rw [et]; exact Vec.val_tab hK1
    have z : (modeM N 0 : ℤ) = 0 ∧ modeN N 0 * d.nfp = 0 := (mode_zero_iff (d := { d with M := M, N := N }) h.nfp_pos).2 rfl
    rw [e1, e2]
    exact z
  have hsb : ∀ b < d.nsb, ∃ x, t.out.s_b.rdN b = .ok x ∧ fin x ∧
      |val x - s₀.inp.s_in.val 0 (selected s₀.inp b)| ≤ K * u := by
    intro b hb
    obtain ⟨r1, r2⟩ := hs.surfs_range b hb
    obtain ⟨x, y, x1, y1, x2, x3⟩ := hn.s_in (selected s.inp b) (by
      show (s.inp.compute_surfs.val 0 b).toNat < d.ns
      have r2' : s.inp.compute_surfs.val 0 b < (d.ns : ℤ) := r2
      omega)
    have es : selected s.inp b = selected s₀.inp b := by unfold selected; rw [hn.surfs]
    refine ⟨x, ?_, x2, ?_⟩
    · rw [et]
      show (Vec.tab d.nsb fun j => s.inp.s_in.val (ofInt 0) (selected s.inp j)).rdN b = _
      rw [Vec.rdN_tab hb, Vec.val_of_rdN _ x1]
    · rw [← es, Vec.val_of_rdN _ y1]
      exact x3
  have hg : 0 ≤ gridError M N p := by unfold gridError; positivity
  have e0 : 0 ≤ |C| * gridError M N p + |D| * u := by positivity
  refine ⟨t, r, g1, fun f hf disk => ?_⟩
  -- the curve of any output mode (m, n)
  have key : ∀ k < numModes M N, outM t k = m → outN t k = n → ∀ sqrts log remove,
      CurveNear fin val d.nsb sqrts (axis t d.nsb sqrts) (profile t d.nsb remove log k)
        (fun b => s₀.inp.s_in.val 0 (selected s₀.inp b)) (fun b => shownValue remove log m n (fourierCos (f b) m n)) (K * u)
        (|C| * gridError M N p + (|D| + 1) * u) := by
    intro k hk hm hn' sqrts log remove
    have hc : ∀ b < d.nsb, ∃ x, t.out.spec.bmnc_b.rdN k b = .ok x ∧ fin x ∧
        |val x - fourierCos (f b) m n| ≤ |C| * gridError M N p + |D| * u := by
      intro b hb
      obtain ⟨f1, f2, f3⟩ := hf b hb
      obtain ⟨x, x1, x2, x3⟩ := (g2 b hb k hk (by rw [Vec.Full.rdN 0 hcomp.xm_b hk, ← hm])
        (by rw [Vec.Full.rdN 0 hcomp.xn_b hk, ← hn'])).bmnc (f b) f1 f2 f3
      exact ⟨x, x1, x2, x3.trans (add_le_add (mul_le_mul_of_nonneg_right (le_abs_self C) hg)
        (mul_le_mul_of_nonneg_right (le_abs_self D) up.le))⟩
    have := curve_near hu hab hm hn' e0 hsb hc sqrts log remove
    rwa [show |C| * gridError M N p + |D| * u + u = |C| * gridError M N p + (|D| + 1) * u by ring] at this
  refine ⟨fun le argsort hsort a hnm => ?_, fun hmode a => ?_⟩
  · obtain ⟨idx, bottom, -, -, -, i3, -, -, i6⟩ := C48_partial hsort hcomp hK1 hnb h00 a hnm []
    have mem : ∀ L : List (Drawn α), (∀ col x y, Drawn.curve col (some (.mode m n)) x y ∉ L) →
        ∀ col x y, Drawn.curve col (some (.mode m n)) x y ∈ [] ++ zeroLine a.log ++ idx.map (modeCurve t d.nsb a) ++ L →
        CurveNear fin val d.nsb a.sqrts x y (fun b => s₀.inp.s_in.val 0 (selected s₀.inp b))
          (fun b => shownValue a.remove a.log m n (fourierCos (f b) m n)) (K * u) (|C| * gridError M N p + (|D| + 1) * u) := by
      intro L hL col x y hx
      rw [List.nil_append] at hx
      rcases List.mem_append.1 hx with hx | hx
      · rcases List.mem_append.1 hx with hx | hx
        · unfold zeroLine at hx
          cases a.log <;> simp at hx
        · obtain ⟨k, k1, k2⟩ := List.mem_map.1 hx
          unfold modeCurve at k2
          injection k2 with q1 q2 q3 q4
          injection q2 with q2
          injection q2 with q5 q6
          rw [← q3, ← q4]
          exact key k (i3 k k1).2 q5 q6 _ _ _
      · exact absurd hx (hL col x y)
    have el : (if a.B0 then (numModes M N : ℤ) else numModes M N - 1) = numModes M N - firstRow a.B0 := by
      unfold firstRow
      cases a.B0 <;> simp
    rw [el]
    beta_reduce
    by_cases hle' : a.nmodes ≤ numModes M N - firstRow a.B0
    · refine ⟨_, by rw [i6 disk, if_pos hle', if_pos hle'], mem _ fun col x y hx => ?_⟩
      unfold lowerEnd at hx
      cases a.log <;> simp at hx
    · refine ⟨_, by rw [i6 disk, if_neg hle', if_neg hle'], fun col x y hx => mem [] (fun _ _ _ hx => by cases hx) col x y ?_⟩
      rw [List.append_nil]
      exact hx
  · obtain ⟨l, l1, l2, l3, -, -, -, -, l4⟩ := C02_mode_list hs g1
    obtain ⟨k, hk', ek⟩ := List.mem_iff_getElem.1 ((l4 (m, n)).2 hmode)
    have hk : k < numModes M N := lt_of_lt_of_eq hk' l3
    have em : outM t k = m := by
      show t.out.xm_b.val 0 k = m
      rw [l1]
      simp [Vec.val, hk', ek]
    have en : outN t k = n := by
      show t.out.xn_b.val 0 k = n
      rw [l2]
      simp [Vec.val, hk', ek]
    obtain ⟨cls, hcls⟩ := exists_classes t a.detail d.nfp
    obtain ⟨legend, bottom, -, -, hs'⟩ := C49_partial hcomp hK1 hnb a cls (fun k _ => hcls k) []
    refine ⟨_, hs' disk, fun c hc hw hB => ?_⟩
    have ec : cls k = c := by
      obtain ⟨c', -, hc'⟩ := C49_classes a.detail d.nfp m n
      have := hcls k
      rw [em, en] at this
      exact (hc' _ this).trans (hc' _ hc).symm
    refine ⟨axis t d.nsb a.sqrts, profile t d.nsb a.remove a.log k, ?_, key k hk em en _ _ _⟩
    refine List.mem_append_left _ (List.mem_append_right _ (List.mem_map.2 ⟨k, ?_, by rw [ec]⟩))
    rw [List.mem_filter, decide_eq_true_eq, em, en, ec]
    exact ⟨List.mem_range.2 hk, hw, hB⟩

/-- Where the Boozer angles are coordinates, |B| is a function of them. -/
theorem fields_exist {I : Inputs ℝ} {d : Dims} (h : RunReady I d) (hp : FieldPeriodic I d.nfp) {nb : ℕ} (js : ℕ → ℕ)
    (hdet : ∀ b < nb, ∀ θ ζ, (surface I d.asym (js b)).det θ ζ ≠ 0) :
    ∃ f, FieldsOf (fun b => surface I d.asym (js b)) nb f := by
  have : ∀ b, ∃ f, b < nb → Continuous (Function.uncurry f) ∧ TorusFn f ∧
      (surface I d.asym (js b)).Expresses f (surface I d.asym (js b)).B := by
    intro b
    by_cases hb : b < nb
    · obtain ⟨f, f1, f2, -, f3⟩ := express_B h hp (hdet b hb)
      exact ⟨f, fun _ => ⟨f2.continuous, f3, f1⟩⟩
    · exact ⟨fun _ _ => 0, fun k => absurd k hb⟩
  choose f hf using this
  exact ⟨f, hf⟩

/-- On the example the Boozer angles are coordinates, so that |B| is a function of them. -/
theorem Ex.gentle_fields (asym : Bool) :
    ∃ f, FieldsOf (fun b => surface (Ex.gentle asym).inp asym (selected (Ex.gentle asym).inp b)) 2 f :=
  fields_exist (d := Ex.dims asym) (Ex.gentle_ready asym) (Ex.fieldPeriodic (α := ℝ) asym) (selected (Ex.gentle asym).inp)
    fun b hb θ ζ => (lt_trans (by norm_num) (Ex.gentle_det asym (Ex.selected_lt asym b hb) θ ζ)).ne'

/-- C116 for the example: the harmonic (1, -2) at every resolution, on machines with more and more bits. -/
example (asym : Bool) : ∃ C, ∀ M N : ℕ, 2 ≤ M → 1 ≤ N → (4 * M + 2) * (4 * N + 2) < 2 ^ 30 → ∃ K D : ℝ, ∃ p₀, ∀ p ≥ p₀,
    ∃ t r, run false ({ Ex.st asym with
      inp := Ex.mapI (fun x => (⟨Ex.rnd p x⟩ : Ex.Flp p)) { (Ex.gentle asym).inp with mboz := M, nboz := N } }) =
        .ok (t, r) ∧
    ∃ f, FieldsOf (fun b => surface (Ex.gentle asym).inp asym (selected (Ex.gentle asym).inp b)) 2 f ∧
      ∀ disk, ∃ fig, symplot disk (.object t) ⟨20, 20, none, false, true, true, none, true⟩ [] = .ok () fig ∧
        ∃ x y, Drawn.curve .minus none x y ∈ fig ∧
          CurveNear (fun _ => True) Ex.Flp.val 2 false x y
            (fun b => (Ex.gentle asym).inp.s_in.val 0 (selected (Ex.gentle asym).inp b))
            (fun b => |fourierCos (f b) 1 (-2)|) (K * (4 / 2 ^ p)) (C * gridError M N 7 + D * (4 / 2 ^ p)) := by
  obtain ⟨f, hf⟩ := Ex.gentle_fields asym
  obtain ⟨C, -, H⟩ := C116_radial_plots (s₀ := Ex.gentle asym) (d := Ex.dims asym) (Ex.gentle_ready asym)
    (Ex.fieldPeriodic (α := ℝ) asym) (Ex.originOnce (α := ℝ) asym)
    (fun b hb => Ex.gentle_regular asym (Ex.selected_lt asym b hb)) (by show 1 ≤ 2; omega) 1 (-2) (p := 7) (by omega)
  refine ⟨C, fun M N hM hN hfit => ?_⟩
  have hr := Ex.gentle_ready_res asym (by omega) hfit
  obtain ⟨K, hK, near⟩ := Ex.mapI_near hr
  obtain ⟨D, u₀, -, h0, G⟩ := H M N hr K hK
  obtain ⟨p₀, hp₀⟩ := Ex.bits h0
  refine ⟨K, D, p₀, fun p hp => ?_⟩
  obtain ⟨t, r, g1, g2⟩ := G (Ex.Flp p) (fun _ => True) Ex.Flp.val (4 / 2 ^ p) (Ex.flp_precision p) (Ex.flp_compares p)
    (hp₀ p hp) { Ex.st asym with
      inp := Ex.mapI (fun x => (⟨Ex.rnd p x⟩ : Ex.Flp p)) { (Ex.gentle asym).inp with mboz := M, nboz := N } }
    (Ex.mapI_ready _ hr) { near p with }
  have e2 : (Ex.dims asym).nfp = 2 := rfl
  refine ⟨t, r, g1, f, hf, fun disk => ?_⟩
  obtain ⟨fig, k1, k2⟩ := (g2 f hf disk).2 (by rw [e2]; refine ⟨by omega, by omega, -1, ?_⟩; omega) ⟨20, 20, none, false, true, true, none, true⟩
  exact ⟨fig, k1, k2 .helicalMinus (by rw [e2]; simp [InClass]) (by rw [e2]; simp [Within]) (by simp)⟩

/-! ## From file to figure -/

/-- **C116, from file to figure.**  Let `f₀` be a `wout` file with exact numbers that `read_wout` accepts, `b₀` the equilibrium
it describes, (m, n) a mode and `p` an order.  There is a constant `C`, and for every request that can be carried out constants
`D`, `E` and a precision `u₀`, such that on every machine of precision `u ≤ u₀`, where negating twice changes nothing, the
following holds.  If the disk holds an input file with this request and a `wout` file whose numbers are within `K u` of those of
`f₀`, then `xbooz_xform` returns 0, and the curves that `modeplot` and `symplot`, given the name of the `boozmn` file that it
leaves, draw for (m, n) are within `C (1/ntheta^p + 1/nzeta^p) + D u` of the Fourier coefficient (m, n) of |B| of the requested
surfaces, in the order of `jlist`, as functions of the Boozer angles. -/
theorem C116_file {disk₀ : Disk ℝ} {path₀ : String} {f₀ : NcFile ℝ} {z : WoutSizes} {b₀ : St ℝ}
    (hd₀ : disk₀ path₀ = .nc f₀) (hz₀ : WoutShapes f₀ z) (hl₀ : readWout disk₀ path₀ false construct = .ok () b₀)
    (hi : ∀ k, k < (intsOf f₀ "xn_nyq").size → ((intsOf f₀ "xn_nyq").val 0 k).natAbs < 2147483648)
    (hns : z.ns ≤ 2147483644)
    (hfp : FieldPeriodic b₀.inp z.nfp.toNat) (ho : OriginOnce b₀.inp)
    (hreg : ∀ js : ℕ, (js : ℤ) < z.ns - 1 → (surface b₀.inp (decide (z.lasym ≠ 0)) js).Regular)
    (surfs : List ℤ) (hlen : surfs.length ≤ 2147483644) (m n : ℤ) {p : ℕ} (hp1 : 1 ≤ p) :
    ∃ C, 0 ≤ C ∧ ∀ r : Request, r.surfs = surfs → CanRun f₀ z r → ∀ K : ℝ, 0 ≤ K → ∃ D E u₀, 0 < u₀ ∧
      ∀ (α : Type) [Arith α] (fin : α → Prop) (val : α → ℝ) (u : ℝ), Precision α fin val u → Compares α fin val → u ≤ u₀ →
      (∀ x : α, - - x = x) →
      ∀ (w : World α) (content : List Char) (path prog : String) (env : Env) (version : String) (f : NcFile α),
        w.disk path = .other content → Asks content r →
        w.disk ("wout_" ++ String.ofList r.ext ++ ".nc") = .nc f → WoutShapes f z → WoutNear fin val z (K * u) f f₀ →
        VersionOk version → NoFailure env →
        ∃ (w' : World α) (out : NcFile α) (nb : ℕ) (js : ℕ → ℤ), driver env version [prog, path] w = .ok 0 w' ∧
          w'.disk ("boozmn_" ++ String.ofList r.ext ++ ".nc") = .nc out ∧
          (∀ b < nb, FileInt out "jlist" b (js b + 2)) ∧ (∀ j, Wanted z r j ↔ ∃ b < nb, js b = j) ∧
          ∀ g, FieldsOf (fun b => surface b₀.inp (decide (z.lasym ≠ 0)) (js b).toNat) nb g →
            ModeplotNear fin val
              (fun argsort a => modeplot argsort w'.disk (.file ("boozmn_" ++ String.ofList r.ext ++ ".nc")) a)
              (numModes (polRes z r) (torRes z r)) nb m n (fun b => b₀.inp.s_in.val 0 (js b).toNat)
              (fun b => fourierCos (g b) m n) (E * u) (C * gridError (polRes z r) (torRes z r) p + D * u) ∧
            (IsMode (polRes z r) (torRes z r) z.nfp.toNat (m, n) → SymplotNear fin val
              (fun a => symplot w'.disk (.file ("boozmn_" ++ String.ofList r.ext ++ ".nc")) a)
              z.nfp.toNat nb m n (fun b => b₀.inp.s_in.val 0 (js b).toNat)
              (fun b => fourierCos (g b) m n) (E * u) (C * gridError (polRes z r) (torRes z r) p + D * u)) := by
  obtain ⟨hg₀, hl₀'⟩ := wout_loaded hd₀ hz₀ hl₀
  obtain ⟨-, -, C₀, -⟩ := vmec_inv hg₀ hl₀'
  have hns2 : 2 ≤ z.ns := C₀.ns_ge
  by_cases hex : ∃ r : Request, r.surfs = surfs ∧ CanRun f₀ z r
  swap
  · exact ⟨0, le_rfl, fun r h1 h2 => absurd ⟨r, h1, h2⟩ hex⟩
  obtain ⟨r₁, rfl, hc₁⟩ := hex
  obtain ⟨l, hS, hl1, hl2, hmem⟩ := wantedVec_full (r := r₁) hns2
  have hr₁ := requested_ready hg₀ hl₀' hi hc₁ hS hl1
  have hsel : ∀ b (hb : b < l.length), (wantedVec z r₁).val 0 b = l[b] := fun b hb => by rw [hS, val_list hb]
  have range' : ∀ b < l.length, (((wantedVec z r₁).val 0 b).toNat : ℤ) < z.ns - 1 := fun b hb => by
    have := hr₁.surfs_range b hb
    have h1 : 0 ≤ (wantedVec z r₁).val 0 b := this.1
    have h2 : ((wantedVec z r₁).val 0 b) < ((z.ns - 1).toNat : ℕ) := this.2
    omega
  obtain ⟨C, hC, H⟩ := C116_radial_plots (s₀ := settings (wantedVec z r₁) (polRes z r₁) (torRes z r₁) 1 b₀) hr₁ hfp ho
    (fun b hb => hreg _ (range' b hb)) hl1 m n hp1
  refine ⟨C, hC, fun r hrs hc K hK => ?_⟩
  have hW : wantedVec z r = wantedVec z r₁ := by unfold wantedVec; rw [hrs]
  have hr := requested_ready hg₀ hl₀' hi hc (hW.trans hS) hl1
  obtain ⟨E, u₀, e0, p0, L⟩ := C71_load hg₀ hl₀' hK
  obtain ⟨D, v₀, hD, q, G⟩ := H (polRes z r) (torRes z r) (by rw [hW] at hr; exact hr) E e0
  refine ⟨D, E, min u₀ v₀, lt_min p0 q,
    fun α _ fin val u hu hab hle hneg w content path prog env version f hp ha hd hz hn hv he => ?_⟩
  obtain ⟨b, hb⟩ := loads_near hd₀ hz₀ hl₀ hd hz hn
  obtain ⟨hg, hl⟩ := wout_loaded hd hz hb
  have hx := hn.modes "xn_nyq" (by simp)
  obtain ⟨w', hw'⟩ := (C43_exact (prog := prog) hp ha hd hz hb (by rw [hx]; exact hi) hv he (by rw [hrs]; exact hlen)
    hns).1.2 ((canRun_near hn r).2 hc)
  obtain ⟨b1, t, rep, v, k1, k2, k3, k4⟩ := driver_inv hp ha hw'
  cases (show Out.ok () b1 = Out.ok () b from k1.symm.trans hb)
  have hmp := hc.1.mpol
  have e0 : (woutSizesOf f₀ z).mpol = z.mpol := rfl
  obtain ⟨e1, e2⟩ := res_eq (z := z) (r := r) (by omega)
  rw [requested_settings r hg hl, ← e1, ← e2, hW] at k2
  rw [woutSizes_near hn] at hg
  obtain ⟨r1, r2, r3, r4, r5⟩ := ready_loaded hg₀ hl₀' hg hl (sameModes_near hn) hr
  have R := r1
  rw [hW] at R
  have near := L α fin val u hu (hle.trans (min_le_left _ _)) _ _ b hg (sameModes_near hn) (argsNear_near hz hn) hl _ r2 r3 r4 r5
  obtain ⟨t', rep', q1, q2⟩ := G α fin val u hu hab (hle.trans (min_le_right _ _))
    (settings (wantedVec z r₁) (polRes z r) (torRes z r) 1 b) R { near with surfs := rfl }
  rw [k2] at q1
  cases q1
  have hflux : FluxOk (settings (wantedVec z r₁) (polRes z r) (torRes z r) 1 b).flux (z.ns - 1).toNat := by
    rw [vmec_result hg hl]
    exact .inl rfl
  have HR := run_hasResults R hl1 (by show l.length ≤ _; omega) (by show (z.ns - 1).toNat + 1 ≤ _; omega) hflux
  rw [← (run_false R k2).1] at HR
  obtain ⟨out, o1, o2⟩ := C34_layout HR hv k3
  have hj : HoldsSurfs out l.length (listVec l) := by
    have := o2.jlist
    rw [(run_false R k2).1] at this
    rw [← hS]
    exact this
  have hgrid : HalfGrid (settings (wantedVec z r₁) (polRes z r) (torRes z r) 1 b).inp.s_in (z.ns - 1).toNat := by
    have : HalfGrid b.inp.s_in (z.ns - 1).toNat := C33_loaded_grid hg hl
    exact this
  have hphi : (settings (wantedVec z r₁) (polRes z r) (torRes z r) 1 b).flux.phip.size ≠ 0 →
      ∃ x, (settings (wantedVec z r₁) (polRes z r) (torRes z r) 1 b).flux.phi[(z.ns - 1).toNat]? = some (some x) := by
    intro k
    rw [vmec_result hg hl] at k
    exact absurd rfl k
  obtain ⟨-, f2, f3, -⟩ := C63_partial (any := w.disk) hneg R hgrid hl1 (by show l.length ≤ _; omega)
    (by show (z.ns - 1).toNat + 1 ≤ _; omega) hflux hphi k2 hv k3
  refine ⟨w', out, l.length, fun b => (wantedVec z r₁).val 0 b, hw', by rw [k4]; exact o1, fun b hb => ?_, fun j => ?_,
    fun g hg' => ?_⟩
  · exact (fileSurf_iff hj).2 ⟨hb, (hsel b hb).symm⟩
  · have : Wanted z r j ↔ Wanted z r₁ j := by unfold Wanted; rw [hrs]
    rw [this, ← hmem, List.mem_iff_getElem]
    exact ⟨fun ⟨b, hb, e⟩ => ⟨b, hb, (hsel b hb).trans e⟩, fun ⟨b, hb, e⟩ => ⟨b, hb, (hsel b hb).symm.trans e⟩⟩
  obtain ⟨y1, y2⟩ := q2 g hg' w.disk
  rw [k4]
  have g2 : (fun a => symplot v.core.disk (.file ("boozmn_" ++ String.ofList r.ext ++ ".nc")) a) =
      fun a => symplot w.disk (.object t) a := funext f2
  have g3 : (fun argsort a => modeplot argsort v.core.disk (.file ("boozmn_" ++ String.ofList r.ext ++ ".nc")) a) =
      fun argsort a => modeplot argsort w.disk (.object t) a := funext fun s => funext (f3 s)
  rw [g2, g3]
  exact ⟨y1, y2⟩

/-- C116 for a `wout` file on the disk: the harmonic (1, -2) with the figures of its `boozmn` file. -/
example : ∃ b₀ : St ℝ, readWout (Ex.softWorld Ex.input).disk ("wout_" ++ String.ofList ['x'] ++ ".nc") false construct =
      .ok () b₀ ∧ ∃ C D E : ℝ, ∃ p₀, ∀ p ≥ p₀, ∃ (w' : World (Ex.Flp p)) (nb : ℕ) (js : ℕ → ℤ),
    driver Ex.calm "0.0.1" ["xbooz_xform", "in"] (Ex.softWorld (α := Ex.Flp p) Ex.input) = .ok 0 w' ∧
    ∀ g, FieldsOf (fun b => surface b₀.inp false (js b).toNat) nb g →
      ModeplotNear (fun _ => True) Ex.Flp.val
        (fun argsort a => modeplot argsort w'.disk (.file ("boozmn_" ++ String.ofList ['x'] ++ ".nc")) a)
        (numModes 16 8) nb 1 (-2) (fun b => b₀.inp.s_in.val 0 (js b).toNat) (fun b => fourierCos (g b) 1 (-2))
        (E * (4 / 2 ^ p)) (C * gridError 16 8 9 + D * (4 / 2 ^ p)) ∧
      SymplotNear (fun _ => True) Ex.Flp.val
        (fun a => symplot w'.disk (.file ("boozmn_" ++ String.ofList ['x'] ++ ".nc")) a)
        (Ex.woutZ 0).nfp.toNat nb 1 (-2) (fun b => b₀.inp.s_in.val 0 (js b).toNat) (fun b => fourierCos (g b) 1 (-2))
        (E * (4 / 2 ^ p)) (C * gridError 16 8 9 + D * (4 / 2 ^ p)) := by
  obtain ⟨b₀, h₀⟩ := Ex.soft_loads (α := ℝ) Ex.input
  have s := Ex.softened h₀
  obtain ⟨hp, ho, hreg, -⟩ := Ex.softened_ok s
  refine ⟨b₀, h₀, ?_⟩
  have hi : ∀ k, k < (intsOf (Ex.soft (α := ℝ)) "xn_nyq").size →
      ((intsOf (Ex.soft (α := ℝ)) "xn_nyq").val 0 k).natAbs < 2147483648 := by
    rw [Ex.soft_ints (by decide)]
    exact Ex.wout_nyq
  obtain ⟨C, -, H⟩ := C116_file (Ex.softWorld_wout _) Ex.soft_shapes h₀ hi (by decide) hp ho hreg [1, 0] (by decide)
    1 (-2) (p := 9) (by norm_num)
  have eM : polRes (Ex.woutZ 0) Ex.request = 16 := rfl
  have eN : torRes (Ex.woutZ 0) Ex.request = 8 := rfl
  obtain ⟨D, E, u₀, h0, G⟩ := H Ex.request rfl Ex.soft_can_run 100 (by norm_num)
  obtain ⟨p₀, hp₀⟩ := Ex.bits h0
  refine ⟨C, D, E, p₀, fun p hp => ?_⟩
  have neg : ∀ x : Ex.Flp p, - - x = x := fun x => congrArg Ex.Flp.mk (neg_neg x.val)
  obtain ⟨w', out, nb, js, g1, -, -, -, g3⟩ := G (Ex.Flp p) _ Ex.Flp.val (4 / 2 ^ p) (Ex.flp_precision p)
    (Ex.flp_compares p) (hp₀ p hp) neg
    (Ex.softWorld Ex.input) Ex.input "in" "xbooz_xform" Ex.calm "0.0.1" Ex.soft (Ex.softWorld_in _) Ex.input_asks
    (Ex.softWorld_wout _) Ex.soft_shapes (Ex.soft_near p) Ex.version Ex.noFailure
  refine ⟨w', nb, js, g1, fun g hg => ?_⟩
  obtain ⟨k1, k2⟩ := g3 g hg
  rw [eM, eN] at k1 k2
  have e2 : (Ex.woutZ 0).nfp.toNat = 2 := rfl
  exact ⟨k1, k2 (by rw [e2]; exact ⟨by omega, by omega, -1, by omega, by omega, by omega, by omega⟩)⟩

end Booz
