import Verif.Spec.LargestModes
import Verif.Props.RadialPlots
import Verif.Props.Uniform

/-!
# `modeplot` shows the largest harmonics of the field (C117)
-/

namespace Booz
open Spec Plots Function

section
variable {α : Type} [Arith α]

theorem modeLabels_curves (t : St α) (nb : ℕ) (a : ModeArgs α) (idx : List ℕ) (bottom : α) :
    modeLabels ([] ++ zeroLine a.log ++ idx.map (modeCurve t nb a) ++ lowerEnd a.log bottom) =
      idx.map fun k => (outM t k, outN t k) := by
  have h0 : modeLabels (zeroLine a.log : List (Drawn α)) = [] := by
    unfold zeroLine
    cases a.log <;> rfl
  have h1 : modeLabels (lowerEnd a.log bottom) = [] := by
    unfold lowerEnd
    cases a.log <;> rfl
  have h2 : modeLabels (idx.map (modeCurve t nb a)) = idx.map fun k => (outM t k, outN t k) := by
    unfold modeLabels
    rw [List.filterMap_map]
    exact congrFun (List.filterMap_eq_map (f := fun k => (outM t k, outN t k))) idx
  have app : ∀ x y : List (Drawn α), modeLabels (x ++ y) = modeLabels x ++ modeLabels y := fun x y => List.filterMap_append
  rw [List.nil_append, app, app, h0, h1, h2, List.append_nil, List.nil_append]

/-- The mode list of a run, by index. -/
theorem modes_by_index {s s' : St α} {d : Dims} {r : List (Report α)} (h : RunReady s.inp d) (hr : run false s = .ok (s', r)) :
    (∀ k < numModes d.M d.N, IsMode d.M d.N d.nfp (outM s' k, outN s' k)) ∧
    (∀ i < numModes d.M d.N, ∀ j < numModes d.M d.N, (outM s' i, outN s' i) = (outM s' j, outN s' j) → i = j) ∧
    (∀ q, IsMode d.M d.N d.nfp q → ∃ k < numModes d.M d.N, (outM s' k, outN s' k) = q) ∧
    (outM s' 0, outN s' 0) = (0, 0) := by
  obtain ⟨l, l1, l2, l3, -, l4, l5, -, l6⟩ := C02_mode_list h hr
  have e : ∀ k (hk : k < l.length), (outM s' k, outN s' k) = l[k] := by
    intro k hk
    show (s'.out.xm_b.val 0 k, s'.out.xn_b.val 0 k) = _
    rw [l1, l2]
    simp [Vec.val, hk]
  rw [← l3]
  refine ⟨fun k hk => ?_, fun i hi j hj hij => ?_, fun q hq => ?_, ?_⟩
  · rw [e k hk]
    exact (l6 _).1 (List.getElem_mem hk)
  · rw [e i hi, e j hj] at hij
    exact (List.Nodup.getElem_inj_iff l5).1 hij
  · obtain ⟨k, hk, ek⟩ := List.mem_iff_getElem.1 ((l6 q).2 hq)
    exact ⟨k, hk, (e k hk).trans ek⟩
  · cases l with
    | nil => cases l4
    | cons p l =>
      rw [e 0 (by simp)]
      exact Option.some_inj.1 l4

end

/-- **C117.**  Let the real data be regular on the selected surfaces, at least one of them.  For any order `p` there is a constant `C`, and for each resolution (M, N) with `M ≤ c N`,
`N ≤ c M` that resolves the angles of this surface a constant `D` and a precision `u₀`, such that every machine of precision
`u ≤ u₀`, given the data rounded to within `K u`, after `run` shows with `modeplot` the largest Fourier coefficients of |B|
on this surface as a function `f` of the Boozer angles among the output modes, in decreasing order, up to errors of `2 (C (1/ntheta^p + 1/nzeta^p) + D u)` in each comparison. -/
theorem C117_largest {s₀ : St ℝ} {d : Dims} (h : RunReady s₀.inp d) (hp : FieldPeriodic s₀.inp d.nfp)
    (ho : OriginOnce s₀.inp) (hreg : ∀ b < d.nsb, (surface s₀.inp d.asym (selected s₀.inp b)).Regular) (hnb : 1 ≤ d.nsb)
    (c : ℝ) {ρ : ℝ} (hρ : ρ < 1) {p : ℕ} (hp2 : 2 ≤ p) :
    ∃ C, 0 ≤ C ∧ ∀ M N : ℕ, 1 ≤ N → (M : ℝ) ≤ c * N → (N : ℝ) ≤ c * M →
      (surface s₀.inp d.asym (selected s₀.inp (d.nsb - 1))).ResolvedBy d.nfp M N ρ →
      RunReady { s₀.inp with mboz := M, nboz := N } { d with M := M, N := N } → ∀ K : ℝ, 0 ≤ K →
      ∃ D u₀, 0 ≤ D ∧ 0 < u₀ ∧
        ∀ (α : Type) [Arith α] (fin : α → Prop) (val : α → ℝ) (u : ℝ), Precision α fin val u → Compares α fin val → u ≤ u₀ →
        ∀ le : α → α → Prop, (∀ x y, fin x → fin y → le x y → val x ≤ val y) →
        ∀ s : St α, RunReady s.inp { d with M := M, N := N } →
          InputsNear fin val { d with M := M, N := N } (K * u) s.inp s₀.inp →
          ∃ t r, run false s = .ok (t, r) ∧ ∀ f : ℝ → ℝ → ℝ, Continuous (uncurry f) → TorusFn f →
            (surface s₀.inp d.asym (selected s₀.inp (d.nsb - 1))).Expresses f
              (surface s₀.inp d.asym (selected s₀.inp (d.nsb - 1))).B → ∀ disk : Disk α,
            ShowsLargest le (fun argsort a => modeplot argsort disk (.object t) a) M N d.nfp (fourierCos f)
              (2 * (C * gridError M N p + D * u)) := by
  have hb : d.nsb - 1 < d.nsb := by omega
  obtain ⟨pl, pw, -, -, pB⟩ := surf_per h hp d.asym (selected s₀.inp (d.nsb - 1))
  have sm := smooth_surface s₀.inp d.asym (selected s₀.inp (d.nsb - 1))
  obtain ⟨C, hC, hq⟩ := quad_uniform h.nfp_pos sm pl pw pB sm.B c hρ hp2
  refine ⟨C, hC, fun M N hN hMN hNM hres hr K hK => ?_⟩
  let s₁ : St ℝ := { s₀ with inp := { s₀.inp with mboz := M, nboz := N } }
  let e : Dims := { d with M := M, N := N }
  obtain ⟨D, u₀, h0, G⟩ := C69_rounding (s₀ := s₁) (d := e) hr hp ho hreg hK
  refine ⟨|D| + 1, u₀, by positivity, h0, fun α _ fin val u hu hab hle le hcmp s hs hn => ?_⟩
  obtain ⟨t, r, t₀, r₀, g1, g2, g3⟩ := G α fin val u hu hle s hs { hn with }
  have e0 : t₀ = runSt e s₁ d.nsb := (run_false hr g2).1
  have et : t = runSt e s d.nsb := (run_false hs g1).1
  have hcomp : Computed t (numModes M N) d.nsb d.nfp d.asym := by rw [et]; exact run_computed hs
  have up := hu.u_pos
  obtain ⟨F1, F2, F3, F4⟩ := modes_by_index hs g1
  change ∀ k < numModes M N, IsMode M N d.nfp (outM t k, outN t k) at F1
  change ∀ i < numModes M N, ∀ j < numModes M N, _ at F2
  change ∀ q, IsMode M N d.nfp q → ∃ k < numModes M N, (outM t k, outN t k) = q at F3
  have hM : 1 ≤ M := hs.mboz_ge
  have hK1 : 1 ≤ numModes M N := by
    unfold numModes
    omega
  have hg : 0 ≤ gridError M N p := by unfold gridError; positivity
  refine ⟨t, r, g1, fun f cf tf ef disk argsort hsort a hn0 hn1 => ?_⟩
  -- the harmonics of the machine
  have near : ∀ k < numModes M N, ∃ x, t.out.spec.bmnc_b.rdN k (d.nsb - 1) = .ok x ∧ fin x ∧
      |val x - fourierCos f (outM t k) (outN t k)| ≤ C * gridError M N p + |D| * u := by
    intro k hk
    obtain ⟨x, y, x1, y1, x2, x3⟩ := g3.bmnc k hk (d.nsb - 1) hb
    have sp := (spectrum_at (s := s₁) (d := e) hr hp ho hb hk).1
    rw [e0] at y1
    have ey := Except.ok.inj (y1.symm.trans sp)
    obtain ⟨i1, i2, n', i3, i4, i5, -⟩ := F1 k hk
    have eM : outM t k = modeM N k := by rw [et]; exact Vec.val_tab hk
    have eN : outN t k = modeN N k * d.nfp := by rw [et]; exact Vec.val_tab hk
    have hnf : (d.nfp : ℤ) ≠ 0 := by have := h.nfp_pos; omega
    have en' : modeN N k = n' := mul_right_cancel₀ hnf (eN.symm.trans i3)
    have := (hq M N hM hN hMN hNM hres (modeM N k) (modeN N k)
      (by rw [← eM, abs_le]; simp only at i1 i2; constructor <;> omega)
      (by rw [en', abs_le]; exact ⟨i4, i5⟩)).1
    rw [(C67_coefficients h hp (selected s₀.inp (d.nsb - 1)) cf tf ef _ _).1, ← eN, ← eM] at this
    refine ⟨x, x1, x2, ?_⟩
    have x4 : |y - fourierCos f (outM t k) (outN t k)| ≤ C * gridError M N p := by
      rw [ey]
      rw [eN, eM] at this ⊢
      exact this
    calc _ ≤ |val x - y| + |y - fourierCos f (outM t k) (outN t k)| := abs_sub_le _ _ _
      _ ≤ |D| * u + C * gridError M N p :=
        add_le_add (x3.trans (mul_le_mul_of_nonneg_right (le_abs_self D) up.le)) x4
      _ = _ := add_comm _ _
  have cmp : ∀ i < numModes M N, ∀ j < numModes M N, le (lastKey t d.nsb a.remove i) (lastKey t d.nsb a.remove j) →
      shownValue a.remove true (outM t j) (outN t j) (fourierCos f (outM t j) (outN t j)) ≤
        shownValue a.remove true (outM t i) (outN t i) (fourierCos f (outM t i) (outN t i)) +
          2 * (C * gridError M N p + (|D| + 1) * u) := by
    intro i hi j hj hij
    have e1 : 0 ≤ C * gridError M N p + |D| * u := by positivity
    obtain ⟨a1, a2⟩ := value_near hu hab rfl rfl e1 (near i hi) true a.remove
    obtain ⟨b1, b2⟩ := value_near hu hab rfl rfl e1 (near j hj) true a.remove
    simp only [if_true] at a1 a2 b1 b2
    obtain ⟨c1, c2⟩ := hu.neg _ a1
    obtain ⟨d1, d2⟩ := hu.neg _ b1
    have := hcmp _ _ c1 d1 hij
    rw [c2, d2] at this
    rw [abs_le] at a2 b2
    linarith [a2.1, a2.2, b2.1, b2.2]
  have el : (if a.B0 then (numModes M N : ℤ) else numModes M N - 1) = numModes M N - firstRow a.B0 := by
    unfold firstRow
    cases a.B0 <;> simp
  rw [el] at hn1
  obtain ⟨idx, bottom, -, i1, i2, i3, i4, i5, i6⟩ := C48_partial hsort hcomp hK1 hnb
    ⟨congrArg Prod.fst F4, congrArg Prod.snd F4⟩ a hn0 []
  refine ⟨_, (i6 disk).trans (if_pos hn1), ?_⟩
  rw [modeLabels_curves]
  have first : ∀ k < numModes M N, firstRow a.B0 ≤ k ↔ (a.B0 = false → (outM t k, outN t k) ≠ (0, 0)) := by
    intro k hk
    have : (outM t k, outN t k) = (0, 0) ↔ k = 0 :=
      ⟨fun q => F2 k hk 0 (by omega) (q.trans F4.symm), fun q => by rw [q]; exact F4⟩
    unfold firstRow
    rw [Ne, this]
    cases a.B0 <;> simp <;> omega
  refine ⟨?_, ?_, fun q hq => ?_, ?_, fun q hq v hv hnot => ?_⟩
  · rw [List.length_map, i2]
    omega
  · exact List.Nodup.map_on (fun x hx y hy => F2 x (i3 x hx).2 y (i3 y hy).2) i1
  · obtain ⟨k, k1, rfl⟩ := List.mem_map.1 hq
    exact ⟨F1 k (i3 k k1).2, (first k (i3 k k1).2).1 (i3 k k1).1⟩
  · rw [List.pairwise_map]
    exact i4.imp_of_mem fun {x y} hx hy => cmp x (i3 x hx).2 y (i3 y hy).2
  · obtain ⟨k, k1, rfl⟩ := List.mem_map.1 hq
    obtain ⟨j, hj, rfl⟩ := F3 v hv.1
    exact cmp k (i3 k k1).2 j hj (i5 k k1 j ((first j hj).2 hv.2) hj fun hx => hnot (List.mem_map_of_mem hx))

/-- The machines of the examples have a sorting `argsort`. -/
example (p : ℕ) : ∃ argsort : List (Ex.Flp p) → List ℕ, ∀ keys, IsArgsort (fun x y => x.val ≤ y.val) keys (argsort keys) := by
  refine ⟨fun keys => Ex.argsort (keys.map Ex.Flp.val), fun keys => ?_⟩
  obtain ⟨h1, h2⟩ := Ex.argsort_ok (keys.map Ex.Flp.val)
  rw [List.length_map] at h1
  refine ⟨h1, h2.imp fun {i j} h x y hx hy => h _ _ ?_ ?_⟩
  · rw [List.getElem?_map, hx, Option.map_some]
  · rw [List.getElem?_map, hy, Option.map_some]

/-- C117 for the example, at every resolution with `M ≤ 2 N`, `N ≤ 2 M`, on machines with more and more bits. -/
example (asym : Bool) : ∃ f, FieldsOf (fun b => surface (Ex.gentle asym).inp asym (selected (Ex.gentle asym).inp b)) 2 f ∧
    ∃ C, ∀ M N : ℕ, 1 ≤ M → M ≤ 2 * N → N ≤ 2 * M → (4 * M + 2) * (4 * N + 2) < 2 ^ 30 → ∃ D : ℝ, ∃ p₀, ∀ p ≥ p₀,
    ∃ t r, run false ({ Ex.st asym with
      inp := Ex.mapI (fun x => (⟨Ex.rnd p x⟩ : Ex.Flp p)) { (Ex.gentle asym).inp with mboz := M, nboz := N } }) =
        .ok (t, r) ∧
      ∀ disk, ShowsLargest (fun x y => x.val ≤ y.val) (fun argsort a => modeplot argsort disk (.object t) a) M N 2
        (fourierCos (f 1)) (2 * (C * gridError M N 7 + D * (4 / 2 ^ p))) := by
  obtain ⟨f, hf⟩ := Ex.gentle_fields asym
  obtain ⟨cf, tf, ef⟩ := hf 1 (by omega)
  obtain ⟨C, -, H⟩ := C117_largest (s₀ := Ex.gentle asym) (d := Ex.dims asym) (Ex.gentle_ready asym)
    (Ex.fieldPeriodic (α := ℝ) asym) (Ex.originOnce (α := ℝ) asym)
    (fun b hb => Ex.gentle_regular asym (Ex.selected_lt asym b hb)) (by show 1 ≤ 2; omega) 2 (ρ := 1 / 2)
    (by norm_num) (p := 7) (by omega)
  refine ⟨f, hf, C, fun M N hM h1 h2 hfit => ?_⟩
  have hr := Ex.gentle_ready_res asym hM hfit
  obtain ⟨K, hK, near⟩ := Ex.mapI_near hr
  obtain ⟨D, u₀, -, h0, G⟩ := H M N (by omega) (by exact_mod_cast h1) (by exact_mod_cast h2)
    (Ex.gentle_resolved asym (Ex.selected_lt asym 1 (by omega)) h1 h2) hr K hK
  obtain ⟨p₀, hp₀⟩ := Ex.bits h0
  refine ⟨D, p₀, fun p hp => ?_⟩
  obtain ⟨t, r, g1, g2⟩ := G (Ex.Flp p) (fun _ => True) Ex.Flp.val (4 / 2 ^ p) (Ex.flp_precision p) (Ex.flp_compares p)
    (hp₀ p hp) (fun x y => x.val ≤ y.val) (fun _ _ _ _ q => q) { Ex.st asym with
      inp := Ex.mapI (fun x => (⟨Ex.rnd p x⟩ : Ex.Flp p)) { (Ex.gentle asym).inp with mboz := M, nboz := N } }
    (Ex.mapI_ready _ hr) { near p with }
  exact ⟨t, r, g1, g2 (f 1) cf tf ef⟩

/-! ## From file to figure -/

/-- **C117, from file to figure.**  Let `f₀` be a `wout` file with exact numbers that `read_wout` accepts, `b₀` the equilibrium
it describes, `p` an order.  There is a constant `C`, and for every request that can be carried out, whose resolution (M, N) has
`M ≤ c N`, `N ≤ c M` and resolves the Boozer angles of the surfaces asked for, constants `D` and `u₀`, such that on every
machine of precision `u ≤ u₀`, where negating twice changes nothing, the following holds.  If the disk holds an input file with
this request and a `wout` file whose numbers are within `K u` of those of `f₀`, then `xbooz_xform` returns 0, and `modeplot`,
given the name of the `boozmn` file that it leaves, shows the largest Fourier coefficients of |B| on the surface of the last
entry of `jlist`, up to errors of `2 (C (1/ntheta^p + 1/nzeta^p) + D u)` in each comparison. -/
theorem C117_file {disk₀ : Disk ℝ} {path₀ : String} {f₀ : NcFile ℝ} {z : WoutSizes} {b₀ : St ℝ}
    (hd₀ : disk₀ path₀ = .nc f₀) (hz₀ : WoutShapes f₀ z) (hl₀ : readWout disk₀ path₀ false construct = .ok () b₀)
    (hi : ∀ k, k < (intsOf f₀ "xn_nyq").size → ((intsOf f₀ "xn_nyq").val 0 k).natAbs < 2147483648)
    (hns : z.ns ≤ 2147483644)
    (hfp : FieldPeriodic b₀.inp z.nfp.toNat) (ho : OriginOnce b₀.inp)
    (hreg : ∀ js : ℕ, (js : ℤ) < z.ns - 1 → (surface b₀.inp (decide (z.lasym ≠ 0)) js).Regular)
    (surfs : List ℤ) (hlen : surfs.length ≤ 2147483644) (c : ℝ) {ρ : ℝ} (hρ : ρ < 1) {p : ℕ} (hp2 : 2 ≤ p) :
    ∃ C, 0 ≤ C ∧ ∀ r : Request, r.surfs = surfs → CanRun f₀ z r → 1 ≤ torRes z r →
      (polRes z r : ℝ) ≤ c * torRes z r → (torRes z r : ℝ) ≤ c * polRes z r →
      (∀ j, Wanted z r j →
        (surface b₀.inp (decide (z.lasym ≠ 0)) j.toNat).ResolvedBy z.nfp.toNat (polRes z r) (torRes z r) ρ) →
      ∀ K : ℝ, 0 ≤ K → ∃ D u₀, 0 < u₀ ∧
      ∀ (α : Type) [Arith α] (fin : α → Prop) (val : α → ℝ) (u : ℝ), Precision α fin val u → Compares α fin val → u ≤ u₀ →
      (∀ x : α, - - x = x) → ∀ le : α → α → Prop, (∀ x y, fin x → fin y → le x y → val x ≤ val y) →
      ∀ (w : World α) (content : List Char) (path prog : String) (env : Env) (version : String) (f : NcFile α),
        w.disk path = .other content → Asks content r →
        w.disk ("wout_" ++ String.ofList r.ext ++ ".nc") = .nc f → WoutShapes f z → WoutNear fin val z (K * u) f f₀ →
        VersionOk version → NoFailure env →
        ∃ (w' : World α) (out : NcFile α) (nb : ℕ) (j : ℤ), driver env version [prog, path] w = .ok 0 w' ∧
          w'.disk ("boozmn_" ++ String.ofList r.ext ++ ".nc") = .nc out ∧ Wanted z r j ∧
          (∀ b i, FileInt out "jlist" b i → b < nb) ∧ FileInt out "jlist" (nb - 1) (j + 2) ∧ 1 ≤ nb ∧
          ∀ g : ℝ → ℝ → ℝ, Continuous (uncurry g) → TorusFn g →
            (surface b₀.inp (decide (z.lasym ≠ 0)) j.toNat).Expresses g (surface b₀.inp (decide (z.lasym ≠ 0)) j.toNat).B →
            ShowsLargest le
              (fun argsort a => modeplot argsort w'.disk (.file ("boozmn_" ++ String.ofList r.ext ++ ".nc")) a)
              (polRes z r) (torRes z r) z.nfp.toNat (fourierCos g)
              (2 * (C * gridError (polRes z r) (torRes z r) p + D * u)) := by
  obtain ⟨hg₀, hl₀'⟩ := wout_loaded hd₀ hz₀ hl₀
  obtain ⟨-, -, C₀, -⟩ := vmec_inv hg₀ hl₀'
  have hns2 : 2 ≤ z.ns := C₀.ns_ge
  by_cases hex : ∃ r : Request, r.surfs = surfs ∧ CanRun f₀ z r
  swap
  · exact ⟨0, le_rfl, fun r h1 h2 => absurd ⟨r, h1, h2⟩ hex⟩
  obtain ⟨r₁, rfl, hc₁⟩ := hex
  obtain ⟨l, hS, hl1, hl2, hmem⟩ := wantedVec_full (r := r₁) hns2
  have hr₁ := requested_ready hg₀ hl₀' hi hc₁ hS hl1
  have hsel : ∀ b (hb : b < l.length), (wantedVec z r₁).val 0 b = l[b] := fun b hb => by rw [hS, val_list hb]
  have range' : ∀ b < l.length, (((wantedVec z r₁).val 0 b).toNat : ℤ) < z.ns - 1 := fun b hb => by
    have := hr₁.surfs_range b hb
    have h1 : 0 ≤ (wantedVec z r₁).val 0 b := this.1
    have h2 : ((wantedVec z r₁).val 0 b) < ((z.ns - 1).toNat : ℕ) := this.2
    omega
  obtain ⟨C, hC, H⟩ := C117_largest (s₀ := settings (wantedVec z r₁) (polRes z r₁) (torRes z r₁) 1 b₀) hr₁ hfp ho
    (fun b hb => hreg _ (range' b hb)) hl1 c hρ hp2
  refine ⟨C, hC, fun r hrs hc hN hMN hNM hres K hK => ?_⟩
  have hlast : l.length - 1 < l.length := by omega
  have hwant : Wanted z r ((wantedVec z r₁).val 0 (l.length - 1)) := by
    have : Wanted z r ((wantedVec z r₁).val 0 (l.length - 1)) ↔ Wanted z r₁ ((wantedVec z r₁).val 0 (l.length - 1)) := by
      unfold Wanted; rw [hrs]
    rw [this, ← hmem, hsel _ hlast]
    exact List.getElem_mem hlast
  have hW : wantedVec z r = wantedVec z r₁ := by unfold wantedVec; rw [hrs]
  have hr := requested_ready hg₀ hl₀' hi hc (hW.trans hS) hl1
  obtain ⟨E, u₀, e0, p0, L⟩ := C71_load hg₀ hl₀' hK
  obtain ⟨D, v₀, hD, q, G⟩ := H (polRes z r) (torRes z r) hN hMN hNM (hres _ hwant) (by rw [hW] at hr; exact hr) E e0
  refine ⟨D, min u₀ v₀, lt_min p0 q,
    fun α _ fin val u hu hab hle hneg le hcmp w content path prog env version f hp ha hd hz hn hv he => ?_⟩
  obtain ⟨b, hb⟩ := loads_near hd₀ hz₀ hl₀ hd hz hn
  obtain ⟨hg, hl⟩ := wout_loaded hd hz hb
  have hx := hn.modes "xn_nyq" (by simp)
  obtain ⟨w', hw'⟩ := (C43_exact (prog := prog) hp ha hd hz hb (by rw [hx]; exact hi) hv he (by rw [hrs]; exact hlen)
    hns).1.2 ((canRun_near hn r).2 hc)
  obtain ⟨b1, t, rep, v, k1, k2, k3, k4⟩ := driver_inv hp ha hw'
  cases (show Out.ok () b1 = Out.ok () b from k1.symm.trans hb)
  have hmp := hc.1.mpol
  have e0 : (woutSizesOf f₀ z).mpol = z.mpol := rfl
  obtain ⟨e1, e2⟩ := res_eq (z := z) (r := r) (by omega)
  rw [requested_settings r hg hl, ← e1, ← e2, hW] at k2
  rw [woutSizes_near hn] at hg
  obtain ⟨r1, r2, r3, r4, r5⟩ := ready_loaded hg₀ hl₀' hg hl (sameModes_near hn) hr
  have R := r1
  rw [hW] at R
  have near := L α fin val u hu (hle.trans (min_le_left _ _)) _ _ b hg (sameModes_near hn) (argsNear_near hz hn) hl _ r2 r3 r4 r5
  obtain ⟨t', rep', q1, q2⟩ := G α fin val u hu hab (hle.trans (min_le_right _ _)) le hcmp
    (settings (wantedVec z r₁) (polRes z r) (torRes z r) 1 b) R { near with surfs := rfl }
  rw [k2] at q1
  cases q1
  have hflux : FluxOk (settings (wantedVec z r₁) (polRes z r) (torRes z r) 1 b).flux (z.ns - 1).toNat := by
    rw [vmec_result hg hl]
    exact .inl rfl
  have HR := run_hasResults R hl1 (by show l.length ≤ _; omega) (by show (z.ns - 1).toNat + 1 ≤ _; omega) hflux
  rw [← (run_false R k2).1] at HR
  obtain ⟨out, o1, o2⟩ := C34_layout HR hv k3
  have hj : HoldsSurfs out l.length (listVec l) := by
    have := o2.jlist
    rw [(run_false R k2).1] at this
    rw [← hS]
    exact this
  have hgrid : HalfGrid (settings (wantedVec z r₁) (polRes z r) (torRes z r) 1 b).inp.s_in (z.ns - 1).toNat := by
    have : HalfGrid b.inp.s_in (z.ns - 1).toNat := C33_loaded_grid hg hl
    exact this
  have hphi : (settings (wantedVec z r₁) (polRes z r) (torRes z r) 1 b).flux.phip.size ≠ 0 →
      ∃ x, (settings (wantedVec z r₁) (polRes z r) (torRes z r) 1 b).flux.phi[(z.ns - 1).toNat]? = some (some x) := by
    intro k
    rw [vmec_result hg hl] at k
    exact absurd rfl k
  obtain ⟨-, -, f3, -⟩ := C63_partial (any := w.disk) hneg R hgrid hl1 (by show l.length ≤ _; omega)
    (by show (z.ns - 1).toNat + 1 ≤ _; omega) hflux hphi k2 hv k3
  refine ⟨w', out, l.length, (wantedVec z r₁).val 0 (l.length - 1), hw', by rw [k4]; exact o1, hwant, fun b i hi => ?_,
    (fileSurf_iff hj).2 ⟨hlast, (hsel _ hlast).symm⟩, hl1, fun g cg tg eg => ?_⟩
  · have e : i = (i - 2) + 2 := by ring
    rw [e] at hi
    exact ((fileSurf_iff hj).1 hi).1
  have g3 : (fun argsort a => modeplot argsort v.core.disk (.file ("boozmn_" ++ String.ofList r.ext ++ ".nc")) a) =
      fun argsort a => modeplot argsort w.disk (.object t) a := funext fun s => funext (f3 s)
  rw [k4, g3]
  exact q2 g cg tg eg w.disk

/-- C117 for a `wout` file on the disk: the figure of its `boozmn` file. -/
example : ∃ b₀ : St ℝ, readWout (Ex.softWorld Ex.input).disk ("wout_" ++ String.ofList ['x'] ++ ".nc") false construct =
      .ok () b₀ ∧ ∃ C D : ℝ, ∃ p₀, ∀ p ≥ p₀, ∃ (w' : World (Ex.Flp p)) (j : ℤ) (g : ℝ → ℝ → ℝ),
    driver Ex.calm "0.0.1" ["xbooz_xform", "in"] (Ex.softWorld (α := Ex.Flp p) Ex.input) = .ok 0 w' ∧
      (surface b₀.inp false j.toNat).Expresses g (surface b₀.inp false j.toNat).B ∧
      ShowsLargest (fun x y => x.val ≤ y.val)
        (fun argsort a => modeplot argsort w'.disk (.file ("boozmn_" ++ String.ofList ['x'] ++ ".nc")) a) 16 8 2
        (fourierCos g) (2 * (C * gridError 16 8 9 + D * (4 / 2 ^ p))) := by
  obtain ⟨b₀, h₀⟩ := Ex.soft_loads (α := ℝ) Ex.input
  have s := Ex.softened h₀
  obtain ⟨hp', ho, hreg, hdet⟩ := Ex.softened_ok s
  refine ⟨b₀, h₀, ?_⟩
  have hi : ∀ k, k < (intsOf (Ex.soft (α := ℝ)) "xn_nyq").size →
      ((intsOf (Ex.soft (α := ℝ)) "xn_nyq").val 0 k).natAbs < 2147483648 := by
    rw [Ex.soft_ints (by decide)]
    exact Ex.wout_nyq
  obtain ⟨C, -, H⟩ := C117_file (Ex.softWorld_wout _) Ex.soft_shapes h₀ hi (by decide) hp' ho hreg [1, 0] (by decide)
    2 (ρ := 1 / 2) (by norm_num) (p := 9) (by norm_num)
  have eM : polRes (Ex.woutZ 0) Ex.request = 16 := rfl
  have eN : torRes (Ex.woutZ 0) Ex.request = 8 := rfl
  have en : (Ex.woutZ 0).ns = 4 := rfl
  have small : ∀ j, Wanted (Ex.woutZ 0) Ex.request j → j.toNat < 3 := by
    intro j hj
    have e : Ex.request.surfs = [1, 0] := rfl
    unfold Wanted at hj
    rw [e] at hj
    simp at hj
    omega
  obtain ⟨hg₀, hl₀'⟩ := wout_loaded (Ex.softWorld_wout _) Ex.soft_shapes h₀
  obtain ⟨l, hS, hl1, -, -⟩ := wantedVec_full (z := Ex.woutZ 0) (r := Ex.request) (by decide)
  have hr := requested_ready hg₀ hl₀' hi Ex.soft_can_run hS hl1
  obtain ⟨D, u₀, h0, G⟩ := H Ex.request rfl Ex.soft_can_run (by decide) (by rw [eM, eN]; norm_num)
    (by rw [eM, eN]; norm_num) (fun j hj => Ex.soft_resolved s (small j hj)) 100 (by norm_num)
  obtain ⟨p₀, hp₀⟩ := Ex.bits h0
  refine ⟨C, D, p₀, fun p hp => ?_⟩
  have neg : ∀ x : Ex.Flp p, - - x = x := fun x => congrArg Ex.Flp.mk (neg_neg x.val)
  obtain ⟨w', out, nb, j, g1, -, g2, -, -, -, g3⟩ := G (Ex.Flp p) _ Ex.Flp.val (4 / 2 ^ p) (Ex.flp_precision p)
    (Ex.flp_compares p) (hp₀ p hp) neg (fun x y => x.val ≤ y.val) (fun _ _ _ _ q => q)
    (Ex.softWorld Ex.input) Ex.input "in" "xbooz_xform" Ex.calm "0.0.1" Ex.soft (Ex.softWorld_in _) Ex.input_asks
    (Ex.softWorld_wout _) Ex.soft_shapes (Ex.soft_near p) Ex.version Ex.noFailure
  rw [eM, eN] at g3
  obtain ⟨g, hg⟩ := fields_exist hr hp' (nb := 1) (fun _ => j.toNat)
    (fun _ _ => hdet j.toNat (by have := small j g2; omega))
  obtain ⟨y1, y2, y3⟩ := hg 0 one_pos
  exact ⟨w', j, g 0, g1, y3, g3 (g 0) y1 y2 y3⟩

end Booz
