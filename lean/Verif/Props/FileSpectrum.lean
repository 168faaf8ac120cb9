import Verif.Spec.FileSpectrum
import Verif.Props.Driver
import Verif.Props.EndToEnd

/-!
# C91: the numbers in the `boozmn` file are the Boozer spectrum of the equilibrium in the `wout` file
-/

namespace Booz
open Spec Function

/-! ### Two `wout` files with nearby data load alike -/

section
variable {α : Type} [Arith α] {fin : α → Prop} {val : α → ℝ} {z : WoutSizes} {e : ℝ} {f : NcFile α} {f₀ : NcFile ℝ}

theorem woutSizes_near (h : WoutNear fin val z e f f₀) : woutSizesOf f z = woutSizesOf f₀ z := by
  unfold woutSizesOf
  rw [h.modes "xn_nyq" (by simp)]

theorem canRun_near (h : WoutNear fin val z e f f₀) (r : Request) : CanRun f z r ↔ CanRun f₀ z r := by
  have e1 := h.modes "xm" (by simp)
  have e2 := h.modes "xn" (by simp)
  have e3 := h.modes "xm_nyq" (by simp)
  have e4 := h.modes "xn_nyq" (by simp)
  unfold CanRun
  rw [woutSizes_near h, e3]
  have : ModesWithin (woutInp f z (construct : St α).inp) (woutSizesOf f₀ z)
        ((intsOf f₀ "xm_nyq").val 0 (z.mnmax_nyq.toNat - 1)) ↔
      ModesWithin (woutInp f₀ z (construct : St ℝ).inp) (woutSizesOf f₀ z)
        ((intsOf f₀ "xm_nyq").val 0 (z.mnmax_nyq.toNat - 1)) := by
    constructor
    · rintro ⟨a, b, c1, c2, c3, c4, g, i⟩
      simp only [woutInp, e1, e2, e3, e4] at c1 c2 c3 c4
      exact ⟨a, b, c1, c2, c3, c4, g, i⟩
    · rintro ⟨a, b, c1, c2, c3, c4, g, i⟩
      refine ⟨a, b, ?_, ?_, ?_, ?_, g, i⟩ <;> simp only [woutInp, e1, e2, e3, e4]
      · exact c1
      · exact c2
      · exact c3
      · exact c4
  rw [this]

theorem sameModes_near (h : WoutNear fin val z e f f₀) :
    SameModes (woutInp f z (construct : St α).inp) (woutInp f₀ z (construct : St ℝ).inp) where
  xm := h.modes "xm" (by simp)
  xn := h.modes "xn" (by simp)
  xm_nyq := h.modes "xm_nyq" (by simp)
  xn_nyq := h.modes "xn_nyq" (by simp)
  mpol_nyq := by
    show some _ = some _
    rw [h.modes "xm_nyq" (by simp)]

theorem matNear_data {r c : ℤ} (hr : 1 ≤ r) (hc : 1 ≤ c) {n : String}
    (h : VecNear fin val (r * c).toNat e (dblsOf f n) (dblsOf f₀ n)) :
    MatNear fin val r.toNat c.toNat e (woutMat f r c n) (woutMat f₀ r c n) := by
  intro i hi j hj
  rw [Int.toNat_mul (by omega) (by omega)] at h
  have hlt : j * r.toNat + i < r.toNat * c.toNat := Mat.idx_lt hi hj
  obtain ⟨x, y, h1, h2, h3⟩ := h _ hlt
  refine ⟨x, y, ?_, ?_, h3⟩
  · show (if _ then _ else _) = _
    rw [if_pos ⟨hi, hj⟩]; exact h1
  · show (if _ then _ else _) = _
    rw [if_pos ⟨hi, hj⟩]; exact h2

theorem argsNear_near (hz : WoutShapes f z) (h : WoutNear fin val z e f f₀) :
    ArgsNear fin val z.ns (woutSizesOf f₀ z) e (woutArgs f z false) (woutArgs f₀ z false) := by
  have a := hz.ns_pos
  have b := hz.mnmax_pos.1
  have c := hz.mnmax_nyq_pos.1
  have as : (woutSizesOf f₀ z).asym = true → z.lasym ≠ 0 := by simp [woutSizesOf]
  refine { iotas := h.iotas, rmnc := ?_, zmns := ?_, lmns := ?_, bmnc := ?_, bsubumnc := ?_, bsubvmnc := ?_,
           rmns := fun ha => ?_, zmnc := fun ha => ?_, lmnc := fun ha => ?_, bmns := fun ha => ?_,
           bsubumns := fun ha => ?_, bsubvmns := fun ha => ?_ }
  · exact matNear_data b a (h.mats "rmnc" (by simp))
  · exact matNear_data b a (h.mats "zmns" (by simp))
  · exact matNear_data b a (h.mats "lmns" (by simp))
  · exact matNear_data c a (h.mats_nyq "bmnc" (by simp))
  · exact matNear_data c a (h.mats_nyq "bsubumnc" (by simp))
  · exact matNear_data c a (h.mats_nyq "bsubvmnc" (by simp))
  all_goals
    have h0 := as ha
    unfold woutArgs
    simp only [if_pos h0]
  · exact matNear_data b a (h.asym h0 "rmns" (by simp))
  · exact matNear_data b a (h.asym h0 "zmnc" (by simp))
  · exact matNear_data b a (h.asym h0 "lmnc" (by simp))
  · exact matNear_data c a (h.asym_nyq h0 "bmns" (by simp))
  · exact matNear_data c a (h.asym_nyq h0 "bsubumns" (by simp))
  · exact matNear_data c a (h.asym_nyq h0 "bsubvmns" (by simp))

/-- If the exact file loads, so does the rounded one. -/
theorem loads_near {disk₀ : Disk ℝ} {path₀ : String} {b₀ : St ℝ} (hd₀ : disk₀ path₀ = .nc f₀) (hz₀ : WoutShapes f₀ z)
    (hl₀ : readWout disk₀ path₀ false construct = .ok () b₀) {disk : Disk α} {path : String}
    (hd : disk path = .nc f) (hz : WoutShapes f z) (h : WoutNear fin val z e f f₀) :
    ∃ b, readWout disk path false construct = .ok () b := by
  have hpres : ∀ n ∈ woutRequired false (decide (z.lasym ≠ 0)), f.var? n ≠ none := by
    rcases readWout_cases (flux := false) (s := construct) hd₀ hz₀ with ⟨-, s', h'⟩ | ⟨hp, -⟩
    · rw [h'] at hl₀; cases hl₀
    · exact fun n hn hv => hp n hn ((h.present n).1 hv)
  obtain ⟨hg₀, hl₀⟩ := wout_loaded hd₀ hz₀ hl₀
  obtain ⟨hf, hc, C, L⟩ := vmec_inv hg₀ hl₀
  have hg : Given (woutArgs f z false) (woutInp f z (construct : St α).inp) (woutSizesOf f z) :=
    wout_given hz hpres ⟨rfl, fun i hi => absurd hi (by simp [construct])⟩
  have e1 := h.modes "xm" (by simp)
  have e2 := h.modes "xn" (by simp)
  have e3 := h.modes "xm_nyq" (by simp)
  have e4 := h.modes "xn_nyq" (by simp)
  have a := hz.ns_pos
  have b := hz.mnmax_pos.1
  have c := hz.mnmax_nyq_pos.1
  have sh : ∀ {r : ℤ} (n : String), 1 ≤ r → Shape (woutMat f r z.ns n) r z.ns := fun n hr =>
    ⟨Int.toNat_of_nonneg (by omega), Int.toNat_of_nonneg (by omega)⟩
  rw [woutSizes_near h] at hg
  have C' : Consistent z.ns (woutArgs f z false) (woutInp f z (construct : St α).inp) (woutSizesOf f₀ z) := by
    refine { ns_ge := C.ns_ge, nfp_ge := C.nfp_ge, iotas := ?_, flux := fun h0 => absurd rfl h0, modes := ?_,
             modes_nyq := ?_, rmnc := sh _ b, zmns := sh _ b, lmns := sh _ b, bmnc := sh _ c,
             bsubumnc := sh _ c, bsubvmnc := sh _ c, asym := fun ha => ?_, surfs := fun j hj => ?_ }
    · have := (dblsOf_full hz.iotas (hpres "iotas" (mem_base (by decide)))).1
      show ((dblsOf f "iotas").size : ℤ) = z.ns
      omega
    · have := C.modes
      show ModeList (intsOf f "xm") (intsOf f "xn") _ _
      rw [e1, e2]; exact this
    · have := C.modes_nyq
      show ModeList (intsOf f "xm_nyq") (intsOf f "xn_nyq") _ _
      rw [e3, e4]; exact this
    · have h0 : z.lasym ≠ 0 := by simpa [woutSizesOf] using ha
      unfold woutArgs
      simp only [if_pos h0]
      exact ⟨sh _ b, sh _ b, sh _ b, sh _ c, sh _ c, sh _ c⟩
    · exact absurd hj (by simp [woutInp, construct])
  have L' : Loadable z.ns (woutArgs f z false) (woutInp f z (construct : St α).inp) (woutSizesOf f₀ z) := by
    refine { axis := ?_, print := .inl (by show (1 : ℤ) ≤ 1; decide), fit_m := L.fit_m, fit_n := L.fit_n,
             fit_n1 := L.fit_n1 }
    have := L.axis
    show ∀ j, j < (intsOf f "xm").size → (intsOf f "xm").val 0 j = 1 → 3 ≤ z.ns
    rw [e1]; exact this
  rw [C39_loads false construct hd hz hpres]
  exact ⟨_, vmec_ok hf hg hc C' L'⟩

/-! ### What the driver runs -/

/-- The surfaces the driver selects. -/
def wantedVec (z : WoutSizes) (r : Request) : Vec ℤ :=
  if r.surfs.length > 0 then listVec (sorted r.surfs) else Vec.tab (z.ns - 1).toNat fun j => (j : ℤ)

theorem requested_settings {b : St α} (r : Request)
    (hg : Given (woutArgs f z false) (woutInp f z (construct : St α).inp) (woutSizesOf f z))
    (hl : initFromVmec z.ns (woutArgs f z false) { (construct : St α) with
      inp := woutInp f z (construct : St α).inp } = .ok () b) :
    requested r b = settings (wantedVec z r) (max (6 * z.mpol) r.mboz) (max (max (2 * z.ntor - 1) 0) r.nboz) 1 b := by
  have hb := vmec_result hg hl
  subst hb
  rfl

omit [Arith α] in
theorem wantedVec_full {r : Request} (hns : 2 ≤ z.ns) :
    ∃ l : List ℤ, wantedVec z r = listVec l ∧ 1 ≤ l.length ∧
      (l.length = r.surfs.length ∨ (l.length : ℤ) = z.ns - 1) ∧ ∀ j, j ∈ l ↔ Wanted z r j := by
  unfold wantedVec Wanted
  by_cases h0 : r.surfs = []
  · obtain ⟨l, e, hlen⟩ := full_list (Vec.full_tab (z.ns - 1).toNat fun j => (j : ℤ))
    have hv : ∀ k (hk : k < l.length), l[k] = (k : ℤ) := fun k hk => by
      rw [← val_list hk, ← e, Vec.val_tab (by omega)]
    refine ⟨l, ?_, by omega, .inr (by omega), fun j => ?_⟩
    · rw [h0]; exact e
    · rw [h0]
      constructor
      · intro hj
        obtain ⟨k, hk, rfl⟩ := List.mem_iff_getElem.1 hj
        rw [hv k hk]
        exact .inr ⟨rfl, by omega, by omega⟩
      · rintro (hj | ⟨-, h1, h2⟩)
        · cases hj
        · refine List.mem_iff_getElem.2 ⟨j.toNat, by omega, ?_⟩
          rw [hv _ (by omega)]
          omega
  · have hpos := List.length_pos_iff.mpr h0
    have hlen : (sorted r.surfs).length = r.surfs.length := (sorted_perm _).length_eq
    refine ⟨sorted r.surfs, if_pos hpos, by omega, .inl hlen, fun j => ?_⟩
    rw [(sorted_perm _).mem_iff]
    exact ⟨.inl, fun h => h.elim id fun h => absurd h.1 h0⟩

/-- What the driver did if it returned. -/
theorem driver_inv {content : List Char} {r : Request} {path prog : String} {w w' : World α}
    {env : Env} {version : String} {code : Int} (hp : w.disk path = .other content) (ha : Asks content r)
    (h : driver env version [prog, path] w = .ok code w') : ∃ b b' rep v,
      readWout w.disk r.wout false construct = .ok () b ∧ run false (requested r b) = .ok (b', rep) ∧
      writeBoozmn env version r.boozmn w.disk b' = .ok () v ∧ w'.disk = v.core.disk := by
  obtain ⟨c, e⟩ := driverMain_eq hp ha env version
  replace h : driverMain env version path w = .ok code w' := h
  rw [e] at h
  obtain ⟨_, w1, h1, h2⟩ := prog_bind_ok h
  cases h2
  rw [calculate_eq] at h1
  obtain ⟨b, w2, h3, h4⟩ := prog_bind_ok h1
  obtain ⟨⟨_, h5⟩, rfl⟩ := call_inv h3
  obtain ⟨b', rep, v, h6, h7, h8⟩ := finish_inv h4
  exact ⟨b, b', rep, v, h5, h6, h7, h8⟩

end

/-! ### The file -/

section
variable {α : Type} [Arith α] {fin : α → Prop} {val : α → ℝ}

omit [Arith α] in
theorem cell_of_rdN {a : Mat α} {k b : ℕ} {x : α} (h : a.rdN k b = .ok x) : cell a k b = some x := by
  unfold Mat.rdN at h
  split at h
  · unfold Vec.rdN at h
    unfold cell
    split at h
    · rename_i y hy
      cases h
      rw [hy]; rfl
    · cases h
    · cases h
  · cases h

/-- The numbers of the outputs are in the file. -/
theorem file_spectrum {out : NcFile α} {version : String} {t : St α} {d : Dims} {u e : ℝ} {S : Surface}
    (hu : Precision α fin val u) (hl : Layout out version t d.nmodes d.nsb d.ns d.asym) {k b : ℕ} {m n : ℤ}
    (hk : k < d.nmodes) (hb : b < d.nsb) (h : IsFinBoozerSpectrum fin val t.out S d.asym k b m n e) :
    FileSpectrum fin val out S d.asym d.nmodes k b m n e := by
  have pos : ∀ {a : Mat α} {name : String} {r : ℝ}, HoldsMat out d.nmodes d.nsb name id a →
      (∃ x, a.rdN k b = .ok x ∧ fin x ∧ |val x - r| ≤ e) →
      ∃ v c x, out.var? name = some v ∧ v.dims = ["pack_rad", "mn_modes"] ∧ v.data = .dbls c ∧
        c[b * d.nmodes + k]? = some (some x) ∧ fin x ∧ |val x - 1 * r| ≤ e := by
    rintro a name r ⟨v, c, h1, h2, h3, -, h4⟩ ⟨x, g1, g2, g3⟩
    refine ⟨v, c, x, h1, h2, h3, ?_, g2, by rwa [one_mul]⟩
    rw [h4 b hb k hk, cell_of_rdN g1]
    rfl
  have neg : ∀ {a : Mat α} {name : String} {r : ℝ}, HoldsMat out d.nmodes d.nsb name (- ·) a →
      (∃ x, a.rdN k b = .ok x ∧ fin x ∧ |val x - r| ≤ e) →
      ∃ v c x, out.var? name = some v ∧ v.dims = ["pack_rad", "mn_modes"] ∧ v.data = .dbls c ∧
        c[b * d.nmodes + k]? = some (some x) ∧ fin x ∧ |val x - -1 * r| ≤ e := by
    rintro a name r ⟨v, c, h1, h2, h3, -, h4⟩ ⟨x, g1, g2, g3⟩
    obtain ⟨n1, n2⟩ := hu.neg x g2
    refine ⟨v, c, -x, h1, h2, h3, ?_, n1, ?_⟩
    · rw [h4 b hb k hk, cell_of_rdN g1]
      rfl
    · rw [n2, show -val x - -1 * r = -(val x - r) by ring, abs_neg]
      exact g3
  exact
    { bmnc := fun g c t x => pos hl.bmnc_b (h.bmnc g c t x)
      rmnc := fun g c t x => pos hl.rmnc_b (h.rmnc g c t x)
      zmns := fun g c t x => pos hl.zmns_b (h.zmns g c t x)
      pmns := fun g c t x => neg hl.pmns_b (h.numns g c t x)
      gmn := fun g c t x => pos hl.gmn_b (h.gmnc g c t x)
      bmns := fun ha g c t x => pos (hl.asym_vars ha).1 (h.bmns ha g c t x)
      rmns := fun ha g c t x => pos (hl.asym_vars ha).2.1 (h.rmns ha g c t x)
      zmnc := fun ha g c t x => pos (hl.asym_vars ha).2.2.1 (h.zmnc ha g c t x)
      pmnc := fun ha g c t x => neg (hl.asym_vars ha).2.2.2.1 (h.numnc ha g c t x)
      gmns := fun ha g c t x => pos (hl.asym_vars ha).2.2.2.2 (h.gmns ha g c t x) }

omit [Arith α] in
theorem fileInt_iff {out : NcFile α} {dim name : String} {a : Vec ℤ} (h : HoldsInts out dim name a) {i : ℕ} {x : ℤ} :
    FileInt out name i x ↔ a[i]? = some (some x) := by
  obtain ⟨v, h1, -, h2⟩ := h
  constructor
  · rintro ⟨v', c, g1, g2, g3⟩
    rw [h1] at g1
    cases g1
    rw [h2] at g2
    cases g2
    exact g3
  · exact fun g => ⟨v, a, h1, h2, g⟩

omit [Arith α] in
theorem fileSurf_iff {out : NcFile α} {l : List ℤ} (h : HoldsSurfs out l.length (listVec l)) {b : ℕ} {j : ℤ} :
    FileInt out "jlist" b (j + 2) ↔ ∃ hb : b < l.length, l[b] = j := by
  obtain ⟨v, c, h1, -, h2, h3, h4⟩ := h
  have key : ∀ b (hb : b < l.length), c[b]? = some (some (l[b] + 2)) := by
    intro b hb
    obtain ⟨x, g1, g2⟩ := h4 b hb
    have : x = l[b] := by
      have : (listVec l)[b]? = some (some l[b]) := by simp [listVec, hb]
      rw [this] at g1
      cases g1
      rfl
    rw [g2, this]
  constructor
  · rintro ⟨v', c', g1, g2, g3⟩
    rw [h1] at g1
    cases g1
    rw [h2] at g2
    cases g2
    have hb : b < l.length := by
      rw [← h3]
      by_contra hb
      rw [Array.getElem?_eq_none (by omega)] at g3
      cases g3
    refine ⟨hb, ?_⟩
    rw [key b hb] at g3
    have := Option.some.inj (Option.some.inj g3)
    omega
  · rintro ⟨hb, rfl⟩
    exact ⟨v, c, h1, h2, key b hb⟩

end

/-! ### C91 -/

theorem full_listVec (l : List ℤ) : (listVec l).Full l.length := by
  refine ⟨by simp [listVec], fun k hk => ⟨l[k], ?_⟩⟩
  simp [listVec, hk]

theorem res_eq {z : WoutSizes} {r : Request} (hm : 0 ≤ z.mpol) :
    ((polRes z r : ℕ) : ℤ) = max (6 * z.mpol) r.mboz ∧
    ((torRes z r : ℕ) : ℤ) = max (max (2 * z.ntor - 1) 0) r.nboz := by
  unfold polRes torRes
  constructor <;> rw [Int.toNat_of_nonneg] <;> omega

theorem requested_ready {α : Type} [Arith α] {f : NcFile α} {z : WoutSizes} {b : St α} {r : Request}
    (hg : Given (woutArgs f z false) (woutInp f z (construct : St α).inp) (woutSizesOf f z))
    (hl : initFromVmec z.ns (woutArgs f z false) { (construct : St α) with
      inp := woutInp f z (construct : St α).inp } = .ok () b)
    (hi : ∀ k, k < (intsOf f "xn_nyq").size → ((intsOf f "xn_nyq").val 0 k).natAbs < 2147483648)
    (hr : CanRun f z r) {l : List ℤ} (hS : wantedVec z r = listVec l) (h1 : 1 ≤ l.length) :
    RunReady (settings (wantedVec z r) (polRes z r) (torRes z r) 1 b).inp
      ((loadedContents z.ns (woutSizesOf f z) ((intsOf f "xm_nyq").val 0 (z.mnmax_nyq.toNat - 1)) l.length).dims
        (polRes z r) (torRes z r)) := by
  obtain ⟨_, _, _, _, h5, _⟩ := requested_run (r := r) hg hl hi
  obtain ⟨x, hx⟩ := h5.2 hr
  have hm := hr.1.mpol
  have e0 : (woutSizesOf f z).mpol = z.mpol := rfl
  obtain ⟨e1, e2⟩ := res_eq (z := z) (r := r) (by omega)
  rw [requested_settings r hg hl, ← e1, ← e2, hS] at hx
  rw [hS]
  exact chosen_ready hg hl rfl hi 1 _ _ (by omega) (full_listVec l) h1 hx

theorem getElem?_mapSome {β : Type} (l : List β) (g : β → ℤ) (k : ℕ) (x : ℤ) :
    (l.map fun a => some (g a)).toArray[k]? = some (some x) ↔ ∃ h : k < l.length, g l[k] = x := by
  rw [List.getElem?_toArray, List.getElem?_map]
  constructor
  · intro h
    by_cases hk : k < l.length
    · rw [List.getElem?_eq_getElem hk] at h
      exact ⟨hk, Option.some.inj (Option.some.inj h)⟩
    · rw [List.getElem?_eq_none (by omega)] at h
      cases h
  · rintro ⟨hk, rfl⟩
    rw [List.getElem?_eq_getElem hk]
    rfl

/-- **C91.**  Let `f₀` be a `wout` file with exact numbers that `read_wout` accepts, `b₀` the equilibrium it describes,
(m, n) a mode and `p` an order.  There is a constant `C`, and for every request that can be carried out a constant `D`
and a precision `u₀`, such that on every machine of precision `u ≤ u₀` the following holds.  If the disk holds an input
file with this request and a `wout` file whose numbers are within `K u` of those of `f₀`, then `xbooz_xform` returns 0
and leaves a `boozmn` file that has the requested surfaces and modes and holds, for the mode (m, n), finite numbers
within `C (1/ntheta^p + 1/nzeta^p) + D u` of the Fourier coefficients in Boozer angles of the equilibrium. -/
theorem C91_file {disk₀ : Disk ℝ} {path₀ : String} {f₀ : NcFile ℝ} {z : WoutSizes} {b₀ : St ℝ}
    (hd₀ : disk₀ path₀ = .nc f₀) (hz₀ : WoutShapes f₀ z) (hl₀ : readWout disk₀ path₀ false construct = .ok () b₀)
    (hi : ∀ k, k < (intsOf f₀ "xn_nyq").size → ((intsOf f₀ "xn_nyq").val 0 k).natAbs < 2147483648)
    (hns : z.ns ≤ 2147483644)
    (hfp : FieldPeriodic b₀.inp z.nfp.toNat) (ho : OriginOnce b₀.inp)
    (hreg : ∀ js : ℕ, (js : ℤ) < z.ns - 1 → (surface b₀.inp (decide (z.lasym ≠ 0)) js).Regular)
    (surfs : List ℤ) (hlen : surfs.length ≤ 2147483644) (m n : ℤ) {p : ℕ} (hp1 : 1 ≤ p) :
    ∃ C, ∀ r : Request, r.surfs = surfs → CanRun f₀ z r → ∀ K : ℝ, 0 ≤ K → ∃ D u₀, 0 < u₀ ∧
      ∀ (α : Type) [Arith α] (fin : α → Prop) (val : α → ℝ) (u : ℝ), Precision α fin val u → u ≤ u₀ →
      ∀ (w : World α) (content : List Char) (path prog : String) (env : Env) (version : String) (f : NcFile α),
        w.disk path = .other content → Asks content r →
        w.disk ("wout_" ++ String.ofList r.ext ++ ".nc") = .nc f → WoutShapes f z → WoutNear fin val z (K * u) f f₀ →
        VersionOk version → NoFailure env →
        ∃ w' out, driver env version [prog, path] w = .ok 0 w' ∧
          w'.disk ("boozmn_" ++ String.ofList r.ext ++ ".nc") = .nc out ∧
          Delivers fin val out z r b₀.inp m n (C * gridError (polRes z r) (torRes z r) p + D * u) := by
  obtain ⟨hg₀, hl₀'⟩ := wout_loaded hd₀ hz₀ hl₀
  obtain ⟨-, -, C₀, -⟩ := vmec_inv hg₀ hl₀'
  have hns2 : 2 ≤ z.ns := C₀.ns_ge
  by_cases hex : ∃ r : Request, r.surfs = surfs ∧ CanRun f₀ z r
  swap
  · exact ⟨0, fun r h1 h2 => absurd ⟨r, h1, h2⟩ hex⟩
  obtain ⟨r₁, rfl, hc₁⟩ := hex
  obtain ⟨l, hS, hl1, hl2, hmem⟩ := wantedVec_full (r := r₁) hns2
  have hr₁ := requested_ready hg₀ hl₀' hi hc₁ hS hl1
  have hsel : ∀ b (hb : b < l.length), (wantedVec z r₁).val 0 b = l[b] := fun b hb => by rw [hS, val_list hb]
  obtain ⟨C, H⟩ := C73_load_spectrum hg₀ hl₀' hr₁ hfp ho (fun b hb => by
    have := hr₁.surfs_range b hb
    refine hreg _ ?_
    have h2 : ((wantedVec z r₁).val 0 b) < ((z.ns - 1).toNat : ℕ) := this.2
    omega) m n hp1
  refine ⟨C, fun r hrs hc K hK => ?_⟩
  have hW : wantedVec z r = wantedVec z r₁ := by unfold wantedVec; rw [hrs]
  have hr := requested_ready hg₀ hl₀' hi hc (hW.trans hS) hl1
  obtain ⟨D, u₀, h0, G⟩ := H (polRes z r) (torRes z r) (by rw [← hW]; exact hr) K hK
  refine ⟨D, u₀, h0, fun α _ fin val u hu hle w content path prog env version f hp ha hd hz hn hv he => ?_⟩
  obtain ⟨b, hb⟩ := loads_near hd₀ hz₀ hl₀ hd hz hn
  obtain ⟨hg, hl⟩ := wout_loaded hd hz hb
  have hx := hn.modes "xn_nyq" (by simp)
  obtain ⟨w', hw'⟩ := (C43_exact (prog := prog) hp ha hd hz hb (by rw [hx]; exact hi) hv he (by rw [hrs]; exact hlen)
    hns).1.2 ((canRun_near hn r).2 hc)
  obtain ⟨b1, t, rep, v, k1, k2, k3, k4⟩ := driver_inv hp ha hw'
  cases (show Out.ok () b1 = Out.ok () b from k1.symm.trans hb)
  have hmp := hc.1.mpol
  have e0 : (woutSizesOf f₀ z).mpol = z.mpol := rfl
  obtain ⟨e1, e2⟩ := res_eq (z := z) (r := r) (by omega)
  rw [requested_settings r hg hl, ← e1, ← e2, hW] at k2
  rw [woutSizes_near hn] at hg
  obtain ⟨t', rep', q1, q2⟩ := G α fin val u hu hle _ _ b hg (sameModes_near hn) (argsNear_near hz hn) hl
  rw [k2] at q1
  cases q1
  have R := (ready_loaded hg₀ hl₀' hg hl (sameModes_near hn) hr).1
  rw [hW] at R
  have hflux : FluxOk (settings (wantedVec z r₁) (polRes z r) (torRes z r) 1 b).flux (z.ns - 1).toNat := by
    rw [vmec_result hg hl]
    exact .inl rfl
  have HR := run_hasResults R hl1 (by show l.length ≤ _; omega) (by show (z.ns - 1).toNat + 1 ≤ _; omega) hflux
  rw [← (run_false R k2).1] at HR
  obtain ⟨out, o1, o2⟩ := C34_layout HR hv k3
  refine ⟨w', out, hw', by rw [k4]; exact o1, ?_⟩
  have hj : HoldsSurfs out l.length (listVec l) := by
    have := o2.jlist
    rw [(run_false R k2).1] at this
    rw [← hS]
    exact this
  obtain ⟨ml, m1, m2, m3, -, -, -, -, m4⟩ := C02_mode_list R k2
  have hm' : ∀ k x, FileInt out "ixm_b" k x ↔ ∃ h : k < ml.length, ml[k].1 = x := fun k x => by
    rw [fileInt_iff o2.ixm_b, m1]
    exact getElem?_mapSome _ _ _ _
  have hn' : ∀ k x, FileInt out "ixn_b" k x ↔ ∃ h : k < ml.length, ml[k].2 = x := fun k x => by
    rw [fileInt_iff o2.ixn_b, m2]
    exact getElem?_mapSome _ _ _ _
  refine ⟨fun j => ?_, ?_, fun b' k j g1 g2 g3 => ?_⟩
  · have : Wanted z r j ↔ Wanted z r₁ j := by unfold Wanted; rw [hrs]
    rw [this, ← hmem, List.mem_iff_getElem]
    exact exists_congr fun b => (fileSurf_iff hj).symm
  · refine (m4 (m, n)).symm.trans ?_
    rw [List.mem_iff_getElem]
    refine exists_congr fun k => ?_
    rw [hm', hn']
    constructor
    · rintro ⟨h, e⟩
      exact ⟨⟨h, by rw [e]⟩, h, by rw [e]⟩
    · rintro ⟨⟨h, e⟩, _, e'⟩
      exact ⟨h, Prod.ext e e'⟩
  · obtain ⟨hb', rfl⟩ := (fileSurf_iff hj).1 g1
    obtain ⟨hk, e⟩ := (hm' k m).1 g2
    obtain ⟨_, e'⟩ := (hn' k n).1 g3
    have hk' : k < numModes (polRes z r) (torRes z r) := m3 ▸ hk
    have := q2 b' hb' k hk' (by rw [m1, ← e]; simp [Vec.rdN, hk]) (by rw [m2, ← e']; simp [Vec.rdN, hk])
    rw [hsel b' hb'] at this
    exact file_spectrum hu o2 hk' hb' this

/-- **C91, Python.**  The same for the Python script, if the input file has no separators and no overlong words (C44). -/
theorem C91_python {α : Type} [Arith α] {fin : α → Prop} {val : α → ℝ} {z : WoutSizes} {r : Request} {I : Inputs ℝ}
    {m n : ℤ} {e : ℝ} {w w' : World α} {content : List Char} {path prog : String} {env : Env} {version : String}
    {out : NcFile α} (hp : w.disk path = .other content) (ha : Asks content r) (hs : NoSeparators content)
    (hw : ShortWords content) (pkg : String) (h : driver env version [prog, path] w = .ok 0 w')
    (ho : w'.disk ("boozmn_" ++ String.ofList r.ext ++ ".nc") = .nc out) (hd : Delivers fin val out z r I m n e) :
    ∃ w'' out', pyMain env version pkg [path] w = .ok 0 w'' ∧
      w''.disk ("boozmn_" ++ String.ofList r.ext ++ ".nc") = .nc out' ∧ Delivers fin val out' z r I m n e := by
  have := (C44_partial (prog := prog) hp ha hs hw env version pkg).2
  rw [h] at this
  cases hq : pyMain env version pkg [path] w <;> rw [hq] at this <;> cases this
  rename_i w'' hd'
  exact ⟨w'', out, rfl, by rw [← hd']; exact ho, hd⟩

/-! Non-vacuity: the example file, with its numbers rounded to more and more bits. -/

theorem Ex.data_near {α : Type} [Arith α] {fin : α → Prop} {val : α → ℝ} {r c : ℕ} {e : ℝ} {a : Mat α} {b : Mat ℝ}
    (ha : a.rows = r) (hb : b.rows = r) (h : MatNear fin val r c e a b) : VecNear fin val (r * c) e a.data b.data := by
  intro k hk
  have hr : 0 < r := Nat.pos_of_ne_zero fun h0 => by simp [h0] at hk
  have h1 : k % r < r := Nat.mod_lt _ hr
  have h2 : k / r < c := Nat.div_lt_of_lt_mul hk
  have h3 : k / r * r + k % r = k := Nat.div_add_mod' k r
  obtain ⟨x, y, g1, g2, g3⟩ := h _ h1 _ h2
  refine ⟨x, y, ?_, ?_, g3⟩
  · unfold Mat.rdN at g1
    split at g1
    · rwa [ha, h3] at g1
    · cases g1
  · unfold Mat.rdN at g2
    split at g2
    · rwa [hb, h3] at g2
    · cases g2

theorem Ex.var_none {α : Type} [Arith α] (n : String) : (Ex.wout (α := α) 0).var? n = none ↔ n ∉ Ex.woutNames := by
  rw [← Ex.wout_names (α := α) 0]
  unfold NcFile.var?
  rw [List.find?_eq_none]
  simp

theorem Ex.wout_near (p : ℕ) : WoutNear (fun _ => True) Ex.Flp.val (Ex.woutZ 0) (100 * (4 / 2 ^ p))
    (Ex.wout (α := Ex.Flp p) 0) (Ex.wout (α := ℝ) 0) := by
  have A := Ex.args_near false p
  refine { present := fun n => ?_, modes := fun n hn => ?_, iotas := ?_, mats := fun n hn => ?_,
           mats_nyq := fun n hn => ?_, asym := fun h => absurd rfl h, asym_nyq := fun h => absurd rfl h }
  · rw [Ex.var_none, Ex.var_none]
  · simp only [List.mem_cons, List.not_mem_nil, or_false] at hn
    rcases hn with rfl | rfl | rfl | rfl
    · rw [Ex.wout_ints (n := "xm") (α := Ex.Flp p) 0 13 rfl rfl rfl,
      Ex.wout_ints (n := "xm") (α := ℝ) 0 13 rfl rfl rfl]
    · rw [Ex.wout_ints (n := "xn") (α := Ex.Flp p) 0 14 rfl rfl rfl,
      Ex.wout_ints (n := "xn") (α := ℝ) 0 14 rfl rfl rfl]
    · rw [Ex.wout_ints (n := "xm_nyq") (α := Ex.Flp p) 0 15 rfl rfl rfl,
      Ex.wout_ints (n := "xm_nyq") (α := ℝ) 0 15 rfl rfl rfl]
    · rw [Ex.wout_ints (n := "xn_nyq") (α := Ex.Flp p) 0 16 rfl rfl rfl,
      Ex.wout_ints (n := "xn_nyq") (α := ℝ) 0 16 rfl rfl rfl]
  · rw [Ex.wout_dbls (n := "iotas") (α := Ex.Flp p) 0 12 rfl rfl rfl,
      Ex.wout_dbls (n := "iotas") (α := ℝ) 0 12 rfl rfl rfl]
    exact A.iotas
  · simp only [List.mem_cons, List.not_mem_nil, or_false] at hn
    rcases hn with rfl | rfl | rfl
    · rw [Ex.wout_dbls (n := "rmnc") (α := Ex.Flp p) 0 17 rfl rfl rfl,
      Ex.wout_dbls (n := "rmnc") (α := ℝ) 0 17 rfl rfl rfl]
      exact Ex.data_near rfl rfl A.rmnc
    · rw [Ex.wout_dbls (n := "zmns") (α := Ex.Flp p) 0 18 rfl rfl rfl,
      Ex.wout_dbls (n := "zmns") (α := ℝ) 0 18 rfl rfl rfl]
      exact Ex.data_near rfl rfl A.zmns
    · rw [Ex.wout_dbls (n := "lmns") (α := Ex.Flp p) 0 19 rfl rfl rfl,
      Ex.wout_dbls (n := "lmns") (α := ℝ) 0 19 rfl rfl rfl]
      exact Ex.data_near rfl rfl A.lmns
  · simp only [List.mem_cons, List.not_mem_nil, or_false] at hn
    rcases hn with rfl | rfl | rfl
    · rw [Ex.wout_dbls (n := "bmnc") (α := Ex.Flp p) 0 20 rfl rfl rfl,
      Ex.wout_dbls (n := "bmnc") (α := ℝ) 0 20 rfl rfl rfl]
      exact Ex.data_near rfl rfl A.bmnc
    · rw [Ex.wout_dbls (n := "bsubumnc") (α := Ex.Flp p) 0 21 rfl rfl rfl,
      Ex.wout_dbls (n := "bsubumnc") (α := ℝ) 0 21 rfl rfl rfl]
      exact Ex.data_near rfl rfl A.bsubumnc
    · rw [Ex.wout_dbls (n := "bsubvmnc") (α := Ex.Flp p) 0 22 rfl rfl rfl,
      Ex.wout_dbls (n := "bsubvmnc") (α := ℝ) 0 22 rfl rfl rfl]
      exact Ex.data_near rfl rfl A.bsubvmnc

/-- The example: harmonic (3, -2) of both surfaces asked for, from both drivers. -/
example : ∃ b₀ : St ℝ, readWout (Ex.world Ex.input).disk ("wout_" ++ String.ofList ['x'] ++ ".nc") false construct =
      .ok () b₀ ∧ ∃ C D : ℝ, ∃ p₀, ∀ p ≥ p₀, ∃ w' out,
    driver Ex.calm "0.0.1" ["xbooz_xform", "in"] (Ex.world (α := Ex.Flp p) Ex.input) = .ok 0 w' ∧
    w'.disk ("boozmn_" ++ String.ofList ['x'] ++ ".nc") = .nc out ∧
    Delivers (fun _ => True) Ex.Flp.val out (Ex.woutZ 0) Ex.request b₀.inp 3 (-2)
      (C * gridError 16 8 5 + D * (4 / 2 ^ p)) ∧
    ∃ w'' out', pyMain Ex.calm "0.0.1" "0.0.8" ["in"] (Ex.world (α := Ex.Flp p) Ex.input) = .ok 0 w'' ∧
      w''.disk ("boozmn_" ++ String.ofList ['x'] ++ ".nc") = .nc out' ∧
      Delivers (fun _ => True) Ex.Flp.val out' (Ex.woutZ 0) Ex.request b₀.inp 3 (-2)
        (C * gridError 16 8 5 + D * (4 / 2 ^ p)) := by
  obtain ⟨b₀, h₀⟩ := Ex.wout_loads (α := ℝ) Ex.input
  obtain ⟨hg, hl⟩ := wout_loaded (Ex.world_wout _) (Ex.shapes 0) h₀
  have e := vmec_result hg hl
  rw [Ex.wout_args_noflux, Ex.wout_inp, Ex.wout_sizes] at e
  have e5 : b₀.inp.xm_nyq = Ex.vec [0, 0, 1, 2] := by rw [e]; rfl
  have e6 : b₀.inp.xn_nyq = Ex.vec [0, 2, 0, 2] := by rw [e]; rfl
  have e7 : b₀.inp.xn = Ex.vec [0, 2, 2] := by rw [e]; rfl
  have hp : FieldPeriodic b₀.inp 2 := by
    unfold FieldPeriodic
    rw [e6, e7]
    decide
  have ho : OriginOnce b₀.inp := by
    unfold OriginOnce
    rw [e5, e6]
    decide
  have hreg : ∀ js : ℕ, (js : ℤ) < 4 - 1 → (surface b₀.inp false js).Regular := fun js hj => by
    refine Ex.regular_of ?_ ?_ ?_ ?_ e5 e6 (by omega) <;> rw [e] <;> rfl
  refine ⟨b₀, h₀, ?_⟩
  obtain ⟨C, H⟩ := C91_file (Ex.world_wout _) (Ex.shapes 0) h₀ Ex.wout_nyq (by decide) hp ho hreg [1, 0] (by decide)
    3 (-2) (p := 5) (by omega)
  obtain ⟨D, u₀, h0, G⟩ := H Ex.request rfl Ex.can_run 100 (by norm_num)
  obtain ⟨p₀, hp₀⟩ := Ex.bits h0
  refine ⟨C, D, p₀, fun p hp => ?_⟩
  obtain ⟨w', out, g1, g2, g3⟩ := G (Ex.Flp p) _ Ex.Flp.val (4 / 2 ^ p) (Ex.flp_precision p) (hp₀ p hp)
    (Ex.world Ex.input) Ex.input "in" "xbooz_xform" Ex.calm "0.0.1" (Ex.wout 0) (Ex.world_in _) Ex.input_asks
    (Ex.world_wout _) (Ex.shapes 0) (Ex.wout_near p) Ex.version Ex.noFailure
  exact ⟨w', out, g1, g2, g3,
    C91_python (Ex.world_in _) Ex.input_asks Ex.input_plain Ex.input_short "0.0.8" g1 g2 g3⟩

end Booz
