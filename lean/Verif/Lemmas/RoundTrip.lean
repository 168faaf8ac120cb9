import Verif.Lemmas.BoozmnFile

/-!
# Reading a file with the specified layout
-/

namespace Booz
open Spec
variable {α : Type} [Arith α]

theorem Spec.HoldsInt.gets {f : NcFile α} {n : String} {c : Option Int} (h : HoldsInt f n c) :
    GetsI f n #[c] := by
  obtain ⟨v, h1, _, h3⟩ := h
  exact getsI_of h1 h3
theorem Spec.HoldsInts.gets {f : NcFile α} {dim n : String} {d : Vec Int} (h : HoldsInts f dim n d) :
    GetsI f n d := by
  obtain ⟨v, h1, _, h3⟩ := h
  exact getsI_of h1 h3
theorem Spec.HoldsVec.gets {f : NcFile α} {dim n : String} {d : Vec α} (h : HoldsVec f dim n d) :
    GetsD f n d := by
  obtain ⟨v, h1, _, h3⟩ := h
  exact getsD_of h1 h3

theorem Spec.HoldsShifted.gets {f : NcFile α} {n : String} {ns : Nat} {a : Vec α} (ha : a.Full ns)
    (h : HoldsShifted f ns n (ofInt 0) a) : GetsD f n (Vec.tab (ns + 1) (shifted a)) := by
  obtain ⟨v, d, h1, _, h3, h4, h5, h6⟩ := h
  have : d = Vec.tab (ns + 1) (shifted a) := by
    apply Array.ext_getElem?
    intro i
    rw [Vec.getElem?_tab]
    by_cases hi : i < ns + 1
    · rw [if_pos hi]
      cases i with
      | zero => rw [h5]; rfl
      | succ j =>
        rw [h6 j (by omega)]
        obtain ⟨x, hx⟩ := ha.2 j (by omega)
        unfold shifted
        rw [if_neg (by omega), Nat.add_sub_cancel, hx]
        simp [Vec.val, hx]
    · rw [if_neg hi, Array.getElem?_eq_none (by omega)]
  subst this
  exact getsD_of h1 h3

theorem Spec.HoldsMat.gets {f : NcFile α} {n : String} {K nb : Nat} {a : Mat α} {g : α → α}
    (ha : HasShape a K nb) (h : HoldsMat f K nb n g a) :
    GetsD f n (a.data.map fun c => c.map g) := by
  obtain ⟨v, d, h1, _, h3, h4, h5⟩ := h
  have : d = a.data.map fun c => c.map g := by
    apply Array.ext_getElem?
    intro p
    by_cases hp : p < nb * K
    · have hK : 0 < K := by
        rcases Nat.eq_zero_or_pos K with h | h
        · rw [h] at hp; simp at hp
        · exact h
      have := h5 (p / K) ((Nat.div_lt_iff_lt_mul hK).2 hp) (p % K) (Nat.mod_lt _ hK)
      rw [Nat.mul_comm, Nat.div_add_mod] at this
      rw [this, Array.getElem?_map]
      unfold cell
      rw [ha.1, Nat.mul_comm, Nat.div_add_mod, Array.getElem?_eq_getElem (by
        rw [ha.2.2, Nat.mul_comm]; exact hp)]
      rfl
    · rw [Array.getElem?_eq_none (by omega), Array.getElem?_eq_none (by
        rw [Array.size_map, ha.2.2, Nat.mul_comm]; omega)]
  subst this
  exact getsD_of h1 h3

theorem map_cells_id (v : Vec α) : v.map (fun c => c.map id) = v := by simp

theorem Spec.HoldsMat.gets_id {f : NcFile α} {n : String} {K nb : Nat} {a : Mat α}
    (ha : HasShape a K nb) (h : HoldsMat f K nb n id a) : GetsD f n a.data := by
  have := h.gets ha
  rwa [map_cells_id] at this

theorem Spec.HoldsSurfs.gets {f : NcFile α} {nb : Nat} {v : Vec Int} (h : HoldsSurfs f nb v) :
    GetsI f "jlist" (Vec.tab nb (jlistVal v)) := by
  obtain ⟨x, d, h1, _, h3, h4, h5⟩ := h
  have : d = Vec.tab nb (jlistVal v) := by
    apply Array.ext_getElem?
    intro i
    rw [Vec.getElem?_tab]
    by_cases hi : i < nb
    · obtain ⟨y, e1, e2⟩ := h5 i hi
      rw [if_pos hi, e2]
      simp [jlistVal, Vec.val, e1]
    · rw [if_neg hi, Array.getElem?_eq_none (by omega)]
  subst this
  exact getsI_of h1 h3

theorem neg_neg_mat (hneg : ∀ x : α, - - x = x) (a : Mat α) : a.neg.neg = a := by
  unfold Mat.neg
  dsimp only
  rw [Array.map_map]
  have : ((fun c : Option α => c.map (- ·)) ∘ fun c : Option α => c.map (- ·)) = id := by
    funext c
    cases c with
    | none => rfl
    | some x => simp [hneg]
  rw [this, Array.map_id]

section
variable {version : String} {s : St α} {K nb ns : Nat} {asym : Bool}

/-- The zero vector written when there are no flux profiles. -/
def zeros (α : Type) [Arith α] (ns : Nat) : Vec α := Array.replicate (ns + 1) (some (ofInt 0))

/-- The values of a file with the layout of `s`. -/
def valsOf (s : St α) (nb ns : Nat) (asym fl : Bool) : BzVals α where
  lasym := if asym then 1 else 0
  nfp := s.inp.nfp
  mboz := s.inp.mboz
  nboz := s.inp.nboz
  ixm := s.out.xm_b
  ixn := s.out.xn_b
  jlist := Vec.tab nb (jlistVal s.inp.compute_surfs)
  iota := Vec.tab (ns + 1) (shifted s.inp.iota)
  buco := Vec.tab (ns + 1) (shifted s.out.boozer_I_all)
  bvco := Vec.tab (ns + 1) (shifted s.out.boozer_G_all)
  phi := if fl then s.flux.phi else zeros α ns
  phip := if fl then s.flux.phip.set! 0 (some (ofInt 0)) else zeros α ns
  pres := if fl then s.flux.pres else zeros α ns
  bmnc := s.out.spec.bmnc_b.data
  rmnc := s.out.spec.rmnc_b.data
  zmns := s.out.spec.zmns_b.data
  pmns := s.out.spec.numns_b.neg.data
  gmn := s.out.spec.gmnc_b.data
  bmns := s.out.spec.bmns_b.data
  rmns := s.out.spec.rmns_b.data
  zmnc := s.out.spec.zmnc_b.data
  pmnc := s.out.spec.numnc_b.neg.data
  gmns := s.out.spec.gmns_b.data

/-- What becomes of `chi`. -/
def chiOf (s : St α) (ns : Nat) (fl : Bool) : Vec α := if fl then s.flux.chi else zeros α ns

theorem shift_back {a : Vec α} (ha : a.Full ns) :
    Vec.tab ns (unshifted (Vec.tab (ns + 1) (shifted a))) = a := by
  rw [ha.eq_tab (ofInt 0)]
  refine Vec.tab_congr fun j hj => ?_
  unfold unshifted
  rw [Vec.val_tab (by omega)]
  unfold shifted
  rw [if_neg (by omega), Nat.add_sub_cancel, Vec.val_tab hj]

theorem surfs_back (h : HasResults s K nb nb ns asym) :
    (Vec.tab nb fun j => (Vec.tab nb (jlistVal s.inp.compute_surfs)).val 0 j - 2) =
      s.inp.compute_surfs := by
  apply Array.ext_getElem?
  intro i
  rw [Vec.getElem?_tab]
  by_cases hi : i < nb
  · obtain ⟨x, hx, _⟩ := h.surfs (Nat.le_refl _) i hi
    rw [if_pos hi, hx, Vec.val_tab hi]
    simp [jlistVal, Vec.val, hx]
  · rw [if_neg hi, Array.getElem?_eq_none (by rw [h.surfs_size]; omega)]

theorem surf_val (h : HasResults s K nb nb ns asym) {j : Nat} (hj : j < nb) :
    ∃ x, s.inp.compute_surfs[j]? = some (some x) ∧ FitsInt x ∧
      (Vec.tab nb (jlistVal s.inp.compute_surfs)).val 0 j - 2 = x := by
  obtain ⟨x, hx, _⟩ := h.surfs (Nat.le_refl _) j hj
  refine ⟨x, hx, h.surfs_int j x hx, ?_⟩
  rw [Vec.val_tab hj]
  simp [jlistVal, Vec.val, hx]

theorem layout_isBoozmn {f : NcFile α} (h : HasResults s K nb nb ns asym)
    (hf : Layout f version s K nb ns asym) {fl : Bool} (hfl : fl = decide (s.flux.phip.size ≠ 0)) :
    IsBoozmn f K nb ns (valsOf s nb ns asym fl) := by
  have hz : (zeros α ns).size = ns + 1 := Array.size_replicate ..
  have hflux : GetsD f "phi_b" (valsOf s nb ns asym fl).phi ∧
      GetsD f "phip_b" (valsOf s nb ns asym fl).phip ∧ GetsD f "pres_b" (valsOf s nb ns asym fl).pres ∧
      (valsOf s nb ns asym fl).phi.size = ns + 1 ∧ (valsOf s nb ns asym fl).phip.size = ns + 1 ∧
      (valsOf s nb ns asym fl).pres.size = ns + 1 := by
    by_cases h0 : s.flux.phip.size = 0
    · rw [decide_eq_false (by simp [h0])] at hfl
      subst hfl
      have hn := hf.no_flux h0
      exact ⟨(hn "phi_b" (by simp)).gets, (hn "phip_b" (by simp)).gets, (hn "pres_b" (by simp)).gets,
        hz, hz, hz⟩
    · rw [decide_eq_true h0] at hfl
      subst hfl
      obtain ⟨f1, f2, f3, f4⟩ := hf.flux h0
      obtain ⟨g1, g2, g3, g4⟩ := h.flux.resolve_left h0
      refine ⟨f3.gets, f4.gets, f2.gets, g4, ?_, g3⟩
      show (s.flux.phip.set! 0 _).size = _
      rw [Array.set!_eq_setIfInBounds, Array.size_setIfInBounds]; exact g1
  obtain ⟨k1, k2, k3, k4, k5, k6⟩ := hflux
  exact {
    K_pos := h.K_pos
    nb_pos := h.nb_pos
    radius := hf.radius
    comput_surfs := hf.comput_surfs
    lasym := hf.lasym.gets
    nfp := hf.nfp_b.gets
    mboz := hf.mboz_b.gets
    nboz := hf.nboz_b.gets
    mnboz := hf.mnboz_b.gets
    ns_b := hf.ns_b.gets
    ixm := hf.ixm_b.gets
    ixn := hf.ixn_b.gets
    ixm_size := h.xm_b
    ixn_size := h.xn_b
    jlist := hf.jlist.gets
    jlist_full := Vec.full_tab _ _
    jlist_fits := fun j hj => by
      obtain ⟨x, _, hx, e⟩ := surf_val h hj
      show FitsInt ((Vec.tab nb (jlistVal s.inp.compute_surfs)).val 0 j - 2)
      rw [e]; exact hx
    iota := hf.iota_b.gets h.iota
    buco := hf.buco_b.gets h.boozer_I
    bvco := hf.bvco_b.gets h.boozer_G
    iota_full := Vec.full_tab _ _
    buco_full := Vec.full_tab _ _
    bvco_full := Vec.full_tab _ _
    phi := k1
    phip := k2
    pres := k3
    phi_size := k4
    phip_size := k5
    pres_size := k6
    bmnc := hf.bmnc_b.gets_id h.bmnc_b
    bmnc_size := h.bmnc_b.2.2
    rmnc := hf.rmnc_b.gets_id h.rmnc_b
    rmnc_size := h.rmnc_b.2.2
    zmns := hf.zmns_b.gets_id h.zmns_b
    zmns_size := h.zmns_b.2.2
    pmns := hf.pmns_b.gets h.numns_b
    pmns_size := (neg_shape h.numns_b).2.2
    gmn := hf.gmn_b.gets_id h.gmnc_b
    gmn_size := h.gmnc_b.2.2
    asymVars := fun ha => by
      have : asym = true := by
        cases asym with
        | false => exact absurd rfl ha
        | true => rfl
      obtain ⟨a1, a2, a3, a4, a5⟩ := h.asym_b this
      obtain ⟨b1, b2, b3, b4, b5⟩ := hf.asym_vars this
      exact ⟨b1.gets_id a1, a1.2.2, b2.gets_id a2, a2.2.2, b3.gets_id a3, a3.2.2, b4.gets a4,
        (neg_shape a4).2.2, b5.gets_id a5, a5.2.2⟩ }

theorem mat_eta {a : Mat α} (h : HasShape a K nb) : (⟨K, nb, a.data⟩ : Mat α) = a := by
  cases a
  obtain ⟨h1, h2, _⟩ := h
  simp only at h1 h2
  subst h1 h2
  rfl

theorem mat_eta_neg (hneg : ∀ x : α, - - x = x) {a : Mat α} (h : HasShape a K nb) :
    Mat.neg ⟨K, nb, a.neg.data⟩ = a := by
  rw [mat_eta (neg_shape h), neg_neg_mat hneg]

/-- Reading a file with the layout of `s`. -/
theorem read_layout (hneg : ∀ x : α, - - x = x) {f : NcFile α} {disk : Disk α} {path : String}
    (h : HasResults s K nb nb ns asym) (hf : Layout f version s K nb ns asym)
    (hd : disk path = .nc f)
    (hphi : s.flux.phip.size ≠ 0 → ∃ x, s.flux.phi[ns]? = some (some x)) (t : St α) :
    ∃ t', readBoozmn disk path t = .ok () t' ∧ ReadBack s t' nb ns asym ∧ ReadFrame t t' := by
  obtain ⟨fl, hfl⟩ : ∃ fl, fl = decide (s.flux.phip.size ≠ 0) := ⟨_, rfl⟩
  have hB := layout_isBoozmn h hf hfl
  have hx : ∃ x, (valsOf s nb ns asym fl).phi[ns]? = some (some x) ∧
      (fl = true → s.flux.phi[ns]? = some (some x)) ∧ (fl = false → x = ofInt 0) := by
    cases fl with
    | false =>
      refine ⟨ofInt 0, ?_, by simp, by simp⟩
      show (zeros α ns)[ns]? = _
      unfold zeros
      rw [Array.getElem?_replicate, if_pos (by omega)]
    | true =>
      obtain ⟨x, hx⟩ := hphi (by simpa using hfl.symm)
      exact ⟨x, hx, fun _ => hx, by simp⟩
  obtain ⟨x, hx, hx1, hx0⟩ := hx
  have hchi : ∀ old, t.flux.chi.resize ((ns + 1 : Nat) : Int) = .ok old →
      tryGetVec f "chi_b" old = .ok (chiOf s ns fl) := by
    intro old ho
    have hos : old.size = ns + 1 := by
      unfold Vec.resize at ho
      rw [if_pos (by omega), Int.toNat_natCast] at ho
      split at ho
      · cases ho; assumption
      · cases ho; simp
    have hg : GetsD f "chi_b" (chiOf s ns fl) ∧ (chiOf s ns fl).size = ns + 1 := by
      cases fl with
      | false =>
        exact ⟨(hf.no_flux (by simpa using hfl.symm) "chi_b" (by simp)).gets, Array.size_replicate ..⟩
      | true =>
        have h0 : s.flux.phip.size ≠ 0 := by simpa using hfl.symm
        exact ⟨(hf.flux h0).1.gets, (h.flux.resolve_left h0).2.1⟩
    unfold tryGetVec
    rw [hg.1.vec hg.2 hos (by omega)]
  refine ⟨_, readBoozmn_ok hd hB hchi hx, ?_, ?_⟩
  · have hl : (valsOf s nb ns asym fl).lasym ≠ 0 ↔ asym = true := by
      cases asym <;> simp [valsOf]
    constructor
    · unfold readRes
      cases asym <;> rfl
    · cases asym <;> rfl
    · cases asym <;> rfl
    · cases asym <;> rfl
    · rw [h.mnboz]; cases asym <;> rfl
    · rw [h.ns_b]; cases asym <;> rfl
    · rw [h.ns_in]; cases asym <;> rfl
    · cases asym <;> rfl
    · cases asym <;> rfl
    · refine Eq.trans ?_ (surfs_back h)
      cases asym <;> rfl
    · refine Eq.trans ?_ (shift_back h.iota)
      cases asym <;> rfl
    · refine Eq.trans ?_ (shift_back h.boozer_G)
      cases asym <;> rfl
    · refine Eq.trans ?_ (shift_back h.boozer_I)
      cases asym <;> rfl
    · refine Eq.trans ?_ (mat_eta h.bmnc_b)
      cases asym <;> rfl
    · refine Eq.trans ?_ (mat_eta h.rmnc_b)
      cases asym <;> rfl
    · refine Eq.trans ?_ (mat_eta h.zmns_b)
      cases asym <;> rfl
    · refine Eq.trans ?_ (mat_eta_neg hneg h.numns_b)
      cases asym <;> rfl
    · refine Eq.trans ?_ (mat_eta h.gmnc_b)
      cases asym <;> rfl
    · rintro rfl
      obtain ⟨a1, a2, a3, a4, a5⟩ := h.asym_b rfl
      show (⟨⟨K, nb, s.out.spec.bmnc_b.data⟩, ⟨K, nb, s.out.spec.rmnc_b.data⟩,
        ⟨K, nb, s.out.spec.zmns_b.data⟩, Mat.neg ⟨K, nb, s.out.spec.numns_b.neg.data⟩,
        ⟨K, nb, s.out.spec.gmnc_b.data⟩, ⟨K, nb, s.out.spec.bmns_b.data⟩,
        ⟨K, nb, s.out.spec.rmns_b.data⟩, ⟨K, nb, s.out.spec.zmnc_b.data⟩,
        Mat.neg ⟨K, nb, s.out.spec.numnc_b.neg.data⟩, ⟨K, nb, s.out.spec.gmns_b.data⟩⟩ :
        Spectra α) = s.out.spec
      rw [mat_eta h.bmnc_b, mat_eta h.rmnc_b, mat_eta h.zmns_b, mat_eta h.gmnc_b,
        mat_eta_neg hneg h.numns_b, mat_eta a1, mat_eta a2, mat_eta a3, mat_eta_neg hneg a4, mat_eta a5]
    · rintro rfl
      exact ⟨rfl, rfl, rfl, rfl, rfl⟩
    · intro h0
      have : fl = true := by rw [hfl]; simpa using h0
      subst this
      refine ⟨?_, x, hx1 rfl, ?_⟩
      · cases asym <;> rfl
      · cases asym <;> rfl
    · intro h0
      have : fl = false := by rw [hfl]; simpa using h0
      subst this
      rw [hx0 rfl]
      refine ⟨?_, ?_⟩
      · cases asym <;> rfl
      · cases asym <;> rfl
    · refine Eq.trans ?_ (size_tab nb fun j => ofInt 1 / (ofInt ((ns : Int) + 1) - ofInt 1) *
        (ofInt ((Vec.tab nb (jlistVal s.inp.compute_surfs)).val 0 j - 2) + Arith.half : α))
      cases asym <;> rfl
    · intro j hj
      obtain ⟨y, hy, _, e⟩ := surf_val h hj
      refine ⟨y, hy, ?_⟩
      have : (readRes t (valsOf s nb ns asym fl) K nb ns (chiOf s ns fl) x).out.s_b =
          Vec.tab nb fun j => ofInt 1 / (ofInt ((ns : Int) + 1) - ofInt 1) *
            (ofInt ((Vec.tab nb (jlistVal s.inp.compute_surfs)).val 0 j - 2) + Arith.half : α) := by
        cases asym <;> rfl
      rw [this, Vec.getElem?_tab, if_pos hj, e]
  · constructor
    · cases asym <;> rfl
    · cases asym <;> rfl
    · cases asym <;> rfl
    · cases asym <;> rfl

end

end Booz
