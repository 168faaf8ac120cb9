import Verif.Lemmas.ReadBoozmn

/-!
# Reading boozmn files that hold fewer modes than they declare
-/

namespace Booz
open Spec
variable {α : Type} [Arith α]

section
variable {f : NcFile α} {t : St α}

theorem Spec.GetsI.vec_le {n : String} {v old : Vec Int} {k : Nat} (h : GetsI f n v) (hv : v.size ≤ k)
    (ho : old.size = k) (hk : 1 ≤ k) : f.getIVec n old = .ok (v ++ old.extract v.size) := by
  obtain ⟨x, h1, h2⟩ := h
  unfold NcFile.getIVec first blit
  rw [find_some h1, ok_bind, if_pos (by omega), ok_bind, asInts_of h2, ok_bind, if_pos (by omega)]

theorem Spec.GetsD.mat_le {n : String} {v d : Vec α} {r c : Nat} (h : GetsD f n v) (hv : v.size ≤ r * c)
    (hd : d.size = r * c) (hr : 1 ≤ r) (hc : 1 ≤ c) :
    f.getMat n ⟨r, c, d⟩ = .ok ⟨r, c, v ++ d.extract v.size⟩ := by
  obtain ⟨x, h1, h2⟩ := h
  unfold NcFile.getMat Mat.first blit
  rw [find_some h1, ok_bind, if_pos ⟨hr, hc⟩, ok_bind, asDbls_of h2, ok_bind, if_pos (by simp only; omega)]
  rfl

theorem readModes_loose {K : Nat} {xm xn : Vec Int} (hK : 1 ≤ K) (ht : t.out.mnboz = some (K : Int))
    (h1 : GetsI f "ixm_b" xm) (h2 : GetsI f "ixn_b" xn) (s1 : xm.size ≤ K) (s2 : xn.size ≤ K) :
    ∃ w x, Goes (readModes f) t (resModes t (xm ++ w) x) ∧ xm.size + w.size = K := by
  unfold readModes
  obtain ⟨v, hv, sv⟩ := Vec.resize_size t.out.xm_b (n := (K : Int)) (by omega)
  obtain ⟨w, hw, sw⟩ := Vec.resize_size t.out.xn_b (n := (K : Int)) (by omega)
  rw [Int.toNat_natCast] at sv sw
  refine ⟨v.extract xm.size, xn ++ w.extract xn.size, .bind (.set (t' := resModes t v w) ?_) ?_, ?_⟩
  · rw [ht, need_some, ok_bind, hv, ok_bind, hw]; rfl
  refine .bind (.set (t' := resModes t (xm ++ v.extract xm.size) w) ?_) ?_
  · rw [show (resModes t v w).out.xm_b = v from rfl, h1.vec_le s1 sv hK]; rfl
  refine .set (t' := resModes t (xm ++ v.extract xm.size) (xn ++ w.extract xn.size)) ?_
  · rw [show (resModes t (xm ++ v.extract xm.size) w).out.xn_b = w from rfl, h2.vec_le s2 sw hK]; rfl
  · rw [Array.size_extract]; omega

theorem readSym_loose {K nb : Nat} {b r z p g : Vec α} (hK : 1 ≤ K) (hb : 1 ≤ nb)
    (ht : t.out.mnboz = some (K : Int)) (hn : t.out.ns_b = some (nb : Int))
    (h1 : GetsD f "bmnc_b" b) (h2 : GetsD f "rmnc_b" r) (h3 : GetsD f "zmns_b" z)
    (h4 : GetsD f "pmns_b" p) (h5 : GetsD f "gmn_b" g) (s1 : b.size ≤ K * nb) (s2 : r.size ≤ K * nb)
    (s3 : z.size ≤ K * nb) (s4 : p.size ≤ K * nb) (s5 : g.size ≤ K * nb) :
    ∃ w b' r' z' p', Goes (readSym f) t
      (resSym t ⟨K, nb, b ++ w⟩ b' r' z' p') ∧ b.size + w.size = K * nb := by
  unfold readSym
  obtain ⟨v1, hv1, sv1⟩ := Mat.resize_size t.out.spec.bmnc_b (r := (K : Int)) (c := (nb : Int)) (by omega) (by omega)
  obtain ⟨v2, hv2, sv2⟩ := Mat.resize_size t.out.spec.rmnc_b (r := (K : Int)) (c := (nb : Int)) (by omega) (by omega)
  obtain ⟨v3, hv3, sv3⟩ := Mat.resize_size t.out.spec.zmns_b (r := (K : Int)) (c := (nb : Int)) (by omega) (by omega)
  obtain ⟨v4, hv4, sv4⟩ := Mat.resize_size t.out.spec.numns_b (r := (K : Int)) (c := (nb : Int)) (by omega) (by omega)
  obtain ⟨v5, hv5, sv5⟩ := Mat.resize_size t.out.spec.gmnc_b (r := (K : Int)) (c := (nb : Int)) (by omega) (by omega)
  rw [Int.toNat_natCast, Int.toNat_natCast] at sv1 sv2 sv3 sv4 sv5 hv1 hv2 hv3 hv4 hv5
  refine ⟨v1.extract b.size, ⟨K, nb, r ++ v2.extract r.size⟩, ⟨K, nb, z ++ v3.extract z.size⟩,
    Mat.neg ⟨K, nb, p ++ v4.extract p.size⟩, ⟨K, nb, g ++ v5.extract g.size⟩, .bind (.set (t' := resSym t ⟨K, nb, v1⟩ ⟨K, nb, v2⟩ ⟨K, nb, v3⟩ ⟨K, nb, v4⟩ ⟨K, nb, v5⟩) ?_) ?_, ?_⟩
  · rw [ht, hn, need_some, ok_bind, need_some, ok_bind, hv1, ok_bind, hv2, ok_bind, hv3, ok_bind, hv4,
      ok_bind, hv5]
    rfl
  refine .bind (.set (t' := resSym t ⟨K, nb, b ++ v1.extract b.size⟩ ⟨K, nb, v2⟩ ⟨K, nb, v3⟩ ⟨K, nb, v4⟩ ⟨K, nb, v5⟩) ?_) ?_
  · show (f.getMat "bmnc_b" ⟨K, nb, v1⟩ >>= _) = _
    rw [h1.mat_le s1 sv1 hK hb]; rfl
  refine .bind (.set (t' := resSym t ⟨K, nb, b ++ v1.extract b.size⟩ ⟨K, nb, r ++ v2.extract r.size⟩ ⟨K, nb, v3⟩ ⟨K, nb, v4⟩
    ⟨K, nb, v5⟩) ?_) ?_
  · show (f.getMat "rmnc_b" ⟨K, nb, v2⟩ >>= _) = _
    rw [h2.mat_le s2 sv2 hK hb]; rfl
  refine .bind (.set (t' := resSym t ⟨K, nb, b ++ v1.extract b.size⟩ ⟨K, nb, r ++ v2.extract r.size⟩
    ⟨K, nb, z ++ v3.extract z.size⟩ ⟨K, nb, v4⟩ ⟨K, nb, v5⟩) ?_) ?_
  · show (f.getMat "zmns_b" ⟨K, nb, v3⟩ >>= _) = _
    rw [h3.mat_le s3 sv3 hK hb]; rfl
  refine .bind (.set (t' := resSym t ⟨K, nb, b ++ v1.extract b.size⟩ ⟨K, nb, r ++ v2.extract r.size⟩
    ⟨K, nb, z ++ v3.extract z.size⟩ ⟨K, nb, p ++ v4.extract p.size⟩ ⟨K, nb, v5⟩) ?_) ?_
  · show (f.getMat "pmns_b" ⟨K, nb, v4⟩ >>= _) = _
    rw [h4.mat_le s4 sv4 hK hb]; rfl
  refine .bind (.set (t' := resSym t ⟨K, nb, b ++ v1.extract b.size⟩ ⟨K, nb, r ++ v2.extract r.size⟩
    ⟨K, nb, z ++ v3.extract z.size⟩ (Mat.neg ⟨K, nb, p ++ v4.extract p.size⟩) ⟨K, nb, v5⟩) rfl) ?_
  refine .set (t' := resSym t ⟨K, nb, b ++ v1.extract b.size⟩ ⟨K, nb, r ++ v2.extract r.size⟩
    ⟨K, nb, z ++ v3.extract z.size⟩ (Mat.neg ⟨K, nb, p ++ v4.extract p.size⟩) ⟨K, nb, g ++ v5.extract g.size⟩) ?_
  · show (f.getMat "gmn_b" ⟨K, nb, v5⟩ >>= _) = _
    rw [h5.mat_le s5 sv5 hK hb]; rfl
  · rw [Array.size_extract]; omega

theorem readAsym_loose {K nb : Nat} {b r z p g : Vec α} (hK : 1 ≤ K) (hb : 1 ≤ nb)
    (ht : t.out.mnboz = some (K : Int)) (hn : t.out.ns_b = some (nb : Int))
    (h1 : GetsD f "bmns_b" b) (h2 : GetsD f "rmns_b" r) (h3 : GetsD f "zmnc_b" z)
    (h4 : GetsD f "pmnc_b" p) (h5 : GetsD f "gmns_b" g) (s1 : b.size ≤ K * nb) (s2 : r.size ≤ K * nb)
    (s3 : z.size ≤ K * nb) (s4 : p.size ≤ K * nb) (s5 : g.size ≤ K * nb) :
    ∃ w b' r' z' p', Goes (readAsym f true) t
      (resAsym t ⟨K, nb, b ++ w⟩ b' r' z' p') ∧ b.size + w.size = K * nb := by
  unfold readAsym
  rw [if_pos rfl]
  obtain ⟨v1, hv1, sv1⟩ := Mat.resize_size t.out.spec.bmns_b (r := (K : Int)) (c := (nb : Int)) (by omega) (by omega)
  obtain ⟨v2, hv2, sv2⟩ := Mat.resize_size t.out.spec.rmns_b (r := (K : Int)) (c := (nb : Int)) (by omega) (by omega)
  obtain ⟨v3, hv3, sv3⟩ := Mat.resize_size t.out.spec.zmnc_b (r := (K : Int)) (c := (nb : Int)) (by omega) (by omega)
  obtain ⟨v4, hv4, sv4⟩ := Mat.resize_size t.out.spec.numnc_b (r := (K : Int)) (c := (nb : Int)) (by omega) (by omega)
  obtain ⟨v5, hv5, sv5⟩ := Mat.resize_size t.out.spec.gmns_b (r := (K : Int)) (c := (nb : Int)) (by omega) (by omega)
  rw [Int.toNat_natCast, Int.toNat_natCast] at sv1 sv2 sv3 sv4 sv5 hv1 hv2 hv3 hv4 hv5
  refine ⟨v1.extract b.size, ⟨K, nb, r ++ v2.extract r.size⟩, ⟨K, nb, z ++ v3.extract z.size⟩,
    Mat.neg ⟨K, nb, p ++ v4.extract p.size⟩, ⟨K, nb, g ++ v5.extract g.size⟩, .bind (.set (t' := resAsym t ⟨K, nb, v1⟩ ⟨K, nb, v2⟩ ⟨K, nb, v3⟩ ⟨K, nb, v4⟩ ⟨K, nb, v5⟩) ?_) ?_, ?_⟩
  · rw [ht, hn, need_some, ok_bind, need_some, ok_bind, hv1, ok_bind, hv2, ok_bind, hv3, ok_bind, hv4,
      ok_bind, hv5]
    rfl
  refine .bind (.set (t' := resAsym t ⟨K, nb, b ++ v1.extract b.size⟩ ⟨K, nb, v2⟩ ⟨K, nb, v3⟩ ⟨K, nb, v4⟩ ⟨K, nb, v5⟩) ?_) ?_
  · show (f.getMat "bmns_b" ⟨K, nb, v1⟩ >>= _) = _
    rw [h1.mat_le s1 sv1 hK hb]; rfl
  refine .bind (.set (t' := resAsym t ⟨K, nb, b ++ v1.extract b.size⟩ ⟨K, nb, r ++ v2.extract r.size⟩ ⟨K, nb, v3⟩ ⟨K, nb, v4⟩
    ⟨K, nb, v5⟩) ?_) ?_
  · show (f.getMat "rmns_b" ⟨K, nb, v2⟩ >>= _) = _
    rw [h2.mat_le s2 sv2 hK hb]; rfl
  refine .bind (.set (t' := resAsym t ⟨K, nb, b ++ v1.extract b.size⟩ ⟨K, nb, r ++ v2.extract r.size⟩
    ⟨K, nb, z ++ v3.extract z.size⟩ ⟨K, nb, v4⟩ ⟨K, nb, v5⟩) ?_) ?_
  · show (f.getMat "zmnc_b" ⟨K, nb, v3⟩ >>= _) = _
    rw [h3.mat_le s3 sv3 hK hb]; rfl
  refine .bind (.set (t' := resAsym t ⟨K, nb, b ++ v1.extract b.size⟩ ⟨K, nb, r ++ v2.extract r.size⟩
    ⟨K, nb, z ++ v3.extract z.size⟩ ⟨K, nb, p ++ v4.extract p.size⟩ ⟨K, nb, v5⟩) ?_) ?_
  · show (f.getMat "pmnc_b" ⟨K, nb, v4⟩ >>= _) = _
    rw [h4.mat_le s4 sv4 hK hb]; rfl
  refine .bind (.set (t' := resAsym t ⟨K, nb, b ++ v1.extract b.size⟩ ⟨K, nb, r ++ v2.extract r.size⟩
    ⟨K, nb, z ++ v3.extract z.size⟩ (Mat.neg ⟨K, nb, p ++ v4.extract p.size⟩) ⟨K, nb, v5⟩) rfl) ?_
  refine .set (t' := resAsym t ⟨K, nb, b ++ v1.extract b.size⟩ ⟨K, nb, r ++ v2.extract r.size⟩
    ⟨K, nb, z ++ v3.extract z.size⟩ (Mat.neg ⟨K, nb, p ++ v4.extract p.size⟩) ⟨K, nb, g ++ v5.extract g.size⟩) ?_
  · show (f.getMat "gmns_b" ⟨K, nb, v5⟩ >>= _) = _
    rw [h5.mat_le s5 sv5 hK hb]; rfl
  · rw [Array.size_extract]; omega

end

/-- The outcome of reading a file that is well-formed but for declaring more modes than it holds. -/
theorem readBoozmn_declared {disk : Disk α} {path : String} {f g : NcFile α} {V : BzVals α} {K K' nb ns : Nat}
    {t : St α} {x : α} (hf : disk path = .nc f) (h : IsBoozmn g K nb ns V)
    (hv : ∀ n, n ≠ "mnboz_b" → f.var? n = g.var? n) (hd : ∀ n, f.dim? n = g.dim? n)
    (hm : GetsI f "mnboz_b" #[some (K' : Int)]) (hK : K ≤ K')
    (hchi : ∀ old, t.flux.chi.resize ((ns + 1 : Nat) : Int) = .ok old → ∃ chi, tryGetVec f "chi_b" old = .ok chi)
    (hx : V.phi[ns]? = some (some x)) :
    ∃ t' w d, readBoozmn disk path t = .ok () t' ∧ t'.out.mnboz = some (K' : Int) ∧
      t'.out.xm_b = V.ixm ++ w ∧ K + w.size = K' ∧
      t'.out.spec.bmnc_b = ⟨K', nb, V.bmnc ++ d⟩ ∧ K * nb + d.size = K' * nb := by
  have gI : ∀ {n : String} {v : Vec Int}, n ≠ "mnboz_b" → GetsI g n v → GetsI f n v := fun hn h => by
    obtain ⟨x, h1, h2⟩ := h
    exact ⟨x, (hv _ hn).trans h1, h2⟩
  have gD : ∀ {n : String} {v : Vec α}, n ≠ "mnboz_b" → GetsD g n v → GetsD f n v := fun hn h => by
    obtain ⟨x, h1, h2⟩ := h
    exact ⟨x, (hv _ hn).trans h1, h2⟩
  have hK' : 1 ≤ K' := Nat.le_trans h.K_pos hK
  have hKn : K * nb ≤ K' * nb := Nat.mul_le_mul_right _ hK
  obtain ⟨old, ho, -⟩ := Vec.resize_size t.flux.chi (n := ((ns + 1 : Nat) : Int)) (by omega)
  obtain ⟨chi, hchi⟩ := hchi old ho
  have t1 : ∃ w x, Goes (readModes f) (resSizes (resFlag t (decide (V.lasym ≠ 0))) V.nfp V.mboz V.nboz (K' : Int))
      (resModes (resSizes (resFlag t (decide (V.lasym ≠ 0))) V.nfp V.mboz V.nboz (K' : Int)) (V.ixm ++ w) x) ∧
      V.ixm.size + w.size = K' :=
    readModes_loose hK' rfl (gI (by decide) h.ixm) (gI (by decide) h.ixn)
      (by rw [h.ixm_size]; exact hK) (by rw [h.ixn_size]; exact hK)
  obtain ⟨w, xn, g1, hw⟩ := t1
  rw [h.ixm_size] at hw
  have g2 := readProfiles_ok (f := f)
    (t := resModes (resSizes (resFlag t (decide (V.lasym ≠ 0))) V.nfp V.mboz V.nboz (K' : Int)) (V.ixm ++ w) xn)
    (chi := chi) ((hd _).trans h.radius) (gD (by decide) h.iota) (gD (by decide) h.bvco) (gD (by decide) h.buco)
    (gD (by decide) h.phi) (gD (by decide) h.phip) (gD (by decide) h.pres)
    (fun o k => by
      have e : o = old := by
        have := (show _ = _ from k).symm.trans ho
        cases this; rfl
      rw [e]; exact hchi)
    h.iota_full h.bvco_full h.buco_full h.phi_size h.phip_size h.pres_size hx
  generalize ht2 : resProfiles _ _ _ _ _ _ _ = t2 at g2
  have m2 : t2.out.mnboz = some (K' : Int) := by rw [← ht2]; rfl
  have x2 : t2.out.xm_b = V.ixm ++ w := by rw [← ht2]; rfl
  clear ht2
  have g3 := readSurfs_ok (t := t2) ((hd _).trans h.comput_surfs) h.nb_pos (gI (by decide) h.jlist) h.jlist_full
    h.jlist_fits
  generalize ht3 : resSurfs _ _ _ = t3 at g3
  have m3 : t3.out.mnboz = some (K' : Int) := by rw [← ht3]; exact m2
  have n3 : t3.out.ns_b = some (nb : Int) := by rw [← ht3]; rfl
  have x3 : t3.out.xm_b = V.ixm ++ w := by rw [← ht3]; exact x2
  have s3 : t3.inp.compute_surfs = Vec.tab nb fun j => V.jlist.val 0 j - 2 := by rw [← ht3]; rfl
  clear ht3
  obtain ⟨d, b2, b3, b4, b5, g4, hdd⟩ := readSym_loose hK' h.nb_pos m3 n3 (gD (by decide) h.bmnc)
    (gD (by decide) h.rmnc) (gD (by decide) h.zmns) (gD (by decide) h.pmns) (gD (by decide) h.gmn)
    (by rw [h.bmnc_size]; exact hKn) (by rw [h.rmnc_size]; exact hKn) (by rw [h.zmns_size]; exact hKn)
    (by rw [h.pmns_size]; exact hKn) (by rw [h.gmn_size]; exact hKn)
  rw [h.bmnc_size] at hdd
  generalize ht4 : resSym _ _ _ _ _ _ = t4 at g4
  have m4 : t4.out.mnboz = some (K' : Int) := by rw [← ht4]; exact m3
  have n4 : t4.out.ns_b = some (nb : Int) := by rw [← ht4]; exact n3
  have x4 : t4.out.xm_b = V.ixm ++ w := by rw [← ht4]; exact x3
  have s4 : t4.inp.compute_surfs = Vec.tab nb fun j => V.jlist.val 0 j - 2 := by rw [← ht4]; exact s3
  have c4 : t4.out.spec.bmnc_b = ⟨K', nb, V.bmnc ++ d⟩ := by rw [← ht4]; rfl
  clear ht4
  have g5 : ∃ t5, Goes (readAsym f (decide (V.lasym ≠ 0))) t4 t5 ∧ t5.out.mnboz = some (K' : Int) ∧
      t5.out.ns_b = some (nb : Int) ∧ t5.out.xm_b = V.ixm ++ w ∧
      t5.inp.compute_surfs = (Vec.tab nb fun j => V.jlist.val 0 j - 2) ∧
      t5.out.spec.bmnc_b = ⟨K', nb, V.bmnc ++ d⟩ := by
    by_cases hl : V.lasym ≠ 0
    · obtain ⟨a1, c1, a2, c2, a3, c3, a4, c4', a5, c5⟩ := h.asymVars hl
      rw [decide_eq_true hl]
      obtain ⟨_, _, _, _, _, g, _⟩ := readAsym_loose hK' h.nb_pos m4 n4 (gD (by decide) a1) (gD (by decide) a2)
        (gD (by decide) a3) (gD (by decide) a4) (gD (by decide) a5) (by rw [c1]; exact hKn) (by rw [c2]; exact hKn)
        (by rw [c3]; exact hKn) (by rw [c4']; exact hKn) (by rw [c5]; exact hKn)
      exact ⟨_, g, m4, n4, x4, s4, c4⟩
    · rw [decide_eq_false hl]
      exact ⟨_, readAsym_none, m4, n4, x4, s4, c4⟩
  obtain ⟨t5, g5, m5, n5, x5, s5, c5⟩ := g5
  obtain ⟨t6, g6, m6, x6, c6⟩ : ∃ t6, Goes (readS f) t5 t6 ∧ t6.out.mnboz = some (K' : Int) ∧
      t6.out.xm_b = V.ixm ++ w ∧ t6.out.spec.bmnc_b = ⟨K', nb, V.bmnc ++ d⟩ :=
    ⟨_, readS_ok n5 (gI (by decide) h.ns_b) s5 (Vec.full_tab _ _), m5, x5, c5⟩
  refine ⟨t6, w, d, ?_, m6, x6, hw, c6, hdd⟩
  · unfold readBoozmn readBoozmnBody
    refine Goes.lift (x := f) (by unfold openRead; rw [hf]) ?_
    refine Goes.lift (x := some V.lasym) ((gI (by decide) h.lasym).int _) ?_
    refine Goes.lift (x := V.lasym) rfl ?_
    refine Goes.bind (.set (t' := resFlag t (decide (V.lasym ≠ 0))) rfl) ?_
    refine Goes.bind (readSizes_ok (gI (by decide) h.nfp) (gI (by decide) h.mboz) (gI (by decide) h.nboz) hm) ?_
    exact Goes.bind g1 (Goes.bind g2 (Goes.bind g3 (Goes.bind g4 (Goes.bind g5 g6))))

end Booz
