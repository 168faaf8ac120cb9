import Verif.Lemmas.WriteBoozmn

/-!
# Symbolic execution of `read_boozmn`
-/

namespace Booz
open Spec
variable {α : Type} [Arith α]

/-- The program ends normally with object `t'`. -/
def Goes (p : Prog (St α) Unit) (t t' : St α) : Prop := p t = .ok () t'

section
variable {t t' t'' : St α}

omit [Arith α] in
theorem Goes.bind {p : Prog (St α) Unit} {q : Unit → Prog (St α) Unit} (hp : Goes p t t')
    (hq : Goes (q ()) t' t'') : Goes (p >>= q) t t'' := by
  unfold Goes at *
  rw [Prog.bind_def, hp]; exact hq

omit [Arith α] in
theorem Goes.set {g : St α → Res (St α)} (h : g t = .ok t') : Goes (setSt g) t t' := by
  unfold Goes setSt Prog.modify
  simp only [Prog.bind_def, Prog.get, Prog.lift, h, Prog.set]

omit [Arith α] in
theorem Goes.lift {β : Type} {r : Res β} {x : β} {k : β → Prog (St α) Unit} (h : r = .ok x)
    (hq : Goes (k x) t t') : Goes (Prog.lift r >>= k) t t' := by
  unfold Goes at *
  rw [h, Prog.lift_ok_bind]; exact hq

end

/-! ## Sections -/

/-- `asym` is set. -/
def resFlag (t : St α) (a : Bool) : St α := { t with inp := { t.inp with asym := some a } }
/-- The sizes are set. -/
def resSizes (t : St α) (nfp : Option Int) (mboz nboz K : Int) : St α :=
  { t with inp := { t.inp with nfp := nfp, mboz := mboz, nboz := nboz }
           out := { t.out with mnboz := some K } }
/-- The mode numbers are set. -/
def resModes (t : St α) (xm xn : Vec Int) : St α :=
  { t with out := { t.out with xm_b := xm, xn_b := xn } }
/-- The profiles are set. -/
def resProfiles (t : St α) (ns : Int) (iota g i : Vec α) (flux : Flux α) (tf : Option α) : St α :=
  { t with inp := { t.inp with ns_in := some ns, iota := iota, toroidal_flux := tf }
           out := { t.out with boozer_G_all := g, boozer_I_all := i }
           flux := flux }
/-- The selection is set. -/
def resSurfs (t : St α) (nb : Int) (surfs : Vec Int) : St α :=
  { t with inp := { t.inp with compute_surfs := surfs }, out := { t.out with ns_b := some nb } }
/-- The symmetric spectra are set. -/
def resSym (t : St α) (b r z p g : Mat α) : St α :=
  { t with out := { t.out with spec := { t.out.spec with
      bmnc_b := b, rmnc_b := r, zmns_b := z, numns_b := p, gmnc_b := g } } }
/-- The asymmetric spectra are set. -/
def resAsym (t : St α) (b r z p g : Mat α) : St α :=
  { t with out := { t.out with spec := { t.out.spec with
      bmns_b := b, rmns_b := r, zmnc_b := z, numnc_b := p, gmns_b := g } } }
/-- The grid `s_b` is set. -/
def resS (t : St α) (s : Vec α) : St α := { t with out := { t.out with s_b := s } }

section
variable {f : NcFile α} {t : St α}

theorem Spec.GetsI.int {n : String} {c : Option Int} (h : GetsI f n #[c]) (old : Option Int) :
    f.getInt n old = .ok c := by
  obtain ⟨x, h1, h2⟩ := h
  unfold NcFile.getInt; rw [find_some h1, ok_bind, asInts_of h2, ok_bind, blit_one, ok_bind]; rfl
theorem Spec.GetsI.vec {n : String} {v old : Vec Int} {k : Nat} (h : GetsI f n v) (hv : v.size = k)
    (ho : old.size = k) (hk : 1 ≤ k) : f.getIVec n old = .ok v := by
  obtain ⟨x, h1, h2⟩ := h
  exact getIVec_some h1 h2 hv ho hk
theorem Spec.GetsD.vec {n : String} {v old : Vec α} {k : Nat} (h : GetsD f n v) (hv : v.size = k)
    (ho : old.size = k) (hk : 1 ≤ k) : f.getVec n old = .ok v := by
  obtain ⟨x, h1, h2⟩ := h
  exact getVec_some h1 h2 hv ho hk
theorem Spec.GetsD.mat {n : String} {v d : Vec α} {r c : Nat} (h : GetsD f n v) (hv : v.size = r * c)
    (hd : d.size = r * c) (hr : 1 ≤ r) (hc : 1 ≤ c) : f.getMat n ⟨r, c, d⟩ = .ok ⟨r, c, v⟩ := by
  obtain ⟨x, h1, h2⟩ := h
  exact getMat_some h1 h2 hv hd hr hc

theorem readSizes_ok {nfp : Option Int} {mboz nboz K : Int} (h1 : GetsI f "nfp_b" #[nfp])
    (h2 : GetsI f "mboz_b" #[some mboz]) (h3 : GetsI f "nboz_b" #[some nboz])
    (h4 : GetsI f "mnboz_b" #[some K]) : Goes (readSizes f) t (resSizes t nfp mboz nboz K) := by
  unfold readSizes
  refine .bind (.set (t' := { t with inp := { t.inp with nfp := nfp } }) ?_) ?_
  · rw [h1.int]; rfl
  refine .bind (.set (t' := { t with inp := { t.inp with nfp := nfp, mboz := mboz } }) ?_) ?_
  · rw [h2.int]; rfl
  refine .bind (.set (t' := { t with inp := { t.inp with nfp := nfp, mboz := mboz, nboz := nboz } }) ?_) ?_
  · rw [h3.int]; rfl
  refine .set ?_
  rw [h4.int]; rfl

theorem readModes_ok {K : Nat} {xm xn : Vec Int} (hK : 1 ≤ K) (ht : t.out.mnboz = some (K : Int))
    (h1 : GetsI f "ixm_b" xm) (h2 : GetsI f "ixn_b" xn) (s1 : xm.size = K) (s2 : xn.size = K) :
    Goes (readModes f) t (resModes t xm xn) := by
  unfold readModes
  obtain ⟨v, hv, sv⟩ := Vec.resize_size t.out.xm_b (n := (K : Int)) (by omega)
  obtain ⟨w, hw, sw⟩ := Vec.resize_size t.out.xn_b (n := (K : Int)) (by omega)
  rw [Int.toNat_natCast] at sv sw
  refine .bind (.set (t' := resModes t v w) ?_) ?_
  · rw [ht, need_some, ok_bind, hv, ok_bind, hw]; rfl
  refine .bind (.set (t' := resModes t xm w) ?_) ?_
  · rw [show (resModes t v w).out.xm_b = v from rfl, h1.vec s1 sv hK]; rfl
  refine .set ?_
  rw [show (resModes t xm w).out.xn_b = w from rfl, h2.vec s2 sw hK]; rfl

/-- The entries of a vector without the first. -/
def unshifted (v : Vec α) (j : Nat) : α := v.val (ofInt 0) (j + 1)

theorem dropFirst3_ok {ns : Nat} {a b c x y z : Vec α} (ha : a.Full (ns + 1)) (hb : b.Full (ns + 1))
    (hc : c.Full (ns + 1)) (hx : x.size = ns) (hy : y.size = ns) (hz : z.size = ns) :
    dropFirst3 (ns : Int) ⟨a, b, c⟩ ⟨x, y, z⟩ =
      .ok ⟨Vec.tab ns (unshifted a), Vec.tab ns (unshifted b), Vec.tab ns (unshifted c)⟩ := by
  unfold dropFirst3
  rw [Int.toNat_natCast]
  have ex := Vec.eq_tabO x
  have ey := Vec.eq_tabO y
  have ez := Vec.eq_tabO z
  rw [hx] at ex
  rw [hy] at ey
  rw [hz] at ez
  generalize (fun i : Nat => x[i]?.join) = fx at ex
  generalize (fun i : Nat => y[i]?.join) = fy at ey
  generalize (fun i : Nat => z[i]?.join) = fz at ez
  subst ex ey ez
  refine loop_traj' (fun k => (⟨Vec.tabO ns (Vec.fillTo fx (unshifted a) k),
    Vec.tabO ns (Vec.fillTo fy (unshifted b) k),
    Vec.tabO ns (Vec.fillTo fz (unshifted c) k)⟩ : Vec3 α)) ?_ ?_ ?_
  · intro j hj
    dsimp only
    rw [full_rdN ha (ofInt 0) (by omega), ok_bind,
      show a.val (ofInt 0) (j + 1) = unshifted a j from rfl, Vec.wrN_fillTo hj, ok_bind,
      full_rdN hb (ofInt 0) (by omega), ok_bind,
      show b.val (ofInt 0) (j + 1) = unshifted b j from rfl, Vec.wrN_fillTo hj, ok_bind,
      full_rdN hc (ofInt 0) (by omega), ok_bind,
      show c.val (ofInt 0) (j + 1) = unshifted c j from rfl, Vec.wrN_fillTo hj, ok_bind]
    rfl
  · rw [← Vec.fillTo_zero, ← Vec.fillTo_zero, ← Vec.fillTo_zero]
  · rw [Vec.fillTo_all (f := fx) (h := unshifted a), Vec.fillTo_all (f := fy) (h := unshifted b),
      Vec.fillTo_all (f := fz) (h := unshifted c)]

theorem readProfiles_ok {ns : Nat} {iota g i phi phip chi pres : Vec α} {x : α}
    (hd : f.dim? "radius" = some (ns + 1))
    (h1 : GetsD f "iota_b" iota) (h2 : GetsD f "bvco_b" g) (h3 : GetsD f "buco_b" i)
    (h4 : GetsD f "phi_b" phi) (h5 : GetsD f "phip_b" phip) (h6 : GetsD f "pres_b" pres)
    (hchi : ∀ old, t.flux.chi.resize ((ns + 1 : Nat) : Int) = .ok old → tryGetVec f "chi_b" old = .ok chi)
    (s1 : iota.Full (ns + 1)) (s2 : g.Full (ns + 1)) (s3 : i.Full (ns + 1))
    (s4 : phi.size = ns + 1) (s5 : phip.size = ns + 1) (s6 : pres.size = ns + 1)
    (hx : phi[ns]? = some (some x)) :
    Goes (readProfiles f) t (resProfiles t (ns : Int) (Vec.tab ns (unshifted iota))
      (Vec.tab ns (unshifted g)) (Vec.tab ns (unshifted i)) ⟨phi, phip, chi, pres⟩ (some x)) := by
  unfold readProfiles
  have e : (((ns + 1 : Nat) : Int) - 1) = (ns : Int) := by omega
  refine .lift (x := ns + 1) (by unfold NcFile.getdim; rw [hd]) ?_
  obtain ⟨v1, hv1, sv1⟩ := Vec.resize_size t.inp.iota (n := (ns : Int)) (by omega)
  obtain ⟨v2, hv2, sv2⟩ := Vec.resize_size t.out.boozer_G_all (n := (ns : Int)) (by omega)
  obtain ⟨v3, hv3, sv3⟩ := Vec.resize_size t.out.boozer_I_all (n := (ns : Int)) (by omega)
  obtain ⟨v4, hv4, sv4⟩ := Vec.resize_size t.flux.phi (n := ((ns + 1 : Nat) : Int)) (by omega)
  obtain ⟨v5, hv5, sv5⟩ := Vec.resize_size t.flux.phip (n := ((ns + 1 : Nat) : Int)) (by omega)
  obtain ⟨v6, hv6, sv6⟩ := Vec.resize_size t.flux.chi (n := ((ns + 1 : Nat) : Int)) (by omega)
  obtain ⟨v7, hv7, sv7⟩ := Vec.resize_size t.flux.pres (n := ((ns + 1 : Nat) : Int)) (by omega)
  obtain ⟨v8, hv8, sv8⟩ := Vec.resize_size (#[] : Vec α) (n := ((ns + 1 : Nat) : Int)) (by omega)
  rw [Int.toNat_natCast] at sv1 sv2 sv3 sv4 sv5 sv6 sv7 sv8
  have hn : 1 ≤ ns + 1 := by omega
  refine .bind (.set (t' := resProfiles t (ns : Int) v1 v2 v3 ⟨v4, v5, v6, v7⟩ t.inp.toroidal_flux) ?_) ?_
  · dsimp only
    rw [e, hv1, ok_bind, hv2, ok_bind, hv3, ok_bind, hv4, ok_bind, hv5, ok_bind, hv6, ok_bind, hv7]
    rfl
  refine .lift (x := v8) hv8 ?_
  refine .lift (x := iota) (h1.vec s1.1 sv8 hn) ?_
  refine .lift (x := g) (h2.vec s2.1 sv8 hn) ?_
  refine .lift (x := i) (h3.vec s3.1 sv8 hn) ?_
  refine .bind (.set (t' := resProfiles t (ns : Int) v1 v2 v3 ⟨phi, v5, v6, v7⟩ t.inp.toroidal_flux) ?_) ?_
  · rw [show (resProfiles t (ns : Int) v1 v2 v3 ⟨v4, v5, v6, v7⟩ t.inp.toroidal_flux).flux.phi = v4 from rfl,
      h4.vec s4 sv4 hn]
    rfl
  refine .bind (.set (t' := resProfiles t (ns : Int) v1 v2 v3 ⟨phi, phip, v6, v7⟩ t.inp.toroidal_flux) ?_) ?_
  · rw [show (resProfiles t (ns : Int) v1 v2 v3 ⟨phi, v5, v6, v7⟩ t.inp.toroidal_flux).flux.phip = v5 from rfl,
      h5.vec s5 sv5 hn]
    rfl
  refine .bind (.set (t' := resProfiles t (ns : Int) v1 v2 v3 ⟨phi, phip, chi, v7⟩ t.inp.toroidal_flux) ?_) ?_
  · rw [show (resProfiles t (ns : Int) v1 v2 v3 ⟨phi, phip, v6, v7⟩ t.inp.toroidal_flux).flux.chi = v6 from rfl,
      hchi v6 hv6]
    rfl
  refine .bind (.set (t' := resProfiles t (ns : Int) v1 v2 v3 ⟨phi, phip, chi, pres⟩ t.inp.toroidal_flux) ?_) ?_
  · rw [show (resProfiles t (ns : Int) v1 v2 v3 ⟨phi, phip, chi, v7⟩ t.inp.toroidal_flux).flux.pres = v7 from rfl,
      h6.vec s6 sv7 hn]
    rfl
  refine .bind (.set (t' := resProfiles t (ns : Int) (Vec.tab ns (unshifted iota))
      (Vec.tab ns (unshifted g)) (Vec.tab ns (unshifted i)) ⟨phi, phip, chi, pres⟩ t.inp.toroidal_flux) ?_) ?_
  · rw [e]
    show (dropFirst3 (ns : Int) ⟨iota, g, i⟩ ⟨v1, v2, v3⟩ >>= _) = _
    rw [dropFirst3_ok s1 s2 s3 sv1 sv2 sv3]
    rfl
  refine .set ?_
  rw [e]
  show (phi.rd (ns : Int) >>= _) = _
  have : phi.rd (ns : Int) = .ok x := by
    unfold Vec.rd Vec.rdN
    rw [if_pos (by omega), Int.toNat_natCast, hx]
  rw [this]
  rfl

theorem minus2_ok {n : Nat} {v : Vec Int} (h : v.Full n) (hf : ∀ j < n, FitsInt (v.val 0 j - 2)) :
    minus2 n v = .ok (Vec.tab n fun j => v.val 0 j - 2) := by
  unfold minus2
  have ev := Vec.eq_tabO v
  rw [h.1] at ev
  refine loop_traj' (fun k => Vec.tabO n (Vec.fillTo (fun i => v[i]?.join) (fun j => v.val 0 j - 2) k))
    ?_ ?_ Vec.fillTo_all
  · intro j hj
    have hr : (Vec.tabO n (Vec.fillTo (fun i => v[i]?.join) (fun j => v.val 0 j - 2) j)).rdN j =
        .ok (v.val 0 j) := by
      obtain ⟨x, hx⟩ := h.2 j hj
      unfold Vec.rdN
      rw [Vec.getElem?_tabO, if_pos hj]
      simp only [Vec.fillTo, Nat.lt_irrefl, if_false]
      rw [hx]
      simp [Vec.val, hx]
    rw [hr, ok_bind, i32_ok (hf j hj), ok_bind]
    exact Vec.wrN_fillTo (h := fun j => v.val 0 j - 2) hj
  · rw [← Vec.fillTo_zero]; exact ev

theorem readSurfs_ok {nb : Nat} {jl : Vec Int} (hd : f.dim? "comput_surfs" = some nb) (hb : 1 ≤ nb)
    (h1 : GetsI f "jlist" jl) (s1 : jl.Full nb) (hf : ∀ j < nb, FitsInt (jl.val 0 j - 2)) :
    Goes (readSurfs f) t (resSurfs t (nb : Int) (Vec.tab nb fun j => jl.val 0 j - 2)) := by
  unfold readSurfs
  refine .lift (x := nb) (by unfold NcFile.getdim; rw [hd]) ?_
  obtain ⟨v, hv, sv⟩ := Vec.resize_size t.inp.compute_surfs (n := (nb : Int)) (by omega)
  rw [Int.toNat_natCast] at sv
  refine .bind (.set (t' := resSurfs t (nb : Int) v) ?_) ?_
  · rw [hv]; rfl
  refine .bind (.set (t' := resSurfs t (nb : Int) jl) ?_) ?_
  · rw [show (resSurfs t (nb : Int) v).inp.compute_surfs = v from rfl, h1.vec s1.1 sv hb]; rfl
  refine .set ?_
  rw [show (resSurfs t (nb : Int) jl).inp.compute_surfs = jl from rfl, minus2_ok s1 hf]; rfl

theorem readSym_ok {K nb : Nat} {b r z p g : Vec α} (hK : 1 ≤ K) (hb : 1 ≤ nb)
    (ht : t.out.mnboz = some (K : Int)) (hn : t.out.ns_b = some (nb : Int))
    (h1 : GetsD f "bmnc_b" b) (h2 : GetsD f "rmnc_b" r) (h3 : GetsD f "zmns_b" z)
    (h4 : GetsD f "pmns_b" p) (h5 : GetsD f "gmn_b" g) (s1 : b.size = K * nb) (s2 : r.size = K * nb)
    (s3 : z.size = K * nb) (s4 : p.size = K * nb) (s5 : g.size = K * nb) :
    Goes (readSym f) t (resSym t ⟨K, nb, b⟩ ⟨K, nb, r⟩ ⟨K, nb, z⟩ (Mat.neg ⟨K, nb, p⟩) ⟨K, nb, g⟩) := by
  unfold readSym
  obtain ⟨v1, hv1, sv1⟩ := Mat.resize_size t.out.spec.bmnc_b (r := (K : Int)) (c := (nb : Int)) (by omega) (by omega)
  obtain ⟨v2, hv2, sv2⟩ := Mat.resize_size t.out.spec.rmnc_b (r := (K : Int)) (c := (nb : Int)) (by omega) (by omega)
  obtain ⟨v3, hv3, sv3⟩ := Mat.resize_size t.out.spec.zmns_b (r := (K : Int)) (c := (nb : Int)) (by omega) (by omega)
  obtain ⟨v4, hv4, sv4⟩ := Mat.resize_size t.out.spec.numns_b (r := (K : Int)) (c := (nb : Int)) (by omega) (by omega)
  obtain ⟨v5, hv5, sv5⟩ := Mat.resize_size t.out.spec.gmnc_b (r := (K : Int)) (c := (nb : Int)) (by omega) (by omega)
  rw [Int.toNat_natCast, Int.toNat_natCast] at sv1 sv2 sv3 sv4 sv5 hv1 hv2 hv3 hv4 hv5
  refine .bind (.set (t' := resSym t ⟨K, nb, v1⟩ ⟨K, nb, v2⟩ ⟨K, nb, v3⟩ ⟨K, nb, v4⟩ ⟨K, nb, v5⟩) ?_) ?_
  · rw [ht, hn, need_some, ok_bind, need_some, ok_bind, hv1, ok_bind, hv2, ok_bind, hv3, ok_bind, hv4,
      ok_bind, hv5]
    rfl
  refine .bind (.set (t' := resSym t ⟨K, nb, b⟩ ⟨K, nb, v2⟩ ⟨K, nb, v3⟩ ⟨K, nb, v4⟩ ⟨K, nb, v5⟩) ?_) ?_
  · show (f.getMat "bmnc_b" ⟨K, nb, v1⟩ >>= _) = _
    rw [h1.mat s1 sv1 hK hb]; rfl
  refine .bind (.set (t' := resSym t ⟨K, nb, b⟩ ⟨K, nb, r⟩ ⟨K, nb, v3⟩ ⟨K, nb, v4⟩ ⟨K, nb, v5⟩) ?_) ?_
  · show (f.getMat "rmnc_b" ⟨K, nb, v2⟩ >>= _) = _
    rw [h2.mat s2 sv2 hK hb]; rfl
  refine .bind (.set (t' := resSym t ⟨K, nb, b⟩ ⟨K, nb, r⟩ ⟨K, nb, z⟩ ⟨K, nb, v4⟩ ⟨K, nb, v5⟩) ?_) ?_
  · show (f.getMat "zmns_b" ⟨K, nb, v3⟩ >>= _) = _
    rw [h3.mat s3 sv3 hK hb]; rfl
  refine .bind (.set (t' := resSym t ⟨K, nb, b⟩ ⟨K, nb, r⟩ ⟨K, nb, z⟩ ⟨K, nb, p⟩ ⟨K, nb, v5⟩) ?_) ?_
  · show (f.getMat "pmns_b" ⟨K, nb, v4⟩ >>= _) = _
    rw [h4.mat s4 sv4 hK hb]; rfl
  refine .bind (.set (t' := resSym t ⟨K, nb, b⟩ ⟨K, nb, r⟩ ⟨K, nb, z⟩ (Mat.neg ⟨K, nb, p⟩) ⟨K, nb, v5⟩) rfl) ?_
  refine .set ?_
  show (f.getMat "gmn_b" ⟨K, nb, v5⟩ >>= _) = _
  rw [h5.mat s5 sv5 hK hb]; rfl

theorem readAsym_ok {K nb : Nat} {b r z p g : Vec α} (hK : 1 ≤ K) (hb : 1 ≤ nb)
    (ht : t.out.mnboz = some (K : Int)) (hn : t.out.ns_b = some (nb : Int))
    (h1 : GetsD f "bmns_b" b) (h2 : GetsD f "rmns_b" r) (h3 : GetsD f "zmnc_b" z)
    (h4 : GetsD f "pmnc_b" p) (h5 : GetsD f "gmns_b" g) (s1 : b.size = K * nb) (s2 : r.size = K * nb)
    (s3 : z.size = K * nb) (s4 : p.size = K * nb) (s5 : g.size = K * nb) :
    Goes (readAsym f true) t
      (resAsym t ⟨K, nb, b⟩ ⟨K, nb, r⟩ ⟨K, nb, z⟩ (Mat.neg ⟨K, nb, p⟩) ⟨K, nb, g⟩) := by
  unfold readAsym
  rw [if_pos rfl]
  obtain ⟨v1, hv1, sv1⟩ := Mat.resize_size t.out.spec.bmns_b (r := (K : Int)) (c := (nb : Int)) (by omega) (by omega)
  obtain ⟨v2, hv2, sv2⟩ := Mat.resize_size t.out.spec.rmns_b (r := (K : Int)) (c := (nb : Int)) (by omega) (by omega)
  obtain ⟨v3, hv3, sv3⟩ := Mat.resize_size t.out.spec.zmnc_b (r := (K : Int)) (c := (nb : Int)) (by omega) (by omega)
  obtain ⟨v4, hv4, sv4⟩ := Mat.resize_size t.out.spec.numnc_b (r := (K : Int)) (c := (nb : Int)) (by omega) (by omega)
  obtain ⟨v5, hv5, sv5⟩ := Mat.resize_size t.out.spec.gmns_b (r := (K : Int)) (c := (nb : Int)) (by omega) (by omega)
  rw [Int.toNat_natCast, Int.toNat_natCast] at sv1 sv2 sv3 sv4 sv5 hv1 hv2 hv3 hv4 hv5
  refine .bind (.set (t' := resAsym t ⟨K, nb, v1⟩ ⟨K, nb, v2⟩ ⟨K, nb, v3⟩ ⟨K, nb, v4⟩ ⟨K, nb, v5⟩) ?_) ?_
  · rw [ht, hn, need_some, ok_bind, need_some, ok_bind, hv1, ok_bind, hv2, ok_bind, hv3, ok_bind, hv4,
      ok_bind, hv5]
    rfl
  refine .bind (.set (t' := resAsym t ⟨K, nb, b⟩ ⟨K, nb, v2⟩ ⟨K, nb, v3⟩ ⟨K, nb, v4⟩ ⟨K, nb, v5⟩) ?_) ?_
  · show (f.getMat "bmns_b" ⟨K, nb, v1⟩ >>= _) = _
    rw [h1.mat s1 sv1 hK hb]; rfl
  refine .bind (.set (t' := resAsym t ⟨K, nb, b⟩ ⟨K, nb, r⟩ ⟨K, nb, v3⟩ ⟨K, nb, v4⟩ ⟨K, nb, v5⟩) ?_) ?_
  · show (f.getMat "rmns_b" ⟨K, nb, v2⟩ >>= _) = _
    rw [h2.mat s2 sv2 hK hb]; rfl
  refine .bind (.set (t' := resAsym t ⟨K, nb, b⟩ ⟨K, nb, r⟩ ⟨K, nb, z⟩ ⟨K, nb, v4⟩ ⟨K, nb, v5⟩) ?_) ?_
  · show (f.getMat "zmnc_b" ⟨K, nb, v3⟩ >>= _) = _
    rw [h3.mat s3 sv3 hK hb]; rfl
  refine .bind (.set (t' := resAsym t ⟨K, nb, b⟩ ⟨K, nb, r⟩ ⟨K, nb, z⟩ ⟨K, nb, p⟩ ⟨K, nb, v5⟩) ?_) ?_
  · show (f.getMat "pmnc_b" ⟨K, nb, v4⟩ >>= _) = _
    rw [h4.mat s4 sv4 hK hb]; rfl
  refine .bind (.set (t' := resAsym t ⟨K, nb, b⟩ ⟨K, nb, r⟩ ⟨K, nb, z⟩ (Mat.neg ⟨K, nb, p⟩) ⟨K, nb, v5⟩) rfl) ?_
  refine .set ?_
  show (f.getMat "gmns_b" ⟨K, nb, v5⟩ >>= _) = _
  rw [h5.mat s5 sv5 hK hb]; rfl

theorem readAsym_none : Goes (readAsym f false) t (resAsym t .empty .empty .empty .empty .empty) := by
  unfold readAsym
  rw [if_neg (by decide)]
  exact .set rfl

theorem readS_ok {nb : Nat} {ns : Int} {sf : Vec Int} (hn : t.out.ns_b = some (nb : Int))
    (h1 : GetsI f "ns_b" #[some ns]) (hs : t.inp.compute_surfs = sf) (h2 : sf.Full nb) :
    Goes (readS f) t (resS t (Vec.tab nb fun j =>
      ofInt 1 / (ofInt ns - ofInt 1) * (ofInt (sf.val 0 j) + Arith.half))) := by
  unfold readS
  refine .lift (x := some ns) (h1.int _) ?_
  refine .lift (x := ns) rfl ?_
  obtain ⟨w, hw⟩ := Vec.resize_tabO t.out.s_b (n := (nb : Int)) (by omega)
  rw [Int.toNat_natCast] at hw
  have hneed : need t.out.ns_b "ns_b" = .ok (nb : Int) := by rw [hn]; rfl
  dsimp only
  refine .bind (.set (t' := resS t (Vec.tabO nb w)) ?_) ?_
  · rw [hneed, ok_bind, hw]; rfl
  refine .set ?_
  rw [show (resS t (Vec.tabO nb w)).out.ns_b = t.out.ns_b from rfl, hneed, ok_bind,
    Int.toNat_natCast]
  show (sbLoop nb _ t.inp.compute_surfs (Vec.tabO nb w) >>= _) = _
  rw [hs]
  have : sbLoop nb (ofInt 1 / (ofInt ns - ofInt 1)) sf (Vec.tabO nb w) = .ok (Vec.tab nb fun j =>
      ofInt 1 / (ofInt ns - ofInt 1) * (ofInt (sf.val 0 j) + Arith.half)) := by
    unfold sbLoop
    refine loop_traj' (fun k => Vec.tabO nb (Vec.fillTo w (fun j =>
      ofInt 1 / (ofInt ns - ofInt 1) * (ofInt (sf.val 0 j) + Arith.half)) k)) ?_ Vec.fillTo_zero
      Vec.fillTo_all
    intro j hj
    rw [full_rdN h2 0 hj, ok_bind]
    exact Vec.wrN_fillTo (h := fun j =>
      ofInt 1 / (ofInt ns - ofInt 1) * (ofInt (sf.val 0 j) + Arith.half)) hj
  rw [this]
  rfl

end

/-- The object after reading a file with contents `V`; `chi` is what becomes of that profile. -/
def readRes (t : St α) (V : BzVals α) (K nb ns : Nat) (chi : Vec α) (tf : α) : St α :=
  let t1 := resModes (resSizes (resFlag t (decide (V.lasym ≠ 0))) V.nfp V.mboz V.nboz (K : Int)) V.ixm V.ixn
  let t2 := resProfiles t1 (ns : Int) (Vec.tab ns (unshifted V.iota)) (Vec.tab ns (unshifted V.bvco))
    (Vec.tab ns (unshifted V.buco)) ⟨V.phi, V.phip, chi, V.pres⟩ (some tf)
  let t3 := resSurfs t2 (nb : Int) (Vec.tab nb fun j => V.jlist.val 0 j - 2)
  let t4 := resSym t3 ⟨K, nb, V.bmnc⟩ ⟨K, nb, V.rmnc⟩ ⟨K, nb, V.zmns⟩ (Mat.neg ⟨K, nb, V.pmns⟩)
    ⟨K, nb, V.gmn⟩
  let t5 := if V.lasym ≠ 0 then resAsym t4 ⟨K, nb, V.bmns⟩ ⟨K, nb, V.rmns⟩ ⟨K, nb, V.zmnc⟩
      (Mat.neg ⟨K, nb, V.pmnc⟩) ⟨K, nb, V.gmns⟩
    else resAsym t4 .empty .empty .empty .empty .empty
  resS t5 (Vec.tab nb fun j => ofInt 1 / (ofInt ((ns : Int) + 1) - ofInt 1) *
    (ofInt (V.jlist.val 0 j - 2) + Arith.half))

/-- Closed form of `read_boozmn` on a well-formed file. -/
theorem readBoozmn_ok {disk : Disk α} {path : String} {f : NcFile α} {V : BzVals α} {K nb ns : Nat}
    {t : St α} {chi : Vec α} {x : α} (hf : disk path = .nc f) (h : IsBoozmn f K nb ns V)
    (hchi : ∀ old, t.flux.chi.resize ((ns + 1 : Nat) : Int) = .ok old → tryGetVec f "chi_b" old = .ok chi)
    (hx : V.phi[ns]? = some (some x)) :
    readBoozmn disk path t = .ok () (readRes t V K nb ns chi x) := by
  unfold readBoozmn readBoozmnBody
  refine Goes.lift (x := f) (by unfold openRead; rw [hf]) ?_
  refine Goes.lift (x := some V.lasym) (h.lasym.int _) ?_
  refine Goes.lift (x := V.lasym) rfl ?_
  refine Goes.bind (.set (t' := resFlag t (decide (V.lasym ≠ 0))) rfl) ?_
  refine Goes.bind (readSizes_ok h.nfp h.mboz h.nboz h.mnboz) ?_
  refine Goes.bind (readModes_ok h.K_pos rfl h.ixm h.ixn h.ixm_size h.ixn_size) ?_
  refine Goes.bind (readProfiles_ok h.radius h.iota h.bvco h.buco h.phi h.phip h.pres hchi h.iota_full
    h.bvco_full h.buco_full h.phi_size h.phip_size h.pres_size hx) ?_
  refine Goes.bind (readSurfs_ok h.comput_surfs h.nb_pos h.jlist h.jlist_full h.jlist_fits) ?_
  refine Goes.bind (readSym_ok h.K_pos h.nb_pos rfl rfl h.bmnc h.rmnc h.zmns h.pmns h.gmn
    h.bmnc_size h.rmnc_size h.zmns_size h.pmns_size h.gmn_size) ?_
  have hfull : Vec.Full (Vec.tab nb fun j => V.jlist.val 0 j - 2) nb := Vec.full_tab _ _
  have hS : ∀ t5 : St α, t5.out.ns_b = some (nb : Int) →
      t5.inp.compute_surfs = (Vec.tab nb fun j => V.jlist.val 0 j - 2) →
      Goes (readS f) t5 (resS t5 (Vec.tab nb fun j => ofInt 1 / (ofInt ((ns : Int) + 1) - ofInt 1) *
        (ofInt (V.jlist.val 0 j - 2) + Arith.half))) := by
    intro t5 h5 h6
    have := readS_ok h5 h.ns_b h6 hfull
    rw [Vec.tab_congr (g := fun j => ofInt 1 / (ofInt ((ns : Int) + 1) - ofInt 1) *
      (ofInt (V.jlist.val 0 j - 2) + Arith.half))] at this
    · exact this
    · intro j hj
      rw [Vec.val_tab hj]
  unfold readRes
  dsimp only
  by_cases hl : V.lasym ≠ 0
  · obtain ⟨a1, b1, a2, b2, a3, b3, a4, b4, a5, b5⟩ := h.asymVars hl
    rw [if_pos hl, decide_eq_true hl]
    refine Goes.bind (readAsym_ok h.K_pos h.nb_pos rfl rfl a1 a2 a3 a4 a5 b1 b2 b3 b4 b5) ?_
    exact hS _ rfl rfl
  · rw [if_neg hl, decide_eq_false hl]
    refine Goes.bind readAsym_none ?_
    exact hS _ rfl rfl

end Booz
