import Verif.Lemmas.Malformed
import Verif.Lemmas.LoadMain

/-!
# Reading `wout` files with too few values
-/

namespace Booz
open Spec
variable {α : Type} [Arith α]

/-! ### What a successful load has read -/

/-- The entry is readable. -/
def Got {β : Type} (r : Res β) : Prop := ∃ x, r = .ok x

omit [Arith α] in
theorem Got.bind {β γ : Type} {r : Res β} {k : β → Res γ} {x : γ} (h : (r >>= k) = .ok x) : Got r :=
  let ⟨b, e, _⟩ := bind_ok h; ⟨b, e⟩

theorem loadIota_reads {n : Int} {v old r : Vec α} (hn : 1 ≤ n) (h : loadIota n v old = .ok r) :
    Got (v.rdN n.toNat) := by
  obtain ⟨_, _, h⟩ := bind_ok h
  obtain ⟨a, b, _, hb⟩ := loop_iter h (i := n.toNat - 1) (by omega)
  have := Got.bind hb
  rwa [show n.toNat - 1 + 1 = n.toNat by omega] at this

theorem loadFlux_reads {ns n : Int} {A : VmecArgs α} {old : Flux α} {r : Flux α × α} (hn : 1 ≤ n)
    (hp : A.phip.size ≠ 0) (h : loadFlux ns n A old = .ok r) :
    Got (A.phip.rdN n.toNat) ∧ Got (A.chi.rdN n.toNat) ∧ Got (A.pres.rdN n.toNat) ∧ Got (A.phi.rdN n.toNat) := by
  unfold loadFlux at h
  rw [if_neg hp] at h
  obtain ⟨_, _, h⟩ := bind_ok h
  obtain ⟨_, _, h⟩ := bind_ok h
  obtain ⟨_, _, h⟩ := bind_ok h
  obtain ⟨_, _, h⟩ := bind_ok h
  obtain ⟨f, hl, _⟩ := bind_ok h
  obtain ⟨a, b, _, hb⟩ := loop_iter hl (i := n.toNat) (by omega)
  unfold loadFluxStep at hb
  obtain ⟨_, h1, hb⟩ := bind_ok hb
  obtain ⟨_, _, hb⟩ := bind_ok hb
  obtain ⟨_, h2, hb⟩ := bind_ok hb
  obtain ⟨_, _, hb⟩ := bind_ok hb
  obtain ⟨_, h3, hb⟩ := bind_ok hb
  obtain ⟨_, _, hb⟩ := bind_ok hb
  obtain ⟨_, h4, hb⟩ := bind_ok hb
  exact ⟨⟨_, h1⟩, ⟨_, h2⟩, ⟨_, h3⟩, ⟨_, h4⟩⟩

theorem loadShift_reads {k n : Int} {a old r : Mat α} (hk : 1 ≤ k) (hn : 1 ≤ n) (h : loadShift k n a old = .ok r) :
    Got (a.rdN (k.toNat - 1) n.toNat) := by
  obtain ⟨_, _, h⟩ := bind_ok h
  obtain ⟨_, _, _, hb⟩ := loop_iter h (i := n.toNat - 1) (by omega)
  obtain ⟨_, _, _, hc⟩ := loop_iter hb (i := k.toNat - 1) (by omega)
  have := Got.bind hc
  rwa [show n.toNat - 1 + 1 = n.toNat by omega] at this

theorem loadShift3_reads {k n : Int} {a old r : Mat3 α} (hk : 1 ≤ k) (hn : 1 ≤ n)
    (h : loadShift3 k n a old = .ok r) :
    Got (a.b.rdN (k.toNat - 1) n.toNat) ∧ Got (a.u.rdN (k.toNat - 1) n.toNat) ∧
      Got (a.v.rdN (k.toNat - 1) n.toNat) := by
  obtain ⟨_, _, h⟩ := bind_ok h
  obtain ⟨_, _, h⟩ := bind_ok h
  obtain ⟨_, _, h⟩ := bind_ok h
  obtain ⟨_, _, _, hb⟩ := loop_iter h (i := n.toNat - 1) (by omega)
  obtain ⟨_, _, _, hc⟩ := loop_iter hb (i := k.toNat - 1) (by omega)
  unfold loadShiftStep at hc
  rw [show n.toNat - 1 + 1 = n.toNat by omega] at hc
  obtain ⟨_, h1, hc⟩ := bind_ok hc
  obtain ⟨_, _, hc⟩ := bind_ok hc
  obtain ⟨_, h2, hc⟩ := bind_ok hc
  obtain ⟨_, _, hc⟩ := bind_ok hc
  obtain ⟨_, h3, hc⟩ := bind_ok hc
  exact ⟨⟨_, h1⟩, ⟨_, h2⟩, ⟨_, h3⟩⟩

theorem put4_reads {asym : Bool} {A : VmecArgs α} {val : Mat α → Res α} {j k : Nat} {s r : RZ4 α}
    (h : put4 asym A val j k s = .ok r) :
    Got (val A.rmnc) ∧ Got (val A.zmns) ∧ (asym = true → Got (val A.rmns) ∧ Got (val A.zmnc)) := by
  unfold put4 at h
  obtain ⟨_, h1, h⟩ := bind_ok h
  obtain ⟨_, _, h⟩ := bind_ok h
  obtain ⟨_, h2, h⟩ := bind_ok h
  obtain ⟨_, _, h⟩ := bind_ok h
  refine ⟨⟨_, h1⟩, ⟨_, h2⟩, fun ha => ?_⟩
  rw [if_pos ha] at h
  obtain ⟨_, h3, h⟩ := bind_ok h
  obtain ⟨_, _, h⟩ := bind_ok h
  obtain ⟨_, h4, h⟩ := bind_ok h
  exact ⟨⟨_, h3⟩, ⟨_, h4⟩⟩

theorem evenVal_reads {j k : Nat} {a : Mat α} (h : Got (evenVal j k a)) : Got (a.rdN j (k + 1)) := by
  obtain ⟨x, h⟩ := h
  obtain ⟨_, _, h⟩ := bind_ok h
  exact Got.bind h

theorem oddVal_reads {sf sh : Vec α} {j k : Nat} {a : Mat α} (h : Got (oddVal sf sh j k a)) :
    Got (a.rdN j (k + 1)) := by
  obtain ⟨x, h⟩ := h
  obtain ⟨_, _, h⟩ := bind_ok h
  obtain ⟨_, _, h⟩ := bind_ok h
  exact Got.bind h

theorem interp_reads {asym : Bool} {n k : Int} {A : VmecArgs α} {xm : Vec Int} {sf sh : Vec α} {s r : RZ4 α}
    (hk : 1 ≤ k) (hn : 1 ≤ n) (h : loop k.toNat (interpMode asym n A xm sf sh) s = .ok r) :
    Got (A.rmnc.rdN (k.toNat - 1) n.toNat) ∧ Got (A.zmns.rdN (k.toNat - 1) n.toNat) ∧
      (asym = true → Got (A.rmns.rdN (k.toNat - 1) n.toNat) ∧ Got (A.zmnc.rdN (k.toNat - 1) n.toNat)) := by
  obtain ⟨_, _, _, hb⟩ := loop_iter h (i := k.toNat - 1) (by omega)
  unfold interpMode at hb
  obtain ⟨m, _, hb⟩ := bind_ok hb
  have e : n.toNat - 1 + 1 = n.toNat := by omega
  split at hb
  · obtain ⟨_, _, _, hc⟩ := loop_iter hb (i := n.toNat - 1) (by omega)
    obtain ⟨p1, p2, p3⟩ := put4_reads hc
    exact ⟨e ▸ evenVal_reads p1, e ▸ evenVal_reads p2, fun ha =>
      ⟨e ▸ evenVal_reads (p3 ha).1, e ▸ evenVal_reads (p3 ha).2⟩⟩
  · obtain ⟨_, hl, _⟩ := bind_ok hb
    obtain ⟨_, _, _, hc⟩ := loop_iter hl (i := n.toNat - 1) (by omega)
    obtain ⟨p1, p2, p3⟩ := put4_reads hc
    exact ⟨e ▸ oddVal_reads p1, e ▸ oddVal_reads p2, fun ha =>
      ⟨e ▸ oddVal_reads (p3 ha).1, e ▸ oddVal_reads (p3 ha).2⟩⟩

/-- The last entries of the arguments, all of which a load reads. -/
structure LastRead (A : VmecArgs α) (asym : Bool) (k q n : Nat) : Prop where
  iotas : Got (A.iotas.rdN n)
  flux : A.phip.size ≠ 0 →
    Got (A.phip.rdN n) ∧ Got (A.chi.rdN n) ∧ Got (A.pres.rdN n) ∧ Got (A.phi.rdN n)
  rmnc : Got (A.rmnc.rdN (k - 1) n)
  zmns : Got (A.zmns.rdN (k - 1) n)
  lmns : Got (A.lmns.rdN (k - 1) n)
  bmnc : Got (A.bmnc.rdN (q - 1) n)
  bsubumnc : Got (A.bsubumnc.rdN (q - 1) n)
  bsubvmnc : Got (A.bsubvmnc.rdN (q - 1) n)
  asym : asym = true → Got (A.rmns.rdN (k - 1) n) ∧ Got (A.zmnc.rdN (k - 1) n) ∧ Got (A.lmnc.rdN (k - 1) n) ∧
    Got (A.bmns.rdN (q - 1) n) ∧ Got (A.bsubumns.rdN (q - 1) n) ∧ Got (A.bsubvmns.rdN (q - 1) n)

theorem load_reads {ns n k q : Int} {A : VmecArgs α} {I : Inputs α} {F : Flux α} {asym : Bool}
    {r : Inputs α × Flux α} (hn : 1 ≤ n) (hk : 1 ≤ k) (hq : 1 ≤ q) (h1 : I.mnmax = some k)
    (h2 : I.mnmax_nyq = some q) (h3 : I.asym = some asym) (h : load ns n A I F = .ok r) :
    LastRead A asym k.toNat q.toNat n.toNat := by
  unfold load at h
  rw [h1, h2, h3, need_some, need_some, need_some] at h
  simp only [ok_bind] at h
  obtain ⟨_, a1, h⟩ := bind_ok h
  obtain ⟨_, a2, h⟩ := bind_ok h
  obtain ⟨_, _, h⟩ := bind_ok h
  obtain ⟨_, _, h⟩ := bind_ok h
  obtain ⟨_, _, h⟩ := bind_ok h
  obtain ⟨_, a3, h⟩ := bind_ok h
  obtain ⟨_, a4, h⟩ := bind_ok h
  obtain ⟨_, _, h⟩ := bind_ok h
  obtain ⟨_, _, h⟩ := bind_ok h
  obtain ⟨_, a5, h⟩ := bind_ok h
  obtain ⟨_, a6, h⟩ := bind_ok h
  obtain ⟨_, _, h⟩ := bind_ok h
  obtain ⟨_, _, h⟩ := bind_ok h
  obtain ⟨_, _, h⟩ := bind_ok h
  obtain ⟨_, a7, h⟩ := bind_ok h
  obtain ⟨r1, r2, r3⟩ := interp_reads hk hn a7
  obtain ⟨s1, s2, s3⟩ := loadShift3_reads hq hn a4
  refine ⟨loadIota_reads hn a1, fun hp => loadFlux_reads hn hp a2, r1, r2, loadShift_reads hk hn a3, s1, s2, s3,
    fun ha => ?_⟩
  subst ha
  obtain ⟨t1, t2, t3⟩ := loadShift3_reads hq hn (show loadShift3 _ _ _ _ = _ from a6)
  exact ⟨(r3 rfl).1, (r3 rfl).2, loadShift_reads hk hn (show loadShift _ _ _ _ = _ from a5), t1, t2, t3⟩

/-- A load that returns has read the last entry of every array. -/
theorem vmec_reads {ns k q : Int} {A : VmecArgs α} {s s' : St α} {asym : Bool} {u : Unit}
    (hk : 1 ≤ k) (hq : 1 ≤ q) (h1 : s.inp.mnmax = some k) (h2 : s.inp.mnmax_nyq = some q)
    (h3 : s.inp.asym = some asym) (h : initFromVmec ns A s = .ok u s') :
    2 ≤ ns ∧ LastRead A asym k.toNat q.toNat (ns - 1).toNat := by
  have hf := fits_of_ok h
  rw [vmec_eq ns A s hf] at h
  cases hv : validate ns A (withNs s ns).inp with
  | error f => rw [hv] at h; cases f <;> cases h
  | ok w =>
    rw [hv] at h
    dsimp only at h
    have hns : 2 ≤ ns := by
      obtain ⟨_, hc, -⟩ := bind_ok hv
      unfold check at hc
      split at hc
      · assumption
      · cases hc
    cases hl : load ns (ns - 1) A (withNs s ns).inp s.flux with
    | error f => rw [hl] at h; cases f <;> cases h
    | ok r => exact ⟨hns, load_reads (by omega) hk hq h1 h2 h3 hl⟩

/-! ### What was read comes from the file -/

theorem blit_short {β : Type} {src buf r : Vec β} (hb : ∀ i (h : i < buf.size), buf[i] = none)
    (h : blit src buf = .ok r) (hg : Got (r.rdN (buf.size - 1))) : src.size = buf.size := by
  unfold blit at h
  split at h
  · next hs =>
    cases h
    refine Nat.le_antisymm hs (Nat.not_lt.mp fun hlt => ?_)
    obtain ⟨x, hx⟩ := hg
    unfold Vec.rdN at hx
    rw [Array.getElem?_append_right (by omega), Array.getElem?_extract] at hx
    rw [if_pos (by simp; omega), Array.getElem?_eq_getElem (by omega), hb] at hx
    cases hx
  · cases h

section
variable {f : NcFile α} {n : String}

omit [Arith α] in
theorem fresh_none {β : Type} {k : Int} {r : Vec β} (h : Vec.resize #[] k = .ok r) :
    ∀ i (h : i < r.size), r[i] = none := by
  unfold Vec.resize at h
  split at h
  · cases h
    intro i hi
    split
    · next e => rw [if_pos e] at hi; simp at hi
    · simp
  · cases h

omit [Arith α] in
theorem mfresh_none {β : Type} {k l : Int} {r : Mat β} (h : Mat.empty.resize k l = .ok r) :
    r.rows = k.toNat ∧ r.cols = l.toNat ∧ ∀ i (h : i < r.data.size), r.data[i] = none := by
  unfold Mat.resize at h
  split at h
  · cases h
    refine ⟨rfl, rfl, ?_⟩
    intro i hi
    dsimp only at hi ⊢
    split
    · next e => rw [if_pos e] at hi; simp [Mat.empty] at hi
    · simp
  · cases h

theorem getVec_short {k : Int} {old r : Vec α} (h0 : Vec.resize #[] k = .ok old) (h : f.getVec n old = .ok r)
    (hg : Got (r.rdN (k.toNat - 1))) : entries f n = k.toNat := by
  obtain ⟨v, h1, h⟩ := bind_ok h
  obtain ⟨_, _, h⟩ := bind_ok h
  obtain ⟨a, h3, h⟩ := bind_ok h
  rw [find_entries h1, asDbls_count h3, ← resize_size h0]
  exact blit_short (fresh_none h0) h (by rw [resize_size h0]; exact hg)

theorem getMat_short {k l : Int} {old r : Mat α} (hk : 1 ≤ k) (hl : 1 ≤ l) (h0 : Mat.empty.resize k l = .ok old)
    (h : f.getMat n old = .ok r) (hg : Got (r.rdN (k.toNat - 1) (l.toNat - 1))) :
    entries f n = k.toNat * l.toNat := by
  obtain ⟨v, h1, h⟩ := bind_ok h
  obtain ⟨_, _, h⟩ := bind_ok h
  obtain ⟨a, h3, h⟩ := bind_ok h
  obtain ⟨b, h4, h⟩ := bind_ok h
  cases h
  rw [find_entries h1, asDbls_count h3, ← mresize_size h0]
  obtain ⟨e1, e2, e3⟩ := mfresh_none h0
  refine blit_short e3 h4 ?_
  obtain ⟨x, hx⟩ := hg
  refine ⟨x, ?_⟩
  unfold Mat.rdN at hx
  dsimp only at hx
  rw [if_pos (by omega)] at hx
  rw [mresize_size h0, ← hx, e1]
  congr 1
  obtain ⟨c, hc⟩ : ∃ c, l.toNat = c + 1 := ⟨l.toNat - 1, by omega⟩
  rw [hc, Nat.mul_succ, Nat.add_sub_cancel, Nat.mul_comm]
  omega

theorem readFlux_short {ns : Int} {r : FluxArgs α} (h : readFlux f true (some ns) = .ok r) :
    (r.phip.size = ns.toNat) ∧ (Got (r.phip.rdN (ns.toNat - 1)) → entries f "phipf" = ns.toNat) ∧
    (Got (r.chi.rdN (ns.toNat - 1)) → entries f "chi" = ns.toNat) ∧
    (Got (r.pres.rdN (ns.toNat - 1)) → entries f "pres" = ns.toNat) ∧
    (Got (r.phi.rdN (ns.toNat - 1)) → entries f "phi" = ns.toNat) := by
  unfold readFlux at h
  rw [if_pos rfl] at h
  simp only [need_some, ok_bind] at h
  obtain ⟨w, h0, h⟩ := bind_ok h
  obtain ⟨_, h1, h⟩ := bind_ok h
  obtain ⟨_, h2, h⟩ := bind_ok h
  obtain ⟨_, h3, h⟩ := bind_ok h
  obtain ⟨_, h4, h⟩ := bind_ok h
  cases h
  refine ⟨?_, getVec_short h0 h2, getVec_short h0 h1, getVec_short h0 h3, getVec_short h0 h4⟩
  obtain ⟨v, _, h⟩ := bind_ok h2
  obtain ⟨_, _, h⟩ := bind_ok h
  obtain ⟨a, _, h⟩ := bind_ok h
  exact (blit_fits h).2.trans (resize_size h0)

theorem readMats_short {ns K Q : Int} {a b c d e g : String} {r : Mat6 α} (hn : 1 ≤ ns) (hk : 1 ≤ K) (hq : 1 ≤ Q)
    (h : readMats f (some ns) (some K) (some Q) a b c d e g = .ok r) :
    (Got (r.r.rdN (K.toNat - 1) (ns.toNat - 1)) → entries f a = K.toNat * ns.toNat) ∧
    (Got (r.z.rdN (K.toNat - 1) (ns.toNat - 1)) → entries f b = K.toNat * ns.toNat) ∧
    (Got (r.l.rdN (K.toNat - 1) (ns.toNat - 1)) → entries f c = K.toNat * ns.toNat) ∧
    (Got (r.b.rdN (Q.toNat - 1) (ns.toNat - 1)) → entries f d = Q.toNat * ns.toNat) ∧
    (Got (r.u.rdN (Q.toNat - 1) (ns.toNat - 1)) → entries f e = Q.toNat * ns.toNat) ∧
    (Got (r.v.rdN (Q.toNat - 1) (ns.toNat - 1)) → entries f g = Q.toNat * ns.toNat) := by
  unfold readMats at h
  simp only [need_some, ok_bind] at h
  obtain ⟨w, h0, h⟩ := bind_ok h
  obtain ⟨_, h1, h⟩ := bind_ok h
  obtain ⟨_, h2, h⟩ := bind_ok h
  obtain ⟨_, h3, h⟩ := bind_ok h
  obtain ⟨w', k0, h⟩ := bind_ok h
  obtain ⟨_, k1, h⟩ := bind_ok h
  obtain ⟨_, k2, h⟩ := bind_ok h
  obtain ⟨_, k3, h⟩ := bind_ok h
  cases h
  exact ⟨getMat_short hk hn h0 h1, getMat_short hk hn h0 h2, getMat_short hk hn h0 h3,
    getMat_short hq hn k0 k1, getMat_short hq hn k0 k2, getMat_short hq hn k0 k3⟩

end

/-- What `read_wout` hands to `init_from_vmec`. -/
theorem readWoutBody_inv {f : NcFile α} {z : WoutSizes} {flux : Bool} {s t : St α} {q : Int × VmecArgs α}
    (hz : WoutScalars f z) (h : readWoutBody f flux s = .ok q t) :
    ∃ fl w a b, readFlux f flux (some z.ns) = .ok fl ∧ Vec.resize #[] z.ns = .ok w ∧
      f.getVec "iotas" w = .ok q.2.iotas ∧
      readMats f (some z.ns) (some z.mnmax) (some z.mnmax_nyq)
        "rmnc" "zmns" "lmns" "bmnc" "bsubumnc" "bsubvmnc" = .ok a ∧
      whenAsym (decide (z.lasym ≠ 0)) (readMats f (some z.ns) (some z.mnmax) (some z.mnmax_nyq)
        "rmns" "zmnc" "lmnc" "bmns" "bsubumns" "bsubvmns") ⟨.empty, .empty, .empty, .empty, .empty, .empty⟩ = .ok b ∧
      t.inp.mnmax = some z.mnmax ∧ t.inp.mnmax_nyq = some z.mnmax_nyq ∧ t.inp.asym = some (decide (z.lasym ≠ 0)) ∧
      q = (z.ns, ⟨q.2.iotas, a.r, b.r, b.z, a.z, b.l, a.l, a.b, b.b, a.u, b.u, a.v, b.v, fl.phip, fl.chi, fl.pres,
        fl.phi⟩) := by
  unfold readWoutBody at h
  obtain ⟨x0, g0, h⟩ := lift_bind_inv h
  obtain rfl := getInt_scalar hz.lasym g0
  obtain ⟨I1, g1, h⟩ := setInp_bind_inv h
  cases g1
  obtain ⟨x2, g2, h⟩ := lift_bind_inv h
  obtain rfl := getInt_scalar hz.ns g2
  obtain ⟨_, g3, h⟩ := setInp_bind_inv h
  obtain ⟨_, fg3, e⟩ := bind_ok g3
  cases e
  obtain ⟨_, g4, h⟩ := setInp_bind_inv h
  obtain ⟨_, fg4, e⟩ := bind_ok g4
  cases e
  obtain ⟨_, g5, h⟩ := setInp_bind_inv h
  obtain ⟨_, fg5, e⟩ := bind_ok g5
  cases e
  obtain ⟨_, g6, h⟩ := setInp_bind_inv h
  obtain ⟨_, fg6, e⟩ := bind_ok g6
  obtain rfl := getInt_scalar hz.mnmax fg6
  cases e
  obtain ⟨_, g7, h⟩ := setInp_bind_inv h
  obtain ⟨_, fg7, e⟩ := bind_ok g7
  obtain rfl := getInt_scalar hz.mnmax_nyq fg7
  cases e
  obtain ⟨_, g8, h⟩ := setInp_bind_inv h
  obtain ⟨_, fg8, e⟩ := bind_ok g8
  cases e
  obtain ⟨fl, g9, h⟩ := lift_bind_inv h
  obtain ⟨io, g10, h⟩ := lift_bind_inv h
  simp only [need_some, ok_bind] at g10
  obtain ⟨v10, r10, fg10⟩ := bind_ok g10
  obtain ⟨_, g11, h⟩ := setInp_bind_inv h
  simp only [need_some, ok_bind] at g11
  obtain ⟨v11, r11, e⟩ := bind_ok g11
  cases e
  obtain ⟨_, g12, h⟩ := setInp_bind_inv h
  simp only [need_some, ok_bind] at g12
  obtain ⟨v12, r12, e⟩ := bind_ok g12
  cases e
  obtain ⟨_, g13, h⟩ := setInp_bind_inv h
  obtain ⟨v13, fg13, e⟩ := bind_ok g13
  cases e
  obtain ⟨_, g14, h⟩ := setInp_bind_inv h
  obtain ⟨v14, fg14, e⟩ := bind_ok g14
  cases e
  obtain ⟨_, g15, h⟩ := setInp_bind_inv h
  simp only [need_some, ok_bind] at g15
  obtain ⟨v15, r15, e⟩ := bind_ok g15
  cases e
  obtain ⟨_, g16, h⟩ := setInp_bind_inv h
  simp only [need_some, ok_bind] at g16
  obtain ⟨v16, r16, e⟩ := bind_ok g16
  cases e
  obtain ⟨_, g17, h⟩ := setInp_bind_inv h
  obtain ⟨v17, fg17, e⟩ := bind_ok g17
  cases e
  obtain ⟨_, g18, h⟩ := setInp_bind_inv h
  obtain ⟨v18, fg18, e⟩ := bind_ok g18
  cases e
  obtain ⟨_, g19, h⟩ := setInp_bind_inv h
  simp only [need_some, ok_bind] at g19
  obtain ⟨_, _, g19⟩ := bind_ok g19
  obtain ⟨_, _, e⟩ := bind_ok g19
  cases e
  obtain ⟨_, g20, h⟩ := setInp_bind_inv h
  simp only [need_some, ok_bind] at g20
  obtain ⟨_, _, g20⟩ := bind_ok g20
  obtain ⟨_, _, g20⟩ := bind_ok g20
  obtain ⟨_, _, g20⟩ := bind_ok g20
  obtain ⟨_, hdiv, e⟩ := bind_ok g20
  cases e
  rw [Prog.get_bind] at h
  obtain ⟨a, g21, h⟩ := lift_bind_inv h
  obtain ⟨as, g22, h⟩ := lift_bind_inv h
  cases g22
  obtain ⟨b, g23, h⟩ := lift_bind_inv h
  obtain ⟨nn, g24, h⟩ := lift_bind_inv h
  cases g24
  cases h
  exact ⟨fl, v10, a, b, g9, r10, fg10, g21, g23, rfl, rfl, rfl, rfl⟩

end Booz
