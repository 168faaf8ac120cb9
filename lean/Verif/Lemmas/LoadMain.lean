import Verif.Lemmas.Load

/-!
# `init_from_vmec` as a whole
-/

namespace Booz
open Spec
variable {α : Type} [Arith α]

/-- A matrix without its first column. -/
def shiftMat (mn n : Nat) (a : Mat α) : Mat α := Mat.tab mn n fun k j => ev a k (j + 1)

/-- The inputs after a successful load. -/
def loadedInp (ns : Int) (A : VmecArgs α) (I : Inputs α) (z : Sizes) : Inputs α :=
  let n := (ns - 1).toNat
  let mn := z.mnmax.toNat
  let mq := z.mnmax_nyq.toNat
  { I with
    ns_in := some (ns - 1)
    s_in := Vec.tab n (sinV ns)
    iota := Vec.tab n fun j => A.iotas.val (ofInt 0) (j + 1)
    rmnc := interpMat ns I.xm mn n A.rmnc
    rmns := if z.asym then interpMat ns I.xm mn n A.rmns else I.rmns
    zmnc := if z.asym then interpMat ns I.xm mn n A.zmnc else I.zmnc
    zmns := interpMat ns I.xm mn n A.zmns
    lmnc := if z.asym then shiftMat mn n A.lmnc else I.lmnc
    lmns := shiftMat mn n A.lmns
    bmnc := shiftMat mq n A.bmnc
    bmns := if z.asym then shiftMat mq n A.bmns else I.bmns
    bsubumnc := shiftMat mq n A.bsubumnc
    bsubumns := if z.asym then shiftMat mq n A.bsubumns else I.bsubumns
    bsubvmnc := shiftMat mq n A.bsubvmnc
    bsubvmns := if z.asym then shiftMat mq n A.bsubvmns else I.bsubvmns
    mboz := 6 * z.mpol
    nboz := max (2 * z.ntor - 1) 0
    compute_surfs := Vec.tab n fun j => (j : Int)
    toroidal_flux := some (torFluxV n A) }

theorem full_of {a : Mat α} {r c : Int} {r' c' : Nat} (h : a.Full a.rows a.cols) (hs : Shape a r c)
    (hr : r = r') (hc : c = c') : a.Full r' c' := by
  have h1 : a.rows = r' := by have := hs.1; omega
  have h2 : a.cols = c' := by have := hs.2; omega
  rw [← h1, ← h2]; exact h

theorem whenAsym_eq {β : Type} {asym : Bool} {new : Res β} {old x : β}
    (h : asym = true → new = .ok x) : whenAsym asym new old = .ok (if asym then x else old) := by
  unfold whenAsym
  cases asym
  · rfl
  · exact h rfl

theorem load_ok {ns : Int} {A : VmecArgs α} {I : Inputs α} {F : Flux α} {z : Sizes}
    (C : Consistent ns A I z) (hz : Sized I z) (hl : ListsInit I) (hA : ArgsInit A)
    (L : Loadable ns A I z) :
    load ns (ns - 1) A I F = .ok (loadedInp ns A I z, fluxV (ns - 1).toNat A) := by
  obtain ⟨n, hn⟩ : ∃ n : Nat, ns = (n : Int) + 1 := ⟨(ns - 1).toNat, by have := C.ns_ge; omega⟩
  obtain ⟨mn, hmn⟩ : ∃ k : Nat, z.mnmax = (k : Int) := ⟨_, C.modes.xm_len.symm⟩
  obtain ⟨mq, hmq⟩ : ∃ k : Nat, z.mnmax_nyq = (k : Int) := ⟨_, C.modes_nyq.xm_len.symm⟩
  have hn1 : 1 ≤ n := by have := C.ns_ge; omega
  have hc : ns = ((n + 1 : Nat) : Int) := by omega
  have hc1 : ns - 1 = (n : Int) := by omega
  have ev1 : (ns - 1).toNat = n := by omega
  have ev2 : z.mnmax.toNat = mn := by omega
  have ev3 : z.mnmax_nyq.toNat = mq := by omega
  unfold load
  rw [hz.mnmax, hz.mnmax_nyq, hz.asym, hz.mpol, hz.ntor, need_some, need_some, need_some, need_some,
    need_some, hc1, hmn, hmq]
  simp only [ok_bind]
  have hxm : I.xm.Full mn := by
    have e : I.xm.size = mn := by have := C.modes.xm_len; omega
    rw [← e]; exact hl.xm
  have f1 := full_of hA.rmnc C.rmnc hmn hc
  have f2 := full_of hA.zmns C.zmns hmn hc
  have f3 := full_of hA.lmns C.lmns hmn hc
  have f4 := full_of hA.bmnc C.bmnc hmq hc
  have f5 := full_of hA.bsubumnc C.bsubumnc hmq hc
  have f6 := full_of hA.bsubvmnc C.bsubvmnc hmq hc
  have hio : A.iotas.Full (n + 1) := by
    have e : A.iotas.size = n + 1 := by have := C.iotas; omega
    rw [← e]; exact hA.iotas
  have hfl : A.phip.size ≠ 0 → A.phip.Full (n + 1) ∧ A.chi.Full (n + 1) ∧ A.pres.Full (n + 1) ∧
      A.phi.Full (n + 1) := by
    intro h0
    obtain ⟨a, b, c, d⟩ := C.flux h0
    have e1 : A.phip.size = n + 1 := by omega
    have e2 : A.chi.size = n + 1 := by omega
    have e3 : A.pres.size = n + 1 := by omega
    have e4 : A.phi.size = n + 1 := by omega
    exact ⟨by rw [← e1]; exact hA.phip, by rw [← e2]; exact hA.chi, by rw [← e3]; exact hA.pres,
      by rw [← e4]; exact hA.phi⟩
  obtain ⟨g1, e1⟩ := I.rmnc.resize_tabO (r := (mn : Int)) (c := (n : Int)) (by omega) (by omega)
  obtain ⟨g2, e2⟩ := I.zmns.resize_tabO (r := (mn : Int)) (c := (n : Int)) (by omega) (by omega)
  obtain ⟨g3, e3⟩ := I.rmns.resize_tabO (r := (mn : Int)) (c := (n : Int)) (by omega) (by omega)
  obtain ⟨g4, e4⟩ := I.zmnc.resize_tabO (r := (mn : Int)) (c := (n : Int)) (by omega) (by omega)
  rw [Int.toNat_natCast, Int.toNat_natCast] at e1 e2 e3 e4
  rw [loadIota_ok hio, ok_bind]
  have hF := loadFlux_ok (old := F) hfl
  rw [← hn] at hF
  rw [hF, ok_bind]
  dsimp only
  rw [loadSurfs_ok, ok_bind, e1, ok_bind, e2, ok_bind, loadShift_ok f3, ok_bind,
    loadShift3_ok f4 f5 f6, ok_bind, whenAsym_eq (fun _ => e3), ok_bind, whenAsym_eq (fun _ => e4),
    ok_bind, whenAsym_eq (x := shiftMat mn n A.lmnc)
      (fun h => loadShift_ok (full_of hA.lmnc (C.asym h).2.2.1 hmn hc)), ok_bind,
    whenAsym_eq (x := ⟨shiftMat mq n A.bmns, shiftMat mq n A.bsubumns, shiftMat mq n A.bsubvmns⟩)
      (fun h => loadShift3_ok (full_of hA.bmns (C.asym h).2.2.2.1 hmq hc)
        (full_of hA.bsubumns (C.asym h).2.2.2.2.1 hmq hc)
        (full_of hA.bsubvmns (C.asym h).2.2.2.2.2 hmq hc)), ok_bind,
    vmecPrint_ok hz hA hl L.print, ok_bind]
  have hsf := sqrtFull_ok (α := α) (n := n)
  rw [← hn] at hsf
  have hrz := interpLoop_ok (f1 := g1) (f2 := g2) (f3 := g3) (f4 := g4) (r0 := I.rmns) (s0 := I.zmnc)
    (asym := z.asym) (A := A) hn1 hn
    ⟨f1, f2, fun h => full_of hA.rmns (C.asym h).1 hmn hc,
      fun h => full_of hA.zmnc (C.asym h).2.1 hmn hc⟩ hxm (fun j hj h1 => by
        have := L.axis j (by rw [hxm.1]; exact hj) h1; omega)
  have hsf' : sqrtFull ns (ofInt 1 / (ofInt ns - ofInt 1) : α) = .ok (Vec.tab (n + 1) (sfV ns)) := hsf
  have hsh' : sHalf (n : Int) (ofInt 1 / (ofInt ns - ofInt 1)) I.s_in =
    .ok (Vec.tab n (sinV ns), Vec.tab n (shV ns)) := sHalf_ok
  rw [hsf', ok_bind, hsh', ok_bind, Int.toNat_natCast]
  dsimp only
  have hrz' : loop mn (interpMode z.asym (n : Int) A I.xm (Vec.tab (n + 1) (sfV ns)) (Vec.tab n (shV ns)))
      { rmnc := Mat.tabO mn n g1, zmns := Mat.tabO mn n g2,
        rmns := if z.asym = true then Mat.tabO mn n g3 else I.rmns,
        zmnc := if z.asym = true then Mat.tabO mn n g4 else I.zmnc } = _ := hrz
  rw [hrz', ok_bind, i32_ok L.fit_m, ok_bind, i32_ok L.fit_n, ok_bind, i32_ok L.fit_n1, ok_bind,
    pure_eq_ok]
  unfold loadedInp rzMk
  dsimp only
  rw [ev1, ev2, ev3, hc1, hz.asym, hz.mpol, hz.ntor, hz.mnmax, hz.mnmax_nyq, hmn, hmq]
  congr 3 <;> (cases z.asym <;> rfl)

theorem load_inv {ns : Int} {A : VmecArgs α} {I : Inputs α} {F : Flux α} {z : Sizes}
    {r : Inputs α × Flux α} (C : Consistent ns A I z) (hz : Sized I z) (hl : ListsInit I)
    (h : load ns (ns - 1) A I F = .ok r) : Loadable ns A I z := by
  unfold load at h
  rw [hz.mnmax, hz.mnmax_nyq, hz.asym, hz.mpol, hz.ntor, need_some, need_some, need_some, need_some,
    need_some] at h
  simp only [ok_bind] at h
  obtain ⟨_, _, h⟩ := bind_ok h
  obtain ⟨_, _, h⟩ := bind_ok h
  obtain ⟨_, _, h⟩ := bind_ok h
  obtain ⟨_, _, h⟩ := bind_ok h
  obtain ⟨_, _, h⟩ := bind_ok h
  obtain ⟨_, _, h⟩ := bind_ok h
  obtain ⟨_, _, h⟩ := bind_ok h
  obtain ⟨_, _, h⟩ := bind_ok h
  obtain ⟨_, _, h⟩ := bind_ok h
  obtain ⟨_, _, h⟩ := bind_ok h
  obtain ⟨_, _, h⟩ := bind_ok h
  obtain ⟨_, hp, h⟩ := bind_ok h
  obtain ⟨_, _, h⟩ := bind_ok h
  obtain ⟨_, _, h⟩ := bind_ok h
  obtain ⟨_, hi, h⟩ := bind_ok h
  obtain ⟨_, h1, h⟩ := bind_ok h
  obtain ⟨n2, h2, h⟩ := bind_ok h
  obtain ⟨_, h3, h⟩ := bind_ok h
  obtain ⟨_, h1⟩ := i32_inv h1
  obtain ⟨e2, h2⟩ := i32_inv h2
  obtain ⟨_, h3⟩ := i32_inv h3
  refine ⟨?_, vmecPrint_inv hp, h1, h2, by rw [← e2]; exact h3⟩
  intro j hj hm
  have hj' : j < z.mnmax.toNat := by have := C.modes.xm_len; omega
  obtain ⟨a, b, _, hb⟩ := loop_iter hi hj'
  unfold interpMode at hb
  rw [hl.xm.rdN 0 hj, ok_bind, hm, if_neg (by decide)] at hb
  obtain ⟨_, _, hb⟩ := bind_ok hb
  rw [if_pos rfl] at hb
  unfold put4 at hb
  obtain ⟨_, hx, hb⟩ := bind_ok hb
  unfold axisVal at hx
  obtain ⟨_, _, hx⟩ := bind_ok hx
  obtain ⟨_, _, hx⟩ := bind_ok hx
  obtain ⟨_, hr, hx⟩ := bind_ok hx
  refine Int.not_lt.mp fun hc => ?_
  have := C.rmnc.2
  rw [Mat.rdN_oob (by omega)] at hr
  cases hr

theorem load_onlyUb (ns nsIn : Int) (A : VmecArgs α) (I : Inputs α) (F : Flux α) :
    OnlyUb (load ns nsIn A I F) := by
  unfold load
  have w : ∀ {β : Type} (asym : Bool) (r : Res β) (o : β), OnlyUb r → OnlyUb (whenAsym asym r o) := by
    intro β asym r o h; unfold whenAsym; exact .ite h (.ok _)
  have a1 : ∀ n (u v : Vec α), OnlyUb (loadIota n u v) := by intros; unfold loadIota; only_ub
  have a2 : ∀ j f, OnlyUb (loadFluxStep A j f) := by intros; unfold loadFluxStep; only_ub
  have a3 : ∀ n m f, OnlyUb (loadFlux n m A f) := by
    intros; unfold loadFlux; only_ub; exact a2 _ _
  have a4 : ∀ n u, OnlyUb (loadSurfs n u) := by intros; unfold loadSurfs; only_ub
  have a5 : ∀ m n (a b : Mat α), OnlyUb (loadShift m n a b) := by intros; unfold loadShift; only_ub
  have a6 : ∀ m n (a b : Mat3 α), OnlyUb (loadShift3 m n a b) := by
    intros; unfold loadShift3; only_ub; unfold loadShiftStep; only_ub
  have a7 : OnlyUb (vmecPrint A I) := by unfold vmecPrint; only_ub
  have a8 : ∀ n (h : α), OnlyUb (sqrtFull n h) := by intros; unfold sqrtFull; only_ub
  have a9 : ∀ n (h : α) o, OnlyUb (sHalf n h o) := by intros; unfold sHalf; only_ub
  have b1 : ∀ asym (val : Mat α → Res α) j k s, (∀ a, OnlyUb (val a)) → OnlyUb (put4 asym A val j k s) := by
    intro asym val j k s h; unfold put4
    have := h A.rmnc; have := h A.rmns; have := h A.zmnc; have := h A.zmns
    only_ub
  have b2 : ∀ asym sf sh j (s : RZ4 α), OnlyUb (interpMode asym nsIn A I.xm sf sh j s) := by
    intros; unfold interpMode
    refine .bind (.vrdN _ _) fun _ => .ite (.loop fun _ _ => b1 _ _ _ _ _ fun _ => ?_)
      (.bind (.loop fun _ _ => b1 _ _ _ _ _ fun _ => ?_) fun _ => .ite (b1 _ _ _ _ _ fun _ => ?_) (.ok _))
    · unfold evenVal; only_ub
    · unfold oddVal; only_ub
    · unfold axisVal; only_ub
  refine .bind (.need _ _) fun _ => .bind (.need _ _) fun _ => .bind (.need _ _) fun _ =>
    .bind (a1 _ _ _) fun _ => .bind (a3 _ _ _) fun _ => .bind (a4 _ _) fun _ =>
    .bind (.mresize _ _ _) fun _ => .bind (.mresize _ _ _) fun _ => .bind (a5 _ _ _ _) fun _ =>
    .bind (a6 _ _ _ _) fun _ => .bind (w _ _ _ (.mresize _ _ _)) fun _ =>
    .bind (w _ _ _ (.mresize _ _ _)) fun _ => .bind (w _ _ _ (a5 _ _ _ _)) fun _ =>
    .bind (w _ _ _ (a6 _ _ _ _)) fun _ => .bind a7 fun _ => .bind (a8 _ _) fun _ =>
    .bind (a9 _ _ _) fun _ => .bind (.loop fun _ _ => b2 _ _ _ _ _) fun _ => ?_
  only_ub

end Booz

namespace Booz
open Spec
variable {α : Type} [Arith α]

/-- The object as it is when validation starts. -/
def withNs (s : St α) (ns : Int) : St α := { s with inp := { s.inp with ns_in := some (ns - 1) } }

omit [Arith α] in
theorem given_withNs {A : VmecArgs α} {s : St α} {z : Sizes} (h : Given A s.inp z) (ns : Int) :
    Given A (withNs s ns).inp z :=
  ⟨⟨h.1.1, h.1.2, h.1.3, h.1.4, h.1.5, h.1.6, h.1.7⟩,
    ⟨h.2.1, h.2.2, h.2.3, h.2.4, h.2.5⟩, h.3⟩

omit [Arith α] in
theorem consistent_withNs {A : VmecArgs α} {s : St α} {z : Sizes} {ns k : Int} :
    Consistent ns A (withNs s k).inp z ↔ Consistent ns A s.inp z :=
  ⟨fun h => ⟨h.1, h.2, h.3, h.4, h.5, h.6, h.7, h.8, h.9, h.10, h.11, h.12, h.13, h.14⟩,
    fun h => ⟨h.1, h.2, h.3, h.4, h.5, h.6, h.7, h.8, h.9, h.10, h.11, h.12, h.13, h.14⟩⟩

omit [Arith α] in
theorem loadable_withNs {A : VmecArgs α} {s : St α} {z : Sizes} {ns k : Int} :
    Loadable ns A (withNs s k).inp z ↔ Loadable ns A s.inp z :=
  ⟨fun h => ⟨h.1, h.2, h.3, h.4, h.5⟩, fun h => ⟨h.1, h.2, h.3, h.4, h.5⟩⟩

/-- The three stages of `init_from_vmec`. -/
theorem vmec_eq (ns : Int) (A : VmecArgs α) (s : St α) (hf : FitsInt (ns - 1)) :
    initFromVmec ns A s = match validate ns A (withNs s ns).inp with
      | .error (.throw m) => .exc m (withNs s ns)
      | .error (.ub w) => .ub w
      | .error (.assertFail w) => .abort w
      | .ok _ => match load ns (ns - 1) A (withNs s ns).inp s.flux with
        | .error (.throw m) => .exc m (withNs s ns)
        | .error (.ub w) => .ub w
        | .error (.assertFail w) => .abort w
        | .ok r => .ok () { withNs s ns with inp := r.1, flux := r.2 } := by
  unfold initFromVmec
  rw [Prog.get_bind, i32_ok hf, Prog.lift_ok_bind, Prog.set_bind, Prog.get_bind]
  show (Prog.lift (validate ns A (withNs s ns).inp) >>= _) (withNs s ns) = _
  cases hv : validate ns A (withNs s ns).inp with
  | error f => cases f <;> rfl
  | ok u =>
    rw [Prog.lift_ok_bind]
    show (Prog.lift (load ns (ns - 1) A (withNs s ns).inp s.flux) >>= _) (withNs s ns) = _
    cases hl : load ns (ns - 1) A (withNs s ns).inp s.flux with
    | error f => cases f <;> rfl
    | ok r => rfl

theorem fits_of_ok {ns : Int} {A : VmecArgs α} {s s' : St α} {u : Unit}
    (h : initFromVmec ns A s = .ok u s') : FitsInt (ns - 1) := by
  unfold initFromVmec at h
  rw [Prog.get_bind] at h
  unfold i32 at h
  split at h
  · assumption
  · rw [Prog.lift_ub_bind] at h; cases h

/-- Mode lists that pass validation are non-empty, and the compared products fit. -/
theorem computable_of_ok {ns : Int} {A : VmecArgs α} {I : Inputs α} {z : Sizes} (hz : Sized I z)
    (h : validate ns A I = .ok ()) : Computable z := by
  unfold validate at h
  rw [hz.nfp, hz.mnmax, hz.mnmax_nyq, hz.asym, need_some, need_some, need_some, need_some] at h
  simp only [ok_bind] at h
  obtain ⟨c1, h⟩ := check_bind.mp h
  obtain ⟨c2, h⟩ := check_bind.mp h
  obtain ⟨c3, h⟩ := check_bind.mp h
  obtain ⟨_, c4, h⟩ := bind_ok h
  obtain ⟨_, c5, h⟩ := bind_ok h
  unfold validateModes at c5
  rw [hz.ntor, hz.ntor_nyq, need_some, need_some] at c5
  simp only [ok_bind] at c5
  obtain ⟨a1, c5⟩ := check_bind.mp c5
  obtain ⟨a2, c5⟩ := check_bind.mp c5
  obtain ⟨a3, c5⟩ := check_bind.mp c5
  obtain ⟨a4, c5⟩ := check_bind.mp c5
  obtain ⟨_, r1, c5⟩ := bind_ok c5
  obtain ⟨_, c5⟩ := check_bind.mp c5
  obtain ⟨_, _, c5⟩ := bind_ok c5
  obtain ⟨_, c5⟩ := check_bind.mp c5
  obtain ⟨_, r3, c5⟩ := bind_ok c5
  obtain ⟨_, c5⟩ := check_bind.mp c5
  obtain ⟨_, _, c5⟩ := bind_ok c5
  obtain ⟨_, c5⟩ := check_bind.mp c5
  obtain ⟨_, _, c5⟩ := bind_ok c5
  obtain ⟨_, f1, c5⟩ := bind_ok c5
  obtain ⟨_, c5⟩ := check_bind.mp c5
  obtain ⟨_, _, c5⟩ := bind_ok c5
  obtain ⟨_, f2, c5⟩ := bind_ok c5
  refine ⟨?_, ?_, (i32_inv f1).2, (i32_inv f2).2⟩
  · intro h0
    rw [Vec.rdN_oob (by omega)] at r1; cases r1
  · intro h0
    rw [Vec.rdN_oob (by omega)] at r3; cases r3

/-- Consistent, loadable arguments are loaded, with this result. -/
theorem vmec_ok {ns : Int} {A : VmecArgs α} {s : St α} {z : Sizes} (hf : FitsInt (ns - 1))
    (hg : Given A s.inp z) (hc : Computable z) (C : Consistent ns A s.inp z)
    (L : Loadable ns A s.inp z) :
    initFromVmec ns A s = .ok () { withNs s ns with
      inp := loadedInp ns A (withNs s ns).inp z, flux := fluxV (ns - 1).toNat A } := by
  have hg' := given_withNs hg ns
  rw [vmec_eq ns A s hf,
    (validate_iff hg'.sized hg'.lists hc.modes hc.modes_nyq hc.fit hc.fit_nyq).1.mpr
      (consistent_withNs.mpr C)]
  dsimp only
  rw [load_ok (consistent_withNs.mpr C) hg'.sized hg'.lists hg'.args (loadable_withNs.mpr L)]

/-- And only these are. -/
theorem vmec_inv {ns : Int} {A : VmecArgs α} {s s' : St α} {z : Sizes} {u : Unit}
    (hg : Given A s.inp z) (h : initFromVmec ns A s = .ok u s') :
    FitsInt (ns - 1) ∧ Computable z ∧ Consistent ns A s.inp z ∧ Loadable ns A s.inp z := by
  have hf := fits_of_ok h
  have hg' := given_withNs hg ns
  rw [vmec_eq ns A s hf] at h
  cases hv : validate ns A (withNs s ns).inp with
  | error f => rw [hv] at h; cases f <;> cases h
  | ok w =>
    rw [hv] at h
    dsimp only at h
    have hc := computable_of_ok hg'.sized hv
    have C := (validate_iff hg'.sized hg'.lists hc.modes hc.modes_nyq hc.fit hc.fit_nyq).1.mp hv
    refine ⟨hf, hc, consistent_withNs.mp C, ?_⟩
    cases hl : load ns (ns - 1) A (withNs s ns).inp s.flux with
    | error f => rw [hl] at h; cases f <;> cases h
    | ok r => exact loadable_withNs.mp (load_inv C hg'.sized hg'.lists hl)

/-- The state after a successful load. -/
theorem vmec_result {ns : Int} {A : VmecArgs α} {s s' : St α} {z : Sizes} {u : Unit}
    (hg : Given A s.inp z) (h : initFromVmec ns A s = .ok u s') :
    s' = { s with inp := loadedInp ns A (withNs s ns).inp z, flux := fluxV (ns - 1).toNat A } := by
  obtain ⟨hf, hc, C, L⟩ := vmec_inv hg h
  rw [vmec_ok hf hg hc C L] at h
  cases h
  rfl

end Booz
