import Verif.Lemmas.Validate
import Verif.Closed

/-!
# What `init_from_vmec` stores: closed form
-/

namespace Booz
open Spec
variable {α : Type} [Arith α]

/-- `hs` -/
def hsV (ns : Int) : α := ofInt 1 / (ofInt ns - ofInt 1)
/-- `sqrt_s_full[k]` -/
def sfV (ns : Int) (k : Nat) : α := if k = 0 then ofInt 1 else Arith.sqrt (hsV ns * ofInt k)
/-- `s_in[k]` -/
def sinV (ns : Int) (k : Nat) : α := hsV ns * (ofInt k + Arith.half)
/-- `sqrt_s_half[k]` -/
def shV (ns : Int) (k : Nat) : α := Arith.sqrt (sinV ns k)
/-- even `m` -/
def evenV (a : Mat α) (j k : Nat) : α := Arith.half * (ev a j k + ev a j (k + 1))
/-- odd `m` -/
def oddV (ns : Int) (a : Mat α) (j k : Nat) : α :=
  Arith.half * (ev a j k / sfV ns k + ev a j (k + 1) / sfV ns (k + 1)) * shV ns k
/-- `m = 1` on the innermost surface -/
def axisV (ns : Int) (a : Mat α) (j : Nat) : α :=
  (Arith.threeHalves * ev a j 1 / sfV ns 1 - Arith.half * ev a j 2 / sfV ns 2) * shV ns 0
/-- interpolated value for poloidal mode number `m` -/
def interpV (ns m : Int) (a : Mat α) (j k : Nat) : α :=
  if m.tmod 2 = 0 then evenV a j k
  else if m = 1 ∧ k = 0 then axisV ns a j else oddV ns a j k

/-! ## Pieces -/

theorem loadIota_ok {n : Nat} {iotas old : Vec α} (h : iotas.Full (n + 1)) :
    loadIota (n : Int) iotas old = .ok (Vec.tab n fun j => iotas.val (ofInt 0) (j + 1)) := by
  unfold loadIota
  obtain ⟨f, hf⟩ := old.resize_tabO (n := (n : Int)) (by omega)
  rw [hf, ok_bind]
  exact Vec.fill fun j hj => h.rdN _ (show j + 1 < n + 1 by omega)

theorem loadSurfs_ok {n : Nat} {old : Vec Int} :
    loadSurfs (n : Int) old = .ok (Vec.tab n fun j => (j : Int)) := by
  unfold loadSurfs
  obtain ⟨f, hf⟩ := old.resize_tabO (n := (n : Int)) (by omega)
  rw [hf, ok_bind]
  exact Vec.fill (g := fun j => .ok (j : Int)) fun j hj => rfl

theorem resize_zero {β : Type} (v : Vec β) : v.resize 0 = .ok #[] := by
  unfold Vec.resize
  rw [if_pos (by omega)]
  split
  · next h => congr 1; exact Array.eq_empty_of_size_eq_zero h
  · rfl

/-- flux profiles after loading -/
def fluxV (n : Nat) (A : VmecArgs α) : Flux α :=
  if A.phip.size = 0 then ⟨#[], #[], #[], #[]⟩
  else ⟨Vec.tab (n + 1) (A.phi.val (ofInt 0)), Vec.tab (n + 1) fun j => -A.phip.val (ofInt 0) j / twopi,
    Vec.tab (n + 1) (A.chi.val (ofInt 0)), Vec.tab (n + 1) (A.pres.val (ofInt 0))⟩
/-- `toroidal_flux` after loading -/
def torFluxV (n : Nat) (A : VmecArgs α) : α :=
  if A.phip.size = 0 then ofInt 0 else A.phi.val (ofInt 0) n

theorem loadFlux_ok {n : Nat} {A : VmecArgs α} {old : Flux α}
    (h : A.phip.size ≠ 0 → A.phip.Full (n + 1) ∧ A.chi.Full (n + 1) ∧ A.pres.Full (n + 1) ∧
      A.phi.Full (n + 1)) :
    loadFlux ((n : Int) + 1) n A old = .ok (fluxV n A, torFluxV n A) := by
  unfold loadFlux fluxV torFluxV
  split
  · simp only [resize_zero, ok_bind, pure_eq_ok]
  · next h0 =>
    obtain ⟨h1, h2, h3, h4⟩ := h h0
    have e : ((n : Int) + 1).toNat = n + 1 := by omega
    obtain ⟨f1, e1⟩ := old.phip.resize_tabO (n := (n : Int) + 1) (by omega)
    obtain ⟨f2, e2⟩ := old.chi.resize_tabO (n := (n : Int) + 1) (by omega)
    obtain ⟨f3, e3⟩ := old.pres.resize_tabO (n := (n : Int) + 1) (by omega)
    obtain ⟨f4, e4⟩ := old.phi.resize_tabO (n := (n : Int) + 1) (by omega)
    rw [e1, e2, e3, e4, e]
    simp only [ok_bind]
    have key : loop (n + 1) (loadFluxStep A)
        ⟨Vec.tabO (n + 1) f4, Vec.tabO (n + 1) f1, Vec.tabO (n + 1) f2, Vec.tabO (n + 1) f3⟩ =
        .ok ⟨Vec.tab (n + 1) (A.phi.val (ofInt 0)),
          Vec.tab (n + 1) fun j => -A.phip.val (ofInt 0) j / twopi,
          Vec.tab (n + 1) (A.chi.val (ofInt 0)), Vec.tab (n + 1) (A.pres.val (ofInt 0))⟩ := by
      refine loop_traj' (fun k => (⟨Vec.tabO (n + 1) (Vec.fillTo f4 (A.phi.val (ofInt 0)) k),
        Vec.tabO (n + 1) (Vec.fillTo f1 (fun j => -A.phip.val (ofInt 0) j / twopi) k),
        Vec.tabO (n + 1) (Vec.fillTo f2 (A.chi.val (ofInt 0)) k),
        Vec.tabO (n + 1) (Vec.fillTo f3 (A.pres.val (ofInt 0)) k)⟩ : Flux α)) ?_ ?_ ?_
      · intro j hj
        unfold loadFluxStep
        rw [h1.rdN (ofInt 0) hj, h2.rdN (ofInt 0) hj, h3.rdN (ofInt 0) hj, h4.rdN (ofInt 0) hj]
        simp only [ok_bind]
        rw [Vec.wrN_fillTo hj, ok_bind, Vec.wrN_fillTo hj, ok_bind, Vec.wrN_fillTo hj, ok_bind,
          Vec.wrN_fillTo hj, ok_bind, pure_eq_ok]
      · rw [Flux.mk.injEq]
        exact ⟨Vec.fillTo_zero, Vec.fillTo_zero, Vec.fillTo_zero, Vec.fillTo_zero⟩
      · rw [Flux.mk.injEq]
        exact ⟨Vec.fillTo_all, Vec.fillTo_all, Vec.fillTo_all, Vec.fillTo_all⟩
    rw [key, ok_bind]
    have e5 : ((n : Int) + 1 - 1) = (n : Int) := by omega
    rw [e5, Vec.rd_tab (by omega) (by omega), ok_bind, pure_eq_ok]
    rfl

theorem loadShift_ok {mn n : Nat} {src old : Mat α} (h : src.Full mn (n + 1)) :
    loadShift (mn : Int) (n : Int) src old = .ok (Mat.tab mn n fun k j => ev src k (j + 1)) := by
  unfold loadShift
  obtain ⟨f, hf⟩ := old.resize_tabO (r := (mn : Int)) (c := (n : Int)) (by omega) (by omega)
  rw [hf, ok_bind]
  refine loop_traj' (fun j => Mat.tabO mn n (Mat.fillCol f (fun k j => ev src k (j + 1)) j 0)) ?_
    Mat.fillCol_zero Mat.fillCol_all
  intro j hj
  refine loop_traj' (fun k => Mat.tabO mn n (Mat.fillCol f (fun k j => ev src k (j + 1)) j k)) ?_
    rfl Mat.fillCol_next
  intro k hk
  show (do let x ← src.rdN k (j + 1); Mat.wrN _ k j x) = _
  rw [Mat.Full.rdN' (ofInt 0) h hk (show j + 1 < n + 1 by omega), ok_bind]
  exact Mat.wrN_fillCol (h := fun k j => ev src k (j + 1)) hk hj

theorem loadShift3_ok {mn n : Nat} {src old : Mat3 α} (h1 : src.b.Full mn (n + 1))
    (h2 : src.u.Full mn (n + 1)) (h3 : src.v.Full mn (n + 1)) :
    loadShift3 (mn : Int) (n : Int) src old = .ok ⟨Mat.tab mn n fun k j => ev src.b k (j + 1),
      Mat.tab mn n fun k j => ev src.u k (j + 1), Mat.tab mn n fun k j => ev src.v k (j + 1)⟩ := by
  unfold loadShift3
  obtain ⟨f1, e1⟩ := old.b.resize_tabO (r := (mn : Int)) (c := (n : Int)) (by omega) (by omega)
  obtain ⟨f2, e2⟩ := old.u.resize_tabO (r := (mn : Int)) (c := (n : Int)) (by omega) (by omega)
  obtain ⟨f3, e3⟩ := old.v.resize_tabO (r := (mn : Int)) (c := (n : Int)) (by omega) (by omega)
  rw [e1, ok_bind, e2, ok_bind, e3, ok_bind]
  refine loop_traj' (fun j => (⟨Mat.tabO mn n (Mat.fillCol f1 (fun k j => ev src.b k (j + 1)) j 0),
    Mat.tabO mn n (Mat.fillCol f2 (fun k j => ev src.u k (j + 1)) j 0),
    Mat.tabO mn n (Mat.fillCol f3 (fun k j => ev src.v k (j + 1)) j 0)⟩ : Mat3 α)) ?_ ?_ ?_
  · intro j hj
    refine loop_traj' (fun k => (⟨Mat.tabO mn n (Mat.fillCol f1 (fun k j => ev src.b k (j + 1)) j k),
      Mat.tabO mn n (Mat.fillCol f2 (fun k j => ev src.u k (j + 1)) j k),
      Mat.tabO mn n (Mat.fillCol f3 (fun k j => ev src.v k (j + 1)) j k)⟩ : Mat3 α)) ?_ rfl ?_
    · intro k hk
      have hj : j < n := hj
      have hk : k < mn := hk
      have hj1 : j + 1 < n + 1 := by omega
      show loadShiftStep src j k _ = _
      unfold loadShiftStep
      rw [Mat.Full.rdN' (ofInt 0) h1 hk hj1, ok_bind,
        Mat.wrN_fillCol (h := fun k j => ev src.b k (j + 1)) hk hj, ok_bind,
        Mat.Full.rdN' (ofInt 0) h2 hk hj1, ok_bind,
        Mat.wrN_fillCol (h := fun k j => ev src.u k (j + 1)) hk hj, ok_bind,
        Mat.Full.rdN' (ofInt 0) h3 hk hj1, ok_bind,
        Mat.wrN_fillCol (h := fun k j => ev src.v k (j + 1)) hk hj, ok_bind, pure_eq_ok]
    · rw [Mat3.mk.injEq]; exact ⟨Mat.fillCol_next, Mat.fillCol_next, Mat.fillCol_next⟩
  · rw [Mat3.mk.injEq]; exact ⟨Mat.fillCol_zero, Mat.fillCol_zero, Mat.fillCol_zero⟩
  · rw [Mat3.mk.injEq]; exact ⟨Mat.fillCol_all, Mat.fillCol_all, Mat.fillCol_all⟩

theorem sqrtFull_ok {n : Nat} : sqrtFull ((n : Int) + 1) (hsV ((n : Int) + 1) : α) =
    .ok (Vec.tab (n + 1) (sfV ((n : Int) + 1))) := by
  unfold sqrtFull
  have e : ((n : Int) + 1).toNat = n + 1 := by omega
  rw [e, Vec.build_tab (g := fun j : Nat => pure (Arith.sqrt ((hsV ((n : Int) + 1) : α) * ofInt j)))
    (f := fun j : Nat => Arith.sqrt ((hsV ((n : Int) + 1) : α) * ofInt j))
    (fun i _ => pure_eq_ok _), ok_bind, Vec.wrN_tab (by omega)]
  congr 1

theorem sHalf_ok {n : Nat} {ns : Int} {old : Vec α} : sHalf (n : Int) (hsV ns) old =
    .ok (Vec.tab n (sinV ns), Vec.tab n (shV ns)) := by
  unfold sHalf
  obtain ⟨f1, e1⟩ := old.resize_tabO (n := (n : Int)) (by omega)
  obtain ⟨f2, e2⟩ := Vec.resize_tabO (#[] : Vec α) (n := (n : Int)) (by omega)
  rw [e1, e2, ok_bind, ok_bind]
  refine loop_traj' (fun k => (Vec.tabO n (Vec.fillTo f1 (sinV ns) k),
    Vec.tabO n (Vec.fillTo f2 (shV ns) k))) ?_ ?_ ?_
  · intro j hj
    have hj : j < n := hj
    show (do
      let s ← (Vec.tabO n (Vec.fillTo f1 (sinV ns) j)).wrN j (sinV ns j)
      let x ← s.rdN j
      let h ← (Vec.tabO n (Vec.fillTo f2 (shV ns) j)).wrN j (Arith.sqrt x)
      pure (s, h)) = _
    rw [Vec.wrN_fillTo hj, ok_bind]
    have : (Vec.tabO n (Vec.fillTo f1 (sinV ns) (j + 1))).rdN j = .ok (sinV ns j) := by
      unfold Vec.rdN
      rw [Vec.getElem?_tabO, if_pos hj]
      simp [Vec.fillTo]
    rw [this, ok_bind]
    have h2 := Vec.wrN_fillTo (f := f2) (h := (shV ns : Nat → α)) hj
    unfold shV at h2 ⊢
    rw [h2, ok_bind, pure_eq_ok]
  · exact Prod.ext Vec.fillTo_zero Vec.fillTo_zero
  · exact Prod.ext Vec.fillTo_all Vec.fillTo_all

/-! ## Radial interpolation -/

/-- The asymmetric pair is only touched when `asym`. -/
def rzMk (asym : Bool) (p q r s r0 s0 : Mat α) : RZ4 α :=
  ⟨p, q, if asym then r else r0, if asym then s else s0⟩

theorem put4_ok {asym : Bool} {A : VmecArgs α} {val : Mat α → Res α} {v : Mat α → α} {j k : Nat}
    {p q r s p' q' r' s' r0 s0 : Mat α} (h1 : val A.rmnc = .ok (v A.rmnc))
    (h2 : val A.zmns = .ok (v A.zmns))
    (h3 : asym = true → val A.rmns = .ok (v A.rmns) ∧ val A.zmnc = .ok (v A.zmnc))
    (w1 : p.wrN j k (v A.rmnc) = .ok p') (w2 : q.wrN j k (v A.zmns) = .ok q')
    (w3 : asym = true → r.wrN j k (v A.rmns) = .ok r' ∧ s.wrN j k (v A.zmnc) = .ok s') :
    put4 asym A val j k (rzMk asym p q r s r0 s0) = .ok (rzMk asym p' q' r' s' r0 s0) := by
  unfold put4 rzMk
  cases asym
  · simp only [h1, ok_bind, w1, h2, w2, Bool.false_eq_true, if_false, pure_eq_ok]
  · obtain ⟨a, b⟩ := h3 rfl
    obtain ⟨c, d⟩ := w3 rfl
    simp only [h1, ok_bind, w1, h2, w2, if_true, pure_eq_ok, a, b, c, d]

/-- The four matrices read by the interpolation have the right shape. -/
structure RZFull (asym : Bool) (A : VmecArgs α) (mn n : Nat) : Prop where
  rmnc : A.rmnc.Full mn (n + 1)
  zmns : A.zmns.Full mn (n + 1)
  rmns : asym = true → A.rmns.Full mn (n + 1)
  zmnc : asym = true → A.zmnc.Full mn (n + 1)

section interp
variable {asym : Bool} {A : VmecArgs α} {mn n : Nat} {xm : Vec Int} {ns : Int}
variable {f1 f2 f3 f4 : Nat → Nat → Option α} {r0 s0 : Mat α}

/-- Rows before `j` done, columns before `k` of row `j` hold `g`. -/
def rzRow (asym : Bool) (A : VmecArgs α) (mn n : Nat) (xm : Vec Int) (ns : Int)
    (f1 f2 f3 f4 : Nat → Nat → Option α) (r0 s0 : Mat α) (g : Mat α → Nat → α) (j k : Nat) : RZ4 α :=
  rzMk asym
    (Mat.tabO mn n (Mat.fillRow f1 (fun i b => interpV ns (xm.val 0 i) A.rmnc i b) (g A.rmnc) j k))
    (Mat.tabO mn n (Mat.fillRow f2 (fun i b => interpV ns (xm.val 0 i) A.zmns i b) (g A.zmns) j k))
    (Mat.tabO mn n (Mat.fillRow f3 (fun i b => interpV ns (xm.val 0 i) A.rmns i b) (g A.rmns) j k))
    (Mat.tabO mn n (Mat.fillRow f4 (fun i b => interpV ns (xm.val 0 i) A.zmnc i b) (g A.zmnc) j k))
    r0 s0

theorem rowLoop_ok {val : Nat → Mat α → Res α} {g : Mat α → Nat → α} {j : Nat} (hj : j < mn)
    (hA : RZFull asym A mn n)
    (hv : ∀ k < n, ∀ a : Mat α, a.Full mn (n + 1) → val k a = .ok (g a k)) :
    loop n (fun k s => put4 asym A (val k) j k s) (rzRow asym A mn n xm ns f1 f2 f3 f4 r0 s0 g j 0) =
      .ok (rzRow asym A mn n xm ns f1 f2 f3 f4 r0 s0 g j n) := by
  refine loop_traj' (rzRow asym A mn n xm ns f1 f2 f3 f4 r0 s0 g j) ?_ rfl rfl
  intro k hk
  exact put4_ok (v := fun a => g a k) (hv k hk _ hA.rmnc) (hv k hk _ hA.zmns)
    (fun h => ⟨hv k hk _ (hA.rmns h), hv k hk _ (hA.zmnc h)⟩)
    (Mat.wrN_fillRow rfl hj hk) (Mat.wrN_fillRow rfl hj hk)
    (fun _ => ⟨Mat.wrN_fillRow rfl hj hk, Mat.wrN_fillRow rfl hj hk⟩)

theorem rzRow_start {g g' : Mat α → Nat → α} {j : Nat} :
    rzRow asym A mn n xm ns f1 f2 f3 f4 r0 s0 g j 0 =
      rzRow asym A mn n xm ns f1 f2 f3 f4 r0 s0 g' j 0 := by
  unfold rzRow
  rw [Mat.fillRow_start (f := f1) (h'' := g' A.rmnc), Mat.fillRow_start (f := f2) (h'' := g' A.zmns),
    Mat.fillRow_start (f := f3) (h'' := g' A.rmns), Mat.fillRow_start (f := f4) (h'' := g' A.zmnc)]

theorem rzRow_next {g : Mat α → Nat → α} {j : Nat}
    (hg : ∀ a : Mat α, ∀ b < n, g a b = interpV ns (xm.val 0 j) a j b) :
    rzRow asym A mn n xm ns f1 f2 f3 f4 r0 s0 g j n =
      rzRow asym A mn n xm ns f1 f2 f3 f4 r0 s0 g (j + 1) 0 := by
  unfold rzRow
  rw [Mat.fillRow_next (f := f1) (h := fun i b => interpV ns (xm.val 0 i) A.rmnc i b) (hg _),
    Mat.fillRow_next (f := f2) (h := fun i b => interpV ns (xm.val 0 i) A.zmns i b) (hg _),
    Mat.fillRow_next (f := f3) (h := fun i b => interpV ns (xm.val 0 i) A.rmns i b) (hg _),
    Mat.fillRow_next (f := f4) (h := fun i b => interpV ns (xm.val 0 i) A.zmnc i b) (hg _)]

theorem interpMode_ok (hn : 1 ≤ n) (hns : ns = (n : Int) + 1) (hA : RZFull asym A mn n)
    (hxm : xm.Full mn) {j : Nat} (hj : j < mn) (hax : xm.val 0 j = 1 → 2 ≤ n)
    {g : Mat α → Nat → α} :
    interpMode asym (n : Int) A xm (Vec.tab (n + 1) (sfV ns)) (Vec.tab n (shV ns)) j
      (rzRow asym A mn n xm ns f1 f2 f3 f4 r0 s0 g j 0) =
      .ok (rzRow asym A mn n xm ns f1 f2 f3 f4 r0 s0 g (j + 1) 0) := by
  unfold interpMode
  rw [hxm.rdN 0 hj, ok_bind]
  have e : ((n : Int)).toNat = n := by omega
  rw [e]
  split
  · next hev =>
    rw [rzRow_start (g' := fun a => evenV a j), rowLoop_ok hj hA, rzRow_next, rzRow_start]
    · intro a b _; unfold interpV; rw [if_pos hev]
    · intro k hk a ha
      unfold evenVal
      rw [Mat.Full.rdN' (ofInt 0) ha hj (show k < n + 1 by omega), ok_bind,
        Mat.Full.rdN' (ofInt 0) ha hj (show k + 1 < n + 1 by omega), ok_bind]
      rfl
  · next hodd =>
    rw [rzRow_start (g' := fun a => oddV ns a j), rowLoop_ok hj hA]
    · rw [ok_bind]
      split
      · next h1 =>
        have hn2 := hax h1
        have : put4 asym A (axisVal (Vec.tab (n + 1) (sfV ns)) (Vec.tab n (shV ns)) j) j 0
            (rzRow asym A mn n xm ns f1 f2 f3 f4 r0 s0 (fun a => oddV ns a j) j n) =
            .ok (rzRow asym A mn n xm ns f1 f2 f3 f4 r0 s0
              (fun a b => interpV ns (xm.val 0 j) a j b) j n) := by
          have hv : ∀ a : Mat α, a.Full mn (n + 1) →
              axisVal (Vec.tab (n + 1) (sfV ns)) (Vec.tab n (shV ns)) j a = .ok (axisV ns a j) := by
            intro a ha
            unfold axisVal
            rw [Mat.Full.rdN' (ofInt 0) ha hj (show 1 < n + 1 by omega), ok_bind,
              Vec.rdN_tab (show 1 < n + 1 by omega), ok_bind,
              Mat.Full.rdN' (ofInt 0) ha hj (show 2 < n + 1 by omega), ok_bind,
              Vec.rdN_tab (show 2 < n + 1 by omega), ok_bind, Vec.rdN_tab (show 0 < n by omega)]
            rfl
          have h0 : ∀ a : Mat α, axisV ns a j = interpV ns (xm.val 0 j) a j 0 := by
            intro a; unfold interpV; rw [if_neg hodd, if_pos ⟨h1, rfl⟩]
          have hb : ∀ a : Mat α, ∀ b, 0 < b → b < n → oddV ns a j b = interpV ns (xm.val 0 j) a j b := by
            intro a b hb _; unfold interpV; rw [if_neg hodd, if_neg (by omega)]
          exact put4_ok (v := fun a => axisV ns a j) (hv _ hA.rmnc) (hv _ hA.zmns)
            (fun h => ⟨hv _ (hA.rmns h), hv _ (hA.zmnc h)⟩)
            (Mat.wrN_fillRow_fix hj (by omega) (h0 _) (hb _))
            (Mat.wrN_fillRow_fix hj (by omega) (h0 _) (hb _))
            (fun _ => ⟨Mat.wrN_fillRow_fix hj (by omega) (h0 _) (hb _),
              Mat.wrN_fillRow_fix hj (by omega) (h0 _) (hb _)⟩)
        rw [this, rzRow_next, rzRow_start]
        intro a b _; rfl
      · next h1 =>
        rw [pure_eq_ok, rzRow_next, rzRow_start]
        intro a b _; unfold interpV; rw [if_neg hodd, if_neg (fun h => h1 h.1)]
    · intro k hk a ha
      unfold oddVal
      rw [Mat.Full.rdN' (ofInt 0) ha hj (show k < n + 1 by omega), ok_bind,
        Vec.rdN_tab (show k < n + 1 by omega), ok_bind,
        Mat.Full.rdN' (ofInt 0) ha hj (show k + 1 < n + 1 by omega), ok_bind,
        Vec.rdN_tab (show k + 1 < n + 1 by omega), ok_bind, Vec.rdN_tab hk]
      rfl

/-- The interpolated matrix. -/
def interpMat (ns : Int) (xm : Vec Int) (mn n : Nat) (a : Mat α) : Mat α :=
  Mat.tab mn n fun j k => interpV ns (xm.val 0 j) a j k

theorem interpLoop_ok (hn : 1 ≤ n) (hns : ns = (n : Int) + 1) (hA : RZFull asym A mn n)
    (hxm : xm.Full mn) (hax : ∀ j < mn, xm.val 0 j = 1 → 2 ≤ n) :
    loop mn (interpMode asym (n : Int) A xm (Vec.tab (n + 1) (sfV ns)) (Vec.tab n (shV ns)))
      (rzMk asym (Mat.tabO mn n f1) (Mat.tabO mn n f2) (Mat.tabO mn n f3) (Mat.tabO mn n f4) r0 s0) =
    .ok (rzMk asym (interpMat ns xm mn n A.rmnc) (interpMat ns xm mn n A.zmns)
      (interpMat ns xm mn n A.rmns) (interpMat ns xm mn n A.zmnc) r0 s0) := by
  refine loop_traj' (fun j => rzRow asym A mn n xm ns f1 f2 f3 f4 r0 s0 (fun _ _ => ofInt 0) j 0)
    ?_ ?_ ?_
  · intro j hj
    exact interpMode_ok hn hns hA hxm hj (hax j hj)
  · unfold rzRow
    rw [← Mat.fillRow_zero, ← Mat.fillRow_zero, ← Mat.fillRow_zero, ← Mat.fillRow_zero]
  · unfold rzRow interpMat
    rw [← Mat.fillRow_all, ← Mat.fillRow_all, ← Mat.fillRow_all, ← Mat.fillRow_all]

end interp

/-! ## Printing -/

theorem loop_unit {n : Nat} {g : Nat → Res Unit} (h : ∀ i < n, g i = .ok ()) :
    loop n (fun j (_ : Unit) => g j) () = .ok () := by
  induction n with
  | zero => rfl
  | succ n ih => rw [loop_succ, ih (fun i hi => h i (by omega)), ok_bind]; exact h n (by omega)

theorem vmecPrint_ok {A : VmecArgs α} {I : Inputs α} {z : Sizes} (hz : Sized I z) (hA : ArgsInit A)
    (hI : ListsInit I) (hp : PrintOk A I) : vmecPrint A I = .ok () := by
  unfold vmecPrint
  split
  · rw [hz.mpol, hz.ntor, need_some, need_some, ok_bind, ok_bind]
    split
    · obtain ⟨h1, h2⟩ : 4 ≤ A.rmnc.rows ∧ 4 ≤ A.rmnc.cols := by
        rcases hp with h | h
        · omega
        · exact h
      rw [loop_unit (fun i hi => by rw [hA.iotas.rdN (ofInt 0) hi, ok_bind, pure_eq_ok]), ok_bind,
        loop_unit (fun i hi => by rw [hI.xm.rdN 0 hi, ok_bind, pure_eq_ok]), ok_bind,
        loop_unit (fun i hi => by rw [hI.xn.rdN 0 hi, ok_bind, pure_eq_ok]), ok_bind,
        loop_unit (fun i hi => by
          rw [Mat.Full.rdN' (ofInt 0) hA.rmnc (by omega) (by omega), ok_bind, pure_eq_ok]), ok_bind,
        loop_unit (fun i hi => by
          rw [Mat.Full.rdN' (ofInt 0) hA.rmnc (by omega) (by omega), ok_bind, pure_eq_ok])]
    · rfl
  · rfl

theorem vmecPrint_inv {A : VmecArgs α} {I : Inputs α} (h : vmecPrint A I = .ok ()) : PrintOk A I := by
  unfold vmecPrint at h
  unfold PrintOk
  by_cases h0 : I.verbose > 1
  · right
    rw [if_pos (by omega)] at h
    obtain ⟨_, _, h⟩ := bind_ok h
    obtain ⟨_, _, h⟩ := bind_ok h
    rw [if_pos h0] at h
    obtain ⟨_, _, h⟩ := bind_ok h
    obtain ⟨_, _, h⟩ := bind_ok h
    obtain ⟨_, _, h⟩ := bind_ok h
    obtain ⟨_, h1, h2⟩ := bind_ok h
    obtain ⟨_, _, _, h1⟩ := loop_iter h1 (show 3 < 4 by omega)
    obtain ⟨_, h1, _⟩ := bind_ok h1
    obtain ⟨_, _, _, h2⟩ := loop_iter h2 (show 3 < 4 by omega)
    obtain ⟨_, h2, _⟩ := bind_ok h2
    constructor
    · refine Nat.le_of_not_lt fun hc => ?_
      rw [Mat.rdN_oob (by omega)] at h2; cases h2
    · refine Nat.le_of_not_lt fun hc => ?_
      rw [Mat.rdN_oob (by omega)] at h1; cases h1
  · left; omega

end Booz
