import Verif.Lemmas.Accum

/-!
# `check_accuracy`, `surface_solve` and `run` compute their closed forms
-/

namespace Booz
variable {α : Type} [Arith α]

/-- Grid index of check point `c`, `check_accuracy.cpp:35, 43, 51, 65`. -/
def chkIdx (d : Dims) (c : Nat) : Nat :=
  if c = 0 then 0 else if c = 1 then d.nt / 2 * d.nz
  else if c = 2 then d.nz / 2 else d.nt / 2 * d.nz + d.nz / 2

/-- Left-over value of `sinm_b(c,0)` when the tables are reused. -/
def chkS0 (d : Dims) (c : Nat) : α := wt d c (ofInt 0)

/-- `cos` column at check point. -/
def chkC (x : α) (d : Dims) (c m : Nat) : α := (trigCol (Arith.cos x) (Arith.sin x) (chkS0 d c) m).1
/-- `sin` column at check point. -/
def chkS (x : α) (d : Dims) (c m : Nat) : α := (trigCol (Arith.cos x) (Arith.sin x) (chkS0 d c) m).2

/-- Poloidal Boozer angle at check point `c`. -/
def chkT (I : Inputs α) (d : Dims) (js c : Nat) : α :=
  thB I d js (gridT d (chkIdx d c)) (gridZ d (chkIdx d c))
/-- Toroidal Boozer angle at check point `c`. -/
def chkZ (I : Inputs α) (d : Dims) (js c : Nat) : α :=
  zeB I d js (gridT d (chkIdx d c)) (gridZ d (chkIdx d c))

/-- `tcos`, `check_accuracy.cpp:106` -/
def chkTC (I : Inputs α) (d : Dims) (js c k : Nat) : α :=
  let z := ofInt (d.nfp : Int) * chkZ I d js c
  let a := (modeN d.N k * d.nfp).natAbs / d.nfp
  chkC (chkT I d js c) d c (modeM d.N k) * cosT z a +
    chkS (chkT I d js c) d c (modeM d.N k) * sinT z a * ofInt (signOf (modeN d.N k * d.nfp))
/-- `tsin`, `check_accuracy.cpp:109` -/
def chkTS (I : Inputs α) (d : Dims) (js c k : Nat) : α :=
  let z := ofInt (d.nfp : Int) * chkZ I d js c
  let a := (modeN d.N k * d.nfp).natAbs / d.nfp
  chkS (chkT I d js c) d c (modeM d.N k) * cosT z a -
    chkC (chkT I d js c) d c (modeM d.N k) * sinT z a * ofInt (signOf (modeN d.N k * d.nfp))

/-- Reconstructed |B| at check point `c` from the first `K` modes. -/
def chkB (I : Inputs α) (d : Dims) (js b : Nat) (F : SpecF α) (c K : Nat) : α :=
  acc2 d.asym (fun k => chkTC I d js c k * F.bc k b) (fun k => chkTS I d js c k * F.bs k b) K

/-- |B| evaluated from the input at check point `c`. -/
def chkV (I : Inputs α) (d : Dims) (js c : Nat) : α :=
  bP I d js d.mnq (gridT d (chkIdx d c)) (gridZ d (chkIdx d c))

/-- Closed form of the report. -/
def reportOf (I : Inputs α) (d : Dims) (js b : Nat) (F : SpecF α) : Report α where
  js_b := b
  js := js
  vmec := Vec.tab 4 (chkV I d js)
  boozer := Vec.tab 4 fun c => chkB I d js b F c d.nmodes
  err := Vec.tab 4 fun c =>
    Arith.abs (chkB I d js b F c d.nmodes - chkV I d js c) /
      Arith.max (chkB I d js b F c d.nmodes) (chkV I d js c)

/-- The eight grid assertions of `check_accuracy.cpp:39-76` hold. -/
def ChkAsserts (d : Dims) (α : Type) [Arith α] : Prop :=
  let za : α := if (d.nz : Int) > 1 then Arith.pi / ofInt (d.nfp : Int) else ofInt 0
  let T (j : Nat) (x : α) : Prop := Arith.absTiny (gridT d j - x) = true
  let Z (j : Nat) (x : α) : Prop := Arith.absTiny (gridZ d j - x) = true
  (T (chkIdx d 0) (ofInt 0) ∧ Z (chkIdx d 0) (ofInt 0)) ∧
  (T (chkIdx d 1) Arith.pi ∧ Z (chkIdx d 1) (ofInt 0)) ∧
  (T (chkIdx d 2) (ofInt 0) ∧ Z (chkIdx d 2) za) ∧ (T (chkIdx d 3) Arith.pi ∧ Z (chkIdx d 3) za)

theorem assertNear_ok {dbg : Bool} {n : Nat} {f : Nat → α} {i : Nat} {x : α} {w : String}
    (hi : i < n) (h : dbg = true → Arith.absTiny (f i - x) = true) :
    assertNear dbg (Vec.tab n f) (i : Int) x w = .ok () := by
  unfold assertNear
  cases dbg with
  | false => rfl
  | true =>
    simp only [if_true]
    rw [Vec.rd_tab (by omega) (by omega), ok_bind, Int.toNat_natCast, h rfl]
    rfl

theorem assertNear_ok0 {dbg : Bool} {n : Nat} {f : Nat → α} {x : α} {w : String}
    (hi : 0 < n) (h : dbg = true → Arith.absTiny (f 0 - x) = true) :
    assertNear dbg (Vec.tab n f) 0 x w = .ok () := assertNear_ok (i := 0) hi h

theorem chkIdx_lt {d : Dims} (hM : 1 ≤ d.M) (c : Nat) : chkIdx d c < d.np := by
  have h1 := nu2_le_nu3 d hM
  have hz := nz_pos d
  have e : d.nt / 2 = 2 * d.M + 1 := by unfold Dims.nt; omega
  have h2 : (2 * d.M + 2) * d.nz ≤ d.np := Nat.mul_le_mul_right _ h1
  have h3 : (2 * d.M + 2) * d.nz = (2 * d.M + 1) * d.nz + d.nz := by ring
  unfold chkIdx
  rw [e]
  split <;> [skip; split <;> [skip; split]] <;> omega

theorem Vec.tab4 {β : Type} (f : Nat → β) :
    Vec.tab 4 f = #[some (f 0), some (f 1), some (f 2), some (f 3)] := rfl

theorem four_le_np {d : Dims} (hM : 1 ≤ d.M) : 4 ≤ d.np := by
  have h1 := nu2_le_nu3 d hM
  have hz := nz_pos d
  have h2 : d.nu2 * 1 ≤ d.np := Nat.mul_le_mul h1 hz
  unfold Dims.nu2 at h2
  omega

theorem checkAccuracy_ok {dbg : Bool} {s : St α} {d : Dims} (h : RunReady s.inp d)
    (hg : GridReady s.grid d) (ha : dbg = true → ChkAsserts d α) {js b : Nat} (hb : b < d.nsb)
    {F : SpecF α} {o : Spectra α} (hmn : s.out.mnboz = some (d.nmodes : Int))
    (hxm : s.out.xm_b = Vec.tab d.nmodes fun j => (modeM d.N j : Int))
    (hxn : s.out.xn_b = Vec.tab d.nmodes fun j => modeN d.N j * d.nfp)
    (hsp : s.out.spec = specTab d F o) :
    checkAccuracy dbg s (js : Int) b (wbTab s.inp d js d.mnq).bmod (harTab s.inp d js).theta_Boozer
      (harTab s.inp d js).zeta_Boozer (boozTab s.inp d js) = .ok (reportOf s.inp d js b F) := by
  have hM := h.mboz_ge
  have hidx := chkIdx_lt hM
  have hnp := h.fit_pts
  have hz0 : 0 < d.np := hidx 0
  have h1 : Int.tdiv (d.nt : Int) 2 * d.nz = ((chkIdx d 1 : Nat) : Int) := by
    rw [Int.tdiv_eq_ediv_of_nonneg (by omega)]; simp [chkIdx]
  have h2 : Int.tdiv (d.nz : Int) 2 = ((chkIdx d 2 : Nat) : Int) := by
    rw [Int.tdiv_eq_ediv_of_nonneg (by omega)]; simp [chkIdx]
  have h3 : ((chkIdx d 1 : Nat) : Int) + ((chkIdx d 2 : Nat) : Int) = ((chkIdx d 3 : Nat) : Int) := by
    simp [chkIdx]
  have a0 := fun hd => (ha hd).1
  have a1 := fun hd => (ha hd).2.1
  have a2 := fun hd => (ha hd).2.2.1
  have a3 := fun hd => (ha hd).2.2.2
  have i1 := hidx 1
  have i3 := hidx 3
  unfold checkAccuracy
  simp only [hg.nt, hg.nz, h.nfp, h.asym, hmn, need_some, ok_bind, hg.th, hg.ze, wbTab, harTab]
  rw [h1, h2, i32_ok (by unfold FitsInt; omega)]
  simp only [ok_bind]
  rw [h3, i32_ok (by unfold FitsInt; omega)]
  simp only [ok_bind]
  rw [Vec.rd_tab (Int.le_refl 0) hz0, ok_bind, Vec.rd_tab (Int.le_refl 0) hz0, ok_bind,
    Vec.rd_tab (Int.le_refl 0) hz0, ok_bind,
    assertNear_ok0 hz0 (fun hd => (a0 hd).1), ok_bind,
    assertNear_ok0 hz0 (fun hd => (a0 hd).2), ok_bind,
    Vec.rd_tab (by omega) (hidx 1), ok_bind, Vec.rd_tab (by omega) (hidx 1), ok_bind,
    Vec.rd_tab (by omega) (hidx 1), ok_bind,
    assertNear_ok (hidx 1) (fun hd => (a1 hd).1), ok_bind,
    assertNear_ok (hidx 1) (fun hd => (a1 hd).2), ok_bind,
    Vec.rd_tab (by omega) (hidx 2), ok_bind, Vec.rd_tab (by omega) (hidx 2), ok_bind,
    Vec.rd_tab (by omega) (hidx 2), ok_bind,
    assertNear_ok (hidx 2) (fun hd => (a2 hd).1), ok_bind,
    assertNear_ok (hidx 2) (fun hd => (a2 hd).2), ok_bind,
    Vec.rd_tab (by omega) (hidx 3), ok_bind, Vec.rd_tab (by omega) (hidx 3), ok_bind,
    Vec.rd_tab (by omega) (hidx 3), ok_bind,
    assertNear_ok (hidx 3) (fun hd => (a3 hd).1), ok_bind,
    assertNear_ok (hidx 3) (fun hd => (a3 hd).2), ok_bind]
  simp only [Int.toNat_natCast, Int.toNat_zero]
  have e1 : (#[some (thB s.inp d js (gridT d 0) (gridZ d 0)),
      some (thB s.inp d js (gridT d (chkIdx d 1)) (gridZ d (chkIdx d 1))),
      some (thB s.inp d js (gridT d (chkIdx d 2)) (gridZ d (chkIdx d 2))),
      some (thB s.inp d js (gridT d (chkIdx d 3)) (gridZ d (chkIdx d 3)))] : Vec α) =
      Vec.tab 4 (chkT s.inp d js) := rfl
  have e2 : (#[some (zeB s.inp d js (gridT d 0) (gridZ d 0)),
      some (zeB s.inp d js (gridT d (chkIdx d 1)) (gridZ d (chkIdx d 1))),
      some (zeB s.inp d js (gridT d (chkIdx d 2)) (gridZ d (chkIdx d 2))),
      some (zeB s.inp d js (gridT d (chkIdx d 3)) (gridZ d (chkIdx d 3)))] : Vec α) =
      Vec.tab 4 (chkZ s.inp d js) := rfl
  have e3 : (#[some (bP s.inp d js d.mnq (gridT d 0) (gridZ d 0)),
      some (bP s.inp d js d.mnq (gridT d (chkIdx d 1)) (gridZ d (chkIdx d 1))),
      some (bP s.inp d js d.mnq (gridT d (chkIdx d 2)) (gridZ d (chkIdx d 2))),
      some (bP s.inp d js d.mnq (gridT d (chkIdx d 3)) (gridZ d (chkIdx d 3)))] : Vec α) =
      Vec.tab 4 (chkV s.inp d js) := rfl
  have e4 : (#[some (ofInt 0), some (ofInt 0), some (ofInt 0), some (ofInt 0)] : Vec α) =
      Vec.tab 4 (fun c => chkB s.inp d js b F c 0) := rfl
  rw [e1, e2, e3, e4, h.mboz, h.nboz]
  unfold boozTab
  rw [initTrig_ok (four_le_np hM) (by omega) (by push_cast; omega) (by omega) (by push_cast; omega)
    (Nat.le_refl 4), ok_bind]
  have hloop : ∀ (t : Trig α),
      t.cosm = Mat.tab d.np (d.M + 1) (fun j m => if j < 4 ∧ (m ≤ 1 ∨ (m : Int) ≤ (d.M : Int)) then
        chkC (chkT s.inp d js j) d j m else
          wt d j (cosT (thB s.inp d js (gridT d j) (gridZ d j)) m)) →
      t.sinm = Mat.tab d.np (d.M + 1) (fun j m => if j < 4 ∧ (m ≤ 1 ∨ (m : Int) ≤ (d.M : Int)) then
        chkS (chkT s.inp d js j) d j m else
          wt d j (sinT (thB s.inp d js (gridT d j) (gridZ d j)) m)) →
      t.cosn = Mat.tab d.np (d.N + 1) (fun j n => if j < 4 ∧ (n = 0 ∨ (n : Int) ≤ (d.N : Int)) then
        cosT (ofInt (d.nfp : Int) * chkZ s.inp d js j) n else
          cosT (ofInt (d.nfp : Int) * zeB s.inp d js (gridT d j) (gridZ d j)) n) →
      t.sinn = Mat.tab d.np (d.N + 1) (fun j n => if j < 4 ∧ (n = 0 ∨ (n : Int) ≤ (d.N : Int)) then
        sinT (ofInt (d.nfp : Int) * chkZ s.inp d js j) n else
          sinT (ofInt (d.nfp : Int) * zeB s.inp d js (gridT d j) (gridZ d j)) n) →
      loop d.nmodes (fun jmn v => do
        let m ← s.out.xm_b.rdN jmn
        let n ← s.out.xn_b.rdN jmn
        let absn ← absNOf n (some (d.nfp : Int))
        loop 4 (checkStep d.asym t s.out.spec b jmn m absn (signOf n)) v)
        (Vec.tab 4 (fun c => chkB s.inp d js b F c 0)) =
      .ok (Vec.tab 4 (fun c => chkB s.inp d js b F c d.nmodes)) := by
    intro t ht1 ht2 ht3 ht4
    refine loop_traj' (fun K => Vec.tab 4 (fun c => chkB s.inp d js b F c K)) ?_ rfl rfl
    intro k hk
    have hm := modeM_lt hM hk
    have hn1 : (modeN d.N k * d.nfp).natAbs / d.nfp < d.N + 1 := by
      rw [modeN_natAbs d h.nfp_pos]
      have := modeN_natAbs_le d.N k
      omega
    rw [hxm, hxn, Vec.rdN_tab hk, ok_bind, Vec.rdN_tab hk, ok_bind,
      absNOf_ok h.nfp_pos (modeN_int h k), ok_bind]
    refine loop_traj' (fun c => Vec.tab 4 (fun c' => if c' < c then chkB s.inp d js b F c' (k + 1)
      else chkB s.inp d js b F c' k)) ?_ (by simp) Vec.front_all
    intro c hc
    have hcnp : c < d.np := by have := four_le_np hM; omega
    have rC : trigCos t c (modeM d.N k : Int) (((modeN d.N k * d.nfp).natAbs / d.nfp : Nat) : Int)
        (signOf (modeN d.N k * d.nfp)) = .ok (chkTC s.inp d js c k) := by
      unfold trigCos chkTC
      generalize (modeN d.N k * d.nfp).natAbs / d.nfp = a at *
      rw [ht1, ht2, ht3, ht4, Mat.rd_tab (by omega) (by omega) (by omega) (by omega), ok_bind,
        Mat.rd_tab (by omega) (by omega) (by omega) (by omega), ok_bind,
        Mat.rd_tab (by omega) (by omega) (by omega) (by omega), ok_bind,
        Mat.rd_tab (by omega) (by omega) (by omega) (by omega), ok_bind]
      simp only [Int.toNat_natCast]
      rw [if_pos (by omega), if_pos (by omega), if_pos (by omega), if_pos (by omega)]
      rfl
    have rS : trigSin t c (modeM d.N k : Int) (((modeN d.N k * d.nfp).natAbs / d.nfp : Nat) : Int)
        (signOf (modeN d.N k * d.nfp)) = .ok (chkTS s.inp d js c k) := by
      unfold trigSin chkTS
      generalize (modeN d.N k * d.nfp).natAbs / d.nfp = a at *
      rw [ht1, ht2, ht3, ht4, Mat.rd_tab (by omega) (by omega) (by omega) (by omega), ok_bind,
        Mat.rd_tab (by omega) (by omega) (by omega) (by omega), ok_bind,
        Mat.rd_tab (by omega) (by omega) (by omega) (by omega), ok_bind,
        Mat.rd_tab (by omega) (by omega) (by omega) (by omega), ok_bind]
      simp only [Int.toNat_natCast]
      rw [if_pos (by omega), if_pos (by omega), if_pos (by omega), if_pos (by omega)]
      rfl
    unfold checkStep
    rw [rC, rS, ok_bind, hsp]
    cases hasym : d.asym with
    | false =>
      simp only [specTab, hasym, Bool.false_eq_true, if_false, Bool.not_false, if_true]
      rw [Mat.rdN_tab hk hb, ok_bind, Vec.addN_tab hc, ok_bind, pure_eq_ok]
      congr 1
      apply Vec.tab_front hc
      simp only [Nat.lt_irrefl, if_false]
      simp only [chkB, acc2, hasym, Bool.false_eq_true, if_false]
    | true =>
      simp only [specTab, hasym, if_true, Bool.not_true, Bool.false_eq_true, if_false]
      rw [Mat.rdN_tab hk hb, ok_bind, Vec.addN_tab hc, ok_bind, ok_bind, Mat.rdN_tab hk hb, ok_bind,
        Vec.addN_tab hc]
      simp only [Vec.upd_upd, Vec.upd_same]
      congr 1
      apply Vec.tab_front hc
      simp only [Nat.lt_irrefl, if_false]
      simp only [chkB, acc2, hasym, if_true]
  rw [hloop _ rfl rfl rfl rfl, ok_bind]
  · rw [Vec.build_tab (f := fun c => Arith.abs (chkB s.inp d js b F c d.nmodes - chkV s.inp d js c) /
      Arith.max (chkB s.inp d js b F c d.nmodes) (chkV s.inp d js c)) (by
      intro i hi; rw [Vec.rdN_tab hi, ok_bind, Vec.rdN_tab hi, ok_bind]; rfl), ok_bind]
    rfl

end Booz
