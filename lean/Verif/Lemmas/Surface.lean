import Verif.Lemmas.Init

/-!
# `surface_solve` computes its closed form
-/

namespace Booz
variable {α : Type} [Arith α]

theorem Vec.upd_upd {β : Type} (f : Nat → β) (i : Nat) (x y : β) :
    Vec.upd (Vec.upd f i x) i y = Vec.upd f i y := by
  funext k; simp only [Vec.upd]; split <;> rfl

theorem Vec.upd_same {β : Type} (f : Nat → β) (i : Nat) (x : β) : Vec.upd f i x i = x := by
  simp [Vec.upd]

theorem Mat.upd_upd {β : Type} (f : Nat → Nat → β) (i j : Nat) (x y : β) :
    Mat.upd (Mat.upd f i j x) i j y = Mat.upd f i j y := by
  funext a b; simp only [Mat.upd]; split <;> rfl

theorem Mat.upd_same {β : Type} (f : Nat → Nat → β) (i j : Nat) (x : β) :
    Mat.upd f i j x i j = x := by simp [Mat.upd]

theorem Mat.upd_self {β : Type} (f : Nat → Nat → β) (i j : Nat) : Mat.upd f i j (f i j) = f := by
  funext a b; simp only [Mat.upd]; split
  · next h => rw [h.1, h.2]
  · rfl

theorem Vec.addN_tab {n : Nat} {f : Nat → α} {j : Nat} {x : α} (h : j < n) :
    (Vec.tab n f).addN j x = .ok (Vec.tab n (Vec.upd f j (f j + x))) := by
  unfold Vec.addN
  rw [Vec.rdN_tab h, ok_bind, Vec.wrN_tab h]

theorem Mat.addN_tab {r c : Nat} {f : Nat → Nat → α} {i j : Nat} {x : α} (hi : i < r) (hj : j < c) :
    (Mat.tab r c f).addN i j x = .ok (Mat.tab r c (Mat.upd f i j (f i j + x))) := by
  unfold Mat.addN
  rw [Mat.rdN_tab hi hj, ok_bind, Mat.wrN_tab hi hj]

/-- One step of an entry-by-entry update of an array. -/
theorem Vec.tab_front {β : Type} {n i : Nat} {f g : Nat → β} (_hi : i < n) {x : β} (hx : x = g i) :
    Vec.tab n (Vec.upd (fun j => if j < i then g j else f j) i x) =
      Vec.tab n (fun j => if j < i + 1 then g j else f j) := by
  apply Vec.tab_congr
  intro k _
  simp only [Vec.upd, hx]
  by_cases h1 : k = i
  · subst h1; simp
  · have : (k < i + 1) ↔ (k < i) := by omega
    simp only [h1, if_false, this]

theorem Mat.rd_full {a : Mat α} {r c : Nat} (h : a.Full r c) {i : Nat} {j : Int} (hi : i < r)
    (hj0 : 0 ≤ j) (hj : j < c) : a.rd (i : Int) j = .ok (ev a i j.toNat) := by
  obtain ⟨h1, h2, h3⟩ := h
  rw [Mat.rd, if_pos ⟨by omega, hj0⟩, Int.toNat_natCast, Mat.rdN, if_pos ⟨by omega, by omega⟩]
  unfold ev Mat.val
  subst h1
  exact h3.rdN _ (Mat.idx_lt hi (by omega))

theorem Vec.rd_full {v : Vec α} {n : Nat} (h : v.Full n) {j : Int} (hj0 : 0 ≤ j) (hj : j < n) :
    v.rd j = .ok (v.val (ofInt 0) j.toNat) := by
  rw [Vec.rd, if_pos hj0]
  exact h.rdN _ (by omega)

/-! ### transpmn.f part -/

theorem transp_ok {I : Inputs α} {d : Dims} (h : RunReady I d) {js : Int} (hjs0 : 0 ≤ js)
    (hjs : js < d.ns) {b : Nat} (hb : b < d.nsb) (fI fG : Nat → α) :
    transp I js b (Vec.tab d.nsb fI) (Vec.tab d.nsb fG) =
      .ok { wmns := Vec.tab d.mnq (wS I js.toNat)
            wmnc := if d.asym then Vec.tab d.mnq (wC I js.toNat) else #[]
            boozer_I := Vec.tab d.nsb (Vec.upd fI b
              (lastZero I (fun k => ev I.bsubumnc k js.toNat) (fI b) d.mnq))
            boozer_G := Vec.tab d.nsb (Vec.upd fG b
              (lastZero I (fun k => ev I.bsubvmnc k js.toNat) (fG b) d.mnq)) } := by
  unfold transp
  simp only [h.mnmax_nyq, h.asym, need_some, ok_bind]
  rw [Vec.setZero_tab (by omega), ok_bind, Int.toNat_natCast]
  have hupd : ∀ f : Nat → α, Vec.upd f b (f b) = f := by
    intro f; funext k; simp only [Vec.upd]; split
    · next h => rw [h]
    · rfl
  have main : loop d.mnq (transpStep I d.asym js b)
      { wmns := Vec.tab d.mnq fun _ => ofInt 0
        wmnc := if d.asym then Vec.tab d.mnq fun _ => ofInt 0 else #[]
        boozer_I := Vec.tab d.nsb fI, boozer_G := Vec.tab d.nsb fG } =
      .ok { wmns := Vec.tab d.mnq (wS I js.toNat)
            wmnc := if d.asym then Vec.tab d.mnq (wC I js.toNat) else #[]
            boozer_I := Vec.tab d.nsb (Vec.upd fI b
              (lastZero I (fun k => ev I.bsubumnc k js.toNat) (fI b) d.mnq))
            boozer_G := Vec.tab d.nsb (Vec.upd fG b
              (lastZero I (fun k => ev I.bsubvmnc k js.toNat) (fG b) d.mnq)) } := by
    refine loop_traj' (fun i =>
      { wmns := Vec.tab d.mnq fun k => if k < i then wS I js.toNat k else ofInt 0
        wmnc := if d.asym then Vec.tab d.mnq fun k => if k < i then wC I js.toNat k else ofInt 0
          else #[]
        boozer_I := Vec.tab d.nsb (Vec.upd fI b
          (lastZero I (fun k => ev I.bsubumnc k js.toNat) (fI b) i))
        boozer_G := Vec.tab d.nsb (Vec.upd fG b
          (lastZero I (fun k => ev I.bsubvmnc k js.toNat) (fG b) i)) }) ?_ ?_ ?_
    · intro i hi
      simp only [transpStep]
      rw [h.xm_nyq.rdN 0 hi, ok_bind, h.xn_nyq.rdN 0 hi, ok_bind]
      by_cases hm : I.xm_nyq.val 0 i ≠ 0
      · rw [if_pos hm, Mat.rd_full h.bsubumnc hi hjs0 hjs, ok_bind, Vec.wrN_tab hi, ok_bind]
        have hz : ¬ (I.xm_nyq.val 0 i = 0 ∧ I.xn_nyq.val 0 i = 0) := fun hh => hm hh.1
        have e1 : lastZero I (fun k => ev I.bsubumnc k js.toNat) (fI b) (i + 1) =
            lastZero I (fun k => ev I.bsubumnc k js.toNat) (fI b) i := by simp [lastZero, hz]
        have e2 : lastZero I (fun k => ev I.bsubvmnc k js.toNat) (fG b) (i + 1) =
            lastZero I (fun k => ev I.bsubvmnc k js.toNat) (fG b) i := by simp [lastZero, hz]
        cases ha : d.asym with
        | false =>
          simp only [Bool.false_eq_true, if_false, pure_eq_ok, ok_bind, e1, e2]
          rw [Vec.tab_front hi (by simp only [wS]; rw [if_pos hm])]
        | true =>
          simp only [if_true, pure_eq_ok, ok_bind, e1, e2]
          rw [Mat.rd_full (h.bsubumns ha) hi hjs0 hjs, ok_bind, Vec.wrN_tab hi, ok_bind]
          rw [Vec.tab_front hi (by simp only [wS]; rw [if_pos hm]),
            Vec.tab_front hi (by simp only [wC]; rw [if_pos hm])]
      · rw [if_neg hm]
        by_cases hn : I.xn_nyq.val 0 i ≠ 0
        · rw [if_pos hn, Mat.rd_full h.bsubvmnc hi hjs0 hjs, ok_bind, Vec.wrN_tab hi, ok_bind]
          have hz : ¬ (I.xm_nyq.val 0 i = 0 ∧ I.xn_nyq.val 0 i = 0) := fun hh => hn hh.2
          have e1 : lastZero I (fun k => ev I.bsubumnc k js.toNat) (fI b) (i + 1) =
              lastZero I (fun k => ev I.bsubumnc k js.toNat) (fI b) i := by simp [lastZero, hz]
          have e2 : lastZero I (fun k => ev I.bsubvmnc k js.toNat) (fG b) (i + 1) =
              lastZero I (fun k => ev I.bsubvmnc k js.toNat) (fG b) i := by simp [lastZero, hz]
          cases ha : d.asym with
          | false =>
            simp only [Bool.false_eq_true, if_false, pure_eq_ok, ok_bind, e1, e2]
            rw [Vec.tab_front hi (by simp only [wS]; rw [if_neg hm, if_pos hn])]
          | true =>
            simp only [if_true, pure_eq_ok, ok_bind, e1, e2]
            rw [Mat.rd_full (h.bsubvmns ha) hi hjs0 hjs, ok_bind, Vec.wrN_tab hi, ok_bind]
            rw [Vec.tab_front hi (by simp only [wS]; rw [if_neg hm, if_pos hn]),
              Vec.tab_front hi (by simp only [wC]; rw [if_neg hm, if_pos hn])]
        · rw [if_neg hn, Mat.rd_full h.bsubumnc hi hjs0 hjs, ok_bind, Vec.wrN_tab hb, ok_bind,
            Mat.rd_full h.bsubvmnc hi hjs0 hjs, ok_bind, Vec.wrN_tab hb, ok_bind]
          have hz : I.xm_nyq.val 0 i = 0 ∧ I.xn_nyq.val 0 i = 0 :=
            ⟨Decidable.not_not.mp hm, Decidable.not_not.mp hn⟩
          have e1 : lastZero I (fun k => ev I.bsubumnc k js.toNat) (fI b) (i + 1) =
              ev I.bsubumnc i js.toNat := by simp [lastZero, hz]
          have e2 : lastZero I (fun k => ev I.bsubvmnc k js.toNat) (fG b) (i + 1) =
              ev I.bsubvmnc i js.toNat := by simp [lastZero, hz]
          simp only [pure_eq_ok, e1, e2, Vec.upd_upd]
          have e3 : (Vec.tab d.mnq fun k => if k < i then wS I js.toNat k else ofInt 0) =
              Vec.tab d.mnq fun k => if k < i + 1 then wS I js.toNat k else ofInt 0 := by
            apply Vec.tab_congr
            intro k _
            by_cases hk : k = i
            · subst hk; simp [wS, hz]
            · have : (k < i + 1) ↔ (k < i) := by omega
              simp only [this]
          have e4 : (Vec.tab d.mnq fun k => if k < i then wC I js.toNat k else ofInt 0) =
              Vec.tab d.mnq fun k => if k < i + 1 then wC I js.toNat k else ofInt 0 := by
            apply Vec.tab_congr
            intro k _
            by_cases hk : k = i
            · subst hk; simp [wC, hz]
            · have : (k < i + 1) ↔ (k < i) := by omega
              simp only [this]
          rw [e3, e4]
    · simp [lastZero, hupd]
    · have e3 : Vec.tab d.mnq (wS I js.toNat) =
          Vec.tab d.mnq fun k => if k < d.mnq then wS I js.toNat k else ofInt 0 := by
        apply Vec.tab_congr; intro k hk; simp [hk]
      have e4 : Vec.tab d.mnq (wC I js.toNat) =
          Vec.tab d.mnq fun k => if k < d.mnq then wC I js.toNat k else ofInt 0 := by
        apply Vec.tab_congr; intro k hk; simp [hk]
      rw [e3, e4]
  cases ha : d.asym with
  | false => rw [ha] at main; simpa using main
  | true =>
    rw [ha] at main
    simpa using main

/-! ### Trigonometric factors -/

theorem trigCos_tab {np cm cn nfp : Nat} {θ ζ : Nat → α} {j : Nat} {m absn : Int} {n : Int}
    (hj : j < np) (hm0 : 0 ≤ m) (hm : m < cm) (ha : absn = ((n.natAbs / nfp : Nat) : Int))
    (hn : n.natAbs / nfp < cn) :
    trigCos (trigTab np cm cn nfp θ ζ) j m absn (signOf n) = .ok (bC nfp m n (θ j) (ζ j)) := by
  unfold trigCos trigTab bC
  generalize n.natAbs / nfp = a at *
  subst ha
  simp only
  rw [Mat.rd_tab (by omega) (by omega) hm0 (by omega), ok_bind,
    Mat.rd_tab (by omega) (by omega) (by omega) (by omega), ok_bind,
    Mat.rd_tab (by omega) (by omega) hm0 (by omega), ok_bind,
    Mat.rd_tab (by omega) (by omega) (by omega) (by omega), ok_bind]
  simp only [Int.toNat_natCast, pure_eq_ok]

theorem trigSin_tab {np cm cn nfp : Nat} {θ ζ : Nat → α} {j : Nat} {m absn : Int} {n : Int}
    (hj : j < np) (hm0 : 0 ≤ m) (hm : m < cm) (ha : absn = ((n.natAbs / nfp : Nat) : Int))
    (hn : n.natAbs / nfp < cn) :
    trigSin (trigTab np cm cn nfp θ ζ) j m absn (signOf n) = .ok (bS nfp m n (θ j) (ζ j)) := by
  unfold trigSin trigTab bS
  generalize n.natAbs / nfp = a at *
  subst ha
  simp only
  rw [Mat.rd_tab (by omega) (by omega) hm0 (by omega), ok_bind,
    Mat.rd_tab (by omega) (by omega) (by omega) (by omega), ok_bind,
    Mat.rd_tab (by omega) (by omega) hm0 (by omega), ok_bind,
    Mat.rd_tab (by omega) (by omega) (by omega) (by omega), ok_bind]
  simp only [Int.toNat_natCast, pure_eq_ok]

theorem absN_rz {n : Int} {nfp : Nat} (hp : 1 ≤ nfp) (hn : n.natAbs < 2147483648) :
    (do let a ← i32 (n.natAbs : Int); idiv a (nfp : Int)) = .ok ((n.natAbs / nfp : Nat) : Int) := by
  have hle : n.natAbs / nfp ≤ n.natAbs := Nat.div_le_self _ _
  rw [i32_ok (by unfold FitsInt; omega), ok_bind]
  unfold idiv
  rw [if_neg (by omega)]
  have : (n.natAbs : Int).tdiv (nfp : Int) = ((n.natAbs / nfp : Nat) : Int) := by
    rw [Int.tdiv_eq_ediv_of_nonneg (by omega)]; push_cast; rfl
  rw [this]
  generalize n.natAbs / nfp = a at *
  rw [i32_ok (by unfold FitsInt; omega)]

theorem absNOf_ok {n : Int} {nfp : Nat} (hp : 1 ≤ nfp) (hn : n.natAbs < 2147483648) :
    absNOf n (some (nfp : Int)) = .ok ((n.natAbs / nfp : Nat) : Int) := by
  have hle : n.natAbs / nfp ≤ n.natAbs := Nat.div_le_self _ _
  have hd : (n.tdiv (nfp : Int)).natAbs = n.natAbs / nfp := by
    rw [Int.natAbs_tdiv]; rfl
  unfold absNOf
  rw [need_some, ok_bind]
  unfold idiv
  rw [if_neg (by omega)]
  generalize n.tdiv (nfp : Int) = t at *
  generalize n.natAbs / nfp = a at *
  rw [i32_ok (by unfold FitsInt; omega), ok_bind, hd, i32_ok (by unfold FitsInt; omega)]

/-! ### vcoords -/

/-- The five real-space arrays after `K` modes. -/
def rzTab (I : Inputs α) (d : Dims) (js : Nat) (K : Nat) : RZ α :=
  ⟨Vec.tab d.np fun j => rP I d js K (gridT d j) (gridZ d j),
   Vec.tab d.np fun j => zP I d js K (gridT d j) (gridZ d j),
   Vec.tab d.np fun j => lP I d js K (gridT d j) (gridZ d j),
   Vec.tab d.np fun j => ltP I d js K (gridT d j) (gridZ d j),
   Vec.tab d.np fun j => lzP I d js K (gridT d j) (gridZ d j)⟩

/-- The four real-space arrays after `K` Nyquist modes. -/
def wbTab (I : Inputs α) (d : Dims) (js : Nat) (K : Nat) : WB α :=
  ⟨Vec.tab d.np fun j => wP I d js K (gridT d j) (gridZ d j),
   Vec.tab d.np fun j => wtP I d js K (gridT d j) (gridZ d j),
   Vec.tab d.np fun j => wzP I d js K (gridT d j) (gridZ d j),
   Vec.tab d.np fun j => bP I d js K (gridT d j) (gridZ d j)⟩

theorem Vec.front_all {β : Type} {n : Nat} {f g : Nat → β} :
    Vec.tab n g = Vec.tab n (fun j => if j < n then g j else f j) := by
  apply Vec.tab_congr; intro k hk; simp [hk]

theorem vcoordsRZ_ok {s : St α} {d : Dims} (h : RunReady s.inp d) {js : Int} (hjs0 : 0 ≤ js)
    (hjs : js < d.ns) {g : Grid α} (hg1 : g.n_theta_zeta = some (d.np : Int))
    (hg2 : g.trig = trigTab d.np d.mpol (d.ntor + 1) d.nfp (gridT d) (gridZ d)) :
    vcoordsRZ s.inp g js = .ok (rzTab s.inp d js.toNat d.mnmax) := by
  unfold vcoordsRZ
  simp only [hg1, h.asym, h.mnmax, h.nfp, need_some, ok_bind]
  rw [Vec.setZero_tab (by omega), ok_bind, Int.toNat_natCast, Int.toNat_natCast]
  refine loop_traj' (fun K => rzTab s.inp d js.toNat K) ?_ rfl rfl
  intro k hk
  rw [h.xm.rdN 0 hk, ok_bind, h.xn.rdN 0 hk, ok_bind]
  have hx := h.xm_range k hk
  have hxn := h.xn_range k hk
  have habs := absN_rz h.nfp_pos (h.xn_int k hk)
  rw [← bind_assoc, habs, ok_bind]
  unfold rzTab
  refine loop_traj' (fun i =>
    ⟨Vec.tab d.np fun j => if j < i then rP s.inp d js.toNat (k + 1) (gridT d j) (gridZ d j)
        else rP s.inp d js.toNat k (gridT d j) (gridZ d j),
     Vec.tab d.np fun j => if j < i then zP s.inp d js.toNat (k + 1) (gridT d j) (gridZ d j)
        else zP s.inp d js.toNat k (gridT d j) (gridZ d j),
     Vec.tab d.np fun j => if j < i then lP s.inp d js.toNat (k + 1) (gridT d j) (gridZ d j)
        else lP s.inp d js.toNat k (gridT d j) (gridZ d j),
     Vec.tab d.np fun j => if j < i then ltP s.inp d js.toNat (k + 1) (gridT d j) (gridZ d j)
        else ltP s.inp d js.toNat k (gridT d j) (gridZ d j),
     Vec.tab d.np fun j => if j < i then lzP s.inp d js.toNat (k + 1) (gridT d j) (gridZ d j)
        else lzP s.inp d js.toNat k (gridT d j) (gridZ d j)⟩) ?_ ?_ ?_
  · intro i hi
    unfold rzStep
    simp only [hg2]
    rw [trigCos_tab hi hx.1 hx.2 rfl (Nat.lt_succ_of_le hxn), ok_bind, trigSin_tab hi hx.1 hx.2 rfl (Nat.lt_succ_of_le hxn),
      ok_bind, Mat.rd_full h.rmnc hk hjs0 hjs, ok_bind, Vec.addN_tab hi, ok_bind,
      Mat.rd_full h.zmns hk hjs0 hjs, ok_bind, Vec.addN_tab hi, ok_bind,
      Mat.rd_full h.lmns hk hjs0 hjs, ok_bind, Vec.addN_tab hi, ok_bind, Vec.addN_tab hi, ok_bind,
      Vec.addN_tab hi, ok_bind]
    cases ha : d.asym with
    | false =>
      simp only [Bool.not_false, if_true, pure_eq_ok, Nat.lt_irrefl, if_false]
      rw [Vec.tab_front hi, Vec.tab_front hi, Vec.tab_front hi, Vec.tab_front hi, Vec.tab_front hi]
      all_goals simp only [rP, zP, lP, ltP, lzP, acc2, ha, Bool.false_eq_true, if_false]
    | true =>
      simp only [Bool.not_true, Bool.false_eq_true, if_false, pure_eq_ok, Nat.lt_irrefl]
      rw [Mat.rd_full (h.rmns ha) hk hjs0 hjs, ok_bind, Vec.addN_tab hi, ok_bind,
        Mat.rd_full (h.zmnc ha) hk hjs0 hjs, ok_bind, Vec.addN_tab hi, ok_bind,
        Mat.rd_full (h.lmnc ha) hk hjs0 hjs, ok_bind, Vec.addN_tab hi, ok_bind,
        Vec.addN_tab hi, ok_bind, Vec.addN_tab hi, ok_bind]
      simp only [Vec.upd_upd, Vec.upd_same]
      rw [Vec.tab_front hi, Vec.tab_front hi, Vec.tab_front hi, Vec.tab_front hi, Vec.tab_front hi]
      all_goals simp only [rP, zP, lP, ltP, lzP, acc2, ha, if_true]
  · simp
  · rw [← Vec.front_all, ← Vec.front_all, ← Vec.front_all, ← Vec.front_all, ← Vec.front_all]

theorem vcoordsW_ok {s : St α} {d : Dims} (h : RunReady s.inp d) {js : Int} (hjs0 : 0 ≤ js)
    (hjs : js < d.ns) {g : Grid α} (hg1 : g.n_theta_zeta = some (d.np : Int))
    (hg2 : g.trigNyq = trigTab d.np (d.mq + 1) (d.nq + 1) d.nfp (gridT d) (gridZ d))
    {wmns wmnc : Vec α} (hw1 : wmns = Vec.tab d.mnq (wS s.inp js.toNat))
    (hw2 : wmnc = if d.asym then Vec.tab d.mnq (wC s.inp js.toNat) else #[]) :
    vcoordsW s.inp g js wmns wmnc = .ok (wbTab s.inp d js.toNat d.mnq) := by
  unfold vcoordsW
  simp only [hg1, h.asym, h.mnmax_nyq, h.nfp, need_some, ok_bind]
  rw [Vec.setZero_tab (by omega), ok_bind, Int.toNat_natCast, Int.toNat_natCast]
  refine loop_traj' (fun K => wbTab s.inp d js.toNat K) ?_ rfl rfl
  intro k hk
  rw [h.xm_nyq.rdN 0 hk, ok_bind, h.xn_nyq.rdN 0 hk, ok_bind,
    absNOf_ok h.nfp_pos (h.xn_nyq_int k hk), ok_bind]
  have hx := h.xm_nyq_range k hk
  have hxn := h.xn_nyq_range k hk
  unfold wbTab
  refine loop_traj' (fun i =>
    ⟨Vec.tab d.np fun j => if j < i then wP s.inp d js.toNat (k + 1) (gridT d j) (gridZ d j)
        else wP s.inp d js.toNat k (gridT d j) (gridZ d j),
     Vec.tab d.np fun j => if j < i then wtP s.inp d js.toNat (k + 1) (gridT d j) (gridZ d j)
        else wtP s.inp d js.toNat k (gridT d j) (gridZ d j),
     Vec.tab d.np fun j => if j < i then wzP s.inp d js.toNat (k + 1) (gridT d j) (gridZ d j)
        else wzP s.inp d js.toNat k (gridT d j) (gridZ d j),
     Vec.tab d.np fun j => if j < i then bP s.inp d js.toNat (k + 1) (gridT d j) (gridZ d j)
        else bP s.inp d js.toNat k (gridT d j) (gridZ d j)⟩) ?_ ?_ ?_
  · intro i hi
    unfold wStep
    simp only [hg2, hw1, hw2]
    rw [trigCos_tab hi hx.1 (Int.lt_add_one_of_le hx.2) rfl (Nat.lt_succ_of_le hxn), ok_bind,
      trigSin_tab hi hx.1 (Int.lt_add_one_of_le hx.2) rfl (Nat.lt_succ_of_le hxn),
      ok_bind, Vec.rdN_tab hk, ok_bind, Vec.addN_tab hi, ok_bind, Vec.addN_tab hi, ok_bind,
      Vec.addN_tab hi, ok_bind, Mat.rd_full h.bmnc hk hjs0 hjs, ok_bind, Vec.addN_tab hi, ok_bind]
    cases ha : d.asym with
    | false =>
      simp only [Bool.not_false, if_true, pure_eq_ok, Nat.lt_irrefl, if_false]
      rw [Vec.tab_front hi, Vec.tab_front hi, Vec.tab_front hi, Vec.tab_front hi]
      all_goals simp only [wP, wtP, wzP, bP, acc2, ha, Bool.false_eq_true, if_false]
    | true =>
      simp only [Bool.not_true, Bool.false_eq_true, if_false, pure_eq_ok, Nat.lt_irrefl, if_true]
      rw [Vec.rdN_tab hk, ok_bind, Vec.addN_tab hi, ok_bind, Vec.addN_tab hi, ok_bind,
        Vec.addN_tab hi, ok_bind, Mat.rd_full (h.bmns ha) hk hjs0 hjs, ok_bind, Vec.addN_tab hi,
        ok_bind]
      simp only [Vec.upd_upd, Vec.upd_same]
      rw [Vec.tab_front hi, Vec.tab_front hi, Vec.tab_front hi, Vec.tab_front hi]
      all_goals simp only [wP, wtP, wzP, bP, acc2, ha, if_true]
  · simp
  · rw [← Vec.front_all, ← Vec.front_all, ← Vec.front_all, ← Vec.front_all]

end Booz
