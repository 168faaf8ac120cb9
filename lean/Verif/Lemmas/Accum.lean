import Verif.Lemmas.Surface

/-!
# harfun.f part, Boozer-angle tables and accumulation compute their closed forms
-/

namespace Booz
variable {α : Type} [Arith α]

/-- Grid data as left by `init`. -/
structure GridReady (g : Grid α) (d : Dims) : Prop where
  nu2 : g.nu2_b = some (d.nu2 : Int)
  nt : g.ntheta = some (d.nt : Int)
  nz : g.nzeta = some (d.nz : Int)
  np : g.n_theta_zeta = some (d.np : Int)
  th : g.theta_grid = Vec.tab d.np (gridT d)
  ze : g.zeta_grid = Vec.tab d.np (gridZ d)
  tr : g.trig = trigTab d.np d.mpol (d.ntor + 1) d.nfp (gridT d) (gridZ d)
  tn : g.trigNyq = trigTab d.np (d.mq + 1) (d.nq + 1) d.nfp (gridT d) (gridZ d)

theorem gridReady_initSt (d : Dims) (s : St α) : GridReady (initSt d s).grid d :=
  ⟨rfl, rfl, rfl, rfl, rfl, rfl, rfl, rfl⟩

/-- Closed form of the harfun.f part. -/
def harTab (I : Inputs α) (d : Dims) (js : Nat) : Har α :=
  ⟨Vec.tab d.np fun j => nuV I d js (gridT d j) (gridZ d j),
   Vec.tab d.np fun j => thB I d js (gridT d j) (gridZ d j),
   Vec.tab d.np fun j => zeB I d js (gridT d j) (gridZ d j),
   Vec.tab d.np fun j => dBdV I d js (gridT d j) (gridZ d j),
   Vec.tab d.np fun j => jacB I d js (gridT d j) (gridZ d j)⟩

theorem harfun_ok {I : Inputs α} {d : Dims} (h : RunReady I d) {js : Int} (hjs0 : 0 ≤ js)
    (hjs : js < d.ns) {g : Grid α} (hg : GridReady g d) :
    harfun I g js (curI I d js.toNat) (curG I d js.toNat) (rzTab I d js.toNat d.mnmax)
      (wbTab I d js.toNat d.mnq) = .ok (harTab I d js.toNat) := by
  unfold harfun rzTab wbTab
  simp only [hg.np, need_some, ok_bind, Int.toNat_natCast]
  rw [Vec.rd_full h.iota hjs0 hjs, ok_bind]
  rw [Vec.build_tab (f := fun j => nuV I d js.toNat (gridT d j) (gridZ d j)) (by
    intro i hi; rw [Vec.rdN_tab hi, ok_bind, Vec.rdN_tab hi, ok_bind]; rfl), ok_bind]
  rw [Vec.build_tab (f := fun j => thB I d js.toNat (gridT d j) (gridZ d j)) (by
    intro i hi; rw [hg.th, Vec.rdN_tab hi, ok_bind, Vec.rdN_tab hi, ok_bind, Vec.rdN_tab hi, ok_bind]
    rfl), ok_bind]
  rw [Vec.build_tab (f := fun j => zeB I d js.toNat (gridT d j) (gridZ d j)) (by
    intro i hi; rw [hg.ze, Vec.rdN_tab hi, ok_bind, Vec.rdN_tab hi, ok_bind]; rfl), ok_bind]
  rw [Vec.build_tab (f := fun j => nuZ I d js.toNat (gridT d j) (gridZ d j)) (by
    intro i hi; rw [Vec.rdN_tab hi, ok_bind, Vec.rdN_tab hi, ok_bind]; rfl), ok_bind]
  rw [Vec.build_tab (f := fun j => nuT I d js.toNat (gridT d j) (gridZ d j)) (by
    intro i hi; rw [Vec.rdN_tab hi, ok_bind, Vec.rdN_tab hi, ok_bind]; rfl), ok_bind]
  rw [Vec.build_tab (f := fun j => dBdV I d js.toNat (gridT d j) (gridZ d j)) (by
    intro i hi; rw [Vec.rdN_tab hi, ok_bind, Vec.rdN_tab hi, ok_bind, Vec.rdN_tab hi, ok_bind,
      Vec.rdN_tab hi, ok_bind]; rfl), ok_bind]
  rw [Vec.build_tab (f := fun j => jacB I d js.toNat (gridT d j) (gridZ d j)) (by
    intro i hi; rw [Vec.rdN_tab hi, ok_bind]; rfl), ok_bind]
  rfl

/-! ### Halving the end rows -/

theorem Mat.halveN_tab {r c : Nat} {f : Nat → Nat → α} {i j : Nat} (hi : i < r) (hj : j < c) :
    (Mat.tab r c f).halveN i j = .ok (Mat.tab r c (Mat.upd f i j (Arith.half * f i j))) := by
  unfold Mat.halveN
  rw [Mat.rdN_tab hi hj, ok_bind, Mat.wrN_tab hi hj]

/-- One block of rows `a, ..., a+n-1` of column `m` is halved. -/
theorem halve_block {r c m a n : Nat} {f g : Nat → Nat → α} (hm : m < c) (ha : a + n ≤ r) :
    loop n (fun k cs => halveStep m (a + k) cs) (Mat.tab r c f, Mat.tab r c g) =
      .ok (Mat.tab r c (fun i j => if j = m ∧ a ≤ i ∧ i < a + n then Arith.half * f i j else f i j),
           Mat.tab r c (fun i j => if j = m ∧ a ≤ i ∧ i < a + n then Arith.half * g i j else g i j))
      := by
  refine loop_traj' (fun k =>
    (Mat.tab r c (fun i j => if j = m ∧ a ≤ i ∧ i < a + k then Arith.half * f i j else f i j),
     Mat.tab r c (fun i j => if j = m ∧ a ≤ i ∧ i < a + k then Arith.half * g i j else g i j)))
    ?_ ?_ rfl
  · intro k hk
    unfold halveStep
    simp only
    rw [Mat.halveN_tab (by omega) hm, ok_bind, Mat.halveN_tab (by omega) hm, ok_bind, pure_eq_ok]
    congr 2
    · apply Mat.tab_congr
      intro i _ j _
      simp only [Mat.upd]
      grind
    · apply Mat.tab_congr
      intro i _ j _
      simp only [Mat.upd]
      grind
  · simp only [Prod.mk.injEq]
    constructor <;>
    · apply Mat.tab_congr
      intro i _ j _
      have : ¬ (j = m ∧ a ≤ i ∧ i < a + 0) := by omega
      simp only [this, if_false]

theorem halveEnds_ok {d : Dims} (hf : d.np < 2147483648) (ha : d.asym = false) {f g : Nat → Nat → α} :
    halveEnds (d.nz : Int) (d.nu2 : Int) (d.M : Int)
        (Mat.tab d.np (d.M + 1) f, Mat.tab d.np (d.M + 1) g) =
      .ok (Mat.tab d.np (d.M + 1) (fun j m => wt d j (f j m)),
           Mat.tab d.np (d.M + 1) (fun j m => wt d j (g j m))) := by
  have hnp : d.np = d.nu2 * d.nz := by simp [Dims.np, Dims.nu3, ha]
  have hnu2 : 2 ≤ d.nu2 := by unfold Dims.nu2; omega
  have hsplit : d.nu2 * d.nz = (d.nu2 - 1) * d.nz + d.nz := by
    obtain ⟨k, hk⟩ := Nat.exists_eq_add_of_le hnu2
    rw [hk, show 2 + k - 1 = k + 1 by omega]; ring
  have hpos := nz_pos d
  have hle : d.nz ≤ (d.nu2 - 1) * d.nz := Nat.le_mul_of_pos_left _ (by omega)
  have e1 : (d.nz : Int) * ((d.nu2 : Int) - 1) = (((d.nu2 - 1) * d.nz : Nat) : Int) := by
    push_cast [Nat.cast_sub (show 1 ≤ d.nu2 by omega)]; ring
  unfold halveEnds
  rw [e1]
  generalize hK : (d.nu2 - 1) * d.nz = K at *
  rw [i32_ok (by unfold FitsInt; omega), ok_bind, i32_ok (by unfold FitsInt; omega), ok_bind,
    i32_ok (by unfold FitsInt; omega), ok_bind]
  have e2 : ((K : Int) + 1 - 1 + d.nz - ((K : Int) + 1 - 1)).toNat = d.nz := by omega
  have e3 : ((K : Int) + 1 - 1).toNat = K := by omega
  have e4 : ((d.M : Int) + 1).toNat = d.M + 1 := by omega
  simp only [e2, e3, e4, Int.toNat_natCast]
  refine loop_traj' (fun c =>
    (Mat.tab d.np (d.M + 1) (fun j m => if m < c then wt d j (f j m) else f j m),
     Mat.tab d.np (d.M + 1) (fun j m => if m < c then wt d j (g j m) else g j m))) ?_ ?_ ?_
  · intro c hc
    have b1 := halve_block (α := α) (r := d.np) (c := d.M + 1) (m := c) (a := 0) (n := d.nz)
      (f := fun j m => if m < c then wt d j (f j m) else f j m)
      (g := fun j m => if m < c then wt d j (g j m) else g j m) hc (by omega)
    simp only [Nat.zero_add] at b1
    have b1' : loop d.nz (halveStep c)
        (Mat.tab d.np (d.M + 1) (fun j m => if m < c then wt d j (f j m) else f j m),
         Mat.tab d.np (d.M + 1) (fun j m => if m < c then wt d j (g j m) else g j m)) = _ := b1
    rw [b1', ok_bind, halve_block hc (by omega)]
    congr 2
    · apply Mat.tab_congr
      intro j hj m hm
      simp only [wt, ha, hK]
      grind
    · apply Mat.tab_congr
      intro j hj m hm
      simp only [wt, ha, hK]
      grind
  · simp
  · simp only [Prod.mk.injEq]
    constructor
    · apply Mat.tab_congr; intro j hj m hm; simp [hm]
    · apply Mat.tab_congr; intro j hj m hm; simp [hm]

theorem boozerTrig_ok {I : Inputs α} {d : Dims} (h : RunReady I d) {js : Nat} {g : Grid α}
    (hg : GridReady g d) : boozerTrig I g (harTab I d js) = .ok (boozTab I d js) := by
  have hM := h.mboz_ge
  have f1 := h.fit_theta
  have f2 := h.fit_zeta
  have hnt : d.nt = 2 * (2 * d.M + 1) := rfl
  unfold boozerTrig harTab
  simp only [hg.np, h.asym, h.nfp, h.mboz, h.nboz, hg.nz, hg.nu2, need_some, ok_bind]
  have k1 : i32 ((d.M : Int) + 1) = .ok ((d.M + 1 : Nat) : Int) := by
    rw [i32_ok (by unfold FitsInt; omega)]; push_cast; rfl
  have k2 : i32 ((d.N : Int) + 1) = .ok ((d.N + 1 : Nat) : Int) := by
    rw [i32_ok (by unfold FitsInt; omega)]; push_cast; rfl
  rw [k1, ok_bind, k2, ok_bind, zeroTrig_ok, ok_bind,
    trigTab_of_initTrig (by omega) (by push_cast; rfl) (by omega) (by push_cast; rfl), ok_bind]
  unfold trigTab boozTab
  cases ha : d.asym with
  | false =>
    simp only [Bool.not_false, if_true]
    rw [halveEnds_ok h.fit_pts ha, ok_bind, pure_eq_ok]
  | true =>
    have : ∀ j (x : α), wt d j x = x := by intro j x; simp [wt, ha]
    simp only [this]
    rfl

theorem fourierFactor0_ok {I : Inputs α} {d : Dims} (h : RunReady I d) {g : Grid α}
    (hg : GridReady g d) : fourierFactor0 I g = .ok (fac0 (α := α) d) := by
  have f3 := h.fit_pts
  unfold fourierFactor0
  simp only [hg.nz, h.asym, hg.nt, hg.nu2, need_some, ok_bind, fac0]
  cases ha : d.asym with
  | true =>
    have hnp : d.np = d.nt * d.nz := by simp [Dims.np, Dims.nu3, ha]
    have : FitsInt ((d.nt : Int) * d.nz) := by
      have e : (d.nt : Int) * d.nz = ((d.nt * d.nz : Nat) : Int) := by push_cast; rfl
      rw [e]; unfold FitsInt; omega
    simp [i32_ok this]
  | false =>
    have hnp : d.np = d.nu2 * d.nz := by simp [Dims.np, Dims.nu3, ha]
    have hnu2 : 1 ≤ d.nu2 := by unfold Dims.nu2; omega
    have : FitsInt (((d.nu2 : Int) - 1) * d.nz) := by
      have e : ((d.nu2 : Int) - 1) * d.nz = (((d.nu2 - 1) * d.nz : Nat) : Int) := by
        push_cast [Nat.cast_sub hnu2]; rfl
      have := Nat.mul_le_mul_right d.nz (Nat.sub_le d.nu2 1)
      rw [e]; unfold FitsInt; omega
    simp [i32_ok this]

/-- Closed form of everything the accumulation reads. -/
def localTab (I : Inputs α) (d : Dims) (js : Nat) : Local α :=
  ⟨rzTab I d js d.mnmax, wbTab I d js d.mnq, harTab I d js, boozTab I d js, fac0 d⟩

theorem localWork_ok {s : St α} {d : Dims} (h : RunReady s.inp d) {js : Int} (hjs0 : 0 ≤ js)
    (hjs : js < d.ns) {g : Grid α} (hg : GridReady g d) {wmns wmnc : Vec α}
    (hw1 : wmns = Vec.tab d.mnq (wS s.inp js.toNat))
    (hw2 : wmnc = if d.asym then Vec.tab d.mnq (wC s.inp js.toNat) else #[]) :
    localWork s.inp g js (curI s.inp d js.toNat) (curG s.inp d js.toNat) wmns wmnc =
      .ok (localTab s.inp d js.toNat) := by
  unfold localWork
  rw [vcoordsRZ_ok h hjs0 hjs hg.np hg.tr, ok_bind, vcoordsW_ok h hjs0 hjs hg.np hg.tn hw1 hw2,
    ok_bind, harfun_ok h hjs0 hjs hg, ok_bind, boozerTrig_ok h hg, ok_bind,
    fourierFactor0_ok h hg, ok_bind]
  rfl

/-! ### Accumulation of the output spectra -/

theorem boozTab_cos {I : Inputs α} {d : Dims} {js : Nat} {j : Nat} {m n absn : Int}
    (hj : j < d.np) (hm0 : 0 ≤ m) (hm : m < d.M + 1) (ha : absn = ((n.natAbs / d.nfp : Nat) : Int))
    (hn : n.natAbs / d.nfp < d.N + 1) :
    trigCos (boozTab I d js) j m absn (signOf n) = .ok
      (wt d j (cosT (thB I d js (gridT d j) (gridZ d j)) m.toNat) *
          cosT (ofInt (d.nfp : Int) * zeB I d js (gridT d j) (gridZ d j)) (n.natAbs / d.nfp) +
        wt d j (sinT (thB I d js (gridT d j) (gridZ d j)) m.toNat) *
          sinT (ofInt (d.nfp : Int) * zeB I d js (gridT d j) (gridZ d j)) (n.natAbs / d.nfp) *
          ofInt (signOf n)) := by
  unfold trigCos boozTab
  generalize n.natAbs / d.nfp = a at *
  subst ha
  simp only
  rw [Mat.rd_tab (by omega) (by omega) hm0 (by omega), ok_bind,
    Mat.rd_tab (by omega) (by omega) (by omega) (by omega), ok_bind,
    Mat.rd_tab (by omega) (by omega) hm0 (by omega), ok_bind,
    Mat.rd_tab (by omega) (by omega) (by omega) (by omega), ok_bind]
  simp only [Int.toNat_natCast, pure_eq_ok]

theorem boozTab_sin {I : Inputs α} {d : Dims} {js : Nat} {j : Nat} {m n absn : Int}
    (hj : j < d.np) (hm0 : 0 ≤ m) (hm : m < d.M + 1) (ha : absn = ((n.natAbs / d.nfp : Nat) : Int))
    (hn : n.natAbs / d.nfp < d.N + 1) :
    trigSin (boozTab I d js) j m absn (signOf n) = .ok
      (wt d j (sinT (thB I d js (gridT d j) (gridZ d j)) m.toNat) *
          cosT (ofInt (d.nfp : Int) * zeB I d js (gridT d j) (gridZ d j)) (n.natAbs / d.nfp) -
        wt d j (cosT (thB I d js (gridT d j) (gridZ d j)) m.toNat) *
          sinT (ofInt (d.nfp : Int) * zeB I d js (gridT d j) (gridZ d j)) (n.natAbs / d.nfp) *
          ofInt (signOf n)) := by
  unfold trigSin boozTab
  generalize n.natAbs / d.nfp = a at *
  subst ha
  simp only
  rw [Mat.rd_tab (by omega) (by omega) hm0 (by omega), ok_bind,
    Mat.rd_tab (by omega) (by omega) (by omega) (by omega), ok_bind,
    Mat.rd_tab (by omega) (by omega) hm0 (by omega), ok_bind,
    Mat.rd_tab (by omega) (by omega) (by omega) (by omega), ok_bind]
  simp only [Int.toNat_natCast, pure_eq_ok]

/-- The spectra while mode `k` of surface `b` is being accumulated: `i` grid points done. -/
def partialCol (I : Inputs α) (d : Dims) (js b k i : Nat) (F : SpecF α) : SpecF α :=
  let u (f : Nat → Nat → α) (T : Nat → Nat → α) (v : α → α → α) : Nat → Nat → α :=
    Mat.upd f k b (foldAdd (f k b) (fun j => T k j * v (gridT d j) (gridZ d j)) i)
  { bc := u F.bc (tC I d js) (bP I d js d.mnq)
    rc := u F.rc (tC I d js) (rP I d js d.mnmax)
    zs := u F.zs (tS I d js) (zP I d js d.mnmax)
    ns := u F.ns (tS I d js) (nuV I d js)
    gc := u F.gc (tC I d js) (jacB I d js)
    bs := u F.bs (tS I d js) (bP I d js d.mnq)
    rs := u F.rs (tS I d js) (rP I d js d.mnmax)
    zc := u F.zc (tC I d js) (zP I d js d.mnmax)
    nc := u F.nc (tC I d js) (nuV I d js)
    gs := u F.gs (tS I d js) (jacB I d js) }

/-- The spectra when the first `K` modes of surface `b` are done. -/
def doneCols (I : Inputs α) (d : Dims) (js b K : Nat) (F : SpecF α) : SpecF α :=
  let u (f : Nat → Nat → α) (T : Nat → Nat → α) (v : α → α → α) : Nat → Nat → α :=
    fun k b' => if k < K ∧ b' = b then coefF d T v (f k b') k else f k b'
  { bc := u F.bc (tC I d js) (bP I d js d.mnq)
    rc := u F.rc (tC I d js) (rP I d js d.mnmax)
    zs := u F.zs (tS I d js) (zP I d js d.mnmax)
    ns := u F.ns (tS I d js) (nuV I d js)
    gc := u F.gc (tC I d js) (jacB I d js)
    bs := u F.bs (tS I d js) (bP I d js d.mnq)
    rs := u F.rs (tS I d js) (rP I d js d.mnmax)
    zc := u F.zc (tC I d js) (zP I d js d.mnmax)
    nc := u F.nc (tC I d js) (nuV I d js)
    gs := u F.gs (tS I d js) (jacB I d js) }

theorem partialCol_zero (I : Inputs α) (d : Dims) (js b k : Nat) (F : SpecF α) :
    partialCol I d js b k 0 F = F := by
  simp only [partialCol, foldAdd, Mat.upd_self]

theorem partialCol_np (I : Inputs α) (d : Dims) (js b k : Nat) (F : SpecF α) :
    partialCol I d js b k d.np (doneCols I d js b k F) = doneCols I d js b (k + 1) F := by
  have key : ∀ (f T : Nat → Nat → α) (v : α → α → α),
      Mat.upd (fun k' b' => if k' < k ∧ b' = b then coefF d T v (f k' b') k' else f k' b') k b
        (foldAdd (if k < k ∧ b = b then coefF d T v (f k b) k else f k b)
          (fun j => T k j * v (gridT d j) (gridZ d j)) d.np) =
      fun k' b' => if k' < k + 1 ∧ b' = b then coefF d T v (f k' b') k' else f k' b' := by
    intro f T v
    funext k' b'
    simp only [Mat.upd]
    by_cases h1 : k' = k ∧ b' = b
    · obtain ⟨rfl, rfl⟩ := h1
      simp [coefF]
    · rw [if_neg h1]
      have : (k' < k + 1 ∧ b' = b) ↔ (k' < k ∧ b' = b) := by omega
      simp only [this]
  unfold partialCol doneCols
  rw [SpecF.mk.injEq]
  exact ⟨key _ _ _, key _ _ _, key _ _ _, key _ _ _, key _ _ _, key _ _ _, key _ _ _, key _ _ _,
    key _ _ _, key _ _ _⟩

theorem doneCols_zero (I : Inputs α) (d : Dims) (js b : Nat) (F : SpecF α) :
    doneCols I d js b 0 F = F := by
  simp [doneCols]

theorem specTab_congr {d : Dims} {F G : SpecF α} {o : Spectra α}
    (hbc : ∀ k, k < d.nmodes → ∀ b, b < d.nsb → F.bc k b = G.bc k b)
    (hrc : ∀ k, k < d.nmodes → ∀ b, b < d.nsb → F.rc k b = G.rc k b)
    (hzs : ∀ k, k < d.nmodes → ∀ b, b < d.nsb → F.zs k b = G.zs k b)
    (hns : ∀ k, k < d.nmodes → ∀ b, b < d.nsb → F.ns k b = G.ns k b)
    (hgc : ∀ k, k < d.nmodes → ∀ b, b < d.nsb → F.gc k b = G.gc k b)
    (hbs : ∀ k, k < d.nmodes → ∀ b, b < d.nsb → F.bs k b = G.bs k b)
    (hrs : ∀ k, k < d.nmodes → ∀ b, b < d.nsb → F.rs k b = G.rs k b)
    (hzc : ∀ k, k < d.nmodes → ∀ b, b < d.nsb → F.zc k b = G.zc k b)
    (hnc : ∀ k, k < d.nmodes → ∀ b, b < d.nsb → F.nc k b = G.nc k b)
    (hgs : ∀ k, k < d.nmodes → ∀ b, b < d.nsb → F.gs k b = G.gs k b) :
    specTab d F o = specTab d G o := by
  unfold specTab
  rw [Mat.tab_congr hbc, Mat.tab_congr hrc, Mat.tab_congr hzs, Mat.tab_congr hns,
    Mat.tab_congr hgc, Mat.tab_congr hbs, Mat.tab_congr hrs, Mat.tab_congr hzc, Mat.tab_congr hnc,
    Mat.tab_congr hgs]

theorem doneCols_all (I : Inputs α) (d : Dims) (js b : Nat) (F : SpecF α) (o : Spectra α) :
    specTab d (doneCols I d js b d.nmodes F) o = specTab d (addCol I d js b F) o := by
  apply specTab_congr <;>
  · intro k hk b' hb'
    simp [doneCols, addCol, hk]

theorem accumStep_ok {I : Inputs α} {d : Dims} {js b k i : Nat} {F : SpecF α} {o : Spectra α}
    (hk : k < d.nmodes) (hb : b < d.nsb) (hi : i < d.np) {m n absn : Int} {ff : α}
    (hm : m = (modeM d.N k : Int)) (hmM : modeM d.N k < d.M + 1) (hn : n = modeN d.N k * d.nfp)
    (ha : absn = ((n.natAbs / d.nfp : Nat) : Int)) (hn1 : n.natAbs / d.nfp < d.N + 1)
    (hff : ff = facK d k) :
    accumStep d.asym (localTab I d js) b k m absn (signOf n) ff i
        (specTab d (partialCol I d js b k i F) o) =
      .ok (specTab d (partialCol I d js b k (i + 1) F) o) := by
  unfold accumStep
  simp only [localTab]
  rw [boozTab_cos hi (by omega) (by omega) ha hn1, ok_bind]
  simp only [harTab, rzTab, wbTab]
  rw [Vec.rdN_tab hi, ok_bind, boozTab_sin hi (by omega) (by omega) ha hn1, ok_bind,
    Vec.rdN_tab hi, ok_bind, Vec.rdN_tab hi, ok_bind, Vec.rdN_tab hi, ok_bind, Vec.rdN_tab hi,
    ok_bind, Vec.rdN_tab hi, ok_bind]
  have hmt : m.toNat = modeM d.N k := by omega
  subst hn
  cases hasym : d.asym with
  | false =>
    simp only [specTab, hasym, partialCol, Bool.false_eq_true, if_false, Bool.not_false, if_true]
    rw [Mat.addN_tab hk hb, ok_bind, Mat.addN_tab hk hb, ok_bind, Mat.addN_tab hk hb, ok_bind,
      Mat.addN_tab hk hb, ok_bind, Mat.addN_tab hk hb, ok_bind]
    simp only [Mat.upd_upd, Mat.upd_same, foldAdd, pure_eq_ok, tC, tS, hmt, hff]
  | true =>
    simp only [specTab, hasym, partialCol, Bool.false_eq_true, if_false, Bool.not_true, if_true]
    rw [Mat.addN_tab hk hb, ok_bind, Mat.addN_tab hk hb, ok_bind, Mat.addN_tab hk hb, ok_bind,
      Mat.addN_tab hk hb, ok_bind, Mat.addN_tab hk hb, ok_bind, Mat.addN_tab hk hb, ok_bind,
      Mat.addN_tab hk hb, ok_bind, Mat.addN_tab hk hb, ok_bind, Mat.addN_tab hk hb, ok_bind,
      Mat.addN_tab hk hb, ok_bind]
    simp only [Mat.upd_upd, Mat.upd_same, foldAdd, pure_eq_ok, tC, tS, hmt, hff]

theorem modeM_lt {d : Dims} (hM : 1 ≤ d.M) {k : Nat} (hk : k < d.nmodes) : modeM d.N k < d.M := by
  unfold modeM
  rw [Nat.div_lt_iff_lt_mul (by omega)]
  have : d.nmodes + d.N = d.M * (2 * d.N + 1) := by
    unfold Dims.nmodes
    obtain ⟨q, hq⟩ := Nat.exists_eq_add_of_le hM
    rw [hq, show 1 + q - 1 = q by omega]; ring
  omega

theorem modeN_natAbs (d : Dims) (h : 1 ≤ d.nfp) (k : Nat) :
    (modeN d.N k * d.nfp).natAbs / d.nfp = (modeN d.N k).natAbs := by
  rw [Int.natAbs_mul, Int.natAbs_natCast, Nat.mul_div_cancel _ (by omega)]

theorem modeN_natAbs_le (N k : Nat) : (modeN N k).natAbs ≤ N := by
  have := modeN_bound N k; omega

theorem modeN_int {I : Inputs α} {d : Dims} (h : RunReady I d) (k : Nat) :
    (modeN d.N k * d.nfp).natAbs < 2147483648 := by
  rw [Int.natAbs_mul, Int.natAbs_natCast]
  have h1 := modeN_natAbs_le d.N k
  have h2 := nz_le d
  have h3 : (modeN d.N k).natAbs * d.nfp ≤ d.nz * d.nfp := Nat.mul_le_mul_right _ (by omega)
  have h4 := h.fit_nfp
  rw [Nat.mul_comm d.nz] at h3
  omega

theorem accum_ok {I : Inputs α} {d : Dims} (h : RunReady I d) {g : Grid α} (hg : GridReady g d)
    {js b : Nat} (hb : b < d.nsb) {F : SpecF α} {o : Spectra α} :
    accum I g (localTab I d js) (some (d.nmodes : Int))
        (Vec.tab d.nmodes fun j => (modeM d.N j : Int))
        (Vec.tab d.nmodes fun j => modeN d.N j * d.nfp) b (specTab d F o) =
      .ok (specTab d (addCol I d js b F) o) := by
  unfold accum
  simp only [hg.np, h.asym, h.nfp, need_some, ok_bind, Int.toNat_natCast]
  refine loop_traj' (fun K => specTab d (doneCols I d js b K F) o) ?_ ?_ ?_
  · intro k hk
    have hM := modeM_lt h.mboz_ge hk
    have hn1 : (modeN d.N k * d.nfp).natAbs / d.nfp < d.N + 1 := by
      rw [modeN_natAbs d h.nfp_pos]
      have := modeN_natAbs_le d.N k
      omega
    rw [Vec.rdN_tab hk, ok_bind, Vec.rdN_tab hk, ok_bind, absNOf_ok h.nfp_pos (modeN_int h k),
      ok_bind]
    refine loop_traj' (fun i => specTab d (partialCol I d js b k i (doneCols I d js b k F)) o) ?_ ?_ ?_
    · intro i hi
      refine accumStep_ok (n := modeN d.N k * d.nfp) hk hb hi rfl (by omega) rfl rfl hn1 ?_
      simp only [facK, localTab]
    · rw [partialCol_zero]
    · rw [partialCol_np]
  · rw [doneCols_zero]
  · rw [doneCols_all]

end Booz
