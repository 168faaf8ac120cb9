import Verif.Closed
import Mathlib.Tactic.Linarith
import Mathlib.Tactic.Ring

/-!
# `init` computes its closed form
-/

namespace Booz
variable {α : Type} [Arith α]

theorem trigTab_of_initTrig {np cm cn nfp : Nat} {mmax nmax : Int} {θ ζ : Nat → α}
    (hcm : 2 ≤ cm) (hmm : mmax + 1 = cm) (hcn : 1 ≤ cn) (hnn : nmax + 1 = cn) :
    initTrig (Vec.tab np θ) (Vec.tab np ζ)
        ⟨zeroMat np cm, zeroMat np cm, zeroMat np cn, zeroMat np cn⟩ mmax nmax (nfp : Int) =
      .ok (trigTab np cm cn nfp θ ζ) := by
  unfold zeroMat
  rw [initTrig_ok (Nat.le_refl np) hcm (by omega) hcn (by omega) (Nat.le_refl np)]
  simp only [trigTab]
  congr 2
  all_goals
    apply Mat.tab_congr
    intro j hj m hm
  · have : j < np ∧ (m ≤ 1 ∨ (m : Int) ≤ mmax) := by omega
    rw [if_pos this]; rfl
  · have : j < np ∧ (m ≤ 1 ∨ (m : Int) ≤ mmax) := by omega
    rw [if_pos this]; rfl
  · have : j < np ∧ (m = 0 ∨ (m : Int) ≤ nmax) := by omega
    rw [if_pos this]; rfl
  · have : j < np ∧ (m = 0 ∨ (m : Int) ≤ nmax) := by omega
    rw [if_pos this]; rfl

theorem zeroTrig_ok {np cm cn : Nat} :
    zeroTrig (α := α) (np : Int) (cm : Int) (cn : Int) =
      .ok ⟨zeroMat np cm, zeroMat np cm, zeroMat np cn, zeroMat np cn⟩ := by
  unfold zeroTrig zeroMat
  rw [Mat.setZero_tab (by omega) (by omega), ok_bind, ok_bind,
    Mat.setZero_tab (by omega) (by omega)]
  simp

/-- First index of poloidal mode `m` in the mode list. -/
def modeOff (N m : Nat) : Nat := if m = 0 then 0 else (m - 1) * (2 * N + 1) + N + 1

theorem modeOff_succ (N m : Nat) : modeOff N (m + 1) = m * (2 * N + 1) + N + 1 := by
  simp [modeOff]

theorem modeOff_add (N m : Nat) (hm : m ≠ 0) : modeOff N m + N = m * (2 * N + 1) := by
  obtain ⟨k, rfl⟩ := Nat.exists_eq_succ_of_ne_zero hm
  rw [Nat.succ_eq_add_one, modeOff_succ]; ring

theorem modeM_off {N m k : Nat} (hk : if m = 0 then k ≤ N else k < 2 * N + 1) :
    modeM N (modeOff N m + k) = m := by
  unfold modeM
  by_cases hm : m = 0
  · subst hm; simp only [if_true] at hk
    simp only [modeOff, if_true]
    exact Nat.div_eq_of_lt (by omega)
  · rw [if_neg hm] at hk
    have : modeOff N m + k + N = k + m * (2 * N + 1) := by rw [← modeOff_add N m hm]; ring
    rw [this, Nat.add_mul_div_right _ _ (by omega), Nat.div_eq_of_lt hk]; omega

theorem modeN_off {N m k : Nat} (hk : if m = 0 then k ≤ N else k < 2 * N + 1) :
    modeN N (modeOff N m + k) = (if m = 0 then 0 else -(N : Int)) + k := by
  unfold modeN
  by_cases hm : m = 0
  · subst hm; simp only [if_true] at hk
    simp only [modeOff, if_true]
    rw [Nat.mod_eq_of_lt (by omega)]
    omega
  · rw [if_neg hm] at hk ⊢
    have : modeOff N m + k + N = k + m * (2 * N + 1) := by rw [← modeOff_add N m hm]; ring
    rw [this, Nat.add_mul_mod_self_right, Nat.mod_eq_of_lt hk]; omega

theorem modeN_bound (N j : Nat) : -(N : Int) ≤ modeN N j ∧ modeN N j ≤ N := by
  unfold modeN
  have := Nat.mod_lt (j + N) (show 0 < 2 * N + 1 by omega)
  omega

theorem modeOff_le {N m M : Nat} (h : m ≤ M) : modeOff N m ≤ modeOff N M := by
  unfold modeOff
  split
  · omega
  · split
    · omega
    · have : (m - 1) * (2 * N + 1) ≤ (M - 1) * (2 * N + 1) := Nat.mul_le_mul_right _ (by omega)
      omega

theorem modeList_ok {M N nfp K : Nat} (hK : modeOff N M ≤ K)
    (hfit : ∀ n : Int, -(N : Int) ≤ n → n ≤ N → FitsInt (n * nfp)) :
    modeList (M : Int) (N : Int) (some (nfp : Int)) (Vec.tab K fun _ => 0) (Vec.tab K fun _ => 0) =
      .ok (Vec.tab K fun j => if j < modeOff N M then (modeM N j : Int) else 0,
           Vec.tab K fun j => if j < modeOff N M then modeN N j * nfp else 0, modeOff N M) := by
  unfold modeList
  rw [Int.toNat_natCast]
  refine loop_traj' (fun m =>
    (Vec.tab K fun j => if j < modeOff N m then (modeM N j : Int) else 0,
     Vec.tab K fun j => if j < modeOff N m then modeN N j * nfp else 0, modeOff N m)) ?_ ?_ rfl
  · intro m hm
    have hoff := modeOff_le (N := N) (show m + 1 ≤ M from hm)
    have hlen : (((N : Int) - (if m = 0 then (0 : Int) else -(N : Int)) + 1).toNat) =
        modeOff N (m + 1) - modeOff N m := by
      rw [modeOff_succ]
      by_cases h0 : m = 0
      · subst h0; simp [modeOff]
      · have := modeOff_add N m h0
        simp only [h0, if_false]; omega
    simp only [hlen]
    have hle : modeOff N m ≤ modeOff N (m + 1) := modeOff_le (by omega)
    refine loop_traj' (fun k =>
      (Vec.tab K fun j => if j < modeOff N m + k then (modeM N j : Int) else 0,
       Vec.tab K fun j => if j < modeOff N m + k then modeN N j * nfp else 0, modeOff N m + k))
      ?_ rfl ?_
    · intro k hk
      have hk' : if m = 0 then k ≤ N else k < 2 * N + 1 := by
        rw [modeOff_succ] at hk
        by_cases h0 : m = 0
        · subst h0; simp [modeOff] at hk ⊢; omega
        · have := modeOff_add N m h0
          simp only [h0, if_false]; omega
      have hb := modeN_bound N (modeOff N m + k)
      have hn := modeN_off (N := N) hk'
      simp only [modeStep, need_some, ok_bind]
      rw [Vec.wrN_tab (by omega), ok_bind, ← hn, i32_ok (hfit _ hb.1 hb.2), ok_bind,
        Vec.wrN_tab (by omega), ok_bind, pure_eq_ok]
      congr 2
      · apply Vec.tab_congr
        intro i hi
        simp only [Vec.upd]
        have := modeM_off (N := N) hk'
        grind
      · congr 1
        apply Vec.tab_congr
        intro i hi
        simp only [Vec.upd]
        grind
    · have : modeOff N m + (modeOff N (m + 1) - modeOff N m) = modeOff N (m + 1) := by omega
      rw [this]
  · simp [modeOff]

theorem gridLoops_ok {nu nz : Nat} (dt dz : α) (z0 : α) :
    gridLoops (nu : Int) (nz : Int) dt dz (Vec.tab (nu * nz) fun _ => z0)
        (Vec.tab (nu * nz) fun _ => z0) =
      .ok (Vec.tab (nu * nz) fun j => ofInt (j / nz : Nat) * dt,
           Vec.tab (nu * nz) fun j => ofInt (j % nz : Nat) * dz, nu * nz) := by
  unfold gridLoops
  rw [Int.toNat_natCast, Int.toNat_natCast]
  refine loop_traj' (fun a =>
    (Vec.tab (nu * nz) fun j => if j < a * nz then ofInt (j / nz : Nat) * dt else z0,
     Vec.tab (nu * nz) fun j => if j < a * nz then ofInt (j % nz : Nat) * dz else z0, a * nz))
    ?_ ?_ ?_
  · intro a ha
    have hlt : a * nz + nz ≤ nu * nz := by
      have := Nat.mul_le_mul_right nz (show a + 1 ≤ nu from ha)
      rw [Nat.add_mul, Nat.one_mul] at this; exact this
    refine loop_traj' (fun b =>
      (Vec.tab (nu * nz) fun j => if j < a * nz + b then ofInt (j / nz : Nat) * dt else z0,
       Vec.tab (nu * nz) fun j => if j < a * nz + b then ofInt (j % nz : Nat) * dz else z0,
       a * nz + b)) ?_ rfl ?_
    · intro b hb
      simp only [gridStep]
      rw [Vec.wrN_tab (by omega), ok_bind, Vec.wrN_tab (by omega), ok_bind, pure_eq_ok]
      have e1 : (a * nz + b) / nz = a := Mat.idx_div hb
      have e2 : (a * nz + b) % nz = b := Mat.idx_mod hb
      congr 2
      · apply Vec.tab_congr
        intro i hi
        simp only [Vec.upd]
        by_cases h1 : i = a * nz + b
        · subst h1
          have : a * nz + b < a * nz + (b + 1) := by omega
          simp only [if_true, this, e1]
        · have : (i < a * nz + (b + 1)) ↔ (i < a * nz + b) := by omega
          simp only [h1, if_false, this]
      · congr 1
        apply Vec.tab_congr
        intro i hi
        simp only [Vec.upd]
        by_cases h1 : i = a * nz + b
        · subst h1
          have : a * nz + b < a * nz + (b + 1) := by omega
          simp only [if_true, this, e2]
        · have : (i < a * nz + (b + 1)) ↔ (i < a * nz + b) := by omega
          simp only [h1, if_false, this]
    · have : (a + 1) * nz = a * nz + nz := by rw [Nat.add_mul, Nat.one_mul]
      rw [this]
  · simp
  · simp only [Prod.mk.injEq, and_true]
    constructor
    · apply Vec.tab_congr
      intro i hi; simp [hi]
    · apply Vec.tab_congr
      intro i hi; simp [hi]

theorem nz_le (d : Dims) : 2 * d.N + 1 ≤ d.nz := by unfold Dims.nz; split <;> omega
theorem nz_pos (d : Dims) : 1 ≤ d.nz := by have := nz_le d; omega
theorem nu2_le_nu3 (d : Dims) (h : 1 ≤ d.M) : d.nu2 ≤ d.nu3 := by
  unfold Dims.nu3 Dims.nu2 Dims.nt; split <;> omega
theorem nmodes_lt (d : Dims) (h : 1 ≤ d.M) : d.nmodes < d.np := by
  have h1 := nz_le d
  have h2 := nu2_le_nu3 d h
  have h3 : d.nu2 * (2 * d.N + 1) ≤ d.nu3 * d.nz := Nat.mul_le_mul h2 h1
  have h4 : d.nmodes + (2 * d.N + 1) * (d.nu2 - (d.M - 1)) = d.nu2 * (2 * d.N + 1) + (d.N + 1) := by
    unfold Dims.nmodes Dims.nu2
    obtain ⟨k, hk⟩ := Nat.exists_eq_add_of_le h
    rw [hk]
    have : 2 * (1 + k) + 2 - (1 + k - 1) = k + 4 := by omega
    rw [this, show 1 + k - 1 = k by omega]; ring
  have h5 : (2 * d.N + 1) * 2 ≤ (2 * d.N + 1) * (d.nu2 - (d.M - 1)) :=
    Nat.mul_le_mul_left _ (by unfold Dims.nu2; omega)
  unfold Dims.np
  omega

theorem modeOff_nmodes (d : Dims) (h : 1 ≤ d.M) : modeOff d.N d.M = d.nmodes := by
  unfold modeOff Dims.nmodes
  have : d.M ≠ 0 := by omega
  rw [if_neg this, Nat.mul_comm]

theorem nu3_eq (d : Dims) : 2 * ((d.nu2 : Int) - 1) = d.nt := by
  unfold Dims.nu2 Dims.nt; omega

/-- The part of the state set by `initGrid`. -/
def gridSt (d : Dims) (s : St α) : St α :=
  { s with
    grid := { s.grid with
      nu2_b := some (d.nu2 : Int), nu3_b := some (d.nu3 : Int), ntheta := some (d.nt : Int),
      nzeta := some (d.nz : Int), d_theta := some (dTheta d), d_zeta := some (dZeta d),
      n_theta_zeta := some (d.np : Int), theta_grid := Vec.tab d.np (gridT d),
      zeta_grid := Vec.tab d.np (gridZ d) }
    out := { s.out with
      mnboz := some (d.nmodes : Int), xm_b := Vec.tab d.nmodes fun j => (modeM d.N j : Int),
      xn_b := Vec.tab d.nmodes fun j => modeN d.N j * d.nfp } }

theorem initGrid_ok (dbg : Bool) {s : St α} {d : Dims} (h : RunReady s.inp d) :
    initGrid dbg s = .ok (gridSt d s) := by
  have hM := h.mboz_ge
  have f1 := h.fit_theta
  have f2 := h.fit_zeta
  have f3 := h.fit_pts
  have f4 := h.fit_nfp
  have hnm := nmodes_lt d hM
  have hnz := nz_le d
  have hK : ((2 * d.N + 1 : Nat) : Int) * ((d.M : Int) - 1) = ((2 * d.N + 1) * (d.M - 1) : Nat) := by
    push_cast [Nat.cast_sub hM]; ring
  have hnt : (d.nt : Int) = 2 * (2 * d.M + 1) := by unfold Dims.nt; push_cast; ring
  have hnmodes : d.nmodes = (2 * d.N + 1) * (d.M - 1) + d.N + 1 := rfl
  have hnt' : d.nt = 2 * (2 * d.M + 1) := rfl
  have hnfp := h.nfp_pos
  have hfit : ∀ n : Int, -(d.N : Int) ≤ n → n ≤ d.N → FitsInt (n * d.nfp) := by
    intro n h1 h2
    have : (d.nfp * (2 * d.N + 1) : Int) ≤ d.nfp * d.nz := by
      have := Nat.mul_le_mul_left d.nfp hnz
      exact_mod_cast this
    have h3 : ((d.nfp * d.nz : Nat) : Int) < 2147483648 := by exact_mod_cast f4
    push_cast at h3
    unfold FitsInt
    constructor <;> nlinarith
  unfold initGrid
  simp only [h.mboz, h.nboz, h.nfp, h.asym, need_some]
  rw [i32_ok (x := 2 * (d.M : Int)) (by unfold FitsInt; omega), ok_bind,
    i32_ok (x := 2 * (d.M : Int) + 1) (by unfold FitsInt; omega), ok_bind,
    i32_ok (x := 2 * (2 * (d.M : Int) + 1)) (by unfold FitsInt; omega), ok_bind,
    i32_ok (x := 2 * (d.N : Int)) (by unfold FitsInt; omega), ok_bind,
    i32_ok (x := 2 * (d.N : Int) + 1) (by unfold FitsInt; omega), ok_bind,
    i32_ok (x := 2 * (2 * (d.N : Int) + 1)) (by unfold FitsInt; omega), ok_bind]
  have e1 : (2 * (2 * (d.M : Int) + 1)).tdiv 2 + 1 = (d.nu2 : Int) := by
    rw [Int.tdiv_eq_ediv_of_nonneg (by omega)]
    unfold Dims.nu2; omega
  rw [e1, i32_ok (x := (d.nu2 : Int)) (by unfold Dims.nu2 FitsInt; omega), ok_bind,
    i32_ok (x := (d.M : Int) - 1) (by unfold FitsInt; omega), ok_bind]
  have e2 : (2 * (d.N : Int) + 1) * ((d.M : Int) - 1) = ((2 * d.N + 1) * (d.M - 1) : Nat) := by
    rw [← hK]; push_cast; ring
  rw [e2, i32_ok (x := (((2 * d.N + 1) * (d.M - 1) : Nat) : Int)) (by unfold FitsInt; omega), ok_bind,
    i32_ok (x := (((2 * d.N + 1) * (d.M - 1) : Nat) : Int) + d.N) (by unfold FitsInt; omega), ok_bind,
    i32_ok (x := (((2 * d.N + 1) * (d.M - 1) : Nat) : Int) + d.N + 1) (by unfold FitsInt; omega),
    ok_bind]
  have e3 : (((2 * d.N + 1) * (d.M - 1) : Nat) : Int) + d.N + 1 = (d.nmodes : Int) := by
    rw [hnmodes]; push_cast; ring
  rw [e3, Vec.setZero_tab (by omega), ok_bind, ok_bind, Int.toNat_natCast,
    modeList_ok (by rw [modeOff_nmodes d hM]) hfit, ok_bind]
  simp only [modeOff_nmodes d hM]
  have e4 : cassert dbg (decide True) "j == mnboz" = .ok () := by
    simp [cassert]
  have e5 : (if (d.N : Int) = 0 then (1 : Int) else 2 * (2 * (d.N : Int) + 1)) = (d.nz : Int) := by
    unfold Dims.nz
    by_cases h0 : d.N = 0
    · simp [h0]
    · have : (d.N : Int) ≠ 0 := by omega
      simp only [h0, this, if_false]; push_cast; ring
  have e6 : (if d.asym = true then 2 * (2 * (d.M : Int) + 1) else (d.nu2 : Int)) = (d.nu3 : Int) := by
    unfold Dims.nu3
    cases d.asym <;> simp [hnt]
  have e7 : (d.nu3 : Int) * (d.nz : Int) = (d.np : Int) := by unfold Dims.np; push_cast; ring
  rw [e4, ok_bind, ok_bind]
  simp only [e5, e6, e7]
  rw [i32_ok (x := (d.np : Int)) (by unfold FitsInt; omega), ok_bind]
  have e8 : dThetaOf (α := α) d.asym (d.nu3 : Int) = .ok (dTheta d) := by
    unfold dThetaOf
    cases ha : d.asym with
    | true =>
      simp [dTheta, Dims.nu3, ha]
    | false =>
      have : d.nu3 = d.nu2 := by simp [Dims.nu3, ha]
      simp only [this, nu3_eq]
      rw [i32_ok (x := (d.nt : Int)) (by unfold FitsInt; omega)]
      simp [dTheta]
  rw [e8, ok_bind, ok_bind]
  rw [i32_ok (x := (d.nfp : Int) * (d.nz : Int)) (by
    have h3 : ((d.nfp * d.nz : Nat) : Int) < 2147483648 := by exact_mod_cast f4
    have h4 : (0 : Int) ≤ (d.nfp : Int) * (d.nz : Int) := by positivity
    push_cast at h3
    unfold FitsInt; omega), ok_bind, Vec.setZero_tab (by omega), ok_bind, ok_bind,
    Int.toNat_natCast]
  have e9 := gridLoops_ok (α := α) (nu := d.nu3) (nz := d.nz) (dTheta d) (dZeta d) (ofInt 0)
  rw [show d.nu3 * d.nz = d.np from rfl] at e9
  have e10 : (twopi : α) / ofInt ((d.nfp : Int) * (d.nz : Int)) = dZeta d := rfl
  rw [e10, e9, ok_bind]
  simp only [pure_eq_ok, gridSt]
  congr 3
  · apply Vec.tab_congr; intro j hj; simp [hj]
  · apply Vec.tab_congr; intro j hj; simp [hj]

/-- The part of the state set by `initTables`. -/
def tablesSt (d : Dims) (s : St α) : St α :=
  { s with grid := { s.grid with
      trig := trigTab d.np d.mpol (d.ntor + 1) d.nfp (gridT d) (gridZ d),
      trigNyq := trigTab d.np (d.mq + 1) (d.nq + 1) d.nfp (gridT d) (gridZ d) } }

theorem initTables_ok {s : St α} {d : Dims} (h : RunReady s.inp d)
    (h1 : s.grid.n_theta_zeta = some (d.np : Int)) (h2 : s.grid.theta_grid = Vec.tab d.np (gridT d))
    (h3 : s.grid.zeta_grid = Vec.tab d.np (gridZ d)) :
    initTables s = .ok (tablesSt d s) := by
  have g1 := h.fit_ntor
  have g2 := h.fit_mq
  have g3 := h.fit_nq
  have g4 := h.fit_mpol
  have g5 := h.mpol_ge
  have g6 := h.mpol_nyq_ge
  have k1 : i32 ((d.ntor : Int) + 1) = .ok ((d.ntor + 1 : Nat) : Int) := by
    rw [i32_ok (by unfold FitsInt; omega)]; push_cast; rfl
  have k2 : i32 ((d.mq : Int) + 1) = .ok ((d.mq + 1 : Nat) : Int) := by
    rw [i32_ok (by unfold FitsInt; omega)]; push_cast; rfl
  have k3 : i32 ((d.nq : Int) + 1) = .ok ((d.nq + 1 : Nat) : Int) := by
    rw [i32_ok (by unfold FitsInt; omega)]; push_cast; rfl
  have k4 : i32 ((d.mpol : Int) - 1) = .ok ((d.mpol : Int) - 1) :=
    i32_ok (by unfold FitsInt; omega)
  have k5 := trigTab_of_initTrig (np := d.np) (cm := d.mpol) (cn := d.ntor + 1) (nfp := d.nfp)
    (mmax := (d.mpol : Int) - 1) (nmax := (d.ntor : Int)) (θ := gridT (α := α) d) (ζ := gridZ d)
    g5 (by omega) (by omega) (by push_cast; rfl)
  have k6 := trigTab_of_initTrig (np := d.np) (cm := d.mq + 1) (cn := d.nq + 1) (nfp := d.nfp)
    (mmax := (d.mq : Int)) (nmax := (d.nq : Int)) (θ := gridT (α := α) d) (ζ := gridZ d)
    (by omega) (by push_cast; rfl) (by omega) (by push_cast; rfl)
  unfold initTables
  simp only [h1, h2, h3, h.mpol, h.ntor, h.mpol_nyq, h.ntor_nyq, h.nfp, need_some, ok_bind, k1, k2,
    k3, k4, zeroTrig_ok, k5, k6, pure_eq_ok, tablesSt]

theorem initSpectra_ok {d : Dims} {o : Spectra α} :
    initSpectra d.asym (d.nmodes : Int) (d.nsb : Int) o = .ok (spec0 d o) := by
  unfold initSpectra spec0 zeroMat
  rw [Mat.setZero_tab (by omega) (by omega)]
  simp only [ok_bind, Int.toNat_natCast, pure_eq_ok]
  cases d.asym <;> simp

/-- The part of the state set by `initOutputs`. -/
def outputsSt (d : Dims) (s : St α) : St α :=
  { s with out := { s.out with
      ns_b := some (d.nsb : Int)
      s_b := Vec.tab d.nsb fun j => s.inp.s_in.val (ofInt 0) (s.inp.compute_surfs.val 0 j).toNat
      spec := spec0 d s.out.spec
      boozer_G := Vec.tab d.nsb fun _ => ofInt 0
      boozer_G_all := Vec.tab d.ns fun j => s.inp.bsubvmnc.val (ofInt 0) 0 j
      boozer_I := Vec.tab d.nsb fun _ => ofInt 0
      boozer_I_all := Vec.tab d.ns fun j => s.inp.bsubumnc.val (ofInt 0) 0 j } }

/-- Filling an array of known size entry by entry. -/
theorem fill_loop {β : Type} {n : Nat} {v : Vec β} (hv : v.size = n) {g : Nat → Res β} {f : Nat → β}
    (h : ∀ i, i < n → g i = .ok (f i)) :
    loop n (fun j w => do let x ← g j; Vec.wrN w j x) v = .ok (Vec.tab n f) := by
  have key : ∀ m, m ≤ n → ∃ w, loop m (fun j w => do let x ← g j; Vec.wrN w j x) v = .ok w ∧
      w.size = n ∧ ∀ i, i < m → w[i]? = some (some (f i)) := by
    intro m
    induction m with
    | zero => intro _; exact ⟨v, rfl, hv, by omega⟩
    | succ m ih =>
      intro hm
      obtain ⟨w, hw, hs, hc⟩ := ih (by omega)
      refine ⟨w.set! m (some (f m)), ?_, ?_, ?_⟩
      · rw [loop_succ, hw, ok_bind, h m (by omega), ok_bind, Vec.wrN, if_pos (by omega)]
      · simp [hs]
      · intro i hi
        rw [Array.set!_eq_setIfInBounds, Array.getElem?_setIfInBounds]
        by_cases him : m = i
        · subst him; simp; omega
        · simp only [him, if_false]; exact hc i (by omega)
  obtain ⟨w, hw, hs, hc⟩ := key n (Nat.le_refl n)
  rw [hw]
  congr 1
  apply Array.ext_getElem?
  intro k
  rw [Vec.getElem?_tab]
  split
  · next hk => exact hc k hk
  · next hk => rw [Array.getElem?_eq_none]; omega

theorem Vec.size_resize {β : Type} {v w : Vec β} {n : Nat} (h : Vec.resize v (n : Int) = .ok w) :
    w.size = n := by
  unfold Vec.resize at h
  rw [if_pos (by omega)] at h
  injection h with h
  subst h
  split
  · next h => simpa using h
  · simp

theorem Vec.resize_exists {β : Type} (v : Vec β) (n : Nat) :
    ∃ w, Vec.resize v (n : Int) = .ok w ∧ w.size = n := by
  have : Vec.resize v (n : Int) = .ok (if v.size = (n : Int).toNat then v
      else Array.replicate (n : Int).toNat none) := by
    unfold Vec.resize; rw [if_pos (by omega)]
  exact ⟨_, this, Vec.size_resize this⟩

theorem initOutputs_ok (dbg : Bool) {s : St α} {d : Dims} (h : RunReady s.inp d)
    (hdbg : dbg = true → OriginFirst s.inp) (h1 : s.out.mnboz = some (d.nmodes : Int)) :
    initOutputs dbg s = .ok (outputsSt d s) := by
  have hmnq := h.mnmax_nyq_ge
  unfold initOutputs
  simp only [h.ns_in, h.asym, h1, need_some, ok_bind]
  have hsz : s.inp.compute_surfs.size = d.nsb := h.surfs.1
  rw [hsz]
  obtain ⟨w, hw, hws⟩ := Vec.resize_exists s.out.s_b d.nsb
  rw [hw, ok_bind]
  have hfill : loop d.nsb (fun j s_b => do
      let js ← s.inp.compute_surfs.rdN j
      let v ← s.inp.s_in.rd js
      Vec.wrN s_b j v) w = .ok (Vec.tab d.nsb fun j =>
        s.inp.s_in.val (ofInt 0) (s.inp.compute_surfs.val 0 j).toNat) := by
    have := fill_loop (g := fun j => do
        let js ← s.inp.compute_surfs.rdN j
        s.inp.s_in.rd js) hws
      (f := fun j => s.inp.s_in.val (ofInt 0) (s.inp.compute_surfs.val 0 j).toNat) (by
        intro i hi
        have hr := h.surfs_range i hi
        rw [h.surfs.rdN 0 hi, ok_bind, Vec.rd, if_pos hr.1]
        exact h.s_in.rdN (ofInt 0) (by omega))
    rw [← this]
    apply loop_congr
    intro i hi t
    rw [h.surfs.rdN 0 hi, ok_bind, ok_bind]
  rw [hfill, ok_bind, Vec.setZero_tab (by omega), ok_bind, ok_bind, Int.toNat_natCast,
    Vec.setZero_tab (by omega), ok_bind, ok_bind, Int.toNat_natCast]
  have hassert : assertOrigin dbg s.inp = .ok () := by
    unfold assertOrigin
    cases dbg with
    | false => rfl
    | true =>
      obtain ⟨o1, o2⟩ := hdbg rfl
      simp only [if_true]
      rw [h.xm_nyq.rdN 0 (by omega), ok_bind, o1, h.xn_nyq.rdN 0 (by omega), o2]
      rfl
  rw [hassert, ok_bind]
  have hall : loop d.ns (fun j (st : Vec α × Vec α) => do
      let u ← s.inp.bsubumnc.rdN 0 j
      let i ← st.1.wrN j u
      let v ← s.inp.bsubvmnc.rdN 0 j
      let g ← st.2.wrN j v
      pure (i, g)) (Vec.tab d.ns fun _ => ofInt 0, Vec.tab d.ns fun _ => ofInt 0) =
      .ok (Vec.tab d.ns fun j => s.inp.bsubumnc.val (ofInt 0) 0 j,
           Vec.tab d.ns fun j => s.inp.bsubvmnc.val (ofInt 0) 0 j) := by
    refine loop_traj' (fun i =>
      (Vec.tab d.ns fun j => if j < i then s.inp.bsubumnc.val (ofInt 0) 0 j else ofInt 0,
       Vec.tab d.ns fun j => if j < i then s.inp.bsubvmnc.val (ofInt 0) 0 j else ofInt 0)) ?_ ?_ ?_
    · intro i hi
      rw [h.bsubumnc.eq_tab (ofInt 0), h.bsubvmnc.eq_tab (ofInt 0)]
      simp only
      rw [Mat.rdN_tab (by omega) hi, ok_bind, Vec.wrN_tab hi, ok_bind, Mat.rdN_tab (by omega) hi,
        ok_bind, Vec.wrN_tab hi, ok_bind, pure_eq_ok]
      congr 2
      · apply Vec.tab_congr
        intro k hk
        simp only [Vec.upd, Mat.val_tab (show 0 < d.mnq by omega) hk]
        grind
      · apply Vec.tab_congr
        intro k hk
        simp only [Vec.upd, Mat.val_tab (show 0 < d.mnq by omega) hk]
        grind
    · simp
    · simp only [Prod.mk.injEq]
      constructor
      · apply Vec.tab_congr; intro k hk; simp [hk]
      · apply Vec.tab_congr; intro k hk; simp [hk]
  rw [hall, ok_bind, initSpectra_ok, ok_bind]
  simp only [pure_eq_ok, outputsSt, h1, Int.toNat_natCast]

theorem init_ok (dbg : Bool) {s : St α} {d : Dims} (h : RunReady s.inp d)
    (hdbg : dbg = true → OriginFirst s.inp) : init dbg s = .ok (initSt d s) := by
  unfold init
  rw [initGrid_ok dbg h, ok_bind, initTables_ok (s := gridSt d s) (d := d) h rfl rfl rfl,
    ok_bind, initOutputs_ok (s := tablesSt d (gridSt d s)) (d := d) dbg h hdbg rfl]
  rfl

end Booz
