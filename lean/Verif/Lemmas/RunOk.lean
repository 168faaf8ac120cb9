import Verif.Lemmas.Run

/-!
# Closed form of `run`
-/

namespace Booz
variable {α : Type} [Arith α]

/-- Input surface of output surface `b`. -/
def surf (I : Inputs α) (b : Nat) : Nat := (I.compute_surfs.val 0 b).toNat

/-- Spectra when the first `K` surfaces are done. -/
def outF (I : Inputs α) (d : Dims) (K : Nat) : SpecF α :=
  let u (T : Nat → Nat → Nat → α) (v : Nat → α → α → α) : Nat → Nat → α :=
    fun k b => if b < K then coefF d (T (surf I b)) (v (surf I b)) (ofInt 0) k else ofInt 0
  { bc := u (tC I d) (fun js => bP I d js d.mnq)
    rc := u (tC I d) (fun js => rP I d js d.mnmax)
    zs := u (tS I d) (fun js => zP I d js d.mnmax)
    ns := u (tS I d) (nuV I d)
    gc := u (tC I d) (jacB I d)
    bs := u (tS I d) (fun js => bP I d js d.mnq)
    rs := u (tS I d) (fun js => rP I d js d.mnmax)
    zc := u (tC I d) (fun js => zP I d js d.mnmax)
    nc := u (tC I d) (nuV I d)
    gs := u (tS I d) (jacB I d) }

theorem addCol_outF (I : Inputs α) (d : Dims) (b : Nat) :
    addCol I d (surf I b) b (outF I d b) = outF I d (b + 1) := by
  have key : ∀ (T : Nat → Nat → Nat → α) (v : Nat → α → α → α),
      (fun k b' => if b' = b then coefF d (T (surf I b)) (v (surf I b))
          (if b' < b then coefF d (T (surf I b')) (v (surf I b')) (ofInt 0) k else ofInt 0) k
        else if b' < b then coefF d (T (surf I b')) (v (surf I b')) (ofInt 0) k else ofInt 0) =
      fun k b' => if b' < b + 1 then coefF d (T (surf I b')) (v (surf I b')) (ofInt 0) k
        else ofInt 0 := by
    intro T v
    funext k b'
    by_cases h1 : b' = b
    · subst h1; simp
    · have : b' < b + 1 ↔ b' < b := by omega
      simp only [h1, if_false, this]
  unfold addCol outF
  rw [SpecF.mk.injEq]
  exact ⟨key (tC I d) (fun js => bP I d js d.mnq), key (tC I d) (fun js => rP I d js d.mnmax),
    key (tS I d) (fun js => zP I d js d.mnmax), key (tS I d) (nuV I d), key (tC I d) (jacB I d),
    key (tS I d) (fun js => bP I d js d.mnq), key (tS I d) (fun js => rP I d js d.mnmax),
    key (tC I d) (fun js => zP I d js d.mnmax), key (tC I d) (nuV I d), key (tS I d) (jacB I d)⟩

/-- Object state when the first `K` surfaces are done. -/
def runSt (d : Dims) (s : St α) (K : Nat) : St α :=
  { initSt d s with
    out := { (initSt d s).out with
      spec := specTab d (outF s.inp d K) s.out.spec
      boozer_I := Vec.tab d.nsb fun b => if b < K then curI s.inp d (surf s.inp b) else ofInt 0
      boozer_G := Vec.tab d.nsb fun b => if b < K then curG s.inp d (surf s.inp b) else ofInt 0 } }

/-- The report of surface `b`. -/
def runReport (I : Inputs α) (d : Dims) (b : Nat) : Report α :=
  reportOf I d (surf I b) b (outF I d d.nsb)

theorem runSt_zero (d : Dims) (s : St α) : runSt d s 0 = initSt d s := by
  unfold runSt initSt outF specTab spec0 zeroMat
  cases d.asym <;> simp

theorem chkB_congr {I : Inputs α} {d : Dims} {js b : Nat} {F G : SpecF α}
    (h1 : ∀ k, F.bc k b = G.bc k b) (h2 : ∀ k, F.bs k b = G.bs k b) (c K : Nat) :
    chkB I d js b F c K = chkB I d js b G c K := by
  unfold chkB; simp only [h1, h2]

theorem reportOf_outF (I : Inputs α) (d : Dims) {b K K' : Nat} (h : b < K) (h' : b < K') (js : Nat) :
    reportOf I d js b (outF I d K) = reportOf I d js b (outF I d K') := by
  have : ∀ c n, chkB I d js b (outF I d K) c n = chkB I d js b (outF I d K') c n := fun c n =>
    chkB_congr (by intro k; simp [outF, h, h']) (by intro k; simp [outF, h, h']) c n
  unfold reportOf
  simp only [this]

/-- One surface: the state advances, and the report is made exactly when `verbose > 0`. -/
theorem surfaceSolve_ok {dbg : Bool} {s : St α} {d : Dims} (h : RunReady s.inp d)
    (ha : dbg = true → s.inp.verbose > 0 → ChkAsserts d α) {b : Nat} (hb : b < d.nsb) :
    surfaceSolve dbg b (runSt d s b) =
      .ok (runSt d s (b + 1), if s.inp.verbose > 0 then some (runReport s.inp d b) else none) := by
  obtain ⟨hs0, hs1⟩ := h.surfs_range b hb
  have hgr : GridReady (runSt d s b).grid d := gridReady_initSt d s
  have hinp : (runSt d s b).inp = s.inp := rfl
  have hjs : ((surf s.inp b : Nat) : Int) = s.inp.compute_surfs.val 0 b := by
    unfold surf; omega
  have hjs0 : (0 : Int) ≤ (surf s.inp b : Nat) := by omega
  have hjs1 : ((surf s.inp b : Nat) : Int) < d.ns := by omega
  have eI : lastZero s.inp (fun k => ev s.inp.bsubumnc k (surf s.inp b))
      (if b < b then curI s.inp d (surf s.inp b) else ofInt 0) d.mnq = curI s.inp d (surf s.inp b) := by
    simp [curI]
  have eG : lastZero s.inp (fun k => ev s.inp.bsubvmnc k (surf s.inp b))
      (if b < b then curG s.inp d (surf s.inp b) else ofInt 0) d.mnq = curG s.inp d (surf s.inp b) := by
    simp [curG]
  have uI : ∀ (f : Nat → α), Vec.upd (fun b' => if b' < b then f b' else ofInt 0) b (f b) =
      fun b' => if b' < b + 1 then f b' else ofInt 0 := by
    intro f; funext b'
    simp only [Vec.upd]
    by_cases h1 : b' = b
    · subst h1; simp
    · have : b' < b + 1 ↔ b' < b := by omega
      simp only [h1, if_false, this]
  unfold surfaceSolve
  rw [hinp, h.surfs.rdN 0 hb, ok_bind, ← hjs]
  have hI0 : (runSt d s b).out.boozer_I =
    Vec.tab d.nsb fun b' => if b' < b then curI s.inp d (surf s.inp b') else ofInt 0 := rfl
  have hG0 : (runSt d s b).out.boozer_G =
    Vec.tab d.nsb fun b' => if b' < b then curG s.inp d (surf s.inp b') else ofInt 0 := rfl
  rw [hI0, hG0, transp_ok h hjs0 hjs1 hb, ok_bind]
  simp only [Int.toNat_natCast]
  rw [eI, eG, uI (fun b' => curI s.inp d (surf s.inp b')), uI (fun b' => curG s.inp d (surf s.inp b'))]
  rw [Vec.rdN_tab hb, ok_bind, Vec.rdN_tab hb, ok_bind]
  simp only [Nat.lt_succ_self, if_true]
  have hL := localWork_ok (s := s) h hjs0 hjs1 hgr (wmns := Vec.tab d.mnq (wS s.inp (surf s.inp b)))
    (wmnc := if d.asym then Vec.tab d.mnq (wC s.inp (surf s.inp b)) else #[])
    (by simp) (by simp)
  simp only [Int.toNat_natCast] at hL
  rw [hL, ok_bind]
  have hA := accum_ok (js := surf s.inp b) h hgr hb (F := outF s.inp d b) (o := s.out.spec)
  have hsp : (runSt d s b).out.spec = specTab d (outF s.inp d b) s.out.spec := rfl
  have hmn : (runSt d s b).out.mnboz = some (d.nmodes : Int) := rfl
  have hxm : (runSt d s b).out.xm_b = Vec.tab d.nmodes fun j => (modeM d.N j : Int) := rfl
  have hxn : (runSt d s b).out.xn_b = Vec.tab d.nmodes fun j => modeN d.N j * d.nfp := rfl
  rw [hsp, hmn, hxm, hxn, hA, ok_bind, addCol_outF]
  split
  · next hv =>
    have hC := checkAccuracy_ok (dbg := dbg) (s := runSt d s (b + 1)) (d := d) (js := surf s.inp b)
      h (gridReady_initSt d s) (fun hd => ha hd hv) hb (F := outF s.inp d (b + 1)) (o := s.out.spec)
      rfl rfl rfl rfl
    have hC' : checkAccuracy dbg _ (surf s.inp b : Int) b (localTab s.inp d (surf s.inp b)).wb.bmod
        (localTab s.inp d (surf s.inp b)).har.theta_Boozer
        (localTab s.inp d (surf s.inp b)).har.zeta_Boozer
        (localTab s.inp d (surf s.inp b)).trig = _ := hC
    change (checkAccuracy dbg (runSt d s (b + 1)) (surf s.inp b : Int) b
        (localTab s.inp d (surf s.inp b)).wb.bmod
        (localTab s.inp d (surf s.inp b)).har.theta_Boozer
        (localTab s.inp d (surf s.inp b)).har.zeta_Boozer
        (localTab s.inp d (surf s.inp b)).trig >>= fun rep => pure (runSt d s (b + 1), some rep)) = _
    rw [hC', ok_bind, pure_eq_ok]
    congr 2
    unfold runReport
    rw [← reportOf_outF s.inp d (Nat.lt_succ_self b) hb]
    rfl
  · rfl

/-- The reports printed by `run`. -/
def runReports (I : Inputs α) (d : Dims) (K : Nat) : List (Report α) :=
  if I.verbose > 0 then (List.range K).map (runReport I d) else []

theorem printSurfs_ok {I : Inputs α} {d : Dims} (h : RunReady I d) : printSurfs I = .ok () := by
  unfold printSurfs
  split
  · refine loop_traj' (fun _ => ()) ?_ rfl rfl
    intro k hk
    rw [h.surfs.rdN 0 (by rw [h.surfs.1] at hk; exact hk)]
    rfl
  · rfl

/-- Closed form of `run`. -/
theorem run_ok {dbg : Bool} {s : St α} {d : Dims} (h : RunReady s.inp d)
    (h0 : dbg = true → OriginFirst s.inp)
    (ha : dbg = true → s.inp.verbose > 0 → ChkAsserts d α) :
    run dbg s = .ok (runSt d s d.nsb, runReports s.inp d d.nsb) := by
  unfold run
  rw [printSurfs_ok h, ok_bind, init_ok dbg h h0, ok_bind]
  have hinp : (initSt d s).inp.compute_surfs.size = d.nsb := h.surfs.1
  rw [hinp]
  refine loop_traj' (fun K => (runSt d s K, runReports s.inp d K)) ?_ ?_ rfl
  · intro b hb
    simp only
    rw [surfaceSolve_ok h ha hb, ok_bind]
    simp only [pure_eq_ok]
    congr 2
    unfold runReports
    split <;> simp [List.range_succ]
  · rw [runSt_zero]
    simp [runReports]

end Booz
