import Verif.Lemmas.RunOk

/-!
# Closed form of the local variables of `surface_solve`
-/

namespace Booz
variable {α : Type} [Arith α]

/-- `surfaceSolve` is `surfaceWork` followed by accumulation and accuracy check. -/
theorem surfaceSolve_eq_work (dbg : Bool) (b : Nat) (s : St α) :
    surfaceSolve dbg b s = (do
      let (t, L) ← surfaceWork b s
      let s := { s with out := { s.out with boozer_I := t.boozer_I, boozer_G := t.boozer_G } }
      let spec ← accum s.inp s.grid L s.out.mnboz s.out.xm_b s.out.xn_b b s.out.spec
      let s := { s with out := { s.out with spec := spec } }
      if s.inp.verbose > 0 then do
        let js ← s.inp.compute_surfs.rdN b
        let rep ← checkAccuracy dbg s js b L.wb.bmod L.har.theta_Boozer L.har.zeta_Boozer L.trig
        pure (s, some rep)
      else pure (s, none)) := by
  unfold surfaceSolve surfaceWork
  cases h : s.inp.compute_surfs.rdN b with
  | error e => rfl
  | ok js => simp only [ok_bind, bind_assoc, pure_bind, h]

theorem surfaceWork_ok {s : St α} {d : Dims} (h : RunReady s.inp d) {b : Nat} (hb : b < d.nsb) :
    ∃ t, surfaceWork b (runSt d s b) = .ok (t, localTab s.inp d (surf s.inp b)) ∧
      t.boozer_I.rdN b = .ok (curI s.inp d (surf s.inp b)) ∧
      t.boozer_G.rdN b = .ok (curG s.inp d (surf s.inp b)) := by
  obtain ⟨hs0, hs1⟩ := h.surfs_range b hb
  have hgr : GridReady (runSt d s b).grid d := gridReady_initSt d s
  have hinp : (runSt d s b).inp = s.inp := rfl
  have hjs : ((surf s.inp b : Nat) : Int) = s.inp.compute_surfs.val 0 b := by
    unfold surf; omega
  have hjs0 : (0 : Int) ≤ (surf s.inp b : Nat) := by omega
  have hjs1 : ((surf s.inp b : Nat) : Int) < d.ns := by omega
  have eI : lastZero s.inp (fun k => ev s.inp.bsubumnc k (surf s.inp b))
      (if b < b then curI s.inp d (surf s.inp b) else ofInt 0) d.mnq = curI s.inp d (surf s.inp b) := by
    simp [curI]
  have eG : lastZero s.inp (fun k => ev s.inp.bsubvmnc k (surf s.inp b))
      (if b < b then curG s.inp d (surf s.inp b) else ofInt 0) d.mnq = curG s.inp d (surf s.inp b) := by
    simp [curG]
  unfold surfaceWork
  rw [hinp, h.surfs.rdN 0 hb, ok_bind, ← hjs]
  have hI0 : (runSt d s b).out.boozer_I =
    Vec.tab d.nsb fun b' => if b' < b then curI s.inp d (surf s.inp b') else ofInt 0 := rfl
  have hG0 : (runSt d s b).out.boozer_G =
    Vec.tab d.nsb fun b' => if b' < b then curG s.inp d (surf s.inp b') else ofInt 0 := rfl
  rw [hI0, hG0, transp_ok h hjs0 hjs1 hb, ok_bind]
  simp only [Int.toNat_natCast]
  rw [eI, eG]
  have hL := localWork_ok (s := s) h hjs0 hjs1 hgr (wmns := Vec.tab d.mnq (wS s.inp (surf s.inp b)))
    (wmnc := if d.asym then Vec.tab d.mnq (wC s.inp (surf s.inp b)) else #[])
    (by simp) (by simp)
  simp only [Int.toNat_natCast] at hL
  have u : ∀ (f : Nat → α) x, (Vec.tab d.nsb (Vec.upd f b x)).rdN b = .ok x := by
    intro f x; rw [Vec.rdN_tab hb]; simp [Vec.upd]
  rw [u, ok_bind, u, ok_bind, hL, ok_bind]
  exact ⟨_, rfl, u _ _, u _ _⟩

theorem workOf_ok {dbg : Bool} {s : St α} {d : Dims} (h : RunReady s.inp d)
    (h0 : dbg = true → OriginFirst s.inp)
    (ha : dbg = true → s.inp.verbose > 0 → ChkAsserts d α) {b : Nat} (hb : b < d.nsb) :
    workOf dbg b s = .ok (localTab s.inp d (surf s.inp b)) := by
  unfold workOf
  rw [init_ok dbg h h0, ok_bind]
  have hl : loop b (fun j s => do
      let (s, _) ← surfaceSolve dbg j s
      pure s) (initSt d s) = .ok (runSt d s b) := by
    refine loop_traj' (fun K => runSt d s K) ?_ (runSt_zero d s).symm rfl
    intro k hk
    simp only
    rw [surfaceSolve_ok h ha (by omega), ok_bind]
    rfl
  rw [hl, ok_bind]
  obtain ⟨t, ht, -⟩ := surfaceWork_ok h hb
  rw [ht, ok_bind]
  rfl

end Booz
