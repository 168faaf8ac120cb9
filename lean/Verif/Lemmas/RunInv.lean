import Verif.Lemmas.Inv
import Verif.Lemmas.RunOk

/-!
# Faults of `run`, and what success implies
-/

namespace Booz
variable {α : Type} [Arith α]

theorem initTrig_onlyUb (theta zeta : Vec α) (t : Trig α) (m n p : Int) :
    OnlyUb (initTrig theta zeta t m n p) := by
  unfold initTrig initTrigFirst initTrigFirstN trigRest trigStep
  only_ub

theorem trigCos_onlyUb (t : Trig α) (j : Nat) (m a s : Int) : OnlyUb (trigCos t j m a s) := by
  unfold trigCos; only_ub
theorem trigSin_onlyUb (t : Trig α) (j : Nat) (m a s : Int) : OnlyUb (trigSin t j m a s) := by
  unfold trigSin; only_ub
theorem vaddN_onlyUb (v : Vec α) (j : Nat) (x : α) : OnlyUb (v.addN j x) := by
  unfold Vec.addN; only_ub
theorem maddN_onlyUb (v : Mat α) (i j : Nat) (x : α) : OnlyUb (v.addN i j x) := by
  unfold Mat.addN; only_ub
theorem absNOf_onlyUb (n : Int) (p : Option Int) : OnlyUb (absNOf n p) := by
  unfold absNOf; only_ub

/-- `only_ub` with the building blocks of `surface_solve`. -/
macro "only_ub'" : tactic => `(tactic| repeat' (with_reducible (first
  | exact trigCos_onlyUb _ _ _ _ _ | exact trigSin_onlyUb _ _ _ _ _ | exact vaddN_onlyUb _ _ _
  | exact maddN_onlyUb _ _ _ _ | exact absNOf_onlyUb _ _ | exact initTrig_onlyUb _ _ _ _ _ _
  | exact OnlyUb.ok _ | exact OnlyUb.pure _ | exact OnlyUb.ub _ | exact OnlyUb.need _ _
  | exact OnlyUb.i32 _
  | exact OnlyUb.idiv _ _ | exact OnlyUb.vrdN _ _ | exact OnlyUb.vrd _ _ | exact OnlyUb.vwrN _ _ _
  | exact OnlyUb.vsetZero _ _ | exact OnlyUb.vresize _ _ | exact OnlyUb.mrdN _ _ _
  | exact OnlyUb.mrd _ _ _ | exact OnlyUb.mwrN _ _ _ _ | exact OnlyUb.msetZero _ _ _
  | exact OnlyUb.mresize _ _ _ | exact OnlyUb.cassert _ _ | assumption
  | refine OnlyUb.bind ?_ fun _ => ?_ | refine OnlyUb.loop fun _ _ => ?_
  | refine OnlyUb.vbuild _ fun _ => ?_ | refine OnlyUb.ite ?_ ?_
  | split)))

theorem init_onlyUb (s : St α) : OnlyUb (init false s) := by
  unfold init
  refine OnlyUb.bind ?_ fun s => OnlyUb.bind ?_ fun s => ?_
  · unfold initGrid modeList modeStep gridLoops gridStep dThetaOf
    only_ub
  · unfold initTables zeroTrig
    only_ub'
  · unfold initOutputs assertOrigin initSpectra
    only_ub

theorem surfaceSolve_onlyUb (b : Nat) (s : St α) : OnlyUb (surfaceSolve false b s) := by
  unfold surfaceSolve
  refine OnlyUb.bind (OnlyUb.vrdN _ _) fun js => OnlyUb.bind ?_ fun t => OnlyUb.bind (OnlyUb.vrdN _ _)
    fun bI => OnlyUb.bind (OnlyUb.vrdN _ _) fun bG => OnlyUb.bind ?_ fun L => OnlyUb.bind ?_ fun sp => ?_
  · unfold transp transpStep; only_ub
  · unfold localWork
    refine OnlyUb.bind ?_ fun _ => OnlyUb.bind ?_ fun _ => OnlyUb.bind ?_ fun _ => OnlyUb.bind ?_
      fun _ => OnlyUb.bind ?_ fun _ => OnlyUb.ok _
    · unfold vcoordsRZ rzStep
      only_ub'
    · unfold vcoordsW wStep
      only_ub'
    · unfold harfun; only_ub
    · unfold boozerTrig zeroTrig halveEnds halveStep Mat.halveN
      only_ub'
    · unfold fourierFactor0; only_ub
  · unfold accum accumStep
    only_ub'
  · refine OnlyUb.ite (OnlyUb.bind ?_ fun _ => OnlyUb.ok _) (OnlyUb.ok _)
    unfold checkAccuracy assertNear checkStep
    only_ub'

/-- In a release build `run` never throws and no assertion is evaluated: its only faults are
undefined behaviour. -/
theorem run_onlyUb (s : St α) : OnlyUb (run false s) := by
  unfold run
  refine OnlyUb.bind ?_ fun _ => OnlyUb.bind (init_onlyUb s) fun _ => OnlyUb.loop fun _ _ =>
    OnlyUb.bind (surfaceSolve_onlyUb _ _) fun _ => OnlyUb.ok _
  unfold printSurfs; only_ub

/-- `run` faults by undefined behaviour as soon as it cannot succeed. -/
theorem run_ub_of_not_ok {s : St α} (h : ∀ r, run false s ≠ .ok r) :
    ∃ w, run false s = ub w := by
  cases hr : run false s with
  | ok r => exact absurd hr (h r)
  | error f =>
    obtain ⟨w, rfl⟩ := run_onlyUb s f hr
    exact ⟨w, rfl⟩

end Booz

namespace Booz
variable {α : Type} [Arith α]

theorem run_inv {dbg : Bool} {s : St α} {r : St α × List (Report α)} (h : run dbg s = .ok r) :
    ∃ s1, init dbg s = .ok s1 ∧
      loop s1.inp.compute_surfs.size (fun j (st : St α × List (Report α)) => do
        let (s, rep) ← surfaceSolve dbg j st.1
        pure (s, st.2 ++ rep.toList)) (s1, []) = .ok r := by
  unfold run at h
  obtain ⟨_, _, h⟩ := bind_ok h
  obtain ⟨s1, h1, h⟩ := bind_ok h
  exact ⟨s1, h1, h⟩

theorem init_inv {dbg : Bool} {s s3 : St α} (h : init dbg s = .ok s3) :
    ∃ s1 s2, initGrid dbg s = .ok s1 ∧ initTables s1 = .ok s2 ∧ initOutputs dbg s2 = .ok s3 := by
  unfold init at h
  obtain ⟨s1, h1, h⟩ := bind_ok h
  obtain ⟨s2, h2, h⟩ := bind_ok h
  exact ⟨s1, s2, h1, h2, h⟩

/-- Success of the grid set-up implies that the sizes fit. -/
theorem initGrid_inv {dbg : Bool} {s s1 : St α} {d : Dims} (h : initGrid dbg s = .ok s1)
    (hM : s.inp.mboz = (d.M : Int)) (hN : s.inp.nboz = (d.N : Int))
    (hp : s.inp.nfp = some (d.nfp : Int)) (ha : s.inp.asym = some d.asym) :
    d.nt < 2147483648 ∧ 2 * (2 * d.N + 1) < 2147483648 ∧ d.np < 2147483648 ∧
      d.nfp * d.nz < 2147483648 ∧ s1.inp = s.inp ∧ s1.grid.n_theta_zeta = some (d.np : Int) ∧
      s1.grid.theta_grid.size = d.np := by
  unfold initGrid at h
  rw [hM, hN, hp, ha] at h
  simp only at h
  obtain ⟨a, h1, h⟩ := bind_ok h
  obtain ⟨a', h2, h⟩ := bind_ok h
  obtain ⟨nt, h3, h⟩ := bind_ok h
  obtain ⟨b, h4, h⟩ := bind_ok h
  obtain ⟨b', h5, h⟩ := bind_ok h
  obtain ⟨nz, h6, h⟩ := bind_ok h
  obtain ⟨nu2, h7, h⟩ := bind_ok h
  obtain ⟨c, h8, h⟩ := bind_ok h
  obtain ⟨e, h9, h⟩ := bind_ok h
  obtain ⟨e', h10, h⟩ := bind_ok h
  obtain ⟨mnb, h11, h⟩ := bind_ok h
  obtain ⟨xm, h12, h⟩ := bind_ok h
  obtain ⟨xn, h13, h⟩ := bind_ok h
  obtain ⟨⟨x1, x2, x3⟩, h14, h⟩ := bind_ok h
  obtain ⟨_, h15, h⟩ := bind_ok h
  obtain ⟨a0, h16, h⟩ := bind_ok h
  cases h16
  obtain ⟨npts, h17, h⟩ := bind_ok h
  obtain ⟨dt, h18, h⟩ := bind_ok h
  obtain ⟨p0, h19, h⟩ := bind_ok h
  cases h19
  obtain ⟨q, h20, h⟩ := bind_ok h
  obtain ⟨tg, h21, h⟩ := bind_ok h
  obtain ⟨zg, h22, h⟩ := bind_ok h
  obtain ⟨⟨y1, y2, y3⟩, h23, h⟩ := bind_ok h
  cases h
  obtain ⟨rfl, f1⟩ := i32_inv h1
  obtain ⟨rfl, f2⟩ := i32_inv h2
  obtain ⟨rfl, f3⟩ := i32_inv h3
  obtain ⟨rfl, f4⟩ := i32_inv h4
  obtain ⟨rfl, f5⟩ := i32_inv h5
  obtain ⟨rfl, f6⟩ := i32_inv h6
  obtain ⟨rfl, f7⟩ := i32_inv h7
  obtain ⟨rfl, f17⟩ := i32_inv h17
  obtain ⟨rfl, f20⟩ := i32_inv h20
  have ez : (if (d.N : Int) = 0 then 1 else 2 * (2 * (d.N : Int) + 1)) = (d.nz : Int) := by
    unfold Dims.nz
    by_cases h0 : d.N = 0
    · simp [h0]
    · simp [h0]
  have et : (2 * (2 * (d.M : Int) + 1)) = (d.nt : Int) := by unfold Dims.nt; push_cast; ring
  have eu : Int.tdiv (2 * (2 * (d.M : Int) + 1)) 2 + 1 = (d.nu2 : Int) := by
    rw [Int.mul_tdiv_cancel_left _ (by omega)]; unfold Dims.nu2; push_cast; ring
  have e3 : (if d.asym = true then (2 * (2 * (d.M : Int) + 1)) else
      Int.tdiv (2 * (2 * (d.M : Int) + 1)) 2 + 1) = (d.nu3 : Int) := by
    rw [et, ← et, eu, et]; unfold Dims.nu3; split <;> rfl
  rw [ez] at f17 f20 h21
  rw [ez] at h23
  rw [e3] at f17 h21 h23
  have enp : (d.nu3 : Int) * d.nz = (d.np : Int) := by unfold Dims.np; push_cast; rfl
  have hsz : y1.size = d.np := by
    have h0 : tg.size = d.np := by
      rw [enp, Vec.setZero_tab (by omega)] at h21
      cases h21
      rw [Vec.size_tab, Int.toNat_natCast]
    unfold gridLoops at h23
    have key := loop_inv (P := fun _ (st : Vec α × Vec α × Nat) => st.1.size = d.np) h0
      (fun i _ a b hP hb => loop_inv (P := fun _ (st : Vec α × Vec α × Nat) => st.1.size = d.np) hP
        (fun i _ a b hP hb => by
          unfold gridStep at hb
          obtain ⟨v, g1, hb⟩ := bind_ok hb
          obtain ⟨w, g2, hb⟩ := bind_ok hb
          cases hb
          unfold Vec.wrN at g1
          split at g1
          · cases g1; simpa using hP
          · cases g1) hb) h23
    exact key
  refine ⟨?_, ?_, ?_, ?_, rfl, ?_, hsz⟩
  · have := f3.2; omega
  · have := f6.2; omega
  · have := f17.2; omega
  · have := f20.2
    have e : (d.nfp : Int) * d.nz = ((d.nfp * d.nz : Nat) : Int) := by push_cast; rfl
    omega
  · show some _ = some _
    rw [ez, e3, enp]

end Booz

namespace Booz
variable {α : Type} [Arith α]

theorem mwrN_inv {β : Type} {a b : Mat β} {i j : Nat} {x : β} (h : a.wrN i j x = .ok b) :
    i < a.rows ∧ j < a.cols ∧ b.rows = a.rows ∧ b.cols = a.cols := by
  unfold Mat.wrN at h
  split at h
  · next hc =>
    obtain ⟨dd, _, h⟩ := bind_ok h
    cases h
    exact ⟨hc.1, hc.2, rfl, rfl⟩
  · cases h

theorem mrd_inv {β : Type} {a : Mat β} {i j : Int} {x : β} (h : a.rd i j = .ok x) :
    0 ≤ i ∧ 0 ≤ j ∧ i.toNat < a.rows ∧ j.toNat < a.cols := by
  unfold Mat.rd Mat.rdN at h
  split at h
  · next hc =>
    split at h
    · next hd => exact ⟨hc.1, hc.2, hd.1, hd.2⟩
    · cases h
  · cases h

theorem trigRest_dims {np : Nat} {mmax : Int} {cs cs' : Mat α × Mat α}
    (h : trigRest np mmax cs = .ok cs') : cs'.1.cols = cs.1.cols := by
  unfold trigRest at h
  refine loop_inv (P := fun _ (st : Mat α × Mat α) => st.1.cols = cs.1.cols) rfl ?_ h
  intro i _ a b hP hb
  refine loop_inv (P := fun _ (st : Mat α × Mat α) => st.1.cols = cs.1.cols) hP ?_ hb
  intro j _ a b hP hb
  unfold trigStep at hb
  obtain ⟨_, _, hb⟩ := bind_ok hb
  obtain ⟨_, _, hb⟩ := bind_ok hb
  obtain ⟨_, _, hb⟩ := bind_ok hb
  obtain ⟨_, _, hb⟩ := bind_ok hb
  obtain ⟨cx, h1, hb⟩ := bind_ok hb
  obtain ⟨_, _, hb⟩ := bind_ok hb
  obtain ⟨_, _, hb⟩ := bind_ok hb
  obtain ⟨_, _, hb⟩ := bind_ok hb
  obtain ⟨_, _, hb⟩ := bind_ok hb
  obtain ⟨sx, h2, hb⟩ := bind_ok hb
  cases hb
  rw [(mwrN_inv h1).2.2.2]; exact hP

/-- A successful `init_trig` keeps the number of poloidal columns, and needs two of them. -/
theorem initTrig_inv {theta zeta : Vec α} {t t' : Trig α} {mmax nmax nfpx : Int}
    (h : initTrig theta zeta t mmax nmax nfpx = .ok t') :
    t'.cosm.cols = t.cosm.cols ∧ (1 ≤ theta.size → 2 ≤ t.cosm.cols) := by
  unfold initTrig at h
  obtain ⟨t1, h1, h⟩ := bind_ok h
  have key : ∃ t2, (if nmax ≥ 1 then loop theta.size (initTrigFirstN zeta nfpx) t1 else pure t1) =
      .ok t2 ∧ (do
        let (cosm, sinm) ← trigRest theta.size mmax (t2.cosm, t2.sinm)
        let (cosn, sinn) ← trigRest theta.size nmax (t2.cosn, t2.sinn)
        pure { cosm := cosm, sinm := sinm, cosn := cosn, sinn := sinn } : Res (Trig α)) = .ok t' := by
    split at h
    · next hc =>
      obtain ⟨t2, h2, h⟩ := bind_ok h
      exact ⟨t2, by rw [if_pos hc]; exact h2, h⟩
    · next hc =>
      obtain ⟨t2, h2, h⟩ := bind_ok h
      exact ⟨t2, by rw [if_neg hc]; exact h2, h⟩
  obtain ⟨t2, h2, h⟩ := key
  obtain ⟨⟨c, s⟩, h3, h⟩ := bind_ok h
  obtain ⟨⟨c', s'⟩, h4, h⟩ := bind_ok h
  cases h
  have e1 : t1.cosm.cols = t.cosm.cols := by
    refine loop_inv (P := fun _ (st : Trig α) => st.cosm.cols = t.cosm.cols) rfl ?_ h1
    intro i _ a b hP hb
    unfold initTrigFirst at hb
    obtain ⟨c1, g1, hb⟩ := bind_ok hb
    obtain ⟨c2, g2, hb⟩ := bind_ok hb
    obtain ⟨_, _, hb⟩ := bind_ok hb
    obtain ⟨c4, g4, hb⟩ := bind_ok hb
    obtain ⟨_, _, hb⟩ := bind_ok hb
    obtain ⟨c6, g6, hb⟩ := bind_ok hb
    cases hb
    show c4.cols = _
    rw [(mwrN_inv g4).2.2.2, (mwrN_inv g1).2.2.2, hP]
  have e2 : t2.cosm.cols = t1.cosm.cols := by
    split at h2
    · refine loop_inv (P := fun _ (st : Trig α) => st.cosm.cols = t1.cosm.cols) rfl ?_ h2
      intro i _ a b hP hb
      unfold initTrigFirstN at hb
      obtain ⟨_, _, hb⟩ := bind_ok hb
      obtain ⟨_, _, hb⟩ := bind_ok hb
      obtain ⟨_, _, hb⟩ := bind_ok hb
      obtain ⟨_, _, hb⟩ := bind_ok hb
      cases hb
      exact hP
    · cases h2; rfl
  refine ⟨?_, ?_⟩
  · rw [trigRest_dims h3]; exact e2.trans e1
  · intro hs
    obtain ⟨a, b, ha, hb⟩ := loop_iter h1 (i := 0) (by omega)
    cases ha
    unfold initTrigFirst at hb
    obtain ⟨c1, g1, hb⟩ := bind_ok hb
    obtain ⟨c2, g2, hb⟩ := bind_ok hb
    obtain ⟨_, _, hb⟩ := bind_ok hb
    obtain ⟨c4, g4, hb⟩ := bind_ok hb
    have := (mwrN_inv g4).2.1
    rw [(mwrN_inv g1).2.2.2] at this
    omega

/-- Success of the table set-up on a nonempty grid needs two poloidal columns in both tables. -/
theorem initTables_inv {s s1 : St α} {np : Nat} {p q : Int} (h : initTables s = .ok s1)
    (hg : s.grid.theta_grid.size = np) (hnp : 1 ≤ np) (hp : s.inp.mpol = some p)
    (hq : s.inp.mpol_nyq = some q) :
    2 ≤ p ∧ 1 ≤ q ∧ s1.grid.trig.cosm.cols = p.toNat ∧ s1.grid.trigNyq.cosm.cols = (q + 1).toNat ∧
      s1.inp = s.inp ∧ s1.grid.n_theta_zeta = s.grid.n_theta_zeta := by
  unfold initTables at h
  obtain ⟨n0, h0, h⟩ := bind_ok h
  obtain ⟨p', h1, h⟩ := bind_ok h
  obtain ⟨nt, h2, h⟩ := bind_ok h
  obtain ⟨q', h3, h⟩ := bind_ok h
  obtain ⟨nq, h4, h⟩ := bind_ok h
  obtain ⟨nfp, h5, h⟩ := bind_ok h
  obtain ⟨nc, h6, h⟩ := bind_ok h
  obtain ⟨mcq, h7, h⟩ := bind_ok h
  obtain ⟨ncq, h8, h⟩ := bind_ok h
  obtain ⟨t, h9, h⟩ := bind_ok h
  obtain ⟨tq, h10, h⟩ := bind_ok h
  obtain ⟨mm, h11, h⟩ := bind_ok h
  obtain ⟨t', h12, h⟩ := bind_ok h
  obtain ⟨tq', h13, h⟩ := bind_ok h
  cases h
  rw [hp] at h1; cases h1
  rw [hq] at h3; cases h3
  obtain ⟨rfl, -⟩ := i32_inv h7
  have zt : ∀ {a b c : Int} {t : Trig α}, zeroTrig a b c = .ok t → 0 ≤ b ∧ t.cosm.cols = b.toNat := by
    intro a b c t ht
    unfold zeroTrig at ht
    obtain ⟨c1, g1, ht⟩ := bind_ok ht
    obtain ⟨c2, g2, ht⟩ := bind_ok ht
    obtain ⟨c3, g3, ht⟩ := bind_ok ht
    obtain ⟨c4, g4, ht⟩ := bind_ok ht
    cases ht
    unfold Mat.setZero at g1
    split at g1
    · next hc => cases g1; exact ⟨hc.2, rfl⟩
    · cases g1
  obtain ⟨a1, a2⟩ := initTrig_inv h12
  obtain ⟨b1, b2⟩ := initTrig_inv h13
  obtain ⟨c1, c2⟩ := zt h9
  obtain ⟨d1, d2⟩ := zt h10
  have a3 := a2 (by omega)
  have b3 := b2 (by omega)
  refine ⟨by omega, by omega, ?_, ?_, rfl, rfl⟩
  · show t'.cosm.cols = _; rw [a1, c2]
  · show tq'.cosm.cols = _; rw [b1, d2]

theorem initOutputs_inv {dbg : Bool} {s s1 : St α} (h : initOutputs dbg s = .ok s1) :
    s1.inp = s.inp ∧ s1.grid = s.grid := by
  unfold initOutputs at h
  obtain ⟨_, _, h⟩ := bind_ok h
  obtain ⟨_, _, h⟩ := bind_ok h
  obtain ⟨_, _, h⟩ := bind_ok h
  obtain ⟨_, _, h⟩ := bind_ok h
  obtain ⟨_, _, h⟩ := bind_ok h
  obtain ⟨_, _, h⟩ := bind_ok h
  obtain ⟨_, _, h⟩ := bind_ok h
  obtain ⟨_, _, h⟩ := bind_ok h
  obtain ⟨⟨_, _⟩, _, h⟩ := bind_ok h
  obtain ⟨_, _, h⟩ := bind_ok h
  obtain ⟨_, _, h⟩ := bind_ok h
  obtain ⟨_, _, h⟩ := bind_ok h
  cases h
  exact ⟨rfl, rfl⟩

theorem surfaceSolve_inv {dbg : Bool} {b : Nat} {s : St α} {r : St α × Option (Report α)}
    (h : surfaceSolve dbg b s = .ok r) :
    ∃ js wmns wmnc rz wb, s.inp.compute_surfs.rdN b = .ok js ∧ vcoordsRZ s.inp s.grid js = .ok rz ∧
      vcoordsW s.inp s.grid js wmns wmnc = .ok wb := by
  unfold surfaceSolve at h
  obtain ⟨js, h1, h⟩ := bind_ok h
  obtain ⟨t, h2, h⟩ := bind_ok h
  obtain ⟨bI, h3, h⟩ := bind_ok h
  obtain ⟨bG, h4, h⟩ := bind_ok h
  obtain ⟨L, h5, h⟩ := bind_ok h
  unfold localWork at h5
  obtain ⟨rz, h6, h5⟩ := bind_ok h5
  obtain ⟨wb, h7, h5⟩ := bind_ok h5
  exact ⟨js, t.wmns, t.wmnc, rz, wb, h1, h6, h7⟩

theorem vcoordsRZ_inv {I : Inputs α} {g : Grid α} {js : Int} {rz : RZ α}
    (h : vcoordsRZ I g js = .ok rz) {np : Nat} (hnp : 1 ≤ np) (hn : g.n_theta_zeta = some (np : Int))
    {K : Nat} (hK : I.mnmax = some (K : Int)) {k : Nat} (hk : k < K) {m : Int}
    (hm : I.xm.rdN k = .ok m) : 0 ≤ m ∧ m.toNat < g.trig.cosm.cols := by
  unfold vcoordsRZ at h
  rw [hn, hK, need_some, ok_bind] at h
  obtain ⟨a, h1, h⟩ := bind_ok h
  rw [need_some, ok_bind] at h
  obtain ⟨z, h2, h⟩ := bind_ok h
  rw [Int.toNat_natCast] at h
  obtain ⟨a1, b1, h3, h4⟩ := loop_iter h hk
  rw [hm, ok_bind] at h4
  obtain ⟨n, h5, h4⟩ := bind_ok h4
  obtain ⟨p, h6, h4⟩ := bind_ok h4
  obtain ⟨a2, h7, h4⟩ := bind_ok h4
  obtain ⟨an, h8, h4⟩ := bind_ok h4
  rw [Int.toNat_natCast] at h4
  obtain ⟨a3, b3, h9, h10⟩ := loop_iter h4 (i := 0) (by omega)
  unfold rzStep at h10
  obtain ⟨tc, h11, h10⟩ := bind_ok h10
  unfold trigCos at h11
  obtain ⟨cm, h12, h11⟩ := bind_ok h11
  have := mrd_inv h12
  exact ⟨this.2.1, this.2.2.2⟩

end Booz
