import Verif.Lemmas.RunInv
import Verif.Lemmas.RunOk
import Verif.Spec.Exact

/-!
# What a successful `run` says about the numbers it used
-/

namespace Booz
open Spec
variable {α : Type} [Arith α]

theorem initTrigFirst_inv {theta : Vec α} {j : Nat} {t t' : Trig α} (h : initTrigFirst theta j t = .ok t') :
    t'.cosn.cols = t.cosn.cols ∧ 1 ≤ t.cosn.cols := by
  unfold initTrigFirst at h
  obtain ⟨c1, g1, h⟩ := bind_ok h
  obtain ⟨c2, g2, h⟩ := bind_ok h
  obtain ⟨_, _, h⟩ := bind_ok h
  obtain ⟨c4, g4, h⟩ := bind_ok h
  obtain ⟨_, _, h⟩ := bind_ok h
  obtain ⟨c6, g6, h⟩ := bind_ok h
  cases h
  have := mwrN_inv g2
  exact ⟨this.2.2.2, by omega⟩

/-- A successful `init_trig` keeps the number of toroidal columns, and needs one of them. -/
theorem initTrig_invN {theta zeta : Vec α} {t t' : Trig α} {mmax nmax nfpx : Int}
    (h : initTrig theta zeta t mmax nmax nfpx = .ok t') :
    t'.cosn.cols = t.cosn.cols ∧ (1 ≤ theta.size → 1 ≤ t.cosn.cols) := by
  unfold initTrig at h
  obtain ⟨t1, h1, h⟩ := bind_ok h
  have key : ∃ t2, (if nmax ≥ 1 then loop theta.size (initTrigFirstN zeta nfpx) t1 else pure t1) =
      .ok t2 ∧ (do
        let (cosm, sinm) ← trigRest theta.size mmax (t2.cosm, t2.sinm)
        let (cosn, sinn) ← trigRest theta.size nmax (t2.cosn, t2.sinn)
        pure { cosm := cosm, sinm := sinm, cosn := cosn, sinn := sinn } : Res (Trig α)) = .ok t' := by
    split at h
    · next hc =>
      obtain ⟨t2, h2, h⟩ := bind_ok h
      exact ⟨t2, by rw [if_pos hc]; exact h2, h⟩
    · next hc =>
      obtain ⟨t2, h2, h⟩ := bind_ok h
      exact ⟨t2, by rw [if_neg hc]; exact h2, h⟩
  obtain ⟨t2, h2, h⟩ := key
  obtain ⟨⟨c, s⟩, h3, h⟩ := bind_ok h
  obtain ⟨⟨c', s'⟩, h4, h⟩ := bind_ok h
  cases h
  have e1 : t1.cosn.cols = t.cosn.cols := by
    refine loop_inv (P := fun _ (st : Trig α) => st.cosn.cols = t.cosn.cols) rfl ?_ h1
    intro i _ a b hP hb
    rw [(initTrigFirst_inv hb).1, hP]
  have e2 : t2.cosn.cols = t1.cosn.cols := by
    split at h2
    · refine loop_inv (P := fun _ (st : Trig α) => st.cosn.cols = t1.cosn.cols) rfl ?_ h2
      intro i _ a b hP hb
      unfold initTrigFirstN at hb
      obtain ⟨_, _, hb⟩ := bind_ok hb
      obtain ⟨c1, g1, hb⟩ := bind_ok hb
      obtain ⟨_, _, hb⟩ := bind_ok hb
      obtain ⟨_, _, hb⟩ := bind_ok hb
      cases hb
      show c1.cols = _
      rw [(mwrN_inv g1).2.2.2, hP]
    · cases h2; rfl
  refine ⟨?_, ?_⟩
  · rw [trigRest_dims h4]; exact e2.trans e1
  · intro hs
    obtain ⟨a, b, ha, hb⟩ := loop_iter h1 (i := 0) (by omega)
    cases ha
    exact (initTrigFirst_inv hb).2

theorem zeroTrig_inv {a b c : Int} {t : Trig α} (ht : zeroTrig a b c = .ok t) :
    0 ≤ b ∧ 0 ≤ c ∧ t.cosm.cols = b.toNat ∧ t.cosn.cols = c.toNat := by
  unfold zeroTrig at ht
  obtain ⟨c1, g1, ht⟩ := bind_ok ht
  obtain ⟨c2, g2, ht⟩ := bind_ok ht
  obtain ⟨c3, g3, ht⟩ := bind_ok ht
  obtain ⟨c4, g4, ht⟩ := bind_ok ht
  cases ht
  unfold Mat.setZero at g1 g3
  split at g1
  · next hc =>
    split at g3
    · next hd => cases g1; cases g3; exact ⟨hc.2, hd.2, rfl, rfl⟩
    · cases g3
  · cases g1

/-- Success of the table set-up: the toroidal part. -/
theorem initTables_invN {s s1 : St α} {np : Nat} {n nq q : Int} (h : initTables s = .ok s1)
    (hg : s.grid.theta_grid.size = np) (hnp : 1 ≤ np) (hn : s.inp.ntor = some n)
    (hq : s.inp.mpol_nyq = some q) (hnq : s.inp.ntor_nyq = some nq) :
    0 ≤ n ∧ 0 ≤ nq ∧ FitsInt (n + 1) ∧ FitsInt (q + 1) ∧ FitsInt (nq + 1) ∧
      s1.grid.trig.cosn.cols = (n + 1).toNat ∧ s1.grid.trigNyq.cosn.cols = (nq + 1).toNat := by
  unfold initTables at h
  obtain ⟨n0, h0, h⟩ := bind_ok h
  obtain ⟨p', h1, h⟩ := bind_ok h
  obtain ⟨nt, h2, h⟩ := bind_ok h
  obtain ⟨q', h3, h⟩ := bind_ok h
  obtain ⟨nq', h4, h⟩ := bind_ok h
  obtain ⟨nfp, h5, h⟩ := bind_ok h
  obtain ⟨nc, h6, h⟩ := bind_ok h
  obtain ⟨mcq, h7, h⟩ := bind_ok h
  obtain ⟨ncq, h8, h⟩ := bind_ok h
  obtain ⟨t, h9, h⟩ := bind_ok h
  obtain ⟨tq, h10, h⟩ := bind_ok h
  obtain ⟨mm, h11, h⟩ := bind_ok h
  obtain ⟨t', h12, h⟩ := bind_ok h
  obtain ⟨tq', h13, h⟩ := bind_ok h
  cases h
  rw [hn] at h2; cases h2
  rw [hq] at h3; cases h3
  rw [hnq] at h4; cases h4
  obtain ⟨rfl, f6⟩ := i32_inv h6
  obtain ⟨rfl, f7⟩ := i32_inv h7
  obtain ⟨rfl, f8⟩ := i32_inv h8
  obtain ⟨a1, a2⟩ := initTrig_invN h12
  obtain ⟨b1, b2⟩ := initTrig_invN h13
  obtain ⟨-, c1, -, c2⟩ := zeroTrig_inv h9
  obtain ⟨-, d1, -, d2⟩ := zeroTrig_inv h10
  have a3 := a2 (by omega)
  have b3 := b2 (by omega)
  refine ⟨by omega, by omega, f6, f7, f8, ?_, ?_⟩
  · show t'.cosn.cols = _; rw [a1, c2]
  · show tq'.cosn.cols = _; rw [b1, d2]

theorem trigCos_inv {t : Trig α} {j : Nat} {m a s : Int} {x : α} (h : trigCos t j m a s = .ok x) :
    0 ≤ m ∧ m.toNat < t.cosm.cols ∧ 0 ≤ a ∧ a.toNat < t.cosn.cols := by
  unfold trigCos at h
  obtain ⟨cm, h1, h⟩ := bind_ok h
  obtain ⟨cn, h2, h⟩ := bind_ok h
  have a1 := mrd_inv h1
  have a2 := mrd_inv h2
  exact ⟨a1.2.1, a1.2.2.2, a2.2.1, a2.2.2.2⟩

theorem idiv_inv {a b c : Int} (h : idiv a b = .ok c) : b ≠ 0 ∧ c = a.tdiv b ∧ FitsInt (a.tdiv b) := by
  unfold idiv at h
  split at h
  · cases h
  · next hb => obtain ⟨rfl, hf⟩ := i32_inv h; exact ⟨hb, rfl, hf⟩

theorem vcoordsRZ_invN {I : Inputs α} {g : Grid α} {js : Int} {rz : RZ α}
    (h : vcoordsRZ I g js = .ok rz) {np : Nat} (hnp : 1 ≤ np) (hn : g.n_theta_zeta = some (np : Int))
    {p : Nat} (hp : I.nfp = some (p : Int))
    {K : Nat} (hK : I.mnmax = some (K : Int)) {k : Nat} (hk : k < K) {m n : Int}
    (hm : I.xm.rdN k = .ok m) (hxn : I.xn.rdN k = .ok n) :
    0 ≤ m ∧ m.toNat < g.trig.cosm.cols ∧ n.natAbs < 2147483648 ∧ n.natAbs / p < g.trig.cosn.cols := by
  unfold vcoordsRZ at h
  rw [hn, hK, need_some, ok_bind] at h
  obtain ⟨a, h1, h⟩ := bind_ok h
  rw [need_some, ok_bind] at h
  obtain ⟨z, h2, h⟩ := bind_ok h
  rw [Int.toNat_natCast] at h
  obtain ⟨a1, b1, h3, h4⟩ := loop_iter h hk
  rw [hm, ok_bind, hxn, ok_bind, hp, need_some, ok_bind] at h4
  obtain ⟨a2, h7, h4⟩ := bind_ok h4
  obtain ⟨an, h8, h4⟩ := bind_ok h4
  rw [Int.toNat_natCast] at h4
  obtain ⟨a3, b3, h9, h10⟩ := loop_iter h4 (i := 0) (by omega)
  unfold rzStep at h10
  obtain ⟨tc, h11, h10⟩ := bind_ok h10
  obtain ⟨c1, c2, c3, c4⟩ := trigCos_inv h11
  obtain ⟨rfl, hf⟩ := i32_inv h7
  obtain ⟨-, rfl, -⟩ := idiv_inv h8
  have e : ((n.natAbs : Int)).tdiv (p : Int) = ((n.natAbs / p : Nat) : Int) := by
    rw [Int.tdiv_eq_ediv_of_nonneg (by omega)]; simp
  rw [e, Int.toNat_natCast] at c4
  exact ⟨c1, c2, by have := hf.2; omega, c4⟩

theorem natAbs_tdiv (n : Int) (p : Nat) : (n.tdiv (p : Int)).natAbs = n.natAbs / p := by
  rw [Int.natAbs_tdiv]; rfl

theorem vcoordsW_inv {I : Inputs α} {g : Grid α} {js : Int} {wmns wmnc : Vec α} {wb : WB α}
    (h : vcoordsW I g js wmns wmnc = .ok wb) {np : Nat} (hnp : 1 ≤ np)
    (hn : g.n_theta_zeta = some (np : Int)) {p : Nat} (hp : I.nfp = some (p : Int))
    {K : Nat} (hK : I.mnmax_nyq = some (K : Int)) {k : Nat} (hk : k < K) {m n : Int}
    (hm : I.xm_nyq.rdN k = .ok m) (hxn : I.xn_nyq.rdN k = .ok n) :
    0 ≤ m ∧ m.toNat < g.trigNyq.cosm.cols ∧ n.natAbs / p < g.trigNyq.cosn.cols := by
  unfold vcoordsW at h
  rw [hn, hK, need_some, ok_bind] at h
  obtain ⟨a, h1, h⟩ := bind_ok h
  rw [need_some, ok_bind] at h
  obtain ⟨z, h2, h⟩ := bind_ok h
  rw [Int.toNat_natCast] at h
  obtain ⟨a1, b1, h3, h4⟩ := loop_iter h hk
  rw [hm, ok_bind, hxn, ok_bind, hp] at h4
  obtain ⟨an, h7, h4⟩ := bind_ok h4
  unfold absNOf at h7
  rw [need_some, ok_bind] at h7
  obtain ⟨q, h8, h7⟩ := bind_ok h7
  rw [Int.toNat_natCast] at h4
  obtain ⟨a3, b3, h9, h10⟩ := loop_iter h4 (i := 0) (by omega)
  unfold wStep at h10
  obtain ⟨tc, h11, h10⟩ := bind_ok h10
  obtain ⟨c1, c2, c3, c4⟩ := trigCos_inv h11
  obtain ⟨rfl, hf⟩ := i32_inv h7
  obtain ⟨-, rfl, -⟩ := idiv_inv h8
  rw [natAbs_tdiv, Int.toNat_natCast] at c4
  exact ⟨c1, c2, c4⟩

theorem build_size {β : Type} {n : Nat} {g : Nat → Res β} {v : Vec β} (h : Vec.build n g = .ok v) :
    v.size = n := by
  unfold Vec.build at h
  refine loop_inv (P := fun k (st : Vec β) => st.size = k) rfl ?_ h
  intro i _ a b hP hb
  obtain ⟨x, _, hb⟩ := bind_ok hb
  cases hb
  simp [hP]

/-- The tables of the Boozer angles need `mboz ≥ 1`. -/
theorem surfaceSolve_mboz {dbg : Bool} {b : Nat} {s : St α} {r : St α × Option (Report α)}
    (h : surfaceSolve dbg b s = .ok r) {np : Nat} (hnp : 1 ≤ np)
    (hn : s.grid.n_theta_zeta = some (np : Int)) : 1 ≤ s.inp.mboz := by
  unfold surfaceSolve at h
  obtain ⟨js, h1, h⟩ := bind_ok h
  obtain ⟨t, h2, h⟩ := bind_ok h
  obtain ⟨bI, h3, h⟩ := bind_ok h
  obtain ⟨bG, h4, h⟩ := bind_ok h
  obtain ⟨L, h5, h⟩ := bind_ok h
  unfold localWork at h5
  obtain ⟨rz, h6, h5⟩ := bind_ok h5
  obtain ⟨wb, h7, h5⟩ := bind_ok h5
  obtain ⟨har, h8, h5⟩ := bind_ok h5
  obtain ⟨tr, h9, h5⟩ := bind_ok h5
  have e1 : har.theta_Boozer.size = np := by
    unfold harfun at h8
    rw [hn, need_some, ok_bind] at h8
    obtain ⟨_, _, h8⟩ := bind_ok h8
    obtain ⟨_, _, h8⟩ := bind_ok h8
    obtain ⟨tB, g1, h8⟩ := bind_ok h8
    obtain ⟨_, _, h8⟩ := bind_ok h8
    obtain ⟨_, _, h8⟩ := bind_ok h8
    obtain ⟨_, _, h8⟩ := bind_ok h8
    obtain ⟨_, _, h8⟩ := bind_ok h8
    obtain ⟨_, _, h8⟩ := bind_ok h8
    cases h8
    show tB.size = np
    rw [build_size g1, Int.toNat_natCast]
  unfold boozerTrig at h9
  obtain ⟨_, _, h9⟩ := bind_ok h9
  obtain ⟨_, _, h9⟩ := bind_ok h9
  obtain ⟨_, _, h9⟩ := bind_ok h9
  obtain ⟨mc, g4, h9⟩ := bind_ok h9
  obtain ⟨_, _, h9⟩ := bind_ok h9
  obtain ⟨tz, g6, h9⟩ := bind_ok h9
  obtain ⟨_, g7, h9⟩ := bind_ok h9
  obtain ⟨rfl, -⟩ := i32_inv g4
  obtain ⟨z1, z2, z3, z4⟩ := zeroTrig_inv g6
  have := (initTrig_inv g7).2 (by omega)
  have h5' : s.inp.mboz = ({ s with out := { s.out with boozer_I := t.boozer_I, boozer_G := t.boozer_G } } : St α).inp.mboz := rfl
  simp only at z1 z3
  omega

/-- The mode count is never negative, so neither is `mboz` when `nboz` is not. -/
theorem initGrid_mboz {dbg : Bool} {s s1 : St α} (h : initGrid dbg s = .ok s1) (hN : 0 ≤ s.inp.nboz) :
    0 ≤ s.inp.mboz := by
  unfold initGrid at h
  simp only at h
  obtain ⟨a, h1, h⟩ := bind_ok h
  obtain ⟨a', h2, h⟩ := bind_ok h
  obtain ⟨nt, h3, h⟩ := bind_ok h
  obtain ⟨b, h4, h⟩ := bind_ok h
  obtain ⟨b', h5, h⟩ := bind_ok h
  obtain ⟨nz, h6, h⟩ := bind_ok h
  obtain ⟨nu2, h7, h⟩ := bind_ok h
  obtain ⟨c, h8, h⟩ := bind_ok h
  obtain ⟨e, h9, h⟩ := bind_ok h
  obtain ⟨e', h10, h⟩ := bind_ok h
  obtain ⟨mnb, h11, h⟩ := bind_ok h
  obtain ⟨xm, h12, h⟩ := bind_ok h
  obtain ⟨rfl, -⟩ := i32_inv h4
  obtain ⟨rfl, -⟩ := i32_inv h5
  obtain ⟨rfl, -⟩ := i32_inv h8
  obtain ⟨rfl, -⟩ := i32_inv h9
  obtain ⟨rfl, -⟩ := i32_inv h10
  obtain ⟨rfl, -⟩ := i32_inv h11
  unfold Vec.setZero at h12
  split at h12
  · next hc =>
    by_contra hneg
    have h1 : s.inp.mboz - 1 ≤ -2 := by omega
    nlinarith
  · cases h12

/-- The number of grid points is never negative, so neither is `nboz` when `mboz` is not. -/
theorem initGrid_nboz {dbg : Bool} {s s1 : St α} (h : initGrid dbg s = .ok s1) (hM : 0 ≤ s.inp.mboz) :
    0 ≤ s.inp.nboz := by
  unfold initGrid at h
  simp only at h
  obtain ⟨a, h1, h⟩ := bind_ok h
  obtain ⟨a', h2, h⟩ := bind_ok h
  obtain ⟨nt, h3, h⟩ := bind_ok h
  obtain ⟨b, h4, h⟩ := bind_ok h
  obtain ⟨b', h5, h⟩ := bind_ok h
  obtain ⟨nz, h6, h⟩ := bind_ok h
  obtain ⟨nu2, h7, h⟩ := bind_ok h
  obtain ⟨c, h8, h⟩ := bind_ok h
  obtain ⟨e, h9, h⟩ := bind_ok h
  obtain ⟨e', h10, h⟩ := bind_ok h
  obtain ⟨mnb, h11, h⟩ := bind_ok h
  obtain ⟨xm, h12, h⟩ := bind_ok h
  obtain ⟨xn, h13, h⟩ := bind_ok h
  obtain ⟨⟨x1, x2, x3⟩, h14, h⟩ := bind_ok h
  obtain ⟨_, h15, h⟩ := bind_ok h
  obtain ⟨a0, h16, h⟩ := bind_ok h
  obtain ⟨npts, h17, h⟩ := bind_ok h
  obtain ⟨dt, h18, h⟩ := bind_ok h
  obtain ⟨p0, h19, h⟩ := bind_ok h
  obtain ⟨q, h20, h⟩ := bind_ok h
  obtain ⟨tg, h21, h⟩ := bind_ok h
  obtain ⟨rfl, -⟩ := i32_inv h1
  obtain ⟨rfl, -⟩ := i32_inv h2
  obtain ⟨rfl, -⟩ := i32_inv h3
  obtain ⟨rfl, -⟩ := i32_inv h4
  obtain ⟨rfl, -⟩ := i32_inv h5
  obtain ⟨rfl, -⟩ := i32_inv h6
  obtain ⟨rfl, -⟩ := i32_inv h7
  obtain ⟨rfl, -⟩ := i32_inv h17
  by_contra hneg
  have ez : (if s.inp.nboz = 0 then (1 : Int) else 2 * (2 * s.inp.nboz + 1)) = 2 * (2 * s.inp.nboz + 1) :=
    if_neg (by omega)
  rw [ez] at h21
  rw [Int.mul_tdiv_cancel_left _ (by omega)] at h21
  have hn : 2 * (2 * s.inp.nboz + 1) ≤ -2 := by omega
  have h3 : 0 < (if a0 = true then 2 * (2 * s.inp.mboz + 1) else 2 * s.inp.mboz + 1 + 1) := by
    split <;> omega
  generalize (if a0 = true then 2 * (2 * s.inp.mboz + 1) else 2 * s.inp.mboz + 1 + 1) = A at h21 h3
  unfold Vec.setZero at h21
  split at h21
  · next hc => nlinarith
  · cases h21

/-- The selected surfaces are read from `s_in`. -/
theorem initOutputs_surfs {dbg : Bool} {s s1 : St α} (h : initOutputs dbg s = .ok s1) {k : Nat}
    (hk : k < s.inp.compute_surfs.size) {js : Int} (hj : s.inp.compute_surfs.rdN k = .ok js) :
    0 ≤ js ∧ js.toNat < s.inp.s_in.size := by
  unfold initOutputs at h
  obtain ⟨_, _, h⟩ := bind_ok h
  obtain ⟨_, h1, h⟩ := bind_ok h
  obtain ⟨a, b, _, h2⟩ := loop_iter h1 hk
  rw [hj, ok_bind] at h2
  obtain ⟨v, h3, h2⟩ := bind_ok h2
  unfold Vec.rd at h3
  split at h3
  · next hc =>
    unfold Vec.rdN at h3
    refine ⟨hc, ?_⟩
    by_contra hn
    rw [Array.getElem?_eq_none (by omega)] at h3
    cases h3
  · cases h3

end Booz
