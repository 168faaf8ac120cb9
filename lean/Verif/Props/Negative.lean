import Verif.Props.Exact

/-!
# C58: negative resolutions
-/

namespace Booz
open Spec
variable {α : Type} [Arith α]

/-- The tables of the Boozer angles have `mboz + 1` and `nboz + 1` columns, of which the first two are filled when there are
grid points. -/
theorem surfaceSolve_columns {dbg : Bool} {b : Nat} {s : St α} {r : St α × Option (Report α)}
    (h : surfaceSolve dbg b s = .ok r) {np : Int} (hn : s.grid.n_theta_zeta = some np) :
    -1 ≤ s.inp.mboz ∧ -1 ≤ s.inp.nboz ∧ (1 ≤ np → 1 ≤ s.inp.mboz) := by
  have key : -1 ≤ s.inp.mboz ∧ -1 ≤ s.inp.nboz := by
    unfold surfaceSolve at h
    obtain ⟨js, h1, h⟩ := bind_ok h
    obtain ⟨t, h2, h⟩ := bind_ok h
    obtain ⟨bI, h3, h⟩ := bind_ok h
    obtain ⟨bG, h4, h⟩ := bind_ok h
    obtain ⟨L, h5, h⟩ := bind_ok h
    unfold localWork at h5
    obtain ⟨rz, h6, h5⟩ := bind_ok h5
    obtain ⟨wb, h7, h5⟩ := bind_ok h5
    obtain ⟨har, h8, h5⟩ := bind_ok h5
    obtain ⟨tr, h9, h5⟩ := bind_ok h5
    unfold boozerTrig at h9
    obtain ⟨_, _, h9⟩ := bind_ok h9
    obtain ⟨_, _, h9⟩ := bind_ok h9
    obtain ⟨_, _, h9⟩ := bind_ok h9
    obtain ⟨mc, g4, h9⟩ := bind_ok h9
    obtain ⟨nc, g5, h9⟩ := bind_ok h9
    obtain ⟨tz, g6, h9⟩ := bind_ok h9
    obtain ⟨rfl, -⟩ := i32_inv g4
    obtain ⟨rfl, -⟩ := i32_inv g5
    obtain ⟨z1, z2, -, -⟩ := zeroTrig_inv g6
    simp only at z1 z2
    constructor <;> omega
  refine ⟨key.1, key.2, fun hp => surfaceSolve_mboz h (np := np.toNat) (by omega) ?_⟩
  rw [hn]
  congr 1
  omega

/-- The number of grid points that `init` computes. -/
theorem initGrid_points {dbg : Bool} {s s1 : St α} (h : initGrid dbg s = .ok s1) {asym : Bool} (ha : s.inp.asym = some asym) :
    s1.inp = s.inp ∧ s1.grid.n_theta_zeta = some
      ((if asym then 2 * (2 * s.inp.mboz + 1) else (2 * (2 * s.inp.mboz + 1)).tdiv 2 + 1) *
        (if s.inp.nboz = 0 then 1 else 2 * (2 * s.inp.nboz + 1))) := by
  unfold initGrid at h
  rw [ha] at h
  simp only at h
  obtain ⟨a, h1, h⟩ := bind_ok h
  obtain ⟨a', h2, h⟩ := bind_ok h
  obtain ⟨nt, h3, h⟩ := bind_ok h
  obtain ⟨b, h4, h⟩ := bind_ok h
  obtain ⟨b', h5, h⟩ := bind_ok h
  obtain ⟨nz, h6, h⟩ := bind_ok h
  obtain ⟨nu2, h7, h⟩ := bind_ok h
  obtain ⟨c, h8, h⟩ := bind_ok h
  obtain ⟨e, h9, h⟩ := bind_ok h
  obtain ⟨e', h10, h⟩ := bind_ok h
  obtain ⟨mnb, h11, h⟩ := bind_ok h
  obtain ⟨xm, h12, h⟩ := bind_ok h
  obtain ⟨xn, h13, h⟩ := bind_ok h
  obtain ⟨⟨x1, x2, x3⟩, h14, h⟩ := bind_ok h
  obtain ⟨_, h15, h⟩ := bind_ok h
  obtain ⟨a0, h16, h⟩ := bind_ok h
  cases h16
  obtain ⟨npts, h17, h⟩ := bind_ok h
  obtain ⟨dt, h18, h⟩ := bind_ok h
  obtain ⟨p0, h19, h⟩ := bind_ok h
  obtain ⟨q, h20, h⟩ := bind_ok h
  obtain ⟨tg, h21, h⟩ := bind_ok h
  obtain ⟨zg, h22, h⟩ := bind_ok h
  obtain ⟨⟨y1, y2, y3⟩, h23, h⟩ := bind_ok h
  cases h
  obtain ⟨rfl, -⟩ := i32_inv h1
  obtain ⟨rfl, -⟩ := i32_inv h2
  obtain ⟨rfl, -⟩ := i32_inv h3
  obtain ⟨rfl, -⟩ := i32_inv h4
  obtain ⟨rfl, -⟩ := i32_inv h5
  obtain ⟨rfl, -⟩ := i32_inv h6
  obtain ⟨rfl, -⟩ := i32_inv h7
  obtain ⟨rfl, -⟩ := i32_inv h17
  exact ⟨rfl, rfl⟩

/-- **C58, all that holds.**  With `mboz < 1` or `nboz < 0` there is no result, for any object, except when both are -1 and the
object is stellarator-symmetric — the case in which `C58_false` shows a result.  Missing besides this case: instead of an
exception there is undefined behaviour. -/
theorem C58_negative_partial {s : St α} {c : Contents} (hp : Prepared s.inp c) (h : s.inp.mboz < 1 ∨ s.inp.nboz < 0)
    (hne : ¬ (s.inp.mboz = -1 ∧ s.inp.nboz = -1 ∧ c.asym = false)) : ∃ w, run false s = ub w := by
  by_cases h0 : 0 ≤ s.inp.nboz
  · exact C58_partial hp (.inl ⟨by omega, h0⟩)
  by_cases h1 : 0 ≤ s.inp.mboz
  · exact C58_partial hp (.inr ⟨by omega, h1⟩)
  refine run_ub_of_not_ok fun r hr => ?_
  obtain ⟨s3, hi, hl⟩ := run_inv hr
  obtain ⟨s1, s2, g1, g2, g3⟩ := init_inv hi
  obtain ⟨e1, e2⟩ := initGrid_points g1 hp.asym
  have t : s2.inp = s1.inp ∧ s2.grid.n_theta_zeta = s1.grid.n_theta_zeta := by
    unfold initTables at g2
    obtain ⟨_, _, g2⟩ := bind_ok g2
    obtain ⟨_, _, g2⟩ := bind_ok g2
    obtain ⟨_, _, g2⟩ := bind_ok g2
    obtain ⟨_, _, g2⟩ := bind_ok g2
    obtain ⟨_, _, g2⟩ := bind_ok g2
    obtain ⟨_, _, g2⟩ := bind_ok g2
    obtain ⟨_, _, g2⟩ := bind_ok g2
    obtain ⟨_, _, g2⟩ := bind_ok g2
    obtain ⟨_, _, g2⟩ := bind_ok g2
    obtain ⟨_, _, g2⟩ := bind_ok g2
    obtain ⟨_, _, g2⟩ := bind_ok g2
    obtain ⟨_, _, g2⟩ := bind_ok g2
    obtain ⟨_, _, g2⟩ := bind_ok g2
    obtain ⟨_, _, g2⟩ := bind_ok g2
    cases g2
    exact ⟨rfl, rfl⟩
  obtain ⟨o1, o2⟩ := initOutputs_inv g3
  have hinp : s3.inp = s.inp := by rw [o1, t.1, e1]
  rw [hinp] at hl
  obtain ⟨st, b, ha, hb⟩ := loop_iter hl (i := 0) (by rw [hp.surfs.1]; exact hp.surfs_pos)
  cases ha
  obtain ⟨⟨s4, rep⟩, hs, -⟩ := bind_ok hb
  obtain ⟨k1, k2, k3⟩ := surfaceSolve_columns hs (by rw [o2, t.2, e2])
  rw [hinp] at k1 k2 k3
  have m1 : s.inp.mboz = -1 := by omega
  have n1 : s.inp.nboz = -1 := by omega
  have ca : c.asym = true := by
    by_contra hc
    exact hne ⟨m1, n1, by simpa using hc⟩
  rw [ca, m1, n1] at k3
  exact absurd (k3 (by decide)) (by decide)

/-- The example with `mboz = nboz = -2`, and the asymmetric one with -1. -/
example : (∀ asym : Bool, ∃ w, run false ({ Ex.st (α := α) asym with
      inp := { Ex.inputs asym with mboz := -2, nboz := -2 } }) = ub w) ∧
    ∃ w, run false ({ Ex.st (α := α) true with inp := { Ex.inputs true with mboz := -1, nboz := -1 } }) = ub w :=
  ⟨fun asym => C58_negative_partial (c := Ex.contents asym) { Ex.prepared (α := α) asym with }
    (.inl (by show (-2 : Int) < 1; decide)) (fun h => absurd h.1 (by show ¬ (-2 : Int) = -1; decide)),
  C58_negative_partial (c := Ex.contents true) { Ex.prepared (α := α) true with }
    (.inl (by show (-1 : Int) < 1; decide)) (fun h => absurd h.2.2 (by show ¬ true = false; decide))⟩

end Booz
