import Verif.Lemmas.Covers
import Verif.Examples
import Verif.RealArith
import Verif.Props.Run

/-!
# C98: arrays with more entries than needed, and the documented sizes of `lmnc` and `lmns`

The attribute descriptions (`bindings.cpp:218-230`) give `lmnc` and `lmns` the size `mnmax_nyq x ns_in`;
`surface_solve.cpp:127-153` reads row `jmn` for every `jmn < mnmax`.
-/

namespace Booz
open Spec
variable {α : Type} [Arith α]

/-- A completed vcoords_rz part has read every row `k < mnmax` of `lmns`. -/
theorem vcoordsRZ_lmns {I : Inputs α} {g : Grid α} {js : Int} {rz : RZ α}
    (h : vcoordsRZ I g js = .ok rz) {np : Nat} (hnp : 1 ≤ np) (hn : g.n_theta_zeta = some (np : Int))
    {K : Nat} (hK : I.mnmax = some (K : Int)) {k : Nat} (hk : k < K) : k < I.lmns.rows := by
  unfold vcoordsRZ at h
  rw [hn, hK, need_some, ok_bind] at h
  obtain ⟨a, h1, h⟩ := bind_ok h
  rw [need_some, ok_bind] at h
  obtain ⟨z, h2, h⟩ := bind_ok h
  rw [Int.toNat_natCast] at h
  obtain ⟨a1, b1, h3, h4⟩ := loop_iter h hk
  obtain ⟨m, -, h4⟩ := bind_ok h4
  obtain ⟨n, h5, h4⟩ := bind_ok h4
  obtain ⟨p, h6, h4⟩ := bind_ok h4
  obtain ⟨a2, h7, h4⟩ := bind_ok h4
  obtain ⟨an, h8, h4⟩ := bind_ok h4
  rw [Int.toNat_natCast] at h4
  obtain ⟨a3, b3, h9, h10⟩ := loop_iter h4 (i := 0) (by omega)
  unfold rzStep at h10
  obtain ⟨_, -, h10⟩ := bind_ok h10
  obtain ⟨_, -, h10⟩ := bind_ok h10
  obtain ⟨_, -, h10⟩ := bind_ok h10
  obtain ⟨_, -, h10⟩ := bind_ok h10
  obtain ⟨_, -, h10⟩ := bind_ok h10
  obtain ⟨_, -, h10⟩ := bind_ok h10
  obtain ⟨_, h11, -⟩ := bind_ok h10
  have := (mrd_inv h11).2.2.1
  simpa using this

theorem initTables_npts (s : St α) :
    AllOk (fun t => t.grid.n_theta_zeta = s.grid.n_theta_zeta) (initTables s) := by
  unfold initTables
  repeat' refine AllOk.bind fun _ => ?_
  exact AllOk.pure rfl

/-- A run over at least one surface needs `mnmax` rows of `lmns`. -/
theorem run_needs_lmns {dbg : Bool} {s : St α} {d : Dims} {r : St α × List (Report α)}
    (h : run dbg s = .ok r) (hM : s.inp.mboz = (d.M : Int)) (hN : s.inp.nboz = (d.N : Int))
    (hp : s.inp.nfp = some (d.nfp : Int)) (ha : s.inp.asym = some d.asym)
    (hK : s.inp.mnmax = some (d.mnmax : Int)) (hs : 1 ≤ s.inp.compute_surfs.size) :
    d.mnmax ≤ s.inp.lmns.rows := by
  obtain ⟨s3, hi, hl⟩ := run_inv h
  obtain ⟨s1, s2, h1, h2, h3⟩ := init_inv hi
  obtain ⟨-, -, -, -, e1, e2, e3⟩ := initGrid_inv (d := d) h1 hM hN hp ha
  have hinp := init_inp hi
  have hg : s3.grid.n_theta_zeta = some (d.np : Int) := by
    rw [(initOutputs_inv h3).2, ← e2]
    exact initTables_npts s1 s2 h2
  obtain ⟨st, b, hx, hb⟩ := loop_iter hl (i := 0) (by rw [hinp]; exact hs)
  cases hx
  obtain ⟨⟨s4, rep⟩, hs4, -⟩ := bind_ok hb
  obtain ⟨js, ws, wc, rz, wb, -, hrz, -⟩ := surfaceSolve_inv hs4
  by_contra hc
  have := vcoordsRZ_lmns hrz (np_pos d) hg (by rw [hinp]; exact hK) (k := s.inp.lmns.rows) (by omega)
  rw [hinp] at this
  omega

omit [Arith α] in
/-- Inputs made ready by other `lmnc` and `lmns` are ready with any pair of the right size. -/
theorem ready_lambda {I : Inputs α} {d : Dims} {C S C' S' : Mat α}
    (h : RunReady { I with lmnc := C, lmns := S } d) (hS : S'.Full d.mnmax d.ns)
    (hC : d.asym = true → C'.Full d.mnmax d.ns) : RunReady { I with lmnc := C', lmns := S' } d :=
  { h with lmns := hS, lmnc := hC }

omit [Arith α] in
theorem covers_self (I : Inputs α) {C S : Mat α} (hC : MatCovers C I.lmnc) (hS : MatCovers S I.lmns) :
    Covers { I with lmnc := C, lmns := S } I where
  verbose := rfl
  asym := rfl
  nfp := rfl
  mpol := rfl
  ntor := rfl
  mnmax := rfl
  mpol_nyq := rfl
  ntor_nyq := rfl
  mnmax_nyq := rfl
  ns_in := rfl
  mboz := rfl
  nboz := rfl
  compute_surfs := rfl
  xm _ _ h := h
  xn _ _ h := h
  xm_nyq _ _ h := h
  xn_nyq _ _ h := h
  s_in _ _ h := h
  iota _ _ h := h
  rmnc _ _ _ h := h
  rmns _ _ _ h := h
  zmnc _ _ _ h := h
  zmns _ _ _ h := h
  lmnc := hC
  lmns := hS
  bmnc _ _ _ h := h
  bmns _ _ _ h := h
  bsubumnc _ _ _ h := h
  bsubumns _ _ _ h := h
  bsubvmnc _ _ _ h := h
  bsubvmns _ _ _ h := h

omit [Arith α] in
/-- The first rows of an initialised matrix. -/
theorem firstRows {n r c : Nat} {a : Mat α} (d : α) (ha : a.Full r c) (hn : n ≤ r) :
    MatCovers (Mat.tab n c (a.val d)) a := by
  intro i j x h
  obtain ⟨hi, hj, -⟩ := id h
  have hi : i < n := hi
  have hj : j < c := hj
  have e := mrdN_ok.mpr h
  rw [Mat.rdN_tab hi hj] at e
  cases e
  refine mrdN_ok.mp ?_
  conv_lhs => rw [Mat.Full.eq_tab d ha]
  exact Mat.rdN_tab (by omega) hj

/-- **C98 (extra entries).**  If `run` returns, then it returns with the same outputs, the same grid and the
same printed reports when the input arrays have further entries, rows or columns, or values in places
that were never assigned, as long as the entries that were there stay where they are.  The input
arrays themselves are left as they are. -/
theorem C98_extra {dbg : Bool} {s t : St α} {reps : List (Report α)} {J : Inputs α}
    (c : Covers s.inp J) (h : run dbg s = .ok (t, reps)) :
    run dbg { s with inp := J } = .ok ({ t with inp := J }, reps) :=
  run_le c dbg s rfl (t, reps) h

/-- **C98 (documented sizes, fewer Nyquist modes).**  With the documented sizes and
`mnmax_nyq < mnmax`, transforming at least one surface reads past the rows of `lmns`: undefined
behaviour. -/
theorem C98_too_few {s : St α} {d : Dims} (h : DocumentedSizes s.inp d) (hs : 1 ≤ d.nsb)
    (hm : d.mnq < d.mnmax) : ∃ w, run false s = ub w := by
  refine run_ub_of_not_ok fun r hr => ?_
  obtain ⟨C, S, hr'⟩ := h.others
  have := run_needs_lmns (d := d) hr hr'.mboz hr'.nboz hr'.nfp hr'.asym hr'.mnmax
    (by have := hr'.surfs.1; simp only at this; omega)
  rw [h.lmns.1] at this
  omega

/-- **C98 (documented sizes).**  With the documented sizes and at least as many Nyquist modes as modes,
`run` returns, with the results obtained from the first `mnmax` rows of `lmns` and `lmnc`.

Missing for the full claim: the case `mnmax_nyq < mnmax` (`C98_too_few`). -/
theorem C98_partial {s : St α} {d : Dims} (h : DocumentedSizes s.inp d) (hm : d.mnmax ≤ d.mnq) :
    (∃ r, run false s = .ok r) ∧
      ∀ C S : Mat α, S.Full d.mnmax d.ns → MatCovers S s.inp.lmns → MatCovers C s.inp.lmnc →
        ∀ (dbg : Bool) (t : St α) (reps : List (Report α)),
          run dbg { s with inp := { s.inp with lmnc := C, lmns := S } } = .ok (t, reps) →
          run dbg s = .ok ({ t with inp := s.inp }, reps) := by
  have key : ∀ C S : Mat α, MatCovers S s.inp.lmns → MatCovers C s.inp.lmnc →
        ∀ (dbg : Bool) (t : St α) (reps : List (Report α)),
          run dbg { s with inp := { s.inp with lmnc := C, lmns := S } } = .ok (t, reps) →
          run dbg s = .ok ({ t with inp := s.inp }, reps) := fun C S h1 h2 dbg t reps hr =>
    C98_extra (s := { s with inp := { s.inp with lmnc := C, lmns := S } }) (covers_self s.inp h2 h1) hr
  refine ⟨?_, fun C S _ => key C S⟩
  obtain ⟨C, S, hr⟩ := h.others
  let S' : Mat α := Mat.tab d.mnmax d.ns (s.inp.lmns.val (ofInt 0))
  let C' : Mat α := if d.asym = true then Mat.tab d.mnmax d.ns (s.inp.lmnc.val (ofInt 0)) else s.inp.lmnc
  have hC : MatCovers C' s.inp.lmnc := by
    show MatCovers (if d.asym = true then _ else _) _
    split
    · next ha => exact firstRows _ (h.lmnc ha) hm
    · exact fun _ _ _ h => h
  have hready : RunReady { s.inp with lmnc := C', lmns := S' } d :=
    ready_lambda hr (Mat.full_tab _ _ _) fun ha => by
      show (if d.asym = true then _ else _ : Mat α).Full _ _
      rw [if_pos ha]
      exact Mat.full_tab _ _ _
  have hrun := run_ok (dbg := false) (s := { s with inp := { s.inp with lmnc := C', lmns := S' } }) hready
    (fun h => by cases h) (fun h => by cases h)
  exact ⟨_, key C' S' (firstRows _ h.lmns hm) hC false _ _ hrun⟩

/-- The example with two Nyquist modes, three modes, and `lmns` of the documented size. -/
def Ex.few : Inputs α :=
  { (Ex.inputs false : Inputs α) with
    mnmax_nyq := some 2, xm_nyq := Ex.vec [0, 0], xn_nyq := Ex.vec [0, 2]
    bmnc := Mat.tab 2 2 fun k j => ofInt (if k = 0 then 7 + j else 1)
    bsubumnc := Mat.tab 2 2 fun k _ => ofInt (if k = 0 then 1 else 0)
    bsubvmnc := Mat.tab 2 2 fun k _ => ofInt (if k = 0 then 20 else 5)
    lmns := Mat.tab 2 2 fun k j => ofInt (k + j) / ofInt 4 }

theorem Ex.few_documented : DocumentedSizes (Ex.few : Inputs α) { Ex.dims false with mnq := 2 } where
  others := ⟨Ex.few.lmnc, Mat.tab 3 2 fun k j => ofInt (k + j) / ofInt 4,
    { Ex.ready (α := α) false with
      mnmax_nyq := rfl
      mnmax_nyq_ge := (by decide : (1 : Nat) ≤ 2)
      xm_nyq := Ex.full_vec _
      xm_nyq_range := (by decide : ∀ k, k < 2 → 0 ≤ Vec.val 0 (Ex.vec (β := Int) [0, 0]) k ∧
        Vec.val 0 (Ex.vec (β := Int) [0, 0]) k ≤ ((2 : Nat) : Int))
      xn_nyq := Ex.full_vec _
      xn_nyq_range := (by decide : ∀ k, k < 2 → (Vec.val 0 (Ex.vec (β := Int) [0, 2]) k).natAbs / 2 ≤ 1)
      xn_nyq_int := (by decide : ∀ k, k < 2 → (Vec.val 0 (Ex.vec (β := Int) [0, 2]) k).natAbs < 2147483648)
      bmnc := Mat.full_tab 2 2 _
      bsubumnc := Mat.full_tab 2 2 _
      bsubvmnc := Mat.full_tab 2 2 _
      bmns := fun h => by cases h
      bsubumns := fun h => by cases h
      bsubvmns := fun h => by cases h }⟩
  lmns := Mat.full_tab 2 2 _
  lmnc h := by cases h

/-- **C98 is false of the code**: inputs with the documented sizes need not be transformed. -/
theorem C98_false : ¬ ∀ (s : St ℝ) (d : Dims), DocumentedSizes s.inp d → 1 ≤ d.nsb →
    ∃ r, run false s = .ok r := by
  intro h
  obtain ⟨r, hr⟩ := h { (construct : St ℝ) with inp := Ex.few } _ Ex.few_documented
    (by decide : (1 : Nat) ≤ 2)
  obtain ⟨w, hw⟩ := C98_too_few (s := { (construct : St ℝ) with inp := Ex.few }) Ex.few_documented
    (by decide : (1 : Nat) ≤ 2) (by decide : (2 : Nat) < 3)
  rw [hr] at hw
  cases hw

/-- The hypotheses of `C98_too_few` can be met. -/
example : ∃ w, run false { (construct : St ℝ) with inp := Ex.few } = ub w :=
  C98_too_few (d := { Ex.dims false with mnq := 2 }) Ex.few_documented (by decide : (1 : Nat) ≤ 2)
    (by decide : (2 : Nat) < 3)

/-- The asymmetric example with `lmnc` and `lmns` of the documented size (four rows, three modes). -/
def Ex.many : Inputs α :=
  { (Ex.inputs true : Inputs α) with
    lmns := Mat.tab 4 2 fun k j => if k = 3 then ofInt 99 else ofInt (k + j) / ofInt 4
    lmnc := Mat.tab 4 2 fun k j => if k = 3 then ofInt 77 else ofInt (k + j) / ofInt 8 }

theorem Ex.many_documented : DocumentedSizes (Ex.many : Inputs α) (Ex.dims true) where
  others := ⟨_, _, Ex.ready (α := α) true⟩
  lmns := Mat.full_tab 4 2 _
  lmnc _ := Mat.full_tab 4 2 _

/-- The hypotheses of `C98_partial` can be met. -/
example : ∃ r, run false { (construct : St ℝ) with inp := Ex.many } = .ok r :=
  (C98_partial (d := Ex.dims true) Ex.many_documented (by decide : (3 : Nat) ≤ 4)).1

/-- The hypotheses of `C98_extra` can be met: the example, and the example with a fourth row in `lmns`
and `lmnc`. -/
example : ∃ t reps, run false (Ex.st true : St ℝ) = .ok (t, reps) ∧
    run false { (Ex.st true : St ℝ) with inp := Ex.many } = .ok ({ t with inp := Ex.many }, reps) := by
  obtain ⟨⟨t, reps⟩, hrun⟩ : ∃ r, run false (Ex.st true : St ℝ) = .ok r :=
    ⟨_, run_ok (dbg := false) (Ex.ready true) (fun h => by cases h) (fun h => by cases h)⟩
  refine ⟨t, reps, hrun, C98_extra (s := (Ex.st true : St ℝ)) (J := Ex.many) ?_ hrun⟩
  refine covers_self (Ex.many : Inputs ℝ) (C := (Ex.st true : St ℝ).inp.lmnc)
    (S := (Ex.st true : St ℝ).inp.lmns) ?_ ?_
  · intro i j x h
    obtain ⟨hi, hj, -⟩ := id h
    have hi : i < 3 := hi
    have hj : j < 2 := hj
    have e := mrdN_ok.mpr h
    rw [show (Ex.st true : St ℝ).inp.lmnc = Mat.tab 3 2 fun k j => ofInt (k + j) / ofInt 8 from rfl,
      Mat.rdN_tab hi hj] at e
    cases e
    refine mrdN_ok.mp ?_
    show (Mat.tab 4 2 _).rdN i j = _
    rw [Mat.rdN_tab (by omega) hj, if_neg (by omega)]
  · intro i j x h
    obtain ⟨hi, hj, -⟩ := id h
    have hi : i < 3 := hi
    have hj : j < 2 := hj
    have e := mrdN_ok.mpr h
    rw [show (Ex.st true : St ℝ).inp.lmns = Mat.tab 3 2 fun k j => ofInt (k + j) / ofInt 4 from rfl,
      Mat.rdN_tab hi hj] at e
    cases e
    refine mrdN_ok.mp ?_
    show (Mat.tab 4 2 _).rdN i j = _
    rw [Mat.rdN_tab (by omega) hj, if_neg (by omega)]

end Booz
