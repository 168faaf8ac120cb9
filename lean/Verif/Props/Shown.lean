import Verif.Spec.Shown
import Verif.Lemmas.Attributes
import Verif.Props.Quadrature

/-!
# C87: what reading an array attribute shows
-/

namespace Booz
open Spec

section
variable {α : Type}

theorem item_take {w : VSess α} {a : Attr} {i j : Nat} {c : Elem α} (hi : i < (a.block w.sess.obj).rows)
    (hj : j < (a.block w.sess.obj).cols)
    (h : (a.block w.sess.obj).cells[i + (a.block w.sess.obj).rows * j]? = some c) :
    (w.take a).item w i j = .ok c := by
  have e : (w.take a).item w i j = if i < (a.block w.sess.obj).rows ∧ j < (a.block w.sess.obj).cols then
      if w.gen a = w.gen a then
        match (a.block w.sess.obj).cells[i + (a.block w.sess.obj).rows * j]? with
        | some c => .ok c
        | none => ub "array element out of range"
      else ub "storage of the array was freed"
    else .error (.throw "index out of range") := rfl
  rw [e, if_pos ⟨hi, hj⟩, if_pos rfl, h]

theorem rdN_cell {β : Type} {v : Vec β} {i : Nat} {x : β} (h : v.rdN i = .ok x) : v[i]? = some (some x) := by
  unfold Vec.rdN at h
  split at h
  · cases h; assumption
  · cases h
  · cases h

theorem shows_vec {w : VSess α} {a : Attr} {v : Vec α} (e : a.block w.sess.obj = .vec v) : ShowsVec w a v := by
  refine ⟨by show (a.block w.sess.obj).rows = _; rw [e]; rfl, by show (a.block w.sess.obj).cols = _; rw [e]; rfl,
    fun i x h => ?_⟩
  have h := rdN_cell h
  obtain ⟨hi, -⟩ := Array.getElem?_eq_some_iff.mp h
  refine item_take (by rw [e]; exact hi) (by rw [e]; exact Nat.zero_lt_one) ?_
  rw [e]
  simp [Block.vec, h]

theorem shows_ints {w : VSess α} {a : Attr} {v : Vec Int} (e : a.block w.sess.obj = .ints v) :
    (w.take a).rows = v.size ∧ (w.take a).cols = 1 ∧
    ∀ i x, v.rdN i = .ok x → (w.take a).item w i 0 = .ok (some (.inr x)) := by
  refine ⟨by show (a.block w.sess.obj).rows = _; rw [e]; rfl, by show (a.block w.sess.obj).cols = _; rw [e]; rfl,
    fun i x h => ?_⟩
  have h := rdN_cell h
  obtain ⟨hi, -⟩ := Array.getElem?_eq_some_iff.mp h
  refine item_take (by rw [e]; exact hi) (by rw [e]; exact Nat.zero_lt_one) ?_
  rw [e]
  simp [Block.ints, h]

theorem shows_mat {w : VSess α} {a : Attr} {m : Mat α} (e : a.block w.sess.obj = .mat m) : ShowsMat w a m := by
  refine ⟨by show (a.block w.sess.obj).rows = _; rw [e]; rfl, by show (a.block w.sess.obj).cols = _; rw [e]; rfl,
    fun i j x h => ?_⟩
  unfold Mat.rdN at h
  split at h
  · next hc =>
    have h := rdN_cell h
    refine item_take (by rw [e]; exact hc.1) (by rw [e]; exact hc.2) ?_
    rw [e]
    show (m.data.map _)[i + m.rows * j]? = _
    rw [show i + m.rows * j = j * m.rows + i by ring]
    simp [h]
  · cases h

/-- Reading a list of integers given to an integer vector. -/
theorem shows_list {w : VSess α} {a : Attr} {l : List Int} {v : Vec Int} (hv : pyToIntVec l = .ok v)
    (e : a.block w.sess.obj = .ints v) : ShowsInts w a l := by
  unfold pyToIntVec at hv
  split at hv
  swap
  · cases hv
  cases hv
  obtain ⟨h1, h2, h3⟩ := shows_ints e
  refine ⟨by rw [h1]; simp, h2, fun i x hx hf => h3 i x ?_⟩
  unfold Vec.rdN
  unfold FitsInt at hf
  have : x.bmod 4294967296 = x := Int.bmod_eq_of_le (by omega) (by omega)
  simp [hx, this]

theorem same_block {w w' : VSess α} {a : Attr} (e : a.block w'.sess.obj = a.block w.sess.obj) :
    ShowsSame w w' a := by
  refine ⟨by show (a.block w'.sess.obj).rows = _; rw [e]; rfl, by show (a.block w'.sess.obj).cols = _; rw [e]; rfl,
    fun i j => ?_⟩
  unfold View.item
  show (if i < (a.block w'.sess.obj).rows ∧ j < (a.block w'.sess.obj).cols then
      if w'.gen a = w'.gen a then
        match (a.block w'.sess.obj).cells[i + (a.block w'.sess.obj).rows * j]? with
        | some c => Except.ok c
        | none => ub "array element out of range"
      else ub "storage of the array was freed"
    else .error (.throw "index out of range")) = _
  rw [if_pos rfl, e]
  show _ = (if i < (a.block w.sess.obj).rows ∧ j < (a.block w.sess.obj).cols then
      if w.gen a = w.gen a then
        match (a.block w.sess.obj).cells[i + (a.block w.sess.obj).rows * j]? with
        | some c => Except.ok c
        | none => ub "array element out of range"
      else ub "storage of the array was freed"
    else .error (.throw "index out of range"))
  rw [if_pos (rfl : w.gen a = w.gen a)]

theorem storeInp_inv {β : Type} {r : Res β} {g : β → Inputs α → Inputs α} {b t : St α}
    (h : storeInp r g b = .ok () t) : ∃ x, r = .ok x ∧ t = { b with inp := g x b.inp } := by
  cases r with
  | ok x => cases h; exact ⟨x, rfl, rfl⟩
  | error e => cases e <;> cases h

/-- **C87, assignments.**  After `b.name = value` for an array attribute, reading `b.name` shows the
value, and every other array attribute (input or output) shows what it showed before; so do all array attributes
after an assignment to an attribute that is no array. -/
theorem C87_assign [Arith α] {w w' : VSess α} {x : Setting α} (h : VSess.assign x w = .ok () w') :
    ShowsValue w' x ∧ ∀ a, arrayOf x ≠ some a → ShowsSame w w' a := by
  unfold VSess.assign at h
  cases e : x.assign w.sess.obj with
  | exc m t => rw [e] at h; cases h
  | abort y => rw [e] at h; cases h
  | ub y => rw [e] at h; cases h
  | ok u t =>
    rw [e] at h
    cases h
    cases x <;> simp only [Setting.assign] at e
    all_goals first
      | (obtain ⟨v, hv, rfl⟩ := storeInp_inv e
         refine ⟨?_, fun a ha => same_block ?_⟩
         · first
             | exact trivial
             | exact shows_list hv rfl
             | (cases hv; exact shows_vec rfl)
             | (cases hv; exact shows_mat rfl)
         · cases a <;> first | rfl | exact absurd rfl ha)
      | (cases e
         refine ⟨shows_vec rfl, fun a ha => same_block ?_⟩
         cases a <;> first | rfl | exact absurd rfl ha)

theorem storeInp_exc {β : Type} {r : Res β} {g : β → Inputs α → Inputs α} {b t : St α} {m : String}
    (h : storeInp r g b = .exc m t) : t = b := by
  cases r with
  | ok x => cases h
  | error e => cases e <;> cases h; rfl

/-- An assignment leaves the members behind all other attributes alone; a rejected one all members. -/
theorem assign_block [Arith α] {s t : St α} {x : Setting α} {a : Attr}
    (h : (x.assign s = .ok () t ∧ arrayOf x ≠ some a) ∨ ∃ m, x.assign s = .exc m t) :
    a.block t = a.block s := by
  rcases h with ⟨e, ha⟩ | ⟨m, e⟩
  · cases x <;> simp only [Setting.assign] at e
    all_goals first
      | (obtain ⟨v, -, rfl⟩ := storeInp_inv e
         cases a <;> first | rfl | exact absurd rfl ha)
      | (cases e
         cases a <;> first | rfl | exact absurd rfl ha)
  · cases x <;> simp only [Setting.assign] at e
    all_goals first
      | (cases e; done)
      | (rw [storeInp_exc e])

/-- **C81, assignments, what holds.**  Let `v` be an array taken from an attribute, and let
`b.name = value` follow.

1. If `v` was taken from another attribute, it keeps its contents.
2. If `v` was taken from `b.name` and the value has the shape of `v`, then `v` shows what reading
   `b.name` again shows, that is (`C87_assign`) the value assigned.
3. If the value has another number of elements, every use of an element of `v` is undefined behaviour.
4. If the assignment is rejected with an exception, `v` keeps its contents.

Missing: that `v` keeps its contents in cases 2 and 3 as well (false, see `C81_assign_false`). -/
theorem C81_assign_partial [Arith α] {w w' : VSess α} {x : Setting α} (a : Attr) :
    (VSess.assign x w = .ok () w' → arrayOf x ≠ some a →
      ∀ i j, (w.take a).item w' i j = (w.take a).item w i j) ∧
    (VSess.assign x w = .ok () w' → (w'.take a).rows = (w.take a).rows → (w'.take a).cols = (w.take a).cols →
      (a.block w'.sess.obj).cells.size = (a.block w.sess.obj).cells.size →
      ∀ i j, (w.take a).item w' i j = (w'.take a).item w' i j) ∧
    (VSess.assign x w = .ok () w' →
      (a.block w'.sess.obj).cells.size ≠ (a.block w.sess.obj).cells.size →
      ∀ i j, i < (w.take a).rows → j < (w.take a).cols → ∃ why, (w.take a).item w' i j = ub why) ∧
    (∀ m, VSess.assign x w = .exc m w' →
      ∀ i j, (w.take a).item w' i j = (w.take a).item w i j) := by
  have keep : ∀ t : St α, a.block t = a.block w.sess.obj → ∀ i j,
      (w.take a).item (w.moved { w.sess with obj := t }) i j = (w.take a).item w i j := by
    intro t hb i j
    have e1 : (w.moved { w.sess with obj := t }).gen (w.take a).attr = w.gen (w.take a).attr :=
      if_pos (by unfold Attr.count; exact congrArg (·.cells.size) hb)
    have e2 : (w.take a).attr.block (w.moved { w.sess with obj := t }).sess.obj =
      (w.take a).attr.block w.sess.obj := hb
    unfold View.item
    rw [e1, e2]
  unfold VSess.assign
  cases e : x.assign w.sess.obj with
  | abort y => exact ⟨nofun, nofun, nofun, nofun⟩
  | ub y => exact ⟨nofun, nofun, nofun, nofun⟩
  | exc m t =>
    refine ⟨nofun, nofun, nofun, fun m' h => ?_⟩
    cases h
    exact keep t (assign_block (.inr ⟨_, e⟩))
  | ok u t =>
    refine ⟨fun h ha => ?_, fun h hr hc hn i j => ?_, fun h hn i j hi hj => ?_, nofun⟩
    · cases h
      exact keep t (assign_block (.inl ⟨e, ha⟩))
    · cases h
      have e1 : (w.moved { w.sess with obj := t }).gen a = w.gen a := if_pos hn
      have : (w.moved { w.sess with obj := t }).take a = w.take a := by
        unfold VSess.take at hr hc ⊢
        rw [e1, View.mk.injEq]
        exact ⟨rfl, rfl, hr, hc⟩
      rw [this]
    · cases h
      have e1 : (w.moved { w.sess with obj := t }).gen a = w.gen a + 1 := if_neg hn
      refine ⟨"storage of the array was freed", ?_⟩
      unfold View.item
      rw [if_pos ⟨hi, hj⟩]
      refine if_neg ?_
      show (w.moved { w.sess with obj := t }).gen a ≠ w.gen a
      omega

/-- Cases 2 and 3 of `C81_assign_partial` occur. -/
theorem surfs_assigned [Arith α] (w : VSess α) (hw : w.sess.obj.inp.compute_surfs = #[some 0, some 1]) :
    (∃ w', VSess.assign (.compute_surfs [3, 1]) w = .ok () w' ∧
      ∀ i j, (w.take .compute_surfs).item w' i j = (w'.take .compute_surfs).item w' i j) ∧
    (∃ w', VSess.assign (.compute_surfs [3]) w = .ok () w' ∧
      ∀ i j, i < (w.take .compute_surfs).rows → j < (w.take .compute_surfs).cols →
        ∃ why, (w.take .compute_surfs).item w' i j = ub why) := by
  have hs : (Attr.compute_surfs.block w.sess.obj).cells.size = 2 := by simp [Attr.block, Block.ints, hw]
  refine ⟨⟨_, rfl, (C81_assign_partial (x := .compute_surfs [3, 1]) .compute_surfs).2.1 rfl ?_ rfl ?_⟩,
    ⟨_, rfl, (C81_assign_partial (x := .compute_surfs [3]) .compute_surfs).2.2.1 rfl ?_⟩⟩
  · show 2 = w.sess.obj.inp.compute_surfs.size
    rw [hw]; rfl
  · rw [hs]; simp [Attr.block, Block.ints, VSess.moved]
  · rw [hs]; simp [Attr.block, Block.ints, VSess.moved]

/-- **C81 is false for assignments.**  An array `v = b.compute_surfs` showing [0, 1] shows 3 first after
`b.compute_surfs = [3, 1]`, and using it after `b.compute_surfs = [3]` is undefined behaviour. -/
theorem C81_assign_false [Arith α] : ∃ w : VSess α,
    (w.take .compute_surfs).item w 0 0 = .ok (some (.inr 0)) ∧
    (∃ w', VSess.assign (.compute_surfs [3, 1]) w = .ok () w' ∧
      (w.take .compute_surfs).item w' 0 0 = .ok (some (.inr 3))) ∧
    (∃ w', VSess.assign (.compute_surfs [3]) w = .ok () w' ∧
      ∃ why, (w.take .compute_surfs).item w' 0 0 = ub why) := by
  let s : St α := { (construct : St α) with
    inp := { (construct : St α).inp with compute_surfs := #[some 0, some 1] } }
  let w : VSess α := ⟨⟨s, fun _ => .absent⟩, fun _ => 0⟩
  obtain ⟨⟨w1, h1, e1⟩, ⟨w2, h2, e2⟩⟩ := surfs_assigned w rfl
  refine ⟨w, (shows_ints (v := #[some 0, some 1]) rfl).2.2 0 0 rfl, ⟨w1, h1, ?_⟩,
    ⟨w2, h2, e2 0 0 (Nat.zero_lt_succ 1) Nat.zero_lt_one⟩⟩
  rw [e1]
  exact (C87_assign h1).1.2.2 0 3 rfl (by unfold FitsInt; omega)

/-! Cases 1 and 4 of `C81_assign_partial` occur; for the others see `surfs_assigned`. -/
example [Arith α] (w : VSess α) (m : Mat α) : ∃ w', VSess.assign (.lmns m) w = .ok () w' ∧
    ∀ i j, (w.take .bmnc_b).item w' i j = (w.take .bmnc_b).item w i j :=
  ⟨_, rfl, (C81_assign_partial (x := .lmns m) .bmnc_b).1 rfl (by simp [arrayOf])⟩
example [Arith α] (w : VSess α) : ∃ m w', VSess.assign (.compute_surfs [10 ^ 30]) w = .exc m w' ∧
    ∀ i j, (w.take .compute_surfs).item w' i j = (w.take .compute_surfs).item w i j :=
  ⟨_, _, rfl, (C81_assign_partial (x := .compute_surfs [10 ^ 30]) .compute_surfs).2.2.2 _ rfl⟩

end

/-- **C87, results.**  After `run()` every output attribute shows what its documentation says: element
[k, b] of a matrix is the harmonic of the quantity named, for the mode numbers that `xm_b[k]` and
`xn_b[k]` show and the surface selected by `compute_surfs[b]`; element [b] of the profiles
is the flux label and the flux functions of that surface, and the profiles `_all` have those of all
input surfaces. -/
theorem C87_run {w : VSess ℝ} {d : Dims} (h : RunReady w.sess.obj.inp d) (hp : FieldPeriodic w.sess.obj.inp d.nfp)
    (ho : OriginOnce w.sess.obj.inp)
    (_hreg : ∀ b < d.nsb, (surface w.sess.obj.inp d.asym (selected w.sess.obj.inp b)).Regular) :
    ∃ w', VSess.step .run w = .ok () w' ∧
      (∀ b < d.nsb, ShowsSpectrum w' (surface w.sess.obj.inp d.asym (selected w.sess.obj.inp b)) d.asym d.M d.N d.nfp b
        (w.sess.obj.inp.s_in.val 0 (selected w.sess.obj.inp b))) ∧
      (∀ j < d.ns, Reads w' .Boozer_I_all j 0 (surface w.sess.obj.inp d.asym j).I ∧
        Reads w' .Boozer_G_all j 0 (surface w.sess.obj.inp d.asym j).G) := by
  set s := w.sess.obj with hs
  have hr := run_real (dbg := false) h (by simp)
  have hw : VSess.step .run w = .ok () (w.moved ⟨runSt d s d.nsb, w.sess.disk⟩) := by
    have e : perform .run w.sess = .ok () ⟨runSt d s d.nsb, w.sess.disk⟩ := by
      show Sess.run w.sess = _
      unfold Sess.run
      rw [← hs, hr]
    unfold VSess.step
    rw [e]
  refine ⟨_, hw, fun b hb => ?_, fun j hj => ?_⟩
  · have H := isSpectrum_runSt h hp ho hb
    refine ⟨(shows_vec (v := (runSt d s d.nsb).out.s_b) rfl).2.2 b _ ((Vec.rdN_tab hb).trans (by rw [real_ofInt, Int.cast_zero]; rfl)),
      (shows_vec (v := (runSt d s d.nsb).out.boozer_I) rfl).2.2 b _ ?_,
      (shows_vec (v := (runSt d s d.nsb).out.boozer_G) rfl).2.2 b _ ?_, fun k hk => ?_⟩
    · refine (Vec.rdN_tab hb).trans ?_
      rw [if_pos hb, curI_real h ho]
      rfl
    · refine (Vec.rdN_tab hb).trans ?_
      rw [if_pos hb, curG_real h ho]
      rfl
    · have hk : k < numModes d.M d.N := by
        have : k < (runSt d s d.nsb).out.xm_b.size := hk
        rwa [show (runSt d s d.nsb).out.xm_b.size = d.nmodes from Vec.size_tab _ _] at this
      obtain ⟨m, n, hm, hn, h1, h2, h3, h4, h5, h6⟩ := H k hk
      refine ⟨m, n, (shows_ints (v := (runSt d s d.nsb).out.xm_b) rfl).2.2 k m hm,
        (shows_ints (v := (runSt d s d.nsb).out.xn_b) rfl).2.2 k n hn,
        (shows_mat (m := (runSt d s d.nsb).out.spec.bmnc_b) rfl).2.2 k b _ h1,
        (shows_mat (m := (runSt d s d.nsb).out.spec.rmnc_b) rfl).2.2 k b _ h2,
        (shows_mat (m := (runSt d s d.nsb).out.spec.zmns_b) rfl).2.2 k b _ h3,
        (shows_mat (m := (runSt d s d.nsb).out.spec.numns_b) rfl).2.2 k b _ h4,
        (shows_mat (m := (runSt d s d.nsb).out.spec.gmnc_b) rfl).2.2 k b _ h5, fun ha => ?_⟩
      obtain ⟨g1, g2, g3, g4, g5⟩ := h6 ha
      exact ⟨(shows_mat (m := (runSt d s d.nsb).out.spec.bmns_b) rfl).2.2 k b _ g1,
        (shows_mat (m := (runSt d s d.nsb).out.spec.rmns_b) rfl).2.2 k b _ g2,
        (shows_mat (m := (runSt d s d.nsb).out.spec.zmnc_b) rfl).2.2 k b _ g3,
        (shows_mat (m := (runSt d s d.nsb).out.spec.numnc_b) rfl).2.2 k b _ g4,
        (shows_mat (m := (runSt d s d.nsb).out.spec.gmns_b) rfl).2.2 k b _ g5⟩
  · exact ⟨(shows_vec (v := (runSt d s d.nsb).out.boozer_I_all) rfl).2.2 j _ ((Vec.rdN_tab hj).trans (by rw [real_ofInt, Int.cast_zero]; rfl)),
      (shows_vec (v := (runSt d s d.nsb).out.boozer_G_all) rfl).2.2 j _ ((Vec.rdN_tab hj).trans (by rw [real_ofInt, Int.cast_zero]; rfl))⟩

/-! The hypotheses hold for the example object, with or without stellarator symmetry, whatever happened
to its arrays before; and assigning a matrix or a list of surfaces always succeeds. -/

example (asym : Bool) (disk : Disk ℝ) (gen : Attr → ℕ) :
    ∃ w', VSess.step .run ⟨⟨Ex.st asym, disk⟩, gen⟩ = .ok () w' ∧
      (∀ b < 2, ShowsSpectrum w' (surface (Ex.inputs asym) asym (selected (Ex.inputs (α := ℝ) asym) b)) asym 2 1 2 b
        ((Ex.inputs asym).s_in.val 0 (selected (Ex.inputs (α := ℝ) asym) b))) ∧
      (∀ j < 2, Reads w' .Boozer_I_all j 0 (surface (Ex.inputs asym) asym j).I ∧
        Reads w' .Boozer_G_all j 0 (surface (Ex.inputs asym) asym j).G) :=
  C87_run (w := ⟨⟨Ex.st asym, disk⟩, gen⟩) (d := Ex.dims asym) (Ex.ready asym) (Ex.fieldPeriodic asym) (Ex.originOnce asym)
    fun b hb => Ex.regular asym (Ex.selected_lt asym b hb)

example {α : Type} [Arith α] (w : VSess α) (m : Mat α) :
    ∃ w', VSess.assign (.lmns m) w = .ok () w' ∧ ShowsMat w' .lmns m ∧ ShowsSame w w' .lmnc :=
  ⟨_, rfl, (C87_assign (x := .lmns m) (w := w) rfl).1, (C87_assign (x := .lmns m) (w := w) rfl).2 .lmnc (by simp [arrayOf])⟩

example {α : Type} [Arith α] (w : VSess α) :
    ∃ w', VSess.assign (.compute_surfs [3, 1]) w = .ok () w' ∧ ShowsInts w' .compute_surfs [3, 1] ∧
      ShowsSame w w' .s_b :=
  ⟨_, rfl, (C87_assign (x := .compute_surfs [3, 1]) (w := w) rfl).1,
    (C87_assign (x := .compute_surfs [3, 1]) (w := w) rfl).2 .s_b (by simp [arrayOf])⟩

end Booz
