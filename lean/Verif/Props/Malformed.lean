import Verif.Lemmas.MalformedShort

/-!
# C94: `wout` files whose contents contradict each other
-/

namespace Booz
open Spec
variable {α : Type} [Arith α]

/-- **C94 is false of the code, in general.**  Whenever the numbers in a `wout` file contradict each other (an array
is longer than the scalars say, a number of surfaces or modes is not positive, or the number of field periods is
zero), `read_wout` has undefined behaviour instead of throwing: it stores past the end of an array, or divides by
zero. -/
theorem C94_contradictory {disk : Disk α} {path : String} {f : NcFile α} {z : WoutSizes} {flux : Bool}
    (hd : disk path = .nc f) (hz : WoutScalars f z) (hn : WoutNumeric f flux (decide (z.lasym ≠ 0)))
    (hc : ¬ WoutFits f z flux) (s : St α) : ∃ w, readWout disk path flux s = .ub w := by
  unfold readWout openRead
  rw [hd, Prog.lift_ok_bind]
  rcases readWoutBody_okOrUb hz.lasym hn s with ⟨q, t, e⟩ | ⟨w, e⟩
  · exact absurd (readWoutBody_fits hz e) hc
  · exact ⟨w, by rw [Prog.bind_def, e]⟩

/-- **C94, what holds**: when `read_wout` returns, the contents of the file fitted, whatever else the file
holds.  Missing: that contradictory files are reported by an exception (false, see above). -/
theorem C94_partial {disk : Disk α} {path : String} {f : NcFile α} {z : WoutSizes} {flux : Bool} {s s' : St α}
    (hd : disk path = .nc f) (hz : WoutScalars f z) (h : readWout disk path flux s = .ok () s') :
    WoutFits f z flux := by
  unfold readWout openRead at h
  rw [hd, Prog.lift_ok_bind] at h
  obtain ⟨q, t, e, -⟩ := prog_bind_ok h
  exact readWoutBody_fits hz e

/-- **C94, what holds, second part**: when `read_wout` returns, every profile and matrix in the file had exactly as
many values as its scalars say, so that no value in the object was left uninitialised.  (For the mode lists there is
only the bound of `C94_partial`: entries missing from the file may be left over from before.) -/
theorem C94_complete {disk : Disk α} {path : String} {f : NcFile α} {z : WoutSizes} {flux : Bool} {s s' : St α}
    (hd : disk path = .nc f) (hz : WoutScalars f z) (h : readWout disk path flux s = .ok () s') :
    2 ≤ z.ns ∧ ∀ n ∈ woutArrays flux (decide (z.lasym ≠ 0)), entries f n = woutRoom z n := by
  have F := C94_partial hd hz h
  unfold readWout openRead at h
  rw [hd, Prog.lift_ok_bind] at h
  obtain ⟨q, t, e, h⟩ := prog_bind_ok h
  obtain ⟨fl, w, a, b, h1, h2, h3, h4, h5, h6, h7, h8, hq⟩ := readWoutBody_inv hz e
  rw [hq] at h
  obtain ⟨hns, L⟩ := vmec_reads F.mnmax F.mnmax_nyq h6 h7 h8 h
  have el : (z.ns - 1).toNat = z.ns.toNat - 1 := by omega
  rw [el] at L
  obtain ⟨m1, m2, m3, m4, m5, m6⟩ := readMats_short F.ns F.mnmax F.mnmax_nyq h4
  refine ⟨hns, fun n hn => ?_⟩
  rw [woutArrays, List.mem_append, List.mem_append] at hn
  rcases hn with (hn | hn) | hn
  · simp only [List.mem_cons, List.not_mem_nil, or_false] at hn
    rcases hn with rfl | rfl | rfl | rfl | rfl | rfl | rfl
    · exact getVec_short h2 h3 L.iotas
    · exact m1 L.rmnc
    · exact m2 L.zmns
    · exact m3 L.lmns
    · exact m4 L.bmnc
    · exact m5 L.bsubumnc
    · exact m6 L.bsubvmnc
  · split at hn
    · next hf =>
      subst hf
      obtain ⟨p0, p1, p2, p3, p4⟩ := readFlux_short h1
      obtain ⟨l1, l2, l3, l4⟩ := L.flux (by rw [p0]; omega)
      simp only [woutFlux, List.mem_cons, List.not_mem_nil, or_false] at hn
      rcases hn with rfl | rfl | rfl | rfl
      · exact p2 l2
      · exact p1 l1
      · exact p3 l3
      · exact p4 l4
    · cases hn
  · split at hn
    · next ha =>
      rw [ha] at h5
      obtain ⟨m1, m2, m3, m4, m5, m6⟩ := readMats_short F.ns F.mnmax F.mnmax_nyq h5
      obtain ⟨l1, l2, l3, l4, l5, l6⟩ := L.asym ha
      simp only [woutAsym, List.mem_cons, List.not_mem_nil, or_false] at hn
      rcases hn with rfl | rfl | rfl | rfl | rfl | rfl
      · exact m1 l1
      · exact m2 l2
      · exact m3 l3
      · exact m4 l4
      · exact m5 l5
      · exact m6 l6
    · cases hn

/-! ### Concrete files -/

/-- The example file with one variable replaced. -/
def Ex.patched (v : NcVar α) : NcFile α := { Ex.wout (α := α) 0 with
  vars := v :: (Ex.wout (α := α) 0).vars.filter fun u => u.name ≠ v.name }

theorem Ex.patched_same (v : NcVar α) : (Ex.patched v).var? v.name = some v := by
  simp [Ex.patched, NcFile.var?]

omit [Arith α] in
theorem find_filter_ne {l : List (NcVar α)} {a n : String} (h : n ≠ a) :
    (l.filter fun u => u.name ≠ a).find? (·.name == n) = l.find? (·.name == n) := by
  induction l with
  | nil => rfl
  | cons u l ih =>
    by_cases hu : u.name = a
    · have hn : (u.name == n) = false := by rw [hu]; simpa using h.symm
      rw [List.filter_cons_of_neg (by simpa using hu), List.find?_cons_of_neg (by simp [hn]), ih]
    · rw [List.filter_cons_of_pos (by simpa using hu), List.find?_cons, List.find?_cons, ih]

theorem Ex.patched_other (v : NcVar α) {n : String} (h : n ≠ v.name) :
    (Ex.patched v).var? n = (Ex.wout (α := α) 0).var? n := by
  unfold Ex.patched NcFile.var?
  rw [List.find?_cons_of_neg (by simpa using h.symm)]
  exact find_filter_ne h

/-- It still consists of numbers. -/
theorem Ex.patched_numeric (v : NcVar α) (x : Int) (hv : v.data = .ints #[some x]) (flux : Bool) :
    WoutNumeric (Ex.patched v) flux false := by
  intro n hn
  by_cases h : n = v.name
  · subst h
    exact ⟨v, Ex.patched_same v, by simp [ncDbls, hv], fun _ => by simp [ncInts, hv]⟩
  · rw [Ex.patched_other v h]
    have hp := Ex.wout_present (α := α) 0 flux false n hn
    obtain ⟨u, hu⟩ := Option.ne_none_iff_exists'.mp hp
    have hz := Ex.shapes (α := α) 0
    refine ⟨u, hu, ?_, fun hi => ?_⟩
    · have hm : u ∈ (Ex.wout (α := α) 0).vars := List.mem_of_find?_eq_some hu
      have : ∀ w ∈ (Ex.wout (α := α) 0).vars, ncDbls w ≠ none := by
        simp [Ex.wout, Ex.iv, Ex.dv, Ex.dm, Ex.ivs, ncDbls]
      exact this u hm
    · have sc : ∀ {x : Int}, ScalarIs (Ex.wout (α := α) 0) n x → ncInts u ≠ none := fun k => by
        rw [k u hu]; simp
      have sv : ∀ {x : Int}, HasInts (Ex.wout (α := α) 0) n x → ncInts u ≠ none := fun k => by
        obtain ⟨a, e, -⟩ := k u hu
        rw [e]; simp
      simp only [List.mem_cons, List.not_mem_nil, or_false] at hi
      rcases hi with rfl | rfl | rfl | rfl | rfl | rfl | rfl | rfl | rfl | rfl | rfl
      exacts [sc hz.lasym, sc hz.ns, sc hz.nfp, sc hz.mpol, sc hz.ntor, sc hz.mnmax, sc hz.mnmax_nyq, sv hz.xm,
        sv hz.xn, sv hz.xm_nyq, sv hz.xn_nyq]

theorem Ex.patched_scalar {m n : String} {x y : Int} (h : ScalarIs (Ex.wout (α := α) 0) n x)
    (hx : n = m → y = x) : ScalarIs (Ex.patched (α := α) (Ex.iv m y)) n x := by
  intro v hv
  by_cases e : n = m
  · subst e
    have e := (Ex.patched_same (Ex.iv (α := α) n y)).symm.trans hv
    cases e
    rw [hx rfl]
    rfl
  · rw [Ex.patched_other _ (by exact e)] at hv
    exact h v hv

/-- The example file claiming to have no field period. -/
theorem Ex.noPeriod_scalars :
    WoutScalars (Ex.patched (α := α) (Ex.iv "nfp" 0)) { Ex.woutZ 0 with nfp := 0 } := by
  have hz := Ex.shapes (α := α) 0
  exact ⟨Ex.patched_scalar hz.lasym (by decide), Ex.patched_scalar hz.ns (by decide),
    Ex.scalar (Ex.patched_same _), Ex.patched_scalar hz.mpol (by decide), Ex.patched_scalar hz.ntor (by decide),
    Ex.patched_scalar hz.mnmax (by decide), Ex.patched_scalar hz.mnmax_nyq (by decide)⟩

/-- The example file, which holds four surfaces, claiming to have three. -/
theorem Ex.threeSurfs_scalars :
    WoutScalars (Ex.patched (α := α) (Ex.iv "ns" 3)) { Ex.woutZ 0 with ns := 3 } := by
  have hz := Ex.shapes (α := α) 0
  exact ⟨Ex.patched_scalar hz.lasym (by decide), Ex.scalar (Ex.patched_same _), Ex.patched_scalar hz.nfp (by decide),
    Ex.patched_scalar hz.mpol (by decide), Ex.patched_scalar hz.ntor (by decide),
    Ex.patched_scalar hz.mnmax (by decide), Ex.patched_scalar hz.mnmax_nyq (by decide)⟩

/-- **C94 is false of the code, concretely**: a complete `wout` file that says `nfp = 0`, and one that says `ns = 3`
but holds four surfaces. -/
theorem C94_false (flux : Bool) (s : St α) :
    (∃ w, readWout (fun _ => .nc (Ex.patched (α := α) (Ex.iv "nfp" 0))) "wout.nc" flux s = .ub w) ∧
    (∃ w, readWout (fun _ => .nc (Ex.patched (α := α) (Ex.iv "ns" 3))) "wout.nc" flux s = .ub w) := by
  refine ⟨C94_contradictory rfl Ex.noPeriod_scalars (Ex.patched_numeric _ 0 rfl flux) (fun h => h.nfp rfl) s,
    C94_contradictory rfl Ex.threeSurfs_scalars (Ex.patched_numeric _ 3 rfl flux) (fun h => ?_) s⟩
  have := h.room "iotas" (mem_base (by decide))
  have e : (Ex.patched (α := α) (Ex.iv "ns" 3)).var? "iotas" = some (Ex.dv "iotas" Ex.vmec.iotas) := by
    rw [Ex.patched_other _ (by show "iotas" ≠ "ns"; decide)]
    exact Ex.wvar 0 12 rfl rfl
  rw [entries, e] at this
  simp [valueCount, Ex.dv, Ex.vmec, woutRoom] at this

/-- The hypotheses of `C94_partial` and `C94_complete` are met: the example file loads. -/
example : ∃ s', readWout (Ex.woutDisk (α := α) 0) "wout.nc" true (Ex.vst true) = .ok () s' ∧
    WoutFits (Ex.wout (α := α) 0) (Ex.woutZ 0) true ∧ entries (Ex.wout (α := α) 0) "bsubvmnc" = 16 := by
  have hz := Ex.shapes (α := α) 0
  have ⟨s', h⟩ : ∃ s', readWout (Ex.woutDisk (α := α) 0) "wout.nc" true (Ex.vst true) = .ok () s' := by
    rw [C39_loads true (Ex.vst true) (by simp [Ex.woutDisk]) hz (Ex.wout_present 0 _ _)]
    refine ⟨_, vmec_ok (z := Ex.sizes false) (by decide) ?_ (Ex.computable false) ?_ ?_⟩
    · rw [Ex.wout_args, Ex.wout_inp]; exact Ex.sym_given (Ex.lists true).surfs
    · rw [Ex.wout_args, Ex.wout_inp]; exact Ex.sym_consistent (Ex.consistent (α := α) true).surfs
    · rw [Ex.wout_args, Ex.wout_inp]; exact Ex.sym_loadable (by show (1 : Int) ≤ 1; decide)
  have hd : Ex.woutDisk (α := α) 0 "wout.nc" = .nc (Ex.wout 0) := by simp [Ex.woutDisk]
  have hs : WoutScalars (Ex.wout (α := α) 0) (Ex.woutZ 0) :=
    ⟨hz.lasym, hz.ns, hz.nfp, hz.mpol, hz.ntor, hz.mnmax, hz.mnmax_nyq⟩
  exact ⟨s', h, C94_partial hd hs h, (C94_complete hd hs h).2 "bsubvmnc" (by decide)⟩

end Booz
