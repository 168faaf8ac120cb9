import Verif.Lemmas.MissingBoozmn
import Verif.Lemmas.ShortBoozmn
import Verif.Props.Malformed
import Verif.Props.Boozmn

/-!
# C95: boozmn files whose contents contradict each other, or are incomplete
-/

namespace Booz
open Spec
variable {α : Type} [Arith α]

/-- **C95 is false of the code, in general.**  Whenever the numbers in a boozmn file contradict each other (a
variable has more values than the sizes in the file say, or there are no modes or no surfaces), `read_boozmn` has
undefined behaviour instead of throwing: it stores past the end of an array. -/
theorem C95_contradictory {disk : Disk α} {path : String} {f : NcFile α} {z : BoozmnSizes}
    (hd : disk path = .nc f) (hz : BoozmnScalars f z) (hn : BoozmnNumeric f (decide (z.lasym ≠ 0)))
    (hc : ¬ BoozmnFits f z) (t : St α) : ∃ w, readBoozmn disk path t = .ub w := by
  unfold readBoozmn openRead
  rw [hd, Prog.lift_ok_bind]
  rcases readBoozmnBody_okOrUb hz hn t with ⟨q, s, e⟩ | ⟨w, e⟩
  · exact absurd (readBoozmnBody_fits hz e).2.1 hc
  · exact ⟨w, e⟩

/-- **C95, what holds**: when `read_boozmn` returns, the file was complete, no variable had more values than the
sizes in the file say, and the profiles that are shifted on reading had exactly as many.  Missing: that other files
are reported by an exception (false, see above and below), and exact sizes of the other variables (false, see
`C95_scrambled`). -/
theorem C95_partial {disk : Disk α} {path : String} {f : NcFile α} {z : BoozmnSizes} {t t' : St α}
    (hd : disk path = .nc f) (hz : BoozmnScalars f z) (h : readBoozmn disk path t = .ok () t') :
    (∀ n ∈ bzRequired (decide (z.lasym ≠ 0)), f.var? n ≠ none) ∧ BoozmnFits f z ∧
      (2 ≤ z.radius → ∀ n ∈ ["iota_b", "bvco_b", "buco_b"], entries f n = z.radius) := by
  unfold readBoozmn openRead at h
  rw [hd, Prog.lift_ok_bind] at h
  exact readBoozmnBody_fits hz h

/-! ### Incomplete files -/

/-- **C95 for incomplete files**: if some of the required variables, or one of the two dimensions, are missing from
an otherwise well-formed boozmn file, `read_boozmn` throws, whatever the object held before. -/
theorem C95_missing {disk : Disk α} {path : String} {f g : NcFile α} {K nb ns : Nat} {V : BzVals α} {x : α}
    (hd : disk path = .nc f) (hp : PartOf f g) (hg : IsBoozmn g K nb ns V)
    (hchi : g.var? "chi_b" = none ∨ ∃ chi, GetsD g "chi_b" chi ∧ chi.size = ns + 1)
    (hx : V.phi[ns]? = some (some x))
    (hm : (∃ n ∈ bzRequired (decide (V.lasym ≠ 0)), f.var? n = none) ∨ f.dim? "radius" = none ∨
      f.dim? "comput_surfs" = none) (t : St α) :
    ∃ m t', readBoozmn disk path t = .exc m t' := by
  have hok : ∃ t', readBoozmnBody g t = .ok () t' := by
    obtain ⟨old, ho, hos⟩ := Vec.resize_size t.flux.chi (n := ((ns + 1 : Nat) : Int)) (by omega)
    rw [Int.toNat_natCast] at hos
    obtain ⟨chi, hc⟩ : ∃ chi, tryGetVec g "chi_b" old = .ok chi := by
      rcases hchi with h | ⟨chi, h, hs⟩
      · refine ⟨old, ?_⟩
        unfold tryGetVec NcFile.getVec NcFile.find
        rw [h]
        rfl
      · refine ⟨chi, ?_⟩
        unfold tryGetVec
        rw [h.vec hs hos (by omega)]
    have := readBoozmn_ok (disk := fun _ => .nc g) (path := path) (t := t) (chi := chi) rfl hg
      (fun o h => by
        have := h.symm.trans ho
        cases this
        exact hc) hx
    unfold readBoozmn openRead at this
    rw [Prog.lift_ok_bind] at this
    exact ⟨_, this⟩
  obtain ⟨t1, h1⟩ := hok
  unfold readBoozmn openRead
  rw [hd, Prog.lift_ok_bind]
  rcases hp.readBoozmnBody t with e | e
  · exfalso
    rw [h1] at e
    obtain ⟨d1, d2⟩ := readBoozmnBody_dims e
    have sc : ∀ {n : String} {k : Int}, GetsI g n #[some k] → ScalarIs f n k := by
      rintro n k ⟨y, y1, y2⟩ v hv
      rcases hp.vars n with k1 | ⟨k1, -⟩
      · rw [hv, y1] at k1
        cases k1
        exact y2
      · rw [hv] at k1; cases k1
    have hz : BoozmnScalars f ⟨V.lasym, (K : Int), ns + 1, nb⟩ := by
      refine ⟨sc hg.lasym, sc hg.mnboz, ?_, ?_⟩
      · exact ((hp.dims _).resolve_right d1).trans hg.radius
      · exact ((hp.dims _).resolve_right d2).trans hg.comput_surfs
    obtain ⟨a, -, -⟩ := readBoozmnBody_fits hz e
    rcases hm with ⟨n, n1, n2⟩ | h | h
    · exact a n n1 n2
    · exact d1 h
    · exact d2 h
  · exact e

/-! ### Files that declare another number of modes than they hold -/

/-- `f` is `g` but for the number of modes it declares. -/
structure Declares (f g : NcFile α) (k : Int) : Prop where
  mnboz : GetsI f "mnboz_b" #[some k]
  vars : ∀ n, n ≠ "mnboz_b" → f.var? n = g.var? n
  dims : ∀ n, f.dim? n = g.dim? n

theorem ncInts_numeric {v : NcVar α} {a : Vec Int} (h : ncInts v = some a) : ncDbls v ≠ none := by
  unfold ncInts at h
  unfold ncDbls
  split at h
  · next e => rw [e]; simp
  · next e => rw [e]; simp
  · cases h

/-- A well-formed file consists of numbers. -/
theorem Spec.IsBoozmn.numeric {g : NcFile α} {K nb ns : Nat} {V : BzVals α} (h : IsBoozmn g K nb ns V) :
    BoozmnNumeric g (decide (V.lasym ≠ 0)) := by
  have gI : ∀ {n : String} {v : Vec Int}, GetsI g n v → ∃ v, g.var? n = some v ∧ ncDbls v ≠ none ∧
      (n ∈ bzScalars ++ bzModes ++ ["jlist"] → ncInts v ≠ none) := by
    rintro n v ⟨x, h1, h2⟩
    exact ⟨x, h1, ncInts_numeric h2, fun _ => by rw [h2]; simp⟩
  have gD : ∀ {n : String} {v : Vec α}, n ∉ bzScalars ++ bzModes ++ ["jlist"] → GetsD g n v →
      ∃ v, g.var? n = some v ∧ ncDbls v ≠ none ∧ (n ∈ bzScalars ++ bzModes ++ ["jlist"] → ncInts v ≠ none) := by
    rintro n v hn ⟨x, h1, h2⟩
    exact ⟨x, h1, by rw [h2]; simp, fun k => absurd k hn⟩
  intro n hn
  simp only [bzRequired, bzScalars, bzModes, bzProfiles, bzSpectra, List.mem_append, List.mem_cons,
    List.not_mem_nil, or_false] at hn
  rcases hn with ((((rfl | rfl | rfl | rfl | rfl | rfl) | (rfl | rfl)) | (rfl | rfl | rfl | rfl | rfl | rfl)) | rfl) |
    ((rfl | rfl | rfl | rfl | rfl) | hn)
  · exact gI h.lasym
  · exact gI h.nfp
  · exact gI h.mboz
  · exact gI h.nboz
  · exact gI h.mnboz
  · exact gI h.ns_b
  · exact gI h.ixm
  · exact gI h.ixn
  · exact gD (by decide) h.iota
  · exact gD (by decide) h.bvco
  · exact gD (by decide) h.buco
  · exact gD (by decide) h.phi
  · exact gD (by decide) h.phip
  · exact gD (by decide) h.pres
  · exact gI h.jlist
  · exact gD (by decide) h.bmnc
  · exact gD (by decide) h.rmnc
  · exact gD (by decide) h.zmns
  · exact gD (by decide) h.pmns
  · exact gD (by decide) h.gmn
  · split at hn
    · next hl =>
      obtain ⟨a1, -, a2, -, a3, -, a4, -, a5, -⟩ := h.asymVars (of_decide_eq_true hl)
      simp only [List.mem_cons, List.not_mem_nil, or_false] at hn
      rcases hn with rfl | rfl | rfl | rfl | rfl
      · exact gD (by decide) a1
      · exact gD (by decide) a2
      · exact gD (by decide) a3
      · exact gD (by decide) a4
      · exact gD (by decide) a5
    · cases hn

/-- **C95 is false of the code, too few modes declared**: if an otherwise well-formed boozmn file declares fewer
modes than it holds, reading it is undefined behaviour. -/
theorem C95_too_few {disk : Disk α} {path : String} {f g : NcFile α} {K nb ns : Nat} {V : BzVals α} {k : Int}
    (hd : disk path = .nc f) (hg : IsBoozmn g K nb ns V) (hf : Declares f g k) (hk : k < K) (t : St α) :
    ∃ w, readBoozmn disk path t = .ub w := by
  have sc : ∀ {n : String} {k : Int}, GetsI f n #[some k] → ScalarIs f n k := by
    rintro n k ⟨y, y1, y2⟩ v hv
    rw [hv] at y1
    cases y1
    exact y2
  have hl : GetsI f "lasym__logical__" #[some V.lasym] := by
    obtain ⟨x, h1, h2⟩ := hg.lasym
    exact ⟨x, (hf.vars _ (by decide)).trans h1, h2⟩
  refine C95_contradictory (z := ⟨V.lasym, k, ns + 1, nb⟩) hd ⟨sc hl, sc hf.mnboz, (hf.dims _).trans hg.radius,
    (hf.dims _).trans hg.comput_surfs⟩ (fun n hn => ?_) (fun h => ?_) t
  · by_cases e : n = "mnboz_b"
    · subst e
      obtain ⟨x, h1, h2⟩ := hf.mnboz
      exact ⟨x, h1, ncInts_numeric h2, fun _ => by rw [h2]; simp⟩
    · rw [hf.vars n e]
      exact hg.numeric n hn
  · have hr := h.room "ixm_b" (by simp [bzRequired, bzModes])
    obtain ⟨x, h1, h2⟩ := hg.ixm
    have e := asInts_count (asInts_of h2)
    rw [entries, (hf.vars _ (by decide)).trans h1, show bzRoom ⟨V.lasym, k, ns + 1, nb⟩ "ixm_b" = k.toNat from rfl,
      Option.map_some, Option.getD_some, e, hg.ixm_size] at hr
    have := h.mnboz
    dsimp only at this
    omega

/-- **C95 is false of the code, too many modes declared**: if an otherwise well-formed boozmn file declares more
modes than it holds, reading it succeeds, and the values are attached to other modes and surfaces than those they
belong to. -/
theorem C95_scrambled {disk : Disk α} {path : String} {f g : NcFile α} {K K' nb ns : Nat} {V : BzVals α} {x : α}
    (hd : disk path = .nc f) (hg : IsBoozmn g K nb ns V) (hf : Declares f g (K' : Int)) (hk : K ≤ K')
    (hchi : g.var? "chi_b" = none ∨ ∃ chi, GetsD g "chi_b" chi ∧ chi.size = ns + 1)
    (hx : V.phi[ns]? = some (some x)) (t : St α) :
    ∃ t', readBoozmn disk path t = .ok () t' ∧ t'.out.mnboz = some (K' : Int) ∧
      t'.out.xm_b.size = K' ∧ (∀ i < K, t'.out.xm_b[i]? = V.ixm[i]?) ∧
      t'.out.spec.bmnc_b.rows = K' ∧ t'.out.spec.bmnc_b.cols = nb ∧
      ∀ i j, i < K' → j < nb → j * K' + i < K * nb →
        t'.out.spec.bmnc_b.rdN i j =
          (⟨K, nb, V.bmnc⟩ : Mat α).rdN ((j * K' + i) % K) ((j * K' + i) / K) := by
  obtain ⟨t', w, d, h1, h2, h3, h4, h5, h6⟩ := readBoozmn_declared (t := t) hd hg hf.vars hf.dims hf.mnboz hk
    (fun old ho => by
      have hos : old.size = ns + 1 := by
        obtain ⟨o, h, hs⟩ := Vec.resize_size t.flux.chi (n := ((ns + 1 : Nat) : Int)) (by omega)
        rw [ho] at h
        cases h
        rw [hs, Int.toNat_natCast]
      rcases hchi with h | ⟨chi, h, hs⟩
      · refine ⟨old, ?_⟩
        unfold tryGetVec NcFile.getVec NcFile.find
        rw [hf.vars _ (by decide), h]
        rfl
      · refine ⟨chi, ?_⟩
        have h' : GetsD f "chi_b" chi := by
          obtain ⟨x, h1, h2⟩ := h
          exact ⟨x, (hf.vars _ (by decide)).trans h1, h2⟩
        unfold tryGetVec
        rw [h'.vec hs hos (by omega)]) hx
  refine ⟨t', h1, h2, ?_, fun i hi => ?_, by rw [h5], by rw [h5], fun i j hi hj hij => ?_⟩
  · rw [h3, Array.size_append, hg.ixm_size, h4]
  · rw [h3, Array.getElem?_append_left (by rw [hg.ixm_size]; exact hi)]
  · rw [h5]
    unfold Mat.rdN
    have hK := hg.K_pos
    rw [if_pos ⟨hi, hj⟩, if_pos ⟨Nat.mod_lt _ hK, (Nat.div_lt_iff_lt_mul hK).2 (by rw [Nat.mul_comm nb]; exact hij)⟩]
    unfold Vec.rdN
    dsimp only
    rw [Array.getElem?_append_left (by rw [hg.bmnc_size]; exact hij), Nat.mul_comm _ K, Nat.div_add_mod]

/-! ### Concrete files -/

/-- A file with one variable replaced. -/
def NcFile.patch (f : NcFile α) (v : NcVar α) : NcFile α :=
  { f with vars := v :: f.vars.filter fun u => u.name ≠ v.name }

omit [Arith α] in
theorem patch_same (f : NcFile α) (v : NcVar α) : (f.patch v).var? v.name = some v := by
  simp [NcFile.patch, NcFile.var?]

omit [Arith α] in
theorem patch_other (f : NcFile α) (v : NcVar α) {n : String} (h : n ≠ v.name) :
    (f.patch v).var? n = f.var? n := by
  unfold NcFile.patch NcFile.var?
  rw [List.find?_cons_of_neg (by simpa using h.symm)]
  exact find_filter_ne h

/-- The file that the example object writes: five modes on two surfaces. -/
def Ex.bz : NcFile α := bzFile "0.0.1" 5 2 2 true (Ex.done true true)

/-- It is well-formed. -/
theorem Ex.bz_ok : IsBoozmn (Ex.bz (α := α)) 5 2 2 (valsOf (Ex.done (α := α) true true) 2 2 true
    (decide ((Ex.done (α := α) true true).flux.phip.size ≠ 0))) :=
  layout_isBoozmn (Ex.done_results (α := α) true true) (layout_ok (version := "0.0.1") (Ex.done_results true true)) rfl

theorem Ex.bz_phi : (valsOf (Ex.done (α := α) true true) 2 2 true
    (decide ((Ex.done (α := α) true true).flux.phip.size ≠ 0))).phi[2]? = some (some (ofInt 6)) := rfl

/-- The same file without `chi_b`, saying it has `k` modes. -/
def Ex.bzSays (k : Int) : NcFile α := ((Ex.bz (α := α)).drop "chi_b").patch (Ex.iv "mnboz_b" k)

theorem Ex.bzSays_declares (k : Int) : Declares (Ex.bzSays (α := α) k) (Ex.bz.drop "chi_b") k :=
  ⟨⟨_, patch_same _ (Ex.iv "mnboz_b" k), rfl⟩, fun _ h => patch_other _ _ h, fun _ => rfl⟩

/-- **C95 is false of the code, concretely**: a boozmn file with five modes on two surfaces.  If it says that it has
four modes, reading it is undefined behaviour.  If it says six, reading it succeeds, and what is reported as mode 0
of |B| on the second surface is the value that the file has for mode 1. -/
theorem C95_false (t : St α) :
    (∃ w, readBoozmn (fun _ => .nc (Ex.bzSays (α := α) 4)) "boozmn.nc" t = .ub w) ∧
    (∃ t', readBoozmn (fun _ => .nc (Ex.bzSays (α := α) 6)) "boozmn.nc" t = .ok () t' ∧
      t'.out.mnboz = some 6 ∧ t'.out.spec.bmnc_b.rdN 0 1 = (Ex.done (α := α) true true).out.spec.bmnc_b.rdN 1 1) := by
  have hB := IsBoozmn.drop_chi (Ex.bz_ok (α := α))
  refine ⟨C95_too_few rfl hB (Ex.bzSays_declares 4) (by decide) t, ?_⟩
  obtain ⟨t', h1, h2, -, -, -, -, h3⟩ := C95_scrambled (K' := 6)
    (disk := fun _ => .nc (Ex.bzSays (α := α) 6)) (path := "boozmn.nc") rfl hB (Ex.bzSays_declares ((6 : Nat) : Int))
    (by decide) (.inl (drop_same _ _)) Ex.bz_phi t
  refine ⟨t', h1, h2, ?_⟩
  rw [h3 0 1 (by decide) (by decide) (by decide)]
  rfl

/-- The hypotheses of `C95_partial` are met: the example file (here without `chi_b`) loads. -/
example (t : St α) : ∃ t', readBoozmn (fun _ => .nc ((Ex.bz (α := α)).drop "chi_b")) "boozmn.nc" t = .ok () t' ∧
    BoozmnFits ((Ex.bz (α := α)).drop "chi_b") ⟨1, 5, 3, 2⟩ ∧ entries ((Ex.bz (α := α)).drop "chi_b") "iota_b" = 3 := by
  have hB := IsBoozmn.drop_chi (Ex.bz_ok (α := α))
  obtain ⟨t', h, -⟩ := C95_scrambled (K' := 5) (disk := fun _ => .nc ((Ex.bz (α := α)).drop "chi_b"))
    (path := "boozmn.nc") rfl hB ⟨hB.mnboz, fun _ _ => rfl, fun _ => rfl⟩ (by decide) (.inl (drop_same _ _))
    Ex.bz_phi t
  have sc : ∀ {n : String} {k : Int}, GetsI ((Ex.bz (α := α)).drop "chi_b") n #[some k] →
      ScalarIs ((Ex.bz (α := α)).drop "chi_b") n k := by
    rintro n k ⟨y, y1, y2⟩ v hv
    rw [hv] at y1
    cases y1
    exact y2
  obtain ⟨-, h2, h3⟩ := C95_partial (z := ⟨1, 5, 3, 2⟩) rfl
    ⟨sc hB.lasym, sc hB.mnboz, hB.radius, hB.comput_surfs⟩ h
  exact ⟨t', h, h2, h3 (by decide) "iota_b" (by decide)⟩

/-- The hypotheses of `C95_missing` are met: the example file without any one of its variables. -/
example (n : String) (hn : n ∈ bzRequired true) (t : St α) :
    ∃ m t', readBoozmn (fun _ => .nc (((Ex.bz (α := α)).drop "chi_b").drop n)) "boozmn.nc" t = .exc m t' := by
  have hc : n ≠ "chi_b" := by rintro rfl; exact absurd hn (by decide)
  refine C95_missing (f := ((Ex.bz (α := α)).drop "chi_b").drop n) (g := (Ex.bz (α := α)).drop "chi_b") rfl ⟨fun m => ?_, fun _ => .inl rfl⟩
    (IsBoozmn.drop_chi Ex.bz_ok) (.inl (drop_same _ _)) Ex.bz_phi (.inl ⟨n, hn, drop_same _ _⟩) t
  by_cases e : m = n
  · subst e; exact .inr ⟨drop_same _ _, hc⟩
  · exact .inl (drop_other _ e)

end Booz
