import Verif.Lemmas.NetCDF

/-!
# `read_wout`: either a required variable is missing, or it is `init_from_vmec` on the file's data
-/

namespace Booz
open Spec
variable {α : Type} [Arith α]

section
variable {γ : Type}

omit [Arith α] in
theorem setInp_ok {g : Inputs α → Res (Inputs α)} {s : St α} {I J : Inputs α} (h : g I = .ok J)
    (k : Unit → Prog (St α) γ) :
    (setInp g >>= k) { s with inp := I } = k () { s with inp := J } := by
  unfold setInp
  refine Prog.modify_ok ?_ k
  show (g I >>= _) = _
  rw [h]; rfl

omit [Arith α] in
theorem setInp_throw {g : Inputs α → Res (Inputs α)} {s : St α} {I : Inputs α} {m : String}
    (h : g I = .error (.throw m)) (k : Unit → Prog (St α) γ) :
    (setInp g >>= k) { s with inp := I } = .exc m { s with inp := I } := by
  unfold setInp
  refine Prog.modify_throw ?_ k
  show (g I >>= _) = _
  rw [h]; rfl

end

/-- The two possible outcomes of `read_wout` on a file with the documented shapes. -/
def WoutOutcome (f : NcFile α) (z : WoutSizes) (flux : Bool) (s : St α) (o : Out (St α) Unit) : Prop :=
  (∃ n ∈ woutRequired flux (decide (z.lasym ≠ 0)), f.var? n = none) ∧
      (∃ s', o = .exc "NetCDF: Variable not found" s') ∨
  (∀ n ∈ woutRequired flux (decide (z.lasym ≠ 0)), f.var? n ≠ none) ∧
      o = initFromVmec z.ns (woutArgs f z flux) { s with inp := woutInp f z s.inp }

/-- The two possible outcomes of `read_wout` while the file is open. -/
def BodyOutcome (f : NcFile α) (z : WoutSizes) (flux : Bool) (s : St α)
    (o : Out (St α) (Int × VmecArgs α)) : Prop :=
  (∃ n ∈ woutRequired flux (decide (z.lasym ≠ 0)), f.var? n = none) ∧
      (∃ s', o = .exc "NetCDF: Variable not found" s') ∨
  (∀ n ∈ woutRequired flux (decide (z.lasym ≠ 0)), f.var? n ≠ none) ∧
      o = .ok (z.ns, woutArgs f z flux) { s with inp := woutInp f z s.inp }

section
variable {f : NcFile α} {z : WoutSizes} {flux : Bool} {s : St α}

theorem outcome_missing {n : String} {m : String} {t : St α} (hn : f.var? n = none)
    (hr : n ∈ woutRequired flux (decide (z.lasym ≠ 0))) (hm : m = "NetCDF: Variable not found") :
    BodyOutcome f z flux s (.exc m t) := by
  subst hm
  exact Or.inl ⟨⟨n, hr, hn⟩, t, rfl⟩

/-- A statement whose only possible fault is the given missing variable. -/
theorem step_set {n : String} {I J : Inputs α} {g : Inputs α → Res (Inputs α)}
    {k : Unit → Prog (St α) (Int × VmecArgs α)}
    (h : (f.var? n = none ∧ g I = thrown "NetCDF: Variable not found") ∨ (f.var? n ≠ none ∧ g I = .ok J))
    (hr : n ∈ woutRequired flux (decide (z.lasym ≠ 0)))
    (hk : f.var? n ≠ none → BodyOutcome f z flux s (k () { s with inp := J })) :
    BodyOutcome f z flux s ((setInp g >>= k) { s with inp := I }) := by
  rcases h with ⟨h, e⟩ | ⟨h, e⟩
  · rw [setInp_throw (m := "NetCDF: Variable not found") e]
    exact outcome_missing h hr rfl
  · rw [setInp_ok e]
    exact hk h

/-- A statement that cannot fault. -/
theorem step_pure {I J : Inputs α} {g : Inputs α → Res (Inputs α)}
    {k : Unit → Prog (St α) (Int × VmecArgs α)} (e : g I = .ok J)
    (hk : BodyOutcome f z flux s (k () { s with inp := J })) :
    BodyOutcome f z flux s ((setInp g >>= k) { s with inp := I }) := by
  rw [setInp_ok e]
  exact hk

/-- A read that does not touch the object. -/
theorem step_lift {β : Type} {r : Res β} {x : β} {miss : Prop} {t : St α} {k : β → Prog (St α) (Int × VmecArgs α)}
    (h : (miss ∧ r = thrown "NetCDF: Variable not found") ∨ (¬ miss ∧ r = .ok x))
    (hm : miss → ∃ n ∈ woutRequired flux (decide (z.lasym ≠ 0)), f.var? n = none)
    (hk : ¬ miss → BodyOutcome f z flux s (k x t)) :
    BodyOutcome f z flux s ((Prog.lift r >>= k) t) := by
  rcases h with ⟨hmiss, h⟩ | ⟨hno, h⟩
  · obtain ⟨n, hn, hv⟩ := hm hmiss
    rw [h, Prog.lift_throw_bind]
    exact outcome_missing hv hn rfl
  · rw [h, Prog.lift_ok_bind]
    exact hk hno

theorem getInt_cases {n : String} {x : Int} (hs : ScalarIs f n x) :
    (f.var? n = none ∧ ∀ old, f.getInt n old = thrown "NetCDF: Variable not found") ∨
      (f.var? n ≠ none ∧ ∀ old, f.getInt n old = .ok (some x)) := by
  cases h : f.var? n with
  | none => exact .inl ⟨rfl, getInt_none h⟩
  | some v => exact .inr ⟨by simp, getInt_some h (hs v h)⟩

theorem getDbl_cases {n : String} (hs : HasDbls f n 1) :
    (f.var? n = none ∧ ∀ old, f.getDbl n old = thrown "NetCDF: Variable not found") ∨
      (f.var? n ≠ none ∧ ∀ old, f.getDbl n old = .ok (some ((dblsOf f n).val (ofInt 0) 0))) := by
  cases h : f.var? n with
  | none => exact .inl ⟨rfl, getDbl_none h⟩
  | some v =>
    obtain ⟨x, hx, hf⟩ := hs v h
    obtain ⟨y, hy⟩ := hf.2 0 (by decide)
    have e : x = #[some y] := by
      apply Array.ext_getElem?
      intro i
      rcases i with _ | i
      · rw [hy]; rfl
      · have h1 : x.size = 1 := hf.1
        rw [Array.getElem?_eq_none (by omega)]; simp
    exact .inr ⟨by simp, getDbl_some h (by rw [dblsOf_eq h hx, hx, e]; rfl)⟩

theorem getIVec_cases {n : String} {x : Int} (hs : HasInts f n x) (hx : 1 ≤ x) :
    (f.var? n = none ∧ ∀ old, f.getIVec n old = thrown "NetCDF: Variable not found") ∨
      (f.var? n ≠ none ∧ (∀ old : Vec Int, old.size = x.toNat → f.getIVec n old = .ok (intsOf f n))) := by
  cases h : f.var? n with
  | none => exact .inl ⟨rfl, getIVec_none h⟩
  | some v =>
    obtain ⟨a, ha, hf, -⟩ := hs v h
    refine .inr ⟨by simp, fun old ho => ?_⟩
    rw [getIVec_some h ha hf.1 ho (by omega), intsOf_eq h ha]

theorem intsOf_full {n : String} {x : Int} (hs : HasInts f n x) (h : f.var? n ≠ none) :
    (intsOf f n).Full x.toNat ∧ ∀ i < x.toNat, FitsInt ((intsOf f n).val 0 i) := by
  cases e : f.var? n with
  | none => exact absurd e h
  | some v =>
    obtain ⟨a, ha, hf, hv⟩ := hs v e
    rw [intsOf_eq e ha]
    exact ⟨hf, hv⟩

theorem getVec_cases {n : String} {x : Int} {old : Vec α} (hs : HasDbls f n x) (hx : 1 ≤ x)
    (ho : old.size = x.toNat) :
    (f.var? n = none ∧ f.getVec n old = thrown "NetCDF: Variable not found") ∨
      (f.var? n ≠ none ∧ f.getVec n old = .ok (dblsOf f n)) := by
  cases h : f.var? n with
  | none => exact .inl ⟨rfl, getVec_none h _⟩
  | some v =>
    obtain ⟨a, ha, hf⟩ := hs v h
    refine .inr ⟨by simp, ?_⟩
    rw [getVec_some h ha hf.1 ho (by omega), dblsOf_eq h ha]

theorem getMat_cases {n : String} {r c : Int} {d : Vec α} (hs : HasDbls f n (r * c)) (hr : 1 ≤ r)
    (hc : 1 ≤ c) (hd : d.size = r.toNat * c.toNat) :
    (f.var? n = none ∧ f.getMat n ⟨r.toNat, c.toNat, d⟩ = thrown "NetCDF: Variable not found") ∨
      (f.var? n ≠ none ∧ f.getMat n ⟨r.toNat, c.toNat, d⟩ = .ok (woutMat f r c n)) := by
  cases h : f.var? n with
  | none => exact .inl ⟨rfl, getMat_none h _⟩
  | some v =>
    obtain ⟨a, ha, hf⟩ := hs v h
    refine .inr ⟨by simp, ?_⟩
    have e : (r * c).toNat = r.toNat * c.toNat := Int.toNat_mul (by omega) (by omega)
    rw [getMat_some h ha (by rw [hf.1, e]) hd (by omega) (by omega)]
    unfold woutMat
    rw [dblsOf_eq h ha]

theorem readFlux_cases (hz : WoutShapes f z) :
    ((flux = true ∧ ∃ n ∈ woutFlux, f.var? n = none) ∧
      readFlux f flux (some z.ns) = thrown "NetCDF: Variable not found") ∨
    ((flux = true → ∀ n ∈ woutFlux, f.var? n ≠ none) ∧ readFlux f flux (some z.ns) =
      .ok ⟨if flux then dblsOf f "phipf" else #[], if flux then dblsOf f "chi" else #[],
        if flux then dblsOf f "pres" else #[], if flux then dblsOf f "phi" else #[]⟩) := by
  cases flux with
  | false => exact .inr ⟨fun h => (by cases h), rfl⟩
  | true =>
    unfold readFlux
    rw [if_pos rfl, need_some, ok_bind]
    obtain ⟨v, hv, hsz⟩ := Vec.resize_size (#[] : Vec α) (n := z.ns) (by have := hz.ns_pos; omega)
    rw [hv, ok_bind]
    rcases getVec_cases hz.chi hz.ns_pos hsz with ⟨h1, e1⟩ | ⟨h1, e1⟩
    · exact .inl ⟨⟨rfl, "chi", by simp [woutFlux], h1⟩, by rw [e1]; rfl⟩
    rcases getVec_cases hz.phipf hz.ns_pos hsz with ⟨h2, e2⟩ | ⟨h2, e2⟩
    · exact .inl ⟨⟨rfl, "phipf", by simp [woutFlux], h2⟩, by rw [e1, ok_bind, e2]; rfl⟩
    rcases getVec_cases hz.pres hz.ns_pos hsz with ⟨h3, e3⟩ | ⟨h3, e3⟩
    · exact .inl ⟨⟨rfl, "pres", by simp [woutFlux], h3⟩, by rw [e1, ok_bind, e2, ok_bind, e3]; rfl⟩
    rcases getVec_cases hz.phi hz.ns_pos hsz with ⟨h4, e4⟩ | ⟨h4, e4⟩
    · exact .inl ⟨⟨rfl, "phi", by simp [woutFlux], h4⟩,
        by rw [e1, ok_bind, e2, ok_bind, e3, ok_bind, e4]; rfl⟩
    refine .inr ⟨fun _ n hn => ?_, by rw [e1, ok_bind, e2, ok_bind, e3, ok_bind, e4]; rfl⟩
    simp only [woutFlux, List.mem_cons, List.not_mem_nil, or_false] at hn
    rcases hn with rfl | rfl | rfl | rfl <;> assumption

theorem readMats_cases (hz : WoutShapes f z) {nr nzz nl nb nu nv : String}
    (h1 : HasDbls f nr (z.mnmax * z.ns)) (h2 : HasDbls f nzz (z.mnmax * z.ns))
    (h3 : HasDbls f nl (z.mnmax * z.ns)) (h4 : HasDbls f nb (z.mnmax_nyq * z.ns))
    (h5 : HasDbls f nu (z.mnmax_nyq * z.ns)) (h6 : HasDbls f nv (z.mnmax_nyq * z.ns)) :
    ((∃ n ∈ [nr, nzz, nl, nb, nu, nv], f.var? n = none) ∧
      readMats f (some z.ns) (some z.mnmax) (some z.mnmax_nyq) nr nzz nl nb nu nv =
        thrown "NetCDF: Variable not found") ∨
    ((∀ n ∈ [nr, nzz, nl, nb, nu, nv], f.var? n ≠ none) ∧
      readMats f (some z.ns) (some z.mnmax) (some z.mnmax_nyq) nr nzz nl nb nu nv =
        .ok ⟨woutMat f z.mnmax z.ns nr, woutMat f z.mnmax z.ns nzz, woutMat f z.mnmax z.ns nl,
          woutMat f z.mnmax_nyq z.ns nb, woutMat f z.mnmax_nyq z.ns nu,
          woutMat f z.mnmax_nyq z.ns nv⟩) := by
  have a := hz.ns_pos
  have b := hz.mnmax_pos.1
  have c := hz.mnmax_nyq_pos.1
  unfold readMats
  obtain ⟨d, hd, sd⟩ := (Mat.empty : Mat α).resize_size (r := z.mnmax) (c := z.ns) (by omega) (by omega)
  obtain ⟨q, hq, sq⟩ := (Mat.empty : Mat α).resize_size (r := z.mnmax_nyq) (c := z.ns) (by omega)
    (by omega)
  rw [need_some, need_some, need_some, ok_bind, ok_bind, hd, ok_bind]
  rcases getMat_cases h1 b a sd with ⟨m, e⟩ | ⟨m1, e⟩
  · exact .inl ⟨⟨nr, by simp, m⟩, by rw [e]; rfl⟩
  rw [e, ok_bind]; clear e
  rcases getMat_cases h2 b a sd with ⟨m, e⟩ | ⟨m2, e⟩
  · exact .inl ⟨⟨nzz, by simp, m⟩, by rw [e]; rfl⟩
  rw [e, ok_bind]; clear e
  rcases getMat_cases h3 b a sd with ⟨m, e⟩ | ⟨m3, e⟩
  · exact .inl ⟨⟨nl, by simp, m⟩, by rw [e]; rfl⟩
  rw [e, ok_bind, ok_bind, hq, ok_bind]; clear e
  rcases getMat_cases h4 c a sq with ⟨m, e⟩ | ⟨m4, e⟩
  · exact .inl ⟨⟨nb, by simp, m⟩, by rw [e]; rfl⟩
  rw [e, ok_bind]; clear e
  rcases getMat_cases h5 c a sq with ⟨m, e⟩ | ⟨m5, e⟩
  · exact .inl ⟨⟨nu, by simp, m⟩, by rw [e]; rfl⟩
  rw [e, ok_bind]; clear e
  rcases getMat_cases h6 c a sq with ⟨m, e⟩ | ⟨m6, e⟩
  · exact .inl ⟨⟨nv, by simp, m⟩, by rw [e]; rfl⟩
  refine .inr ⟨fun n hn => ?_, by rw [e]; rfl⟩
  simp only [List.mem_cons, List.not_mem_nil, or_false] at hn
  rcases hn with rfl | rfl | rfl | rfl | rfl | rfl <;> assumption

theorem fits_tdiv {x p : Int} (hx : FitsInt x) (hp : 1 ≤ p) : FitsInt (x.tdiv p) := by
  have h1 : (x.tdiv p).natAbs ≤ x.natAbs := by
    rw [Int.natAbs_tdiv]; exact Nat.div_le_self _ _
  unfold FitsInt at *
  have h2 : 0 ≤ x → 0 ≤ x.tdiv p := fun h => Int.tdiv_nonneg h (by omega)
  by_cases h : 0 ≤ x
  · have := h2 h; omega
  · have e : x.tdiv p = -((-x).tdiv p) := by rw [Int.neg_tdiv]; omega
    have h3 : 0 ≤ (-x).tdiv p := Int.tdiv_nonneg (by omega) (by omega)
    omega

/-- The inputs while the file is being read. -/
def woutPart (I : Inputs α) (asym : Option Bool) (nfp mpol ntor mnmax mnq : Option Int)
    (aspect : Option α) (xm xn xmq xnq : Vec Int) (mpq ntq : Option Int) : Inputs α :=
  { I with
    asym := asym, nfp := nfp, mpol := mpol, ntor := ntor, mnmax := mnmax, mnmax_nyq := mnq
    aspect := aspect, xm := xm, xn := xn, xm_nyq := xmq, xn_nyq := xnq, mpol_nyq := mpq
    ntor_nyq := ntq }

/-- Discharge a reading statement from the case analysis of the variable. -/
macro "wstep" h:term : tactic => `(tactic| (
  rcases $h:term with ⟨m, e⟩ | ⟨m, e⟩
  · exact .inl ⟨m, by rw [e]; rfl⟩
  · exact .inr ⟨m, by rw [e]; rfl⟩))

theorem readWoutBody_cases (hz : WoutShapes f z) :
    BodyOutcome f z flux s (readWoutBody f flux s) := by
  have a := hz.ns_pos
  have b := hz.mnmax_pos
  have c := hz.mnmax_nyq_pos
  have base : ∀ {n : String}, n ∈ woutBase → n ∈ woutRequired flux (decide (z.lasym ≠ 0)) := by
    intro n hn; unfold woutRequired; simp [hn]
  unfold readWoutBody
  refine step_lift (x := some z.lasym) (miss := f.var? "lasym__logical__" = none) ?_
    (fun h => ⟨_, base (by decide), h⟩) fun q1 => ?_
  · rcases getInt_cases hz.lasym with ⟨m, e⟩ | ⟨m, e⟩
    · exact .inl ⟨m, e _⟩
    · exact .inr ⟨m, e _⟩
  show BodyOutcome f z flux s ((setInp _ >>= _) { s with inp := s.inp })
  refine step_pure (J := woutPart s.inp (some (decide (z.lasym ≠ 0))) s.inp.nfp s.inp.mpol s.inp.ntor s.inp.mnmax s.inp.mnmax_nyq s.inp.aspect s.inp.xm s.inp.xn s.inp.xm_nyq s.inp.xn_nyq s.inp.mpol_nyq s.inp.ntor_nyq) rfl ?_
  refine step_lift (x := some z.ns) (miss := f.var? "ns" = none) ?_
    (fun h => ⟨_, base (by decide), h⟩) fun q2 => ?_
  · rcases getInt_cases hz.ns with ⟨m, e⟩ | ⟨m, e⟩
    · exact .inl ⟨m, e _⟩
    · exact .inr ⟨m, e _⟩
  refine step_set (n := "nfp") (J := woutPart s.inp (some (decide (z.lasym ≠ 0))) (some z.nfp) s.inp.mpol s.inp.ntor s.inp.mnmax s.inp.mnmax_nyq s.inp.aspect s.inp.xm s.inp.xn s.inp.xm_nyq s.inp.xn_nyq s.inp.mpol_nyq s.inp.ntor_nyq)
    (by wstep getInt_cases hz.nfp) (base (by decide)) fun p3 => ?_
  refine step_set (n := "mpol") (J := woutPart s.inp (some (decide (z.lasym ≠ 0))) (some z.nfp) (some z.mpol) s.inp.ntor s.inp.mnmax s.inp.mnmax_nyq s.inp.aspect s.inp.xm s.inp.xn s.inp.xm_nyq s.inp.xn_nyq s.inp.mpol_nyq s.inp.ntor_nyq)
    (by wstep getInt_cases hz.mpol) (base (by decide)) fun p4 => ?_
  refine step_set (n := "ntor") (J := woutPart s.inp (some (decide (z.lasym ≠ 0))) (some z.nfp) (some z.mpol) (some z.ntor) s.inp.mnmax s.inp.mnmax_nyq s.inp.aspect s.inp.xm s.inp.xn s.inp.xm_nyq s.inp.xn_nyq s.inp.mpol_nyq s.inp.ntor_nyq)
    (by wstep getInt_cases hz.ntor) (base (by decide)) fun p5 => ?_
  refine step_set (n := "mnmax") (J := woutPart s.inp (some (decide (z.lasym ≠ 0))) (some z.nfp) (some z.mpol) (some z.ntor) (some z.mnmax) s.inp.mnmax_nyq s.inp.aspect s.inp.xm s.inp.xn s.inp.xm_nyq s.inp.xn_nyq s.inp.mpol_nyq s.inp.ntor_nyq)
    (by wstep getInt_cases hz.mnmax) (base (by decide)) fun p6 => ?_
  refine step_set (n := "mnmax_nyq") (J := woutPart s.inp (some (decide (z.lasym ≠ 0))) (some z.nfp) (some z.mpol) (some z.ntor) (some z.mnmax) (some z.mnmax_nyq) s.inp.aspect s.inp.xm s.inp.xn s.inp.xm_nyq s.inp.xn_nyq s.inp.mpol_nyq s.inp.ntor_nyq)
    (by wstep getInt_cases hz.mnmax_nyq) (base (by decide)) fun p7 => ?_
  refine step_set (n := "aspect") (J := woutPart s.inp (some (decide (z.lasym ≠ 0))) (some z.nfp) (some z.mpol) (some z.ntor) (some z.mnmax) (some z.mnmax_nyq) (some ((dblsOf f "aspect").val (ofInt 0) 0)) s.inp.xm s.inp.xn s.inp.xm_nyq s.inp.xn_nyq s.inp.mpol_nyq s.inp.ntor_nyq)
    (by wstep getDbl_cases hz.aspect) (base (by decide)) fun p8 => ?_
  refine step_lift (miss := flux = true ∧ ∃ n ∈ woutFlux, f.var? n = none)
    (x := ⟨if flux then dblsOf f "phipf" else #[], if flux then dblsOf f "chi" else #[],
        if flux then dblsOf f "pres" else #[], if flux then dblsOf f "phi" else #[]⟩) ?_ ?_ fun qf => ?_
  · rcases readFlux_cases (flux := flux) hz with h | h
    · exact .inl h
    · exact .inr ⟨fun ⟨hf, n, hn, e⟩ => h.1 hf n hn e, h.2⟩
  · rintro ⟨rfl, n, hn, h⟩
    exact ⟨n, by unfold woutRequired; simp [hn], h⟩
  obtain ⟨w0, hw0, sw0⟩ := Vec.resize_size (#[] : Vec α) (n := z.ns) (by omega)
  refine step_lift (miss := f.var? "iotas" = none) (x := dblsOf f "iotas") ?_
    (fun h => ⟨_, base (by decide), h⟩) fun qi => ?_
  · rw [need_some, ok_bind, hw0, ok_bind]
    rcases getVec_cases hz.iotas a sw0 with h | h
    · exact .inl h
    · exact .inr h
  obtain ⟨w_xm, h_xm, s_xm⟩ := s.inp.xm.resize_size (n := z.mnmax) (by omega)
  refine step_pure (J := woutPart s.inp (some (decide (z.lasym ≠ 0))) (some z.nfp) (some z.mpol) (some z.ntor) (some z.mnmax) (some z.mnmax_nyq) (some ((dblsOf f "aspect").val (ofInt 0) 0)) w_xm s.inp.xn s.inp.xm_nyq s.inp.xn_nyq s.inp.mpol_nyq s.inp.ntor_nyq)
    (by show (Vec.resize s.inp.xm z.mnmax >>= _) = _; rw [h_xm]; rfl) ?_
  obtain ⟨w_xn, h_xn, s_xn⟩ := s.inp.xn.resize_size (n := z.mnmax) (by omega)
  refine step_pure (J := woutPart s.inp (some (decide (z.lasym ≠ 0))) (some z.nfp) (some z.mpol) (some z.ntor) (some z.mnmax) (some z.mnmax_nyq) (some ((dblsOf f "aspect").val (ofInt 0) 0)) w_xm w_xn s.inp.xm_nyq s.inp.xn_nyq s.inp.mpol_nyq s.inp.ntor_nyq)
    (by show (Vec.resize s.inp.xn z.mnmax >>= _) = _; rw [h_xn]; rfl) ?_
  refine step_set (n := "xm") (J := woutPart s.inp (some (decide (z.lasym ≠ 0))) (some z.nfp) (some z.mpol) (some z.ntor) (some z.mnmax) (some z.mnmax_nyq) (some ((dblsOf f "aspect").val (ofInt 0) 0)) (intsOf f "xm") w_xn s.inp.xm_nyq s.inp.xn_nyq s.inp.mpol_nyq s.inp.ntor_nyq)
    (by
      rcases getIVec_cases hz.xm b.1 with ⟨m, e⟩ | ⟨m, e⟩
      · exact .inl ⟨m, by rw [e]; rfl⟩
      · exact .inr ⟨m, by show (f.getIVec "xm" w_xm >>= _) = _; rw [e _ s_xm]; rfl⟩)
    (base (by decide)) fun p_xm => ?_
  refine step_set (n := "xn") (J := woutPart s.inp (some (decide (z.lasym ≠ 0))) (some z.nfp) (some z.mpol) (some z.ntor) (some z.mnmax) (some z.mnmax_nyq) (some ((dblsOf f "aspect").val (ofInt 0) 0)) (intsOf f "xm") (intsOf f "xn") s.inp.xm_nyq s.inp.xn_nyq s.inp.mpol_nyq s.inp.ntor_nyq)
    (by
      rcases getIVec_cases hz.xn b.1 with ⟨m, e⟩ | ⟨m, e⟩
      · exact .inl ⟨m, by rw [e]; rfl⟩
      · exact .inr ⟨m, by show (f.getIVec "xn" w_xn >>= _) = _; rw [e _ s_xn]; rfl⟩)
    (base (by decide)) fun p_xn => ?_
  obtain ⟨w_xm_nyq, h_xm_nyq, s_xm_nyq⟩ := s.inp.xm_nyq.resize_size (n := z.mnmax_nyq) (by omega)
  refine step_pure (J := woutPart s.inp (some (decide (z.lasym ≠ 0))) (some z.nfp) (some z.mpol) (some z.ntor) (some z.mnmax) (some z.mnmax_nyq) (some ((dblsOf f "aspect").val (ofInt 0) 0)) (intsOf f "xm") (intsOf f "xn") w_xm_nyq s.inp.xn_nyq s.inp.mpol_nyq s.inp.ntor_nyq)
    (by show (Vec.resize s.inp.xm_nyq z.mnmax_nyq >>= _) = _; rw [h_xm_nyq]; rfl) ?_
  obtain ⟨w_xn_nyq, h_xn_nyq, s_xn_nyq⟩ := s.inp.xn_nyq.resize_size (n := z.mnmax_nyq) (by omega)
  refine step_pure (J := woutPart s.inp (some (decide (z.lasym ≠ 0))) (some z.nfp) (some z.mpol) (some z.ntor) (some z.mnmax) (some z.mnmax_nyq) (some ((dblsOf f "aspect").val (ofInt 0) 0)) (intsOf f "xm") (intsOf f "xn") w_xm_nyq w_xn_nyq s.inp.mpol_nyq s.inp.ntor_nyq)
    (by show (Vec.resize s.inp.xn_nyq z.mnmax_nyq >>= _) = _; rw [h_xn_nyq]; rfl) ?_
  refine step_set (n := "xm_nyq") (J := woutPart s.inp (some (decide (z.lasym ≠ 0))) (some z.nfp) (some z.mpol) (some z.ntor) (some z.mnmax) (some z.mnmax_nyq) (some ((dblsOf f "aspect").val (ofInt 0) 0)) (intsOf f "xm") (intsOf f "xn") (intsOf f "xm_nyq") w_xn_nyq s.inp.mpol_nyq s.inp.ntor_nyq)
    (by
      rcases getIVec_cases hz.xm_nyq c.1 with ⟨m, e⟩ | ⟨m, e⟩
      · exact .inl ⟨m, by rw [e]; rfl⟩
      · exact .inr ⟨m, by show (f.getIVec "xm_nyq" w_xm_nyq >>= _) = _; rw [e _ s_xm_nyq]; rfl⟩)
    (base (by decide)) fun p_xm_nyq => ?_
  refine step_set (n := "xn_nyq") (J := woutPart s.inp (some (decide (z.lasym ≠ 0))) (some z.nfp) (some z.mpol) (some z.ntor) (some z.mnmax) (some z.mnmax_nyq) (some ((dblsOf f "aspect").val (ofInt 0) 0)) (intsOf f "xm") (intsOf f "xn") (intsOf f "xm_nyq") (intsOf f "xn_nyq") s.inp.mpol_nyq s.inp.ntor_nyq)
    (by
      rcases getIVec_cases hz.xn_nyq c.1 with ⟨m, e⟩ | ⟨m, e⟩
      · exact .inl ⟨m, by rw [e]; rfl⟩
      · exact .inr ⟨m, by show (f.getIVec "xn_nyq" w_xn_nyq >>= _) = _; rw [e _ s_xn_nyq]; rfl⟩)
    (base (by decide)) fun p_xn_nyq => ?_
  have hk : FitsInt (z.mnmax_nyq - 1) := by have := c.2; unfold FitsInt at *; omega
  have hkn : z.mnmax_nyq - 1 = ((z.mnmax_nyq.toNat - 1 : Nat) : Int) := by omega
  have hlt : z.mnmax_nyq.toNat - 1 < z.mnmax_nyq.toNat := by omega
  have hrd : ∀ {n : String}, HasInts f n z.mnmax_nyq → f.var? n ≠ none →
      (intsOf f n).rd (z.mnmax_nyq - 1) = .ok ((intsOf f n).val 0 (z.mnmax_nyq.toNat - 1)) := by
    intro n h1 h2
    rw [hkn, Vec.rd, if_pos (by omega), Int.toNat_natCast]
    exact (intsOf_full h1 h2).1.rdN 0 hlt
  refine step_pure (J := woutPart s.inp (some (decide (z.lasym ≠ 0))) (some z.nfp) (some z.mpol) (some z.ntor) (some z.mnmax) (some z.mnmax_nyq) (some ((dblsOf f "aspect").val (ofInt 0) 0)) (intsOf f "xm") (intsOf f "xn") (intsOf f "xm_nyq") (intsOf f "xn_nyq") (some ((intsOf f "xm_nyq").val 0 (z.mnmax_nyq.toNat - 1))) s.inp.ntor_nyq)
    (by
      show (i32 (z.mnmax_nyq - 1) >>= fun k => (intsOf f "xm_nyq").rd k >>= _) = _
      rw [i32_ok hk, ok_bind, hrd hz.xm_nyq p_xm_nyq]; rfl) ?_
  refine step_pure (J := woutPart s.inp (some (decide (z.lasym ≠ 0))) (some z.nfp) (some z.mpol) (some z.ntor) (some z.mnmax) (some z.mnmax_nyq) (some ((dblsOf f "aspect").val (ofInt 0) 0)) (intsOf f "xm") (intsOf f "xn") (intsOf f "xm_nyq") (intsOf f "xn_nyq") (some ((intsOf f "xm_nyq").val 0 (z.mnmax_nyq.toNat - 1))) (some (((intsOf f "xn_nyq").val 0 (z.mnmax_nyq.toNat - 1)).tdiv z.nfp)))
    (by
      show (i32 (z.mnmax_nyq - 1) >>= fun k => (intsOf f "xn_nyq").rd k >>= fun x =>
        idiv x z.nfp >>= _) = _
      rw [i32_ok hk, ok_bind, hrd hz.xn_nyq p_xn_nyq, ok_bind]
      unfold idiv
      rw [if_neg (by have := hz.nfp_pos; omega),
        i32_ok (fits_tdiv ((intsOf_full hz.xn_nyq p_xn_nyq).2 _ hlt) hz.nfp_pos)]
      rfl) ?_
  rw [Prog.get_bind]
  refine step_lift (miss := ∃ n ∈ ["rmnc", "zmns", "lmns", "bmnc", "bsubumnc", "bsubvmnc"], f.var? n = none)
    (x := ⟨woutMat f z.mnmax z.ns "rmnc", woutMat f z.mnmax z.ns "zmns", woutMat f z.mnmax z.ns "lmns",
      woutMat f z.mnmax_nyq z.ns "bmnc", woutMat f z.mnmax_nyq z.ns "bsubumnc",
      woutMat f z.mnmax_nyq z.ns "bsubvmnc"⟩) ?_ ?_ fun qs => ?_
  · rcases readMats_cases hz (hz.mats "rmnc" (by decide)) (hz.mats "zmns" (by decide))
      (hz.mats "lmns" (by decide)) (hz.mats_nyq "bmnc" (by decide)) (hz.mats_nyq "bsubumnc" (by decide))
      (hz.mats_nyq "bsubvmnc" (by decide)) with h | h
    · exact .inl h
    · exact .inr ⟨fun ⟨n, hn, e⟩ => h.1 n hn e, h.2⟩
  · rintro ⟨n, hn, h⟩
    exact ⟨n, base ((by decide : ["rmnc", "zmns", "lmns", "bmnc", "bsubumnc", "bsubvmnc"] ⊆ woutBase) hn), h⟩
  refine step_lift (miss := False) (x := decide (z.lasym ≠ 0)) (.inr ⟨id, rfl⟩) False.elim fun _ => ?_
  refine step_lift (miss := z.lasym ≠ 0 ∧ ∃ n ∈ woutAsym, f.var? n = none)
    (x := if z.lasym ≠ 0 then
      ⟨woutMat f z.mnmax z.ns "rmns", woutMat f z.mnmax z.ns "zmnc", woutMat f z.mnmax z.ns "lmnc",
      woutMat f z.mnmax_nyq z.ns "bmns", woutMat f z.mnmax_nyq z.ns "bsubumns",
      woutMat f z.mnmax_nyq z.ns "bsubvmns"⟩
      else ⟨.empty, .empty, .empty, .empty, .empty, .empty⟩) ?_ ?_ fun qa => ?_
  · by_cases hl : z.lasym ≠ 0
    · rw [decide_eq_true hl, if_pos hl]
      rcases readMats_cases hz (hz.mats "rmns" (by decide)) (hz.mats "zmnc" (by decide))
        (hz.mats "lmnc" (by decide)) (hz.mats_nyq "bmns" (by decide)) (hz.mats_nyq "bsubumns" (by decide))
        (hz.mats_nyq "bsubvmns" (by decide)) with h | h
      · exact .inl ⟨⟨hl, h.1⟩, h.2⟩
      · exact .inr ⟨fun ⟨_, n, hn, e⟩ => h.1 n hn e, h.2⟩
    · rw [decide_eq_false hl, if_neg hl]
      exact .inr ⟨fun h => hl h.1, rfl⟩
  · rintro ⟨hl, n, hn, h⟩
    exact ⟨n, by unfold woutRequired; simp [hn, hl], h⟩
  refine step_lift (miss := False) (x := z.ns) (.inr ⟨id, rfl⟩) False.elim fun _ => ?_
  refine Or.inr ⟨fun n hn => ?_, ?_⟩
  · unfold woutRequired at hn
    rcases List.mem_append.1 hn with hn | hn
    · rcases List.mem_append.1 hn with hn | hn
      · simp only [woutBase, List.mem_cons, List.not_mem_nil, or_false] at hn
        rcases hn with h | h | h | h | h | h | h | h | h | h | h | h | h | h | h | h | h | h | h <;> subst h <;>
          first
          | assumption
          | exact fun h => qs ⟨_, by decide, h⟩
      · by_cases hf : flux = true
        · rw [if_pos hf] at hn
          exact fun h => qf ⟨hf, n, hn, h⟩
        · rw [if_neg hf] at hn
          exact absurd hn List.not_mem_nil
    · by_cases hl : z.lasym ≠ 0
      · rw [decide_eq_true hl, if_pos rfl] at hn
        exact fun h => qa ⟨hl, n, hn, h⟩
      · rw [decide_eq_false hl] at hn
        exact absurd hn List.not_mem_nil
  · unfold woutArgs
    by_cases hl : z.lasym ≠ 0
    · simp only [if_pos hl]; rfl
    · simp only [if_neg hl]; rfl

theorem readWout_cases {disk : Disk α} {path : String} (hd : disk path = .nc f)
    (hz : WoutShapes f z) : WoutOutcome f z flux s (readWout disk path flux s) := by
  have ho : openRead disk path = .ok f := by unfold openRead; rw [hd]
  unfold readWout
  rw [ho, Prog.lift_ok_bind, Prog.bind_def]
  rcases readWoutBody_cases (flux := flux) (s := s) hz with ⟨h, s', e⟩ | ⟨h, e⟩
  · rw [e]; exact .inl ⟨h, s', rfl⟩
  · rw [e]; exact .inr ⟨h, rfl⟩

end

end Booz
