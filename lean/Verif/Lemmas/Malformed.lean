import Verif.Spec.Malformed
import Verif.Lemmas.ReadWout
import Verif.Lemmas.Pipeline

/-!
# Reading files of any contents
-/

namespace Booz
open Spec
variable {α : Type} [Arith α]

/-! ### What a successful read says about the file -/

theorem blit_fits {β : Type} {src buf r : Vec β} (h : blit src buf = .ok r) :
    src.size ≤ buf.size ∧ r.size = buf.size := by
  unfold blit at h
  split at h
  · next hs =>
    cases h
    refine ⟨hs, ?_⟩
    rw [Array.size_append, Array.size_extract]
    omega
  · cases h

theorem asInts_count {v : NcVar α} {a : Vec Int} (h : v.asInts = .ok a) : valueCount v.data = a.size := by
  unfold NcVar.asInts at h
  cases hd : v.data with
  | ints b => rw [hd] at h; cases h; rfl
  | text b => rw [hd] at h; cases h
  | dbls b =>
    rw [hd] at h
    simp only at h
    split at h
    · cases h; simp [valueCount]
    · cases h

theorem asDbls_count {v : NcVar α} {a : Vec α} (h : v.asDbls = .ok a) : valueCount v.data = a.size := by
  unfold NcVar.asDbls at h
  cases hd : v.data with
  | ints b => rw [hd] at h; cases h; simp [valueCount]
  | text b => rw [hd] at h; cases h
  | dbls b => rw [hd] at h; cases h; rfl

section
variable {f : NcFile α} {n : String}

omit [Arith α] in
theorem find_entries {v : NcVar α} (h : f.find n = .ok v) : entries f n = valueCount v.data := by
  unfold NcFile.find at h
  unfold entries
  split at h
  · next e => cases h; rw [e]; rfl
  · cases h

theorem getInt_fits {old r : Option Int} (h : f.getInt n old = .ok r) : entries f n ≤ 1 := by
  obtain ⟨v, h1, h⟩ := bind_ok h
  obtain ⟨a, h2, h⟩ := bind_ok h
  obtain ⟨b, h3, h⟩ := bind_ok h
  rw [find_entries h1, asInts_count h2]
  exact (blit_fits h3).1

theorem getInt_scalar {x : Int} (hs : ScalarIs f n x) {old r : Option Int} (h : f.getInt n old = .ok r) :
    r = some x := by
  rcases getInt_cases hs with ⟨-, e⟩ | ⟨-, e⟩
  · rw [e] at h; cases h
  · rw [e] at h; cases h; rfl

theorem getDbl_fits {old r : Option α} (h : f.getDbl n old = .ok r) : entries f n ≤ 1 := by
  obtain ⟨v, h1, h⟩ := bind_ok h
  obtain ⟨a, h2, h⟩ := bind_ok h
  obtain ⟨b, h3, h⟩ := bind_ok h
  rw [find_entries h1, asDbls_count h2]
  exact (blit_fits h3).1

omit [Arith α] in
theorem first_pos {β : Type} {v : Vec β} {u : Unit} (h : first v = .ok u) : 0 < v.size := by
  unfold first at h
  split at h
  · assumption
  · cases h

theorem getVec_fits {old r : Vec α} (h : f.getVec n old = .ok r) : entries f n ≤ old.size ∧ 0 < old.size := by
  obtain ⟨v, h1, h⟩ := bind_ok h
  obtain ⟨_, h2, h⟩ := bind_ok h
  obtain ⟨a, h3, h⟩ := bind_ok h
  rw [find_entries h1, asDbls_count h3]
  exact ⟨(blit_fits h).1, first_pos h2⟩

theorem getIVec_fits {old r : Vec Int} (h : f.getIVec n old = .ok r) : entries f n ≤ old.size ∧ 0 < old.size := by
  obtain ⟨v, h1, h⟩ := bind_ok h
  obtain ⟨_, h2, h⟩ := bind_ok h
  obtain ⟨a, h3, h⟩ := bind_ok h
  rw [find_entries h1, asInts_count h3]
  exact ⟨(blit_fits h).1, first_pos h2⟩

theorem getMat_fits {old r : Mat α} (h : f.getMat n old = .ok r) : entries f n ≤ old.data.size := by
  obtain ⟨v, h1, h⟩ := bind_ok h
  obtain ⟨_, h2, h⟩ := bind_ok h
  obtain ⟨a, h3, h⟩ := bind_ok h
  obtain ⟨b, h4, h⟩ := bind_ok h
  rw [find_entries h1, asDbls_count h3]
  exact (blit_fits h4).1

omit [Arith α] in
theorem resize_size {β : Type} {v r : Vec β} {k : Int} (h : v.resize k = .ok r) : r.size = k.toNat := by
  unfold Vec.resize at h
  split at h
  · cases h; split
    · assumption
    · simp
  · cases h

omit [Arith α] in
theorem mresize_size {β : Type} {a r : Mat β} {k l : Int} (h : a.resize k l = .ok r) :
    r.data.size = k.toNat * l.toNat := by
  unfold Mat.resize at h
  split at h
  · cases h; show (if _ then _ else _ : Array _).size = _
    split
    · assumption
    · simp
  · cases h

theorem readFlux_fits {flux : Bool} {ns : Int} {r : FluxArgs α} (h : readFlux f flux (some ns) = .ok r) :
    flux = true → ∀ n ∈ woutFlux, entries f n ≤ ns.toNat := by
  intro hf
  subst hf
  unfold readFlux at h
  rw [if_pos rfl] at h
  simp only [need_some, ok_bind] at h
  obtain ⟨w, h0, h⟩ := bind_ok h
  obtain ⟨_, h1, h⟩ := bind_ok h
  obtain ⟨_, h2, h⟩ := bind_ok h
  obtain ⟨_, h3, h⟩ := bind_ok h
  obtain ⟨_, h4, h⟩ := bind_ok h
  have e := resize_size h0
  intro n hn
  simp only [woutFlux, List.mem_cons, List.not_mem_nil, or_false] at hn
  rcases hn with rfl | rfl | rfl | rfl
  · exact e ▸ (getVec_fits h1).1
  · exact e ▸ (getVec_fits h2).1
  · exact e ▸ (getVec_fits h3).1
  · exact e ▸ (getVec_fits h4).1

theorem readMats_fits {ns K Q : Int} {a b c d e g : String} {r : Mat6 α}
    (h : readMats f (some ns) (some K) (some Q) a b c d e g = .ok r) :
    (∀ n ∈ [a, b, c], entries f n ≤ K.toNat * ns.toNat) ∧ ∀ n ∈ [d, e, g], entries f n ≤ Q.toNat * ns.toNat := by
  unfold readMats at h
  simp only [need_some, ok_bind] at h
  obtain ⟨w, h0, h⟩ := bind_ok h
  obtain ⟨_, h1, h⟩ := bind_ok h
  obtain ⟨_, h2, h⟩ := bind_ok h
  obtain ⟨_, h3, h⟩ := bind_ok h
  obtain ⟨w', k0, h⟩ := bind_ok h
  obtain ⟨_, k1, h⟩ := bind_ok h
  obtain ⟨_, k2, h⟩ := bind_ok h
  obtain ⟨_, k3, h⟩ := bind_ok h
  have e1 := mresize_size h0
  have e2 := mresize_size k0
  constructor <;> intro n hn <;> simp only [List.mem_cons, List.not_mem_nil, or_false] at hn <;>
    rcases hn with rfl | rfl | rfl
  · exact e1 ▸ getMat_fits h1
  · exact e1 ▸ getMat_fits h2
  · exact e1 ▸ getMat_fits h3
  · exact e2 ▸ getMat_fits k1
  · exact e2 ▸ getMat_fits k2
  · exact e2 ▸ getMat_fits k3

theorem whenAsym_fits {asym : Bool} {ns K Q : Int} {a b c d e g : String} {old r : Mat6 α}
    (h : whenAsym asym (readMats f (some ns) (some K) (some Q) a b c d e g) old = .ok r) (ha : asym = true) :
    (∀ n ∈ [a, b, c], entries f n ≤ K.toNat * ns.toNat) ∧ ∀ n ∈ [d, e, g], entries f n ≤ Q.toNat * ns.toNat := by
  subst ha
  exact readMats_fits h

end

theorem setInp_inv {g : Inputs α → Res (Inputs α)} {s t : St α} {u : Unit} (h : setInp g s = .ok u t) :
    ∃ I, g s.inp = .ok I ∧ t = { s with inp := I } := by
  unfold setInp Prog.modify at h
  simp only [Prog.bind_def, Prog.get, Prog.lift] at h
  cases e : g s.inp with
  | error x => rw [e] at h; cases x <;> cases h
  | ok I => rw [e] at h; cases h; exact ⟨I, rfl, rfl⟩

theorem setInp_bind_inv {β : Type} {g : Inputs α → Res (Inputs α)} {k : Unit → Prog (St α) β} {s t : St α} {x : β}
    (h : (setInp g >>= k) s = .ok x t) : ∃ I, g s.inp = .ok I ∧ k () { s with inp := I } = .ok x t := by
  obtain ⟨u, s', h1, h2⟩ := prog_bind_ok h
  obtain ⟨I, h3, rfl⟩ := setInp_inv h1
  exact ⟨I, h3, h2⟩

omit [Arith α] in
theorem lift_bind_inv {σ β γ : Type} {r : Res β} {k : β → Prog σ γ} {s t : σ} {x : γ}
    (h : (Prog.lift r >>= k) s = .ok x t) : ∃ y, r = .ok y ∧ k y s = .ok x t := by
  obtain ⟨y, s', h1, h2⟩ := prog_bind_ok h
  obtain ⟨h3, rfl⟩ := lift_ok_inv h1
  exact ⟨y, h3, h2⟩

/-- A wout file that is read to its end fits. -/
theorem readWoutBody_fits {f : NcFile α} {z : WoutSizes} {flux : Bool} {s t : St α} {q : Int × VmecArgs α}
    (hz : WoutScalars f z) (h : readWoutBody f flux s = .ok q t) : WoutFits f z flux := by
  unfold readWoutBody at h
  obtain ⟨x0, g0, h⟩ := lift_bind_inv h
  obtain rfl := getInt_scalar hz.lasym g0
  obtain ⟨I1, g1, h⟩ := setInp_bind_inv h
  cases g1
  obtain ⟨x2, g2, h⟩ := lift_bind_inv h
  obtain rfl := getInt_scalar hz.ns g2
  obtain ⟨_, g3, h⟩ := setInp_bind_inv h
  obtain ⟨_, fg3, e⟩ := bind_ok g3
  obtain rfl := getInt_scalar hz.nfp fg3
  cases e
  obtain ⟨_, g4, h⟩ := setInp_bind_inv h
  obtain ⟨_, fg4, e⟩ := bind_ok g4
  obtain rfl := getInt_scalar hz.mpol fg4
  cases e
  obtain ⟨_, g5, h⟩ := setInp_bind_inv h
  obtain ⟨_, fg5, e⟩ := bind_ok g5
  obtain rfl := getInt_scalar hz.ntor fg5
  cases e
  obtain ⟨_, g6, h⟩ := setInp_bind_inv h
  obtain ⟨_, fg6, e⟩ := bind_ok g6
  obtain rfl := getInt_scalar hz.mnmax fg6
  cases e
  obtain ⟨_, g7, h⟩ := setInp_bind_inv h
  obtain ⟨_, fg7, e⟩ := bind_ok g7
  obtain rfl := getInt_scalar hz.mnmax_nyq fg7
  cases e
  obtain ⟨_, g8, h⟩ := setInp_bind_inv h
  obtain ⟨_, fg8, e⟩ := bind_ok g8
  cases e
  obtain ⟨fl, g9, h⟩ := lift_bind_inv h
  obtain ⟨_, g10, h⟩ := lift_bind_inv h
  simp only [need_some, ok_bind] at g10
  obtain ⟨v10, r10, fg10⟩ := bind_ok g10
  have s10 := resize_size r10
  obtain ⟨_, g11, h⟩ := setInp_bind_inv h
  simp only [need_some, ok_bind] at g11
  obtain ⟨v11, r11, e⟩ := bind_ok g11
  have s11 := resize_size r11
  cases e
  obtain ⟨_, g12, h⟩ := setInp_bind_inv h
  simp only [need_some, ok_bind] at g12
  obtain ⟨v12, r12, e⟩ := bind_ok g12
  have s12 := resize_size r12
  cases e
  obtain ⟨_, g13, h⟩ := setInp_bind_inv h
  obtain ⟨v13, fg13, e⟩ := bind_ok g13
  cases e
  obtain ⟨_, g14, h⟩ := setInp_bind_inv h
  obtain ⟨v14, fg14, e⟩ := bind_ok g14
  cases e
  obtain ⟨_, g15, h⟩ := setInp_bind_inv h
  simp only [need_some, ok_bind] at g15
  obtain ⟨v15, r15, e⟩ := bind_ok g15
  have s15 := resize_size r15
  cases e
  obtain ⟨_, g16, h⟩ := setInp_bind_inv h
  simp only [need_some, ok_bind] at g16
  obtain ⟨v16, r16, e⟩ := bind_ok g16
  have s16 := resize_size r16
  cases e
  obtain ⟨_, g17, h⟩ := setInp_bind_inv h
  obtain ⟨v17, fg17, e⟩ := bind_ok g17
  cases e
  obtain ⟨_, g18, h⟩ := setInp_bind_inv h
  obtain ⟨v18, fg18, e⟩ := bind_ok g18
  cases e
  obtain ⟨_, g19, h⟩ := setInp_bind_inv h
  simp only [need_some, ok_bind] at g19
  obtain ⟨_, _, g19⟩ := bind_ok g19
  obtain ⟨_, _, e⟩ := bind_ok g19
  cases e
  obtain ⟨_, g20, h⟩ := setInp_bind_inv h
  simp only [need_some, ok_bind] at g20
  obtain ⟨_, _, g20⟩ := bind_ok g20
  obtain ⟨_, _, g20⟩ := bind_ok g20
  obtain ⟨_, hdiv, e⟩ := bind_ok g20
  cases e
  rw [Prog.get_bind] at h
  obtain ⟨_, g21, h⟩ := lift_bind_inv h
  obtain ⟨as, g22, h⟩ := lift_bind_inv h
  cases g22
  obtain ⟨_, g23, h⟩ := lift_bind_inv h
  have m1 := readMats_fits g21
  have m2 := whenAsym_fits g23
  clear h g21 g23
  have hv := getVec_fits fg10
  have k13 := getIVec_fits fg13
  have k14 := getIVec_fits fg14
  have k17 := getIVec_fits fg17
  have k18 := getIVec_fits fg18
  replace k13 : _ ≤ v11.size ∧ 0 < v11.size := k13
  rw [s11] at k13
  replace k14 : _ ≤ v12.size ∧ 0 < v12.size := k14
  rw [s12] at k14
  replace k17 : _ ≤ v15.size ∧ 0 < v15.size := k17
  rw [s15] at k17
  replace k18 : _ ≤ v16.size ∧ 0 < v16.size := k18
  rw [s16] at k18
  rw [s10] at hv
  refine ⟨by omega, by omega, by omega, ?_, ?_⟩
  · intro h0
    rw [h0] at hdiv
    cases hdiv
  · intro n hn
    unfold woutRequired at hn
    rw [List.mem_append, List.mem_append] at hn
    rcases hn with (hn | hn) | hn
    · simp only [woutBase, List.mem_cons, List.not_mem_nil, or_false] at hn
      rcases hn with rfl | rfl | rfl | rfl | rfl | rfl | rfl | rfl | rfl | rfl | rfl | rfl | rfl | rfl | rfl | rfl |
        rfl | rfl | rfl
      · exact getInt_fits g0
      · exact getInt_fits g2
      · exact getInt_fits fg3
      · exact getInt_fits fg4
      · exact getInt_fits fg5
      · exact getInt_fits fg6
      · exact getInt_fits fg7
      · exact getDbl_fits fg8
      · exact hv.1
      · exact k13.1
      · exact k14.1
      · exact k17.1
      · exact k18.1
      · exact m1.1 _ (by decide)
      · exact m1.1 _ (by decide)
      · exact m1.1 _ (by decide)
      · exact m1.2 _ (by decide)
      · exact m1.2 _ (by decide)
      · exact m1.2 _ (by decide)
    · split at hn
      · next hf =>
        have := readFlux_fits g9 hf n hn
        simp only [woutFlux, List.mem_cons, List.not_mem_nil, or_false] at hn
        rcases hn with rfl | rfl | rfl | rfl <;> exact this
      · cases hn
    · split at hn
      · next ha =>
        replace m2 := m2 ha
        simp only [woutAsym, List.mem_cons, List.not_mem_nil, or_false] at hn
        rcases hn with rfl | rfl | rfl | rfl | rfl | rfl
        · exact m2.1 _ (by decide)
        · exact m2.1 _ (by decide)
        · exact m2.1 _ (by decide)
        · exact m2.2 _ (by decide)
        · exact m2.2 _ (by decide)
        · exact m2.2 _ (by decide)
      · cases hn

/-! ### Files of numbers: no exception while reading -/

section
variable {f : NcFile α} {n : String}

omit [Arith α] in
theorem onlyUb_blit {β : Type} (a b : Vec β) : OnlyUb (blit a b) := by
  unfold blit; exact .ite (.ok _) (.ub _)

omit [Arith α] in
theorem onlyUb_first {β : Type} (a : Vec β) : OnlyUb (first a) := by
  unfold first; exact .ite (.ok _) (.ub _)

omit [Arith α] in
theorem onlyUb_mfirst {β : Type} (a : Mat β) : OnlyUb a.first := by
  unfold Mat.first; exact .ite (.ok _) (.ub _)

theorem onlyUb_getInt {v : NcVar α} (h : f.var? n = some v) (hn : ncInts v ≠ none) (old : Option Int) :
    OnlyUb (f.getInt n old) := by
  obtain ⟨a, ha⟩ := Option.ne_none_iff_exists'.mp hn
  unfold NcFile.getInt
  rw [find_some h, ok_bind, asInts_of ha, ok_bind]
  exact .bind (onlyUb_blit _ _) fun _ => .ok _

theorem onlyUb_getDbl {v : NcVar α} (h : f.var? n = some v) (hn : ncDbls v ≠ none) (old : Option α) :
    OnlyUb (f.getDbl n old) := by
  obtain ⟨a, ha⟩ := Option.ne_none_iff_exists'.mp hn
  unfold NcFile.getDbl
  rw [find_some h, ok_bind, asDbls_of ha, ok_bind]
  exact .bind (onlyUb_blit _ _) fun _ => .ok _

theorem onlyUb_getVec {v : NcVar α} (h : f.var? n = some v) (hn : ncDbls v ≠ none) (old : Vec α) :
    OnlyUb (f.getVec n old) := by
  obtain ⟨a, ha⟩ := Option.ne_none_iff_exists'.mp hn
  unfold NcFile.getVec
  rw [find_some h, ok_bind, asDbls_of ha]
  exact .bind (onlyUb_first _) fun _ => onlyUb_blit _ _

theorem onlyUb_getIVec {v : NcVar α} (h : f.var? n = some v) (hn : ncInts v ≠ none) (old : Vec Int) :
    OnlyUb (f.getIVec n old) := by
  obtain ⟨a, ha⟩ := Option.ne_none_iff_exists'.mp hn
  unfold NcFile.getIVec
  rw [find_some h, ok_bind, asInts_of ha]
  exact .bind (onlyUb_first _) fun _ => onlyUb_blit _ _

theorem onlyUb_getMat {v : NcVar α} (h : f.var? n = some v) (hn : ncDbls v ≠ none) (old : Mat α) :
    OnlyUb (f.getMat n old) := by
  obtain ⟨a, ha⟩ := Option.ne_none_iff_exists'.mp hn
  unfold NcFile.getMat
  rw [find_some h, ok_bind, asDbls_of ha]
  exact .bind (onlyUb_mfirst _) fun _ => .bind (.ok a) fun _ => .bind (onlyUb_blit _ _) fun _ => .ok _

end

theorem onlyUb_readMats {f : NcFile α} {ns K Q : Option Int} {a b c d e g : String}
    (h : ∀ n ∈ [a, b, c, d, e, g], ∃ v, f.var? n = some v ∧ ncDbls v ≠ none) :
    OnlyUb (readMats f ns K Q a b c d e g) := by
  have k : ∀ n ∈ [a, b, c, d, e, g], ∀ old, OnlyUb (f.getMat n old) := fun n hn old => by
    obtain ⟨v, h1, h2⟩ := h n hn
    exact onlyUb_getMat h1 h2 old
  unfold readMats
  exact .bind (.need _ _) fun _ => .bind (.need _ _) fun _ => .bind (.mresize _ _ _) fun _ =>
    .bind (k a (by simp) _) fun _ => .bind (k b (by simp) _) fun _ => .bind (k c (by simp) _) fun _ =>
    .bind (.need _ _) fun _ => .bind (.mresize _ _ _) fun _ =>
    .bind (k d (by simp) _) fun _ => .bind (k e (by simp) _) fun _ => .bind (k g (by simp) _) fun _ => .ok _

theorem onlyUb_readFlux {f : NcFile α} {flux : Bool} {ns : Option Int}
    (h : flux = true → ∀ n ∈ woutFlux, ∃ v, f.var? n = some v ∧ ncDbls v ≠ none) : OnlyUb (readFlux f flux ns) := by
  unfold readFlux
  cases flux with
  | false => exact .ok _
  | true =>
    have k : ∀ n ∈ woutFlux, ∀ old, OnlyUb (f.getVec n old) := fun n hn old => by
      obtain ⟨v, h1, h2⟩ := h rfl n hn
      exact onlyUb_getVec h1 h2 old
    exact .bind (.need _ _) fun _ => .bind (.vresize _ _) fun _ => .bind (k _ (by decide) _) fun _ =>
      .bind (k _ (by decide) _) fun _ => .bind (k _ (by decide) _) fun _ => .bind (k _ (by decide) _) fun _ => .ok _

/-- A statement that can only be undefined and does not change `asym`. -/
def UbKeep (I : Inputs α) (r : Res (Inputs α)) : Prop := OnlyUb r ∧ ∀ J, r = .ok J → J.asym = I.asym

omit [Arith α] in
theorem UbKeep.ok {I J : Inputs α} (h : J.asym = I.asym) : UbKeep I (.ok J) :=
  ⟨.ok _, fun K e => by cases e; exact h⟩

omit [Arith α] in
theorem UbKeep.bind {β : Type} {I : Inputs α} {r : Res β} {k : β → Res (Inputs α)} (h : OnlyUb r)
    (hk : ∀ x, UbKeep I (k x)) : UbKeep I (r >>= k) :=
  ⟨.bind h fun x => (hk x).1, fun J e => by
    obtain ⟨x, _, e⟩ := bind_ok e
    exact (hk x).2 J e⟩

/-- With this value of `asym`, the computation returns, or its behaviour is undefined. -/
def OkOrUbAt {β : Type} (a : Bool) (p : Prog (St α) β) : Prop :=
  ∀ s, s.inp.asym = some a → (∃ x t, p s = .ok x t) ∨ ∃ w, p s = .ub w

omit [Arith α] in
theorem OkOrUbAt.lift {β γ : Type} {a : Bool} {r : Res β} {k : β → Prog (St α) γ} (h : OnlyUb r)
    (hk : ∀ x, OkOrUbAt a (k x)) : OkOrUbAt a (Prog.lift r >>= k) := by
  intro s hs
  cases e : r with
  | ok x => rw [Prog.lift_ok_bind]; exact hk x s hs
  | error g => obtain ⟨w, rfl⟩ := h g e; exact .inr ⟨w, rfl⟩

theorem OkOrUbAt.setInp {γ : Type} {a : Bool} {g : Inputs α → Res (Inputs α)} {k : Unit → Prog (St α) γ}
    (h : ∀ I, UbKeep I (g I)) (hk : OkOrUbAt a (k ())) : OkOrUbAt a (setInp g >>= k) := by
  intro s hs
  cases e : g s.inp with
  | ok J =>
    rw [show s = { s with inp := s.inp } from rfl, setInp_ok (I := s.inp) e]
    exact hk _ (((h s.inp).2 J e).trans hs)
  | error x =>
    obtain ⟨w, rfl⟩ := (h s.inp).1 x e
    refine .inr ⟨w, ?_⟩
    rw [Prog.bind_def]
    unfold Booz.setInp Prog.modify
    simp only [Prog.bind_def, Prog.get, Prog.lift, e]
    rfl

theorem OkOrUbAt.start {γ : Type} {a : Bool} {g : Inputs α → Res (Inputs α)} {k : Unit → Prog (St α) γ} {s : St α}
    {J : Inputs α} (e : g s.inp = .ok J) (hJ : J.asym = some a) (hk : OkOrUbAt a (k ())) :
    (∃ x t, (Booz.setInp g >>= k) s = .ok x t) ∨ ∃ w, (Booz.setInp g >>= k) s = .ub w := by
  rw [show s = { s with inp := s.inp } from rfl, setInp_ok (I := s.inp) e]
  exact hk _ hJ

/-- Reading a file of numbers does not throw. -/
theorem readWoutBody_okOrUb {f : NcFile α} {flux : Bool} {z : WoutSizes} (hl : ScalarIs f "lasym__logical__" z.lasym)
    (h : WoutNumeric f flux (decide (z.lasym ≠ 0))) (s : St α) :
    (∃ q t, readWoutBody f flux s = .ok q t) ∨ ∃ w, readWoutBody f flux s = .ub w := by
  have hi : ∀ n ∈ ["lasym__logical__", "ns", "nfp", "mpol", "ntor", "mnmax", "mnmax_nyq"], ∀ old,
      OnlyUb (f.getInt n old) := fun n hn old => by
    obtain ⟨v, h1, -, h2⟩ := h n (mem_base ((by decide : ["lasym__logical__", "ns", "nfp", "mpol", "ntor", "mnmax",
      "mnmax_nyq"] ⊆ woutBase) hn))
    exact onlyUb_getInt h1 (h2 ((by decide : ["lasym__logical__", "ns", "nfp", "mpol", "ntor", "mnmax",
      "mnmax_nyq"] ⊆ ["lasym__logical__", "ns", "nfp", "mpol", "ntor", "mnmax", "mnmax_nyq", "xm", "xn", "xm_nyq",
      "xn_nyq"]) hn)) old
  have hv : ∀ n ∈ ["xm", "xn", "xm_nyq", "xn_nyq"], ∀ old, OnlyUb (f.getIVec n old) := fun n hn old => by
    obtain ⟨v, h1, -, h2⟩ := h n (mem_base ((by decide : ["xm", "xn", "xm_nyq", "xn_nyq"] ⊆ woutBase) hn))
    exact onlyUb_getIVec h1 (h2 ((by decide : ["xm", "xn", "xm_nyq", "xn_nyq"] ⊆ ["lasym__logical__", "ns", "nfp",
      "mpol", "ntor", "mnmax", "mnmax_nyq", "xm", "xn", "xm_nyq", "xn_nyq"]) hn)) old
  have hd : ∀ n ∈ woutBase, ∃ v, f.var? n = some v ∧ ncDbls v ≠ none := fun n hn => by
    obtain ⟨v, h1, h2, -⟩ := h n (mem_base hn)
    exact ⟨v, h1, h2⟩
  have hlas : ∀ old, f.getInt "lasym__logical__" old = .ok (some z.lasym) := by
    obtain ⟨v, h1, -⟩ := h _ (mem_base (by decide : "lasym__logical__" ∈ woutBase))
    exact getInt_some h1 (hl v h1)
  unfold readWoutBody
  rw [hlas, Prog.lift_ok_bind]
  refine OkOrUbAt.start (a := decide (z.lasym ≠ 0)) (by rw [need_some, ok_bind]; rfl) rfl ?_
  refine .lift (hi _ (by decide) _) fun ns => ?_
  refine .setInp (fun I => .bind (hi _ (by decide) _) fun _ => .ok rfl) ?_
  refine .setInp (fun I => .bind (hi _ (by decide) _) fun _ => .ok rfl) ?_
  refine .setInp (fun I => .bind (hi _ (by decide) _) fun _ => .ok rfl) ?_
  refine .setInp (fun I => .bind (hi _ (by decide) _) fun _ => .ok rfl) ?_
  refine .setInp (fun I => .bind (hi _ (by decide) _) fun _ => .ok rfl) ?_
  refine .setInp (fun I => .bind ?_ fun _ => .ok rfl) ?_
  · obtain ⟨v, h1, h2⟩ := hd "aspect" (by decide)
    exact onlyUb_getDbl h1 h2 _
  refine .lift (onlyUb_readFlux fun hf n hn => ?_) fun fl => ?_
  · subst hf
    obtain ⟨v, h1, h2, -⟩ := h n (mem_flux hn)
    exact ⟨v, h1, h2⟩
  refine .lift (.bind (.need _ _) fun _ => .bind (.vresize _ _) fun _ => ?_) fun _ => ?_
  · obtain ⟨v, h1, h2⟩ := hd "iotas" (by decide)
    exact onlyUb_getVec h1 h2 _
  refine .setInp (fun I => .bind (.need _ _) fun _ => .bind (.vresize _ _) fun _ => .ok rfl) ?_
  refine .setInp (fun I => .bind (.need _ _) fun _ => .bind (.vresize _ _) fun _ => .ok rfl) ?_
  refine .setInp (fun I => .bind (hv _ (by decide) _) fun _ => .ok rfl) ?_
  refine .setInp (fun I => .bind (hv _ (by decide) _) fun _ => .ok rfl) ?_
  refine .setInp (fun I => .bind (.need _ _) fun _ => .bind (.vresize _ _) fun _ => .ok rfl) ?_
  refine .setInp (fun I => .bind (.need _ _) fun _ => .bind (.vresize _ _) fun _ => .ok rfl) ?_
  refine .setInp (fun I => .bind (hv _ (by decide) _) fun _ => .ok rfl) ?_
  refine .setInp (fun I => .bind (hv _ (by decide) _) fun _ => .ok rfl) ?_
  refine .setInp (fun I => .bind (.need _ _) fun _ => .bind (.i32 _) fun _ => .bind (.vrd _ _) fun _ => .ok rfl) ?_
  refine .setInp (fun I => .bind (.need _ _) fun _ => .bind (.i32 _) fun _ => .bind (.vrd _ _) fun _ =>
    .bind (.need _ _) fun _ => .bind (.idiv _ _) fun _ => .ok rfl) ?_
  intro t ht
  rw [Prog.get_bind]
  refine OkOrUbAt.lift (a := decide (z.lasym ≠ 0)) (onlyUb_readMats fun n hn => hd n ((by decide : ["rmnc", "zmns",
    "lmns", "bmnc", "bsubumnc", "bsubvmnc"] ⊆ woutBase) hn)) (fun a => ?_) t ht
  rw [ht, need_some]
  intro t' ht'
  rw [Prog.lift_ok_bind]
  refine OkOrUbAt.lift (a := decide (z.lasym ≠ 0)) ?_ (fun b => .lift (.need _ _) fun _ => ?_) t' ht'
  · unfold whenAsym
    by_cases hc : decide (z.lasym ≠ 0) = true
    · rw [if_pos hc]
      refine onlyUb_readMats fun n hn => ?_
      rw [hc] at h
      obtain ⟨v, h1, h2, -⟩ := h n (mem_asym ((by decide : ["rmns", "zmnc", "lmnc", "bmns", "bsubumns",
        "bsubvmns"] ⊆ woutAsym) hn))
      exact ⟨v, h1, h2⟩
    · rw [if_neg hc]; exact .ok _
  · intro t _
    exact .inl ⟨_, t, rfl⟩

end Booz
