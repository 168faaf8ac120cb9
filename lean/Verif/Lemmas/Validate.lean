import Verif.Lemmas.Fill
import Verif.Spec.Load

/-!
# The validation part of `init_from_vmec`
-/

namespace Booz
open Spec
variable {α : Type} [Arith α]

theorem check_ok {c : Prop} [Decidable c] {m : String} {y : Unit} : check c m = .ok y ↔ c := by
  unfold check; split <;> simp_all

theorem check_bind {β : Type} {c : Prop} [Decidable c] {m : String} {f : Unit → Res β} {y : β} :
    (check c m >>= f) = .ok y ↔ c ∧ f () = .ok y := by
  unfold check; split <;> simp_all

/-- The only way not to return is by throwing. -/
def OnlyThrow {β : Type} (r : Res β) : Prop := ∀ f, r = .error f → ∃ m, f = .throw m

namespace OnlyThrow
variable {β γ : Type}
theorem ok (b : β) : OnlyThrow (.ok b : Res β) := fun _ h => by cases h
theorem check {c : Prop} [Decidable c] {m : String} : OnlyThrow (check c m) := by
  unfold Booz.check; split
  · exact ok _
  · intro f h; cases h; exact ⟨_, rfl⟩
theorem check_bind {c : Prop} [Decidable c] {m : String} {f : Unit → Res β}
    (h : c → OnlyThrow (f ())) : OnlyThrow (Booz.check c m >>= f) := by
  unfold Booz.check; split
  · next hc => exact h hc
  · intro f h; cases h; exact ⟨_, rfl⟩
theorem bind {x : Res β} {f : β → Res γ} (hx : OnlyThrow x) (hf : ∀ b, x = .ok b → OnlyThrow (f b)) :
    OnlyThrow (x >>= f) := by
  cases x with
  | error e => intro g hg; cases hg; exact hx e rfl
  | ok b => exact hf b rfl
theorem bind_eq {x : Res β} {f : β → Res γ} {b : β} (hx : x = .ok b) (hf : OnlyThrow (f b)) :
    OnlyThrow (x >>= f) := by rw [hx]; exact hf
end OnlyThrow

theorem validateFlux_ok {ns : Int} {A : VmecArgs α} : validateFlux ns A = .ok () ↔
    (A.phip.size ≠ 0 → (A.phip.size : Int) = ns ∧ (A.chi.size : Int) = ns ∧
      (A.pres.size : Int) = ns ∧ (A.phi.size : Int) = ns) := by
  unfold validateFlux
  split
  · next h => simp [h]
  · next h => simp only [check_bind, check_ok, ne_eq, h, not_false_eq_true, true_imp_iff]

theorem validateFlux_throw (ns : Int) (A : VmecArgs α) : OnlyThrow (validateFlux ns A) := by
  unfold validateFlux
  split
  · exact .ok _
  · iterate 3 refine .check_bind fun _ => ?_
    exact .check

theorem validateSym_ok {ns mn mq : Int} {A : VmecArgs α} : validateSym ns mn mq A = .ok () ↔
    Shape A.rmnc mn ns ∧ Shape A.zmns mn ns ∧ Shape A.lmns mn ns ∧ Shape A.bmnc mq ns ∧
      Shape A.bsubumnc mq ns ∧ Shape A.bsubvmnc mq ns := by
  unfold validateSym Shape
  simp only [check_bind, check_ok]
  constructor
  · rintro ⟨a, b, c, d, e, f, g, h, i, j, k, l⟩; exact ⟨⟨g, a⟩, ⟨h, b⟩, ⟨i, c⟩, ⟨j, d⟩, ⟨k, e⟩, ⟨l, f⟩⟩
  · rintro ⟨⟨g, a⟩, ⟨h, b⟩, ⟨i, c⟩, ⟨j, d⟩, ⟨k, e⟩, ⟨l, f⟩⟩; exact ⟨a, b, c, d, e, f, g, h, i, j, k, l⟩

theorem validateSym_throw (ns mn mq : Int) (A : VmecArgs α) : OnlyThrow (validateSym ns mn mq A) := by
  unfold validateSym
  iterate 11 refine .check_bind fun _ => ?_
  exact .check

theorem validateAsym_ok {ns mn mq : Int} {A : VmecArgs α} : validateAsym ns mn mq A = .ok () ↔
    Shape A.rmns mn ns ∧ Shape A.zmnc mn ns ∧ Shape A.lmnc mn ns ∧ Shape A.bmns mq ns ∧
      Shape A.bsubumns mq ns ∧ Shape A.bsubvmns mq ns := by
  unfold validateAsym Shape
  simp only [check_bind, check_ok]
  constructor
  · rintro ⟨a, b, c, d, e, f, g, h, i, j, k, l⟩; exact ⟨⟨g, a⟩, ⟨h, b⟩, ⟨i, c⟩, ⟨j, d⟩, ⟨k, e⟩, ⟨l, f⟩⟩
  · rintro ⟨⟨g, a⟩, ⟨h, b⟩, ⟨i, c⟩, ⟨j, d⟩, ⟨k, e⟩, ⟨l, f⟩⟩; exact ⟨a, b, c, d, e, f, g, h, i, j, k, l⟩

theorem validateAsym_throw (ns mn mq : Int) (A : VmecArgs α) :
    OnlyThrow (validateAsym ns mn mq A) := by
  unfold validateAsym
  iterate 11 refine .check_bind fun _ => ?_
  exact .check

theorem validateSurfs_ok {ns : Int} {v : Vec Int} (hv : v.Full v.size) : validateSurfs ns v = .ok () ↔
    ∀ j, j < v.size → 0 ≤ v.val 0 j ∧ v.val 0 j < ns - 1 := by
  unfold validateSurfs
  suffices H : ∀ n, n ≤ v.size → (loop n (fun j (_ : Unit) => do
      let x ← v.rdN j
      check (0 ≤ x) "compute_surfs cannot be negative"
      check (x < ns - 1) "compute_surfs has an entry that is too large for the given ns") () = .ok () ↔
      ∀ j, j < n → 0 ≤ v.val 0 j ∧ v.val 0 j < ns - 1) from H _ (Nat.le_refl _)
  intro n hn
  induction n with
  | zero => simp [loop_zero]
  | succ n ih =>
    have ih := ih (by omega)
    rw [loop_succ]
    constructor
    · intro h
      obtain ⟨_, h1, h2⟩ := bind_ok h
      rw [hv.rdN 0 (show n < v.size by omega), ok_bind, check_bind, check_ok] at h2
      intro j hj
      rcases Nat.lt_succ_iff_lt_or_eq.mp hj with h3 | h3
      · exact ih.mp h1 j h3
      · subst h3; exact h2
    · intro h
      rw [ih.mpr (fun j hj => h j (by omega)), ok_bind, hv.rdN 0 (show n < v.size by omega), ok_bind,
        check_bind, check_ok]
      exact h n (by omega)

theorem validateSurfs_throw {ns : Int} {v : Vec Int} (hv : v.Full v.size) :
    OnlyThrow (validateSurfs ns v) := by
  unfold validateSurfs
  suffices H : ∀ n, n ≤ v.size → OnlyThrow (loop n (fun j (_ : Unit) => do
      let x ← v.rdN j
      check (0 ≤ x) "compute_surfs cannot be negative"
      check (x < ns - 1) "compute_surfs has an entry that is too large for the given ns") ())
      from H _ (Nat.le_refl _)
  intro n hn
  induction n with
  | zero => exact .ok _
  | succ n ih =>
    rw [loop_succ]
    refine .bind (ih (by omega)) fun _ _ => ?_
    refine .bind_eq (hv.rdN 0 (show n < v.size by omega)) ?_
    exact .check_bind fun _ => .check

/-- The value read at the end of a mode list. -/
theorem rd_last {v : Vec Int} {k : Int} (hv : v.Full v.size) (h : (v.size : Int) = k) (hk : k ≠ 0) :
    v.rd (k - 1) = .ok (v.val 0 (k - 1).toNat) := by
  unfold Vec.rd
  rw [if_pos (by omega), hv.rdN 0 (by omega)]

theorem validateModes_ok {I : Inputs α} {z : Sizes} (hz : Sized I z) (hl : ListsInit I)
    (h1 : z.mnmax ≠ 0) (h2 : z.mnmax_nyq ≠ 0) (f1 : FitsInt (z.nfp * z.ntor))
    (f2 : FitsInt (z.nfp * z.ntor_nyq)) :
    (validateModes I z.nfp z.mnmax z.mnmax_nyq = .ok () ↔
      ModeList I.xm I.xn z.mnmax (z.nfp * z.ntor) ∧
      ModeList I.xm_nyq I.xn_nyq z.mnmax_nyq (z.nfp * z.ntor_nyq)) ∧
    OnlyThrow (validateModes I z.nfp z.mnmax z.mnmax_nyq) := by
  unfold validateModes
  rw [hz.ntor, hz.ntor_nyq, need_some, need_some]
  simp only [ok_bind]
  rw [i32_ok f1, i32_ok f2]
  simp only [ok_bind]
  by_cases a1 : (I.xm.size : Int) = z.mnmax
  case neg =>
    refine ⟨⟨fun h => absurd (check_bind.mp h).1 a1, fun h => absurd h.1.xm_len a1⟩,
      .check_bind fun h => absurd h a1⟩
  by_cases a2 : (I.xn.size : Int) = z.mnmax
  case neg =>
    refine ⟨⟨fun h => absurd (check_bind.mp (check_bind.mp h).2).1 a2,
      fun h => absurd h.1.xn_len a2⟩, .check_bind fun _ => .check_bind fun h => absurd h a2⟩
  by_cases a3 : (I.xm_nyq.size : Int) = z.mnmax_nyq
  case neg =>
    refine ⟨⟨fun h => absurd (check_bind.mp (check_bind.mp (check_bind.mp h).2).2).1 a3,
      fun h => absurd h.2.xm_len a3⟩,
      .check_bind fun _ => .check_bind fun _ => .check_bind fun h => absurd h a3⟩
  by_cases a4 : (I.xn_nyq.size : Int) = z.mnmax_nyq
  case neg =>
    refine ⟨⟨fun h =>
      absurd (check_bind.mp (check_bind.mp (check_bind.mp (check_bind.mp h).2).2).2).1 a4,
      fun h => absurd h.2.xn_len a4⟩,
      .check_bind fun _ => .check_bind fun _ => .check_bind fun _ => .check_bind fun h => absurd h a4⟩
  rw [hl.xm.rdN 0 (show 0 < I.xm.size by omega), hl.xn.rdN 0 (show 0 < I.xn.size by omega),
    hl.xm_nyq.rdN 0 (show 0 < I.xm_nyq.size by omega),
    hl.xn_nyq.rdN 0 (show 0 < I.xn_nyq.size by omega), rd_last hl.xn a2 h1, rd_last hl.xn_nyq a4 h2]
  simp only [ok_bind, check_bind, check_ok]
  refine ⟨⟨?_, ?_⟩, ?_⟩
  · rintro ⟨_, _, _, _, b1, b2, b3, b4, b5, b6⟩
    exact ⟨⟨a1, a2, b1, b2, b5⟩, ⟨a3, a4, b3, b4, b6⟩⟩
  · rintro ⟨⟨a1, a2, b1, b2, b5⟩, ⟨a3, a4, b3, b4, b6⟩⟩
    exact ⟨a1, a2, a3, a4, b1, b2, b3, b4, b5, b6⟩
  · iterate 9 refine .check_bind fun _ => ?_
    exact .check

/-- Validation succeeds exactly on consistent arguments and otherwise throws. -/
theorem validate_iff {ns : Int} {A : VmecArgs α} {I : Inputs α} {z : Sizes} (hz : Sized I z)
    (hl : ListsInit I) (h1 : z.mnmax ≠ 0) (h2 : z.mnmax_nyq ≠ 0) (f1 : FitsInt (z.nfp * z.ntor))
    (f2 : FitsInt (z.nfp * z.ntor_nyq)) :
    (validate ns A I = .ok () ↔ Consistent ns A I z) ∧ OnlyThrow (validate ns A I) := by
  obtain ⟨hm, hmt⟩ := validateModes_ok hz hl h1 h2 f1 f2
  unfold validate
  rw [hz.nfp, hz.mnmax, hz.mnmax_nyq, hz.asym, need_some, need_some, need_some, need_some]
  simp only [ok_bind]
  constructor
  · constructor
    · intro h
      obtain ⟨c1, h⟩ := check_bind.mp h
      obtain ⟨c2, h⟩ := check_bind.mp h
      obtain ⟨c3, h⟩ := check_bind.mp h
      obtain ⟨_, c4, h⟩ := bind_ok h
      obtain ⟨_, c5, h⟩ := bind_ok h
      obtain ⟨_, c6, h⟩ := bind_ok h
      obtain ⟨_, c7, h⟩ := bind_ok h
      obtain ⟨m1, m2⟩ := hm.mp c5
      obtain ⟨s1, s2, s3, s4, s5, s6⟩ := validateSym_ok.mp c6
      refine ⟨c1, c2, c3, validateFlux_ok.mp c4, m1, m2, s1, s2, s3, s4, s5, s6, ?_,
        (validateSurfs_ok hl.surfs).mp h⟩
      intro ha
      rw [whenAsym, if_pos ha] at c7
      exact validateAsym_ok.mp c7
    · intro C
      refine check_bind.mpr ⟨C.ns_ge, check_bind.mpr ⟨C.nfp_ge, check_bind.mpr ⟨C.iotas, ?_⟩⟩⟩
      rw [validateFlux_ok.mpr C.flux, ok_bind, hm.mpr ⟨C.modes, C.modes_nyq⟩, ok_bind,
        validateSym_ok.mpr ⟨C.rmnc, C.zmns, C.lmns, C.bmnc, C.bsubumnc, C.bsubvmnc⟩, ok_bind]
      have : whenAsym z.asym (validateAsym ns z.mnmax z.mnmax_nyq A) () = .ok () := by
        unfold whenAsym; split
        · next ha => exact validateAsym_ok.mpr (C.asym ha)
        · rfl
      rw [this, ok_bind]
      exact (validateSurfs_ok hl.surfs).mpr C.surfs
  · iterate 3 refine .check_bind fun _ => ?_
    refine .bind (validateFlux_throw _ _) fun _ _ => .bind hmt fun _ _ =>
      .bind (validateSym_throw _ _ _ _) fun _ _ => .bind ?_ fun _ _ => validateSurfs_throw hl.surfs
    unfold whenAsym; split
    · exact validateAsym_throw _ _ _ _
    · exact .ok _

end Booz
