import Verif.Spec.Attributes

/-!
# Assignments: helper lemmas
-/

namespace Booz
open Spec
variable {α : Type}

/-- Two objects have the same value of an attribute. -/
def SameAt (a b : St α) : InName → Prop
  | .verbose => a.inp.verbose = b.inp.verbose
  | .asym => a.inp.asym = b.inp.asym
  | .nfp => a.inp.nfp = b.inp.nfp
  | .mpol => a.inp.mpol = b.inp.mpol
  | .ntor => a.inp.ntor = b.inp.ntor
  | .mnmax => a.inp.mnmax = b.inp.mnmax
  | .mpol_nyq => a.inp.mpol_nyq = b.inp.mpol_nyq
  | .ntor_nyq => a.inp.ntor_nyq = b.inp.ntor_nyq
  | .mnmax_nyq => a.inp.mnmax_nyq = b.inp.mnmax_nyq
  | .xm => a.inp.xm = b.inp.xm
  | .xn => a.inp.xn = b.inp.xn
  | .xm_nyq => a.inp.xm_nyq = b.inp.xm_nyq
  | .xn_nyq => a.inp.xn_nyq = b.inp.xn_nyq
  | .ns_in => a.inp.ns_in = b.inp.ns_in
  | .s_in => a.inp.s_in = b.inp.s_in
  | .iota => a.inp.iota = b.inp.iota
  | .phi => a.flux.phi = b.flux.phi
  | .chi => a.flux.chi = b.flux.chi
  | .phip => a.flux.phip = b.flux.phip
  | .pres => a.flux.pres = b.flux.pres
  | .rmnc => a.inp.rmnc = b.inp.rmnc
  | .rmns => a.inp.rmns = b.inp.rmns
  | .zmnc => a.inp.zmnc = b.inp.zmnc
  | .zmns => a.inp.zmns = b.inp.zmns
  | .lmnc => a.inp.lmnc = b.inp.lmnc
  | .lmns => a.inp.lmns = b.inp.lmns
  | .bmnc => a.inp.bmnc = b.inp.bmnc
  | .bmns => a.inp.bmns = b.inp.bmns
  | .bsubumnc => a.inp.bsubumnc = b.inp.bsubumnc
  | .bsubumns => a.inp.bsubumns = b.inp.bsubumns
  | .bsubvmnc => a.inp.bsubvmnc = b.inp.bsubvmnc
  | .bsubvmns => a.inp.bsubvmns = b.inp.bsubvmns
  | .mboz => a.inp.mboz = b.inp.mboz
  | .nboz => a.inp.nboz = b.inp.nboz
  | .compute_surfs => a.inp.compute_surfs = b.inp.compute_surfs
  | .aspect => a.inp.aspect = b.inp.aspect
  | .toroidal_flux => a.inp.toroidal_flux = b.inp.toroidal_flux

theorem pyToInt_fits {x : Int} (h : FitsInt x) : pyToInt x = .ok x := by
  unfold pyToInt
  unfold FitsInt at h
  exact if_pos (by constructor <;> omega)

theorem pyToIntVec_fits {l : List Int} (h : ∀ x ∈ l, FitsInt x) : pyToIntVec l = .ok (l.map some).toArray := by
  unfold pyToIntVec
  rw [if_pos (fun x hx => by have := h x hx; unfold FitsInt at this; constructor <;> omega)]
  congr 2
  apply List.map_congr_left
  intro x hx
  have := h x hx
  unfold FitsInt at this
  rw [Int.bmod_eq_of_le (by omega) (by omega)]

theorem storeInp_ok {β : Type} {r : Res β} {x : β} (h : r = .ok x) (g : β → Inputs α → Inputs α) (b : St α) :
    storeInp r g b = .ok () { b with inp := g x b.inp } := by
  subst h; rfl

/-- An assignment of a value of `a` succeeds, makes the attribute agree with `a`, spoils no agreement
and changes neither grid nor outputs. -/
theorem assign_ok [Arith α] {a : St α} {x : Setting α} (h : Copies a x) (b : St α) :
    ∃ b', x.assign b = .ok () b' ∧ SameAt a b' (nameOf x) ∧ (∀ n, SameAt a b n → SameAt a b' n) ∧
      b'.grid = b.grid ∧ b'.out = b.out := by
  cases x
  all_goals simp only [Setting.assign]
  all_goals first
    | (replace h : HoldsI _ _ := h
       refine ⟨_, storeInp_ok (pyToInt_fits h.2) _ b, ?_, ?_, rfl, rfl⟩
       · first | exact h.1 | exact Option.some.inj h.1
       · intro n hn; cases n <;> first | exact hn | exact h.1 | exact Option.some.inj h.1)
    | (replace h : HoldsL _ _ := h
       refine ⟨_, storeInp_ok (pyToIntVec_fits h.2) _ b, h.1, ?_, rfl, rfl⟩
       intro n hn; cases n <;> first | exact hn | exact h.1)
    | (refine ⟨_, storeInp_ok rfl _ b, h, ?_, rfl, rfl⟩
       intro n hn; cases n <;> first | exact hn | exact h)
    | (refine ⟨_, rfl, h, ?_, rfl, rfl⟩
       intro n hn; cases n <;> first | exact hn | exact h)

/-- The same for a whole program. -/
theorem setAll_ok [Arith α] {a : St α} : ∀ {l : List (Setting α)}, (∀ x ∈ l, Copies a x) → ∀ b : St α,
    ∃ b', setAll l b = .ok () b' ∧ (∀ x ∈ l, SameAt a b' (nameOf x)) ∧ (∀ n, SameAt a b n → SameAt a b' n) ∧
      b'.grid = b.grid ∧ b'.out = b.out
  | [], _, b => ⟨b, rfl, by simp, fun _ h => h, rfl, rfl⟩
  | x :: l, h, b => by
    obtain ⟨b1, e1, s1, k1, g1, o1⟩ := assign_ok (h x (by simp)) b
    obtain ⟨b2, e2, s2, k2, g2, o2⟩ := setAll_ok (l := l) (fun y hy => h y (by simp [hy])) b1
    refine ⟨b2, ?_, ?_, fun n hn => k2 n (k1 n hn), g2.trans g1, o2.trans o1⟩
    · rw [setAll, Prog.bind_def, e1]; exact e2
    · intro y hy
      rcases List.mem_cons.mp hy with rfl | hy
      · exact k2 _ s1
      · exact s2 y hy

theorem copied_ok [Arith α] {a : St α} {need : InName → Prop} {l : List (Setting α)} (h : CopiesFrom a need l)
    (b : St α) : ∃ b', setAll l b = .ok () b' ∧ (∀ n, need n → SameAt a b' n) ∧ b'.grid = b.grid ∧ b'.out = b.out := by
  obtain ⟨b', e, s, -, g, o⟩ := setAll_ok h.values b
  refine ⟨b', e, fun n hn => ?_, g, o⟩
  obtain ⟨x, hx, rfl⟩ := h.all n hn
  exact s x hx

end Booz
