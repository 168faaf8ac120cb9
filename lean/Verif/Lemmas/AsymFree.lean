import Verif.Lemmas.RunInv

/-!
# With `asym = false` the asymmetric input arrays are never looked at
-/

namespace Booz
variable {α : Type} [Arith α]

/-- The six asymmetric input arrays. -/
structure AsymArrays (α : Type) where
  rmns : Mat α
  zmnc : Mat α
  lmnc : Mat α
  bmns : Mat α
  bsubumns : Mat α
  bsubvmns : Mat α

/-- Replace the asymmetric input arrays. -/
def Inputs.withAsym (I : Inputs α) (A : AsymArrays α) : Inputs α :=
  { I with rmns := A.rmns, zmnc := A.zmnc, lmnc := A.lmnc, bmns := A.bmns, bsubumns := A.bsubumns,
           bsubvmns := A.bsubvmns }

/-- Replace the asymmetric input arrays of an object. -/
def St.withAsym (A : AsymArrays α) (s : St α) : St α := { s with inp := s.inp.withAsym A }

theorem map_bind {β γ δ : Type} (g : γ → δ) (x : Res β) (f : β → Res γ) :
    Except.map g (x >>= f) = x >>= fun y => Except.map g (f y) := by
  cases x <;> rfl

theorem map_pure {β γ : Type} (g : β → γ) (x : β) : Except.map g (pure x : Res β) = pure (g x) := rfl

variable (A : AsymArrays α)

theorem initGrid_asymFree (dbg : Bool) (s : St α) :
    initGrid dbg (s.withAsym A) = Except.map (St.withAsym A) (initGrid dbg s) := by
  unfold initGrid
  simp only [map_bind, map_pure]
  rfl

theorem initTables_asymFree (s : St α) :
    initTables (s.withAsym A) = Except.map (St.withAsym A) (initTables s) := by
  unfold initTables
  simp only [map_bind, map_pure]
  rfl

theorem initOutputs_asymFree (dbg : Bool) (s : St α) :
    initOutputs dbg (s.withAsym A) = Except.map (St.withAsym A) (initOutputs dbg s) := by
  unfold initOutputs
  simp only [map_bind, map_pure]
  rfl

theorem bind_map_eq {β γ : Type} (g : β → β) (h : γ → γ) {x x' : Res β} {f f' : β → Res γ}
    (hx : x' = Except.map g x) (hf : ∀ y, x = .ok y → f' (g y) = Except.map h (f y)) :
    (x' >>= f') = Except.map h (x >>= f) := by
  subst hx
  cases x with
  | error e => rfl
  | ok y => exact hf y rfl

theorem init_asymFree (dbg : Bool) (s : St α) :
    init dbg (s.withAsym A) = Except.map (St.withAsym A) (init dbg s) := by
  unfold init
  refine bind_map_eq _ _ (initGrid_asymFree A dbg s) fun s1 _ => ?_
  refine bind_map_eq _ _ (initTables_asymFree A s1) fun s2 _ => ?_
  exact initOutputs_asymFree A dbg s2

section
variable {I : Inputs α} (ha : I.asym = some false)
include ha

theorem transp_asymFree (js : Int) (b : Nat) (bI bG : Vec α) :
    transp (I.withAsym A) js b bI bG = transp I js b bI bG := by
  have ha' : (I.withAsym A).asym = some false := ha
  unfold transp
  rw [ha', ha]
  rfl

omit ha in
theorem rzStep_asymFree (t : Trig α) (js : Int) (k : Nat) (m n a : Int) :
    rzStep (I.withAsym A) t false js k m n a = rzStep I t false js k m n a := by
  funext j w
  unfold rzStep
  simp only [Bool.not_false, if_true]
  rfl

omit ha in
theorem wStep_asymFree (t : Trig α) (js : Int) (ws wc : Vec α) (k : Nat) (m n a : Int) :
    wStep (I.withAsym A) t false js ws wc k m n a = wStep I t false js ws wc k m n a := by
  funext j w
  unfold wStep
  simp only [Bool.not_false, if_true]
  rfl

theorem vcoordsRZ_asymFree (g : Grid α) (js : Int) :
    vcoordsRZ (I.withAsym A) g js = vcoordsRZ I g js := by
  have ha' : (I.withAsym A).asym = some false := ha
  unfold vcoordsRZ
  rw [ha', ha]
  simp only [need_some, ok_bind, rzStep_asymFree]
  rfl

theorem vcoordsW_asymFree (g : Grid α) (js : Int) (ws wc : Vec α) :
    vcoordsW (I.withAsym A) g js ws wc = vcoordsW I g js ws wc := by
  have ha' : (I.withAsym A).asym = some false := ha
  unfold vcoordsW
  rw [ha', ha]
  simp only [need_some, ok_bind, wStep_asymFree]
  rfl

theorem localWork_asymFree (g : Grid α) (js : Int) (bI bG : α) (ws wc : Vec α) :
    localWork (I.withAsym A) g js bI bG ws wc = localWork I g js bI bG ws wc := by
  unfold localWork
  rw [vcoordsRZ_asymFree A ha, vcoordsW_asymFree A ha]
  rfl
end

theorem surfaceSolve_asymFree (dbg : Bool) (b : Nat) {s : St α} (ha : s.inp.asym = some false) :
    surfaceSolve dbg b (s.withAsym A) =
      Except.map (fun p => (St.withAsym A p.1, p.2)) (surfaceSolve dbg b s) := by
  unfold surfaceSolve
  have e1 : ∀ js b bI bG, transp (s.withAsym A).inp js b bI bG = transp s.inp js b bI bG :=
    fun js b bI bG => transp_asymFree A ha js b bI bG
  have e2 : ∀ g js bI bG ws wc, localWork (s.withAsym A).inp g js bI bG ws wc =
    localWork s.inp g js bI bG ws wc := fun g js bI bG ws wc => localWork_asymFree A ha g js bI bG ws wc
  simp only [e1, e2, map_bind]
  congr 1
  funext js
  congr 1
  funext t
  congr 1
  funext bI
  congr 1
  funext bG
  congr 1
  funext L
  congr 1
  funext spec
  show (if s.inp.verbose > 0 then _ else _) = Except.map _ (if s.inp.verbose > 0 then _ else _)
  split
  · simp only [map_bind, map_pure]; rfl
  · rfl

/-- Loops commute with a change of state that the body respects on an invariant. -/
theorem loop_map {σ : Type} (g : σ → σ) (P : σ → Prop) {n : Nat} {f f' : Nat → σ → Res σ}
    (hP : ∀ k < n, ∀ s t, P s → f k s = .ok t → P t)
    (hf : ∀ k < n, ∀ s, P s → f' k (g s) = Except.map g (f k s)) {s : σ} (hs : P s) :
    loop n f' (g s) = Except.map g (loop n f s) ∧ ∀ t, loop n f s = .ok t → P t := by
  induction n with
  | zero => exact ⟨rfl, fun t ht => by cases ht; exact hs⟩
  | succ n ih =>
    obtain ⟨i1, i2⟩ := ih (fun k hk => hP k (by omega)) (fun k hk => hf k (by omega))
    unfold loop
    refine ⟨bind_map_eq g g i1 fun y hy => hf n (by omega) y (i2 y hy), ?_⟩
    intro t ht
    cases hl : loop n f s with
    | error e => rw [hl] at ht; cases ht
    | ok y => rw [hl] at ht; exact hP n (by omega) y t (i2 y hl) ht

/-- Every normal result satisfies `P`. -/
def AllOk {β : Type} (P : β → Prop) (r : Res β) : Prop := ∀ x, r = .ok x → P x

theorem AllOk.bind {β γ : Type} {P : γ → Prop} {x : Res β} {f : β → Res γ}
    (h : ∀ a, AllOk P (f a)) : AllOk P (x >>= f) := by
  intro y hy
  obtain ⟨b, -, hb⟩ := bind_ok hy
  exact h b y hb

theorem AllOk.pure {β : Type} {P : β → Prop} {x : β} (h : P x) : AllOk P (Pure.pure x : Res β) := by
  intro y hy; cases hy; exact h

theorem initGrid_inp (dbg : Bool) (s : St α) : AllOk (fun t => t.inp = s.inp) (initGrid dbg s) := by
  unfold initGrid
  repeat' refine AllOk.bind fun _ => ?_
  exact AllOk.pure rfl

theorem initTables_inp (s : St α) : AllOk (fun t => t.inp = s.inp) (initTables s) := by
  unfold initTables
  repeat' refine AllOk.bind fun _ => ?_
  exact AllOk.pure rfl

theorem initOutputs_inp (dbg : Bool) (s : St α) : AllOk (fun t => t.inp = s.inp) (initOutputs dbg s) := by
  unfold initOutputs
  repeat' refine AllOk.bind fun _ => ?_
  exact AllOk.pure rfl

theorem init_inp {dbg : Bool} {s t : St α} (h : init dbg s = .ok t) : t.inp = s.inp := by
  obtain ⟨s1, s2, h1, h2, h3⟩ := init_inv h
  rw [initOutputs_inp dbg s2 t h3, initTables_inp s1 s2 h2, initGrid_inp dbg s s1 h1]

theorem surfaceSolve_inp (dbg : Bool) (b : Nat) (s : St α) :
    AllOk (fun p => p.1.inp = s.inp) (surfaceSolve dbg b s) := by
  unfold surfaceSolve
  repeat' refine AllOk.bind fun _ => ?_
  show AllOk _ (if s.inp.verbose > 0 then _ else _)
  split
  · refine AllOk.bind fun _ => ?_
    exact AllOk.pure rfl
  · exact AllOk.pure rfl

/-- `run` commutes with replacing the asymmetric inputs when `asym` is false. -/
theorem run_asymFree (dbg : Bool) {s : St α} (ha : s.inp.asym = some false) :
    run dbg (s.withAsym A) = Except.map (fun p => (St.withAsym A p.1, p.2)) (run dbg s) := by
  unfold run
  have e : printSurfs (s.withAsym A).inp = printSurfs s.inp := rfl
  rw [e]
  generalize printSurfs s.inp = u
  cases u with
  | error e => rfl
  | ok u =>
  rw [ok_bind, ok_bind]
  refine bind_map_eq (St.withAsym A) _ (init_asymFree A dbg s) fun s1 h1 => ?_
  refine (loop_map (fun p : St α × List (Report α) => (St.withAsym A p.1, p.2))
    (fun p => p.1.inp.asym = some false) (s := (s1, [])) ?_ ?_ ?_).1
  · intro k _ p q hp hq
    obtain ⟨x, hx, hq⟩ := bind_ok hq
    cases hq
    show x.1.inp.asym = _
    rw [surfaceSolve_inp dbg k p.1 x hx]
    exact hp
  · intro k _ p hp
    show (surfaceSolve dbg k (St.withAsym A p.1) >>= _) = _
    rw [surfaceSolve_asymFree A dbg k hp]
    cases surfaceSolve dbg k p.1 <;> rfl
  · show s1.inp.asym = _
    rw [init_inp h1]
    exact ha

end Booz
