import Verif.Lemmas.AsymFree
import Verif.Spec.Covers

/-!
# `run` reads input arrays only at the places it needs

If `run` succeeds, it succeeds with the same results on inputs that hold the same entries and more.
-/

namespace Booz
open Spec
variable {α : Type} [Arith α]

/-- Every normal result of `x` is, up to `g`, the result of `y`. -/
def Le {β : Type} (g : β → β) (x y : Res β) : Prop := ∀ v, x = .ok v → y = .ok (g v)

namespace Le
variable {β γ : Type}

theorem rfl' (x : Res β) : Le id x x := fun _ h => h

theorem of_map {g : β → β} {x y : Res β} (h : y = Except.map g x) : Le g x y := by
  intro v hv
  rw [h, hv]
  rfl

theorem pure {g : β → β} (v : β) : Le g (Pure.pure v) (Pure.pure (g v)) := fun w h => by cases h; rfl

theorem bind {g : β → β} {h : γ → γ} {x y : Res β} {f f' : β → Res γ} (hx : Le g x y)
    (hf : ∀ v, x = .ok v → Le h (f v) (f' (g v))) : Le h (x >>= f) (y >>= f') := by
  intro w hw
  obtain ⟨v, h1, h2⟩ := bind_ok hw
  rw [hx v h1]
  exact hf v h1 w h2

theorem seq {h : γ → γ} {x y : Res β} {f f' : β → Res γ} (hx : Le id x y)
    (hf : ∀ v, Le h (f v) (f' v)) : Le h (x >>= f) (y >>= f') := bind hx fun v _ => hf v

theorem same {h : γ → γ} {x : Res β} {f f' : β → Res γ} (hf : ∀ v, Le h (f v) (f' v)) :
    Le h (x >>= f) (x >>= f') := bind (rfl' x) fun v _ => hf v

theorem ite {c : Prop} [Decidable c] {g : β → β} {x y x' y' : Res β} (h : Le g x y)
    (h' : Le g x' y') : Le g (if c then x else x') (if c then y else y') := by
  split
  · exact h
  · exact h'

theorem loopN {n : Nat} {f f' : Nat → β → Res β} (hf : ∀ i s, Le id (f i s) (f' i s)) (s : β) :
    Le id (loop n f s) (loop n f' s) := by
  induction n with
  | zero => exact rfl' _
  | succ n ih =>
    rw [loop_succ, loop_succ]
    exact seq ih fun v => hf n v

theorem loopInv {n : Nat} {g : β → β} (P : β → Prop) {f f' : Nat → β → Res β}
    (hP : ∀ i s t, P s → f i s = .ok t → P t) (hf : ∀ i s, P s → Le g (f i s) (f' i (g s))) (s : β)
    (hs : P s) : Le g (loop n f s) (loop n f' (g s)) ∧ ∀ t, loop n f s = .ok t → P t := by
  induction n with
  | zero => exact ⟨fun t h => by cases h; rfl, fun t h => by cases h; exact hs⟩
  | succ n ih =>
    rw [loop_succ, loop_succ]
    refine ⟨bind ih.1 fun v hv => hf n v (ih.2 v hv), fun t ht => ?_⟩
    obtain ⟨v, h1, h2⟩ := bind_ok ht
    exact hP n v t (ih.2 v h1) h2

end Le

theorem vrdN_ok {β : Type} {v : Vec β} {i : Nat} {x : β} : v.rdN i = .ok x ↔ v[i]? = some (some x) := by
  unfold Vec.rdN
  constructor
  · intro h
    split at h
    · cases h; assumption
    · cases h
    · cases h
  · intro h; rw [h]

theorem mrdN_ok {β : Type} {a : Mat β} {i j : Nat} {x : β} : a.rdN i j = .ok x ↔ MatAt a i j x := by
  unfold Mat.rdN MatAt
  constructor
  · intro h
    split at h
    · rename_i hc; exact ⟨hc.1, hc.2, vrdN_ok.mp h⟩
    · cases h
  · intro ⟨h1, h2, h3⟩
    rw [if_pos ⟨h1, h2⟩]
    exact vrdN_ok.mpr h3

section
variable {β : Type} {v w : Vec β} {a b : Mat β}

theorem _root_.Booz.Spec.VecCovers.rdN (h : VecCovers v w) (i : Nat) : Le id (v.rdN i) (w.rdN i) :=
  fun x hx => vrdN_ok.mpr (h i x (vrdN_ok.mp hx))

theorem _root_.Booz.Spec.VecCovers.rd (h : VecCovers v w) (i : Int) : Le id (v.rd i) (w.rd i) := by
  unfold Vec.rd
  exact Le.ite (h.rdN _) (Le.rfl' _)

theorem _root_.Booz.Spec.MatCovers.rdN (h : MatCovers a b) (i j : Nat) : Le id (a.rdN i j) (b.rdN i j) :=
  fun x hx => mrdN_ok.mpr (h i j x (mrdN_ok.mp hx))

theorem _root_.Booz.Spec.MatCovers.rd (h : MatCovers a b) (i j : Int) : Le id (a.rd i j) (b.rd i j) := by
  unfold Mat.rd
  exact Le.ite (h.rdN _ _) (Le.rfl' _)
end

/-- The object with other inputs. -/
def St.withInp (J : Inputs α) (s : St α) : St α := { s with inp := J }

section
variable {I J : Inputs α} (c : Covers I J)
include c

theorem transpStep_le (asym : Bool) (js : Int) (b k : Nat) (t : Transp α) :
    Le id (transpStep I asym js b k t) (transpStep J asym js b k t) := by
  unfold transpStep
  refine Le.seq (c.xm_nyq.rdN _) fun m => Le.seq (c.xn_nyq.rdN _) fun n => ?_
  refine Le.ite ?_ (Le.ite ?_ ?_)
  · refine Le.seq (c.bsubumnc.rd _ _) fun x => Le.same fun y => ?_
    exact Le.ite (Le.seq (c.bsubumns.rd _ _) fun _ => Le.rfl' _) (Le.rfl' _)
  · refine Le.seq (c.bsubvmnc.rd _ _) fun x => Le.same fun y => ?_
    exact Le.ite (Le.seq (c.bsubvmns.rd _ _) fun _ => Le.rfl' _) (Le.rfl' _)
  · refine Le.seq (c.bsubumnc.rd _ _) fun x => Le.same fun y => ?_
    exact Le.seq (c.bsubvmnc.rd _ _) fun _ => Le.rfl' _

theorem transp_le (js : Int) (b : Nat) (bI bG : Vec α) :
    Le id (transp I js b bI bG) (transp J js b bI bG) := by
  unfold transp
  rw [c.mnmax_nyq, c.asym]
  refine Le.same fun mn => Le.same fun asym => Le.same fun ws => ?_
  exact Le.ite (Le.same fun wc => Le.loopN (fun k t => transpStep_le c asym js b k t) _)
    (Le.same fun wc => Le.loopN (fun k t => transpStep_le c asym js b k t) _)

theorem rzStep_le (t : Trig α) (asym : Bool) (js : Int) (k : Nat) (m n a : Int) (j : Nat) (w : RZ α) :
    Le id (rzStep I t asym js k m n a j w) (rzStep J t asym js k m n a j w) := by
  unfold rzStep
  refine Le.same fun tc => Le.same fun ts => ?_
  refine Le.seq (c.rmnc.rd _ _) fun x => Le.same fun _ => ?_
  refine Le.seq (c.zmns.rd _ _) fun x => Le.same fun _ => ?_
  refine Le.seq (c.lmns.rd _ _) fun x => Le.same fun _ => Le.same fun _ => Le.same fun _ => ?_
  refine Le.ite (Le.rfl' _) ?_
  refine Le.seq (c.rmns.rd _ _) fun x => Le.same fun _ => ?_
  refine Le.seq (c.zmnc.rd _ _) fun x => Le.same fun _ => ?_
  exact Le.seq (c.lmnc.rd _ _) fun x => Le.rfl' _

theorem vcoordsRZ_le (g : Grid α) (js : Int) : Le id (vcoordsRZ I g js) (vcoordsRZ J g js) := by
  unfold vcoordsRZ
  rw [c.asym, c.mnmax, c.nfp]
  refine Le.same fun np => Le.same fun asym => Le.same fun mn => Le.same fun zero => ?_
  refine Le.loopN (fun k w => ?_) _
  refine Le.seq (c.xm.rdN _) fun m => Le.seq (c.xn.rdN _) fun n => ?_
  refine Le.same fun _ => Le.same fun _ => Le.same fun _ => ?_
  exact Le.loopN (fun j w => rzStep_le c _ _ _ _ _ _ _ j w) _

theorem wStep_le (t : Trig α) (asym : Bool) (js : Int) (ws wc : Vec α) (k : Nat) (m n a : Int) (j : Nat)
    (w : WB α) : Le id (wStep I t asym js ws wc k m n a j w) (wStep J t asym js ws wc k m n a j w) := by
  unfold wStep
  refine Le.same fun tc => Le.same fun ts => Le.same fun _ => Le.same fun _ => Le.same fun _ =>
    Le.same fun _ => ?_
  refine Le.seq (c.bmnc.rd _ _) fun x => Le.same fun _ => ?_
  refine Le.ite (Le.rfl' _) ?_
  refine Le.same fun _ => Le.same fun _ => Le.same fun _ => Le.same fun _ => ?_
  exact Le.seq (c.bmns.rd _ _) fun x => Le.rfl' _

theorem vcoordsW_le (g : Grid α) (js : Int) (ws wc : Vec α) :
    Le id (vcoordsW I g js ws wc) (vcoordsW J g js ws wc) := by
  unfold vcoordsW
  rw [c.asym, c.mnmax_nyq, c.nfp]
  refine Le.same fun np => Le.same fun asym => Le.same fun mn => Le.same fun zero => ?_
  refine Le.loopN (fun k w => ?_) _
  refine Le.seq (c.xm_nyq.rdN _) fun m => Le.seq (c.xn_nyq.rdN _) fun n => ?_
  refine Le.same fun _ => ?_
  exact Le.loopN (fun j w => wStep_le c _ _ _ _ _ _ _ _ _ j w) _

theorem harfun_le (g : Grid α) (js : Int) (bI bG : α) (p : RZ α) (q : WB α) :
    Le id (harfun I g js bI bG p q) (harfun J g js bI bG p q) := by
  unfold harfun
  exact Le.same fun np => Le.seq (c.iota.rd _) fun x => Le.rfl' _

omit [Arith α] in
theorem boozerTrig_covers [Arith α] (g : Grid α) (h : Har α) : boozerTrig J g h = boozerTrig I g h := by
  unfold boozerTrig
  rw [c.asym, c.nfp, c.mboz, c.nboz]

theorem fourierFactor0_covers (g : Grid α) : fourierFactor0 J g = fourierFactor0 I g := by
  unfold fourierFactor0
  rw [c.asym]

theorem localWork_le (g : Grid α) (js : Int) (bI bG : α) (ws wc : Vec α) :
    Le id (localWork I g js bI bG ws wc) (localWork J g js bI bG ws wc) := by
  unfold localWork
  simp only [boozerTrig_covers c, fourierFactor0_covers c]
  refine Le.seq (vcoordsRZ_le c g js) fun rz => Le.seq (vcoordsW_le c g js ws wc) fun wb => ?_
  exact Le.seq (harfun_le c g js bI bG rz wb) fun _ => Le.rfl' _

theorem accum_covers (g : Grid α) (L : Local α) (mn : Option Int) (xm xn : Vec Int) (b : Nat)
    (o : Spectra α) : accum J g L mn xm xn b o = accum I g L mn xm xn b o := by
  unfold accum
  rw [c.asym, c.nfp]

theorem checkAccuracy_covers (dbg : Bool) (s : St α) (hs : s.inp = I) (js : Int) (b : Nat)
    (bmod tB zB : Vec α) (t : Trig α) :
    checkAccuracy dbg (s.withInp J) js b bmod tB zB t = checkAccuracy dbg s js b bmod tB zB t := by
  subst hs
  unfold checkAccuracy St.withInp
  simp only [c.asym, c.nfp, c.mboz, c.nboz]

theorem checkAccuracy_le (dbg : Bool) (s : St α) (hs : s.inp = I) (js : Int) (b : Nat)
    (bmod tB zB : Vec α) (t : Trig α) :
    Le id (checkAccuracy dbg s js b bmod tB zB t) (checkAccuracy dbg (s.withInp J) js b bmod tB zB t) := by
  rw [checkAccuracy_covers c dbg s hs]
  exact Le.rfl' _

theorem surfaceSolve_le (dbg : Bool) (b : Nat) (s : St α) (hs : s.inp = I) :
    Le (fun p => (St.withInp J p.1, p.2)) (surfaceSolve dbg b s) (surfaceSolve dbg b (s.withInp J)) := by
  subst hs
  unfold surfaceSolve
  show Le _ _ (J.compute_surfs.rdN b >>= _)
  rw [c.compute_surfs]
  refine Le.same fun js => Le.seq (transp_le c js b _ _) fun t => Le.same fun bI => Le.same fun bG => ?_
  refine Le.seq (localWork_le c _ js bI bG _ _) fun L => ?_
  show Le _ _ (accum J _ _ _ _ _ _ _ >>= _)
  rw [accum_covers c]
  refine Le.same fun spec => ?_
  show Le _ (if s.inp.verbose > 0 then _ else _) (if J.verbose > 0 then _ else _)
  rw [c.verbose]
  refine Le.ite ?_ (Le.pure _)
  exact Le.seq (checkAccuracy_le c dbg
    { s with out := { s.out with boozer_I := t.boozer_I, boozer_G := t.boozer_G, spec := spec } } rfl js b
    L.wb.bmod L.har.theta_Boozer L.har.zeta_Boozer L.trig) fun rep => Le.pure _

theorem initGrid_le (dbg : Bool) (s : St α) (hs : s.inp = I) :
    Le (St.withInp J) (initGrid dbg s) (initGrid dbg (s.withInp J)) := by
  subst hs
  refine Le.of_map ?_
  unfold initGrid St.withInp
  simp only [c.asym, c.nfp, c.mboz, c.nboz, map_bind, map_pure]

theorem initTables_le (s : St α) (hs : s.inp = I) :
    Le (St.withInp J) (initTables s) (initTables (s.withInp J)) := by
  subst hs
  refine Le.of_map ?_
  unfold initTables St.withInp
  simp only [c.mpol, c.nfp, c.ntor, c.mpol_nyq, c.ntor_nyq, map_bind, map_pure]

omit [Arith α] in
theorem assertOrigin_le (dbg : Bool) : Le id (assertOrigin dbg I) (assertOrigin dbg J) := by
  unfold assertOrigin
  refine Le.ite ?_ (Le.rfl' _)
  refine Le.seq (c.xm_nyq.rdN _) fun _ => Le.same fun _ => ?_
  exact Le.seq (c.xn_nyq.rdN _) fun _ => Le.rfl' _

theorem initOutputs_le (dbg : Bool) (s : St α) (hs : s.inp = I) :
    Le (St.withInp J) (initOutputs dbg s) (initOutputs dbg (s.withInp J)) := by
  subst hs
  unfold initOutputs St.withInp
  simp only [c.compute_surfs, c.ns_in, c.asym]
  refine Le.same fun _ => Le.seq (Le.loopN (fun j v => ?_) _) fun _ => Le.same fun _ => Le.same fun _ =>
    Le.same fun ns => Le.same fun _ => Le.same fun _ => Le.seq (assertOrigin_le c dbg) fun _ =>
    Le.seq (Le.loopN (fun j v => ?_) _) fun _ => Le.same fun _ => Le.same fun _ => Le.same fun _ => Le.pure _
  · exact Le.same fun js => Le.seq (c.s_in.rd _) fun _ => Le.rfl' _
  · refine Le.seq (c.bsubumnc.rdN _ _) fun _ => Le.same fun _ => ?_
    exact Le.seq (c.bsubvmnc.rdN _ _) fun _ => Le.rfl' _

theorem init_le (dbg : Bool) (s : St α) (hs : s.inp = I) :
    Le (St.withInp J) (init dbg s) (init dbg (s.withInp J)) := by
  unfold init
  refine Le.bind (initGrid_le c dbg s hs) fun s1 h1 => ?_
  have e1 := (initGrid_inp dbg s s1 h1).trans hs
  refine Le.bind (initTables_le c s1 e1) fun s2 h2 => ?_
  exact initOutputs_le c dbg s2 ((initTables_inp s1 s2 h2).trans e1)

/-- Inputs that hold more give the same results. -/
theorem run_le (dbg : Bool) (s : St α) (hs : s.inp = I) :
    Le (fun p => (St.withInp J p.1, p.2)) (run dbg s) (run dbg (s.withInp J)) := by
  unfold run
  have e : printSurfs (s.withInp J).inp = printSurfs s.inp := by
    subst hs
    unfold printSurfs
    show (if J.verbose > 0 then _ else _) = _
    rw [c.verbose]
    show (if _ then loop J.compute_surfs.size (fun j _ => J.compute_surfs.rdN j >>= _) () else _) = _
    rw [c.compute_surfs]
  rw [e]
  refine Le.same fun _ => Le.bind (init_le c dbg s hs) fun s1 h1 => ?_
  have e1 := (init_inp h1).trans hs
  show Le _ _ (loop J.compute_surfs.size _ _)
  rw [c.compute_surfs, e1]
  refine (Le.loopInv (g := fun p : St α × List (Report α) => (St.withInp J p.1, p.2))
    (fun p => p.1.inp = I) ?_ ?_ (s1, []) e1).1
  · intro i p q hp hq
    obtain ⟨x, hx, hq⟩ := bind_ok hq
    cases hq
    exact (surfaceSolve_inp dbg i p.1 x hx).trans hp
  · intro i p hp
    exact Le.bind (surfaceSolve_le c dbg i p.1 hp) fun x _ => Le.pure _
end

end Booz
