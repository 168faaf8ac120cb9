import Verif.Model.Parallel
import Verif.Lemmas.Inv

/-!
# One iteration run alone is `surfaceSolve`
-/

namespace Booz

variable {α β γ : Type}

namespace Act

/-- A program executed without interference. -/
def exec : Act α β → Common α → Res (β × Common α)
  | .ret x, m => .ok (x, m)
  | .fault e, _ => .error e
  | .load c k, m => m.sh.load c >>= fun v => (k v).exec m
  | .store c x k, m => m.sh.store c x >>= fun sh => k.exec ⟨sh, m.out⟩
  | .print l k, m => k.exec ⟨m.sh, m.out ++ [l]⟩
  | .lock k, m => k.exec m
  | .unlock k, m => k.exec m

theorem exec_pure (x : β) (m : Common α) : (pure x : Act α β).exec m = .ok (x, m) := rfl

theorem exec_bind (a : Act α β) (f : β → Act α γ) (m : Common α) :
    (a >>= f).exec m = a.exec m >>= fun r => (f r.1).exec r.2 := by
  show (a.bind f).exec m = _
  induction a generalizing m with
  | ret x => rfl
  | fault e => rfl
  | load c k ih =>
    simp only [bind, exec]
    cases m.sh.load c with
    | error e => rfl
    | ok v => exact ih v m
  | store c x k ih =>
    simp only [bind, exec]
    cases m.sh.store c x with
    | error e => rfl
    | ok v => exact ih _
  | print l k ih => exact ih _
  | lock k ih => exact ih _
  | unlock k ih => exact ih _

theorem exec_lift (r : Res β) (m : Common α) : (lift r).exec m = r >>= fun x => .ok (x, m) := by
  cases r <;> rfl

theorem exec_lift_bind (r : Res β) (f : β → Act α γ) (m : Common α) :
    (lift r >>= f).exec m = r >>= fun x => (f x).exec m := by
  rw [exec_bind, exec_lift]; cases r <;> rfl

theorem exec_get (c : Cell) (m : Common α) : (get c).exec m = m.sh.load c >>= fun v => .ok (v, m) := rfl

theorem exec_get_bind (c : Cell) (f : α → Act α γ) (m : Common α) :
    (get c >>= f).exec m = m.sh.load c >>= fun v => (f v).exec m := rfl

theorem exec_put_bind (c : Cell) (x : α) (f : Unit → Act α γ) (m : Common α) :
    (put c x >>= f).exec m = m.sh.store c x >>= fun sh => (f ()).exec ⟨sh, m.out⟩ := rfl

theorem exec_loop {σ : Type} {π : σ → β} {μ : σ → Common α} {n : Nat} {body : Nat → β → Act α β}
    {bodyS : Nat → σ → Res σ}
    (h : ∀ k x, (body k (π x)).exec (μ x) = bodyS k x >>= fun y => .ok (π y, μ y)) (x : σ) :
    (loop n body (π x)).exec (μ x) = Booz.loop n bodyS x >>= fun y => .ok (π y, μ y) := by
  induction n with
  | zero => rfl
  | succ n ih =>
    show (loop n body (π x) >>= body n).exec (μ x) = _
    rw [exec_bind, ih, loop_succ]
    cases Booz.loop n bodyS x with
    | error e => rfl
    | ok y => exact h n y

end Act

theorem bind_congr_res {x : Res β} {f g : β → Res γ} (h : ∀ v, x = .ok v → f v = g v) :
    (x >>= f) = (x >>= g) := by
  cases x with
  | error e => rfl
  | ok v => exact h v rfl

theorem Vec.row_rdN (v : Vec α) (b : Nat) : v.row.rdN 0 b = v.rdN b := by
  unfold Mat.rdN Vec.row
  by_cases h : b < v.size
  · simp [h]
  · simp [h, Vec.rdN]

theorem Vec.row_wrN (v : Vec α) (b : Nat) (x : α) :
    v.row.wrN 0 b x = v.wrN b x >>= fun v => .ok v.row := by
  unfold Mat.wrN Vec.row
  by_cases h : b < v.size
  · simp [h, Vec.wrN]
  · simp [h, Vec.wrN]

/-- Replace `Boozer_I` and `Boozer_G`. -/
def Shared.setIG (sh : Shared α) (vI vG : Vec α) : Shared α
  | .boozer_I => vI.row
  | .boozer_G => vG.row
  | w => sh w

theorem Shared.load_I (sh : Shared α) (vI vG : Vec α) (b : Nat) :
    (sh.setIG vI vG).load ⟨.boozer_I, 0, b⟩ = vI.rdN b := vI.row_rdN b
theorem Shared.load_G (sh : Shared α) (vI vG : Vec α) (b : Nat) :
    (sh.setIG vI vG).load ⟨.boozer_G, 0, b⟩ = vG.rdN b := vG.row_rdN b

theorem Shared.store_I (sh : Shared α) (vI vG : Vec α) (b : Nat) (x : α) :
    (sh.setIG vI vG).store ⟨.boozer_I, 0, b⟩ x = vI.wrN b x >>= fun v => .ok (sh.setIG v vG) := by
  show (vI.row.wrN 0 b x >>= _) = _
  rw [Vec.row_wrN]
  cases vI.wrN b x with
  | error e => rfl
  | ok v => exact congrArg Except.ok (funext fun w => by cases w <;> rfl)

theorem Shared.store_G (sh : Shared α) (vI vG : Vec α) (b : Nat) (x : α) :
    (sh.setIG vI vG).store ⟨.boozer_G, 0, b⟩ x = vG.wrN b x >>= fun v => .ok (sh.setIG vI v) := by
  show (vG.row.wrN 0 b x >>= _) = _
  rw [Vec.row_wrN]
  cases vG.wrN b x with
  | error e => rfl
  | ok v => exact congrArg Except.ok (funext fun w => by cases w <;> rfl)

variable [Arith α]

theorem transpStepA_exec (inp : Inputs α) (asym : Bool) (js : Int) (js_b : Nat) (sh : Shared α)
    (out : List (Line α)) (jmn : Nat) (t : Transp α) :
    (transpStepA inp asym js js_b jmn (t.wmns, t.wmnc)).exec ⟨sh.setIG t.boozer_I t.boozer_G, out⟩ =
      transpStep inp asym js js_b jmn t >>= fun t =>
        .ok ((t.wmns, t.wmnc), ⟨sh.setIG t.boozer_I t.boozer_G, out⟩) := by
  unfold transpStepA transpStep
  simp only [Act.exec_lift_bind, bind_assoc]
  refine bind_congr_res fun m _ => bind_congr_res fun n _ => ?_
  split
  · cases asym <;> (simp only [Act.exec_lift, if_true, bind_assoc]; rfl)
  split
  · cases asym <;> (simp only [Act.exec_lift, if_true, bind_assoc]; rfl)
  simp only [Act.exec_lift_bind, Act.exec_put_bind, bind_assoc]
  refine bind_congr_res fun x _ => ?_
  rw [Shared.store_I]
  cases t.boozer_I.wrN js_b x with
  | error e => rfl
  | ok v =>
    simp only [ok_bind]
    refine bind_congr_res fun y _ => ?_
    rw [Shared.store_G]
    cases t.boozer_G.wrN js_b y <;> rfl

theorem transpA_exec (inp : Inputs α) (js : Int) (js_b : Nat) (sh : Shared α) (vI vG : Vec α)
    (out : List (Line α)) :
    (transpA inp js js_b).exec ⟨sh.setIG vI vG, out⟩ =
      transp inp js js_b vI vG >>= fun t =>
        .ok ((t.wmns, t.wmnc), ⟨sh.setIG t.boozer_I t.boozer_G, out⟩) := by
  unfold transpA transp
  simp only [Act.exec_lift_bind, bind_assoc]
  refine bind_congr_res fun m _ => bind_congr_res fun asym _ => bind_congr_res fun w _ => ?_
  have h := fun w' => Act.exec_loop (n := m.toNat) (π := fun t : Transp α => (t.wmns, t.wmnc))
    (μ := fun t => ⟨sh.setIG t.boozer_I t.boozer_G, out⟩)
    (transpStepA_exec inp asym js js_b sh out) ⟨w, w', vI, vG⟩
  cases asym
  · exact h #[]
  · refine (bind_congr_res fun w' _ => h w').trans ?_
    exact (bind_assoc (m := Res) _ _ _).symm

theorem localWorkA_eq (inp : Inputs α) (g : Grid α) (js : Int) (bI bG : α) (wmns wmnc : Vec α) :
    localWorkA inp g js ⟨bI, bG, bI, bI, bI, bI, bG⟩ wmns wmnc = localWork inp g js bI bG wmns wmnc :=
  rfl

theorem loadIG_exec (js_b : Nat) (m : Common α) :
    (loadIG js_b).exec m =
      m.sh.load ⟨.boozer_I, 0, js_b⟩ >>= fun bI => m.sh.load ⟨.boozer_G, 0, js_b⟩ >>= fun bG =>
        .ok (⟨bI, bG, bI, bI, bI, bI, bG⟩, m) := by
  unfold loadIG
  simp only [Act.exec_get_bind]
  cases hI : m.sh.load ⟨.boozer_I, 0, js_b⟩ with
  | error e => rfl
  | ok bI =>
    cases hG : m.sh.load ⟨.boozer_G, 0, js_b⟩ with
    | error e => rfl
    | ok bG => rfl

/-! ### Accumulation -/

section
variable (sh : Shared α) (o : Spectra α) (out : List (Line α)) (i b : Nat) (x : α) (f : Unit → Act α γ)

macro "add_tac" a:term : tactic => `(tactic| (
  simp only [Act.add, bind_assoc]
  show ((Act.get _ >>= fun y => Act.put _ _) >>= _).exec _ = _
  rw [Act.exec_bind, Act.exec_get_bind]
  show (($a).rdN _ _ >>= _) >>= _ = _
  unfold Mat.addN
  rw [bind_assoc, bind_assoc]
  refine bind_congr_res fun y _ => ?_
  show ((($a).wrN _ _ _ >>= _) >>= _) >>= _ = _
  cases ($a).wrN _ _ _ with
  | error e => rfl
  | ok a => exact congrArg (fun s => (f ()).exec ⟨s, out⟩) (funext fun w => by cases w <;> rfl)))

theorem add_bmnc_b : (Act.add ⟨.bmnc_b, i, b⟩ x >>= f).exec ⟨sh.setSpec o, out⟩ =
    o.bmnc_b.addN i b x >>= fun a => (f ()).exec ⟨sh.setSpec { o with bmnc_b := a }, out⟩ := by
  add_tac o.bmnc_b
theorem add_rmnc_b : (Act.add ⟨.rmnc_b, i, b⟩ x >>= f).exec ⟨sh.setSpec o, out⟩ =
    o.rmnc_b.addN i b x >>= fun a => (f ()).exec ⟨sh.setSpec { o with rmnc_b := a }, out⟩ := by
  add_tac o.rmnc_b
theorem add_zmns_b : (Act.add ⟨.zmns_b, i, b⟩ x >>= f).exec ⟨sh.setSpec o, out⟩ =
    o.zmns_b.addN i b x >>= fun a => (f ()).exec ⟨sh.setSpec { o with zmns_b := a }, out⟩ := by
  add_tac o.zmns_b
theorem add_numns_b : (Act.add ⟨.numns_b, i, b⟩ x >>= f).exec ⟨sh.setSpec o, out⟩ =
    o.numns_b.addN i b x >>= fun a => (f ()).exec ⟨sh.setSpec { o with numns_b := a }, out⟩ := by
  add_tac o.numns_b
theorem add_gmnc_b : (Act.add ⟨.gmnc_b, i, b⟩ x >>= f).exec ⟨sh.setSpec o, out⟩ =
    o.gmnc_b.addN i b x >>= fun a => (f ()).exec ⟨sh.setSpec { o with gmnc_b := a }, out⟩ := by
  add_tac o.gmnc_b
theorem add_bmns_b : (Act.add ⟨.bmns_b, i, b⟩ x >>= f).exec ⟨sh.setSpec o, out⟩ =
    o.bmns_b.addN i b x >>= fun a => (f ()).exec ⟨sh.setSpec { o with bmns_b := a }, out⟩ := by
  add_tac o.bmns_b
theorem add_rmns_b : (Act.add ⟨.rmns_b, i, b⟩ x >>= f).exec ⟨sh.setSpec o, out⟩ =
    o.rmns_b.addN i b x >>= fun a => (f ()).exec ⟨sh.setSpec { o with rmns_b := a }, out⟩ := by
  add_tac o.rmns_b
theorem add_zmnc_b : (Act.add ⟨.zmnc_b, i, b⟩ x >>= f).exec ⟨sh.setSpec o, out⟩ =
    o.zmnc_b.addN i b x >>= fun a => (f ()).exec ⟨sh.setSpec { o with zmnc_b := a }, out⟩ := by
  add_tac o.zmnc_b
theorem add_numnc_b : (Act.add ⟨.numnc_b, i, b⟩ x >>= f).exec ⟨sh.setSpec o, out⟩ =
    o.numnc_b.addN i b x >>= fun a => (f ()).exec ⟨sh.setSpec { o with numnc_b := a }, out⟩ := by
  add_tac o.numnc_b
theorem add_gmns_b : (Act.add ⟨.gmns_b, i, b⟩ x >>= f).exec ⟨sh.setSpec o, out⟩ =
    o.gmns_b.addN i b x >>= fun a => (f ()).exec ⟨sh.setSpec { o with gmns_b := a }, out⟩ := by
  add_tac o.gmns_b

theorem add_last_asym : (Act.add ⟨.gmns_b, i, b⟩ x).exec ⟨sh.setSpec o, out⟩ =
    o.gmns_b.addN i b x >>= fun a => .ok ((), ⟨sh.setSpec { o with gmns_b := a }, out⟩) := by
  have h : ∀ a : Act α Unit, a.bind .ret = a := by
    intro a
    induction a with
    | ret x => rfl
    | fault e => rfl
    | load c k ih => exact congrArg (Act.load c) (funext ih)
    | store c x k ih => exact congrArg (Act.store c x) ih
    | print l k ih => exact congrArg (Act.print l) ih
    | lock k ih => exact congrArg Act.lock ih
    | unlock k ih => exact congrArg Act.unlock ih
  have h1 := add_gmns_b sh o out i b x .ret
  rw [show (Act.add ⟨.gmns_b, i, b⟩ x >>= Act.ret) = Act.add ⟨.gmns_b, i, b⟩ x from h _] at h1
  exact h1
end

theorem accumStepA_exec (asym : Bool) (L : Local α) (js_b jmn : Nat) (m absn sign : Int) (ff : α)
    (sh : Shared α) (out : List (Line α)) (j : Nat) (o : Spectra α) :
    (accumStepA asym L js_b jmn m absn sign ff j ()).exec ⟨sh.setSpec o, out⟩ =
      accumStep asym L js_b jmn m absn sign ff j o >>= fun o => .ok ((), ⟨sh.setSpec o, out⟩) := by
  unfold accumStepA accumStep
  simp only [Act.exec_lift_bind, bind_assoc]
  refine bind_congr_res fun _ _ => bind_congr_res fun _ _ => bind_congr_res fun _ _ =>
    bind_congr_res fun _ _ => bind_congr_res fun _ _ => bind_congr_res fun _ _ =>
    bind_congr_res fun _ _ => bind_congr_res fun _ _ => ?_
  simp only [add_bmnc_b, add_rmnc_b, add_zmns_b, add_numns_b, add_gmnc_b]
  refine bind_congr_res fun _ _ => bind_congr_res fun _ _ => bind_congr_res fun _ _ =>
    bind_congr_res fun _ _ => bind_congr_res fun _ _ => ?_
  cases asym with
  | false => rfl
  | true =>
    simp only [Bool.not_true, Bool.false_eq_true, if_false, add_bmns_b, add_rmns_b, add_zmnc_b,
      add_numnc_b, add_last_asym, bind_assoc]
    rfl

theorem accumA_exec (inp : Inputs α) (g : Grid α) (L : Local α) (mnboz : Option Int)
    (xm_b xn_b : Vec Int) (js_b : Nat) (sh : Shared α) (out : List (Line α)) (o : Spectra α) :
    (accumA inp g L mnboz xm_b xn_b js_b).exec ⟨sh.setSpec o, out⟩ =
      accum inp g L mnboz xm_b xn_b js_b o >>= fun o => .ok ((), ⟨sh.setSpec o, out⟩) := by
  unfold accumA accum
  simp only [Act.exec_lift_bind, bind_assoc]
  refine bind_congr_res fun npts _ => bind_congr_res fun asym _ => bind_congr_res fun mnboz _ => ?_
  refine Act.exec_loop (π := fun _ : Spectra α => ()) (μ := fun o => ⟨sh.setSpec o, out⟩) ?_ o
  intro jmn o
  simp only [Act.exec_lift_bind, bind_assoc]
  refine bind_congr_res fun m _ => bind_congr_res fun n _ => bind_congr_res fun absn _ => ?_
  exact Act.exec_loop (π := fun _ : Spectra α => ()) (μ := fun o => ⟨sh.setSpec o, out⟩)
    (fun j o => accumStepA_exec asym L js_b jmn m absn _ _ sh out j o) o

/-! ### The check -/

theorem checkAccuracy_split (dbg : Bool) (s : St α) (js : Int) (js_b : Nat) (bmod tB zB : Vec α)
    (trig : Trig α) :
    checkAccuracy dbg s js js_b bmod tB zB trig =
      checkPrep dbg s bmod tB zB trig >>= fun p => need s.inp.asym "asym" >>= fun asym =>
        need s.out.mnboz "mnboz" >>= fun mnboz =>
        loop mnboz.toNat (fun jmn v => s.out.xm_b.rdN jmn >>= fun m => s.out.xn_b.rdN jmn >>= fun n =>
          absNOf n s.inp.nfp >>= fun absn =>
            loop 4 (checkStep asym p.2 s.out.spec js_b jmn m absn (signOf n)) v)
          (#[some (ofInt 0), some (ofInt 0), some (ofInt 0), some (ofInt 0)] : Vec α) >>= fun booz =>
        Vec.build 4 (fun j => booz.rdN j >>= fun b => p.1.rdN j >>= fun v =>
          pure (Arith.abs (b - v) / Arith.max b v)) >>= fun err =>
        pure ⟨js_b, js, p.1, booz, err⟩ := by
  unfold checkAccuracy checkPrep
  simp only [bind_assoc, pure_bind]

theorem checkStepA_exec (asym : Bool) (t : Trig α) (js_b jmn : Nat) (m absn sign : Int)
    (mem : Common α) (j : Nat) (v : Vec α) :
    (checkStepA asym t js_b jmn m absn sign j v).exec mem =
      checkStep asym t mem.sh.spec js_b jmn m absn sign j v >>= fun v => .ok (v, mem) := by
  unfold checkStepA checkStep
  simp only [Act.exec_lift_bind, Act.exec_get_bind, bind_assoc]
  refine bind_congr_res fun tc _ => bind_congr_res fun b _ => bind_congr_res fun v _ => ?_
  cases asym with
  | false => rfl
  | true =>
    simp only [Bool.not_true, Bool.false_eq_true, if_false, Act.exec_lift_bind, Act.exec_get_bind,
      Act.exec_lift, bind_assoc]
    rfl

theorem checkA_exec (dbg : Bool) (s : St α) (js : Int) (js_b : Nat) (bmod tB zB : Vec α) (trig : Trig α)
    (mem : Common α) (h : s.out.spec = mem.sh.spec) :
    (checkA dbg s js js_b bmod tB zB trig).exec mem =
      checkAccuracy dbg s js js_b bmod tB zB trig >>= fun r => .ok (r, mem) := by
  rw [checkAccuracy_split]
  unfold checkA
  simp only [Act.exec_lift_bind, bind_assoc]
  refine bind_congr_res fun p _ => bind_congr_res fun asym _ => bind_congr_res fun mnboz _ => ?_
  have h1 := Act.exec_loop (n := mnboz.toNat) (π := fun v : Vec α => v) (μ := fun _ => mem)
    (body := fun jmn v => do
      let m ← Act.lift (s.out.xm_b.rdN jmn)
      let n ← Act.lift (s.out.xn_b.rdN jmn)
      let absn ← Act.lift (absNOf n s.inp.nfp)
      Act.loop 4 (checkStepA asym p.2 js_b jmn m absn (signOf n)) v)
    (bodyS := fun jmn v => s.out.xm_b.rdN jmn >>= fun m => s.out.xn_b.rdN jmn >>= fun n =>
          absNOf n s.inp.nfp >>= fun absn =>
            loop 4 (checkStep asym p.2 s.out.spec js_b jmn m absn (signOf n)) v)
    (by
      intro jmn v
      simp only [Act.exec_lift_bind, bind_assoc]
      refine bind_congr_res fun m _ => bind_congr_res fun n _ => bind_congr_res fun absn _ => ?_
      rw [h]
      exact Act.exec_loop (π := fun v : Vec α => v) (μ := fun _ => mem)
        (fun j v => checkStepA_exec asym p.2 js_b jmn m absn _ mem j v) v)
    (#[some (ofInt 0), some (ofInt 0), some (ofInt 0), some (ofInt 0)] : Vec α)
  rw [Act.exec_bind, h1, bind_assoc]
  refine bind_congr_res fun v _ => ?_
  exact Act.exec_lift_bind _ _ _

/-! ### One surface -/

omit [Arith α] in
/-- What surface `js_b` prints. -/
def linesOf (s : St α) (js_b : Nat) (rep : Option (Report α)) : List (Line α) :=
  (if s.inp.verbose > 1 then
    match s.inp.compute_surfs.rdN js_b with
    | .ok js => [.solving js_b js]
    | .error _ => []
   else []) ++ rep.toList.flatMap fun r => [.first r, .second r]

theorem surfaceAct_exec (dbg : Bool) (s : St α) (js_b : Nat) (out : List (Line α)) :
    (surfaceAct dbg s js_b).exec ⟨s.shared, out⟩ =
      surfaceSolve dbg js_b s >>= fun r => .ok ((), ⟨r.1.shared, out ++ linesOf s js_b r.2⟩) := by
  unfold surfaceAct surfaceSolve
  simp only [Act.exec_lift_bind, bind_assoc]
  refine bind_congr_res fun js hjs => ?_
  have hp : ∀ f : Unit → Act α Unit,
      (announceSurface s.inp js_b js >>= f).exec ⟨s.shared, out⟩ =
      (f ()).exec ⟨s.shared, out ++ linesOf s js_b none⟩ := by
    intro f
    unfold linesOf announceSurface
    rw [hjs]
    split
    · show (f ()).exec _ = _
      simp
    · show (f ()).exec _ = _
      simp
  rw [hp]
  have e1 : s.shared = s.shared.setIG s.out.boozer_I s.out.boozer_G :=
    funext fun w => by cases w <;> rfl
  rw [Act.exec_bind]
  conv => lhs; rw [e1]
  rw [transpA_exec, bind_assoc]
  refine bind_congr_res fun t _ => ?_
  simp only [ok_bind]
  rw [Act.exec_bind, loadIG_exec, Shared.load_I, Shared.load_G]
  simp only [bind_assoc, ok_bind]
  refine bind_congr_res fun bI _ => bind_congr_res fun bG _ => ?_
  rw [Act.exec_lift_bind, localWorkA_eq]
  refine bind_congr_res fun L _ => ?_
  have e2 : (s.shared.setIG t.boozer_I t.boozer_G) =
      (s.shared.setIG t.boozer_I t.boozer_G).setSpec s.out.spec :=
    funext fun w => by cases w <;> rfl
  rw [Act.exec_bind, e2, accumA_exec, bind_assoc]
  refine bind_congr_res fun o _ => ?_
  simp only [ok_bind]
  have e3 : ((s.shared.setIG t.boozer_I t.boozer_G).setSpec o) =
      ({ s with out := { s.out with boozer_I := t.boozer_I, boozer_G := t.boozer_G, spec := o } } :
        St α).shared := funext fun w => by cases w <;> rfl
  rw [e3]
  split
  · rw [Act.exec_bind]
    rw [show checkA dbg s js js_b L.wb.bmod L.har.theta_Boozer L.har.zeta_Boozer L.trig =
      checkA dbg ({ s with
          out := { s.out with boozer_I := t.boozer_I, boozer_G := t.boozer_G, spec := o } } : St α) js js_b L.wb.bmod L.har.theta_Boozer L.har.zeta_Boozer L.trig from rfl]
    rw [checkA_exec _ _ _ _ _ _ _ _ _ rfl]
    simp only [bind_assoc, ok_bind]
    refine bind_congr_res fun r _ => ?_
    simp [critical, Act.exec, linesOf]
  · rfl

end Booz
