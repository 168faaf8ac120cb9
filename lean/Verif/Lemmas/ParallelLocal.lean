import Verif.Lemmas.ParallelExec

/-!
# Iterations stay in their own column

`WithinP b P a`: the program `a` accesses only column `b`, prints only lines about iteration `b`, and its
result satisfies `P`.  Two memories that agree on column `b` cannot be told apart by such a program, and
it leaves all other columns alone.
-/

namespace Booz

variable {α β γ : Type}

namespace Act

def WithinP (b : Nat) (P : β → Prop) : Act α β → Prop
  | .ret x => P x
  | .fault _ => True
  | .load c k => c.b = b ∧ ∀ v, (k v).WithinP b P
  | .store c _ k => c.b = b ∧ k.WithinP b P
  | .print l k => l.js_b = b ∧ k.WithinP b P
  | .lock k => k.WithinP b P
  | .unlock k => k.WithinP b P

abbrev Within (b : Nat) (a : Act α β) : Prop := a.WithinP b fun _ => True

/-- Where a program stands with respect to the critical section. -/
inductive Stage (α : Type) where
  | out
  | in0
  | in1 (r : Report α)
  | in2

/-- The critical section is used in one way only: it is entered, the two lines of one report are
printed, and it is left; reports are not printed elsewhere. -/
def Neat : Act α β → Stage α → Prop
  | .ret _, st => st = .out
  | .fault _, st => st = .out
  | .load _ k, st => st = .out ∧ ∀ v, (k v).Neat .out
  | .store _ _ k, st => st = .out ∧ k.Neat .out
  | .print (.solving _ _) k, st => st = .out ∧ k.Neat .out
  | .print (.first r) k, st => st = .in0 ∧ k.Neat (.in1 r)
  | .print (.second r) k, st => st = .in1 r ∧ k.Neat .in2
  | .lock k, st => st = .out ∧ k.Neat .in0
  | .unlock k, st => st = .in2 ∧ k.Neat .out

section
variable {b : Nat} {P : β → Prop} {Q : γ → Prop}

theorem WithinP.bind {a : Act α β} {f : β → Act α γ} (ha : a.WithinP b P)
    (hf : ∀ x, P x → (f x).WithinP b Q) : (a >>= f).WithinP b Q := by
  show (a.bind f).WithinP b Q
  induction a with
  | ret x => exact hf x ha
  | fault e => trivial
  | load c k ih => exact ⟨ha.1, fun v => ih v (ha.2 v)⟩
  | store c x k ih => exact ⟨ha.1, ih ha.2⟩
  | print l k ih => exact ⟨ha.1, ih ha.2⟩
  | lock k ih => exact ih ha
  | unlock k ih => exact ih ha

theorem WithinP.mono {P' : β → Prop} {a : Act α β} (ha : a.WithinP b P) (h : ∀ x, P x → P' x) :
    a.WithinP b P' := by
  induction a with
  | ret x => exact h x ha
  | fault e => trivial
  | load c k ih => exact ⟨ha.1, fun v => ih v (ha.2 v)⟩
  | store c x k ih => exact ⟨ha.1, ih ha.2⟩
  | print l k ih => exact ⟨ha.1, ih ha.2⟩
  | lock k ih => exact ih ha
  | unlock k ih => exact ih ha

theorem WithinP.bind' {a : Act α β} {f : β → Act α γ} (ha : a.Within b)
    (hf : ∀ x, (f x).WithinP b Q) : (a >>= f).WithinP b Q := ha.bind fun x _ => hf x

theorem within_lift (r : Res β) : (lift r : Act α β).Within b := by cases r <;> trivial
theorem within_pure (x : β) : (pure x : Act α β).Within b := trivial
theorem within_get {c : Cell} (h : c.b = b) : (get c : Act α α).Within b := ⟨h, fun _ => trivial⟩
theorem within_put {c : Cell} (x : α) (h : c.b = b) : (put c x).Within b := ⟨h, trivial⟩
theorem within_add [Arith α] {c : Cell} (x : α) (h : c.b = b) : (add c x).Within b :=
  (within_get h).bind' fun _ => within_put _ h
theorem within_loop {n : Nat} {body : Nat → β → Act α β} (h : ∀ k x, (body k x).Within b) (x : β) :
    (loop n body x).Within b := by
  induction n with
  | zero => trivial
  | succ n ih => exact ih.bind' fun _ => h n _

theorem Neat.bind {a : Act α β} {f : β → Act α γ} {st : Stage α} (ha : a.Neat st)
    (hf : ∀ x, (f x).Neat .out) : (a >>= f).Neat st := by
  show (a.bind f).Neat st
  induction a generalizing st with
  | ret x => rw [show st = .out from ha]; exact hf x
  | fault e => exact ha
  | load c k ih => exact ⟨ha.1, fun v => ih v (ha.2 v)⟩
  | store c x k ih => exact ⟨ha.1, ih ha.2⟩
  | print l k ih =>
    cases l with
    | solving => exact ⟨ha.1, ih ha.2⟩
    | first r => exact ⟨ha.1, ih ha.2⟩
    | second r => exact ⟨ha.1, ih ha.2⟩
  | lock k ih => exact ⟨ha.1, ih ha.2⟩
  | unlock k ih => exact ⟨ha.1, ih ha.2⟩

theorem neat_lift (r : Res β) : (lift r : Act α β).Neat .out := by cases r <;> rfl
theorem neat_pure (x : β) : (pure x : Act α β).Neat .out := rfl
theorem neat_get (c : Cell) : (get c : Act α α).Neat .out := ⟨rfl, fun _ => rfl⟩
theorem neat_put (c : Cell) (x : α) : (put c x).Neat .out := ⟨rfl, rfl⟩
theorem neat_add [Arith α] (c : Cell) (x : α) : (add c x).Neat .out :=
  (neat_get c).bind fun _ => neat_put _ _
theorem neat_loop {n : Nat} {body : Nat → β → Act α β} (h : ∀ k x, (body k x).Neat .out) (x : β) :
    (loop n body x).Neat .out := by
  induction n with
  | zero => rfl
  | succ n ih => exact ih.bind fun _ => h n _
end

end Act

open Act

section surface
variable [Arith α]

theorem transpA_within (inp : Inputs α) (js : Int) (b : Nat) : (transpA inp js b).Within b := by
  refine (within_lift _).bind' fun m => (within_lift _).bind' fun asym => (within_lift _).bind' fun w =>
    (within_lift _).bind' fun w' => within_loop (fun k x => ?_) _
  refine (within_lift _).bind' fun m => (within_lift _).bind' fun n => ?_
  split
  · exact within_lift _
  split
  · exact within_lift _
  exact (within_lift _).bind' fun _ => (within_put _ rfl).bind' fun _ => (within_lift _).bind' fun _ =>
    (within_put _ rfl).bind' fun _ => within_pure _

theorem loadIG_within (b : Nat) : (loadIG b : Act α (Loaded α)).Within b := by
  unfold loadIG
  exact (within_get rfl).bind' fun _ => (within_get rfl).bind' fun _ => (within_get rfl).bind' fun _ =>
    (within_get rfl).bind' fun _ => (within_get rfl).bind' fun _ => (within_get rfl).bind' fun _ =>
    (within_get rfl).bind' fun _ => within_pure _

theorem accumA_within (inp : Inputs α) (g : Grid α) (L : Local α) (mnboz : Option Int)
    (xm_b xn_b : Vec Int) (b : Nat) : (accumA inp g L mnboz xm_b xn_b b).Within b := by
  refine (within_lift _).bind' fun npts => (within_lift _).bind' fun asym => (within_lift _).bind' fun mnboz =>
    within_loop (fun jmn o => ?_) _
  refine (within_lift _).bind' fun m => (within_lift _).bind' fun n => (within_lift _).bind' fun absn =>
    within_loop (fun j o => ?_) _
  unfold accumStepA
  refine (within_lift _).bind' fun _ => (within_lift _).bind' fun _ => (within_lift _).bind' fun _ =>
    (within_lift _).bind' fun _ => (within_lift _).bind' fun _ => (within_lift _).bind' fun _ =>
    (within_lift _).bind' fun _ => (within_lift _).bind' fun _ => ?_
  refine (within_add _ rfl).bind' fun _ => (within_add _ rfl).bind' fun _ => (within_add _ rfl).bind' fun _ =>
    (within_add _ rfl).bind' fun _ => (within_add _ rfl).bind' fun _ => ?_
  split
  · exact within_pure _
  exact (within_add _ rfl).bind' fun _ => (within_add _ rfl).bind' fun _ => (within_add _ rfl).bind' fun _ =>
    (within_add _ rfl).bind' fun _ => within_add _ rfl

theorem checkA_within (dbg : Bool) (s : St α) (js : Int) (b : Nat) (bmod tB zB : Vec α) (trig : Trig α) :
    (checkA dbg s js b bmod tB zB trig).WithinP b fun r => r.js_b = b := by
  refine (within_lift _).bind' fun p => (within_lift _).bind' fun asym => (within_lift _).bind' fun mnboz =>
    (within_loop (fun jmn v => ?_) _).bind' fun booz => (within_lift _).bind' fun err => rfl
  refine (within_lift _).bind' fun m => (within_lift _).bind' fun n => (within_lift _).bind' fun absn =>
    within_loop (fun j v => ?_) _
  refine (within_lift _).bind' fun _ => (within_get rfl).bind' fun _ => (within_lift _).bind' fun _ => ?_
  split
  · exact within_pure _
  · exact (within_lift _).bind' fun _ => (within_get rfl).bind' fun _ => within_lift _

theorem surfaceAct_within (dbg : Bool) (s : St α) (b : Nat) : (surfaceAct dbg s b).Within b := by
  unfold surfaceAct
  refine (within_lift _).bind' fun js => WithinP.bind' ?_ fun _ => (transpA_within _ _ _).bind' fun t =>
    (loadIG_within _).bind' fun v => (within_lift _).bind' fun L => (accumA_within _ _ _ _ _ _ _).bind' fun _ => ?_
  · unfold announceSurface; split
    · exact ⟨rfl, trivial⟩
    · trivial
  split
  · exact (checkA_within _ _ _ _ _ _ _ _).bind fun r hr => ⟨hr, hr, trivial⟩
  · trivial

theorem transpA_neat (inp : Inputs α) (js : Int) (b : Nat) : (transpA inp js b).Neat .out := by
  refine (neat_lift _).bind fun m => (neat_lift _).bind fun asym => (neat_lift _).bind fun w =>
    (neat_lift _).bind fun w' => neat_loop (fun k x => ?_) _
  refine (neat_lift _).bind fun m => (neat_lift _).bind fun n => ?_
  split
  · exact neat_lift _
  split
  · exact neat_lift _
  exact (neat_lift _).bind fun _ => (neat_put _ _).bind fun _ => (neat_lift _).bind fun _ =>
    (neat_put _ _).bind fun _ => neat_pure _

theorem loadIG_neat (b : Nat) : (loadIG b : Act α (Loaded α)).Neat .out := by
  unfold loadIG
  exact (neat_get _).bind fun _ => (neat_get _).bind fun _ => (neat_get _).bind fun _ =>
    (neat_get _).bind fun _ => (neat_get _).bind fun _ => (neat_get _).bind fun _ =>
    (neat_get _).bind fun _ => neat_pure _

theorem accumA_neat (inp : Inputs α) (g : Grid α) (L : Local α) (mnboz : Option Int)
    (xm_b xn_b : Vec Int) (b : Nat) : (accumA inp g L mnboz xm_b xn_b b).Neat .out := by
  refine (neat_lift _).bind fun npts => (neat_lift _).bind fun asym => (neat_lift _).bind fun mnboz =>
    neat_loop (fun jmn o => ?_) _
  refine (neat_lift _).bind fun m => (neat_lift _).bind fun n => (neat_lift _).bind fun absn =>
    neat_loop (fun j o => ?_) _
  unfold accumStepA
  refine (neat_lift _).bind fun _ => (neat_lift _).bind fun _ => (neat_lift _).bind fun _ =>
    (neat_lift _).bind fun _ => (neat_lift _).bind fun _ => (neat_lift _).bind fun _ =>
    (neat_lift _).bind fun _ => (neat_lift _).bind fun _ => ?_
  refine (neat_add _ _).bind fun _ => (neat_add _ _).bind fun _ => (neat_add _ _).bind fun _ =>
    (neat_add _ _).bind fun _ => (neat_add _ _).bind fun _ => ?_
  split
  · exact neat_pure _
  exact (neat_add _ _).bind fun _ => (neat_add _ _).bind fun _ => (neat_add _ _).bind fun _ =>
    (neat_add _ _).bind fun _ => neat_add _ _

theorem checkA_neat (dbg : Bool) (s : St α) (js : Int) (b : Nat) (bmod tB zB : Vec α) (trig : Trig α) :
    (checkA dbg s js b bmod tB zB trig).Neat .out := by
  refine (neat_lift _).bind fun p => (neat_lift _).bind fun asym => (neat_lift _).bind fun mnboz =>
    (neat_loop (fun jmn v => ?_) _).bind fun booz => (neat_lift _).bind fun err => rfl
  refine (neat_lift _).bind fun m => (neat_lift _).bind fun n => (neat_lift _).bind fun absn =>
    neat_loop (fun j v => ?_) _
  refine (neat_lift _).bind fun _ => (neat_get _).bind fun _ => (neat_lift _).bind fun _ => ?_
  split
  · exact neat_pure _
  · exact (neat_lift _).bind fun _ => (neat_get _).bind fun _ => neat_lift _

theorem surfaceAct_neat (dbg : Bool) (s : St α) (b : Nat) : (surfaceAct dbg s b).Neat .out := by
  unfold surfaceAct
  refine (neat_lift _).bind fun js => Neat.bind ?_ fun _ => (transpA_neat _ _ _).bind fun t =>
    (loadIG_neat _).bind fun v => (neat_lift _).bind fun L => (accumA_neat _ _ _ _ _ _ _).bind fun _ => ?_
  · unfold announceSurface; split
    · exact ⟨rfl, rfl⟩
    · rfl
  split
  · exact (checkA_neat _ _ _ _ _ _ _ _).bind fun r => ⟨rfl, rfl, rfl, rfl, rfl⟩
  · rfl

end surface

/-! ### Memories that agree on a column -/

/-- Same shapes, the same entries in column `b`, and the same lines about iteration `b`. -/
structure Agree (b : Nat) (m m' : Common α) : Prop where
  rows : ∀ w, (m.sh w).rows = (m'.sh w).rows
  cols : ∀ w, (m.sh w).cols = (m'.sh w).cols
  size : ∀ w, (m.sh w).data.size = (m'.sh w).data.size
  cells : ∀ w k, k / (m.sh w).rows = b → (m.sh w).data[k]? = (m'.sh w).data[k]?
  out : m.out.filter (fun l => l.js_b == b) = m'.out.filter (fun l => l.js_b == b)

namespace Agree
variable {b : Nat} {m m' m'' : Common α}

theorem refl (m : Common α) : Agree b m m :=
  ⟨fun _ => rfl, fun _ => rfl, fun _ => rfl, fun _ _ _ => rfl, rfl⟩

theorem symm (h : Agree b m m') : Agree b m' m :=
  ⟨fun w => (h.rows w).symm, fun w => (h.cols w).symm, fun w => (h.size w).symm,
    fun w k hk => (h.cells w k (by rw [h.rows w]; exact hk)).symm, h.out.symm⟩

theorem trans (h : Agree b m m') (h' : Agree b m' m'') : Agree b m m'' :=
  ⟨fun w => (h.rows w).trans (h'.rows w), fun w => (h.cols w).trans (h'.cols w),
    fun w => (h.size w).trans (h'.size w),
    fun w k hk => (h.cells w k hk).trans (h'.cells w k (by rw [← h.rows w]; exact hk)),
    h.out.trans h'.out⟩

end Agree

/-- The address of a cell. -/
def Shared.addr (sh : Shared α) (c : Cell) : Nat := c.b * (sh c.arr).rows + c.i

/-- The cell exists. -/
def Shared.Has (sh : Shared α) (c : Cell) : Prop :=
  (c.i < (sh c.arr).rows ∧ c.b < (sh c.arr).cols) ∧ sh.addr c < (sh c.arr).data.size

/-- The memory after a store. -/
def Shared.after (sh : Shared α) (c : Cell) (x : α) : Shared α :=
  sh.set c.arr { sh c.arr with data := (sh c.arr).data.set! (sh.addr c) (some x) }

theorem Shared.store_ok {sh : Shared α} {c : Cell} {x : α} (h : sh.Has c) :
    sh.store c x = .ok (sh.after c x) := by
  obtain ⟨h1, h2⟩ := h
  simp only [Shared.store, Mat.wrN, if_pos h1, Vec.wrN]
  rw [if_pos (show c.b * (sh c.arr).rows + c.i < _ from h2)]
  rfl

theorem Shared.store_bad {sh : Shared α} {c : Cell} {x : α} (h : ¬ sh.Has c) :
    sh.store c x = .error (.ub "index out of range") := by
  simp only [Shared.store, Mat.wrN]
  by_cases h1 : c.i < (sh c.arr).rows ∧ c.b < (sh c.arr).cols
  · have h2 : ¬ c.b * (sh c.arr).rows + c.i < (sh c.arr).data.size := fun h2 => h ⟨h1, h2⟩
    rw [if_pos h1]
    simp only [Vec.wrN, if_neg h2]
    rfl
  · rw [if_neg h1]; rfl

theorem Shared.store_inv {sh sh' : Shared α} {c : Cell} {x : α} (h : sh.store c x = .ok sh') :
    sh.Has c ∧ sh' = sh.after c x := by
  by_cases h1 : sh.Has c
  · rw [Shared.store_ok h1] at h; cases h; exact ⟨h1, rfl⟩
  · rw [Shared.store_bad h1] at h; cases h

theorem Agree.has {b : Nat} {m m' : Common α} (h : Agree b m m') {c : Cell} (hc : m.sh.Has c) :
    m'.sh.Has c := by
  obtain ⟨h1, h2⟩ := hc
  unfold Shared.Has Shared.addr at *
  rw [← h.rows, ← h.cols, ← h.size]
  exact ⟨h1, h2⟩

theorem Agree.load {b : Nat} {m m' : Common α} (h : Agree b m m') {c : Cell} (hc : c.b = b) :
    m.sh.load c = m'.sh.load c := by
  subst hc
  simp only [Shared.load, Mat.rdN, ← h.rows, ← h.cols]
  by_cases h1 : c.i < (m.sh c.arr).rows ∧ c.b < (m.sh c.arr).cols
  · rw [if_pos h1, if_pos h1]
    unfold Vec.rdN
    rw [h.cells c.arr (c.b * (m.sh c.arr).rows + c.i) ?_]
    rw [Nat.mul_comm, Nat.mul_add_div (by omega), Nat.div_eq_of_lt h1.1, Nat.add_zero]
  · rw [if_neg h1, if_neg h1]

theorem Shared.after_data (sh : Shared α) (c : Cell) (x : α) (w : Which) (k : Nat) :
    ((sh.after c x) w).data[k]? =
      if w = c.arr ∧ k = sh.addr c ∧ k < (sh w).data.size then some (some x) else (sh w).data[k]? := by
  unfold Shared.after Shared.set
  by_cases hw : w = c.arr
  · subst hw
    simp only [if_true, true_and]
    by_cases hk : k = sh.addr c
    · subst hk
      by_cases h2 : sh.addr c < (sh c.arr).data.size
      · simp [h2]
      · simp [h2]
    · simp [hk, Ne.symm hk, Array.getElem?_setIfInBounds]
  · simp [hw]

theorem Shared.after_rows (sh : Shared α) (c : Cell) (x : α) (w : Which) :
    ((sh.after c x) w).rows = (sh w).rows := by
  unfold Shared.after Shared.set
  by_cases hw : w = c.arr
  · subst hw; simp
  · simp [hw]
theorem Shared.after_cols (sh : Shared α) (c : Cell) (x : α) (w : Which) :
    ((sh.after c x) w).cols = (sh w).cols := by
  unfold Shared.after Shared.set
  by_cases hw : w = c.arr
  · subst hw; simp
  · simp [hw]
theorem Shared.after_size (sh : Shared α) (c : Cell) (x : α) (w : Which) :
    ((sh.after c x) w).data.size = (sh w).data.size := by
  unfold Shared.after Shared.set
  by_cases hw : w = c.arr
  · subst hw; simp
  · simp [hw]

theorem Agree.after {b : Nat} {m m' : Common α} (h : Agree b m m') (c : Cell) (x : α) :
    Agree b ⟨m.sh.after c x, m.out⟩ ⟨m'.sh.after c x, m'.out⟩ := by
  refine ⟨fun w => ?_, fun w => ?_, fun w => ?_, fun w k hk => ?_, h.out⟩
  · simpa only [Shared.after_rows] using h.rows w
  · simpa only [Shared.after_cols] using h.cols w
  · simpa only [Shared.after_size] using h.size w
  · simp only [Shared.after_rows] at hk
    simp only [Shared.after_data]
    have e : m.sh.addr c = m'.sh.addr c := by unfold Shared.addr; rw [h.rows]
    rw [← e, ← h.size, h.cells w k hk]

/-- A store into another column is not noticed. -/
theorem Agree.store_other {b : Nat} {m : Common α} {c : Cell} {x : α} (hh : m.sh.Has c) (hc : c.b ≠ b) :
    Agree b m ⟨m.sh.after c x, m.out⟩ := by
  refine ⟨fun w => ?_, fun w => ?_, fun w => ?_, fun w k hk => ?_, rfl⟩
  · exact (Shared.after_rows _ _ _ _).symm
  · exact (Shared.after_cols _ _ _ _).symm
  · exact (Shared.after_size _ _ _ _).symm
  · rw [Shared.after_data, if_neg]
    rintro ⟨h1, h2, -⟩
    subst h1 h2
    obtain ⟨⟨h1, -⟩, -⟩ := hh
    apply hc
    rw [← hk]
    unfold Shared.addr
    rw [Nat.mul_comm, Nat.mul_add_div (by omega), Nat.div_eq_of_lt h1, Nat.add_zero]

theorem Agree.print {b : Nat} {m m' : Common α} (h : Agree b m m') (l : Line α) :
    Agree b ⟨m.sh, m.out ++ [l]⟩ ⟨m'.sh, m'.out ++ [l]⟩ :=
  ⟨h.rows, h.cols, h.size, h.cells, by simp only [List.filter_append]; rw [h.out]⟩

theorem Agree.print_other {b : Nat} (m : Common α) {l : Line α} (hl : l.js_b ≠ b) :
    Agree b m ⟨m.sh, m.out ++ [l]⟩ :=
  ⟨fun _ => rfl, fun _ => rfl, fun _ => rfl, fun _ _ _ => rfl, by simp [List.filter_append, hl]⟩

/-- A program within column `b` behaves the same on memories that agree there. -/
theorem exec_congr {b : Nat} {P : β → Prop} {a : Act α β} (ha : a.WithinP b P) {m m' : Common α}
    (h : Agree b m m') {x : β} {f : Common α} (he : a.exec m = .ok (x, f)) :
    ∃ f', a.exec m' = .ok (x, f') ∧ Agree b f f' := by
  induction a generalizing m m' with
  | ret y => cases he; exact ⟨m', rfl, h⟩
  | fault e => cases he
  | load c k ih =>
    obtain ⟨v, h1, h2⟩ := bind_ok he
    obtain ⟨f', h3, h4⟩ := ih v (ha.2 v) h h2
    refine ⟨f', ?_, h4⟩
    show (m'.sh.load c >>= _) = _
    rw [← h.load ha.1, h1]; exact h3
  | store c y k ih =>
    obtain ⟨sh, h1, h2⟩ := bind_ok he
    obtain ⟨h5, rfl⟩ := Shared.store_inv h1
    obtain ⟨f', h3, h4⟩ := ih ha.2 (h.after c y) h2
    refine ⟨f', ?_, h4⟩
    show (m'.sh.store c y >>= _) = _
    rw [Shared.store_ok (h.has h5)]; exact h3
  | print l k ih => exact ih ha.2 (h.print l) he
  | lock k ih => exact ih ha h he
  | unlock k ih => exact ih ha h he

/-- A program within column `b` leaves the other columns alone. -/
theorem exec_frame {b b' : Nat} {P : β → Prop} {a : Act α β} (ha : a.WithinP b P) (hb : b ≠ b')
    {m : Common α} {x : β} {f : Common α} (he : a.exec m = .ok (x, f)) : Agree b' m f := by
  induction a generalizing m with
  | ret y => cases he; exact .refl _
  | fault e => cases he
  | load c k ih =>
    obtain ⟨v, h1, h2⟩ := bind_ok he
    exact ih v (ha.2 v) h2
  | store c y k ih =>
    obtain ⟨sh, h1, h2⟩ := bind_ok he
    obtain ⟨h5, rfl⟩ := Shared.store_inv h1
    exact (Agree.store_other h5 (by rw [ha.1]; exact hb)).trans (ih ha.2 h2)
  | print l k ih => exact (Agree.print_other m (by rw [ha.1]; exact hb)).trans (ih ha.2 he)
  | lock k ih => exact ih ha he
  | unlock k ih => exact ih ha he

/-- The number of steps a program takes when executed alone, including the final one. -/
def Act.cost : Act α β → Common α → Nat
  | .ret _, _ => 1
  | .fault _, _ => 0
  | .load c k, m => match m.sh.load c with
    | .ok v => 1 + (k v).cost m
    | .error _ => 0
  | .store c x k, m => match m.sh.store c x with
    | .ok sh => 1 + k.cost ⟨sh, m.out⟩
    | .error _ => 0
  | .print l k, m => 1 + k.cost ⟨m.sh, m.out ++ [l]⟩
  | .lock k, m => 1 + k.cost m
  | .unlock k, m => 1 + k.cost m

theorem cost_congr {b : Nat} {P : β → Prop} {a : Act α β} (ha : a.WithinP b P) {m m' : Common α}
    (h : Agree b m m') : a.cost m = a.cost m' := by
  induction a generalizing m m' with
  | ret y => rfl
  | fault e => rfl
  | load c k ih =>
    simp only [Act.cost, h.load ha.1]
    cases m'.sh.load c with
    | error e => rfl
    | ok v => simp only [ih v (ha.2 v) h]
  | store c y k ih =>
    simp only [Act.cost]
    by_cases hh : m.sh.Has c
    · rw [Shared.store_ok hh, Shared.store_ok (h.has hh)]
      simp only [ih ha.2 (h.after c y)]
    · rw [Shared.store_bad hh, Shared.store_bad fun hh' => hh (h.symm.has hh')]
  | print l k ih => simp only [Act.cost, ih ha.2 (h.print l)]
  | lock k ih => simp only [Act.cost, ih ha h]
  | unlock k ih => simp only [Act.cost, ih ha h]

theorem cost_pos {a : Act α β} {m : Common α} {r : β × Common α} (h : a.exec m = .ok r) :
    0 < a.cost m := by
  cases a with
  | ret y => exact Nat.one_pos
  | fault e => cases h
  | load c k =>
    obtain ⟨v, h1, -⟩ := bind_ok h
    simp only [Act.cost, h1]; omega
  | store c y k =>
    obtain ⟨v, h1, -⟩ := bind_ok h
    simp only [Act.cost, h1]; omega
  | print l k => simp only [Act.cost]; omega
  | lock k => simp only [Act.cost]; omega
  | unlock k => simp only [Act.cost]; omega

/-- Memories that agree on every column are equal, up to the order of the lines. -/
theorem agree_all {m m' : Common α} (h : ∀ b, Agree b m m') : m.sh = m'.sh ∧ m.out.Perm m'.out := by
  constructor
  · funext w
    have e1 := (h 0).rows w
    have e2 := (h 0).cols w
    have e3 : (m.sh w).data = (m'.sh w).data := by
      apply Array.ext_getElem?
      intro k
      exact (h (k / (m.sh w).rows)).cells w k rfl
    cases hA : m.sh w; cases hB : m'.sh w
    rw [hA, hB] at e1 e2 e3
    simp only at e1 e2 e3
    subst e1 e2 e3
    rfl
  · classical
    rw [List.perm_iff_count]
    intro l
    have e := (h l.js_b).out
    have c1 := List.count_filter (l := m.out) (p := fun x => x.js_b == l.js_b) (a := l) (by simp)
    have c2 := List.count_filter (l := m'.out) (p := fun x => x.js_b == l.js_b) (a := l) (by simp)
    rw [← c1, ← c2, e]

end Booz
