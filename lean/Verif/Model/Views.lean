import Verif.Model.Session

/-!
# Arrays taken from attributes (`/repo/src/_booz_xform/bindings.cpp:145-393`)

The array members are exposed with `def_readwrite` and `def_readonly`.  pybind11 gives such an
attribute the policy `reference_internal`: reading `b.bmnc_b` makes a numpy array that refers to the
storage of the Eigen array, without a copy.  Eigen gives an array new storage exactly when
its number of elements changes (`resize`, `setZero(n)`, assignment of another array); otherwise it
writes into the storage it has.  No member function changes the number of elements of one array
twice, so the numbers before and after a call decide.  pybind11 and Eigen are not in `/repo`; this
file states what is assumed of them.
-/

namespace Booz
variable {α : Type} [Arith α]

/-- The array attributes, `bindings.cpp:145-163, 171-261, 273` (inputs) and `298, 305-393`
(outputs). -/
inductive Attr
  | xm | xn | xm_nyq | xn_nyq | s_in | iota | phi | chi | phip | pres
  | rmnc | rmns | zmnc | zmns | lmnc | lmns | bmnc | bmns | bsubumnc | bsubumns | bsubvmnc | bsubvmns
  | compute_surfs
  | s_b | xm_b | xn_b
  | bmnc_b | bmns_b | gmnc_b | gmns_b | rmnc_b | rmns_b | zmnc_b | zmns_b | numnc_b | numns_b
  | Boozer_G | Boozer_G_all | Boozer_I | Boozer_I_all
  deriving DecidableEq

/-- The attributes exposed with `def_readonly`, `bindings.cpp:298, 305-393`. -/
def Attr.isOutput : Attr → Bool
  | .s_b | .xm_b | .xn_b | .bmnc_b | .bmns_b | .gmnc_b | .gmns_b | .rmnc_b | .rmns_b | .zmnc_b
  | .zmns_b | .numnc_b | .numns_b | .Boozer_G | .Boozer_G_all | .Boozer_I | .Boozer_I_all => true
  | _ => false

/-- What an element of an array holds: nothing determinate, a floating-point number, or an integer
(`Vector`, `Matrix`, `IntVector`, `vector_matrix.hpp:13-16`). -/
abbrev Elem (α : Type) := Option (α ⊕ Int)

/-- Shape and storage (column-major) of an array. `vector_matrix.hpp:10-12`. -/
structure Block (α : Type) where
  rows : Nat
  cols : Nat
  cells : Array (Elem α)

/-- A `Matrix`. `vector_matrix.hpp:12`. -/
def Block.mat (a : Mat α) : Block α := ⟨a.rows, a.cols, a.data.map (Option.map Sum.inl)⟩
/-- A `Vector`. `vector_matrix.hpp:10`. -/
def Block.vec (v : Vec α) : Block α := ⟨v.size, 1, v.map (Option.map Sum.inl)⟩
/-- An `IntVector`. `vector_matrix.hpp:11`. -/
def Block.ints (v : Vec Int) : Block α := ⟨v.size, 1, v.map (Option.map Sum.inr)⟩

/-- The member behind an attribute, `bindings.cpp:145-393`. -/
def Attr.block (s : St α) : Attr → Block α
  | .xm => .ints s.inp.xm | .xn => .ints s.inp.xn
  | .xm_nyq => .ints s.inp.xm_nyq | .xn_nyq => .ints s.inp.xn_nyq
  | .s_in => .vec s.inp.s_in | .iota => .vec s.inp.iota
  | .phi => .vec s.flux.phi | .chi => .vec s.flux.chi
  | .phip => .vec s.flux.phip | .pres => .vec s.flux.pres
  | .rmnc => .mat s.inp.rmnc | .rmns => .mat s.inp.rmns
  | .zmnc => .mat s.inp.zmnc | .zmns => .mat s.inp.zmns
  | .lmnc => .mat s.inp.lmnc | .lmns => .mat s.inp.lmns
  | .bmnc => .mat s.inp.bmnc | .bmns => .mat s.inp.bmns
  | .bsubumnc => .mat s.inp.bsubumnc | .bsubumns => .mat s.inp.bsubumns
  | .bsubvmnc => .mat s.inp.bsubvmnc | .bsubvmns => .mat s.inp.bsubvmns
  | .compute_surfs => .ints s.inp.compute_surfs
  | .s_b => .vec s.out.s_b | .xm_b => .ints s.out.xm_b | .xn_b => .ints s.out.xn_b
  | .bmnc_b => .mat s.out.spec.bmnc_b | .bmns_b => .mat s.out.spec.bmns_b
  | .gmnc_b => .mat s.out.spec.gmnc_b | .gmns_b => .mat s.out.spec.gmns_b
  | .rmnc_b => .mat s.out.spec.rmnc_b | .rmns_b => .mat s.out.spec.rmns_b
  | .zmnc_b => .mat s.out.spec.zmnc_b | .zmns_b => .mat s.out.spec.zmns_b
  | .numnc_b => .mat s.out.spec.numnc_b | .numns_b => .mat s.out.spec.numns_b
  | .Boozer_G => .vec s.out.boozer_G | .Boozer_G_all => .vec s.out.boozer_G_all
  | .Boozer_I => .vec s.out.boozer_I | .Boozer_I_all => .vec s.out.boozer_I_all

/-- The number of elements of an attribute. `bindings.cpp:145-396`. -/
def Attr.count (s : St α) (a : Attr) : Nat := (a.block s).cells.size

/-- A session together with how often each array got new storage. `bindings.cpp:14-396`. -/
structure VSess (α : Type) where
  sess : Sess α
  gen : Attr → Nat

/-- After a call: arrays whose number of elements changed have new storage.
`setZero`, `resize` and assignments to the members exposed at `bindings.cpp:145-396`. -/
def VSess.moved (w : VSess α) (t : Sess α) : VSess α where
  sess := t
  gen a := if a.count t.obj = a.count w.sess.obj then w.gen a else w.gen a + 1

/-- A call (`perform`) with its effect on storage. `bindings.cpp:14-396`. -/
def VSess.step (c : Call) : Prog (VSess α) Unit := fun w =>
  match perform c w.sess with
  | .ok _ t => .ok () (w.moved t)
  | .exc m t => .exc m (w.moved t)
  | .abort x => .abort x
  | .ub x => .ub x

/-- A numpy array obtained from an attribute: which storage it refers to, and the shape at the time
it was taken.
What reading an attribute declared with `def_readwrite` or `def_readonly` returns, `bindings.cpp:145-396`. -/
structure View where
  attr : Attr
  gen : Nat
  rows : Nat
  cols : Nat

/-- `v = b.attr`, `bindings.cpp:145-393`. -/
def VSess.take (w : VSess α) (a : Attr) : View :=
  ⟨a, w.gen a, (a.block w.sess.obj).rows, (a.block w.sess.obj).cols⟩

/-- `v[i, j]` (`v[i]` with `j = 0` for a 1D array).  Using storage that was freed is undefined
behaviour. `bindings.cpp:145-396`. -/
def View.item (w : VSess α) (v : View) (i j : Nat) : Res (Elem α) :=
  if i < v.rows ∧ j < v.cols then
    if w.gen v.attr = v.gen then
      match (v.attr.block w.sess.obj).cells[i + v.rows * j]? with
      | some c => .ok c
      | none => ub "array element out of range"
    else ub "storage of the array was freed"
  else .error (.throw "index out of range")

end Booz
