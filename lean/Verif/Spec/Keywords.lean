import Verif.Model.Keywords

/-!
# Specification: what a call of `init_from_vmec` supplies
-/

namespace Booz.Spec
variable {α : Type} [Arith α]

/-- The parameters named in the documentation of `init_from_vmec`, `bindings.cpp:38-67`. -/
def documentedNames : List String :=
  ["ns", "iotas", "rmnc0", "rmns0", "zmnc0", "zmns0", "lmnc0", "lmns0", "bmnc0", "bmns0", "bsubumnc0", "bsubumns0",
    "bsubvmnc0", "bsubvmns0", "phip", "chi", "pres", "phi"]

/-- Those documented as "need not be specified" for stellarator-symmetric configurations. -/
def documentedOptional : List String := ["rmns0", "zmnc0", "lmnc0", "bmns0", "bsubumns0", "bsubvmns0"]

/-- The names that work. -/
def workingNames : List String :=
  ["ns", "iotas", "rmnc0", "rmns0", "zmnc0", "zmns0", "lmnc0", "lmns0", "bmnc0", "bmns0", "bsubumnc0", "bsubumns0",
    "bsubvmnc0", "bsubvmns0", "phips", "chi", "pres", "phi"]

/-- The argument that a call supplies for the parameter number `i`: by position or by name. -/
def supplied {β : Type} (pos : List β) (kw : List (String × β)) (i : Nat) : Option β :=
  if i < pos.length then pos[i]? else (workingNames[i]?).bind fun k => kw.lookup k

/-- A call whose arguments can be matched: no more positional arguments than parameters, every keyword is a name that
works and does not belong to a parameter given by position, and the first fourteen parameters are all supplied. -/
structure Matches {β : Type} (pos : List β) (kw : List (String × β)) : Prop where
  few : pos.length ≤ 18
  known : ∀ k ∈ kw.map Prod.fst, ∃ i, pos.length ≤ i ∧ workingNames[i]? = some k
  needed : ∀ i < 14, (supplied pos kw i).isSome

/-- The value is a number that a C++ `int` can hold. -/
inductive IsInt : PyArg α → Int → Prop
  | number {x : Int} (lo : -2147483648 ≤ x) (hi : x ≤ 2147483647) : IsInt (.int x) x

/-- The value is an array of rank one with these elements, or of rank two with one column. -/
inductive IsVec : PyArg α → Vec α → Prop
  | array (v : Vec α) : IsVec (.vec v) v
  | column {a : Mat α} (h : a.cols = 1) : IsVec (.mat a) a.data

/-- The value is an array of rank two, or of rank one and then understood as one column. -/
inductive IsMat : PyArg α → Mat α → Prop
  | array (a : Mat α) : IsMat (.mat a) a
  | column (v : Vec α) : IsMat (.vec v) { rows := v.size, cols := 1, data := v }

/-- The vector argument number `i` is `v`. -/
def VecArg (pos : List (PyArg α)) (kw : List (String × PyArg α)) (i : Nat) (v : Vec α) : Prop :=
  ∃ x, supplied pos kw i = some x ∧ IsVec x v

/-- The vector argument number `i` is `v`, or it is not supplied and `v` is empty. -/
def ProfileArg (pos : List (PyArg α)) (kw : List (String × PyArg α)) (i : Nat) (v : Vec α) : Prop :=
  VecArg pos kw i v ∨ (supplied pos kw i = none ∧ v = #[])

/-- The matrix argument number `i` is `a`. -/
def MatArg (pos : List (PyArg α)) (kw : List (String × PyArg α)) (i : Nat) (a : Mat α) : Prop :=
  ∃ x, supplied pos kw i = some x ∧ IsMat x a

/-- The call supplies these arguments of the C++ function `init_from_vmec`. -/
structure Gives (pos : List (PyArg α)) (kw : List (String × PyArg α)) (ns : Int) (A : VmecArgs α) : Prop where
  ns : ∃ x, supplied pos kw 0 = some x ∧ IsInt x ns
  iotas : VecArg pos kw 1 A.iotas
  rmnc : MatArg pos kw 2 A.rmnc
  rmns : MatArg pos kw 3 A.rmns
  zmnc : MatArg pos kw 4 A.zmnc
  zmns : MatArg pos kw 5 A.zmns
  lmnc : MatArg pos kw 6 A.lmnc
  lmns : MatArg pos kw 7 A.lmns
  bmnc : MatArg pos kw 8 A.bmnc
  bmns : MatArg pos kw 9 A.bmns
  bsubumnc : MatArg pos kw 10 A.bsubumnc
  bsubumns : MatArg pos kw 11 A.bsubumns
  bsubvmnc : MatArg pos kw 12 A.bsubvmnc
  bsubvmns : MatArg pos kw 13 A.bsubvmns
  phip : ProfileArg pos kw 14 A.phip
  chi : ProfileArg pos kw 15 A.chi
  pres : ProfileArg pos kw 16 A.pres
  phi : ProfileArg pos kw 17 A.phi

end Booz.Spec
