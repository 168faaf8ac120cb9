import Verif.Model.Cli

/-!
# Calling `init_from_vmec` from Python (`/repo/src/_booz_xform/bindings.cpp:30-85`)

pybind11 matches the arguments of a call with the declared parameters (`cpp_function::dispatcher` of its
`pybind11.h`) and converts them to the C++ types; if that is not possible it raises `TypeError`.
-/

namespace Booz
variable {α : Type} [Arith α]

/-- An argument of a Python call to `init_from_vmec`, `bindings.cpp:30`.  Simplified: a number, or an array with one
or two axes; other values are not considered, they are rejected by pybind11. -/
inductive PyArg (α : Type) where
  | int (x : Int)
  | vec (v : Vec α)
  | mat (a : Mat α)

/-- Conversion to `int`, for `ns`, `bindings.cpp:68`; a number that does not fit is rejected. -/
def PyArg.asInt : PyArg α → Option Int
  | .int x => if FitsInt x then some x else none
  | _ => none

/-- Conversion to `Vector`, for `bindings.cpp:69,82-85`: an array with one axis, or with two axes and one column. -/
def PyArg.asVec : PyArg α → Option (Vec α)
  | .int _ => none
  | .vec v => some v
  | .mat a => if a.cols = 1 then some a.data else none

/-- Conversion to `Matrix`, for `bindings.cpp:70-81`: an array with one axis becomes one column. -/
def PyArg.asMat : PyArg α → Option (Mat α)
  | .int _ => none
  | .vec v => some ⟨v.size, 1, v⟩
  | .mat a => some a

/-- The declared parameters and their default values, `bindings.cpp:68-85`. -/
def vmecParams : List (String × Option (PyArg α)) :=
  [("ns", none), ("iotas", none), ("rmnc0", none), ("rmns0", none), ("zmnc0", none), ("zmns0", none),
    ("lmnc0", none), ("lmns0", none), ("bmnc0", none), ("bmns0", none), ("bsubumnc0", none), ("bsubumns0", none),
    ("bsubvmnc0", none), ("bsubvmns0", none),
    ("phips", some (.vec #[])), ("chi", some (.vec #[])), ("pres", some (.vec #[])), ("phi", some (.vec #[]))]

/-- Matching positional and keyword arguments with the parameters, as for `bindings.cpp:68-85`: a parameter takes the
next positional argument (then it must not be named as well), else the keyword argument of its name, else its default
value.  All arguments must have been used. -/
def bindArgs {β : Type} : List (String × Option β) → List β → List (String × β) → Option (List β)
  | [], [], [] => some []
  | [], _, _ => none
  | p :: ps, x :: pos, kw =>
    if (kw.lookup p.1).isSome then none else (bindArgs ps pos kw).map (x :: ·)
  | p :: ps, [], kw =>
    match kw.lookup p.1 with
    | some x => (bindArgs ps [] (kw.filter fun q => q.1 ≠ p.1)).map (x :: ·)
    | none =>
      match p.2 with
      | some x => (bindArgs ps [] kw).map (x :: ·)
      | none => none

/-- Converting the matched arguments, `bindings.cpp:30`, to those of `booz_xform.hpp:436-453`. -/
def toVmecArgs : List (PyArg α) → Option (Int × VmecArgs α)
  | [ns, iotas, rmnc, rmns, zmnc, zmns, lmnc, lmns, bmnc, bmns, bsubumnc, bsubumns, bsubvmnc, bsubvmns,
      phip, chi, pres, phi] => do
    let ns ← ns.asInt
    let iotas ← iotas.asVec
    let rmnc ← rmnc.asMat
    let rmns ← rmns.asMat
    let zmnc ← zmnc.asMat
    let zmns ← zmns.asMat
    let lmnc ← lmnc.asMat
    let lmns ← lmns.asMat
    let bmnc ← bmnc.asMat
    let bmns ← bmns.asMat
    let bsubumnc ← bsubumnc.asMat
    let bsubumns ← bsubumns.asMat
    let bsubvmnc ← bsubvmnc.asMat
    let bsubvmns ← bsubvmns.asMat
    let phip ← phip.asVec
    let chi ← chi.asVec
    let pres ← pres.asVec
    let phi ← phi.asVec
    some (ns, ⟨iotas, rmnc, rmns, zmnc, zmns, lmnc, lmns, bmnc, bmns, bsubumnc, bsubumns, bsubvmnc, bsubvmns, phip, chi,
      pres, phi⟩)
  | _ => none

/-- The exception of a call that does not match `bindings.cpp:30-85`; pybind11's text is longer. -/
def typeError : String := "init_from_vmec(): incompatible function arguments."

/-- `b.init_from_vmec(*pos, **kw)`, `bindings.cpp:30-85`. -/
def pyInitFromVmec (pos : List (PyArg α)) (kw : List (String × PyArg α)) : Prog (St α) Unit :=
  match (bindArgs vmecParams pos kw).bind toVmecArgs with
  | some q => initFromVmec q.1 q.2
  | none => Prog.lift (thrown typeError)

end Booz
