import Verif.Spec.Ready

/-!
# Arrays with more entries than needed

`Covers I J`: the inputs `J` hold everything the inputs `I` hold, at the same places, and possibly
more — more entries, rows or columns, or values in places that are indeterminate in `I`.  The size
members (`mnmax`, `ns_in`, ...) and `compute_surfs` are the same.
-/

namespace Booz.Spec
variable {α : Type}

/-- Every entry of `v` that has a value is in `w`, with that value. -/
def VecCovers {β : Type} (v w : Vec β) : Prop :=
  ∀ (i : Nat) (x : β), v[i]? = some (some x) → w[i]? = some (some x)

/-- The entry in row `i` and column `j` is `x`. -/
def MatAt {β : Type} (a : Mat β) (i j : Nat) (x : β) : Prop :=
  i < a.rows ∧ j < a.cols ∧ a.data[j * a.rows + i]? = some (some x)

/-- Every entry of `a` that has a value is in `b`, in the same row and column, with that value. -/
def MatCovers {β : Type} (a b : Mat β) : Prop := ∀ (i j : Nat) (x : β), MatAt a i j x → MatAt b i j x

/-- The inputs `J` hold everything the inputs `I` hold. -/
structure Covers (I J : Inputs α) : Prop where
  verbose : J.verbose = I.verbose
  asym : J.asym = I.asym
  nfp : J.nfp = I.nfp
  mpol : J.mpol = I.mpol
  ntor : J.ntor = I.ntor
  mnmax : J.mnmax = I.mnmax
  mpol_nyq : J.mpol_nyq = I.mpol_nyq
  ntor_nyq : J.ntor_nyq = I.ntor_nyq
  mnmax_nyq : J.mnmax_nyq = I.mnmax_nyq
  ns_in : J.ns_in = I.ns_in
  mboz : J.mboz = I.mboz
  nboz : J.nboz = I.nboz
  compute_surfs : J.compute_surfs = I.compute_surfs
  xm : VecCovers I.xm J.xm
  xn : VecCovers I.xn J.xn
  xm_nyq : VecCovers I.xm_nyq J.xm_nyq
  xn_nyq : VecCovers I.xn_nyq J.xn_nyq
  s_in : VecCovers I.s_in J.s_in
  iota : VecCovers I.iota J.iota
  rmnc : MatCovers I.rmnc J.rmnc
  rmns : MatCovers I.rmns J.rmns
  zmnc : MatCovers I.zmnc J.zmnc
  zmns : MatCovers I.zmns J.zmns
  lmnc : MatCovers I.lmnc J.lmnc
  lmns : MatCovers I.lmns J.lmns
  bmnc : MatCovers I.bmnc J.bmnc
  bmns : MatCovers I.bmns J.bmns
  bsubumnc : MatCovers I.bsubumnc J.bsubumnc
  bsubumns : MatCovers I.bsubumns J.bsubumns
  bsubvmnc : MatCovers I.bsubvmnc J.bsubvmnc
  bsubvmns : MatCovers I.bsubvmns J.bsubvmns

/-- Inputs with the sizes of the attribute descriptions `bindings.cpp:156-283`: as `RunReady`, except that
`lmns` and (for asymmetric inputs) `lmnc` have `mnmax_nyq` rows (`bindings.cpp:218-230`). -/
structure DocumentedSizes (I : Inputs α) (d : Dims) : Prop where
  others : ∃ lmnc lmns, RunReady { I with lmnc := lmnc, lmns := lmns } d
  lmns : I.lmns.Full d.mnq d.ns
  lmnc : d.asym = true → I.lmnc.Full d.mnq d.ns

end Booz.Spec
