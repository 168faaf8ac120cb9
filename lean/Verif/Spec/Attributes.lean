import Verif.Model.Attributes
import Verif.Spec.Ready

/-!
# What it means to copy the input attributes of an object

Stated with the names of the attributes and the members of the objects only.
-/

namespace Booz.Spec
variable {α : Type}

/-- The input attributes of the Python class. -/
inductive InName
  | verbose | asym | nfp | mpol | ntor | mnmax | mpol_nyq | ntor_nyq | mnmax_nyq
  | xm | xn | xm_nyq | xn_nyq | ns_in | s_in | iota | phi | chi | phip | pres
  | rmnc | rmns | zmnc | zmns | lmnc | lmns | bmnc | bmns | bsubumnc | bsubumns | bsubvmnc | bsubvmns
  | mboz | nboz | compute_surfs | aspect | toroidal_flux
  deriving DecidableEq

/-- The attributes that the documentation says are not used by the transformation, or not for
configurations with stellarator symmetry. -/
def InName.Optional (asym : Bool) : InName → Prop
  | .verbose | .aspect | .toroidal_flux | .phi | .chi | .phip | .pres => True
  | .rmns | .zmnc | .lmnc | .bmns | .bsubumns | .bsubvmns => asym = false
  | _ => False

/-- The attribute an assignment is about. -/
def nameOf : Setting α → InName
  | .verbose _ => .verbose | .asym _ => .asym | .nfp _ => .nfp | .mpol _ => .mpol | .ntor _ => .ntor
  | .mnmax _ => .mnmax | .mpol_nyq _ => .mpol_nyq | .ntor_nyq _ => .ntor_nyq
  | .mnmax_nyq _ => .mnmax_nyq | .xm _ => .xm | .xn _ => .xn | .xm_nyq _ => .xm_nyq
  | .xn_nyq _ => .xn_nyq | .ns_in _ => .ns_in | .s_in _ => .s_in | .iota _ => .iota | .phi _ => .phi
  | .chi _ => .chi | .phip _ => .phip | .pres _ => .pres | .rmnc _ => .rmnc | .rmns _ => .rmns
  | .zmnc _ => .zmnc | .zmns _ => .zmns | .lmnc _ => .lmnc | .lmns _ => .lmns | .bmnc _ => .bmnc
  | .bmns _ => .bmns | .bsubumnc _ => .bsubumnc | .bsubumns _ => .bsubumns
  | .bsubvmnc _ => .bsubvmnc | .bsubvmns _ => .bsubvmns | .mboz _ => .mboz | .nboz _ => .nboz
  | .compute_surfs _ => .compute_surfs | .aspect _ => .aspect | .toroidal_flux _ => .toroidal_flux

/-- An integer member holds `x`, which fits in an `int`. -/
def HoldsI (m : Option Int) (x : Int) : Prop := m = some x ∧ FitsInt x

/-- An integer vector has these elements, which fit in an `int`. -/
def HoldsL (v : Vec Int) (l : List Int) : Prop := v = (l.map some).toArray ∧ ∀ x ∈ l, FitsInt x

/-- The assignment gives an attribute the value that object `a` has. -/
def Copies (a : St α) : Setting α → Prop
  | .verbose x => HoldsI (some a.inp.verbose) x
  | .asym x => a.inp.asym = some x
  | .nfp x => HoldsI a.inp.nfp x
  | .mpol x => HoldsI a.inp.mpol x
  | .ntor x => HoldsI a.inp.ntor x
  | .mnmax x => HoldsI a.inp.mnmax x
  | .mpol_nyq x => HoldsI a.inp.mpol_nyq x
  | .ntor_nyq x => HoldsI a.inp.ntor_nyq x
  | .mnmax_nyq x => HoldsI a.inp.mnmax_nyq x
  | .xm l => HoldsL a.inp.xm l
  | .xn l => HoldsL a.inp.xn l
  | .xm_nyq l => HoldsL a.inp.xm_nyq l
  | .xn_nyq l => HoldsL a.inp.xn_nyq l
  | .ns_in x => HoldsI a.inp.ns_in x
  | .s_in v => a.inp.s_in = v
  | .iota v => a.inp.iota = v
  | .phi v => a.flux.phi = v
  | .chi v => a.flux.chi = v
  | .phip v => a.flux.phip = v
  | .pres v => a.flux.pres = v
  | .rmnc m => a.inp.rmnc = m
  | .rmns m => a.inp.rmns = m
  | .zmnc m => a.inp.zmnc = m
  | .zmns m => a.inp.zmns = m
  | .lmnc m => a.inp.lmnc = m
  | .lmns m => a.inp.lmns = m
  | .bmnc m => a.inp.bmnc = m
  | .bmns m => a.inp.bmns = m
  | .bsubumnc m => a.inp.bsubumnc = m
  | .bsubumns m => a.inp.bsubumns = m
  | .bsubvmnc m => a.inp.bsubvmnc = m
  | .bsubvmns m => a.inp.bsubvmns = m
  | .mboz x => HoldsI (some a.inp.mboz) x
  | .nboz x => HoldsI (some a.inp.nboz) x
  | .compute_surfs l => HoldsL a.inp.compute_surfs l
  | .aspect x => a.inp.aspect = some x
  | .toroidal_flux x => a.inp.toroidal_flux = some x

/-- A program that copies attributes from `a`: any number of assignments in any order, each with the
value `a` has, among them one for every attribute of `need`. -/
structure CopiesFrom (a : St α) (need : InName → Prop) (l : List (Setting α)) : Prop where
  values : ∀ x ∈ l, Copies a x
  all : ∀ n, need n → ∃ x ∈ l, nameOf x = n

end Booz.Spec
