import Verif.Spec.Wout

/-!
# Specification: values read from a file, and values left over
-/

namespace Booz.Spec

/-- The values `src` of a variable in a file were stored in an array that held `old` before and holds `new`
afterwards: cells beyond the values of the variable are left as they were. -/
structure StoredOver {β : Type} (src old new : Vec β) : Prop where
  size : new.size = old.size
  fits : src.size ≤ old.size
  fresh : ∀ i < src.size, new[i]? = src[i]?
  kept : ∀ i, src.size ≤ i → new[i]? = old[i]?

variable {α : Type} [Arith α]

/-- The integer variable `name` of the file was stored in an array. -/
def IntsFrom (f : NcFile α) (name : String) (old new : Vec Int) : Prop :=
  ∃ v a, f.var? name = some v ∧ ncInts v = some a ∧ StoredOver a old new

/-- The floating-point variable `name` of the file was stored in an array. -/
def DblsFrom (f : NcFile α) (name : String) (old new : Vec α) : Prop :=
  ∃ v a, f.var? name = some v ∧ ncDbls v = some a ∧ StoredOver a old new

/-- What an array holds after it has been given a size: its contents if it had this size, otherwise nothing
determinate. -/
def resized {β : Type} (v : Vec β) (n : Nat) : Vec β := if v.size = n then v else Array.replicate n none

/-- The scalars and mode lists of `new`, each as read from the file over those of `old`. -/
structure ReadOver (f : NcFile α) (old new : Inputs α) (k q : Nat) : Prop where
  nfp : IntsFrom f "nfp" #[old.nfp] #[new.nfp]
  mpol : IntsFrom f "mpol" #[old.mpol] #[new.mpol]
  ntor : IntsFrom f "ntor" #[old.ntor] #[new.ntor]
  mnmax : IntsFrom f "mnmax" #[old.mnmax] #[new.mnmax]
  mnmax_nyq : IntsFrom f "mnmax_nyq" #[old.mnmax_nyq] #[new.mnmax_nyq]
  aspect : DblsFrom f "aspect" #[old.aspect] #[new.aspect]
  xm : IntsFrom f "xm" (resized old.xm k) new.xm
  xn : IntsFrom f "xn" (resized old.xn k) new.xn
  xm_nyq : IntsFrom f "xm_nyq" (resized old.xm_nyq q) new.xm_nyq
  xn_nyq : IntsFrom f "xn_nyq" (resized old.xn_nyq q) new.xn_nyq

/-- The array consists of the values of the integer variable `name`, all of them and nothing else. -/
def IntsAre (f : NcFile α) (name : String) (new : Vec Int) : Prop :=
  ∃ v, f.var? name = some v ∧ ncInts v = some new

/-- The array consists of the values of the floating-point variable `name`. -/
def DblsAre (f : NcFile α) (name : String) (new : Vec α) : Prop :=
  ∃ v, f.var? name = some v ∧ ncDbls v = some new

/-- The scalars and mode lists are those of the file. -/
structure FromFile (f : NcFile α) (I : Inputs α) : Prop where
  nfp : IntsAre f "nfp" #[I.nfp]
  mpol : IntsAre f "mpol" #[I.mpol]
  ntor : IntsAre f "ntor" #[I.ntor]
  mnmax : IntsAre f "mnmax" #[I.mnmax]
  mnmax_nyq : IntsAre f "mnmax_nyq" #[I.mnmax_nyq]
  aspect : DblsAre f "aspect" #[I.aspect]
  xm : IntsAre f "xm" I.xm
  xn : IntsAre f "xn" I.xn
  xm_nyq : IntsAre f "xm_nyq" I.xm_nyq
  xn_nyq : IntsAre f "xn_nyq" I.xn_nyq

/-- The two files have the same variables, with the same contents, apart from the one named. -/
def AgreeBut (name : String) (f g : NcFile α) : Prop := ∀ m, m ≠ name → f.var? m = g.var? m

end Booz.Spec
