import Verif.Spec.Attributes
import Verif.Spec.Theory
import Verif.Model.AttrViews

/-!
# What reading an array attribute shows

Stated with the names of the attributes; nothing is said about the members behind them.
-/

namespace Booz.Spec
variable {α : Type}

/-- Reading the attribute now gives a 1D array with the elements of `v`. -/
def ShowsVec (w : VSess α) (a : Attr) (v : Vec α) : Prop :=
  (w.take a).rows = v.size ∧ (w.take a).cols = 1 ∧
    ∀ i x, v.rdN i = .ok x → (w.take a).item w i 0 = .ok (some (.inl x))

/-- Reading the attribute now gives a 2D array with the elements of `m`. -/
def ShowsMat (w : VSess α) (a : Attr) (m : Mat α) : Prop :=
  (w.take a).rows = m.rows ∧ (w.take a).cols = m.cols ∧
    ∀ i j x, m.rdN i j = .ok x → (w.take a).item w i j = .ok (some (.inl x))

/-- Reading the attribute now gives a 1D array with the integers of `l`, as far as they fit in an
`int`. -/
def ShowsInts (w : VSess α) (a : Attr) (l : List Int) : Prop :=
  (w.take a).rows = l.length ∧ (w.take a).cols = 1 ∧
    ∀ i x, l[i]? = some x → FitsInt x → (w.take a).item w i 0 = .ok (some (.inr x))

/-- The array attribute that an assignment is about, if it is about an array. -/
def arrayOf : Setting α → Option Attr
  | .xm _ => some .xm | .xn _ => some .xn | .xm_nyq _ => some .xm_nyq | .xn_nyq _ => some .xn_nyq
  | .s_in _ => some .s_in | .iota _ => some .iota
  | .phi _ => some .phi | .chi _ => some .chi | .phip _ => some .phip | .pres _ => some .pres
  | .rmnc _ => some .rmnc | .rmns _ => some .rmns | .zmnc _ => some .zmnc | .zmns _ => some .zmns
  | .lmnc _ => some .lmnc | .lmns _ => some .lmns | .bmnc _ => some .bmnc | .bmns _ => some .bmns
  | .bsubumnc _ => some .bsubumnc | .bsubumns _ => some .bsubumns
  | .bsubvmnc _ => some .bsubvmnc | .bsubvmns _ => some .bsubvmns
  | .compute_surfs _ => some .compute_surfs
  | _ => none

/-- The attribute just assigned shows the value it was given (arrays only). -/
def ShowsValue (w : VSess α) : Setting α → Prop
  | .xm l => ShowsInts w .xm l | .xn l => ShowsInts w .xn l
  | .xm_nyq l => ShowsInts w .xm_nyq l | .xn_nyq l => ShowsInts w .xn_nyq l
  | .s_in v => ShowsVec w .s_in v | .iota v => ShowsVec w .iota v
  | .phi v => ShowsVec w .phi v | .chi v => ShowsVec w .chi v
  | .phip v => ShowsVec w .phip v | .pres v => ShowsVec w .pres v
  | .rmnc m => ShowsMat w .rmnc m | .rmns m => ShowsMat w .rmns m
  | .zmnc m => ShowsMat w .zmnc m | .zmns m => ShowsMat w .zmns m
  | .lmnc m => ShowsMat w .lmnc m | .lmns m => ShowsMat w .lmns m
  | .bmnc m => ShowsMat w .bmnc m | .bmns m => ShowsMat w .bmns m
  | .bsubumnc m => ShowsMat w .bsubumnc m | .bsubumns m => ShowsMat w .bsubumns m
  | .bsubvmnc m => ShowsMat w .bsubvmnc m | .bsubvmns m => ShowsMat w .bsubvmns m
  | .compute_surfs l => ShowsInts w .compute_surfs l
  | _ => True

/-- Two states show the same array for an attribute: shape, and every element or the way reading it
fails. -/
def ShowsSame (w w' : VSess α) (a : Attr) : Prop :=
  (w'.take a).rows = (w.take a).rows ∧ (w'.take a).cols = (w.take a).cols ∧
    ∀ i j, (w'.take a).item w' i j = (w.take a).item w i j

/-- `b.name[k, j]` read now is the number `x`. -/
def Reads (w : VSess α) (a : Attr) (k j : ℕ) (x : α) : Prop :=
  (w.take a).item w k j = .ok (some (.inl x))

/-- Column `b` of the output attributes is the Boozer spectrum of the surface `S` in the quadrature
approximation, element `b` of the profiles is its flux label and its two flux functions; the mode numbers are those that
`xm_b` and `xn_b` show. -/
def ShowsSpectrum (w : VSess ℝ) (S : Surface) (asym : Bool) (M N nfp b : ℕ) (flux : ℝ) : Prop :=
  let C := S.quadCos (ntheta M) (nzeta N) nfp
  let D := S.quadSin (ntheta M) (nzeta N) nfp
  Reads w .s_b b 0 flux ∧ Reads w .Boozer_I b 0 S.I ∧ Reads w .Boozer_G b 0 S.G ∧
  ∀ k < (w.take .xm_b).rows, ∃ m n : ℤ,
    (w.take .xm_b).item w k 0 = .ok (some (.inr m)) ∧ (w.take .xn_b).item w k 0 = .ok (some (.inr n)) ∧
    Reads w .bmnc_b k b (C S.B m n) ∧ Reads w .rmnc_b k b (C S.R m n) ∧
    Reads w .zmns_b k b (D S.Z m n) ∧ Reads w .numns_b k b (D S.nu m n) ∧
    Reads w .gmnc_b k b (C S.jacobian m n) ∧
    (asym = true →
      Reads w .bmns_b k b (D S.B m n) ∧ Reads w .rmns_b k b (D S.R m n) ∧
      Reads w .zmnc_b k b (C S.Z m n) ∧ Reads w .numnc_b k b (C S.nu m n) ∧
      Reads w .gmns_b k b (D S.jacobian m n))

end Booz.Spec
