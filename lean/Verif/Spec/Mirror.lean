import Verif.Spec.Scale
import Verif.Spec.Theory

/-!
# The direction of the toroidal angle, and the sign of the field
-/

namespace Booz.Spec

/-- The array with every (initialised) entry negated. -/
def negate {β : Type} [Neg β] (v : Vec β) : Vec β := v.map (Option.map (- ·))

/-- The equilibrium described with the toroidal angle -ζ: the toroidal mode numbers, the rotational transform and the
covariant toroidal component of the field change sign. (ζ is also the geometric toroidal angle: in the usual cylindrical
coordinates this is the mirror image of the equilibrium.) -/
def mirror (s : St ℝ) : St ℝ :=
  let I := s.inp
  { s with inp := { I with
      xn := negate I.xn, xn_nyq := negate I.xn_nyq, iota := negate I.iota
      bsubvmnc := I.bsubvmnc.scale (-1), bsubvmns := I.bsubvmns.scale (-1) } }

/-- The covariant components of the field multiplied by `c`, |B| as it is; with c = -1 the field is reversed. -/
def scaleCov (c : ℝ) (s : St ℝ) : St ℝ :=
  let I := s.inp
  { s with inp := { I with
      bsubumnc := I.bsubumnc.scale c, bsubumns := I.bsubumns.scale c
      bsubvmnc := I.bsubvmnc.scale c, bsubvmns := I.bsubvmns.scale c } }

/-- Entry (k, b) of `A'` is `c` times entry (k', b) of `A`; both are initialised. -/
def EntryIs (c : ℝ) (k b : ℕ) (A' : Mat ℝ) (k' : ℕ) (A : Mat ℝ) : Prop :=
  ∃ x, A.rdN k' b = .ok x ∧ A'.rdN k b = .ok (c * x)

/-- Row `k` of the outputs `o'`, compared with row `k'` of `o`: cosine harmonics are multiplied by 1, sine harmonics by `τ`,
those of ν by another `v`, those of the Jacobian by another `g`. -/
structure RowIs (asym : Bool) (τ v g : ℝ) (b k : ℕ) (o' : Spectra ℝ) (k' : ℕ) (o : Spectra ℝ) : Prop where
  bmnc : EntryIs 1 k b o'.bmnc_b k' o.bmnc_b
  rmnc : EntryIs 1 k b o'.rmnc_b k' o.rmnc_b
  zmns : EntryIs τ k b o'.zmns_b k' o.zmns_b
  numns : EntryIs (v * τ) k b o'.numns_b k' o.numns_b
  gmnc : EntryIs g k b o'.gmnc_b k' o.gmnc_b
  bmns : asym = true → EntryIs τ k b o'.bmns_b k' o.bmns_b
  rmns : asym = true → EntryIs τ k b o'.rmns_b k' o.rmns_b
  zmnc : asym = true → EntryIs 1 k b o'.zmnc_b k' o.zmnc_b
  numnc : asym = true → EntryIs v k b o'.numnc_b k' o.numnc_b
  gmns : asym = true → EntryIs (g * τ) k b o'.gmns_b k' o.gmns_b

end Booz.Spec
