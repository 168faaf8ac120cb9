import Verif.Spec.Interp
import Verif.Spec.Plots
import Verif.Model.NetCDF

/-!
# Specification: an equilibrium in a `wout` file

The layout of a `wout` file: a matrix of harmonics has dimensions (radius, mode), surfaces of the full grid first.
-/

namespace Booz.Spec

/-- Element `[i][j]` of the variable is the profile of harmonic `j` on surface `i` of the full grid of `ns` surfaces. -/
def FileProfiles (f : NcFile ℝ) (name : String) (ns : ℤ) (K : ℕ) (x : ℕ → ℝ → ℝ) : Prop :=
  ∃ v d, f.var? name = some v ∧ v.data = .dbls d ∧
    ∀ j < K, ∀ i : ℕ, (i : ℤ) < ns → d[i * K + j]? = some (some (x j ((i : ℝ) / ((ns : ℝ) - 1))))

/-- The file holds the shape. -/
structure FluxShape.InFile (P : FluxShape) (f : NcFile ℝ) (ns : ℤ) (K : ℕ) (asym : Bool) : Prop where
  rc : FileProfiles f "rmnc" ns K P.rc
  zs : FileProfiles f "zmns" ns K P.zs
  rs : asym = true → FileProfiles f "rmns" ns K P.rs
  zc : asym = true → FileProfiles f "zmnc" ns K P.zc

/-- The point of surface `s` of the equilibrium at the angles θ, ζ. -/
noncomputable def FluxShape.point (P : FluxShape) (I : Inputs ℝ) (asym : Bool) (s θ ζ : ℝ) : ℝ × ℝ × ℝ :=
  cartesian (P.R I asym s θ ζ) ζ (P.Z I asym s θ ζ)

end Booz.Spec
