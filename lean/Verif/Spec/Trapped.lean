import Mathlib.Analysis.SpecialFunctions.Pow.Real
import Verif.Spec.FileSeries
import Verif.Spec.Volume

/-!
# Specification: extremes of |B| on a surface, and the fraction of trapped particles

Users take the largest and smallest value of |B| on a surface, and integrals over the surface which contain them, from the
Fourier series of |B| in the boozmn file.
-/

namespace Booz.Spec

/-- `x` is the largest value of the function, which takes it. -/
def Largest (f : ℝ → ℝ → ℝ) (x : ℝ) : Prop := (∃ t z, f t z = x) ∧ ∀ t z, f t z ≤ x

/-- `x` is the smallest value of the function, which takes it. -/
def Smallest (f : ℝ → ℝ → ℝ) (x : ℝ) : Prop := (∃ t z, f t z = x) ∧ ∀ t z, x ≤ f t z

/-- The mirror ratio. -/
noncomputable def mirrorRatio (largest smallest : ℝ) : ℝ := (largest - smallest) / (largest + smallest)

/-- The function `g` has a largest and a smallest value, which are within `e` of `bmax` and `bmin`, and the mirror ratio formed
from them is correct to first order in `e` too. -/
def ShowsExtremes (g : ℝ → ℝ → ℝ) (bmax bmin e : ℝ) : Prop :=
  ∃ gmax gmin, Largest g gmax ∧ Smallest g gmin ∧ |gmax - bmax| ≤ e ∧ |gmin - bmin| ≤ e ∧
    (2 * e < bmax + bmin →
      |mirrorRatio gmax gmin - mirrorRatio bmax bmin| ≤ 2 * e / (bmax + bmin - 2 * e))

/-- The average over the surface of the function `Φ` of |B|, from |B| as a function `b` of the Boozer angles: the element of
volume is proportional to 1/B² in these angles. -/
noncomputable def boozerAverage (b : ℝ → ℝ → ℝ) (Φ : ℝ → ℝ) : ℝ :=
  (∫ t in (0 : ℝ)..2 * Real.pi, ∫ z in (0 : ℝ)..2 * Real.pi, Φ (b t z) / b t z ^ 2) /
    ∫ t in (0 : ℝ)..2 * Real.pi, ∫ z in (0 : ℝ)..2 * Real.pi, 1 / b t z ^ 2

/-- The effective fraction of trapped particles on a surface where |B| is at most `bmax` and functions of |B| have the
averages `avg`: `1 - (3/4) ⟨B²⟩ ∫ λ dλ / ⟨√(1 - λ B)⟩`, from 0 to 1/bmax. -/
noncomputable def trappedFraction (avg : (ℝ → ℝ) → ℝ) (bmax : ℝ) : ℝ :=
  1 - 3 / 4 * avg (fun x => x ^ 2) * ∫ l in (0 : ℝ)..1 / bmax, l / avg fun x => Real.sqrt (1 - l * x)

/-- The function `g` shows the extremes of |B| to within `e`; and if `e ≤ η`, also the fraction of trapped particles, to
within ε. -/
def ShowsTrapped (g : ℝ → ℝ → ℝ) (bmax bmin : ℝ) (avg : (ℝ → ℝ) → ℝ) (e η ε : ℝ) : Prop :=
  ShowsExtremes g bmax bmin e ∧
    (e ≤ η → ∃ gmax, Largest g gmax ∧ |trappedFraction (boozerAverage g) gmax - trappedFraction avg bmax| ≤ ε)

/-- The average over the surface of the function `Φ` of |B|, from the data of the surface. -/
noncomputable def Surface.strengthAverage (S : Surface) (Φ : ℝ → ℝ) : ℝ :=
  S.average (fun θ ζ => Φ (S.B θ ζ) * S.jacobian θ ζ) / S.average S.jacobian

/-- The harmonics of |B| in place `b` of the outputs are finite, and their series shows the extremes of |B| and the fraction
of trapped particles. -/
def MachineTrapped {α : Type} (fin : α → Prop) (val : α → ℝ) (o : Outputs α) (asym : Bool) (K b : ℕ) (bmax bmin : ℝ)
    (avg : (ℝ → ℝ) → ℝ) (e η ε : ℝ) : Prop :=
  ∃ (m n : ℕ → ℤ) (c s : ℕ → ℝ), (∀ k < K, o.xm_b.rdN k = .ok (m k) ∧ o.xn_b.rdN k = .ok (n k) ∧
      Stores fin val o.spec.bmnc_b k b (c k) ∧ IfAsym asym (Stores fin val o.spec.bmns_b k b) (s k)) ∧
    ShowsTrapped (series K m n c s) bmax bmin avg e η ε

/-- The same for the numbers in place `b` of a `boozmn` file. -/
def FileTrapped {α : Type} (fin : α → Prop) (val : α → ℝ) (f : NcFile α) (asym : Bool) (K b : ℕ) (bmax bmin : ℝ)
    (avg : (ℝ → ℝ) → ℝ) (e η ε : ℝ) : Prop :=
  ∃ (m n : ℕ → ℤ) (c s : ℕ → ℝ), (∀ k < K, FileInt f "ixm_b" k (m k) ∧ FileInt f "ixn_b" k (n k) ∧
      FileNumber fin val f "bmnc_b" K b k (c k) ∧ IfAsym asym (FileNumber fin val f "bmns_b" K b k) (s k)) ∧
    ShowsTrapped (series K m n c s) bmax bmin avg e η ε

end Booz.Spec
