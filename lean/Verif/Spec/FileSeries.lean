import Verif.Spec.FileSpectrum
import Verif.Spec.Plots
import Verif.Spec.Resolution

/-!
# Specification: functions and positions rebuilt from the numbers which a machine stores

The numbers which a machine stores are finite and have values; the sums over the modes are formed exactly.
-/

namespace Booz.Spec

/-- Some numbers for the places `k < K` (which satisfy `cosN k` and `sinN k`) are the coefficients of a Fourier series in
the modes `m`, `n` which, taken at the Boozer angles of a point, is within `e` of `q` at that point, for all points. -/
def Rebuilds (K : ℕ) (m n : ℕ → ℤ) (cosN sinN : ℕ → ℝ → Prop) (S : Surface) (q : ℝ → ℝ → ℝ) (e : ℝ) : Prop :=
  ∃ c s : ℕ → ℝ, (∀ k < K, cosN k (c k) ∧ sinN k (s k)) ∧
    ∀ θ ζ, |q θ ζ - series K m n c s (S.thetaB θ ζ) (S.zetaB θ ζ)| ≤ e

/-- A condition if `asym` is true; otherwise the number is zero. -/
def IfAsym (asym : Bool) (P : ℝ → Prop) (x : ℝ) : Prop := if asym then P x else x = 0

/-- Element (k, b) of the matrix is finite and has the value `x`. -/
def Stores {α : Type} (fin : α → Prop) (val : α → ℝ) (a : Mat α) (k b : ℕ) (x : ℝ) : Prop :=
  ∃ y, a.rdN k b = .ok y ∧ fin y ∧ val y = x

/-- The numbers in place `b` of the outputs rebuild |B|, R, Z, ν and the Jacobian on the surface. -/
def MachineRebuilds {α : Type} (fin : α → Prop) (val : α → ℝ) (o : Outputs α) (S : Surface) (asym : Bool) (K b : ℕ)
    (e : ℝ) : Prop :=
  let num (a : Mat α) (k : ℕ) (x : ℝ) : Prop := Stores fin val a k b x
  let ifAsym (a : Mat α) (k : ℕ) (x : ℝ) : Prop := IfAsym asym (Stores fin val a k b) x
  ∃ m n : ℕ → ℤ, (∀ k < K, o.xm_b.rdN k = .ok (m k) ∧ o.xn_b.rdN k = .ok (n k)) ∧
    Rebuilds K m n (num o.spec.bmnc_b) (ifAsym o.spec.bmns_b) S S.B e ∧
    Rebuilds K m n (num o.spec.rmnc_b) (ifAsym o.spec.rmns_b) S S.R e ∧
    Rebuilds K m n (ifAsym o.spec.zmnc_b) (num o.spec.zmns_b) S S.Z e ∧
    Rebuilds K m n (ifAsym o.spec.numnc_b) (num o.spec.numns_b) S S.nu e ∧
    Rebuilds K m n (num o.spec.gmnc_b) (ifAsym o.spec.gmns_b) S S.jacobian e

/-- Element `[b][k]` of the variable, which has dimensions (surface, mode) with `K` modes, is finite and has the
value `x`. -/
def FileNumber {α : Type} (fin : α → Prop) (val : α → ℝ) (f : NcFile α) (name : String) (K b k : ℕ) (x : ℝ) : Prop :=
  ∃ v d y, f.var? name = some v ∧ v.dims = ["pack_rad", "mn_modes"] ∧ v.data = .dbls d ∧
    d[b * K + k]? = some (some y) ∧ fin y ∧ val y = x

/-- Element `i` of the variable, a function of radius, is finite and has the value `x`. -/
def FileProfile {α : Type} (fin : α → Prop) (val : α → ℝ) (f : NcFile α) (name : String) (i : ℕ) (x : ℝ) : Prop :=
  ∃ v d y, f.var? name = some v ∧ v.dims = ["radius"] ∧ v.data = .dbls d ∧ d[i]? = some (some y) ∧ fin y ∧ val y = x

/-- The numbers in place `b` of a `boozmn` file rebuild |B|, R, Z, -ν and the Jacobian on the surface, which is number
`j` of the equilibrium, and the points of this surface; and its ι, I, G are those in the file. -/
def FileRebuilds {α : Type} (fin : α → Prop) (val : α → ℝ) (f : NcFile α) (S : Surface) (x : ℝ → ℝ → ℝ × ℝ × ℝ)
    (asym : Bool) (K b j : ℕ) (e : ℝ) : Prop :=
  let num (name : String) (k : ℕ) (x : ℝ) : Prop := FileNumber fin val f name K b k x
  let ifAsym (name : String) (k : ℕ) (x : ℝ) : Prop := IfAsym asym (FileNumber fin val f name K b k) x
  ∃ m n : ℕ → ℤ, (∀ k < K, FileInt f "ixm_b" k (m k) ∧ FileInt f "ixn_b" k (n k)) ∧
    Rebuilds K m n (num "bmnc_b") (ifAsym "bmns_b") S S.B e ∧
    Rebuilds K m n (num "gmn_b") (ifAsym "gmns_b") S S.jacobian e ∧
    (∃ rc rs zc zs pc ps : ℕ → ℝ,
      (∀ k < K, num "rmnc_b" k (rc k) ∧ ifAsym "rmns_b" k (rs k) ∧ ifAsym "zmnc_b" k (zc k) ∧ num "zmns_b" k (zs k) ∧
        ifAsym "pmnc_b" k (pc k) ∧ num "pmns_b" k (ps k)) ∧
      ∀ θ ζ, let t := S.thetaB θ ζ; let z := S.zetaB θ ζ
        dist (cartesian (series K m n rc rs t z) (z + series K m n pc ps t z) (series K m n zc zs t z)) (x θ ζ) ≤ e) ∧
    ∃ iota I G, FileProfile fin val f "iota_b" (j + 1) iota ∧ FileProfile fin val f "buco_b" (j + 1) I ∧
      FileProfile fin val f "bvco_b" (j + 1) G ∧ |iota - S.iota| ≤ e ∧ |I - S.I| ≤ e ∧ |G - S.G| ≤ e

end Booz.Spec
