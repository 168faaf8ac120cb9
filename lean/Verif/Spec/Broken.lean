import Verif.Spec.FileSeries
import Verif.Spec.MeanSquare

/-!
# Specification: root mean squares of stored harmonics

All of them, and those of |B| that break a symmetry: the usual measure of quasisymmetry that is computed from the outputs or from a `boozmn` file.
-/

namespace Booz.Spec
open Finset

/-- The root of half the sum of the squares of the coefficients of the modes that are no multiples of (M, N). -/
noncomputable def brokenRms (K : ℕ) (m n : ℕ → ℤ) (c s : ℕ → ℝ) (M N : ℤ) : ℝ :=
  √(∑ k ∈ (range K).filter (fun k => m k * N ≠ n k * M), (c k ^ 2 + s k ^ 2) / 2)

/-- The root of the square of the constant coefficient plus half the sum of the squares of the others. -/
noncomputable def totalRms (K : ℕ) (m n : ℕ → ℤ) (c s : ℕ → ℝ) : ℝ :=
  √(∑ k ∈ range K, if m k = 0 ∧ n k = 0 then c k ^ 2 else (c k ^ 2 + s k ^ 2) / 2)

/-- Some numbers for the places `k < K` (which satisfy `cosN k` and `sinN k`) have a root mean square within `e` of that of `q`
over the Boozer angles. -/
def RmsNear (K : ℕ) (m n : ℕ → ℤ) (cosN sinN : ℕ → ℝ → Prop) (S : Surface) (q : ℝ → ℝ → ℝ) (e : ℝ) : Prop :=
  ∃ c s : ℕ → ℝ, (∀ k < K, cosN k (c k) ∧ sinN k (s k)) ∧
    |√(S.average fun θ ζ => q θ ζ ^ 2) - totalRms K m n c s| ≤ e

/-- The root mean squares of |B|, R, Z, ν and the Jacobian are within `e` of those of the finite numbers in place `b` of the
outputs. -/
def MachineMeans {α : Type} (fin : α → Prop) (val : α → ℝ) (o : Outputs α) (S : Surface) (asym : Bool) (K b : ℕ)
    (e : ℝ) : Prop :=
  let num (a : Mat α) (k : ℕ) (x : ℝ) : Prop := Stores fin val a k b x
  let ifAsym (a : Mat α) (k : ℕ) (x : ℝ) : Prop := IfAsym asym (Stores fin val a k b) x
  ∃ m n : ℕ → ℤ, (∀ k < K, o.xm_b.rdN k = .ok (m k) ∧ o.xn_b.rdN k = .ok (n k)) ∧
    RmsNear K m n (num o.spec.bmnc_b) (ifAsym o.spec.bmns_b) S S.B e ∧
    RmsNear K m n (num o.spec.rmnc_b) (ifAsym o.spec.rmns_b) S S.R e ∧
    RmsNear K m n (ifAsym o.spec.zmnc_b) (num o.spec.zmns_b) S S.Z e ∧
    RmsNear K m n (ifAsym o.spec.numnc_b) (num o.spec.numns_b) S S.nu e ∧
    RmsNear K m n (num o.spec.gmnc_b) (ifAsym o.spec.gmns_b) S S.jacobian e

/-- The same for |B| and the Jacobian from the finite numbers in place `b` of a `boozmn` file with `K` modes. -/
def FileMeans {α : Type} (fin : α → Prop) (val : α → ℝ) (f : NcFile α) (S : Surface) (asym : Bool) (K b : ℕ) (e : ℝ) : Prop :=
  let num (name : String) (k : ℕ) (x : ℝ) : Prop := FileNumber fin val f name K b k x
  let ifAsym (name : String) (k : ℕ) (x : ℝ) : Prop := IfAsym asym (FileNumber fin val f name K b k) x
  ∃ m n : ℕ → ℤ, (∀ k < K, FileInt f "ixm_b" k (m k) ∧ FileInt f "ixn_b" k (n k)) ∧
    RmsNear K m n (num "bmnc_b") (ifAsym "bmns_b") S S.B e ∧
    RmsNear K m n (num "gmn_b") (ifAsym "gmns_b") S S.jacobian e

/-- Of every mode and its negative at most one is listed, and at most once. -/
def OneOfEach (K : ℕ) (m n : ℕ → ℤ) : Prop :=
  ∀ i < K, ∀ j < K, (m i = m j ∧ n i = n j ∨ m i = -m j ∧ n i = -n j) → i = j

/-- `x` is the root mean square of the harmonics of |B| that break the symmetry (M, N), from the finite numbers in place `b`
of the outputs. -/
def MachineBroken {α : Type} (fin : α → Prop) (val : α → ℝ) (o : Outputs α) (asym : Bool) (K b : ℕ) (M N : ℤ) (x : ℝ) : Prop :=
  ∃ (m n : ℕ → ℤ) (c s : ℕ → ℝ),
    (∀ k < K, o.xm_b.rdN k = .ok (m k) ∧ o.xn_b.rdN k = .ok (n k) ∧ Stores fin val o.spec.bmnc_b k b (c k) ∧
      IfAsym asym (Stores fin val o.spec.bmns_b k b) (s k)) ∧ x = brokenRms K m n c s M N

/-- The same from the finite numbers in place `b` of a `boozmn` file with `K` modes. -/
def FileBroken {α : Type} (fin : α → Prop) (val : α → ℝ) (f : NcFile α) (asym : Bool) (K b : ℕ) (M N : ℤ) (x : ℝ) : Prop :=
  ∃ (m n : ℕ → ℤ) (c s : ℕ → ℝ),
    (∀ k < K, FileInt f "ixm_b" k (m k) ∧ FileInt f "ixn_b" k (n k) ∧ FileNumber fin val f "bmnc_b" K b k (c k) ∧
      IfAsym asym (FileNumber fin val f "bmns_b" K b k) (s k)) ∧ x = brokenRms K m n c s M N

end Booz.Spec
