import Verif.Spec.FieldLine
import Verif.Spec.FileSeries

/-!
# Specification: the numbers from which integrals along field lines are computed
-/

namespace Booz.Spec

/-- What a machine holds after `run()` for surface `j` of the input, in place `b` of the outputs: the modes, the harmonics
of |B|, and ι, I, G. -/
structure MachineField {α : Type} (fin : α → Prop) (val : α → ℝ) (t : St α) (asym : Bool) (K b j : ℕ)
    (m n : ℕ → ℤ) (c s : ℕ → ℝ) (iota I G : ℝ) : Prop where
  modes : ∀ k < K, t.out.xm_b.rdN k = .ok (m k) ∧ t.out.xn_b.rdN k = .ok (n k)
  cos : ∀ k < K, Stores fin val t.out.spec.bmnc_b k b (c k)
  sin : ∀ k < K, IfAsym asym (Stores fin val t.out.spec.bmns_b k b) (s k)
  iota : ∃ y, t.inp.iota.rdN j = .ok y ∧ fin y ∧ val y = iota
  I : ∃ y, t.out.boozer_I_all.rdN j = .ok y ∧ fin y ∧ val y = I
  G : ∃ y, t.out.boozer_G_all.rdN j = .ok y ∧ fin y ∧ val y = G

/-- What a `boozmn` file with `K` modes holds in place `b` for surface `j` of the equilibrium. -/
structure FileField {α : Type} (fin : α → Prop) (val : α → ℝ) (f : NcFile α) (asym : Bool) (K b j : ℕ)
    (m n : ℕ → ℤ) (c s : ℕ → ℝ) (iota I G : ℝ) : Prop where
  modes : ∀ k < K, FileInt f "ixm_b" k (m k) ∧ FileInt f "ixn_b" k (n k)
  cos : ∀ k < K, FileNumber fin val f "bmnc_b" K b k (c k)
  sin : ∀ k < K, IfAsym asym (FileNumber fin val f "bmns_b" K b k) (s k)
  iota : FileProfile fin val f "iota_b" (j + 1) iota
  I : FileProfile fin val f "buco_b" (j + 1) I
  G : FileProfile fin val f "bvco_b" (j + 1) G

end Booz.Spec
