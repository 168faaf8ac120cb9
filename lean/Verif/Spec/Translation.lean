import Verif.Spec.Integral
import Verif.Spec.BoozerAngles

/-!
# Moving the origin of the input angles
-/

namespace Booz.Spec

/-- Phase of input mode `k` at the new origin. -/
noncomputable def phaseAt (m n : Vec ℤ) (θ₀ ζ₀ : ℝ) (k : ℕ) : ℝ := m.val 0 k * θ₀ - n.val 0 k * ζ₀

/-- Cosine amplitudes of the translated series, from the cosine and sine amplitudes. -/
noncomputable def rotCos (φ : ℕ → ℝ) (c s : Mat ℝ) : Mat ℝ :=
  Mat.tab c.rows c.cols fun k j => Real.cos (φ k) * entry c k j + Real.sin (φ k) * entry s k j

/-- Sine amplitudes of the translated series. -/
noncomputable def rotSin (φ : ℕ → ℝ) (c s : Mat ℝ) : Mat ℝ :=
  Mat.tab c.rows c.cols fun k j => Real.cos (φ k) * entry s k j - Real.sin (φ k) * entry c k j

/-- The same equilibrium described with angles (θ - θ₀, ζ - ζ₀): all amplitudes are rotated mode by mode. (ζ is also the
geometric toroidal angle: the equilibrium is turned about the axis by `-ζ₀`.) -/
noncomputable def translate (θ₀ ζ₀ : ℝ) (I : Inputs ℝ) : Inputs ℝ :=
  let φ := phaseAt I.xm I.xn θ₀ ζ₀
  let ψ := phaseAt I.xm_nyq I.xn_nyq θ₀ ζ₀
  { I with
    rmnc := rotCos φ I.rmnc I.rmns, rmns := rotSin φ I.rmnc I.rmns
    zmnc := rotCos φ I.zmnc I.zmns, zmns := rotSin φ I.zmnc I.zmns
    lmnc := rotCos φ I.lmnc I.lmns, lmns := rotSin φ I.lmnc I.lmns
    bmnc := rotCos ψ I.bmnc I.bmns, bmns := rotSin ψ I.bmnc I.bmns
    bsubumnc := rotCos ψ I.bsubumnc I.bsubumns, bsubumns := rotSin ψ I.bsubumnc I.bsubumns
    bsubvmnc := rotCos ψ I.bsubvmnc I.bsubvmns, bsubvmns := rotSin ψ I.bsubvmnc I.bsubvmns }

/-- An object holding the translated equilibrium. -/
noncomputable def translateSt (θ₀ ζ₀ : ℝ) (s : St ℝ) : St ℝ := { s with inp := translate θ₀ ζ₀ s.inp }

/-- Entries (k, b) of two pairs of matrices of cosine and sine amplitudes exist and are rotated into each other by the
angle `φ`, with an error of at most `e`. -/
def RotatedAt (φ : ℝ) (k b : ℕ) (c s c' s' : Mat ℝ) (e : ℝ) : Prop :=
  ∃ x y x' y', c.rdN k b = .ok x ∧ s.rdN k b = .ok y ∧ c'.rdN k b = .ok x' ∧ s'.rdN k b = .ok y' ∧
    |x' - (Real.cos φ * x + Real.sin φ * y)| ≤ e ∧ |y' - (Real.cos φ * y - Real.sin φ * x)| ≤ e

/-- Place (k, b) of the second outputs is that of the first with all pairs of amplitudes rotated. -/
structure RotatedOutputs (φ : ℝ) (k b : ℕ) (o o' : Outputs ℝ) (e : ℝ) : Prop where
  B : RotatedAt φ k b o.spec.bmnc_b o.spec.bmns_b o'.spec.bmnc_b o'.spec.bmns_b e
  R : RotatedAt φ k b o.spec.rmnc_b o.spec.rmns_b o'.spec.rmnc_b o'.spec.rmns_b e
  Z : RotatedAt φ k b o.spec.zmnc_b o.spec.zmns_b o'.spec.zmnc_b o'.spec.zmns_b e
  nu : RotatedAt φ k b o.spec.numnc_b o.spec.numns_b o'.spec.numnc_b o'.spec.numns_b e
  jacobian : RotatedAt φ k b o.spec.gmnc_b o.spec.gmns_b o'.spec.gmnc_b o'.spec.gmns_b e

/-- The matrices of harmonics that `run()` computes. -/
def amplitudes (o : Outputs ℝ) (asym : Bool) : List (Mat ℝ) :=
  [o.spec.bmnc_b, o.spec.rmnc_b, o.spec.zmns_b, o.spec.numns_b, o.spec.gmnc_b] ++
    if asym then [o.spec.bmns_b, o.spec.rmns_b, o.spec.zmnc_b, o.spec.numnc_b, o.spec.gmns_b] else []

/-- Sign by which the mode (m, n) changes when the origin is moved by `a` poloidal half turns and `b` toroidal half
periods. -/
noncomputable def halfSign (nfp a b : ℕ) (m n : ℤ) : ℝ := (-1 : ℝ) ^ (m * a - n / nfp * b)

/-- Row k of a matrix of amplitudes multiplied by the sign of mode k. -/
noncomputable def flipRows (σ : ℕ → ℝ) (A : Mat ℝ) : Mat ℝ := Mat.tab A.rows A.cols fun k j => σ k * entry A k j

/-- The equilibrium seen from an origin moved by `a` poloidal half turns and `b` toroidal half periods, points through
which stellarator symmetry holds too. -/
noncomputable def halfTurn (nfp a b : ℕ) (s : St ℝ) : St ℝ :=
  let I := s.inp
  let σ := fun k => halfSign nfp a b (I.xm.val 0 k) (I.xn.val 0 k)
  let χ := fun k => halfSign nfp a b (I.xm_nyq.val 0 k) (I.xn_nyq.val 0 k)
  { s with inp := { I with
      rmnc := flipRows σ I.rmnc, rmns := flipRows σ I.rmns, zmnc := flipRows σ I.zmnc, zmns := flipRows σ I.zmns
      lmnc := flipRows σ I.lmnc, lmns := flipRows σ I.lmns, bmnc := flipRows χ I.bmnc, bmns := flipRows χ I.bmns
      bsubumnc := flipRows χ I.bsubumnc, bsubumns := flipRows χ I.bsubumns
      bsubvmnc := flipRows χ I.bsubvmnc, bsubvmns := flipRows χ I.bsubvmns } }

end Booz.Spec
