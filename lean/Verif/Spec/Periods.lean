import Verif.Spec.Translation

/-!
# The same equilibrium declared with fewer field periods
-/

namespace Booz.Spec

/-- The object `s'` holds the same equilibrium data as `s`, but declares `f` field periods, with sizes
`nt`, `nq` of the toroidal mode ranges (they count in units of the number of field periods) and the toroidal resolution `N`. -/
def Redeclares (s s' : St ℝ) (f nt nq N : ℕ) : Prop :=
  s'.inp = { s.inp with nfp := some (f : ℤ), ntor := some (nt : ℤ), ntor_nyq := some (nq : ℤ), nboz := N }

/-- What the runs store that is not a matrix of harmonics or a list of modes is the same. -/
def SameProfiles (o o' : Outputs ℝ) : Prop :=
  o'.ns_b = o.ns_b ∧ o'.s_b = o.s_b ∧ o'.boozer_I = o.boozer_I ∧ o'.boozer_G = o.boozer_G ∧
    o'.boozer_I_all = o.boozer_I_all ∧ o'.boozer_G_all = o.boozer_G_all

/-- Mode `j` of the outputs is (m, n). -/
def ListsMode (o : Outputs ℝ) (j : ℕ) (m n : ℤ) : Prop := o.xm_b.rdN j = .ok m ∧ o.xn_b.rdN j = .ok n

/-- Two pairs of outputs differ by at most `e` in every amplitude of their modes `i` and `j` on surface `b`. -/
def AmplitudesNear (o o' : Outputs ℝ) (asym : Bool) (i j b : ℕ) (e : ℝ) : Prop :=
  ∀ (t : ℕ) (A A' : Mat ℝ), (amplitudes o asym)[t]? = some A → (amplitudes o' asym)[t]? = some A' →
    ∃ x x', A.rdN i b = .ok x ∧ A'.rdN j b = .ok x' ∧ |x' - x| ≤ e

end Booz.Spec
