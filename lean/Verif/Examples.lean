import Verif.Lemmas.RunOk
import Verif.Spec.Theory

/-!
# Concrete objects used to show that hypotheses of theorems can be met

A small but non-trivial configuration (two field periods, helical modes, two input surfaces
processed in reverse order), in a stellarator-symmetric and an asymmetric version.
-/

namespace Booz.Ex
variable {α : Type} [Arith α]

/-- Vector from a list. -/
def vec {β : Type} (l : List β) : Vec β := (l.map some).toArray

/-- Sizes of the example. -/
def dims (asym : Bool) : Dims :=
  { asym := asym, M := 2, N := 1, nfp := 2, mpol := 2, ntor := 1, mnmax := 3, mq := 2, nq := 1,
    mnq := 4, ns := 2, nsb := 2 }

/-- Inputs of the example.  The covariant field is a pure gradient plus constants (no radial
current), and |B| ≥ 1. -/
def inputs (asym : Bool) : Inputs α where
  verbose := 1
  asym := some asym
  nfp := some 2
  mpol := some 2
  ntor := some 1
  mnmax := some 3
  mpol_nyq := some 2
  ntor_nyq := some 1
  mnmax_nyq := some 4
  xm := vec [0, 0, 1]
  xn := vec [0, 2, -2]
  xm_nyq := vec [0, 0, 1, 2]
  xn_nyq := vec [0, 2, 0, -2]
  ns_in := some 2
  s_in := Vec.tab 2 fun j => ofInt (2 * j + 1) / ofInt 4
  iota := Vec.tab 2 fun j => ofInt (j + 1)
  rmnc := Mat.tab 3 2 fun k j => ofInt (10 - 4 * (k : Int) + j)
  rmns := if asym then Mat.tab 3 2 fun k j => ofInt (k + j) else .empty
  zmnc := if asym then Mat.tab 3 2 fun k j => ofInt (2 * k + j) else .empty
  zmns := Mat.tab 3 2 fun k j => ofInt (k + 2 * j)
  lmnc := if asym then Mat.tab 3 2 fun k j => ofInt (k + j) / ofInt 8 else .empty
  lmns := Mat.tab 3 2 fun k j => ofInt (k + j) / ofInt 4
  bmnc := Mat.tab 4 2 fun k j => ofInt (if k = 0 then 7 + j else 1)
  bmns := if asym then Mat.tab 4 2 fun k _ => ofInt (if k = 0 then 0 else 1) else .empty
  bsubumnc := Mat.tab 4 2 fun k j => ofInt (if k = 0 then 1 else if k = 1 then 0 else (k : Int) - 1 + j)
  bsubumns := if asym then Mat.tab 4 2 fun k _ => ofInt (if k < 2 then 0 else (k : Int) - 1) else .empty
  bsubvmnc := Mat.tab 4 2 fun k j => ofInt (if k = 0 then 20 else if k = 1 then 5 else if k = 2 then 0 else 2 + j)
  bsubvmns := if asym then Mat.tab 4 2 fun k _ => ofInt (if k = 1 then 1 else if k = 3 then 2 else 0) else .empty
  mboz := 2
  nboz := 1
  compute_surfs := vec [1, 0]
  aspect := some (ofInt 3)
  toroidal_flux := some (ofInt 1)

/-- An object holding these inputs. -/
def st (asym : Bool) : St α := { (construct : St α) with inp := inputs asym }

theorem full_vec {β : Type} (l : List β) : (vec l).Full l.length := by
  constructor
  · simp [vec]
  · intro i hi
    exact ⟨l[i], by simp [vec, hi]⟩

theorem ready (asym : Bool) : RunReady (inputs (α := α) asym) (dims asym) where
  asym := rfl
  nfp := rfl
  nfp_pos := (by decide : (1 : Nat) ≤ 2)
  mpol := rfl
  mpol_ge := (by decide : (2 : Nat) ≤ 2)
  ntor := rfl
  mnmax := rfl
  mpol_nyq := rfl
  mpol_nyq_ge := (by decide : (1 : Nat) ≤ 2)
  ntor_nyq := rfl
  mnmax_nyq := rfl
  mnmax_nyq_ge := (by decide : (1 : Nat) ≤ 4)
  ns_in := rfl
  mboz := rfl
  mboz_ge := (by decide : (1 : Nat) ≤ 2)
  nboz := rfl
  xm := full_vec _
  xm_range := (by decide : ∀ k, k < 3 → 0 ≤ Vec.val 0 (vec (β := Int) [0, 0, 1]) k ∧
    Vec.val 0 (vec (β := Int) [0, 0, 1]) k < ((2 : Nat) : Int))
  xn := full_vec _
  xn_range := (by decide : ∀ k, k < 3 → (Vec.val 0 (vec (β := Int) [0, 2, -2]) k).natAbs / 2 ≤ 1)
  xn_int := (by decide : ∀ k, k < 3 → (Vec.val 0 (vec (β := Int) [0, 2, -2]) k).natAbs < 2147483648)
  xm_nyq := full_vec _
  xm_nyq_range := (by decide : ∀ k, k < 4 → 0 ≤ Vec.val 0 (vec (β := Int) [0, 0, 1, 2]) k ∧
    Vec.val 0 (vec (β := Int) [0, 0, 1, 2]) k ≤ ((2 : Nat) : Int))
  xn_nyq := full_vec _
  xn_nyq_range := (by decide : ∀ k, k < 4 → (Vec.val 0 (vec (β := Int) [0, 2, 0, -2]) k).natAbs / 2 ≤ 1)
  xn_nyq_int := (by decide : ∀ k, k < 4 → (Vec.val 0 (vec (β := Int) [0, 2, 0, -2]) k).natAbs < 2147483648)
  s_in := Vec.full_tab 2 _
  iota := Vec.full_tab 2 _
  rmnc := Mat.full_tab 3 2 _
  zmns := Mat.full_tab 3 2 _
  lmns := Mat.full_tab 3 2 _
  bmnc := Mat.full_tab 4 2 _
  bsubumnc := Mat.full_tab 4 2 _
  bsubvmnc := Mat.full_tab 4 2 _
  rmns h := by
    have h : asym = true := h
    show Mat.Full (if asym then _ else _) 3 2
    rw [if_pos h]; exact Mat.full_tab 3 2 _
  zmnc h := by
    have h : asym = true := h
    show Mat.Full (if asym then _ else _) 3 2
    rw [if_pos h]; exact Mat.full_tab 3 2 _
  lmnc h := by
    have h : asym = true := h
    show Mat.Full (if asym then _ else _) 3 2
    rw [if_pos h]; exact Mat.full_tab 3 2 _
  bmns h := by
    have h : asym = true := h
    show Mat.Full (if asym then _ else _) 4 2
    rw [if_pos h]; exact Mat.full_tab 4 2 _
  bsubumns h := by
    have h : asym = true := h
    show Mat.Full (if asym then _ else _) 4 2
    rw [if_pos h]; exact Mat.full_tab 4 2 _
  bsubvmns h := by
    have h : asym = true := h
    show Mat.Full (if asym then _ else _) 4 2
    rw [if_pos h]; exact Mat.full_tab 4 2 _
  surfs := full_vec _
  surfs_range := (by decide : ∀ k, k < 2 → 0 ≤ Vec.val 0 (vec (β := Int) [1, 0]) k ∧
    Vec.val 0 (vec (β := Int) [1, 0]) k < ((2 : Nat) : Int))
  fit_theta := (by decide : (10 : Nat) < 2147483648)
  fit_zeta := (by decide : (6 : Nat) < 2147483648)
  fit_pts := by
    have : (dims asym).np ≤ 60 := by cases asym <;> decide
    omega
  fit_nfp := (by decide : (12 : Nat) < 2147483648)
  fit_ntor := (by decide : (1 : Nat) < 2147483647)
  fit_mq := (by decide : (2 : Nat) < 2147483647)
  fit_nq := (by decide : (1 : Nat) < 2147483647)
  fit_mpol := (by decide : (2 : Nat) < 2147483648)

theorem originFirst (asym : Bool) : OriginFirst (inputs (α := α) asym) := by
  constructor <;> rfl

theorem originOnce (asym : Bool) : Spec.OriginOnce (inputs (α := α) asym) :=
  (by decide : ∀ k < 4, (Vec.val 0 (vec (β := Int) [0, 0, 1, 2]) k = 0 ∧
    Vec.val 0 (vec (β := Int) [0, 2, 0, -2]) k = 0) ↔ k = 0)

theorem fieldPeriodic (asym : Bool) : Spec.FieldPeriodic (inputs (α := α) asym) 2 :=
  ⟨(by decide : ∀ k < 3, (2 : Int) ∣ Vec.val 0 (vec (β := Int) [0, 2, -2]) k),
   (by decide : ∀ k < 4, (2 : Int) ∣ Vec.val 0 (vec (β := Int) [0, 2, 0, -2]) k)⟩

end Booz.Ex
