import Verif.Examples
import Verif.Lemmas.LoadMain

/-!
# Concrete data for `init_from_vmec`
-/

namespace Booz.Ex
open Spec
variable {α : Type} [Arith α]

/-- An object about to be loaded (it holds an older, smaller configuration and a selection of
surfaces). -/
def vst (asym : Bool) : St α :=
  { st asym with inp := { inputs asym with xn := vec [0, 2, 2], xn_nyq := vec [0, 2, 0, 2] } }

/-- Scalars of the example. -/
def sizes (asym : Bool) : Sizes :=
  { asym := asym, nfp := 2, mpol := 2, ntor := 1, mnmax := 3, ntor_nyq := 1, mnmax_nyq := 4 }

/-- VMEC data on four surfaces. -/
def vmec : VmecArgs α where
  iotas := Vec.tab 4 fun j => ofInt (j + 1)
  rmnc := Mat.tab 3 4 fun k j => ofInt (10 - 4 * (k : Int) + j)
  rmns := Mat.tab 3 4 fun k j => ofInt (k + j)
  zmnc := Mat.tab 3 4 fun k j => ofInt (2 * k + j)
  zmns := Mat.tab 3 4 fun k j => ofInt (k + 2 * j)
  lmnc := Mat.tab 3 4 fun k j => ofInt (k + 3 * j)
  lmns := Mat.tab 3 4 fun k j => ofInt (k + 4 * j)
  bmnc := Mat.tab 4 4 fun k j => ofInt (if k = 0 then 7 + j else 1)
  bmns := Mat.tab 4 4 fun k j => ofInt (k + 5 * j)
  bsubumnc := Mat.tab 4 4 fun k j => ofInt (k + 6 * j)
  bsubumns := Mat.tab 4 4 fun k j => ofInt (k + 7 * j)
  bsubvmnc := Mat.tab 4 4 fun k j => ofInt (k + 8 * j)
  bsubvmns := Mat.tab 4 4 fun k j => ofInt (k + 9 * j)
  phip := Vec.tab 4 fun j => ofInt (j + 1)
  chi := Vec.tab 4 fun j => ofInt (2 * j)
  pres := Vec.tab 4 fun j => ofInt (3 * j)
  phi := Vec.tab 4 fun j => ofInt (4 * j)

theorem vec_full {β : Type} {v : Vec β} (l : List β) (h : v = vec l) : v.Full v.size := by
  subst h
  refine ⟨rfl, fun i hi => ?_⟩
  have : i < l.length := by simpa [vec] using hi
  exact ⟨l[i], by simp [vec, this]⟩

theorem tab_full {n : Nat} (f : Nat → α) : (Vec.tab n f).Full (Vec.tab n f).size := by
  rw [Vec.size_tab]; exact Vec.full_tab n f

theorem args : ArgsInit (vmec (α := α)) := by
  have hm : ∀ (r c : Nat) (f : Nat → Nat → α),
      (Mat.tab r c f).Full (Mat.tab r c f).rows (Mat.tab r c f).cols := fun _ _ _ => Mat.full_tab _ _ _
  constructor <;> unfold vmec <;> dsimp only
  case iotas => exact tab_full _
  case phip => exact tab_full _
  case chi => exact tab_full _
  case pres => exact tab_full _
  case phi => exact tab_full _
  all_goals exact hm _ _ _

theorem lists (asym : Bool) : ListsInit (vst (α := α) asym).inp := by
  constructor
  case xm => exact vec_full [0, 0, 1] rfl
  case xn => exact vec_full [0, 2, 2] rfl
  case xm_nyq => exact vec_full [0, 0, 1, 2] rfl
  case xn_nyq => exact vec_full [0, 2, 0, 2] rfl
  case surfs => exact vec_full [1, 0] rfl

theorem given (asym : Bool) : Given (vmec (α := α)) (vst asym).inp (sizes asym) :=
  ⟨⟨rfl, rfl, rfl, rfl, rfl, rfl, rfl⟩, lists asym, args⟩

theorem computable (asym : Bool) : Computable (sizes asym) :=
  ⟨by show (3 : Int) ≠ 0; decide, by show (4 : Int) ≠ 0; decide,
    by show FitsInt (2 * 1); decide, by show FitsInt (2 * 1); decide⟩

theorem consistent (asym : Bool) : Consistent 4 (vmec (α := α)) (vst asym).inp (sizes asym) where
  ns_ge := by decide
  nfp_ge := by show (1 : Int) ≤ 2; decide
  iotas := by show ((Vec.tab 4 _).size : Int) = 4; rw [Vec.size_tab]; rfl
  flux := fun _ => by
    refine ⟨?_, ?_, ?_, ?_⟩ <;> (show ((Vec.tab 4 _).size : Int) = 4; rw [Vec.size_tab]; rfl)
  modes := ⟨rfl, rfl, rfl, rfl, rfl⟩
  modes_nyq := ⟨rfl, rfl, rfl, rfl, rfl⟩
  rmnc := ⟨rfl, rfl⟩
  zmns := ⟨rfl, rfl⟩
  lmns := ⟨rfl, rfl⟩
  bmnc := ⟨rfl, rfl⟩
  bsubumnc := ⟨rfl, rfl⟩
  bsubvmnc := ⟨rfl, rfl⟩
  asym := fun _ => ⟨⟨rfl, rfl⟩, ⟨rfl, rfl⟩, ⟨rfl, rfl⟩, ⟨rfl, rfl⟩, ⟨rfl, rfl⟩, ⟨rfl, rfl⟩⟩
  surfs := by
    intro j hj
    have : j < 2 := hj
    match j, this with
    | 0, _ => show (0 : Int) ≤ 1 ∧ (1 : Int) < 4 - 1; decide
    | 1, _ => show (0 : Int) ≤ 0 ∧ (0 : Int) < 4 - 1; decide

theorem loadable (asym : Bool) : Loadable 4 (vmec (α := α)) (vst asym).inp (sizes asym) where
  axis := fun _ _ _ => by decide
  print := Or.inl (by show (1 : Int) ≤ 1; decide)
  fit_m := by show FitsInt (6 * 2); decide
  fit_n := by show FitsInt (2 * 1); decide
  fit_n1 := by show FitsInt (2 * 1 - 1); decide

/-- The example is loaded. -/
theorem loads (asym : Bool) : ∃ s', initFromVmec 4 (vmec (α := α)) (vst asym) = .ok () s' :=
  ⟨_, vmec_ok (by decide) (given asym) (computable asym) (consistent asym) (loadable asym)⟩

end Booz.Ex
