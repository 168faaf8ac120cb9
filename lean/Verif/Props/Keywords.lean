import Verif.Lemmas.Keywords
import Verif.Props.Load

/-!
# C93: calling `init_from_vmec` from Python as documented
-/

namespace Booz
open Spec
variable {α : Type} [Arith α]

/-- **C93, exactly the calls that work.**  If the arguments of a call can be matched with the parameters and
converted, by any mixture of positional and named arguments, then the call does exactly what the C++ function does
with them (profiles that are not supplied being empty). -/
theorem C93_partial {pos : List (PyArg α)} {kw : List (String × PyArg α)} {ns : Int} {A : VmecArgs α}
    (m : Matches pos kw) (g : Gives pos kw ns A) (s : St α) :
    pyInitFromVmec pos kw s = initFromVmec ns A s := by
  obtain ⟨l, hl⟩ := bindArgs_of_fits vmecParams_nodup ((fits_iff pos kw).mpr m)
  unfold pyInitFromVmec
  rw [hl, Option.bind_some, (toVmecArgs_iff hl ns A).mpr g]

/-- **C93, all other calls.**  Every other call raises `TypeError` and leaves the object as it was. -/
theorem C93_rejected {pos : List (PyArg α)} {kw : List (String × PyArg α)}
    (h : ¬ (Matches pos kw ∧ ∃ ns A, Gives pos kw ns A)) (s : St α) :
    pyInitFromVmec pos kw s = .exc typeError s := by
  unfold pyInitFromVmec
  cases hl : bindArgs vmecParams pos kw with
  | none => rfl
  | some l =>
    cases ht : toVmecArgs l with
    | none => rw [Option.bind_some, ht]; rfl
    | some q =>
      exact absurd ⟨(fits_iff pos kw).mp (bindArgs_some vmecParams_nodup hl).1, q.1, q.2,
        (toVmecArgs_iff hl q.1 q.2).mp ht⟩ h

/-- **C93, the documented name `phip`.**  Every call that uses it raises `TypeError`. -/
theorem C93_phip {pos : List (PyArg α)} {kw : List (String × PyArg α)} (h : "phip" ∈ kw.map Prod.fst) (s : St α) :
    pyInitFromVmec pos kw s = .exc typeError s := by
  refine C93_rejected (fun ⟨m, _⟩ => ?_) s
  obtain ⟨i, _, e⟩ := m.known _ h
  exact absurd (List.mem_of_getElem? e) (by decide)

/-- **C93, arguments left out.**  A call that supplies `ns`, `iotas` or one of the twelve arrays neither by position
nor by name raises `TypeError`, for a stellarator-symmetric configuration as well. -/
theorem C93_omitted {pos : List (PyArg α)} {kw : List (String × PyArg α)} {i : Nat} (hi : i < 14)
    (h : supplied pos kw i = none) (s : St α) : pyInitFromVmec pos kw s = .exc typeError s := by
  refine C93_rejected (fun ⟨m, _⟩ => ?_) s
  have := m.needed i hi
  rw [h] at this
  cases this

/-- **C93, stellarator-symmetric configurations.**  With `asym = False` the six arrays that "need not be specified" may
be anything that converts to a matrix. -/
theorem C93_symmetric {pos pos' : List (PyArg α)} {kw kw' : List (String × PyArg α)} {ns : Int} {A : VmecArgs α}
    {rmns zmnc lmnc bmns bsubumns bsubvmns : Mat α} {s : St α} (ha : s.inp.asym = some false)
    (m : Matches pos kw) (g : Gives pos kw ns A) (m' : Matches pos' kw')
    (g' : Gives pos' kw' ns (withAsymArgs A rmns zmnc lmnc bmns bsubumns bsubvmns)) :
    pyInitFromVmec pos' kw' s = pyInitFromVmec pos kw s := by
  rw [C93_partial m g, C93_partial m' g', C23_load ns A s ha]

/-- **C93, order of the named arguments.**  It does not matter. -/
theorem C93_order {pos : List (PyArg α)} {kw kw' : List (String × PyArg α)} (h : (kw.map Prod.fst).Nodup)
    (p : kw.Perm kw') (s : St α) : pyInitFromVmec pos kw' s = pyInitFromVmec pos kw s := by
  have e := supplied_perm (pos := pos) h p
  have hm : Matches pos kw' ↔ Matches pos kw := by
    constructor
    · exact fun m => ⟨m.few, fun k hk => m.known k ((p.map _).mem_iff.mp hk), fun i hi => by rw [← e]; exact m.needed i hi⟩
    · exact fun m => ⟨m.few, fun k hk => m.known k ((p.map _).mem_iff.mpr hk), fun i hi => by rw [e]; exact m.needed i hi⟩
  by_cases c : Matches pos kw ∧ ∃ ns A, Gives pos kw ns A
  · obtain ⟨m, ns, A, g⟩ := c
    rw [C93_partial m g, C93_partial (hm.mpr m) (gives_of_supplied e g)]
  · rw [C93_rejected c]
    exact C93_rejected (fun ⟨m, ns, A, g⟩ => c ⟨hm.mp m, ns, A, gives_of_supplied e.symm g⟩) s

/-! ### Examples, and the counterexamples to the documentation -/

/-- All eighteen arguments by name. -/
def Ex.named (names : List String) (ns : Int) (A : VmecArgs α) : List (String × PyArg α) :=
  names.zip [.int ns, .vec A.iotas, .mat A.rmnc, .mat A.rmns, .mat A.zmnc, .mat A.zmns, .mat A.lmnc, .mat A.lmns,
    .mat A.bmnc, .mat A.bmns, .mat A.bsubumnc, .mat A.bsubumns, .mat A.bsubvmnc, .mat A.bsubvmns,
    .vec A.phip, .vec A.chi, .vec A.pres, .vec A.phi]

omit [Arith α] in
theorem Ex.named_matches (A : VmecArgs α) (ns : Int) : Matches [] (Ex.named workingNames ns A) where
  few := by simp
  known := by
    intro k hk
    have : k ∈ workingNames := hk
    obtain ⟨i, hi, e⟩ := List.getElem_of_mem this
    exact ⟨i, by simp, by rw [List.getElem?_eq_getElem hi, e]⟩
  needed := by intro i hi; interval_cases i <;> rfl

omit [Arith α] in
theorem Ex.named_gives (A : VmecArgs α) {ns : Int} (h : FitsInt ns) : Gives [] (Ex.named workingNames ns A) ns A where
  ns := ⟨_, rfl, isInt_iff.mpr (by simp [PyArg.asInt, h])⟩
  iotas := ⟨_, rfl, .array _⟩
  rmnc := ⟨_, rfl, .array _⟩
  rmns := ⟨_, rfl, .array _⟩
  zmnc := ⟨_, rfl, .array _⟩
  zmns := ⟨_, rfl, .array _⟩
  lmnc := ⟨_, rfl, .array _⟩
  lmns := ⟨_, rfl, .array _⟩
  bmnc := ⟨_, rfl, .array _⟩
  bmns := ⟨_, rfl, .array _⟩
  bsubumnc := ⟨_, rfl, .array _⟩
  bsubumns := ⟨_, rfl, .array _⟩
  bsubvmnc := ⟨_, rfl, .array _⟩
  bsubvmns := ⟨_, rfl, .array _⟩
  phip := .inl ⟨_, rfl, .array _⟩
  chi := .inl ⟨_, rfl, .array _⟩
  pres := .inl ⟨_, rfl, .array _⟩
  phi := .inl ⟨_, rfl, .array _⟩

/-- **C93 is false of the code.**  A symmetric configuration that the C++ function accepts, and that is also accepted
from Python with the names that work, is rejected when the documented names are used, and when the arrays documented
as "need not be specified" are left out. -/
theorem C93_false : ∃ (s s' : St α) (A : VmecArgs α), s.inp.asym = some false ∧
    initFromVmec 4 A s = .ok () s' ∧
    pyInitFromVmec [] (Ex.named workingNames 4 A) s = .ok () s' ∧
    pyInitFromVmec [] (Ex.named documentedNames 4 A) s = .exc typeError s ∧
    pyInitFromVmec [] ((Ex.named workingNames 4 A).filter fun q => q.1 ∉ documentedOptional) s = .exc typeError s := by
  obtain ⟨s', h⟩ := Ex.loads (α := α) false
  refine ⟨Ex.vst false, s', Ex.vmec, rfl, h, ?_, ?_, ?_⟩
  · rw [C93_partial (Ex.named_matches _ _) (Ex.named_gives _ (by decide)), h]
  · exact C93_phip (by show "phip" ∈ documentedNames; decide) _
  · exact C93_omitted (i := 3) (by decide) rfl _

/-- The hypotheses of `C93_partial` and `C93_symmetric` are met: positional `ns`, everything else by name; and without
the profiles and with empty asymmetric arrays, which gives the same. -/
example : ∃ s', pyInitFromVmec [] (Ex.named workingNames 4 (Ex.vmec (α := α))) (Ex.vst false) = .ok () s' ∧
    pyInitFromVmec [] (Ex.named workingNames 4
      (withAsymArgs (Ex.vmec (α := α)) .empty .empty .empty .empty .empty .empty)) (Ex.vst false) = .ok () s' := by
  obtain ⟨s', h⟩ := Ex.loads (α := α) false
  have e : pyInitFromVmec [] (Ex.named workingNames 4 (Ex.vmec (α := α))) (Ex.vst false) = .ok () s' := by
    rw [C93_partial (Ex.named_matches _ _) (Ex.named_gives _ (by decide)), h]
  refine ⟨s', e, ?_⟩
  rw [C93_symmetric rfl (Ex.named_matches _ _) (Ex.named_gives _ (by decide)) (Ex.named_matches _ _)
    (Ex.named_gives _ (by decide)), e]

omit [Arith α] in
/-- A mixture: three positional arguments, the others by name. -/
example (A : VmecArgs α) : Matches [.int 4, .vec A.iotas, .mat A.rmnc] ((Ex.named workingNames 4 A).drop 3) where
  few := by simp
  known := by
    intro k hk
    have : k ∈ workingNames.drop 3 := hk
    obtain ⟨i, hi, e⟩ := List.getElem_of_mem this
    rw [List.getElem_drop] at e
    have hi' : 3 + i < workingNames.length := by simp only [List.length_drop] at hi; omega
    exact ⟨3 + i, by simp, by rw [List.getElem?_eq_getElem hi', e]⟩
  needed := by intro i hi; interval_cases i <;> rfl

omit [Arith α] in
/-- The hypotheses of `C93_order` are met: the named arguments in the reverse order. -/
example (A : VmecArgs α) : ((Ex.named workingNames 4 A).map Prod.fst).Nodup ∧
    (Ex.named workingNames 4 A).Perm (Ex.named workingNames 4 A).reverse :=
  ⟨by show workingNames.Nodup; decide, (List.reverse_perm _).symm⟩

end Booz
