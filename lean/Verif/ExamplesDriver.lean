import Verif.ExamplesBoozmn
import Verif.ExamplesWout
import Verif.Lemmas.Driver
import Verif.Props.Wout
import Verif.Props.Exact

/-!
# Concrete input files for `xbooz_xform`
-/

namespace Booz
open Spec

theorem text_length {content : List Char} {ts : List (List Char)} (h : IsText content ts) :
    ∀ t ∈ ts, t.length ≤ content.length := by
  induction h with
  | blank => exact fun t ht => absurd ht (by simp)
  | word w t r ts _ _ _ _ _ ih =>
    intro u hu
    rw [List.mem_cons] at hu
    simp only [List.length_append]
    rcases hu with rfl | hu
    · omega
    · have := ih u hu
      omega

theorem short_words {content : List Char} (h : content.length ≤ 4300) : ShortWords content :=
  fun _ ht t hm => Nat.le_trans (text_length ht t hm) h

namespace Ex
variable {α : Type} [Arith α]

/-- The file
```
16 8
x
1 0
```
-/
def input : List Char := ['1', '6', ' ', '8', '\n', 'x', '\n', '1', ' ', '0', '\n']
/-- The same, asking for surface 9. -/
def input9 : List Char := ['1', '6', ' ', '8', '\n', 'x', '\n', '9', '\n']
/-- What the first file asks for. -/
def request : Request := ⟨16, 8, ['x'], [1, 0]⟩
/-- What the second file asks for. -/
def request9 : Request := ⟨16, 8, ['x'], [9]⟩

theorem digit (c : Char) (k : Nat) (h : k < 10 ∧ c.toNat = 48 + k := by decide) : Digit c k := h

theorem word16 : IntWord ['1', '6'] 16 :=
  ⟨.plain (ds := ['1', '6']) (n := 16) (.more (ds := ['1']) (n := 1) (.one (digit '1' 1)) (digit '6' 6)),
    by decide⟩
theorem word1 (c : Char) (k : Nat) (h : Digit c k) : IntWord [c] k :=
  ⟨.plain (.one h), by have := h.1; unfold FitsInt; omega⟩

/-- The number 3000000000. -/
def digits3e9 : List Char := ['3', '0', '0', '0', '0', '0', '0', '0', '0', '0']
theorem word3e9 : HugeWord digits3e9 :=
  ⟨3000000000, .plain (ds := digits3e9) (n := 3000000000) <|
    .more (ds := ['3', '0', '0', '0', '0', '0', '0', '0', '0']) (n := 300000000) (
    .more (ds := ['3', '0', '0', '0', '0', '0', '0', '0']) (n := 30000000) (
    .more (ds := ['3', '0', '0', '0', '0', '0', '0']) (n := 3000000) (
    .more (ds := ['3', '0', '0', '0', '0', '0']) (n := 300000) (
    .more (ds := ['3', '0', '0', '0', '0']) (n := 30000) (
    .more (ds := ['3', '0', '0', '0']) (n := 3000) (
    .more (ds := ['3', '0', '0']) (n := 300) (
    .more (ds := ['3', '0']) (n := 30) (
    .more (ds := ['3']) (n := 3) (.one (digit '3' 3)) (digit '0' 0)) (digit '0' 0)) (digit '0' 0))
    (digit '0' 0)) (digit '0' 0)) (digit '0' 0)) (digit '0' 0)) (digit '0' 0)) (digit '0' 0),
    by unfold FitsInt; omega⟩

/-- An input file with a number that is too large first. -/
def input3e9 : List Char := digits3e9 ++ [' ', '8', ' ', 'x']
theorem input3e9_text : IsText input3e9 [digits3e9, ['8'], ['x']] :=
  .word [] digits3e9 [' ', '8', ' ', 'x'] _ (by simp) (by decide) (by unfold Blank; decide)
    (.inr ⟨_, _, rfl, by unfold Blank; decide⟩) <|
  .word [' '] ['8'] [' ', 'x'] _ (by unfold Blank; decide) (by decide) (by unfold Blank; decide)
    (.inr ⟨_, _, rfl, by unfold Blank; decide⟩) <|
  .word [' '] ['x'] [] _ (by unfold Blank; decide) (by decide) (by unfold Blank; decide) (.inl rfl) <|
  .blank [] (by simp)

/-- An input file with a number that is too large in the list of surfaces. -/
def input1_3e9 : List Char := ['1', '6', ' ', '8', ' ', 'x', ' ', '1', ' '] ++ digits3e9
theorem input1_3e9_text : IsText input1_3e9 (['1', '6'] :: ['8'] :: ['x'] :: ([['1']] ++ digits3e9 :: [])) :=
  .word [] ['1', '6'] ([' ', '8', ' ', 'x', ' ', '1', ' '] ++ digits3e9) _ (by simp) (by decide) (by unfold Blank; decide)
    (.inr ⟨_, _, rfl, by unfold Blank; decide⟩) <|
  .word [' '] ['8'] ([' ', 'x', ' ', '1', ' '] ++ digits3e9) _ (by unfold Blank; decide) (by decide) (by unfold Blank; decide)
    (.inr ⟨_, _, rfl, by unfold Blank; decide⟩) <|
  .word [' '] ['x'] ([' ', '1', ' '] ++ digits3e9) _ (by unfold Blank; decide) (by decide) (by unfold Blank; decide)
    (.inr ⟨_, _, rfl, by unfold Blank; decide⟩) <|
  .word [' '] ['1'] ([' '] ++ digits3e9) _ (by unfold Blank; decide) (by decide) (by unfold Blank; decide)
    (.inr ⟨_, _, rfl, by unfold Blank; decide⟩) <|
  .word [' '] digits3e9 [] _ (by unfold Blank; decide) (by decide) (by unfold Blank; decide) (.inl rfl) <|
  .blank [] (by simp)
theorem input1_3e9_plain : NoSeparators input1_3e9 := by
  unfold NoSeparators Blank
  decide
theorem input1_3e9_short : ShortWords input1_3e9 := short_words (by decide)

theorem input_text : IsText input [['1', '6'], ['8'], ['x'], ['1'], ['0']] :=
  .word [] ['1', '6'] [' ', '8', '\n', 'x', '\n', '1', ' ', '0', '\n'] _ (by simp) (by decide)
    (by unfold Blank; decide) (.inr ⟨_, _, rfl, by unfold Blank; decide⟩) <|
  .word [' '] ['8'] ['\n', 'x', '\n', '1', ' ', '0', '\n'] _ (by unfold Blank; decide) (by decide)
    (by unfold Blank; decide) (.inr ⟨_, _, rfl, by unfold Blank; decide⟩) <|
  .word ['\n'] ['x'] ['\n', '1', ' ', '0', '\n'] _ (by unfold Blank; decide) (by decide)
    (by unfold Blank; decide) (.inr ⟨_, _, rfl, by unfold Blank; decide⟩) <|
  .word ['\n'] ['1'] [' ', '0', '\n'] _ (by unfold Blank; decide) (by decide)
    (by unfold Blank; decide) (.inr ⟨_, _, rfl, by unfold Blank; decide⟩) <|
  .word [' '] ['0'] ['\n'] _ (by unfold Blank; decide) (by decide)
    (by unfold Blank; decide) (.inr ⟨_, _, rfl, by unfold Blank; decide⟩) <|
  .blank ['\n'] (by unfold Blank; decide)

theorem input_asks : Asks input request :=
  ⟨['1', '6'], ['8'], [['1'], ['0']], input_text, word16, word1 '8' 8 (digit '8' 8),
    .more (word1 '1' 1 (digit '1' 1)) (.more (word1 '0' 0 (digit '0' 0)) .done)⟩

theorem input9_asks : Asks input9 request9 :=
  ⟨['1', '6'], ['8'], [['9']], (
    .word [] ['1', '6'] [' ', '8', '\n', 'x', '\n', '9', '\n'] _ (by simp) (by decide)
      (by unfold Blank; decide) (.inr ⟨_, _, rfl, by unfold Blank; decide⟩) <|
    .word [' '] ['8'] ['\n', 'x', '\n', '9', '\n'] _ (by unfold Blank; decide) (by decide)
      (by unfold Blank; decide) (.inr ⟨_, _, rfl, by unfold Blank; decide⟩) <|
    .word ['\n'] ['x'] ['\n', '9', '\n'] _ (by unfold Blank; decide) (by decide)
      (by unfold Blank; decide) (.inr ⟨_, _, rfl, by unfold Blank; decide⟩) <|
    .word ['\n'] ['9'] ['\n'] _ (by unfold Blank; decide) (by decide)
      (by unfold Blank; decide) (.inr ⟨_, _, rfl, by unfold Blank; decide⟩) <|
    .blank ['\n'] (by unfold Blank; decide)), word16, word1 '8' 8 (digit '8' 8),
    .more (word1 '9' 9 (digit '9' 9)) .done⟩

theorem input_plain : NoSeparators input := by
  unfold NoSeparators Blank
  decide
theorem input_short : ShortWords input := short_words (by decide)

/-- A disk with an input file and the example `wout` file. -/
def world (content : List Char) : World α :=
  { disk := fun p => if p = "in" then .other content else
      if p = "wout_x.nc" then .nc (wout 0) else .absent
    console := [] }

theorem world_in (content : List Char) : (world (α := α) content).disk "in" = .other content := rfl
theorem world_wout (content : List Char) :
    (world (α := α) content).disk ("wout_" ++ String.ofList ['x'] ++ ".nc") = .nc (wout 0) := rfl

theorem wout_sizes : woutSizesOf (Ex.wout (α := α) 0) (Ex.woutZ 0) = Ex.sizes false := by
  have h : intsOf (Ex.wout (α := α) 0) "xn_nyq" = Ex.vec [0, 2, 0, 2] := Ex.wout_ints 0 16 rfl rfl rfl
  unfold woutSizesOf
  rw [h]
  rfl

/-- What `init_from_vmec` is given when the file is read without flux profiles. -/
theorem wout_args_noflux : woutArgs (wout (α := α) 0) (woutZ 0) false =
    { symArgs with phip := #[], chi := #[], pres := #[], phi := #[] } := by
  rw [← wout_args]; rfl

theorem wout_loads (content : List Char) : ∃ b,
    readWout (world (α := α) content).disk ("wout_" ++ String.ofList ['x'] ++ ".nc") false construct =
      .ok () b := by
  have hs : (construct : St α).inp.compute_surfs.Full (construct : St α).inp.compute_surfs.size :=
    ⟨rfl, fun i hi => absurd hi (by simp [construct])⟩
  rw [C39_loads false construct (world_wout content) (shapes 0) (wout_present 0 _ _)]
  refine ⟨_, vmec_ok (z := sizes false) (by decide) ?_ (computable false) ?_ ?_⟩
  · have := wout_given (flux := false) (I := (construct : St α).inp) (shapes (α := α) 0)
      (wout_present 0 _ _) hs
    rw [wout_sizes] at this
    exact this
  · rw [wout_args_noflux, wout_inp]
    have C := sym_consistent (α := α) (I := (construct : St α).inp)
      (fun j hj => absurd hj (by simp [construct]))
    exact ⟨C.1, C.2, C.3, (fun h => absurd rfl h), C.5, C.6, C.7, C.8, C.9, C.10, C.11,
      C.12, C.13, C.14⟩
  · rw [wout_args_noflux, wout_inp]
    have L := sym_loadable (α := α) (I := (construct : St α).inp) (by show (1 : Int) ≤ 1; decide)
    exact ⟨L.1, L.2, L.3, L.4, L.5⟩

theorem wout_nyq : ∀ k, k < (intsOf (wout (α := α) 0) "xn_nyq").size →
    ((intsOf (wout (α := α) 0) "xn_nyq").val 0 k).natAbs < 2147483648 := by
  have h : intsOf (wout (α := α) 0) "xn_nyq" = vec [0, 2, 0, 2] := wout_ints 0 16 rfl rfl rfl
  rw [h]
  decide

theorem wout_within : ModesWithin (woutInp (wout (α := α) 0) (woutZ 0) (construct : St α).inp)
    (woutSizesOf (wout (α := α) 0) (woutZ 0))
    ((intsOf (wout (α := α) 0) "xm_nyq").val 0 ((woutZ 0).mnmax_nyq.toNat - 1)) := by
  have h : intsOf (wout (α := α) 0) "xm_nyq" = vec [0, 0, 1, 2] := wout_ints 0 15 rfl rfl rfl
  rw [wout_inp, wout_sizes, h]
  have W := within (α := α) false
  exact ⟨W.1, W.2, W.3, W.4, W.5, W.6, W.7, W.8⟩

end Ex
end Booz
