import Mathlib.Data.List.Induction
import Verif.Lemmas.Driver
import Verif.Spec.DriverExact

/-!
# Lemmas: the input files that `xbooz_xform` accepts
-/

namespace Booz
open Spec

theorem decimal_of_all {ds : List Char} (h0 : ds ≠ []) (h : ∀ c ∈ ds, isDig c = true) : Decimal ds (digVal ds) := by
  induction ds using List.reverseRecOn with
  | nil => exact absurd rfl h0
  | append_singleton ds c ih =>
    obtain ⟨k, hk⟩ := (isDig_iff c).1 (h c (by simp))
    have ek : c.toNat - 48 = k := by have := hk.2; omega
    rw [digVal_snoc, ek]
    by_cases e : ds = []
    · subst e
      have : 10 * digVal [] + k = k := by simp [digVal]
      rw [this]
      exact .one hk
    · exact .more (ih e fun c hc => h c (List.mem_append_left _ hc)) hk

/-- What is in front of a position found by `takeWhile`. -/
theorem takeWhile_mem {β : Type} {p : β → Bool} {l : List β} {c : β} (h : c ∈ l.takeWhile p) : p c = true := by
  induction l with
  | nil => simp at h
  | cons a l ih =>
    rw [List.takeWhile_cons] at h
    split at h
    · next hp =>
      rcases List.mem_cons.1 h with rfl | h
      · exact hp
      · exact ih h
    · simp at h

theorem dropWhile_head {β : Type} {p : β → Bool} {l : List β} {c : β} {r : List β} (h : l.dropWhile p = c :: r) :
    p c = false := by
  induction l with
  | nil => simp at h
  | cons a l ih =>
    rw [List.dropWhile_cons] at h
    split at h
    · exact ih h
    · next hp =>
      cases h
      simpa using hp

theorem takeSign_split (l : List Char) :
    (takeSign l = (true, (takeSign l).2) ∧ l = '-' :: (takeSign l).2) ∨
    (takeSign l = (false, (takeSign l).2) ∧ l = '+' :: (takeSign l).2) ∨
    (takeSign l = (false, (takeSign l).2) ∧ l = (takeSign l).2) := by
  unfold takeSign
  split
  · exact .inl ⟨rfl, rfl⟩
  · exact .inr (.inl ⟨rfl, rfl⟩)
  · exact .inr (.inr ⟨rfl, rfl⟩)

/-- A successful extraction of an integer. -/
theorem extractInt_takes {text : List Char} {fail eof : Bool} {s' : IStream} {v : Option Int}
    (h : extractInt ⟨text, fail, eof⟩ = (s', v)) (hf : s'.fail = false) :
    ∃ n, v = some n ∧ TakesInt text n s'.rest ∧ s'.eof = s'.rest.isEmpty := by
  unfold extractInt at h
  split at h
  · cases h; simp at hf
  simp only at h
  split at h
  · cases h; simp at hf
  next c r e =>
  have hw : text = text.takeWhile cSpace ++ (c :: r) := by
    rw [← e, List.takeWhile_append_dropWhile]
  have hb : ∀ d ∈ text.takeWhile cSpace, Blank d := fun d hd => (cSpace_iff d).1 (takeWhile_mem hd)
  have hds : ∀ d ∈ (takeSign (c :: r)).2.takeWhile isDig, isDig d = true := fun d hd => takeWhile_mem hd
  have hsp : (takeSign (c :: r)).2 =
      (takeSign (c :: r)).2.takeWhile isDig ++ (takeSign (c :: r)).2.dropWhile isDig :=
    List.takeWhile_append_dropWhile.symm
  have hend : ∀ d q, (takeSign (c :: r)).2.dropWhile isDig = d :: q → ∀ k, ¬ Digit d k := fun d q hq k hk => by
    have := dropWhile_head hq
    rw [(isDig_iff d).2 ⟨k, hk⟩] at this
    cases this
  generalize hx : (if (takeSign (c :: r)).1 = true then
    -(digVal ((takeSign (c :: r)).2.takeWhile isDig) : Int)
    else (digVal ((takeSign (c :: r)).2.takeWhile isDig) : Int)) = x at h
  split at h
  · cases h; simp at hf
  next h0 =>
  split at h
  · cases h; simp at hf
  next h1 =>
  split at h
  · cases h; simp at hf
  next h2 =>
  have hD := decimal_of_all (by simpa using h0) hds
  have hfit : FitsInt x := ⟨by omega, by omega⟩
  cases h
  refine ⟨x, rfl, ?_, rfl⟩
  rcases takeSign_split (c :: r) with ⟨e1, e2⟩ | ⟨e1, e2⟩ | ⟨e1, e2⟩
  · rw [show (takeSign (c :: r)).1 = true from congrArg Prod.fst e1, if_pos rfl] at hx
    refine ⟨text.takeWhile cSpace, '-' :: (takeSign (c :: r)).2.takeWhile isDig, ?_, hb, hx ▸ .minus hD, hfit, hend⟩
    rw [List.append_assoc, List.cons_append, ← hsp, ← e2]
    exact hw
  · rw [show (takeSign (c :: r)).1 = false from congrArg Prod.fst e1, if_neg (by simp)] at hx
    refine ⟨text.takeWhile cSpace, '+' :: (takeSign (c :: r)).2.takeWhile isDig, ?_, hb, hx ▸ .plus hD, hfit, hend⟩
    rw [List.append_assoc, List.cons_append, ← hsp, ← e2]
    exact hw
  · rw [show (takeSign (c :: r)).1 = false from congrArg Prod.fst e1, if_neg (by simp)] at hx
    refine ⟨text.takeWhile cSpace, (takeSign (c :: r)).2.takeWhile isDig, ?_, hb, hx ▸ .plain hD, hfit, hend⟩
    rw [List.append_assoc, ← hsp, ← e2]
    exact hw

/-- Integers that start a text are extracted. -/
theorem takes_extractInt {text rest : List Char} {n : Int} (h : TakesInt text n rest) :
    extractInt ⟨text, false, false⟩ = (⟨rest, false, rest.isEmpty⟩, some n) := by
  obtain ⟨w, t, rfl, hw, hd, hfit, hr⟩ := h
  obtain ⟨neg, ds, h0, hds, hs, -, hn⟩ := denotes_split hd
  have htr : ∃ c q, t ++ rest = c :: q ∧ cSpace c = false := by
    have first : ∀ {l : List Char} {n : Nat}, Decimal l n → ∃ c q, l = c :: q ∧ cSpace c = false := by
      intro l n h
      obtain ⟨a, b, -⟩ := decimal_all h
      obtain ⟨c, q, rfl⟩ := List.exists_cons_of_ne_nil a
      refine ⟨c, q, rfl, cSpace_false fun hb => ?_⟩
      obtain ⟨k, hk⟩ := (isDig_iff c).1 (b c (by simp))
      exact not_digit_blank hb k hk
    cases hd with
    | plain h => obtain ⟨c, q, rfl, hc⟩ := first h; exact ⟨c, _, rfl, hc⟩
    | plus h => exact ⟨'+', _, rfl, rfl⟩
    | minus h => exact ⟨'-', _, rfl, rfl⟩
  obtain ⟨c, q, ec, hc⟩ := htr
  have ed : (w ++ t ++ rest).dropWhile cSpace = c :: q := by
    rw [List.append_assoc, dropWhile_all (fun d hd => (cSpace_iff d).2 (hw d hd)), ec, List.dropWhile_cons, hc]
    rfl
  have er : rest.takeWhile isDig = [] ∧ rest.dropWhile isDig = rest := by
    cases rest with
    | nil => exact ⟨rfl, rfl⟩
    | cons d q =>
      have := isDig_false (hr d q rfl)
      rw [List.takeWhile_cons, List.dropWhile_cons, this]
      exact ⟨rfl, rfl⟩
  unfold extractInt
  rw [if_neg (by simp)]
  simp only
  rw [ed]
  simp only
  rw [← ec, hs rest]
  simp only
  rw [takeWhile_all hds, dropWhile_all hds, er.1, er.2, List.append_nil, if_neg (by simpa using h0), ← hn,
    if_neg (by have := hfit.1; omega), if_neg (by have := hfit.2; omega)]

/-- A successful extraction of a word. -/
theorem extractWord_takes {text : List Char} {fail eof : Bool} {s' : IStream} {t : List Char}
    (h : extractWord ⟨text, fail, eof⟩ = (s', t)) (hf : s'.fail = false) : TakesWord text t s'.rest := by
  unfold extractWord at h
  split at h
  · cases h; simp at hf
  simp only at h
  split at h
  · cases h; simp at hf
  next c r e =>
  have hw : text = text.takeWhile cSpace ++ (c :: r) := by
    rw [← e, List.takeWhile_append_dropWhile]
  have hc := dropWhile_head e
  cases h
  refine ⟨text.takeWhile cSpace, ?_, fun d hd => (cSpace_iff d).1 (takeWhile_mem hd), ?_, fun d hd => ?_, ?_⟩
  · rw [List.append_assoc, List.takeWhile_append_dropWhile]
    exact hw
  · rw [List.takeWhile_cons, hc]
    simp
  · have := takeWhile_mem hd
    rw [← cSpace_iff]
    simpa using this
  · cases e2 : (c :: r).dropWhile fun c => !cSpace c with
    | nil => exact .inl rfl
    | cons d q =>
      have := dropWhile_head e2
      exact .inr ⟨d, q, rfl, (cSpace_iff d).1 (by simpa using this)⟩

/-- Words that start a text are extracted. -/
theorem takes_extractWord {text t rest : List Char} (h : TakesWord text t rest) :
    extractWord ⟨text, false, false⟩ = (⟨rest, false, rest.isEmpty⟩, t) := by
  obtain ⟨w, rfl, hw, h0, ht, hr⟩ := h
  exact extractWord_word hw h0 ht hr

/-! ### Python -/

theorem pySpace_iff (c : Char) : pySpace c = true ↔ PyBlank c := by
  unfold pySpace PyBlank
  simp only [Bool.or_eq_true, cSpace_iff, beq_iff_eq, List.mem_cons, List.not_mem_nil, or_false, or_assoc]

theorem pySplitAux_isText (l : List Char) : ∀ cur : List Char, (∀ c ∈ cur, ¬ PyBlank c) →
    IsPyText (cur.reverse ++ l) (pySplitAux cur l) := by
  induction l with
  | nil =>
    intro cur hc
    rw [pySplitAux, List.append_nil]
    split
    · next e =>
      have : cur = [] := by simpa using e
      subst this
      exact .blank [] (by simp)
    · next e =>
      have := IsPyText.word [] cur.reverse [] [] (by simp) (by simpa using e)
        (fun c h => hc c (by simpa using h)) (.inl rfl) (.blank [] (by simp))
      simpa using this
  | cons c l ih =>
    intro cur hc
    rw [pySplitAux]
    split
    · next hs =>
      have hb := (pySpace_iff c).1 hs
      have ht := ih [] (by simp)
      rw [List.reverse_nil, List.nil_append] at ht
      have lead : ∀ {l : List Char} {ts : List (List Char)}, IsPyText l ts → IsPyText (c :: l) ts := by
        intro l ts h
        cases h with
        | blank w hw =>
          exact .blank _ fun d hd => by
            rcases List.mem_cons.1 hd with rfl | hd
            · exact hb
            · exact hw d hd
        | word w t r ts hw h0 ht hr h =>
          have := IsPyText.word (c :: w) t r ts (fun d hd => by
            rcases List.mem_cons.1 hd with rfl | hd
            · exact hb
            · exact hw d hd) h0 ht hr h
          simpa using this
      split
      · next e =>
        have : cur = [] := by simpa using e
        subst this
        exact lead ht
      · next e =>
        have := IsPyText.word [] cur.reverse (c :: l) _ (by simp) (by simpa using e)
          (fun d h => hc d (by simpa using h)) (.inr ⟨c, l, rfl, hb⟩) (lead ht)
        simpa using this
    · next hs =>
      have := ih (c :: cur) (fun d hd => by
        rcases List.mem_cons.1 hd with rfl | hd
        · rw [← pySpace_iff]; exact hs
        · exact hc d hd)
      simpa using this

/-- `str.split` finds the words. -/
theorem pySplit_isText (l : List Char) : IsPyText l (pySplit l) := by
  unfold pySplit
  have := pySplitAux_isText l [] (by simp)
  simpa using this

theorem pyDigits_numeral {t ds : List Char} (h : pyDigits t = some ds) :
    PyNumeral t ds ∧ ds ≠ [] ∧ ∀ c ∈ ds, isDig c = true := by
  induction t using pyDigits.induct generalizing ds with
  | case1 => simp [pyDigits] at h
  | case2 c hc =>
    rw [pyDigits, if_pos hc] at h
    cases h
    obtain ⟨k, hk⟩ := (isDig_iff c).1 hc
    exact ⟨.one hk, by simp, by simpa using hc⟩
  | case3 c hc => rw [pyDigits, if_neg hc] at h; cases h
  | case4 c r hc ih =>
    rw [pyDigits, if_pos hc] at h
    obtain ⟨k, hk⟩ := (isDig_iff c).1 hc
    cases e : pyDigits r with
    | none => rw [e] at h; cases h
    | some d =>
      rw [e] at h
      cases h
      obtain ⟨a, b, g⟩ := ih e
      refine ⟨.under hk a, by simp, fun x hx => ?_⟩
      rcases List.mem_cons.1 hx with rfl | hx
      · exact hc
      · exact g x hx
  | case5 c r hc => rw [pyDigits, if_neg hc] at h; cases h
  | case6 c d r hne hc ih =>
    rw [pyDigits, if_pos hc] at h
    · obtain ⟨k, hk⟩ := (isDig_iff c).1 hc
      cases e : pyDigits (d :: r) with
      | none => rw [e] at h; cases h
      | some d' =>
        rw [e] at h
        cases h
        obtain ⟨a, b, g⟩ := ih e
        refine ⟨.more hk a, by simp, fun x hx => ?_⟩
        rcases List.mem_cons.1 hx with rfl | hx
        · exact hc
        · exact g x hx
    · exact hne
  | case7 c d r hne hc =>
    rw [pyDigits, if_neg hc] at h
    · cases h
    · exact hne

/-- `int(token)` reads integers. -/
theorem pyInt_denotes {t : List Char} {n : Int} (h : pyInt t = some n) : PyDenotes t n := by
  unfold pyInt at h
  simp only at h
  split at h
  · cases h
  next ds e =>
  split at h
  · cases h
  obtain ⟨a, b, g⟩ := pyDigits_numeral e
  have hD := decimal_of_all b g
  rcases takeSign_split t with ⟨e1, e2⟩ | ⟨e1, e2⟩ | ⟨e1, e2⟩
  · rw [show (takeSign t).1 = true from congrArg Prod.fst e1] at h
    cases h
    rw [e2]
    exact .minus a hD
  · rw [show (takeSign t).1 = false from congrArg Prod.fst e1] at h
    cases h
    rw [e2]
    exact .plus a hD
  · rw [show (takeSign t).1 = false from congrArg Prod.fst e1] at h
    cases h
    rw [e2]
    exact .plain a hD

end Booz
