import Verif.Model.Cli

/-!
# Specification of the input file of `xbooz_xform`

Written without reference to the functions of the model that read it.
-/

namespace Booz.Spec

/-- White space. -/
def Blank (c : Char) : Prop := c ∈ [' ', '\t', '\n', '\x0b', '\x0c', '\r']

/-- A text consists of these words: maximal sequences of characters other than white space. -/
inductive IsText : List Char → List (List Char) → Prop
  | blank (w : List Char) (hw : ∀ c ∈ w, Blank c) : IsText w []
  | word (w t r : List Char) (ts : List (List Char)) (hw : ∀ c ∈ w, Blank c) (h0 : t ≠ [])
      (ht : ∀ c ∈ t, ¬ Blank c) (hr : r = [] ∨ ∃ c r', r = c :: r' ∧ Blank c) (h : IsText r ts) :
      IsText (w ++ t ++ r) (t :: ts)

/-- A decimal digit and its value. -/
def Digit (c : Char) (k : Nat) : Prop := k < 10 ∧ c.toNat = 48 + k

/-- Decimal notation for natural numbers (leading zeros allowed). -/
inductive Decimal : List Char → Nat → Prop
  | one {c : Char} {k : Nat} (h : Digit c k) : Decimal [c] k
  | more {ds : List Char} {n : Nat} {c : Char} {k : Nat} (h : Decimal ds n) (hc : Digit c k) :
      Decimal (ds ++ [c]) (10 * n + k)

/-- Decimal notation for integers. -/
inductive Denotes : List Char → Int → Prop
  | plain {ds : List Char} {n : Nat} (h : Decimal ds n) : Denotes ds n
  | plus {ds : List Char} {n : Nat} (h : Decimal ds n) : Denotes ('+' :: ds) n
  | minus {ds : List Char} {n : Nat} (h : Decimal ds n) : Denotes ('-' :: ds) (-n)

/-- A word that does not start like a number. -/
inductive NotNumber : List Char → Prop
  | letter {c : Char} {r : List Char} (h : ∀ k, ¬ Digit c k) (hs : c ≠ '+' ∧ c ≠ '-') :
      NotNumber (c :: r)
  | sign {s : Char} {r : List Char} (hs : s = '+' ∨ s = '-')
      (h : ∀ c r', r = c :: r' → ∀ k, ¬ Digit c k) : NotNumber (s :: r)

/-- The word denotes an integer that fits in an `int`. -/
def IntWord (t : List Char) (n : Int) : Prop := Denotes t n ∧ FitsInt n

/-- The word denotes an integer that does not fit in an `int`. -/
def HugeWord (t : List Char) : Prop := ∃ n, Denotes t n ∧ ¬ FitsInt n

/-- The words list these integers; reading stops at the first word that does not start like a
number, if there is one. -/
inductive ListsInts : List (List Char) → List Int → Prop
  | done : ListsInts [] []
  | stop {t : List Char} {ts : List (List Char)} (h : NotNumber t) : ListsInts (t :: ts) []
  | more {t : List Char} {ts : List (List Char)} {n : Int} {l : List Int} (h : IntWord t n)
      (hl : ListsInts ts l) : ListsInts (t :: ts) (n :: l)

/-- The text of an input file that asks for `r`. -/
def Asks (content : List Char) (r : Request) : Prop :=
  ∃ tm tn ts, IsText content (tm :: tn :: r.ext :: ts) ∧ IntWord tm r.mboz ∧ IntWord tn r.nboz ∧
    ListsInts ts r.surfs

end Booz.Spec
