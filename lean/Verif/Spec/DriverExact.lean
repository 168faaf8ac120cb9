import Verif.Spec.Driver

/-!
# Specification: the input files that `xbooz_xform` accepts

Written without reference to the functions of the model that read them.
-/

namespace Booz.Spec

/-- After white space the text starts with an integer in decimal notation, which fits in an `int`; `rest` is what
follows its last digit. -/
def TakesInt (text : List Char) (n : Int) (rest : List Char) : Prop :=
  ∃ w t, text = w ++ t ++ rest ∧ (∀ c ∈ w, Blank c) ∧ Denotes t n ∧ FitsInt n ∧
    ∀ c r, rest = c :: r → ∀ k, ¬ Digit c k

/-- After white space the text starts with the word `t`; `rest` is what follows the word. -/
def TakesWord (text t rest : List Char) : Prop :=
  ∃ w, text = w ++ t ++ rest ∧ (∀ c ∈ w, Blank c) ∧ t ≠ [] ∧ (∀ c ∈ t, ¬ Blank c) ∧
    (rest = [] ∨ ∃ c r, rest = c :: r ∧ Blank c)

/-- The text starts with two integers and a word (not necessarily separated by white space, as in `16 8x`). -/
def Opens (text : List Char) (m n : Int) (ext : List Char) : Prop :=
  ∃ r₁ r₂ r₃, TakesInt text m r₁ ∧ TakesInt r₁ n r₂ ∧ TakesWord r₂ ext r₃

/-- White space for Python. -/
def PyBlank (c : Char) : Prop := Blank c ∨ c ∈ ['\x1c', '\x1d', '\x1e', '\x1f']

/-- A text consists of these words, for Python. -/
inductive IsPyText : List Char → List (List Char) → Prop
  | blank (w : List Char) (hw : ∀ c ∈ w, PyBlank c) : IsPyText w []
  | word (w t r : List Char) (ts : List (List Char)) (hw : ∀ c ∈ w, PyBlank c) (h0 : t ≠ [])
      (ht : ∀ c ∈ t, ¬ PyBlank c) (hr : r = [] ∨ ∃ c r', r = c :: r' ∧ PyBlank c) (h : IsPyText r ts) :
      IsPyText (w ++ t ++ r) (t :: ts)

/-- Decimal digits for Python, between which single underscores are allowed, and the digits alone. -/
inductive PyNumeral : List Char → List Char → Prop
  | one {c : Char} {k : Nat} (h : Digit c k) : PyNumeral [c] [c]
  | more {c : Char} {k : Nat} {t ds : List Char} (hc : Digit c k) (h : PyNumeral t ds) : PyNumeral (c :: t) (c :: ds)
  | under {c : Char} {k : Nat} {t ds : List Char} (hc : Digit c k) (h : PyNumeral t ds) :
      PyNumeral (c :: '_' :: t) (c :: ds)

/-- The integers that Python reads. -/
inductive PyDenotes : List Char → Int → Prop
  | plain {t ds : List Char} {n : Nat} (ht : PyNumeral t ds) (h : Decimal ds n) : PyDenotes t n
  | plus {t ds : List Char} {n : Nat} (ht : PyNumeral t ds) (h : Decimal ds n) : PyDenotes ('+' :: t) n
  | minus {t ds : List Char} {n : Nat} (ht : PyNumeral t ds) (h : Decimal ds n) : PyDenotes ('-' :: t) (-n)

/-- For Python, the text starts with two integers and a word. -/
def PyOpens (text : List Char) (m n : Int) (ext : List Char) : Prop :=
  ∃ t₁ t₂ ts, IsPyText text (t₁ :: t₂ :: ext :: ts) ∧ PyDenotes t₁ m ∧ PyDenotes t₂ n

end Booz.Spec
