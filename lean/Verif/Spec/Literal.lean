import Verif.Spec.Lex

/-!
# Specification of quoted texts, string literals and numerals
-/

namespace Adql.Spec

/-- The inside of a quoted text: characters other than the quote, and doubled quotes. -/
inductive QBody (q : Char) : Str → Prop
  | nil : QBody q []
  | chr {c b} : c ≠ q → QBody q b → QBody q (c :: b)
  | dbl {b} : QBody q b → QBody q (q :: q :: b)

/-- A delimited identifier: a non-empty quoted body in double quotes. -/
def Delimited (t : Str) : Prop := ∃ b, t = '"' :: b ++ ['"'] ∧ b ≠ [] ∧ QBody '"' b

/-- One quoted part of a string literal. -/
def StrPart (t : Str) : Prop := ∃ b, t = '\'' :: b ++ ['\''] ∧ QBody '\'' b

/-- One separator between the parts of a string literal: a blank, a line end, or a comment. -/
inductive Sep : Str → Prop
  | blank : Sep [' ']
  | newline : Sep ['\n']
  | comment {u} : '\n' ∉ u → Sep ('-' :: '-' :: u ++ ['\n'])

/-- One or more separators. -/
inductive Seps : Str → Prop
  | one {t} : Sep t → Seps t
  | cons {t u} : Sep t → Seps u → Seps (t ++ u)

/-- The continuation of a string literal: separators and a further part, any number of times. -/
inductive StrTail : Str → Prop
  | nil : StrTail []
  | cons {x p t} : Seps x → StrPart p → StrTail t → StrTail (x ++ (p ++ t))

/-- A string literal. -/
def StrLit (t : Str) : Prop := ∃ p u, t = p ++ u ∧ StrPart p ∧ StrTail u

/-- `r` does not start with the character `q` -/
def NotHead (q : Char) (r : Str) : Prop := ∀ t, r ≠ q :: t

/-- A non-empty string of digits. -/
def Digits (t : Str) : Prop := t ≠ [] ∧ ∀ c ∈ t, Digit c

/-- Mantissa: digits, digits with a fraction, or a fraction. -/
inductive Mantissa : Str → Prop
  | int {d} : Digits d → Mantissa d
  | dec {d f} : Digits d → Digits f → Mantissa (d ++ '.' :: f)
  | frac {f} : Digits f → Mantissa ('.' :: f)

/-- Exponent part. -/
inductive Expo : Str → Prop
  | mk {e d} : e = 'E' ∨ e = 'e' → Digits d → Expo (e :: d)
  | signed {e g d} : e = 'E' ∨ e = 'e' → g = '+' ∨ g = '-' → Digits d → Expo (e :: g :: d)

/-- An unsigned numeric literal. -/
inductive NumLit : Str → Prop
  | exact {m} : Mantissa m → NumLit m
  | approx {m e} : Mantissa m → Expo e → NumLit (m ++ e)

/-- An identifier, unquoted or delimited, at the start of a text; `r` is what follows it. -/
def IdentAt (x r : Str) : Prop :=
  (IdentShape x ∧ NotContinued r ∧ (Reserved x → (∃ m ∈ missed, SameCI x m) ∨ EndExec x r)) ∨
  (Delimited x ∧ NotHead '"' r)

end Adql.Spec
