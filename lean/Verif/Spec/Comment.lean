import Verif.Spec.Text

/-!
# Specification: where a text starts a comment

For the database that receives the formatted query, two minus signs outside quotes start a comment
that reaches to the end of the line.
-/

namespace Adql.Spec

/-- The quote that is open after one more character. -/
def quoteStep : Option Char → Char → Option Char
  | none, c => if c = '\'' ∨ c = '"' then some c else none
  | some q, c => if c = q then none else some q

/-- The quote that is open after the text. -/
def quoteState (s : Str) : Option Char := s.foldl quoteStep none

/-- Two minus signs outside quotes. -/
def HasComment (s : Str) : Prop := ∃ x y, s = x ++ '-' :: '-' :: y ∧ quoteState x = none

/-- Two minus signs outside quotes with nothing but blanks between them. -/
def HasMinusPair (s : Str) : Prop :=
  ∃ x b y, s = x ++ '-' :: (b ++ '-' :: y) ∧ Blanks b ∧ quoteState x = none

/-- The first character that is not a blank is a minus sign. -/
def MinusFirst (y : Str) : Prop := ∃ b v, Blanks b ∧ y = b ++ '-' :: v

/-- The last character that is not a blank is a minus sign. -/
def MinusLast (y : Str) : Prop := ∃ u b, Blanks b ∧ y = u ++ '-' :: b

/-- A text that is not blank, with its quotes closed, without a pair of minus signs outside quotes
and without a minus sign at the end. -/
structure Harmless (y : Str) : Prop where
  ink : ¬ Blanks y
  closed : quoteState y = none
  pair : ¬ HasMinusPair y
  last : ¬ MinusLast y

end Adql.Spec
