import Verif.Model.Words

/-!
# Lexical specification: identifiers and reserved words

Stated without the parser.
-/

namespace Adql.Spec

/-- ASCII letter -/
def Letter (c : Char) : Prop := ('a' ≤ c ∧ c ≤ 'z') ∨ ('A' ≤ c ∧ c ≤ 'Z')
/-- ASCII digit -/
def Digit (c : Char) : Prop := '0' ≤ c ∧ c ≤ '9'
/-- a character that may continue an unquoted identifier -/
def IdChar (c : Char) : Prop := Letter c ∨ Digit c ∨ c = '_'

/-- the shape of an unquoted identifier -/
def IdentShape (w : Str) : Prop := ∃ c t, w = c :: t ∧ Letter c ∧ ∀ d ∈ t, IdChar d

/-- `r` does not continue a word -/
def NotContinued (r : Str) : Prop := ∀ c t, r = c :: t → ¬ IdChar c

/-- `u` and `v` are equal up to the case of ASCII letters -/
def SameCI (u v : Str) : Prop := u.map lowerC = v.map lowerC

/-- All reserved words, in the order in which the code looks at them. -/
def words : List Str := sqlWords ++ adqlWords

/-- `w` is a reserved word, in any letter case. -/
def Reserved (w : Str) : Prop := ∃ k ∈ words, SameCI w k

/-- The reserved words that the code does *not* refuse as identifiers: another reserved word that is
a proper prefix of them is listed earlier. -/
def missed : List Str :=
  [cs!"TOP", cs!"INTERSECTS", cs!"ATAN2", cs!"ATAN", cs!"ASIN", cs!"AREA"]

/-- The only context in which the outcome depends on what follows the word: `END` in front of
`-EXEC` directly followed by a word character (`END-EXEC` is itself in the table). -/
def EndExec (w r : Str) : Prop :=
  SameCI w cs!"END" ∧ ∃ x c t, r = x ++ c :: t ∧ SameCI x cs!"-EXEC" ∧ IdChar c

end Adql.Spec
