import Verif.Spec.Comment

/-!
# Specification: a text that can be put into another one

A database, or a program that puts the formatted query into a larger statement, reads it from left to right and keeps
track of the quote and of the brackets that are open.  A text is sealed if every bracket outside quotes is closed by
its counterpart, nothing else is closed, no quote stays open, and outside quotes there are only the characters of
names, numbers and operators, and blanks.  In particular, no semicolon outside quotes ends the statement.
-/

namespace Adql.Spec

/-- What is open: the characters that close the open brackets, the innermost first, and the quote. -/
structure Opened where
  brackets : List Char
  quote : Option Char

/-- The characters of names, numbers and operators, and blanks. -/
def usual (c : Char) : Bool :=
  (c.toNat ≥ 48 && c.toNat ≤ 57) || (c.toNat ≥ 97 && c.toNat ≤ 122) || (c.toNat ≥ 65 && c.toNat ≤ 90) || isSpace c ||
    c ∈ ['_', '.', ',', '*', '/', '+', '-', '=', '<', '>', '!', '|', ':']

/-- Further characters that the reader allows outside quotes, for example in the names of tables that the mapping gives. -/
class Extra where
  ok : Char → Bool

/-- No further characters. -/
abbrev noExtra : Extra := ⟨fun _ => false⟩

section
variable [Extra]

/-- What is open after one more character; nothing if the character is not allowed or closes a bracket that is not the
innermost open one. -/
def Opened.next : Opened → Char → Option Opened
  | ⟨l, some q⟩, c => some (if c = q then ⟨l, none⟩ else ⟨l, some q⟩)
  | ⟨l, none⟩, c =>
    if c = '\'' ∨ c = '"' then some ⟨l, some c⟩
    else if c = '(' then some ⟨')' :: l, none⟩
    else if c = '[' then some ⟨']' :: l, none⟩
    else if c = ')' ∨ c = ']' then (if l.head? = some c then some ⟨l.tail, none⟩ else none)
    else if usual c || Extra.ok c then some ⟨l, none⟩
    else none

/-- What is open after a text. -/
def Opened.after (o : Opened) : Str → Option Opened
  | [] => some o
  | c :: t => (o.next c).bind fun o' => o'.after t

/-- Nothing is open. -/
def nothing : Opened := ⟨[], none⟩

/-- The text closes what it opens and nothing else, and has no other characters outside quotes. -/
def Sealed (s : Str) : Prop := nothing.after s = some nothing

end

/-- What is outside quotes, when the quote is open in front of the text. -/
def bare : Option Char → Str → Str
  | _, [] => []
  | none, c :: t => if c = '\'' ∨ c = '"' then bare (some c) t else c :: bare none t
  | some q, c :: t => if c = q then bare none t else bare (some q) t

end Adql.Spec
