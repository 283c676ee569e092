import Verif.Spec.Exchange

/-!
# Names of uploaded tables put in later

A text can be read with a mapping that gives every uploaded table a mark and its own name, and the real names can be put
into the tree afterwards.
-/

namespace Adql.Spec

/-- The mark: a character that no name in a text begins with. -/
def mark : Char := Char.ofNat 0

/-- The mapping with the same uploaded tables that gives each of them the mark and its own name. -/
def marked (m : Str → Option Str) (x : Str) : Option Str := (m x).map fun _ => mark :: x

/-- A marked name becomes the mapped one. -/
def putName (m : Str → Option Str) : Str → Str
  | [] => []
  | c :: x => if c = mark then (m x).getD [] else c :: x

/-- So does a marked name followed by `.*`. -/
def putStar (m : Str → Option Str) : Str → Str
  | [] => []
  | c :: x => if c = mark then (m x.dropLast.dropLast).getD [] ++ cs!".*" else c :: x

/-- A table, a column and an item `t.*`, the only places where the names are put in; of a column, only the qualifier in front
of its name. -/
def putNames (m : Str → Option Str) : Exchange where
  tab t := ⟨putName m t.name, t.as⟩
  col
    | .qc t c => .qc (putName m t) c
    | c => c
  star := putStar m

/-- The two mappings have the same uploaded tables, whatever they call them. -/
def SameUploads (m m' : Str → Option Str) : Prop := ∀ x, (m x).isSome = (m' x).isSome

/-- A pattern, filled in: some parts are texts, others are names for which something else is put in. -/
def fillIn (f : Str → Str) : List (Str ⊕ Str) → Str
  | [] => []
  | .inl s :: l => s ++ fillIn f l
  | .inr n :: l => f n ++ fillIn f l

end Adql.Spec
