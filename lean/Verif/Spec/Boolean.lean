import Verif.Spec.Lex

/-!
# Meaning of a sequence of conditions connected by AND and OR

AND binds tighter than OR (SQL-92 §8.12).
-/

namespace Adql.Spec

/-- connective -/
inductive Conn where
  | and
  | or
deriving DecidableEq, Repr

/-- `a0 c1 a1 c2 a2 …` -/
structure CondSeq (α : Type) where
  first : α
  rest : List (Conn × α)
deriving Repr

/-- `acc` is the value of the conjunction read so far. -/
def evalFrom {α : Type} (ρ : α → Bool) : Bool → List (Conn × α) → Bool
  | acc, [] => acc
  | acc, (.and, a) :: r => evalFrom ρ (acc && ρ a) r
  | acc, (.or, a) :: r => acc || evalFrom ρ (ρ a) r

/-- The value under a truth assignment of the atoms. -/
def CondSeq.eval {α : Type} (ρ : α → Bool) (q : CondSeq α) : Bool := evalFrom ρ (ρ q.first) q.rest

/-- `q c q'`, as written one after the other -/
def CondSeq.join {α : Type} (q : CondSeq α) (c : Conn) (q' : CondSeq α) : CondSeq α :=
  ⟨q.first, q.rest ++ (c, q'.first) :: q'.rest⟩

/-- a single atom -/
def CondSeq.atom {α : Type} (a : α) : CondSeq α := ⟨a, []⟩

/-- The sequence has no OR at its outermost level. -/
def CondSeq.noOr {α : Type} (q : CondSeq α) : Prop := ∀ x ∈ q.rest, x.1 = .and

/-- The atoms, in order. -/
def CondSeq.atoms {α : Type} (q : CondSeq α) : List α := q.first :: q.rest.map (·.2)

/-- the text of a connective between blanks -/
def Conn.text : Conn → Str
  | .and => cs!" AND "
  | .or => cs!" OR "

/-- The text of a sequence. -/
def CondSeq.render {α : Type} (f : α → Str) (q : CondSeq α) : Str :=
  f q.first ++ (q.rest.map fun x => x.1.text ++ f x.2).flatten

/-- `l AND g` or `l AND g AND r` -/
def written {α : Type} (l : CondSeq α) (g : α) (r : Option (CondSeq α)) : CondSeq α :=
  match r with
  | some r => (l.join .and (.atom g)).join .and r
  | none => l.join .and (.atom g)

/-- `g AND l` or `g AND l AND r` -/
def moved {α : Type} (l : CondSeq α) (g : α) (r : Option (CondSeq α)) : CondSeq α :=
  match r with
  | some r => ((CondSeq.atom g).join .and l).join .and r
  | none => (CondSeq.atom g).join .and l

end Adql.Spec
