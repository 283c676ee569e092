import Verif.Spec.Regular
import Verif.Spec.Boolean
import Verif.Spec.Same

/-!
# Changes that a program makes to a query
-/

namespace Adql.Spec

/-- What a program has to respect when it builds or changes a query: the documented contents of the classes, no geometric
constraints in subqueries, and what `Regular` says. -/
def WellMade (nots : Bool) (M : Str → Prop) (n : Node) : Prop := Ranges M n ∧ NoGeometry n ∧ Regular nots n

/-- Both conditions, each in parentheses; an empty first one is left out. -/
def both (c d : SC) : SC :=
  if c.isEmpty then .factor (.mk [] (.sc d)) else .term (.mk [] (.sc c)) cs!"AND" (.factor (.mk [] (.sc d)))

/-- One more condition for a SELECT. -/
def restrict (d : SC) : SFW → SFW
  | .mk s ts (.mk g c) => .mk s ts (.mk g (both c d))

/-- Another TOP clause. -/
def setTop (n : Nat) : Select → Select
  | .mk q _ c => .mk q n c

/-- the SELECT behind a UNION changed by `f` -/
def onSelect (f : SFW → SFW) : Addon → Addon
  | .mk op s => .mk op (f s)

/-- the SELECTs of a query changed by `f` -/
def everySelect (f : SFW → SFW) : QuerySpec → QuerySpec
  | .mk w (.mk i as) g h o => .mk w (.mk (f i) (as.map (onSelect f))) g h o

/-! ### Meaning of conditions: `ρ` and `γ` say for a row what the values of the simple conditions are. -/

/-- The truth values of SQL (SQL-92 §8.12). -/
inductive Truth where
  | yes
  | no
  | unknown
deriving DecidableEq, Repr

/-- both hold -/
def Truth.and : Truth → Truth → Truth
  | .no, _ => .no
  | _, .no => .no
  | .yes, .yes => .yes
  | _, _ => .unknown

/-- one of them holds -/
def Truth.or : Truth → Truth → Truth
  | .yes, _ => .yes
  | _, .yes => .yes
  | .no, .no => .no
  | _, _ => .unknown

/-- it does not hold -/
def Truth.not : Truth → Truth
  | .yes => .no
  | .no => .yes
  | .unknown => .unknown

/-- a known value -/
def Truth.ofBool : Bool → Truth
  | true => .yes
  | false => .no

/-- as `evalFrom`, for these values -/
def valueFrom : Truth → List (Conn × Truth) → Truth
  | acc, [] => acc
  | acc, (.and, a) :: r => valueFrom (acc.and a) r
  | acc, (.or, a) :: r => acc.or (valueFrom a r)

/-- The value of a sequence; AND binds tighter than OR. -/
def valueOf (q : CondSeq Truth) : Truth := valueFrom q.first q.rest

/-- the connective of an operator -/
def connOf (op : Str) : Conn := if upper op = cs!"OR" then .or else .and

mutual

/-- The values of the parts of a condition, in the order of the text. -/
def parts (ρ : BP → Truth) : SC → CondSeq Truth
  | .factor b => .atom (factorHolds ρ b)
  | .term b op s => (CondSeq.atom (factorHolds ρ b)).join (connOf op) (parts ρ s)

/-- the value of a part -/
def factorHolds (ρ : BP → Truth) : BF → Truth
  | .mk n p => if n.isEmpty then primHolds ρ p else (primHolds ρ p).not

/-- the value of a part without NOT -/
def primHolds (ρ : BP → Truth) : BP → Truth
  | .sc s => valueOf (parts ρ s)
  | .pred p => ρ (.pred p)
  | .ve v => ρ (.ve v)

end

/-- The value of a condition. -/
def holds (ρ : BP → Truth) (c : SC) : Truth := valueOf (parts ρ c)

/-- The value of a WHERE clause.  Its text is the geometric constraint, AND, and the condition, without parentheses: AND
binds to the first part of the condition. -/
def whereHolds (γ : Geom → Truth) (ρ : BP → Truth) : Where → Truth
  | .mk g c =>
    if g.isEmpty then if c.isEmpty then .yes else holds ρ c
    else if c.isEmpty then γ g else valueOf ((CondSeq.atom (γ g)).join .and (parts ρ c))

/-- The value of the geometric constraint and the condition as a whole. -/
def sfwHolds (γ : Geom → Truth) (ρ : BP → Truth) : SFW → Truth
  | .mk _ _ (.mk g c) => (if g.isEmpty then Truth.yes else γ g).and (if c.isEmpty then .yes else holds ρ c)

/-- `ρ` and `γ` do not depend on the spelling. -/
def SpellingFree (fmt : Str → Str) (γ : Geom → Truth) (ρ : BP → Truth) : Prop :=
  (∀ p : BP, ρ (p.norm fmt) = ρ p) ∧ ∀ g : Geom, γ (g.norm fmt) = γ g

end Adql.Spec
