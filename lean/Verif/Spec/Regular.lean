import Verif.Spec.Core
import Verif.Spec.Tree

/-!
# Which trees are regular

`Regular` lists, node by node, what a parsed tree may contain that keeps its formatted text from being read
again, or that the core language of `Core.lean` leaves out.  Nothing is said about the text the tree came
from.
-/

namespace Adql.Spec

/-! ### Conditions -/

mutual

/-- What is found when the text of a condition is read as an expression. -/
def headSC : SC → Head
  | .factor b => headBF b
  | .term b _ _ => (headBF b).more

/-- the same for a factor -/
def headBF : BF → Head
  | .mk [] p => headBP p
  | .mk _ _ => .none

/-- the same for a factor without NOT -/
def headBP : BP → Head
  | .pred (.exist _) => .none
  | .pred _ => .stops
  | .sc c => (headSC c).paren
  | .ve _ => .whole

end

mutual

/-- The value ends with an expression that is a condition by itself. -/
def bareVE : VE → Bool
  | .nb _ => false
  | .sc c => bareSC c

/-- The factor ends with an expression that is a condition by itself. -/
def bareBF : BF → Bool
  | .mk _ (.pred (.cmp _ _ w)) => bareVE w
  | .mk _ (.pred (.between _ _ _ hi)) => bareVE hi
  | .mk _ (.pred _) => false
  | .mk _ (.sc c) => decide ((headSC c).paren = .whole)
  | .mk _ (.ve _) => true

/-- The condition ends with an expression that is a condition by itself. -/
def bareSC : SC → Bool
  | .factor b => bareBF b
  | .term _ _ c => bareSC c

end

/-- The value is a condition. -/
def isCond : VE → Bool
  | .nb _ => false
  | .sc _ => true

/-- The factor ends with a condition as a value. -/
def condBF : BF → Bool
  | .mk _ (.pred (.cmp _ _ w)) => isCond w
  | .mk _ (.pred (.between _ _ _ hi)) => isCond hi
  | _ => false

/-- The expression begins with a parenthesis. -/
def startsParen : VENB → Bool
  | .mk (.mk [] (.vep (.mk (.sub _) _))) _ => true
  | _ => false

/-- No operand is negated that follows a string and a minus sign; the flag says whether a string is before the
first operator. -/
def minusOK : Bool → List Term → Prop
  | _, [] => True
  | q, .mk op (.mk sign p) :: ts => (q = true → op = cs!"-" → sign ≠ cs!"-") ∧ minusOK (strAtom p) ts

/-! ### Joins -/

/-- The table ends with a join that has no specification. -/
def openJT : JT → Bool
  | .qj (.mk _ ss) => match ss.getLast? with
    | some (.mk _ _ _ (.named [])) => true
    | _ => false
  | .wrap _ => false

/-- the same for any table -/
def openTR : TR → Bool
  | .jt j => openJT j
  | _ => false

/-- The join has a specification. -/
def hasSpec : JoinSuffix → Bool
  | .mk _ _ _ (.named []) => false
  | _ => true

/-- The join begins with the word INNER. -/
def startsInner : JoinSuffix → Bool
  | .mk false (.str (_ :: _)) _ _ => true
  | _ => false

/-- The join ends with an expression that is a condition by itself. -/
def bareSuffix : JoinSuffix → Bool
  | .mk _ _ _ (.on c) => bareSC c
  | _ => false

/-- A specification belongs to the last join before it that has none. -/
def sufOK : JoinSuffix → Prop
  | .mk n ty t sp => hasSpec (.mk n ty t sp) = true → openTR t = false

/-- A join behind the further table becomes part of it. -/
def takesSuffix : JoinSuffix → Bool
  | .mk _ _ t _ => takesJoin t

/-- Joins in a row: only the last one is without specification, unless its table does not take the next one, and INNER does not follow an expression that is a
condition by itself. -/
def sufsOK : List JoinSuffix → Prop
  | [] => True
  | [x] => sufOK x
  | x :: y :: l => sufOK x ∧ (hasSpec x = true ∨ takesSuffix x = false) ∧ (bareSuffix x = true → startsInner y = false) ∧ sufsOK (y :: l)

/-! ### Names -/

/-- The name is not `END`, which is a name in front of `-EXEC` only. -/
def OtherName (x : Str) : Prop := ¬ SameCI x cs!"END"

/-- The name can begin an expression: it does not begin with one of `greedyWords`, and is neither one of
`openWords` nor `TAP_UPLOAD`. -/
def FirstName (x : Str) : Prop := OtherName x ∧ PlainWord x ∧ x ≠ cs!"TAP_UPLOAD"

/-- The name can be the name of a function. -/
def CallName (x : Str) : Prop := OtherName x ∧ (∀ w ∈ openWords, ¬ SameCI x w) ∧ x ≠ cs!"TAP_UPLOAD"

/-! ### All nodes -/

/-- What a regular tree may contain; without `nots`, no condition begins with a name that begins with NOT. -/
def Regular (nots : Bool) : Node → Prop
  | .bf (.mk [] p) => nots = false → prefixCI cs!"NOT" (firstBP p) = false
  -- a condition as a value does not begin with an expression
  | .ve (.sc c) => headSC c = .none
  -- what follows a condition as a value belongs to it
  | .sc (.term b _ _) => condBF b = false
  | .pred (.between _ _ (.sc _) _) => False
  -- a pattern is an expression
  | .pred (.like _ _ (.sc _)) => False
  -- no negated operand after a string and a minus sign
  | .venb (.mk f ts) => minusOK (strFactor f) ts
  | .numFn (.udf fn _) => CallName fn ∧ ¬ SameCI fn cs!"DISTINCT"
  | .result (.str _) => False
  -- an expression in parentheses, alone, is a condition in parentheses
  | .bp (.ve v) => startsParen v = false ∧ prefixCI cs!"EXISTS" (firstExpr v) = false
  -- a list does not begin like a subquery
  | .pred (.inList _ _ l) => prefixCI cs!"WITH" (firstArgs l) = false ∧ prefixCI cs!"SELECT" (firstArgs l) = false
  | .subq (.jt j) => prefixCI cs!"WITH" (firstJT j) = false ∧ prefixCI cs!"SELECT" (firstJT j) = false
  | .qj (.mk h ss) => (∀ q, h ≠ .jt (.qj q)) ∧ sufsOK ss
  | .spec (.named l) => ∀ c ∈ l, OtherName c
  | .tr (.derived (.qs _) x) => OtherName x
  -- a join in parentheses is a table by itself
  | .tr (.derived (.jt _) _) => False
  | .tr (.tvf _ l) => l ≠ []
  | .item (.as _ x) => OtherName x
  | .item (.nonAsStr s) => ∃ t, s = t ++ cs!".*" ∧ TabName t
  | .group (.col _) => False
  | .with_ (.mk n l _) => OtherName n ∧ ∀ c ∈ l, OtherName c
  | .tcorr ⟨n, x⟩ => FromName n ∧ OtherName x
  | .colRef (.col a) => FirstName a
  | .colRef (.qc a b) => TabName a ∧ OtherName b
  | .colRef (.sqc a b c) => FirstName a ∧ OtherName b ∧ OtherName c
  | .colRef (.csqc a b c d) => FirstName a ∧ OtherName b ∧ OtherName c ∧ OtherName d
  -- a word by itself is a column
  | .coordExpr (.num x) => CoordNum x ∧ ∀ c t, x = c :: t → ¬ Letter c
  | .coordExpr (.bae x _ y) => CoordNum x ∧ CoordNum y
  | _ => True

/-- No name that replaces the one of an uploaded table begins with one of the words that must be followed by a blank
where an expression could begin. -/
def MapsWell (m : Str → Option Str) : Prop :=
  ∀ x z, m x = some z → ∀ w ∈ [cs!"EXISTS", cs!"WITH", cs!"SELECT"], prefixCI w z = false

/-- What is left of `Regular` for a tree that came from a text: the other conditions hold of it anyway. -/
def Usual (nots : Bool) : Node → Prop
  | .bf (.mk _ p) => nots = false → prefixCI cs!"NOT" (firstBP p) = false
  | .venb (.mk f ts) => minusOK (strFactor f) ts
  | .numFn (.udf fn _) => CallName fn ∧ ¬ SameCI fn cs!"DISTINCT"
  | .bp (.ve v) => startsParen v = false
  | .spec (.named l) => ∀ c ∈ l, OtherName c
  | .tr (.derived _ x) => OtherName x
  | .tr (.tvf _ l) => l ≠ []
  | .item (.as _ x) => OtherName x
  | .item (.nonAsStr s) => ∃ t, s = t ++ cs!".*" ∧ TabName t
  | .with_ (.mk n l _) => OtherName n ∧ ∀ c ∈ l, OtherName c
  | .tcorr ⟨n, x⟩ => FromName n ∧ OtherName x
  | .colRef (.col a) => FirstName a
  | .colRef (.qc a b) => TabName a ∧ OtherName b
  | .colRef (.sqc a b c) => FirstName a ∧ OtherName b ∧ OtherName c
  | .colRef (.csqc a b c d) => FirstName a ∧ OtherName b ∧ OtherName c ∧ OtherName d
  | _ => True

end Adql.Spec
