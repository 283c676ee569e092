import Verif.Spec.Core

/-!
# Queries made of queries

The trees of the four ways to use a query as a part of another one, and the conditions on the parts.
-/

namespace Adql.Spec

/-- No geometric constraint in a SELECT. -/
def PlainSFW : SFW → Prop
  | .mk _ _ (.mk g _) => g = Geom.dflt

/-- No geometric constraint in the SELECTs of a query. -/
def PlainSelects : QuerySpec → Prop
  | .mk _ (.mk x l) _ _ _ => PlainSFW x ∧ ∀ op y, Addon.mk op y ∈ l → PlainSFW y

/-- No clause behind the SELECTs: GROUP BY, HAVING or ORDER BY. -/
def NoTail : QuerySpec → Prop
  | .mk _ _ g h o => g = [] ∧ h = SC.dflt ∧ o = []

/-- No WITH before the SELECTs. -/
def NoWith : QuerySpec → Prop
  | .mk w _ _ _ _ => w = With.dflt

/-- `SELECT * FROM t WHERE c` without other clauses -/
def starFrom (w : With) (t : TR) (c : SC) : QuerySpec :=
  .mk w (.mk (.mk (.mk [] (2 ^ 64 - 1) (.star cs!"*")) [t] (.mk Geom.dflt c)) []) [] SC.dflt []

/-- The query as a table called `x`. -/
def asTable (q : QuerySpec) (x : Str) : QuerySpec := starFrom With.dflt (.derived (.qs q) x) SC.dflt

/-- The query as a table called `x` in a WITH clause. -/
def asWith (q : QuerySpec) (x : Str) : QuerySpec := starFrom (.mk x [] (.qs q)) (.tc ⟨x, []⟩) SC.dflt

/-- The query in EXISTS; the table is called `t`. -/
def asExists (q : QuerySpec) (t : Str) : QuerySpec :=
  starFrom With.dflt (.tc ⟨t, []⟩) (.factor (.mk [] (.pred (.exist (.qs q)))))

/-- The query as the set of the values of the column `c`. -/
def asSet (q : QuerySpec) (t c : Str) : QuerySpec :=
  starFrom With.dflt (.tc ⟨t, []⟩) (.factor (.mk [] (.pred (.inSub (.mk (.mk [] (.vep (.mk (.col (.col c)) []))) []) [] (.qs q)))))

/-- Two queries connected by UNION: the clauses behind the SELECTs come from the second one. -/
def asUnion (op : Str) : QuerySpec → QuerySpec → QuerySpec
  | .mk w (.mk x l) _ _ _, .mk _ (.mk y l') g h o => .mk w (.mk x (l ++ (.mk op y :: l'))) g h o

/-! ### Texts -/

/-- the text `s` as a table called `x` -/
def tableText (s x : Str) : Str := cs!"SELECT * FROM (" ++ s ++ cs!") AS " ++ x

/-- the text `s` in a WITH clause -/
def withText (s x : Str) : Str := cs!"WITH " ++ x ++ cs!" AS (" ++ s ++ cs!") SELECT * FROM " ++ x

/-- the text `s` in EXISTS -/
def existsText (s t : Str) : Str := cs!"SELECT * FROM " ++ t ++ cs!" WHERE EXISTS (" ++ s ++ cs!")"

/-- the text `s` as a set of values -/
def setText (s t c : Str) : Str := cs!"SELECT * FROM " ++ t ++ cs!" WHERE " ++ c ++ cs!" IN (" ++ s ++ cs!")"

/-- two texts connected by UNION -/
def unionText (op s t : Str) : Str := s ++ cs!" " ++ op ++ cs!" " ++ t

/-- any number of tables inside each other, with the given names from the inside to the outside -/
def nestText (s : Str) : List Str → Str
  | [] => s
  | x :: l => nestText (tableText s x) l

/-- the tree of that text -/
def nestTree (q : QuerySpec) : List Str → QuerySpec
  | [] => q
  | x :: l => nestTree (asTable q x) l

/-- any number of queries connected by UNION -/
def unionsText (s : Str) : List (Str × Str) → Str
  | [] => s
  | (op, t) :: l => unionsText (unionText op s t) l

/-- the tree of that text -/
def unionsTree (q : QuerySpec) : List (Str × QuerySpec) → QuerySpec
  | [] => q
  | (op, q') :: l => unionsTree (asUnion op q q') l

/-- The words that connect SELECTs, in any letter case. -/
def UnionWord (u : Str) : Prop := ∃ op ∈ [cs!"UNION DISTINCT", cs!"UNION ALL", cs!"UNION"], SameCI u op

end Adql.Spec
