import Verif.Model.Print
import Verif.Spec.Literal

/-!
# The nodes of a query tree and what each of them may contain

`Node` is one object of the abstract syntax tree, `Node.child` the objects it directly contains.  A
member that C++ leaves default-constructed because its clause is absent (`Where.dflt`, ...) is not a
child.  `All K n` says that `K` holds of `n` and of everything below it, at any depth.

`Ranges` lists, for every class, the documented values of its members.
-/

namespace Adql.Spec

/-- One object of the tree. -/
inductive Node where
  | ve (x : VE) | venb (x : VENB) | term (x : Term) | factor (x : Factor) | numPrim (x : NumPrim)
  | numFn (x : NumFn) | vep (x : VEP) | prim (x : Prim) | caseE (x : CaseE)
  | simpleWhen (x : SimpleWhen) | searchedWhen (x : SearchedWhen) | result (x : CaseResult)
  | sc (x : SC) | bf (x : BF) | bp (x : BP) | pred (x : Pred) | subq (x : Subquery) | jt (x : JT)
  | qj (x : QJ) | head (x : QJHead) | suffix (x : JoinSuffix) | spec (x : JoinSpec) | tr (x : TR)
  | gpred (x : GPred) | geom (x : Geom) | where_ (x : Where) | item (x : Item)
  | columns (x : Columns) | select (x : Select) | sfw (x : SFW) | addon (x : Addon)
  | sfwList (x : SFWList) | group (x : GroupTerm) | with_ (x : With) | query (x : QuerySpec)
  | sort (x : SortSpec) | tcorr (x : TableCorr) | colRef (x : ColRef) | coordExpr (x : CoordExpr)
  | coord (x : Coord) | point (x : Point) | shape (x : Shape) | pointOrCol (x : PointOrCol)
  | shapeOrCol (x : ShapeOrCol)

/-- The objects directly contained in a node. -/
def Node.child : Node → Node → Prop
  | .ve (.nb v), m => m = .venb v
  | .ve (.sc s), m => m = .sc s
  | .venb (.mk f ts), m => m = .factor f ∨ ∃ t ∈ ts, m = .term t
  | .term (.mk _ f), m => m = .factor f
  | .factor (.mk _ np), m => m = .numPrim np
  | .numPrim (.vep v), m => m = .vep v
  | .numPrim (.nvf f), m => m = .numFn f
  | .numFn (.trig1 _ a), m => m = .ve a
  | .numFn (.trig2 _ a b), m => m = .ve a ∨ m = .ve b
  | .numFn (.math0 _), _ => False
  | .numFn (.math1 _ a), m => m = .ve a
  | .numFn (.math2 _ a b), m => m = .ve a ∨ m = .ve b
  | .numFn (.cast e _ _), m => m = .ve e
  | .numFn (.geo1 _ a), m => m = .pointOrCol a
  | .numFn (.geo2 _ a b), m => m = .pointOrCol a ∨ m = .pointOrCol b
  | .numFn (.udf _ as), m => ∃ a ∈ as, m = .ve a
  | .numFn (.str _), _ => False
  | .vep (.mk v is), m => m = .prim v ∨ ∃ i ∈ is, m = .ve i
  | .prim (.arr vs), m => ∃ v ∈ vs, m = .ve v
  | .prim (.str _), _ => False
  | .prim (.col c), m => m = .colRef c
  | .prim (.countStar _), _ => False
  | .prim (.setFn _ _ e), m => m = .ve e
  | .prim (.case c), m => m = .caseE c
  | .prim (.any e), m => m = .ve e
  | .prim (.sub e), m => m = .ve e
  | .caseE (.nullif a b), m => m = .ve a ∨ m = .ve b
  | .caseE (.coalesce l), m => ∃ a ∈ l, m = .ve a
  | .caseE (.simple o ws e), m =>
    m = .ve o ∨ (∃ w ∈ ws, m = .simpleWhen w) ∨ (e ≠ CaseResult.dflt ∧ m = .result e)
  | .caseE (.searched ws e), m =>
    (∃ w ∈ ws, m = .searchedWhen w) ∨ (e ≠ CaseResult.dflt ∧ m = .result e)
  | .simpleWhen (.mk e r), m => m = .ve e ∨ m = .result r
  | .searchedWhen (.mk c r), m => m = .sc c ∨ m = .result r
  | .result (.str _), _ => False
  | .result (.ve e), m => m = .ve e
  | .sc (.factor b), m => m = .bf b
  | .sc (.term b _ s), m => m = .bf b ∨ m = .sc s
  | .bf (.mk _ p), m => m = .bp p
  | .bp (.pred p), m => m = .pred p
  | .bp (.sc s), m => m = .sc s
  | .bp (.ve v), m => m = .venb v
  | .pred (.cmp l _ r), m => m = .venb l ∨ m = .ve r
  | .pred (.between v _ lo hi), m => m = .venb v ∨ m = .ve lo ∨ m = .ve hi
  | .pred (.inSub v _ q), m => m = .venb v ∨ m = .subq q
  | .pred (.inList v _ vs), m => m = .venb v ∨ ∃ e ∈ vs, m = .ve e
  | .pred (.null v _), m => m = .venb v
  | .pred (.like v _ p), m => m = .venb v ∨ m = .ve p
  | .pred (.exist q), m => m = .subq q
  | .subq (.jt j), m => m = .jt j
  | .subq (.qs q), m => m = .query q
  | .jt (.qj q), m => m = .qj q
  | .jt (.wrap j), m => m = .jt j
  | .qj (.mk h ss), m => m = .head h ∨ ∃ s ∈ ss, m = .suffix s
  | .head (.tc t), m => m = .tcorr t
  | .head (.jt j), m => m = .jt j
  | .suffix (.mk _ _ t sp), m => m = .tr t ∨ (sp ≠ JoinSpec.dflt ∧ m = .spec sp)
  | .spec (.named _), _ => False
  | .spec (.on s), m => m = .sc s
  | .tr (.tc t), m => m = .tcorr t
  | .tr (.jt j), m => m = .jt j
  | .tr (.derived q _), m => m = .subq q
  | .tr (.tvf _ _), _ => False
  | .gpred (.intersects e s), m => m = .ve e ∨ m = .shapeOrCol s
  | .gpred (.contains l r), m => m = .shapeOrCol l ∨ m = .shapeOrCol r
  | .geom (.left _ p), m => m = .gpred p
  | .geom (.right p _), m => m = .gpred p
  | .where_ (.mk g s), m => (g ≠ Geom.dflt ∧ m = .geom g) ∨ (s ≠ SC.dflt ∧ m = .sc s)
  | .item (.as e _), m => m = .ve e
  | .item (.nonAsStr _), _ => False
  | .item (.nonAsVE e), m => m = .ve e
  | .columns (.star _), _ => False
  | .columns (.items l), m => ∃ i ∈ l, m = .item i
  | .select (.mk _ _ c), m => m = .columns c
  | .sfw (.mk s ts w), m =>
    m = .select s ∨ (∃ t ∈ ts, m = .tr t) ∨ (w ≠ Where.dflt ∧ m = .where_ w)
  | .addon (.mk _ s), m => m = .sfw s
  | .sfwList (.mk i as), m => m = .sfw i ∨ ∃ a ∈ as, m = .addon a
  | .group (.col c), m => m = .colRef c
  | .group (.ve e), m => m = .ve e
  | .with_ (.mk _ _ q), m => m = .subq q
  | .query (.mk w l g h o), m =>
    (w ≠ With.dflt ∧ m = .with_ w) ∨ m = .sfwList l ∨ (∃ x ∈ g, m = .group x) ∨
      (h ≠ SC.dflt ∧ m = .sc h) ∨ ∃ x ∈ o, m = .sort x
  | .sort ⟨.inl _, _⟩, _ => False
  | .sort ⟨.inr c, _⟩, m => m = .colRef c
  | .tcorr _, _ => False
  | .colRef _, _ => False
  | .coordExpr (.bae _ _ _), _ => False
  | .coordExpr (.col c), m => m = .colRef c
  | .coordExpr (.num _), _ => False
  | .coord c, m => m = .coordExpr c.ra ∨ m = .coordExpr c.dec
  | .point p, m => m = .coord p.coord
  | .shape (.point p), m => m = .point p
  | .shape (.circle _ c r), m => m = .coord c ∨ m = .coordExpr r
  | .shape (.box _ c w h), m => m = .coord c ∨ m = .coordExpr w ∨ m = .coordExpr h
  | .shape (.ellipse _ c a b g), m =>
    m = .coord c ∨ m = .coordExpr a ∨ m = .coordExpr b ∨ m = .coordExpr g
  | .shape (.polygon _ cs), m => ∃ c ∈ cs, m = .coord c
  | .pointOrCol (.point p), m => m = .point p
  | .pointOrCol (.col c), m => m = .colRef c
  | .shapeOrCol (.shape s), m => m = .shape s
  | .shapeOrCol (.col c), m => m = .colRef c

/-- `m` is `n` or something below it. -/
inductive Sub : Node → Node → Prop
  | refl (n) : Sub n n
  | step {m c n} : Node.child n c → Sub m c → Sub m n

/-- `K` holds of `n` and of everything below it. -/
def All (K : Node → Prop) (n : Node) : Prop := ∀ m, Sub m n → K m

/-- `x` is, up to letter case, one of `ws`. -/
def OneOf (ws : List Str) (x : Str) : Prop := ∃ w ∈ ws, SameCI x w

/-- What an unquoted identifier cannot be: a reserved word, with six exceptions (`missed`) and with the
exception of `END`, which is taken as an identifier in front of `-EXEC`. -/
def Nameable (x : Str) : Prop := Reserved x → (∃ m ∈ missed, SameCI x m) ∨ SameCI x cs!"END"

/-- An identifier, unquoted or delimited. -/
def Name (x : Str) : Prop := (IdentShape x ∧ Nameable x) ∨ Delimited x

/-- The name of a table as it is kept: one to three identifiers with dots, or (`M`) an uploaded
table's mapped name. -/
inductive TableName (M : Str → Prop) : Str → Prop
  | mapped {x} : M x → TableName M x
  | one {a} : Name a → TableName M a
  | two {a b} : Name a → Name b → TableName M (a ++ ('.' :: b))
  | three {a b c} : Name a → Name b → Name c → TableName M (a ++ ('.' :: (b ++ ('.' :: c))))

/-- A letter followed by letters, digits, underscores and dots. -/
def PQName (x : Str) : Prop := ∃ c t, x = c :: t ∧ Letter c ∧ ∀ d ∈ t, IdChar d ∨ d = '.'

/-- The documented contents of every class.  `M` says which names the table mapping can produce. -/
def Ranges (M : Str → Prop) : Node → Prop
  | .term (.mk op _) => op ∈ [cs!"*", cs!"/", cs!"+", cs!"-", cs!"||"]
  | .factor (.mk sign _) => sign ∈ [[], cs!"+", cs!"-"]
  | .numFn (.trig1 fn _) =>
    OneOf [cs!"ACOS", cs!"ASIN", cs!"ATAN", cs!"COS", cs!"COT", cs!"SIN", cs!"TAN"] fn
  | .numFn (.trig2 fn _ _) => OneOf [cs!"ATAN2"] fn
  | .numFn (.math0 fn) => OneOf [cs!"PI", cs!"RAND"] fn
  | .numFn (.math1 fn _) =>
    OneOf [cs!"ABS", cs!"CEILING", cs!"DEGREES", cs!"EXP", cs!"FLOOR", cs!"LOG10", cs!"LOG",
      cs!"RADIANS", cs!"SQRT", cs!"RAND", cs!"ROUND", cs!"TRUNCATE"] fn
  | .numFn (.math2 fn _ _) => OneOf [cs!"MOD", cs!"POWER", cs!"ROUND", cs!"TRUNCATE"] fn
  | .numFn (.cast _ as len) =>
    OneOf [cs!"NUMERIC", cs!"FLOAT4", cs!"INTEGER", cs!"BIGINT", cs!"FLOAT8", cs!"VARCHAR2",
      cs!"VARCHAR", cs!"CHAR", cs!"TEXT"] as ∧ (len = [] ∨ Digits len)
  | .numFn (.geo1 fn _) => OneOf [cs!"COORD1", cs!"COORD2"] fn
  | .numFn (.geo2 fn _ _) => OneOf [cs!"DISTANCE"] fn
  | .numFn (.udf fn _) => (IdentShape fn ∧ Nameable fn) ∨
      OneOf [cs!"RIGHT", cs!"LEFT", cs!"UPPER", cs!"LOWER", cs!"DISTINCT", cs!"TRIM"] fn
  | .numFn (.str s) => SameCI s cs!"CURRENT_TIMESTAMP"
  | .prim (.arr vs) => vs ≠ []
  | .prim (.str s) => NumLit s ∨ StrLit s ∨
      OneOf [cs!"TRUE", cs!"FALSE", cs!"NULL", cs!"NULL::char", cs!"NULL::int", cs!"NULL::float"] s
  | .prim (.countStar s) => SameCI s cs!"COUNT(*)"
  | .prim (.setFn fn q _) => OneOf [cs!"AVG", cs!"MAX", cs!"MIN", cs!"SUM", cs!"COUNT"] fn ∧
      (q = [] ∨ OneOf [cs!"DISTINCT", cs!"ALL"] q)
  | .caseE (.coalesce l) => l ≠ []
  | .caseE (.simple _ ws _) => ws ≠ []
  | .caseE (.searched ws _) => ws ≠ []
  | .result (.str s) => SameCI s cs!"NULL"
  | .sc (.term _ op _) => OneOf [cs!"AND", cs!"OR"] op
  | .bf (.mk n _) => n = [] ∨ SameCI n cs!"NOT"
  | .pred (.cmp _ op _) => op ∈ [cs!"=", cs!"!=", cs!"<>", cs!"<=", cs!">=", cs!"<", cs!">"]
  | .pred (.between _ n _ _) => n = [] ∨ SameCI n cs!"NOT"
  | .pred (.inSub _ n _) => n = [] ∨ ∃ w c, n = w ++ [c] ∧ SameCI w cs!"NOT" ∧ isSpace c = true
  | .pred (.inList _ n vs) =>
    (n = [] ∨ ∃ w c, n = w ++ [c] ∧ SameCI w cs!"NOT" ∧ isSpace c = true) ∧ vs ≠ []
  | .pred (.null _ n) => n = [] ∨ SameCI n cs!"NOT"
  | .pred (.like _ n _) => n = [] ∨ SameCI n cs!"NOT"
  | .qj (.mk _ ss) => ss ≠ []
  | .suffix (.mk _ ty _ _) => match ty with
    | .str s => s = [] ∨ SameCI s cs!"INNER"
    | .outer t _ => OneOf [cs!"LEFT", cs!"RIGHT", cs!"FULL"] t
  | .spec (.named cs) => cs ≠ [] ∧ ∀ c ∈ cs, Name c
  | .tr (.derived _ as) => Name as
  | .tr (.tvf n as) => PQName n ∧ ∀ a ∈ as, PQName a
  | .geom (.left f _) => f = '0' ∨ f = '1'
  | .geom (.right _ f) => f = '0' ∨ f = '1'
  | .item (.as _ a) => Name a
  | .item (.nonAsStr s) => ∃ t, s = t ++ cs!".*" ∧ TableName M t
  | .columns (.star s) => s = cs!"*"
  | .columns (.items l) => l ≠ []
  | .select (.mk q top _) => (q = [] ∨ OneOf [cs!"DISTINCT", cs!"ALL"] q) ∧ top ≤ topMax
  | .sfw (.mk _ ts _) => ts ≠ []
  | .addon (.mk op _) => OneOf [cs!"UNION", cs!"UNION ALL", cs!"UNION DISTINCT"] op
  | .with_ (.mk n cs _) => Name n ∧ ∀ c ∈ cs, Name c
  | .sort ⟨k, o⟩ => (o = [] ∨ OneOf [cs!"ASC", cs!"DESC"] o) ∧ ∀ d, k = .inl d → Digits d
  | .tcorr ⟨n, as⟩ => TableName M n ∧ (as = [] ∨ Name as)
  | .colRef (.csqc a b c d) => Name a ∧ Name b ∧ Name c ∧ Name d
  | .colRef (.sqc a b c) => Name a ∧ Name b ∧ Name c
  | .colRef (.qc a b) => (Name a ∨ M a) ∧ Name b
  | .colRef (.col a) => Name a
  | .coordExpr (.bae _ op _) => op = '+' ∨ op = '-' ∨ op = '*' ∨ op = '/'
  | .shape (.polygon _ cs) => cs ≠ []
  | _ => True

/-- The WHERE clause of a component has no geometric constraint. -/
def NoGeomSFW : SFW → Prop
  | .mk _ _ (.mk g _) => g = Geom.dflt

/-- A subquery has no geometric constraint in its own WHERE clauses; the nested subqueries are
reached with `All`. -/
def NoGeometry : Node → Prop
  | .subq (.qs (.mk _ (.mk i as) _ _ _)) => NoGeomSFW i ∧ ∀ op s, Addon.mk op s ∈ as → NoGeomSFW s
  | _ => True

/-- `empty()` of the class of the node; classes without `empty()` are never empty. -/
def Node.isEmpty : Node → Bool
  | .ve x => x.isEmpty | .venb x => x.isEmpty | .factor x => x.isEmpty
  | .numPrim x => x.isEmpty | .numFn x => x.isEmpty | .vep x => x.isEmpty | .prim x => x.isEmpty
  | .caseE x => x.isEmpty | .result x => x.isEmpty | .sc x => x.isEmpty | .bf x => x.isEmpty
  | .bp x => x.isEmpty | .pred x => x.isEmpty | .subq x => x.isEmpty | .jt x => x.isEmpty
  | .qj x => x.isEmpty | .head x => x.isEmpty | .spec x => x.isEmpty | .gpred x => x.isEmpty
  | .geom x => x.isEmpty | .where_ x => x.isEmpty | .sfw x => x.isEmpty | .sfwList x => x.isEmpty
  | .with_ x => x.isEmpty | .query x => x.isEmpty | .tcorr x => x.isEmpty
  | .colRef x => x.isEmpty | .coordExpr x => x.isEmpty | .coord x => x.isEmpty
  | .point x => x.isEmpty | .shape x => x.isEmpty | .shapeOrCol x => x.isEmpty
  | _ => false

/-- `operator<<` of the class of the node. -/
def Node.print (fmt : Str → Str) : Node → Str
  | .ve x => x.print fmt
  | .venb x => x.print fmt
  | .term x => x.print fmt
  | .factor x => x.print fmt
  | .numPrim x => x.print fmt
  | .numFn x => x.print fmt
  | .vep x => x.print fmt
  | .prim x => x.print fmt
  | .caseE x => x.print fmt
  | .simpleWhen x => x.print fmt
  | .searchedWhen x => x.print fmt
  | .result x => x.print fmt
  | .sc x => x.print fmt
  | .bf x => x.print fmt
  | .bp x => x.print fmt
  | .pred x => x.print fmt
  | .subq x => x.print fmt
  | .jt x => x.print fmt
  | .qj x => x.print fmt
  | .head x => x.print fmt
  | .suffix x => x.print fmt
  | .spec x => x.print fmt
  | .tr x => x.print fmt
  | .gpred x => x.print fmt
  | .geom x => x.print fmt
  | .where_ x => x.print fmt
  | .item x => x.print fmt
  | .columns x => x.print fmt
  | .select x => x.print fmt
  | .sfw x => x.print fmt
  | .addon x => x.print fmt
  | .sfwList x => x.print fmt
  | .group x => x.print fmt
  | .with_ x => x.print fmt
  | .query x => x.print fmt
  | .sort x => x.print
  | .tcorr x => x.print
  | .colRef x => x.print
  | .coordExpr x => x.print fmt
  | .coord x => x.print fmt
  | .point x => x.print fmt
  | .shape x => x.print fmt
  | .pointOrCol x => x.print fmt
  | .shapeOrCol x => x.print fmt

end Adql.Spec
