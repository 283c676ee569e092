import Verif.Spec.Text
import Verif.Spec.Literal
import Verif.Spec.System
import Verif.Model.Ast

/-!
# A core language: which tree a text spells

Inductive relations between texts and trees, written as a context-free grammar: no ordered choice,
no look-ahead, no backtracking.  Blanks may precede every token, keywords are in any letter case.
The restrictions on names, which come from the code, are collected in `PlainName`.
-/

namespace Adql.Spec

/-- The token `w` with blanks in front. -/
def Tok (w s : Str) : Prop := ∃ b, Blanks b ∧ s = b ++ w

/-- The keyword `w`, written as `t`, with blanks in front. -/
def Kw (w s t : Str) : Prop := ∃ b, Blanks b ∧ s = b ++ t ∧ SameCI t w

/-- A keyword out of a list. -/
def KwIn (ws : List Str) (s t : Str) : Prop := ∃ w ∈ ws, Kw w s t

/-- The text starts with a blank. -/
def BlankFirst (s : Str) : Prop := ∃ c t, s = c :: t ∧ isSpace c = true

/-- The first character that is not a blank. -/
def next (s : Str) : Option Char := (s.dropWhile isSpace).head?

/-- `t` begins with `w`, up to letter case. -/
def prefixCI (w t : Str) : Bool := (w.map lowerC).isPrefixOf (t.map lowerC)

/-- Words that the code recognises as the beginning of a longer word. -/
def greedyWords : List Str :=
  [cs!"TRUE", cs!"FALSE", cs!"CURRENT_TIMESTAMP"]

/-- Words with a meaning in expressions, or behind SELECT, that the code takes as names elsewhere. -/
def openWords : List Str := [cs!"COT", cs!"ARRAY", cs!"TOP", cs!"INTERSECTS", cs!"ATAN2", cs!"ATAN", cs!"ASIN"]

/-- A word that can be used as the first name in an expression: it does not begin with one of the words
that the code recognises without a word boundary, and is not one of `openWords`. -/
def PlainWord (x : Str) : Prop :=
  (∀ w ∈ greedyWords, prefixCI w x = false) ∧ ∀ w ∈ openWords, ¬ SameCI x w

/-- A word that is not reserved, or one of the six reserved words that the code takes as names. -/
def Free (x : Str) : Prop := Reserved x → ∃ m ∈ missed, SameCI x m

/-- A name that is not reserved, or a delimited name. -/
def Part (x : Str) : Prop := (IdentShape x ∧ Free x) ∨ Delimited x

/-- A regular name that can start an expression. -/
def PlainName (x : Str) : Prop :=
  IdentShape x ∧ Free x ∧ PlainWord x ∧ x ≠ cs!"TAP_UPLOAD"

/-- The name of a function. -/
def FnName (x : Str) : Prop := IdentShape x ∧ Free x ∧ (∀ w ∈ openWords, ¬ SameCI x w) ∧ x ≠ cs!"TAP_UPLOAD"

/-- A name that can start an expression. -/
def NameT (x : Str) : Prop := PlainName x ∨ Delimited x

/-- What may follow a name or a literal: nothing that would continue it. -/
def PrimEnd (r : Str) : Prop :=
  NotContinued r ∧ next r ∉ [some '(', some '.', some '\'', some '"', some ':']

/-- No comment follows, which would continue a string. -/
def NoComment (r : Str) : Prop := ¬ ∃ t, r.dropWhile isSpace = '-' :: '-' :: t

/-- What may follow an operand. -/
def AtomEnd (r : Str) : Prop := PrimEnd r ∧ next r ≠ some '['

/-- What may follow an expression. -/
def ExprEnd (r : Str) : Prop :=
  AtomEnd r ∧ next r ∉ [some '*', some '/', some '+', some '-', some '|']

/-- One to three names, without blanks between them; `P` is about the first one. -/
inductive NameParts (P : Str → Prop) : Str → Prop
  | one {x} : P x → NameParts P x
  | two {x y} : P x → Part y → NameParts P (x ++ ('.' :: y))
  | three {x y z} : P x → Part y → Part z → NameParts P (x ++ ('.' :: (y ++ ('.' :: z))))

/-- The name of a table that can start an expression. -/
abbrev TabName : Str → Prop := NameParts NameT

/-- The name of a table. -/
abbrev FromName : Str → Prop := NameParts fun x => Part x ∧ x ≠ cs!"TAP_UPLOAD"

/-- Parameters of the language. -/
structure Mode where
  /-- whether a negated operand after a string and a minus sign is excluded -/
  strict : Bool
  /-- what the names of uploaded tables stand for -/
  up : Str → Option Str
  /-- whether a condition may begin with a name that begins with NOT -/
  nots : Bool

/-- The language without uploaded tables and without negated operands after a string and a minus sign. -/
def Mode.out (S : Mode) : Mode := ⟨true, fun _ => none, S.nots⟩

/-- The same; moreover, no condition begins with a name that begins with NOT. -/
def Mode.core : Mode := ⟨true, fun _ => none, false⟩

/-- The name `x` of an uploaded table, which stands for `y`. -/
def UpT (S : Mode) (x y : Str) : Prop := Part x ∧ S.up x = some y

/-- A column. -/
inductive ColT (S : Mode) : Str → ColRef → Prop
  | col {s x} : Tok x s → NameT x → ColT S s (.col x)
  | qc {s x d t y} : Tok x s → NameT x → Tok cs!"." d → Tok y t → Part y →
      ColT S (s ++ (d ++ t)) (.qc x y)
  | sqc {s x d t y d' u z} : Tok x s → NameT x → Tok cs!"." d → Tok y t → Part y →
      Tok cs!"." d' → Tok z u → Part z → ColT S (s ++ (d ++ (t ++ (d' ++ u)))) (.sqc x y z)
  | csqc {s x d t y d' u z d'' v w} : Tok x s → NameT x → Tok cs!"." d → Tok y t → Part y →
      Tok cs!"." d' → Tok z u → Part z → Tok cs!"." d'' → Tok w v → Part w →
      ColT S (s ++ (d ++ (t ++ (d' ++ (u ++ (d'' ++ v)))))) (.csqc x y z w)
  | up {s x y d t z} : Tok (cs!"TAP_UPLOAD." ++ x) s → UpT S x y → Tok cs!"." d → Tok z t → Part z →
      ColT S (s ++ (d ++ t)) (.qc y z)

/-- functions with one argument -/
def fn1 : List Str :=
  [cs!"ABS", cs!"CEILING", cs!"DEGREES", cs!"EXP", cs!"FLOOR", cs!"LOG10", cs!"LOG", cs!"RADIANS",
   cs!"SQRT", cs!"RAND", cs!"ROUND", cs!"TRUNCATE"]
/-- functions with two arguments -/
def fn2 : List Str := [cs!"MOD", cs!"POWER", cs!"ROUND", cs!"TRUNCATE"]
/-- functions without argument -/
def fn0 : List Str := [cs!"PI", cs!"RAND"]
/-- trigonometric functions with one argument -/
def trig1 : List Str := [cs!"ACOS", cs!"ASIN", cs!"ATAN", cs!"COS", cs!"COT", cs!"SIN", cs!"TAN"]
/-- aggregate functions -/
def setFns : List Str := [cs!"AVG", cs!"MAX", cs!"MIN", cs!"SUM", cs!"COUNT"]
/-- binary operators -/
def binOps : List Str := [cs!"*", cs!"/", cs!"+", cs!"-", cs!"||"]
/-- the types of a CAST -/
def castTypes : List Str :=
  [cs!"NUMERIC", cs!"FLOAT4", cs!"INTEGER", cs!"BIGINT", cs!"FLOAT8", cs!"VARCHAR2", cs!"VARCHAR", cs!"CHAR", cs!"TEXT"]
/-- the reserved words that can be used as names of functions (`DISTINCT`, which the code accepts too, is left out) -/
def fnNames : List Str := [cs!"RIGHT", cs!"LEFT", cs!"UPPER", cs!"LOWER", cs!"TRIM"]
/-- comparison operators -/
def compOps : List Str := [cs!"=", cs!"!=", cs!"<>", cs!"<=", cs!">=", cs!"<", cs!">"]

/-! ### Words and what follows them -/

/-- The keyword `w`, written as `t`, with at least one blank in front. -/
def Word (w s t : Str) : Prop := Kw w s t ∧ BlankFirst s

/-- A keyword out of a list, with at least one blank in front. -/
def WordIn (ws : List Str) (s t : Str) : Prop := ∃ w ∈ ws, Word w s t

/-- The text ends here, or a comma, a closing parenthesis or one of the keywords follows. -/
def Ends (ws : List Str) (r : Str) : Prop :=
  (NotContinued r ∧ next r ∈ [none, some ',', some ')']) ∨
    ∃ w k t y, w ∈ ws ∧ Word w k t ∧ NotContinued y ∧ r = k ++ y

/-- What may follow a condition: no `AND` or `OR` that is followed by a blank. -/
def LogEnd (r : Str) : Prop :=
  ∀ w t c y, w ∈ [cs!"AND", cs!"OR"] → SameCI t w → r.dropWhile isSpace = t ++ c :: y → isSpace c = false

/-- What may follow an expression that is a condition by itself: no comparison operator and no word
that begins with one of the words with which predicates continue. -/
def BareEnd (r : Str) : Prop :=
  next r ∉ [some '=', some '!', some '<', some '>'] ∧
    ∀ w ∈ [cs!"NOT", cs!"BETWEEN", cs!"IN", cs!"IS", cs!"LIKE"], prefixCI w (r.dropWhile isSpace) = false

/-- What is found when a condition is read as an expression: an expression followed by more of the
condition, the whole condition, or no expression. -/
inductive Head where
  | stops | whole | none
deriving DecidableEq

/-- for a condition followed by `AND` or `OR` -/
def Head.more : Head → Head
  | .stops => .stops
  | .whole => .stops
  | .none => .none

/-- for a condition in parentheses -/
def Head.paren : Head → Head
  | .stops => .none
  | .whole => .whole
  | .none => .whole

/-- An optional `NOT`. -/
inductive NotT : Str → Str → Prop
  | none : NotT [] []
  | some {k n} : Word cs!"NOT" k n → NotT k n

/-- `IN` or `NOT IN`; the blank after `NOT` is kept. -/
inductive InT : Str → Str → Prop
  | plain {k t} : Word cs!"IN" k t → InT k []
  | not {k n c i t} : Word cs!"NOT" k n → isSpace c = true → Kw cs!"IN" i t → InT (k ++ c :: i) (n ++ [c])

/-! ### Tables -/

/-- A correlation name. -/
inductive NewNameT : Str → Str → Prop
  | name {t x} : Tok x t → BlankFirst t → Part x → NewNameT t x
  | as {a a' t x} : Word cs!"AS" a a' → Tok x t → BlankFirst t → Part x → NewNameT (a ++ t) x

/-- An optional correlation name. -/
inductive AliasT : Str → Str → Prop
  | none : AliasT [] []
  | some {t x} : NewNameT t x → AliasT t x

/-- A table with an optional correlation name. -/
inductive TcT (S : Mode) : Str → TableCorr → Prop
  | mk {s n a x} : Tok n s → FromName n → AliasT a x → TcT S (s ++ a) ⟨n, x⟩
  | up {s x y a z} : Tok (cs!"TAP_UPLOAD." ++ x) s → UpT S x y → AliasT a z → TcT S (s ++ a) ⟨y, z⟩

/-- An optional `NATURAL`. -/
inductive NatT : Str → Bool → Prop
  | none : NatT [] false
  | some {n t} : Word cs!"NATURAL" n t → NatT n true

/-- An optional `OUTER`. -/
inductive OuterT : Str → Bool → Prop
  | none : OuterT [] false
  | some {n t} : Word cs!"OUTER" n t → OuterT n true

/-- An optional join type; the flag is set for `INNER`. -/
inductive JTypeT : Bool → Str → JoinType → Prop
  | none : JTypeT false [] (.str [])
  | inner {s t} : Word cs!"INNER" s t → JTypeT true s (.str t)
  | outer {s t u b} : WordIn [cs!"LEFT", cs!"RIGHT", cs!"FULL"] s t → OuterT u b →
      JTypeT false (s ++ u) (.outer t b)

/-- A list of names. -/
inductive NamesT : Str → List Str → Prop
  | one {s x} : Tok x s → Part x → NamesT s [x]
  | cons {s x m t l} : Tok x s → Part x → Tok cs!"," m → NamesT t l → NamesT (s ++ (m ++ t)) (x :: l)

/-- The optional column names of a WITH clause. -/
inductive WColsT : Str → List Str → Prop
  | none : WColsT [] []
  | some {o s l c} : Tok cs!"(" o → NamesT s l → Tok cs!")" c → WColsT (o ++ (s ++ c)) l

/-! ### Clauses without recursion -/

/-- An optional `DISTINCT` or `ALL`. -/
inductive QuantT : Str → Str → Prop
  | none : QuantT [] []
  | some {q t} : WordIn [cs!"DISTINCT", cs!"ALL"] q t → QuantT q t

/-- An optional `TOP` with a number. -/
inductive TopT : Str → Nat → Prop
  | none : TopT [] (2 ^ 64 - 1)
  | some {k t n d} : Word cs!"TOP" k t → Tok d n → BlankFirst n → Digits d → value d < 2 ^ 64 →
      TopT (k ++ n) (value d)

/-- An optional `ASC` or `DESC`. -/
inductive DirT : Str → Str → Prop
  | none : DirT [] []
  | some {k t} : WordIn [cs!"ASC", cs!"DESC"] k t → DirT k t

/-- An element of an ORDER BY clause. -/
inductive SortT (S : Mode) : Str → SortSpec → Prop
  | col {s c k t} : ColT S s c → DirT k t → SortT S (s ++ k) ⟨.inr c, t⟩
  | num {s d k t} : Tok d s → Digits d → DirT k t → SortT S (s ++ k) ⟨.inl d, t⟩

/-- A list of such elements. -/
inductive SortsT (S : Mode) : Str → List SortSpec → Prop
  | one {s x} : SortT S s x → SortsT S s [x]
  | cons {s x m t l} : SortT S s x → Tok cs!"," m → SortsT S t l → SortsT S (s ++ (m ++ t)) (x :: l)

/-- An optional ORDER BY clause. -/
inductive OrderT (S : Mode) : Str → List SortSpec → Prop
  | none : OrderT S [] []
  | some {o o' b b' s l} : Word cs!"ORDER" o o' → Word cs!"BY" b b' → BlankFirst s → SortsT S s l →
      OrderT S (o ++ (b ++ s)) l

/-- An optional length in a CAST. -/
inductive LenT : Str → Str → Prop
  | none : LenT [] []
  | some {o n d c} : Tok cs!"(" o → Tok d n → Digits d → Tok cs!")" c → LenT (o ++ (n ++ c)) d

/-! ### Coordinates and shapes -/

/-- A number without sign: digits with an optional dot and an optional exponent, infinity, or not-a-number. -/
inductive PlainMag : Str → Prop
  | num {m e} : Unsigned m → (e = [] ∨ Expo e) → PlainMag (m ++ e)
  | inf {m} : SameCI m cs!"inf" → PlainMag m
  | infinity {m} : SameCI m cs!"infinity" → PlainMag m
  | nan {m} : SameCI m cs!"nan" → PlainMag m

/-- The same, also not-a-number with an argument. -/
inductive CoordMag : Str → Prop
  | plain {m} : PlainMag m → CoordMag m
  | nanArg {m a} : SameCI m cs!"nan" → ')' ∉ a → CoordMag (m ++ ('(' :: (a ++ [')'])))

/-- A number in a coordinate, with an optional sign. -/
def CoordNum (x : Str) : Prop := ∃ g m, g ∈ [[], cs!"+", cs!"-"] ∧ CoordMag m ∧ x = g ++ m

/-- The same, without an argument. -/
def PlainNum (x : Str) : Prop := ∃ g m, g ∈ [[], cs!"+", cs!"-"] ∧ PlainMag m ∧ x = g ++ m

/-- What is assumed of the formatting of numbers: the text of a number is a number without an argument, and formatting
that number again changes nothing. -/
def FmtNum (fmt : Str → Str) : Prop := ∀ x, CoordNum x → PlainNum (fmt x) ∧ fmt (fmt x) = fmt x

/-- A coordinate: a column, a number, or two numbers with an operator.  The words `inf` and `nan` alone are columns. -/
inductive CoordT (S : Mode) : Str → CoordExpr → Prop
  | col {s c} : ColT S s c → CoordT S s (.col c)
  | num {s x} : Tok x s → CoordNum x → (∀ c t, x = c :: t → ¬ Letter c) → CoordT S s (.num x)
  | op {s x o c t y} : Tok x s → CoordNum x → c ∈ ['+', '-', '*', '/'] → Tok [c] o → Tok y t → CoordNum y →
      CoordT S (s ++ (o ++ t)) (.bae x c y)

/-- Two coordinates. -/
inductive PairT (S : Mode) : Str → Coord → Prop
  | mk {s x m t y} : CoordT S s x → Tok cs!"," m → CoordT S t y → PairT S (s ++ (m ++ t)) ⟨x, y⟩

/-- A list of pairs. -/
inductive PairsT (S : Mode) : Str → List Coord → Prop
  | one {s x} : PairT S s x → PairsT S s [x]
  | cons {s x m t l} : PairT S s x → Tok cs!"," m → PairsT S t l → PairsT S (s ++ (m ++ t)) (x :: l)

/-- A comma and a coordinate. -/
inductive MoreT (S : Mode) : Str → CoordExpr → Prop
  | mk {m s x} : Tok cs!"," m → CoordT S s x → MoreT S (m ++ s) x

/-- An optional coordinate system with a comma. -/
inductive SysT : Str → CoordSys → Prop
  | none : SysT [] ⟨.icrs, .geocenter⟩
  | some {b u c m} : Blanks b → SysText u c → Tok cs!"," m → SysT (b ++ (u ++ m)) c

/-- The word of a shape, an opening parenthesis and an optional coordinate system. -/
inductive ShapeHead (w : Str) : Str → CoordSys → Prop
  | mk {k t o y c} : Kw w k t → Tok cs!"(" o → SysT y c → ShapeHead w (k ++ (o ++ y)) c

/-- A point. -/
inductive PointT (S : Mode) : Str → Point → Prop
  | mk {h c s x e} : ShapeHead cs!"POINT" h c → PairT S s x → Tok cs!")" e → PointT S (h ++ (s ++ e)) ⟨c, x⟩

/-- A shape. -/
inductive ShapeT (S : Mode) : Str → Shape → Prop
  | point {s p} : PointT S s p → ShapeT S s (.point p)
  | circle {h c s x t y e} : ShapeHead cs!"CIRCLE" h c → PairT S s x → MoreT S t y → Tok cs!")" e →
      ShapeT S (h ++ (s ++ (t ++ e))) (.circle c x y)
  | box {h c s x t y u z e} : ShapeHead cs!"BOX" h c → PairT S s x → MoreT S t y → MoreT S u z → Tok cs!")" e →
      ShapeT S (h ++ (s ++ (t ++ (u ++ e)))) (.box c x y z)
  | ellipse {h c s x t y u z v a e} : ShapeHead cs!"ELLIPSE" h c → PairT S s x → MoreT S t y → MoreT S u z → MoreT S v a →
      Tok cs!")" e → ShapeT S (h ++ (s ++ (t ++ (u ++ (v ++ e))))) (.ellipse c x y z a)
  | polygon {h c s l e} : ShapeHead cs!"POLYGON" h c → PairsT S s l → Tok cs!")" e →
      ShapeT S (h ++ (s ++ e)) (.polygon c l)

/-- A point or a column. -/
inductive PointColT (S : Mode) : Str → PointOrCol → Prop
  | point {s p} : PointT S s p → PointColT S s (.point p)
  | col {s c} : ColT S s c → PointColT S s (.col c)

/-- A shape or a column. -/
inductive ShapeColT (S : Mode) : Str → ShapeOrCol → Prop
  | shape {s p} : ShapeT S s p → ShapeColT S s (.shape p)
  | col {s c} : ColT S s c → ShapeColT S s (.col c)

/-- The arguments of a table function, with `','` between them. -/
inductive FnArgsT : Str → List Str → Prop
  | one {s x} : Tok x s → PQName x → FnArgsT s [x]
  | cons {s x m t l} : Tok x s → PQName x → Tok cs!"','" m → FnArgsT t l → FnArgsT (s ++ (m ++ t)) (x :: l)

/-! ### Expressions, conditions and queries -/

/-- The operand is a string. -/
def strPrim : Prim → Bool
  | .str ('\'' :: _) => true
  | _ => false

/-- The operand, with its indices, is a string. -/
def strAtom : NumPrim → Bool
  | .vep (.mk p []) => strPrim p
  | _ => false

/-- The operand, with its sign, ends with a string. -/
def strFactor : Factor → Bool
  | .mk _ p => strAtom p

/-- the first name of a column -/
def firstCol : ColRef → Str
  | .col a => a
  | .qc a _ => a
  | .sqc a _ _ => a
  | .csqc a _ _ _ => a

/-- The name with which an operand begins, if it begins with a name. -/
def firstPrim : Prim → Str
  | .col c => firstCol c
  | _ => []

/-- the same for a function call -/
def firstFn : NumFn → Str
  | .udf fn _ => fn
  | _ => []

/-- the same for an operand with its indices -/
def firstAtom : NumPrim → Str
  | .vep (.mk p _) => firstPrim p
  | .nvf f => firstFn f

/-- the same for an operand with its sign -/
def firstFactor : Factor → Str
  | .mk [] p => firstAtom p
  | _ => []

/-- the same for an expression -/
def firstExpr : VENB → Str
  | .mk f _ => firstFactor f

/-- the same for a value -/
def firstVal : VE → Str
  | .nb v => firstExpr v
  | .sc _ => []

/-- the same for a list of values -/
def firstArgs : List VE → Str
  | [] => []
  | v :: _ => firstVal v

/-- the same for a condition without NOT -/
def firstBP : BP → Str
  | .pred (.cmp v _ _) => firstExpr v
  | .pred (.between v _ _ _) => firstExpr v
  | .pred (.inList v _ _) => firstExpr v
  | .pred (.inSub v _ _) => firstExpr v
  | .pred (.null v _) => firstExpr v
  | .pred (.like v _ _) => firstExpr v
  | .pred (.exist _) => []
  | .sc _ => []
  | .ve v => firstExpr v

/-- The name of the table with which a join begins. -/
def firstJT : JT → Str
  | .qj (.mk (.tc t) _) => t.name
  | .qj (.mk (.jt _) _) => []
  | .wrap _ => []

/-- A join behind the table becomes part of it. -/
def takesJoin : TR → Bool
  | .tc _ => true
  | .jt _ => true
  | .derived _ _ => false
  | .tvf _ _ => false

mutual

/-- An expression: operands connected by binary operators. -/
inductive ExprT (S : Mode) : Str → VENB → Prop
  | mk {s f t ts} : FactorT S s f → TermsT S (strFactor f) t ts → ExprT S (s ++ t) (.mk f ts)

/-- A value: an expression, or a condition that does not begin like an expression (and so begins with NOT, with
EXISTS or with a parenthesis).  The flags: whether it ends with an expression that is a condition by itself, and
whether it is a condition, which takes an AND or OR after it. -/
inductive ValT (S : Mode) : Bool → Bool → Str → VE → Prop
  | expr {s v} : ExprT S s v → ValT S false false s (.nb v)
  | cond {o s c} : CondT S .none o s c → ValT S o true s (.sc c)

/-- Operators and operands; the flag says whether a string is before them.  Then two minus signs must not be
adjacent, because they would start a comment; the strict relation (`S.strict = true`) excludes a negated
operand after a string and a minus sign altogether, because the code prints both signs without a blank. -/
inductive TermsT (S : Mode) : Bool → Str → List Term → Prop
  | nil {q} : TermsT S q [] []
  | cons {q o op s f t ts} : op ∈ binOps → Tok op o → FactorT S s f →
      (q = true → op = cs!"-" → NotHead '-' s ∧ (S.strict = true → ∀ p, f ≠ .mk cs!"-" p)) →
      TermsT S (strFactor f) t ts → TermsT S q (o ++ (s ++ t)) (.mk op f :: ts)

/-- An operand with an optional sign. -/
inductive FactorT (S : Mode) : Str → Factor → Prop
  | plain {s p} : AtomT S s p → FactorT S s (.mk [] p)
  | signed {o c s p} : c = '+' ∨ c = '-' → Tok [c] o → AtomT S s p → FactorT S (o ++ s) (.mk [c] p)

/-- An operand. -/
inductive AtomT (S : Mode) : Str → NumPrim → Prop
  | prim {s p t idx} : PrimT S s p → IdxT S t idx → AtomT S (s ++ t) (.vep (.mk p idx))
  | fn {s f} : FnT S s f → AtomT S s (.nvf f)

/-- Array indices. -/
inductive IdxT (S : Mode) : Str → List VE → Prop
  | nil : IdxT S [] []
  | cons {p g o s v c t idx} : Tok cs!"[" o → ValT S p g s v → Tok cs!"]" c → IdxT S t idx →
      IdxT S (o ++ (s ++ (c ++ t))) (v :: idx)

/-- Literals, columns, aggregates, parenthesised expressions. -/
inductive PrimT (S : Mode) : Str → Prim → Prop
  | bool {s t} : KwIn [cs!"TRUE", cs!"FALSE"] s t → PrimT S s (.str t)
  | num {s t} : Tok t s → NumLit t → PrimT S s (.str t)
  | str {s t} : Tok t s → StrLit t → PrimT S s (.str t)
  | col {s c} : ColT S s c → PrimT S s (.col c)
  | countStar {s t o a c} : Kw cs!"COUNT" s t → Tok cs!"(" o → Tok cs!"*" a → Tok cs!")" c →
      PrimT S (s ++ (o ++ (a ++ c))) (.countStar (t ++ cs!"(*)"))
  | setFn {p g s fn o u v c} : KwIn setFns s fn → Tok cs!"(" o → ValT S p g u v → Tok cs!")" c →
      PrimT S (s ++ (o ++ (u ++ c))) (.setFn fn [] v)
  | setFnQ {p g s fn o w q u v c} : KwIn setFns s fn → Tok cs!"(" o → KwIn [cs!"DISTINCT", cs!"ALL"] w q →
      BlankFirst u → ValT S p g u v → Tok cs!")" c →
      PrimT S (s ++ (o ++ (w ++ (u ++ c)))) (.setFn fn q v)
  | sub {p g o s v c} : Tok cs!"(" o → ValT S p g s v → Tok cs!")" c →
      PrimT S (o ++ (s ++ c)) (.sub v)
  | arr {s t o u vs c} : Kw cs!"ARRAY" s t → Tok cs!"[" o → ArgsT S u vs → Tok cs!"]" c →
      PrimT S (s ++ (o ++ (u ++ c))) (.arr vs)
  | null {s t} : Kw cs!"NULL" s t → PrimT S s (.str t)
  | nullif {p g p' g' s t o u v m u' v' c} : Kw cs!"NULLIF" s t → Tok cs!"(" o → ValT S p g u v → Tok cs!"," m →
      ValT S p' g' u' v' → Tok cs!")" c →
      PrimT S (s ++ (o ++ (u ++ (m ++ (u' ++ c))))) (.case (.nullif v v'))
  | coalesce {s t o u vs c} : Kw cs!"COALESCE" s t → Tok cs!"(" o → ArgsT S u vs → Tok cs!")" c →
      PrimT S (s ++ (o ++ (u ++ c))) (.case (.coalesce vs))
  | caseOf {p g s t u v w ws e x k k'} : Kw cs!"CASE" s t → BlankFirst u → ValT S p g u v → WhensT S w ws → ElseT S e x →
      Word cs!"END" k k' → PrimT S (s ++ (u ++ (w ++ (e ++ k)))) (.case (.simple v ws x))
  | caseWhen {s t w ws e x k k'} : Kw cs!"CASE" s t → CondsT S w ws → ElseT S e x →
      Word cs!"END" k k' → PrimT S (s ++ (w ++ (e ++ k))) (.case (.searched ws x))
  | any {p g s t o u v c} : Kw cs!"ANY" s t → Tok cs!"(" o → ValT S p g u v → Tok cs!")" c →
      PrimT S (s ++ (o ++ (u ++ c))) (.any v)
  | nullCast {s t} : KwIn nullCasts s t → PrimT S s (.str t)

/-- `WHEN value THEN value`, once or more. -/
inductive WhensT (S : Mode) : Str → List SimpleWhen → Prop
  | one {p g p' g' k k' u v t t' x y} : Word cs!"WHEN" k k' → BlankFirst u → ValT S p g u v → Word cs!"THEN" t t' →
      BlankFirst x → ValT S p' g' x y → WhensT S (k ++ (u ++ (t ++ x))) [.mk v (.ve y)]
  | cons {p g p' g' k k' u v t t' x y w ws} : Word cs!"WHEN" k k' → BlankFirst u → ValT S p g u v → Word cs!"THEN" t t' →
      BlankFirst x → ValT S p' g' x y → WhensT S w ws →
      WhensT S (k ++ (u ++ (t ++ (x ++ w)))) (.mk v (.ve y) :: ws)

/-- `WHEN condition THEN value`, once or more. -/
inductive CondsT (S : Mode) : Str → List SearchedWhen → Prop
  | one {p g k k' h o u c t t' x y} : Word cs!"WHEN" k k' → BlankFirst u → CondT S h o u c → Word cs!"THEN" t t' →
      BlankFirst x → ValT S p g x y → CondsT S (k ++ (u ++ (t ++ x))) [.mk c (.ve y)]
  | cons {p g k k' h o u c t t' x y w ws} : Word cs!"WHEN" k k' → BlankFirst u → CondT S h o u c → Word cs!"THEN" t t' →
      BlankFirst x → ValT S p g x y → CondsT S w ws →
      CondsT S (k ++ (u ++ (t ++ (x ++ w)))) (.mk c (.ve y) :: ws)

/-- An optional `ELSE`. -/
inductive ElseT (S : Mode) : Str → CaseResult → Prop
  | none : ElseT S [] CaseResult.dflt
  | some {p g k k' x y} : Word cs!"ELSE" k k' → BlankFirst x → ValT S p g x y → ElseT S (k ++ x) (.ve y)

/-- Function calls. -/
inductive FnT (S : Mode) : Str → NumFn → Prop
  | trig1 {p g s fn o u v c} : KwIn trig1 s fn → Tok cs!"(" o → ValT S p g u v → Tok cs!")" c →
      FnT S (s ++ (o ++ (u ++ c))) (.trig1 fn v)
  | trig2 {p g p' g' s fn o u v m u' v' c} : Kw cs!"ATAN2" s fn → Tok cs!"(" o → ValT S p g u v → Tok cs!"," m →
      ValT S p' g' u' v' → Tok cs!")" c →
      FnT S (s ++ (o ++ (u ++ (m ++ (u' ++ c))))) (.trig2 fn v v')
  | math0 {s fn o c} : KwIn fn0 s fn → Tok cs!"(" o → Tok cs!")" c →
      FnT S (s ++ (o ++ c)) (.math0 fn)
  | math1 {p g s fn o u v c} : KwIn fn1 s fn → Tok cs!"(" o → ValT S p g u v → Tok cs!")" c →
      FnT S (s ++ (o ++ (u ++ c))) (.math1 fn v)
  | math2 {p g p' g' s fn o u v m u' v' c} : KwIn fn2 s fn → Tok cs!"(" o → ValT S p g u v → Tok cs!"," m →
      ValT S p' g' u' v' → Tok cs!")" c →
      FnT S (s ++ (o ++ (u ++ (m ++ (u' ++ c))))) (.math2 fn v v')
  | udf0 {s fn o c} : Tok fn s → FnName fn → Tok cs!"(" o → Tok cs!")" c →
      FnT S (s ++ (o ++ c)) (.udf fn [])
  | udf {s fn o u vs c} : Tok fn s → FnName fn → Tok cs!"(" o → ArgsT S u vs → Tok cs!")" c →
      FnT S (s ++ (o ++ (u ++ c))) (.udf fn vs)
  | udfKw0 {s fn o c} : KwIn fnNames s fn → Tok cs!"(" o → Tok cs!")" c → FnT S (s ++ (o ++ c)) (.udf fn [])
  | udfKw {s fn o u vs c} : KwIn fnNames s fn → Tok cs!"(" o → ArgsT S u vs → Tok cs!")" c →
      FnT S (s ++ (o ++ (u ++ c))) (.udf fn vs)
  | cast {p g s t o u v a a' k ty l n c} : Kw cs!"CAST" s t → Tok cs!"(" o → ValT S p g u v → Word cs!"AS" a a' →
      KwIn castTypes k ty → BlankFirst k → LenT l n → Tok cs!")" c →
      FnT S (s ++ (o ++ (u ++ (a ++ (k ++ (l ++ c)))))) (.cast v ty n)
  | coord {s fn o u x c} : KwIn [cs!"COORD1", cs!"COORD2"] s fn → Tok cs!"(" o → PointColT S u x → Tok cs!")" c →
      FnT S (s ++ (o ++ (u ++ c))) (.geo1 fn x)
  | distance {s fn o u x m u' x' c} : Kw cs!"DISTANCE" s fn → Tok cs!"(" o → PointColT S u x → Tok cs!"," m → PointColT S u' x' →
      Tok cs!")" c → FnT S (s ++ (o ++ (u ++ (m ++ (u' ++ c))))) (.geo2 fn x x')
  | now {s t} : Kw cs!"CURRENT_TIMESTAMP" s t → FnT S s (.str t)

/-- A list of values. -/
inductive ArgsT (S : Mode) : Str → List VE → Prop
  | one {p g s v} : ValT S p g s v → ArgsT S s [v]
  | cons {p g s v m t vs} : ValT S p g s v → Tok cs!"," m → ArgsT S t vs → ArgsT S (s ++ (m ++ t)) (v :: vs)

/-- Conditions: `CondT S h o` with `h` what is found when the text is read as an expression, and
`o` whether the condition ends with an expression that is a condition by itself. -/
inductive CondT (S : Mode) : Head → Bool → Str → SC → Prop
  | factor {h o g s f} : BFactT S h o g s f → CondT S h o s (.factor f)
  | term {h o s f k op h' o' t c} : BFactT S h o false s f → WordIn [cs!"AND", cs!"OR"] k op → BlankFirst t →
      CondT S h' o' t c → CondT S h.more o' (s ++ (k ++ t)) (.term f op c)

/-- A condition with an optional `NOT`; the second flag is set when it ends with a condition as a value, which
takes an AND or OR after it.  A name that begins with NOT could be mistaken for this word. -/
inductive BFactT (S : Mode) : Head → Bool → Bool → Str → BF → Prop
  | plain {h o g s p} : BPrimT S h o g s p → (S.nots = false → prefixCI cs!"NOT" (firstBP p) = false) → BFactT S h o g s (.mk [] p)
  | not {k n h o g s p} : Kw cs!"NOT" k n → BlankFirst s → BPrimT S h o g s p → BFactT S .none o g (k ++ s) (.mk n p)

/-- A predicate, a condition in parentheses, or an expression that does not start with a
parenthesis or with a name that begins with EXISTS (for which the code looks first, without a word boundary). -/
inductive BPrimT (S : Mode) : Head → Bool → Bool → Str → BP → Prop
  | pred {h o g s p} : PredT S h o g s p → BPrimT S h o g s (.pred p)
  | paren {o' h o s c c'} : Tok cs!"(" o' → CondT S h o s c → Tok cs!")" c' →
      BPrimT S h.paren (decide (h.paren = .whole)) false (o' ++ (s ++ c')) (.sc c)
  | bare {s v} : ExprT S s v → next s ≠ some '(' → prefixCI cs!"EXISTS" (firstExpr v) = false → BPrimT S .whole true false s (.ve v)

/-- Predicates.  A list does not begin with a name that begins with WITH or SELECT. -/
inductive PredT (S : Mode) : Head → Bool → Bool → Str → Pred → Prop
  | cmp {p g s v o op t w} : ExprT S s v → op ∈ compOps → Tok op o → ValT S p g t w →
      PredT S .stops p g (s ++ (o ++ t)) (.cmp v op w)
  | between {p g s v k n b b' t lo a a' u hi} : ExprT S s v → NotT k n → Word cs!"BETWEEN" b b' → BlankFirst t →
      ExprT S t lo → Word cs!"AND" a a' → BlankFirst u → ValT S p g u hi →
      PredT S .stops p g (s ++ (k ++ (b ++ (t ++ (a ++ u))))) (.between v n (.nb lo) hi)
  | inList {s v k n o u vs c} : ExprT S s v → InT k n → BlankFirst o → Tok cs!"(" o → ArgsT S u vs →
      prefixCI cs!"WITH" (firstArgs vs) = false → prefixCI cs!"SELECT" (firstArgs vs) = false →
      Tok cs!")" c → PredT S .stops false false (s ++ (k ++ (o ++ (u ++ c)))) (.inList v n vs)
  | inSub {s v k n t q} : ExprT S s v → InT k n → BlankFirst t → SubqT S t q →
      PredT S .stops false false (s ++ (k ++ t)) (.inSub v n q)
  | null {s v i i' k n u u'} : ExprT S s v → Word cs!"IS" i i' → NotT k n → Word cs!"NULL" u u' →
      PredT S .stops false false (s ++ (i ++ (k ++ u))) (.null v n)
  | like {s v k n l l' t w} : ExprT S s v → NotT k n → Word cs!"LIKE" l l' → BlankFirst t → ExprT S t w →
      PredT S .stops false false (s ++ (k ++ (l ++ t))) (.like v n (.nb w))
  | exist {e e' t q} : Kw cs!"EXISTS" e e' → BlankFirst t → SubqT S t q →
      PredT S .none false false (e ++ t) (.exist q)

/-- Subqueries. -/
inductive SubqT (S : Mode) : Str → Subquery → Prop
  | mk {o s q c} : Tok cs!"(" o → QueryT S false s q → Tok cs!")" c → SubqT S (o ++ (s ++ c)) (.qs q)
  | join {o k s j c} : Tok cs!"(" o → JoinT S k s j → prefixCI cs!"WITH" (firstJT j) = false →
      prefixCI cs!"SELECT" (firstJT j) = false → Tok cs!")" c → SubqT S (o ++ (s ++ c)) (.jt j)

/-- Queries; `G` says whether geometric constraints are allowed in WHERE (they are not in subqueries). -/
inductive QueryT (S : Mode) : Bool → Str → QuerySpec → Prop
  | mk {G s l g gs h c o os} : SfwsT S G s l → GroupT S g gs → HavingT S h c → OrderT S o os →
      QueryT S G (s ++ (g ++ (h ++ o))) (.mk With.dflt l gs c os)
  | with {G w w' n x l cs a a' t q s l' g gs h c o os} : Kw cs!"WITH" w w' → Tok x n → BlankFirst n → Part x →
      WColsT l cs → Word cs!"AS" a a' → BlankFirst t → SubqT S t q → SfwsT S G s l' → GroupT S g gs →
      HavingT S h c → OrderT S o os →
      QueryT S G (w ++ (n ++ (l ++ (a ++ (t ++ (s ++ (g ++ (h ++ o)))))))) (.mk (.mk x cs q) l' gs c os)

/-- An optional GROUP BY clause. -/
inductive GroupT (S : Mode) : Str → List GroupTerm → Prop
  | none : GroupT S [] []
  | some {g g' b b' s l} : Word cs!"GROUP" g g' → Word cs!"BY" b b' → BlankFirst s → GArgsT S s l →
      GroupT S (g ++ (b ++ s)) l

/-- The elements of a GROUP BY clause. -/
inductive GArgsT (S : Mode) : Str → List GroupTerm → Prop
  | one {p g s v} : ValT S p g s v → GArgsT S s [.ve v]
  | cons {p g s v m t l} : ValT S p g s v → Tok cs!"," m → GArgsT S t l → GArgsT S (s ++ (m ++ t)) (.ve v :: l)

/-- An optional HAVING clause. -/
inductive HavingT (S : Mode) : Str → SC → Prop
  | none : HavingT S [] SC.dflt
  | some {k k' h o s c} : Word cs!"HAVING" k k' → BlankFirst s → CondT S h o s c → HavingT S (k ++ s) c

/-- SELECTs connected by UNION. -/
inductive SfwsT (S : Mode) : Bool → Str → SFWList → Prop
  | mk {G s x t l} : SfwT S G s x → AddonsT S G t l → SfwsT S G (s ++ t) (.mk x l)

/-- The SELECTs after the first one. -/
inductive AddonsT (S : Mode) : Bool → Str → List Addon → Prop
  | nil {G} : AddonsT S G [] []
  | cons {G u op s x t l} : WordIn [cs!"UNION DISTINCT", cs!"UNION ALL", cs!"UNION"] u op → BlankFirst s →
      SfwT S G s x → AddonsT S G t l → AddonsT S G (u ++ (s ++ t)) (.mk op x :: l)

/-- One SELECT. -/
inductive SfwT (S : Mode) : Bool → Str → SFW → Prop
  | mk {G k k' q qt p n cl cs f f' tb ts w wh} : Kw cs!"SELECT" k k' → QuantT q qt → TopT p n →
      BlankFirst cl → ColumnsT S cl cs → Word cs!"FROM" f f' → BlankFirst tb → TabsT S tb ts → WhereT S G w wh →
      SfwT S G (k ++ (q ++ (p ++ (cl ++ (f ++ (tb ++ w)))))) (.mk (.mk qt n cs) ts wh)

/-- The selected columns. -/
inductive ColumnsT (S : Mode) : Str → Columns → Prop
  | star {s} : Tok cs!"*" s → ColumnsT S s (.star cs!"*")
  | items {s l} : ItemsT S s l → ColumnsT S s (.items l)

/-- A list of selected columns. -/
inductive ItemsT (S : Mode) : Str → List Item → Prop
  | one {s i} : ItemT S s i → ItemsT S s [i]
  | cons {s i m t l} : ItemT S s i → Tok cs!"," m → ItemsT S t l → ItemsT S (s ++ (m ++ t)) (i :: l)

/-- A selected column. -/
inductive ItemT (S : Mode) : Str → Item → Prop
  | as {p g s v a a' t x} : ValT S p g s v → Word cs!"AS" a a' → Tok x t → BlankFirst t → Part x →
      ItemT S (s ++ (a ++ t)) (.as v x)
  | all {s n} : Tok (n ++ cs!".*") s → TabName n → ItemT S s (.nonAsStr (n ++ cs!".*"))
  | upAll {s x y} : Tok (cs!"TAP_UPLOAD." ++ (x ++ cs!".*")) s → UpT S x y → ItemT S s (.nonAsStr (y ++ cs!".*"))
  | expr {p g s v} : ValT S p g s v → ItemT S s (.nonAsVE v)

/-- An optional WHERE clause. -/
inductive WhereT (S : Mode) : Bool → Str → Where → Prop
  | none {G} : WhereT S G [] Where.dflt
  | some {G k k' h o s c} : Word cs!"WHERE" k k' → BlankFirst s → CondT S h o s c →
      WhereT S G (k ++ s) (.mk Geom.dflt c)
  | geom {k k' s g} : Word cs!"WHERE" k k' → BlankFirst s → GeomT S s g → WhereT S true (k ++ s) (.mk g SC.dflt)
  | geomAnd {k k' s g a a' h o t c} : Word cs!"WHERE" k k' → BlankFirst s → GeomT S s g → Word cs!"AND" a a' →
      BlankFirst t → CondT S h o t c → WhereT S true (k ++ (s ++ (a ++ t))) (.mk g c)
  | geomParen {k k' o s g c} : Word cs!"WHERE" k k' → BlankFirst o → Tok cs!"(" o → GeomT S s g → Tok cs!")" c →
      WhereT S true (k ++ (o ++ (s ++ c))) (.mk g SC.dflt)

/-- A geometric predicate. -/
inductive GPredT (S : Mode) : Str → GPred → Prop
  | contains {k t o s x m u y c} : Kw cs!"CONTAINS" k t → Tok cs!"(" o → ShapeColT S s x → Tok cs!"," m → ShapeColT S u y →
      Tok cs!")" c → GPredT S (k ++ (o ++ (s ++ (m ++ (u ++ c))))) (.contains x y)
  | intersects {p g k t o s v m u y c} : Kw cs!"INTERSECTS" k t → Tok cs!"(" o → ValT S p g s v → Tok cs!"," m → ShapeColT S u y →
      Tok cs!")" c → GPredT S (k ++ (o ++ (s ++ (m ++ (u ++ c))))) (.intersects v y)

/-- A geometric constraint; without a flag, the flag is `1`. -/
inductive GeomT (S : Mode) : Str → Geom → Prop
  | left {f x q s p} : x ∈ ['0', '1'] → Tok [x] f → Tok cs!"=" q → GPredT S s p → GeomT S (f ++ (q ++ s)) (.left x p)
  | right {s p q f x} : GPredT S s p → Tok cs!"=" q → x ∈ ['0', '1'] → Tok [x] f → GeomT S (s ++ (q ++ f)) (.right p x)
  | bare {s p} : GPredT S s p → GeomT S s (.right p '1')

/-- A list of tables. -/
inductive TabsT (S : Mode) : Str → List TR → Prop
  | one {k s t} : TabT S k s t → TabsT S s [t]
  | cons {k s t m u l} : TabT S k s t → Tok cs!"," m → TabsT S u l → TabsT S (s ++ (m ++ u)) (t :: l)

/-- A table; the flag is set when it ends with a join without specification. -/
inductive TabT (S : Mode) : Bool → Str → TR → Prop
  | tc {s t} : TcT S s t → TabT S false s (.tc t)
  | join {k s j} : JoinT S k s j → TabT S k s (.jt j)
  | derived {s q a x} : SubqT S s (.qs q) → NewNameT a x → TabT S false (s ++ a) (.derived (.qs q) x)
  | fn {k k' n s l c d} : Kw cs!"table(" k k' → PQName n → FnArgsT s l → Tok cs!"')" c → Tok cs!")" d →
      TabT S false (k ++ (n ++ (cs!"('" ++ (s ++ (c ++ d))))) (.tvf n l)

/-- Joins. -/
inductive JoinT (S : Mode) : Bool → Str → JT → Prop
  | mk {s hd k i t l} : HeadT S s hd → SufsT S i k t l → JoinT S k (s ++ t) (.qj (.mk hd l))
  | paren {o k s j c} : Tok cs!"(" o → JoinT S k s j → Tok cs!")" c → JoinT S false (o ++ (s ++ c)) (.wrap j)

/-- The first table of a join. -/
inductive HeadT (S : Mode) : Str → QJHead → Prop
  | tc {s t} : TcT S s t → HeadT S s (.tc t)
  | paren {o k s j c} : Tok cs!"(" o → JoinT S k s j → Tok cs!")" c → HeadT S (o ++ (s ++ c)) (.jt (.wrap j))

/-- The other tables of a join; the first flag is set when they start with INNER.  A table without
specification is only possible at the end, unless it is a subquery or a table function: the code reads the joins
after other tables as a part of the table.  An INNER join cannot follow a condition that ends with an expression, because the code reads the beginning of the word as the operator IN. -/
inductive SufsT (S : Mode) : Bool → Bool → Str → List JoinSuffix → Prop
  | one {i k o s x} : SufT S i k o s x → SufsT S i k s [x]
  | cons {i o s x i' k t l} : SufT S i false o s x → SufsT S i' k t l → (o = true → i' = false) →
      SufsT S i k (s ++ t) (x :: l)
  | bare {n b i y ty j j' t x i' k u l} : NatT n b → JTypeT i y ty → Word cs!"JOIN" j j' → BlankFirst t →
      TabT S false t x → takesJoin x = false → SufsT S i' k u l →
      SufsT S (i && !b) k ((n ++ (y ++ (j ++ t))) ++ u) (.mk b ty x JoinSpec.dflt :: l)

/-- One of them: with INNER, without specification, with a condition that ends with an expression. -/
inductive SufT (S : Mode) : Bool → Bool → Bool → Str → JoinSuffix → Prop
  | mk {n b i y ty j j' k t x k' o p sp} : NatT n b → JTypeT i y ty → Word cs!"JOIN" j j' → BlankFirst t →
      TabT S k t x → SpecT S k' o p sp → (k' = false → k = false) →
      SufT S (i && !b) k' o (n ++ (y ++ (j ++ (t ++ p)))) (.mk b ty x sp)

/-- An optional join specification. -/
inductive SpecT (S : Mode) : Bool → Bool → Str → JoinSpec → Prop
  | none : SpecT S true false [] JoinSpec.dflt
  | on {k k' h o s c} : Word cs!"ON" k k' → BlankFirst s → CondT S h o s c → SpecT S false o (k ++ s) (.on c)
  | using {k k' o s l c} : Word cs!"USING" k k' → BlankFirst o → Tok cs!"(" o → NamesT s l → Tok cs!")" c →
      SpecT S false false (k ++ (o ++ (s ++ c))) (.named l)

end

end Adql.Spec
