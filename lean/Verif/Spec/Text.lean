import Verif.Spec.Tree

/-!
# What it means for a formatted query to say the same as a text

Both are read as sequences of tokens.  `Reads` reads the text that was parsed, `Laid` reads the
formatted text, and `Edit` lists everything that may differ between the two sequences.
-/

namespace Adql.Spec

/-- Blanks only. -/
def Blanks (b : Str) : Prop := ∀ c ∈ b, isSpace c = true

/-- The value of a string of digits. -/
def value : Str → Nat
  | [] => 0
  | c :: t => (c.toNat - 48) * 10 ^ t.length + value t

/-- Two characters that would be read as part of one token if they were adjacent. -/
def Glued (a b : Char) : Prop := (IdChar a ∧ IdChar b) ∨ (a = b ∧ (a = '\'' ∨ a = '"'))

/-- The token `x` can be directly followed by `t`. -/
def Apart (x t : Str) : Prop := ∀ u a b v, x = u ++ [a] → t = b :: v → ¬ Glued a b

/-- The numerals of coordinates (`qi::double_`), with an optional sign. -/
inductive Unsigned : Str → Prop
  | int {d} : Digits d → Unsigned d
  | dot {d} : Digits d → Unsigned (d ++ cs!".")
  | dec {d f} : Digits d → Digits f → Unsigned (d ++ '.' :: f)
  | frac {f} : Digits f → Unsigned ('.' :: f)

/-- Unsigned numerals with an optional exponent, infinity, and not-a-number with an optional
argument. -/
inductive Magnitude : Str → Prop
  | plain {m} : Unsigned m → Magnitude m
  | expo {m e} : Unsigned m → Expo e → Magnitude (m ++ e)
  | inf {x} : OneOf [cs!"inf", cs!"infinity"] x → Magnitude x
  | nan {x} : SameCI x cs!"nan" → Magnitude x
  | nanArg {x u} : SameCI x cs!"nan" → ')' ∉ u → Magnitude (x ++ ('(' :: (u ++ [')'])))

/-- A numeral of a coordinate. -/
inductive Number : Str → Prop
  | plain {m} : Magnitude m → Number m
  | plus {m} : Magnitude m → Number ('+' :: m)
  | minus {m} : Magnitude m → Number ('-' :: m)

/-- Punctuation and operators. -/
def marks : List Str :=
  [cs!"(", cs!")", cs!"[", cs!"]", cs!",", cs!".", cs!"+", cs!"-", cs!"*", cs!"/", cs!"||",
   cs!"=", cs!"!=", cs!"<>", cs!"<=", cs!">=", cs!"<", cs!">"]

/-- The typed null values. -/
def nullCasts : List Str := [cs!"NULL::char", cs!"NULL::int", cs!"NULL::float"]

/-- The tokens of a text. -/
inductive Token : Str → Prop
  /-- a word: identifier, keyword, function name -/
  | word {x} : IdentShape x → Token x
  /-- a word with dots (only used for table functions) -/
  | pq {x} : PQName x → Token x
  | delimited {x} : Delimited x → Token x
  | num {x} : NumLit x → Token x
  | number {x} : Number x → Token x
  | str {x} : StrLit x → Token x
  | mark {x} : x ∈ marks → Token x
  | nullCast {x} : OneOf nullCasts x → Token x

/-- The tokens after which the parser does not look for the end of a word, so that `1AND` and
`truefrom` are two tokens each.  No other word is ever split. -/
def MaySplit (x : Str) : Prop :=
  NumLit x ∨ Number x ∨ OneOf nullCasts x ∨
  OneOf [cs!"TRUE", cs!"FALSE", cs!"NULL", cs!"CURRENT_TIMESTAMP", cs!"AND", cs!"END", cs!"ASC",
    cs!"DESC"] x

/-- The text `t`, in front of `r`, reads as the tokens `l`. -/
inductive Reads : Str → List Str → Str → Prop
  | nil {b r} : Blanks b → Reads b [] r
  | cons {b x t l r} : Blanks b → Token x → Apart x (t ++ r) ∨ MaySplit x → Reads t l r →
      Reads (b ++ (x ++ t)) (x :: l) r

/-- The formatted text `u` consists of the tokens `l`, with blanks between them wherever two of
them would otherwise be read as one. -/
inductive Laid : Str → List Str → Prop
  | nil {b} : Blanks b → Laid b []
  | cons {b x t l} : Blanks b → Apart x t → Laid t l → Laid (b ++ (x ++ t)) (x :: l)

/-! ### The differences -/

/-- Keywords that are formatted in upper case. -/
def keywords : List Str :=
  [cs!"SELECT", cs!"FROM", cs!"WHERE", cs!"GROUP", cs!"BY", cs!"HAVING", cs!"ORDER", cs!"WITH",
   cs!"AS", cs!"ON", cs!"USING", cs!"JOIN", cs!"NATURAL", cs!"OUTER", cs!"AND", cs!"OR", cs!"NOT",
   cs!"BETWEEN", cs!"IN", cs!"IS", cs!"NULL", cs!"LIKE", cs!"EXISTS", cs!"CASE", cs!"WHEN",
   cs!"THEN", cs!"ELSE", cs!"END", cs!"CAST", cs!"ARRAY", cs!"ANY", cs!"NULLIF", cs!"COALESCE",
   cs!"UNION", cs!"ALL", cs!"DISTINCT", cs!"CONTAINS", cs!"INTERSECTS"]

/-- Names with dots between them. -/
inductive Dotted : List Str → Prop
  | one {a} : Name a → Dotted [a]
  | cons {a l} : Name a → Dotted l → Dotted (a :: cs!"." :: l)

/-- Names with commas between them, in parentheses, or nothing. -/
inductive NameList : List Str → Prop
  | one {a} : Name a → NameList [a]
  | cons {a l} : Name a → NameList l → NameList (a :: cs!"," :: l)

/-- The parameters of formatting that are not fixed by the library. -/
structure Env where
  /-- the names of the uploaded tables -/
  mapped : Str → Str → Prop
  /-- how the numerals of coordinates are formatted -/
  fmt : Str → Str
  /-- whether a NOT that was refused leaves its text behind -/
  residue : Bool

/-- A column in a coordinate. -/
inductive ColEdit (e : Env) : List Str → List Str → Prop
  | keep {l} : Dotted l → ColEdit e l l
  | upload {x y l} : e.mapped x y → Dotted l →
      ColEdit e (cs!"TAP_UPLOAD" :: cs!"." :: x :: cs!"." :: l) (y :: cs!"." :: l)

/-- One coordinate: a column, a numeral, or an operation on two numerals. -/
inductive CoordEdit (e : Env) : List Str → List Str → Prop
  | col {l l'} : ColEdit e l l' → CoordEdit e l l'
  | num {x} : Number x → CoordEdit e [x] [e.fmt x]
  | op {x o y} : Number x → Number y → o ∈ [cs!"+", cs!"-", cs!"*", cs!"/"] →
      CoordEdit e [x, o, y] [e.fmt x, o, e.fmt y]

/-- A list of coordinates. -/
inductive CoordsEdit (e : Env) : List Str → List Str → Prop
  | one {l l'} : CoordEdit e l l' → CoordsEdit e l l'
  | cons {l l' m m'} : CoordEdit e l l' → CoordsEdit e m m' →
      CoordsEdit e (l ++ (cs!"," :: m)) (l' ++ (cs!"," :: m'))

/-- The quoted coordinate system `x` stands for the frame `f`. -/
def SysQuoted (x f : Str) : Prop := ∃ b₁ y b₂ p b₃, x = '\'' :: (b₁ ++ (y ++ (b₂ ++ (p ++ (b₃ ++ ['\'']))))) ∧
  Blanks b₁ ∧ Blanks b₂ ∧ Blanks b₃ ∧ (p = [] ∨ SameCI p cs!"GEOCENTER") ∧
  (f ∈ [cs!"ICRS", cs!"J2000", cs!"GALACTIC"] ∧ SameCI y f ∨ y = [] ∧ f = cs!"ICRS")

/-- The coordinate system of a shape; ICRS GEOCENTER if there is none. -/
inductive SysEdit : List Str → List Str → Prop
  | none : SysEdit [] [cs!"'ICRS GEOCENTER'", cs!","]
  | some {x f} : SysQuoted x f → SysEdit [x, cs!","] ['\'' :: (f ++ cs!" GEOCENTER'"), cs!","]

/-- The arguments of a table function: blanks inside the quotes are dropped, and so are the quotes
if there is nothing else inside. -/
inductive ArgsEdit : List Str → List Str → Prop
  | one {b a b'} : Blanks b → PQName a → Blanks b' →
      ArgsEdit ['\'' :: (b ++ (a ++ (b' ++ ['\''])))] ['\'' :: (a ++ ['\''])]
  | cons {b a b' l l'} : Blanks b → PQName a → Blanks b' → ArgsEdit l l' →
      ArgsEdit (('\'' :: (b ++ (a ++ (b' ++ ['\''])))) :: cs!"," :: l)
        (('\'' :: (a ++ ['\''])) :: cs!"," :: l')

/-- An optional DISTINCT or ALL. -/
def Quantifier (l : List Str) : Prop := l = [] ∨ ∃ q, OneOf [cs!"DISTINCT", cs!"ALL"] q ∧ l = [q]

/-- A call of CONTAINS or INTERSECTS. -/
def Call (g : List Str) : Prop :=
  ∃ c m, g = c :: cs!"(" :: (m ++ [cs!")"]) ∧ OneOf [cs!"CONTAINS", cs!"INTERSECTS"] c

/-- A flag. -/
def Flag (f : Str) : Prop := f = cs!"0" ∨ f = cs!"1"

/-- A geometric constraint: a call, with or without flag. -/
def Geometric (g : List Str) : Prop :=
  ∃ c, Call c ∧ (g = c ∨ ∃ f, Flag f ∧ (g = f :: cs!"=" :: c ∨ g = c ++ [cs!"=", f]))

/-- All the differences there can be between the text and the formatted query. -/
inductive Edit (e : Env) : List Str → List Str → Prop
  /-- nothing -/
  | nil : Edit e [] []
  /-- a token is kept -/
  | keep {x} : Edit e [x] [x]
  /-- a keyword is formatted in upper case -/
  | case {x w} : w ∈ keywords → SameCI x w → Edit e [x] [w]
  /-- one thing after the other, in the same order -/
  | append {l l' m m'} : Edit e l l' → Edit e m m' → Edit e (l ++ m) (l' ++ m')
  /-- the AS of a table or derived table is dropped -/
  | dropAs {a x} : SameCI a cs!"AS" → Name x → Edit e [a, x] [x]
  /-- the AS of a WITH clause is added -/
  | addAs {w n} : SameCI w cs!"WITH" → Name n → Edit e [w, n] [cs!"WITH", n, cs!"AS"]
  /-- the same, after a column list -/
  | addAsCols {w n l} : SameCI w cs!"WITH" → Name n → NameList l →
      Edit e (w :: n :: cs!"(" :: (l ++ [cs!")"]))
        (cs!"WITH" :: n :: cs!"(" :: (l ++ [cs!")", cs!"AS"]))
  /-- the number of a TOP clause is formatted without leading zeros -/
  | top {w d d'} : SameCI w cs!"TOP" → Digits d → Digits d' → value d' = value d →
      (∀ t, d' = '0' :: t → t = []) → value d < 2 ^ 64 - 1 → Edit e [w, d] [cs!"TOP", d']
  /-- a TOP clause with the largest number is dropped -/
  | noTop {k l w d} : SameCI k cs!"SELECT" → Quantifier l → SameCI w cs!"TOP" → Digits d → value d = 2 ^ 64 - 1 →
      Edit e (k :: (l ++ [w, d])) (cs!"SELECT" :: l)
  /-- the name of an uploaded table is replaced -/
  | upload {x y} : e.mapped x y → Edit e [cs!"TAP_UPLOAD", cs!".", x] [y]
  /-- a NOT is left behind -/
  | negate {n} : e.residue = true → SameCI n cs!"NOT" → Edit e [] [n]
  /-- table functions -/
  | table {w n l l'} : SameCI w cs!"table" → PQName n → ArgsEdit l l' →
      Edit e (w :: cs!"(" :: n :: cs!"(" :: (l ++ [cs!")", cs!")"]))
        (cs!"table" :: cs!"(" :: n :: cs!"(" :: (l' ++ [cs!")", cs!")"]))
  /-- a table function without arguments -/
  | table0 {w n b} : SameCI w cs!"table" → PQName n → Blanks b →
      Edit e [w, cs!"(", n, cs!"(", '\'' :: (b ++ ['\'']), cs!")", cs!")"]
        [cs!"table", cs!"(", n, cs!"(", cs!")", cs!")"]
  /-- a shape -/
  | shape {w w' y y' l l'} : w' ∈ [cs!"POINT", cs!"CIRCLE", cs!"BOX", cs!"ELLIPSE", cs!"POLYGON"] →
      SameCI w w' → SysEdit y y' → CoordsEdit e l l' →
      Edit e (w :: cs!"(" :: (y ++ (l ++ [cs!")"]))) (w' :: cs!"(" :: (y' ++ (l' ++ [cs!")"])))
  /-- the flag of a geometric constraint goes to the right -/
  | flagLeft {w f g g'} : SameCI w cs!"WHERE" → Flag f → Call g → Edit e g g' →
      Edit e (w :: f :: cs!"=" :: g) (cs!"WHERE" :: (g' ++ [cs!"=", f]))
  /-- a missing flag is 1 -/
  | flagNone {w g g'} : SameCI w cs!"WHERE" → Call g → Edit e g g' →
      Edit e (w :: g) (cs!"WHERE" :: (g' ++ [cs!"=", cs!"1"]))
  /-- the parentheses around a geometric constraint are dropped -/
  | geomParen {w g g'} : SameCI w cs!"WHERE" → Geometric g → Edit e (w :: g) (cs!"WHERE" :: g') →
      Edit e (w :: cs!"(" :: (g ++ [cs!")"])) (cs!"WHERE" :: g')

/-- The formatted text `u` says the same as the text `t` (in front of `r`). -/
def Shows (e : Env) (t u r : Str) : Prop := ∃ l l', Reads t l r ∧ Edit e l l' ∧ Laid u l'

end Adql.Spec
