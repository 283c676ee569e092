import Verif.Spec.Lex

/-!
# Specification of the texts that the preprocessing rewrites

These definitions do not mention the regex; they describe the parts of a text that the regex of
Query.cxx L19-L21 is meant to find.
-/

namespace Adql.Spec

/-- blanks (only the character blank) -/
def Bl (t : Str) : Prop := ∀ c ∈ t, c = ' '

/-- without line ends -/
def OneLine (t : Str) : Prop := ∀ c ∈ t, c ≠ '\n' ∧ c ≠ '\r'

/-- The condition on the left: at least three characters, the first and the last not blank, no line
end in between. -/
def LeftPart (t : Str) : Prop :=
  ∃ c m d, t = c :: (m ++ [d]) ∧ c ≠ ' ' ∧ d ≠ ' ' ∧ m ≠ [] ∧ OneLine m

/-- The geometry: optional flag `0=` or `1=`, the word CONTAINS or INTERSECTS, and some text. -/
def GeomPart (t : Str) : Prop :=
  ∃ f k m, t = f ++ (k ++ m) ∧
    (f = [] ∨ ∃ d b b', f = d :: (b ++ '=' :: b') ∧ (d = '0' ∨ d = '1') ∧ Bl b ∧ Bl b') ∧
    (SameCI k cs!"CONTAINS" ∨ SameCI k cs!"INTERSECTS") ∧ OneLine m

/-- The condition on the right: at least two characters, the first not blank. -/
def RightPart (t : Str) : Prop := ∃ c m, t = c :: m ∧ c ≠ ' ' ∧ m ≠ [] ∧ OneLine m

/-- After blanks, the text is at its end or continues with one of the words. -/
def StopsAt (ws : List Str) (x : Str) : Prop :=
  ∃ b y, x = b ++ y ∧ Bl b ∧ (y = [] ∨ ∃ w ∈ ws, ∃ k z, y = k ++ z ∧ SameCI k w)

/-- `v` is `WHERE L AND G X` with `X = AND R T` or `X = T`. -/
def WhereForm (v L G : Str) (R : Option Str) (T : Str) : Prop :=
  ∃ w b1 a b2 X, v = w ++ (L ++ (b1 ++ (a ++ (b2 ++ (G ++ X))))) ∧ SameCI w cs!"WHERE " ∧
    LeftPart L ∧ Bl b1 ∧ SameCI a cs!"AND" ∧ Bl b2 ∧ GeomPart G ∧
    StopsAt [cs!"AND", cs!"HAVING", cs!"GROUP", cs!"ORDER"] X ∧
    (match R with
      | some R => ∃ b3 a' b4, X = b3 ++ (a' ++ (b4 ++ (R ++ T))) ∧ Bl b3 ∧ SameCI a' cs!"AND" ∧ Bl b4 ∧
          RightPart R ∧ StopsAt [cs!"HAVING", cs!" GROUP", cs!" ORDER"] T
      | none => X = T) ∧ OneLine T

/-- A text may have the form in several ways.  The chosen one has the longest condition on the left, then
the shortest geometry, then a condition on the right if there can be one, and the shortest such
condition. -/
structure Chosen (v L G : Str) (R : Option Str) (T : Str) : Prop where
  form : WhereForm v L G R T
  left : ∀ {L' G' R' T'}, WhereForm v L' G' R' T' → L'.length ≤ L.length
  geom : ∀ {G' R' T'}, WhereForm v L G' R' T' → G.length ≤ G'.length
  right : ∀ {R' T'}, WhereForm v L G (some R') T' → ∃ R0, R = some R0 ∧ R0.length ≤ R'.length

end Adql.Spec

namespace Adql.Spec

/-! ### Parentheses -/

/-- opening minus closing parentheses -/
def net : Str → Int
  | [] => 0
  | c :: t => (if c = '(' then 1 else if c = ')' then -1 else 0) + net t

/-- Every prefix, after `d` open parentheses, leaves at least `m` open. -/
def Stays (m d : Int) (t : Str) : Prop := ∀ u v, t = u ++ v → m ≤ d + net u

/-- No prefix closes more than it opens. -/
def NoNeg (t : Str) : Prop := Stays 0 0 t

/-! ### Replacement texts (ECMAScript format) -/

/-- a decimal digit -/
def Dig (c : Char) : Prop := '0' ≤ c ∧ c ≤ '9'

/-- What a replacement text stands for: `$$` is one dollar sign, `$&` the whole match, `` $` `` the text before
it, `$'` the text after it, `$` with one or two digits (as many as there are) a group; any other
dollar sign stands for itself. -/
inductive Expands (pre whole post : Str) (grp : Nat → Str) : Str → Str → Prop
  | nil : Expands pre whole post grp [] []
  | char {c s t} : c ≠ '$' → Expands pre whole post grp s t → Expands pre whole post grp (c :: s) (c :: t)
  | dollar {s t} : Expands pre whole post grp s t → Expands pre whole post grp ('$' :: '$' :: s) ('$' :: t)
  | whole {s t} : Expands pre whole post grp s t → Expands pre whole post grp ('$' :: '&' :: s) (whole ++ t)
  | pre {s t} : Expands pre whole post grp s t → Expands pre whole post grp ('$' :: '`' :: s) (pre ++ t)
  | post {s t} : Expands pre whole post grp s t → Expands pre whole post grp ('$' :: '\'' :: s) (post ++ t)
  | one {d s t} : Dig d → (∀ e r, s = e :: r → ¬ Dig e) → Expands pre whole post grp s t →
      Expands pre whole post grp ('$' :: d :: s) (grp (d.toNat - '0'.toNat) ++ t)
  | two {d e s t} : Dig d → Dig e → Expands pre whole post grp s t →
      Expands pre whole post grp ('$' :: d :: e :: s) (grp (10 * (d.toNat - '0'.toNat) + (e.toNat - '0'.toNat)) ++ t)
  | last : Expands pre whole post grp ['$'] ['$']
  | other {d s t} : d ∉ ['$', '&', '`', '\''] → ¬ Dig d → Expands pre whole post grp (d :: s) t →
      Expands pre whole post grp ('$' :: d :: s) ('$' :: t)

/-- The groups of a match; a group that took no part is empty. -/
def groups (v L G : Str) (R : Option Str) (T : Str) : Nat → Str
  | 0 => v
  | 1 => L
  | 2 => G
  | 3 => R.getD []
  | 4 => T
  | _ => []

/-! ### Texts for which the rearrangement is as intended -/

/-- An optional flag `0=` or `1=`. -/
def GeomFlag (f : Str) : Prop := f = [] ∨ ∃ d b b', f = d :: (b ++ '=' :: b') ∧ (d = '0' ∨ d = '1') ∧ Bl b ∧ Bl b'

/-- In `P w`, the word `WHERE` with a blank occurs at the end only. -/
def OnlyWhere (P w : Str) : Prop := ∀ u k z, P ++ w = u ++ (k ++ z) → SameCI k cs!"WHERE " → z = []

/-- No AND with a geometric word after it begins later than at the first character. -/
def LastGeometry (y : Str) : Prop := ∀ u a b f k z, y = u ++ (a ++ (b ++ (f ++ (k ++ z)))) → SameCI a cs!"AND" → Bl b →
  GeomFlag f → SameCI k cs!"CONTAINS" ∨ SameCI k cs!"INTERSECTS" → u = []

/-- `t` does not end with a blank, and none of the words begins inside of it when `x` follows; the
words are not looked for as whole words. -/
def Undisturbed (ws : List Str) (t x : Str) : Prop :=
  (∃ u d, t = u ++ [d] ∧ d ≠ ' ') ∧ ∀ u w k z, t ++ x = u ++ (k ++ z) → w ∈ ws → SameCI k w → t.length ≤ u.length

/-- The parentheses of the condition and the geometry are balanced, or one pair encloses both of them
(and is taken away). -/
def Clean (L G L' G' : Str) : Prop :=
  (L' = L ∧ G' = G ∧ net L = 0 ∧ NoNeg (L ++ G)) ∨
  (L = '(' :: L' ∧ G = G' ++ [')'] ∧ net L' = 0 ∧ NoNeg L' ∧ net G' = 0 ∧ NoNeg G')

/-- `s` is a text whose WHERE clause is `L AND G` or `L AND G AND R`, and `t` is the same text with `G`
first and nothing after `R`. -/
inductive Rearranged : Str → Str → Prop
  | two {P w L b1 a b2 G T L' G'} : SameCI w cs!"WHERE " → OnlyWhere P w → LeftPart L → Bl b1 → SameCI a cs!"AND" → Bl b2 →
      GeomPart G → StopsAt [cs!"HAVING", cs!"GROUP", cs!"ORDER"] T → OneLine T →
      LastGeometry (a ++ (b2 ++ (G ++ T))) → Undisturbed [cs!"AND", cs!"HAVING", cs!"GROUP", cs!"ORDER"] G T →
      (L ++ G).count '(' < 65536 → Clean L G L' G' → '$' ∉ L → '$' ∉ G →
      Rearranged (P ++ (w ++ (L ++ (b1 ++ (a ++ (b2 ++ (G ++ T))))))) (P ++ (cs!"WHERE " ++ (G' ++ (cs!" AND " ++ L'))))
  | three {P w L b1 a b2 G b3 a' b4 R T L' G'} : SameCI w cs!"WHERE " → OnlyWhere P w → LeftPart L → Bl b1 →
      SameCI a cs!"AND" → Bl b2 → GeomPart G → Bl b3 → SameCI a' cs!"AND" → Bl b4 → RightPart R →
      StopsAt [cs!"HAVING", cs!" GROUP", cs!" ORDER"] T → OneLine T →
      LastGeometry (a ++ (b2 ++ (G ++ (b3 ++ (a' ++ (b4 ++ (R ++ T))))))) →
      Undisturbed [cs!"AND", cs!"HAVING", cs!"GROUP", cs!"ORDER"] G (b3 ++ (a' ++ (b4 ++ (R ++ T)))) →
      Undisturbed [cs!"HAVING", cs!" GROUP", cs!" ORDER"] R T →
      (L ++ G).count '(' < 65536 → Clean L G L' G' → '$' ∉ L → '$' ∉ G → '$' ∉ R →
      Rearranged (P ++ (w ++ (L ++ (b1 ++ (a ++ (b2 ++ (G ++ (b3 ++ (a' ++ (b4 ++ (R ++ T)))))))))))
        (P ++ (cs!"WHERE " ++ (G' ++ (cs!" AND " ++ (L' ++ (cs!" AND " ++ R))))))

/-- `w` occurs in `t` as a word of its own, not inside of a longer name. -/
def HasWord (w t : Str) : Prop := ∃ u k z, t = u ++ (k ++ z) ∧ SameCI k w ∧
  (∀ u' c, u = u' ++ [c] → ¬ IdChar c) ∧ (∀ c z', z = c :: z' → ¬ IdChar c)

end Adql.Spec
