import Verif.Spec.Literal

/-!
# Texts that differ only in the blanks between their tokens

`Respaced s t`: both texts consist of the same characters and the same quoted texts, in the same
order, and have blanks at the same places; how many blanks, and which ones, is free.  The places
where the grammar looks at the blanks themselves are excluded by `Fixed`.
-/

namespace Adql.Spec

/-- The words of the union operators that contain a blank. -/
def unionWords : List Str := [cs!"UNION ALL", cs!"UNION DISTINCT"]

/-- The openings of texts that are copied with their blanks: the argument of not-a-number, and the
call of a table function. -/
def copiedWords : List Str := [cs!"nan(", cs!"table("]

/-- A string literal ends before `r`. -/
def StrEnds (r : Str) : Prop :=
  NotHead '\'' r ∧ ¬ ∃ x p v, r = x ++ (p ++ v) ∧ Seps x ∧ StrPart p ∧ NotHead '\'' v

/-- What must not change where a word may start:
the union operators that contain a blank, and the first blank between NOT and IN (it becomes part of
the tree).  Texts that are copied with their blanks must not occur. -/
structure Fixed (s t : Str) : Prop where
  union : ∀ w ∈ unionWords, ∀ k, SameCI k w → (k <+: s ↔ k <+: t)
  notIn : ∀ n c b i x, s = n ++ c :: (b ++ (i ++ x)) → SameCI n cs!"NOT" → isSpace c = true →
    (∀ d ∈ b, isSpace d = true) → SameCI i cs!"IN" → n ++ [c] <+: t
  copied : ∀ w ∈ copiedWords, ∀ k, SameCI k w → ¬ k <+: s

/-- The two texts differ only in the blanks between their tokens. -/
inductive Respaced : Str → Str → Prop
  | nil : Respaced [] []
  /-- a character outside quotes -/
  | chr {c s t} : isSpace c = false → c ≠ '\'' → c ≠ '"' → Fixed (c :: s) (c :: t) →
      Respaced s t → Respaced (c :: s) (c :: t)
  /-- blanks -/
  | blanks {b b' s t} : b ≠ [] → b' ≠ [] → (∀ c ∈ b, isSpace c = true) →
      (∀ c ∈ b', isSpace c = true) → (∀ c u, s = c :: u → isSpace c = false) →
      (∀ c u, t = c :: u → isSpace c = false) → Respaced s t → Respaced (b ++ s) (b' ++ t)
  /-- a delimited identifier -/
  | name {q s t} : Delimited q → NotHead '"' s → NotHead '"' t → Respaced s t →
      Respaced (q ++ s) (q ++ t)
  /-- a string literal -/
  | str {q s t} : StrLit q → StrEnds s → StrEnds t → Respaced s t → Respaced (q ++ s) (q ++ t)

end Adql.Spec
