import Verif.Model.Closes
import Verif.Props.Sealed

/-!
# C54: only closed texts are accepted

The parser accepts no text that leaves a quote or a bracket open, closes one that is not open, or has other characters
outside quotes than those of names, numbers and operators, for example a semicolon.
-/

namespace Adql

open Spec Seal Closes

/-- Outside quotes, no characters are allowed in addition. -/
local instance : Extra := noExtra

/-- **C54.** The text that the parser accepts is sealed, if it has no comment and no not-a-number with an argument. -/
theorem C54_sealed (cfg : Config) (input s : Str) (q : QuerySpec) (hs : preprocess input = .ok s)
    (h : construct cfg input = .ok q) (hc : ¬ HasComment s) (hn : NoNan s) : Sealed s := by
  unfold construct at h
  rw [hs] at h
  obtain ⟨b, hp, hb⟩ := parseIt_ok.1 h
  obtain ⟨t, rfl, ht⟩ := parsed (p := query) hp
  have hg : Good (t ++ b) := (ht (noNan_left hn)).app (good_flat fun c hc => flat_space (hb c hc))
  rcases hg [] with ⟨x, y, e, hx⟩ | h
  · exact absurd ⟨x, y, e, hx⟩ hc
  · exact h

/-- **C54**, turned around: a text without a geometric constraint after an AND that is not sealed is refused, with every
table mapping. -/
theorem C54_refused (cfg : Config) (s : Str) (hs : ¬ HasGeometryAfterAnd s) (hc : ¬ HasComment s) (hn : NoNan s)
    (h : ¬ Sealed s) : ∀ q, construct cfg s ≠ .ok q :=
  fun q hq => h (C54_sealed cfg s s q (C27_no_geometry_after_and s hs) hq hc hn)

/-- A second statement is refused, whatever it is: a text with a semicolon outside quotes is no query. -/
theorem C54_second (cfg : Config) (x y : Str) (hs : ¬ HasGeometryAfterAnd (x ++ ';' :: y))
    (hc : ¬ HasComment (x ++ ';' :: y)) (hn : NoNan (x ++ ';' :: y)) (hq : quoteState x = none) :
    ∀ q, construct cfg (x ++ ';' :: y) ≠ .ok q :=
  C54_refused cfg _ hs hc hn fun h => C53_semicolon rfl h hq

/-- A text with any other character outside quotes is refused: a backslash, a dollar sign, a byte above 127. -/
theorem C54_alphabet (cfg : Config) (x y : Str) (c : Char) (hs : ¬ HasGeometryAfterAnd (x ++ c :: y))
    (hc : ¬ HasComment (x ++ c :: y)) (hn : NoNan (x ++ c :: y)) (hq : quoteState x = none) (hu : usual c = false)
    (hb : c ∉ ['\'', '"', '(', ')', '[', ']']) : ∀ q, construct cfg (x ++ c :: y) ≠ .ok q :=
  C54_refused cfg _ hs hc hn fun h => by
    rcases C53_alphabet h hq with h | h | h
    · rw [hu] at h; cases h
    · cases h
    · exact hb h

/-- The same for every parsed part: a subquery, an expression, a condition. -/
theorem C54_part (cfg : Config) {α : Type} (p : G α) [Neutral p] (sk : Bool) (s r : Str) (x : α)
    (h : parse cfg p sk s = .ok x r) : ∃ t, s = t ++ r ∧ (¬ HasComment t → NoNan t → Sealed t) := by
  obtain ⟨t, e, ht⟩ := parsed h
  refine ⟨t, e, fun hc hn => ?_⟩
  rcases ht hn [] with ⟨x, y, e, hx⟩ | h
  · exact absurd ⟨x, y, e, hx⟩ hc
  · exact h

/-! ### The hypotheses are needed -/

/-- with a comment between two parts of a string, the quotes of the comment do not count -/
theorem C54_comment : accepted (construct ⟨fun _ => none, false⟩ cs!"SELECT 'a' --'\n 'b' FROM t") = true ∧
    ¬ Sealed cs!"SELECT 'a' --'\n 'b' FROM t" := ⟨by kernel_rfl, nofun⟩

/-- the argument of a not-a-number is any text -/
theorem C54_nan : accepted (construct ⟨fun _ => none, false⟩ cs!"SELECT a FROM t WHERE CONTAINS(POINT(1,+nan(;)),b)=1") = true ∧
    ¬ Sealed cs!"SELECT a FROM t WHERE CONTAINS(POINT(1,+nan(;)),b)=1" := ⟨by kernel_rfl, nofun⟩

/-- before the preprocessing the statement is false: what follows the condition of a text that is rewritten is dropped
without being read (C29) -/
theorem C54_rewritten : accepted (construct ⟨fun _ => none, false⟩ cs!"SELECT a FROM t WHERE b=1 AND CONTAINS(c,d)=1 ORDER BY e); DROP 'x") = true ∧
    ¬ Sealed cs!"SELECT a FROM t WHERE b=1 AND CONTAINS(c,d)=1 ORDER BY e); DROP 'x" := ⟨by kernel_rfl, nofun⟩

/-! ### Non-trivial cases -/

/-- **C54**, non-trivial case: the text of C53, which has semicolons and brackets inside quotes, without the
not-a-number. -/
def closedText : Str :=
  cs!"SELECT a[1], 'x;)''-', \"(\" FROM TAP_UPLOAD.up JOIN (u JOIN v) WHERE CONTAINS(POINT('J2000',1,+2),CIRCLE('ICRS',ra,dec,1e-3))=1 AND (b IN (SELECT c FROM d) OR CAST(e AS char(3)) = 'y')"

/-- no part of the text is a not-a-number with an argument -/
theorem noNan_of {s : Str} (h : noPart [cs!"nan("] s = true) : NoNan s := by
  intro y hy hc
  exact noPart_iff h y hy ⟨_, by simp, hc⟩

example : Sealed closedText := by
  obtain ⟨q, hq⟩ := accepted_iff.1 (show accepted (construct oneMap closedText) = true by kernel_rfl)
  refine C54_sealed oneMap closedText closedText q (by kernel_rfl) hq ?_ (noNan_of (by decide +kernel))
  rw [scan_comment]
  decide +kernel

example (cfg : Config) (y : Str) (hy : ¬ HasComment (cs!"SELECT a FROM t" ++ ';' :: y)) (hn : NoNan (cs!"SELECT a FROM t" ++ ';' :: y))
    (hs : ¬ HasGeometryAfterAnd (cs!"SELECT a FROM t" ++ ';' :: y)) :
    ∀ q, construct cfg (cs!"SELECT a FROM t" ++ ';' :: y) ≠ .ok q :=
  C54_second cfg _ y hs hy hn rfl

example (cfg : Config) (y : Str) (hy : ¬ HasComment (cs!"SELECT a" ++ 'é' :: y)) (hn : NoNan (cs!"SELECT a" ++ 'é' :: y))
    (hs : ¬ HasGeometryAfterAnd (cs!"SELECT a" ++ 'é' :: y)) : ∀ q, construct cfg (cs!"SELECT a" ++ 'é' :: y) ≠ .ok q :=
  C54_alphabet cfg _ y 'é' hs hy hn rfl rfl (by decide)

end Adql
