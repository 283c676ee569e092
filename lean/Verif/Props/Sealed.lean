import Verif.Model.Seal

/-!
# C53: the formatted query can be put into another statement

What is formatted, the query or any part of it, closes the brackets and quotes that it opens and no others, and has
only the characters of names, numbers and operators outside quotes, no semicolon in particular.  The only exception is a text with a comment, which can only come from two neighbouring minus
signs (C41).
-/

namespace Adql

open Spec Seal

set_option linter.unusedSectionVars false

variable [Extra]

theorem construct_known {cfg : Config} {input : Str} {q : QuerySpec} (h : construct cfg input = .ok q) :
    All (Known cfg.Mapped) (.query q) := by
  have hr := C34_ranges cfg input q h
  unfold construct at h
  split at h
  · cases h
  · obtain ⟨r, hp, -⟩ := parseIt_ok.1 h
    exact fun m hm => ⟨hr m hm, nums_of (came_query (by rw [parseQuery_eq]; exact hp) m hm)⟩

/-- **C53.** Every part of an accepted query, and the query itself, is formatted to a sealed text, unless the text has a
comment.  The names of uploaded tables and the format of numbers are not up to the library; whatever characters they
have outside quotes (`Extra`), the library adds only the usual ones. -/
theorem C53_sealed (cfg : Config) (fmt : Str → Str) (hM : ∀ y, cfg.Mapped y → Sealed y)
    (hf : ∀ x, Number x → Sealed (fmt x)) (input : Str) (q : QuerySpec) (h : construct cfg input = .ok q)
    (n : Node) (hn : Sub n (.query q)) (hc : ¬ HasComment (n.print fmt)) : Sealed (n.print fmt) := by
  have hk : All (Known cfg.Mapped) n := fun m hm => construct_known h m (Reach.sub_trans hm hn)
  rcases node hM hf n hk [] with ⟨x, y, e, hx⟩ | h
  · exact absurd ⟨x, y, e, hx⟩ hc
  · exact h

/-- **C53** for the query, from the text: if no two minus signs outside quotes have only blanks between them, then the
formatted query is sealed and has no comment. -/
theorem C53_text (cfg : Config) (fmt : Str → Str) (hM : ∀ y, cfg.Mapped y → y ≠ [] ∧ Sealed y)
    (hf : ∀ x, Number x → Sealed (fmt x)) (he : Tame (env cfg fmt)) (input s : Str) (q : QuerySpec)
    (hs : preprocess input = .ok s) (hnan : NoNan s) (h : construct cfg input = .ok q) (hp : ¬ HasMinusPair s) :
    Sealed (q.print fmt) ∧ ¬ HasComment (q.print fmt) := by
  have hc := C41_no_comment cfg fmt (fun y hy => (hM y hy).1) he input s q hs hnan h hp
  exact ⟨C53_sealed cfg fmt (fun y hy => (hM y hy).2) hf input q h (.query q) (.refl _) hc, hc⟩

/-! ### What sealed texts are good for -/

/-- Outside quotes, a sealed text has only the usual characters, brackets, and those that are allowed in addition. -/
theorem C53_alphabet {x y : Str} {c : Char} (h : Sealed (x ++ c :: y)) (hq : quoteState x = none) :
    usual c = true ∨ Extra.ok c = true ∨ c ∈ ['\'', '"', '(', ')', '[', ']'] := by
  unfold Sealed at h
  rw [after_append] at h
  obtain ⟨⟨l, q⟩, h1, h2⟩ := Option.bind_eq_some_iff.1 h
  have := after_quote x h1
  change q = quoteState x at this
  rw [hq] at this
  subst this
  simp only [Opened.after, Opened.next] at h2
  by_cases hc : c ∈ ['\'', '"', '(', ')', '[', ']']
  · exact .inr (.inr hc)
  simp only [List.mem_cons, List.not_mem_nil, or_false, not_or] at hc
  simp only [hc, or_self, if_false] at h2
  split at h2
  · next h => exact (Bool.or_eq_true _ _ ▸ h).elim .inl fun h => .inr (.inl h)
  · cases h2

/-- A semicolon of a sealed text is inside quotes, unless it is allowed in addition. -/
theorem C53_semicolon {x y : Str} (he : Extra.ok ';' = false) (h : Sealed (x ++ ';' :: y)) : quoteState x ≠ none := by
  intro hq
  rcases C53_alphabet h hq with h | h | h
  · revert h; decide
  · rw [he] at h; cases h
  · revert h; decide

/-- The quotes of a sealed text are closed. -/
theorem C53_quotes {s : Str} (h : Sealed s) : quoteState s = none := (after_quote s h).symm

theorem count_after (a b : Char) (hab : (a = '(' ∧ b = ')') ∨ (a = '[' ∧ b = ']')) : ∀ (s : Str) {o o' : Opened}, o.after s = some o' →
    o.brackets.count b + (bare o.quote s).count a = o'.brackets.count b + (bare o.quote s).count b := by
  intro s
  induction s with
  | nil => intro o o' h; cases h; cases hq : o.quote <;> simp [bare]
  | cons c s ih =>
    intro o o' h
    obtain ⟨o1, h1, h2⟩ := Option.bind_eq_some_iff.1 h
    have hi := ih h2
    obtain ⟨l, q⟩ := o
    cases q with
    | some q =>
      simp only [Opened.next, Option.some.injEq] at h1
      simp only [bare]
      split at h1
      · next hc => subst h1; simpa [hc] using hi
      · next hc => subst h1; simpa [hc] using hi
    | none =>
      simp only [Opened.next] at h1
      simp only [bare]
      split at h1
      · next hc => cases h1; simpa [hc] using hi
      · next hc =>
        rw [if_neg hc]
        split at h1
        · next hc =>
          cases h1; subst hc
          rcases hab with ⟨rfl, rfl⟩ | ⟨rfl, rfl⟩ <;> simp [List.count_cons] at hi ⊢ <;> omega
        · next hc1 =>
          split at h1
          · next hc =>
            cases h1; subst hc
            rcases hab with ⟨rfl, rfl⟩ | ⟨rfl, rfl⟩ <;> simp [List.count_cons] at hi ⊢ <;> omega
          · next hc2 =>
            split at h1
            · next hc =>
              split at h1
              · next hd =>
                cases h1
                cases l with
                | nil => simp at hd
                | cons d l =>
                  simp only [List.head?_cons, Option.some.injEq] at hd
                  subst hd
                  rcases hab with ⟨rfl, rfl⟩ | ⟨rfl, rfl⟩ <;> rcases hc with rfl | rfl <;>
                    simp [List.count_cons] at hi ⊢ <;> omega
              · cases h1
            · next hc3 =>
              split at h1
              · cases h1
                simp only [not_or] at hc3
                rcases hab with ⟨rfl, rfl⟩ | ⟨rfl, rfl⟩ <;> simp [List.count_cons, hc1, hc2, hc3] at hi ⊢ <;> omega
              · cases h1

/-- In front of every place of a sealed text, no more parentheses and brackets have been closed than opened, outside
quotes; in the whole text, as many. -/
theorem C53_brackets (a b : Char) (hab : (a = '(' ∧ b = ')') ∨ (a = '[' ∧ b = ']')) {x y : Str} (h : Sealed (x ++ y)) :
    (bare none x).count b ≤ (bare none x).count a ∧ (bare none (x ++ y)).count b = (bare none (x ++ y)).count a := by
  have h' := count_after a b hab _ h
  unfold Sealed at h
  rw [after_append] at h
  obtain ⟨o, h1, -⟩ := Option.bind_eq_some_iff.1 h
  have h1 := count_after a b hab x h1
  simp only [nothing, List.count_nil] at h1 h'
  omega

/-- Sealed texts can be put one after the other and into parentheses. -/
theorem C53_inside {x y : Str} (h : Sealed x) (h' : Sealed y) : Sealed (x ++ y) ∧ Sealed ('(' :: (x ++ [')'])) := by
  refine ⟨?_, ?_⟩
  · unfold Sealed at *
    rw [after_append, h]
    exact h'
  · have := after_frame x (a := []) (b := []) [')'] h
    unfold Sealed
    simp only [Opened.after, nothing, Opened.next]
    simp only [List.nil_append] at this
    simp [after_append, this, Opened.after, Opened.next]

/-- The exception is real: `C40_violated` has a query that is formatted with a comment; inside parentheses, what is
in front of the comment is not sealed. -/
theorem C53_comment : constructPrint ⟨fun _ => none, false⟩ id cs!"SELECT (a - -b) FROM t" = .ok cs!"SELECT (a--b) FROM t" ∧
    HasComment cs!"SELECT (a--b) FROM t" ∧ ¬ Sealed cs!"SELECT (a" := by
  refine ⟨by kernel_rfl, ⟨cs!"SELECT (a", cs!"b) FROM t", rfl, by decide⟩, ?_⟩
  intro h
  cases h

/-- numbers as a C++ stream shows them: without the argument of a not-a-number -/
def plainFmt (x : Str) : Str := x.filter flat

theorem plainFmt_sealed (x : Str) : Sealed (plainFmt x) := after_flat (fun c hc => (List.mem_filter.1 hc).2) []

/-- an example -/
def sealText : Str :=
  cs!"SELECT a[1], 'x;)''--', \"(\" FROM TAP_UPLOAD.up JOIN (u JOIN v) WHERE CONTAINS(POINT('J2000',1,+nan(;)),CIRCLE('ICRS',ra,dec,1e-3))=1 AND (b IN (SELECT c FROM d) OR CAST(e AS char(3)) = 'y')"

/-- **C53**, non-trivial case: quotes with brackets, semicolons and minus signs, subqueries, a shape, an uploaded table. -/
example : ∃ q, construct oneMap sealText = .ok q ∧ Sealed (q.print plainFmt) := by
  obtain ⟨q, hq⟩ := accepted_iff.1 (show accepted (construct oneMap sealText) = true by kernel_rfl)
  refine ⟨q, hq, C53_sealed oneMap plainFmt ?_ (fun x _ => plainFmt_sealed x) sealText q hq (.query q) (.refl _) ?_⟩
  · rintro y ⟨x, hx⟩
    simp only [oneMap] at hx
    split at hx
    · cases hx; rfl
    · cases hx
  · have hp : constructPrint oneMap plainFmt sealText = .ok (q.print plainFmt) := by simp [constructPrint, hq]
    have : (match constructPrint oneMap plainFmt sealText with | .ok t => scan none t | .error _ => false) = false := by
      kernel_rfl
    rw [hp] at this
    rw [scan_comment]
    exact Bool.not_eq_true _ ▸ this

end Adql
