import Verif.Model.AcceptTerm

/-!
# Running the grammar forward: words, and what follows clauses
-/

namespace Adql.Fwd

open P Spec

variable {cfg : Config} {sk : Bool}

theorem space_not_id {c : Char} (h : isSpace c = true) : isIdChar c = false := by
  cases hd : isIdChar c with
  | false => rfl
  | true => rw [isSpace_iff] at h; rw [isIdChar_toNat] at hd; omega

theorem blankFirst_append {s r : Str} (h : BlankFirst s) : BlankFirst (s ++ r) := by
  obtain ⟨c, t, rfl, hc⟩ := h
  exact ⟨c, t ++ r, rfl, hc⟩

theorem blankFirst_notContinued {s : Str} (h : BlankFirst s) : NotContinued s := by
  obtain ⟨c, t, rfl, hc⟩ := h
  rw [notContinued_iff]
  intro d v e
  simp only [List.cons.injEq] at e
  rw [← e.1]
  exact space_not_id hc

theorem blankFirst_notContinued' {s r : Str} (h : BlankFirst s) : NotContinued (s ++ r) :=
  blankFirst_notContinued (blankFirst_append h)

theorem kw_split {w k t y : Str} (h : Kw w k t) (hw : wordShape w = true) (hy : NotContinued y) :
    ∃ b, Blanks b ∧ k ++ y = b ++ (t ++ y) ∧ KwStart w t y := by
  obtain ⟨b, hb, rfl, hs⟩ := h
  exact ⟨b, hb, List.append_assoc _ _ _, hw, hs, hy⟩

theorem word_split {w k t y : Str} (h : Word w k t) (hw : wordShape w = true) (hy : NotContinued y) :
    ∃ b, Blanks b ∧ k ++ y = b ++ (t ++ y) ∧ KwStart w t y := kw_split h.1 hw hy

theorem andSpace_first {y : Str} (h : BlankFirst y) : parse cfg andSpace false y = .ok () y := by
  obtain ⟨c, t, rfl, hc⟩ := h
  exact andSpace_ok hc

theorem andSpace_idChar {c : Char} {v : Str} (h : isIdChar c = true) :
    parse cfg andSpace sk (c :: v) = .fail := by
  have h1 := idChar_bare (v := v) h
  have := h1 c v rfl
  simp [andSpace, parse, step, skip_bare h1, this]

/-- `word` and `wordX` at the keyword. -/
theorem word_ok {w k t y : Str} (h : Kw w k t) (hw : wordShape w = true) (hy : BlankFirst y) :
    parse cfg (word w) true (k ++ y) = .ok t y := by
  obtain ⟨b, hb, e, hk⟩ := kw_split h hw (blankFirst_notContinued hy)
  rw [e]
  simp only [word, parse, run_lexeme, skip_blanks hb, skip_bare hk.bare]
  exact seqL_ok (kw_start hk) (andSpace_first hy)

theorem wordX_ok {w k t y : Str} (h : Kw w k t) (hw : wordShape w = true) (hy : BlankFirst y) :
    parse cfg (wordX w) true (k ++ y) = .ok t y := by
  obtain ⟨b, hb, e, hk⟩ := kw_split h hw (blankFirst_notContinued hy)
  rw [e]
  simp only [wordX, parse, run_lexeme, skip_blanks hb, skip_bare hk.bare]
  exact seqL_ok (kw_start hk) (expect_ok (andSpace_first hy))

theorem kw_ok {w k t y : Str} (h : Kw w k t) (hw : wordShape w = true) (hy : NotContinued y) :
    parse cfg (kw w) true (k ++ y) = .ok t y := by
  obtain ⟨b, hb, e, hk⟩ := kw_split h hw hy
  rw [e]
  have := kw_start (cfg := cfg) (sk := false) hk
  simp only [kw, lit_eq, skip_blanks hb, skip_bare hk.bare] at this ⊢
  exact this

theorem word_fail {w r : Str} (h : Apart w (skip true r)) : parse cfg (word w) true r = .fail := by
  simp only [word, parse, run_lexeme]
  exact stuck_seqL_fail (stuck_kw (bare_skip r) h) fun c v hc => andSpace_idChar hc

theorem apart_none {w u : Str} (h : matchLit true w u = none) : Apart w u := by
  intro t r e; rw [h] at e; cases e

theorem wordX_fail {w r : Str} (h : matchLit true w (skip true r) = none) :
    parse cfg (wordX w) true r = .fail := by
  simp only [wordX, parse, run_lexeme]
  exact seqL_fail (kw_none (bare_skip r) h)

theorem kw_fail {w r : Str} (h : matchLit true w (skip true r) = none) :
    parse cfg (kw w) true r = .fail := by
  simp only [kw, lit_eq, h]

/-! ### What follows clauses -/

theorem kwStart_next {w t y r : Str} (h : KwStart w t y) (e : skip true r = t ++ y) :
    ∃ c, next r = some c ∧ isLetter c = true := by
  obtain ⟨c, x, hx, hc, -⟩ := h.ident
  refine ⟨c, ?_, isLetter_iff.2 hc⟩
  show (skip true r).head? = some c
  rw [e, hx]; rfl

theorem letter_ne {c d : Char} (h : isLetter c = true) (hd : isLetter d = false) : c ≠ d := by
  rintro rfl; rw [h] at hd; cases hd

/-- What is known about a text that is followed by a keyword. -/
theorem exprEnd_letter {r : Str} (h : NotContinued r) {c : Char} (hn : next r = some c)
    (hc : isLetter c = true) : ExprEnd r := by
  have hne : ∀ d, isLetter d = false → c ≠ d := fun d hd => letter_ne hc hd
  refine ⟨⟨⟨h, ?_⟩, ?_⟩, ?_⟩
  · rw [hn]
    intro hm
    simp only [List.mem_cons, Option.some.injEq, List.not_mem_nil, or_false] at hm
    rcases hm with rfl | rfl | rfl | rfl | rfl <;> exact absurd hc (by decide)
  · rw [hn]; rintro ⟨⟩; exact absurd hc (by decide)
  · rw [hn]
    intro hm
    simp only [List.mem_cons, Option.some.injEq, List.not_mem_nil, or_false] at hm
    rcases hm with rfl | rfl | rfl | rfl | rfl <;> exact absurd hc (by decide)

theorem word_notContinued {w k t y : Str} (h : Word w k t) : NotContinued (k ++ y) :=
  blankFirst_notContinued' h.2

theorem word_start {w k t y : Str} (h : Word w k t) (hw : wordShape w = true) (hy : NotContinued y) :
    skip true (k ++ y) = t ++ y ∧ KwStart w t y := by
  obtain ⟨b, hb, e, hk⟩ := word_split h hw hy
  rw [e, skip_blanks hb, skip_bare hk.bare]
  exact ⟨rfl, hk⟩

theorem word_end {w k t y : Str} (h : Word w k t) (hw : wordShape w = true) (hy : NotContinued y) :
    ExprEnd (k ++ y) := by
  obtain ⟨e, hk⟩ := word_start h hw hy
  obtain ⟨c, h1, h2⟩ := kwStart_next hk e
  exact exprEnd_letter (word_notContinued h) h1 h2

/-- The ways in which a clause can end. -/
theorem ends_cases {ws : List Str} (hw : (ws.all wordShape) = true) {r : Str} (h : Ends ws r) :
    NotContinued r ∧ ((NoLetter (skip true r) ∧ next r ∈ [none, some ',', some ')']) ∨
      ∃ w t y, w ∈ ws ∧ skip true r = t ++ y ∧ KwStart w t y) := by
  rcases h with ⟨h1, h2⟩ | ⟨w, k, t, y, h1, h2, h3, rfl⟩
  · refine ⟨h1, .inl ⟨?_, h2⟩⟩
    intro c u e
    have : next r = some c := by show (skip true r).head? = _; rw [e]; rfl
    rw [this] at h2
    simp only [List.mem_cons, Option.some.injEq, List.not_mem_nil, or_false, reduceCtorEq, false_or] at h2
    rcases h2 with rfl | rfl <;> decide
  · have h4 := word_start h2 (all_mem hw h1) h3
    exact ⟨word_notContinued h2, .inr ⟨w, t, y, h1, h4.1, h4.2⟩⟩

theorem ends_mono {ws ws' : List Str} (h : ∀ w ∈ ws, w ∈ ws') {r : Str} (hr : Ends ws r) : Ends ws' r := by
  rcases hr with hr | ⟨w, k, t, y, h1, h2⟩
  · exact .inl hr
  · exact .inr ⟨w, k, t, y, h w h1, h2⟩

theorem ends_expr {ws : List Str} (hw : (ws.all wordShape) = true) {r : Str} (h : Ends ws r) : ExprEnd r := by
  obtain ⟨h0, ⟨h1, h2⟩ | ⟨w, t, y, h1, h2, h3⟩⟩ := ends_cases hw h
  · have hn : ∀ c, next r = some c → c = ',' ∨ c = ')' := by
      intro c hc
      rw [hc] at h2
      simpa using h2
    refine ⟨⟨⟨h0, ?_⟩, ?_⟩, ?_⟩
    · intro hm
      simp only [List.mem_cons, List.not_mem_nil, or_false] at hm
      rcases hm with hm | hm | hm | hm | hm <;> exact absurd (hn _ hm) (by decide)
    · intro hm; exact absurd (hn _ hm) (by decide)
    · intro hm
      simp only [List.mem_cons, List.not_mem_nil, or_false] at hm
      rcases hm with hm | hm | hm | hm | hm <;> exact absurd (hn _ hm) (by decide)
  · obtain ⟨c, h4, h5⟩ := kwStart_next h3 h2
    exact exprEnd_letter h0 h4 h5

/-- no symbol follows -/
theorem ends_ne {ws : List Str} (hw : (ws.all wordShape) = true) {r : Str} (h : Ends ws r) {d : Char}
    (hd : (!isLetter d && !(d == ',') && !(d == ')')) = true) : next r ≠ some d := by
  simp only [Bool.and_eq_true, Bool.not_eq_true', beq_eq_false_iff_ne] at hd
  obtain ⟨h0, ⟨h1, h2⟩ | ⟨w, t, y, h1, h2, h3⟩⟩ := ends_cases hw h
  · intro e
    rw [e] at h2
    simp only [List.mem_cons, Option.some.injEq, List.not_mem_nil, or_false, reduceCtorEq, false_or] at h2
    rcases h2 with rfl | rfl
    · exact hd.1.2 rfl
    · exact hd.2 rfl
  · obtain ⟨c, h4, h5⟩ := kwStart_next h3 h2
    rw [h4]
    rintro ⟨⟩
    rw [h5] at hd; cases hd.1.1

/-- no word starts here that begins like another keyword -/
theorem ends_none {ws : List Str} (hw : (ws.all wordShape) = true) {r : Str} (h : Ends ws r) {w' : Str}
    (h' : (w'.all isIdChar && startsLetter w' && ws.all fun w => !prefixCI w' w) = true) :
    matchLit true w' (skip true r) = none := by
  simp only [Bool.and_eq_true] at h'
  obtain ⟨h0, ⟨h1, h2⟩ | ⟨w, t, y, h1, h2, h3⟩⟩ := ends_cases hw h
  · exact matchLit_noLetter' h'.1.2 h1
  · rw [h2]
    refine h3.none ?_
    rw [h'.1.1, all_mem h'.2 h1]; rfl

/-- no other keyword follows -/
theorem ends_apart {ws : List Str} (hw : (ws.all wordShape) = true) {r : Str} (h : Ends ws r) {w' : Str}
    (h' : (startsLetter w' && ws.all fun w => offAll [w'] w) = true) : Apart w' (skip true r) := by
  simp only [Bool.and_eq_true] at h'
  obtain ⟨h0, ⟨h1, h2⟩ | ⟨w, t, y, h1, h2, h3⟩⟩ := ends_cases hw h
  · exact apart_noLetter h'.1 h1
  · rw [h2]
    exact h3.apart (all_mem h'.2 h1) _ (by simp)

/-- the keywords are no names -/
theorem ends_ident_fail {ws : List Str} (hw : (ws.all wordShape) = true)
    (hr : (ws.all fun w => reservedB w && offAll (cs!"END" :: missed) w) = true) {r : Str} (h : Ends ws r) :
    parse cfg identifier true r = .fail := by
  rw [parse_skip (by simp) (by simp)]
  obtain ⟨h0, ⟨h1, h2⟩ | ⟨w, t, y, h1, h2, h3⟩⟩ := ends_cases hw h
  · refine ident_fail (bare_skip r) h1 ?_
    intro t e
    have : next r = some '"' := by show (skip true r).head? = _; rw [e]; rfl
    rw [this] at h2
    simp at h2
  · rw [h2]
    have := all_mem hr h1
    simp only [Bool.and_eq_true] at this
    exact h3.no_ident (reservedB_iff this.1) this.2

/-! ### What follows conditions -/

theorem logicalOp_fail {r : Str} (h : LogEnd r) : parse cfg logicalOp true r = .fail := by
  simp only [logicalOp, parse, run_lexeme]
  have key : ∀ w ∈ [cs!"AND", cs!"OR"], ∀ t x, matchLit true w (skip true r) = some (t, x) →
      parse cfg andSpace false x = .fail := by
    intro w hw t x hm
    obtain ⟨h1, h2⟩ := matchLit_iff.1 hm
    cases x with
    | nil => simp [andSpace, parse, step, skip]
    | cons c y =>
      have := h w t c y hw (litOK_ci.1 h2) h1
      simp [andSpace, parse, step, skip, this]
  have hb := bare_skip r
  cases h1 : matchLit true cs!"AND" (skip true r) with
  | some p =>
    obtain ⟨t, x⟩ := p
    have e : parse cfg (kw cs!"AND") false (skip true r) = .ok t x := by
      simp only [kw, lit_eq, skip_bare hb, h1]
    exact seqL_fail2 (alt_left e) (key _ (by simp) t x h1)
  | none =>
    have e := kw_none (cfg := cfg) (sk := false) hb h1
    cases h2 : matchLit true cs!"OR" (skip true r) with
    | some p =>
      obtain ⟨t, x⟩ := p
      have e' : parse cfg (kw cs!"OR") false (skip true r) = .ok t x := by
        simp only [kw, lit_eq, skip_bare hb, h2]
      refine seqL_fail2 (a := t) (r := x) ?_ (key _ (by simp) t x h2)
      rw [alt_right e]; exact e'
    | none => exact seqL_fail (alt_fail e (kw_none hb h2))

theorem logicalOp_ok {k op y : Str} (h : WordIn [cs!"AND", cs!"OR"] k op) (hy : BlankFirst y) :
    parse cfg logicalOp true (k ++ y) = .ok op y := by
  obtain ⟨w, hw, h⟩ := h
  have hs : wordShape w = true := by
    have : ([cs!"AND", cs!"OR"].all wordShape) = true := by decide
    exact all_mem this hw
  obtain ⟨e, hk⟩ := word_start h hs (blankFirst_notContinued hy)
  simp only [logicalOp, parse, run_lexeme, e]
  refine seqL_ok ?_ (andSpace_first hy)
  simp only [List.mem_cons, List.not_mem_nil, or_false] at hw
  rcases hw with rfl | rfl
  · exact alt_left (kw_start hk)
  · rw [alt_right (kw_none hk.bare (hk.none (by decide)))]
    exact kw_start hk

theorem logEnd_kwStart {w t y r : Str} (hk : KwStart w t y) (e : skip true r = t ++ y)
    (ho : offAll [cs!"AND", cs!"OR"] w = true) : LogEnd r := by
  intro w' t' c y' hw hs e'
  have e' : skip true r = t' ++ c :: y' := e'
  have h1 := hk.apart ho w' hw t' (c :: y')
    (by rw [← e, e']; exact matchLit_iff.2 ⟨rfl, litOK_ci.2 hs⟩)
  obtain ⟨c', v, h2, h3⟩ := h1
  cases h2
  cases hd : isSpace c with
  | false => rfl
  | true => rw [space_not_id hd] at h3; cases h3

theorem ends_log {ws : List Str} (hw : (ws.all wordShape) = true)
    (ho : (ws.all fun w => offAll [cs!"AND", cs!"OR"] w) = true) {r : Str} (h : Ends ws r) : LogEnd r := by
  obtain ⟨h0, ⟨h1, h2⟩ | ⟨w, t, y, h1, h2, h3⟩⟩ := ends_cases hw h
  · exact logEnd_noLetter h1
  · exact logEnd_kwStart h3 h2 (all_mem ho h1)

theorem bareEnd_none {r : Str} (h : BareEnd r) {w : Str} (hw : w ∈ predWords) :
    matchLit true w (skip true r) = none := matchLit_prefixCI.2 (h.2 w hw)

theorem ends_bare {ws : List Str} (hw : (ws.all wordShape) = true)
    (ho : (ws.all fun w => predWords.all fun w' => !prefixCI w' w) = true) {r : Str} (h : Ends ws r) :
    BareEnd r := by
  refine ⟨?_, fun w hm => ?_⟩
  · intro hm
    simp only [List.mem_cons, List.not_mem_nil, or_false] at hm
    rcases hm with hm | hm | hm | hm <;> exact ends_ne hw h (by decide) hm
  · refine matchLit_prefixCI.1 (ends_none hw h ?_)
    have hm : w ∈ predWords := hm
    have h1 : (predWords.all fun w => w.all isIdChar && startsLetter w) = true := by decide
    have h1 := all_mem h1 hm
    simp only [Bool.and_eq_true] at h1
    rw [h1.1, h1.2]
    refine List.all_eq_true.2 fun x hx => ?_
    exact all_mem (all_mem ho hx) hm

/-- The words after which no condition continues. -/
def valWords (ws : List Str) : Bool :=
  ws.all wordShape && (ws.all fun w => predWords.all fun w' => !prefixCI w' w) && ws.all fun w => offAll [cs!"AND", cs!"OR"] w

theorem ends_v {ws : List Str} (hw : valWords ws = true) {r : Str} (h : Ends ws r) : VEnd r := by
  obtain ⟨h12, h3⟩ := Bool.and_eq_true_iff.1 hw
  obtain ⟨h1, h2⟩ := Bool.and_eq_true_iff.1 h12
  exact ⟨ends_expr h1 h, ends_bare h1 h2 h, ends_log h1 h3 h⟩

theorem word_v {w k k' y : Str} (hk : Word w k k') (hw : valWords [w] = true) (hy : NotContinued y) : VEnd (k ++ y) :=
  ends_v hw (.inr ⟨w, k, k', y, by simp, hk, hy, rfl⟩)

/-! ### Comparison operators -/

theorem compOp_ok {op o r : Str} (hm : op ∈ compOps) (ho : Tok op o) (h1 : NotHead '=' r) (h2 : NotHead '>' r) :
    parse cfg compOp true (o ++ r) = .ok op r := by
  obtain ⟨b, hb, rfl⟩ := ho
  rw [List.append_assoc, parse_blanks (by simp [compOp, P.headOK, sym]) (by simp [compOp, P.consumes, sym]) hb]
  simp only [compOps, List.mem_cons, List.not_mem_nil, or_false] at hm
  have e1 : ∀ c t, r = c :: t → ¬ '=' = c := fun c t h e => h1 t (by rw [h, e])
  have e2 : ∀ c t, r = c :: t → ¬ '>' = c := fun c t h e => h2 t (by rw [h, e])
  have hsp : ∀ (c : Char) (t : Str), isSpace c = false → List.dropWhile isSpace (c :: t) = c :: t := by
    intro c t h; simp [h]
  rcases hm with rfl | rfl | rfl | rfl | rfl | rfl | rfl <;> cases r with
    | nil => rfl
    | cons c t =>
      have f1 := e1 c t rfl
      have f2 := e2 c t rfl
      simp [parse, step, compOp, sym, skip, matchLit, isSpace, f1, f2]

theorem compOp_fail {r : Str} (h : next r ∉ [some '=', some '!', some '<', some '>']) :
    parse cfg compOp true r = .fail := by
  have hn : (skip true r).head? = next r := rfl
  rw [← hn] at h
  simp only [List.mem_cons, List.not_mem_nil, or_false, not_or] at h
  simp only [compOp, parse, step, sym]
  cases hs : skip true r with
  | nil => simp [matchLit]
  | cons c t =>
    rw [hs] at h
    simp only [List.head?_cons, Option.some.injEq] at h
    obtain ⟨h1, h2, h3, h4⟩ := h
    have e : ∀ {d : Char}, ¬ c = d → ¬ d = c := fun h e => h e.symm
    simp [matchLit, e h1, e h2, e h3, e h4]

end Adql.Fwd
