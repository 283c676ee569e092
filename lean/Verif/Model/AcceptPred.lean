import Verif.Model.AcceptWord

/-!
# Running the grammar forward: predicates
-/

namespace Adql.Fwd

open P Spec

variable {cfg : Config} {sk : Bool}

/-! ### Words at which no expression starts -/

theorem prefix_dot : ∀ (w x : Str) (y : Str), w.all (fun c => decide (c ≠ '.')) = true →
    w.isPrefixOf (x.map lowerC ++ ('.' :: y)) = w.isPrefixOf (x.map lowerC)
  | [], _, _, _ => by simp
  | c :: w, [], _, h => by
    simp only [List.all_cons, Bool.and_eq_true, decide_eq_true_eq] at h
    simp [List.isPrefixOf, h.1]
  | c :: w, d :: x, y, h => by
    simp only [List.all_cons, Bool.and_eq_true] at h
    have := prefix_dot w x y h.2
    simp only [List.map_cons, List.cons_append, List.isPrefixOf, this]

theorem prefixCI_append {a b u : Str} (h : prefixCI a u = false) : prefixCI (a ++ b) u = false := by
  cases h1 : prefixCI (a ++ b) u with
  | false => rfl
  | true =>
    unfold prefixCI at h h1
    rw [List.isPrefixOf_iff_prefix, List.map_append] at h1
    have : (a.map lowerC).isPrefixOf (u.map lowerC) = true := by
      rw [List.isPrefixOf_iff_prefix]
      exact (List.prefix_append _ _).trans h1
    rw [h] at this; cases this

/-- the conditions on a reserved word under which no expression but a column starts with it -/
def venbKw0 (w : Str) : Bool :=
  wordShape w && reservedB w &&
    offAll ((cs!"END" :: missed) ++
      [cs!"RIGHT", cs!"LEFT", cs!"UPPER", cs!"LOWER", cs!"DISTINCT", cs!"TRIM"] ++ fnWords) w &&
    !prefixCI cs!"CURRENT_TIMESTAMP" w && offAll [cs!"ARRAY"] w && !prefixCI cs!"TRUE" w &&
    !prefixCI cs!"FALSE" w && offAll setFns w &&
    offAll [cs!"NULLIF", cs!"COALESCE", cs!"CASE", cs!"ANY"] w && !prefixCI cs!"NULL" w

/-- the conditions on a reserved word under which no expression starts with it -/
def venbKw (w : Str) : Bool := venbKw0 w && offAll [cs!"TAP_UPLOAD"] w

theorem numericPrimary_fail_kw0 {w t y : Str} (h : KwStart w t y) (hw : venbKw0 w = true)
    (h9 : parse cfg columnReference true (t ++ y) = .fail) : parse cfg numericPrimary true (t ++ y) = .fail := by
  simp only [venbKw0, Bool.and_eq_true, Bool.not_eq_true'] at hw
  obtain ⟨⟨⟨⟨⟨⟨⟨⟨⟨h1, h2⟩, h4⟩, h5⟩, h6⟩, h7⟩, h8⟩, h10⟩, h11⟩, h12⟩ := hw
  have hl : next (t ++ y) ≠ some '(' := by
    obtain ⟨c, hc, hl⟩ := kwStart_next (r := t ++ y) h (skip_bare h.bare)
    rw [hc]; rintro ⟨⟩; exact absurd hl (by decide)
  refine alt_fail (map_fail (nvf_fail_kw h (reservedB_iff h2) h4 h5)) (map_fail (map_fail (seq_fail ?_)))
  simp only [offAll, List.all_append, Bool.and_eq_true] at h4
  have hn : matchLit true cs!"NULL" (t ++ y) = none := h.none (by rw [h12]; decide)
  have hc : parse cfg nullCast true (t ++ y) = .fail := by
    rw [nullCast, lexeme_bare h.bare]
    simp only [parse, run_anyKw, skip_bare h.bare]
    have e : firstLit [cs!"NULL::char", cs!"NULL::int", cs!"NULL::float"] (t ++ y) = none := by
      simp only [firstLit, List.findSome?_cons, List.findSome?_nil]
      have hp := matchLit_prefixCI.1 hn
      have e1 := matchLit_prefixCI.2 (prefixCI_append (b := cs!"::char") hp)
      have e2 := matchLit_prefixCI.2 (prefixCI_append (b := cs!"::int") hp)
      have e3 := matchLit_prefixCI.2 (prefixCI_append (b := cs!"::float") hp)
      simp only [List.cons_append, List.nil_append] at e1 e2 e3
      simp only [e1, e2, e3]
    rw [e]
  have hnl : parse cfg nullLiteral true (t ++ y) = .fail := by
    rw [nullLiteral, lexeme_bare h.bare]
    exact kw_none h.bare hn
  have h11' := h.apart h11
  rw [primary_eq]
  refine alt_fail (arr_fail h.bare (h.apart h6 _ (by simp))) (alt_fail (map_fail (unsigned_fail_word h.ident
    (h.none (by rw [h7]; decide)) (h.none (by rw [h8]; decide)))) (alt_fail (map_fail h9) ?_))
  exact alt_fail (setFn_fail h.bare (h.apart h10)) (alt_fail (map_fail (case_fail h.bare (h11' _ (by simp))
    (h11' _ (by simp)) (h11' _ (by simp)))) (alt_fail (any_fail h.bare (h11' _ (by simp)))
    (alt_fail (map_fail hc) (alt_fail (map_fail hnl) (map_fail (seqR_fail (sym_fail hl)))))))

theorem venb_fail_kw0 {w t y : Str} (h : KwStart w t y) (hw : venbKw0 w = true)
    (hc : parse cfg columnReference true (t ++ y) = .fail) : parse cfg venb true (t ++ y) = .fail := by
  obtain ⟨c, hn, hl⟩ := kwStart_next (r := t ++ y) h (skip_bare h.bare)
  rw [venb, parse_nt]
  refine map_fail (seq_fail (map_fail (seq_fail2 (optD_none (sign_fail ?_ ?_)) (numericPrimary_fail_kw0 h hw hc))))
  · rw [hn]; rintro ⟨⟩; exact absurd hl (by decide)
  · rw [hn]; rintro ⟨⟩; exact absurd hl (by decide)

theorem venb_fail_kw {w t y : Str} (h : KwStart w t y) (hw : venbKw w = true) :
    parse cfg venb true (t ++ y) = .fail := by
  obtain ⟨h0, h9⟩ := Bool.and_eq_true_iff.1 hw
  refine venb_fail_kw0 h h0 ?_
  simp only [venbKw0, Bool.and_eq_true] at h0
  obtain ⟨⟨⟨⟨⟨⟨⟨⟨⟨h1, h2⟩, h4⟩, -⟩, -⟩, -⟩, -⟩, -⟩, -⟩, -⟩ := h0
  simp only [offAll, List.all_append, Bool.and_eq_true] at h4
  exact col_fail (h.no_ident (reservedB_iff h2) h4.1.1) (tap_kw h h9)

theorem venb_blanks {b s : Str} (hb : Blanks b) : parse cfg venb true (b ++ s) = parse cfg venb true s :=
  parse_blanks rfl rfl hb

/-! ### Geometry -/

/-- `'(' geometry ')'` of `where` -/
def parenGeo : G Geom := seqR (sym cs!"(") (seqL geometry xClose)

/-- No geometric condition starts here. -/
def NoGeo (cfg : Config) (u : Str) : Prop :=
  parse cfg geometry true u = .fail ∧ parse cfg parenGeo true u = .fail

theorem geomPred_fail {u : Str} (h1 : Apart cs!"CONTAINS" (skip true u)) (h2 : Apart cs!"INTERSECTS" (skip true u)) :
    parse cfg geomPred true u = .fail := by
  rw [parse_skip (by simp) (by simp)]
  have hb := bare_skip u
  refine alt_fail ?_ ?_
  · exact map_fail (seqR_fail (stuck_seqR_fail (stuck_kw hb h1) fun _ _ hc => sym_idChar hc (by decide)))
  · exact map_fail (seqR_fail (stuck_seqR_fail (stuck_kw hb h2) fun _ _ hc => sym_idChar hc (by decide)))

theorem charFlag_eq {c : Char} {t : Str} (hc : isSpace c = false) : parse cfg charFlag true (c :: t) =
    if (c == '0' || c == '1') = true then .ok c t else .fail := by
  rw [charFlag, lexeme_bare (bare_cons hc)]
  simp only [parse, step, skip]
  rfl

/-- No geometric condition starts here when neither a function nor a flag and `=` is found. -/
theorem geometry_fail {u : Str} (h : parse cfg geomPred true u = .fail)
    (hf : ∀ c b z, c = '0' ∨ c = '1' → Blanks b → skip true u = c :: (b ++ '=' :: z) →
      parse cfg geomPred true z = .fail) : parse cfg geometry true u = .fail := by
  refine alt_fail (map_fail ?_) (map_fail (seq_fail h))
  rw [parse_skip (p := seq (seqL charFlag (sym cs!"=")) geomPred) rfl rfl]
  have hb := bare_skip u
  cases hs : skip true u with
  | nil =>
    refine seq_fail (seqL_fail ?_)
    rfl
  | cons c t =>
    have hc := hb c t hs
    cases hq : (c == '0' || c == '1') with
    | false =>
      refine seq_fail (seqL_fail ?_)
      rw [charFlag_eq hc, hq]; rfl
    | true =>
      have e : parse cfg charFlag true (c :: t) = .ok c t := by rw [charFlag_eq hc, hq]; rfl
      obtain ⟨b, hb', ht⟩ := skip_split t
      by_cases hn : next t = some '='
      · have hn : (skip true t).head? = some '=' := hn
        cases hz : skip true t with
        | nil => rw [hz] at hn; cases hn
        | cons d z =>
          rw [hz] at hn
          cases hn
          rw [hz] at ht
          have e2 : parse cfg (sym cs!"=") true t = .ok cs!"=" z := by
            rw [ht]
            have := sym_ok1 (cfg := cfg) (c := '=') (s := b ++ ['=']) (r := z) (by decide) ⟨b, hb', rfl⟩
            simpa using this
          refine seq_fail2 (seqL_ok e e2) ?_
          refine hf c b z ?_ hb' (by rw [hs, ht])
          simpa using hq
      · exact seq_fail (seqL_fail2 e (sym_fail hn))

theorem parenGeo_fail {u : Str} (h : next u ≠ some '(') : parse cfg parenGeo true u = .fail :=
  seqR_fail (sym_fail h)

theorem noGeo_kw {w t y b : Str} (hb : Blanks b) (h : KwStart w t y)
    (ho : offAll [cs!"CONTAINS", cs!"INTERSECTS"] w = true) : NoGeo cfg (b ++ (t ++ y)) := by
  have e : skip true (b ++ (t ++ y)) = t ++ y := by rw [skip_blanks hb]; exact skip_bare h.bare
  obtain ⟨c, hc, hl⟩ := kwStart_next h e
  refine ⟨geometry_fail (geomPred_fail ?_ ?_) ?_, parenGeo_fail ?_⟩
  · rw [e]; exact h.apart ho _ (by simp)
  · rw [e]; exact h.apart ho _ (by simp)
  · intro c' b' z h1 _ h3
    have : next (b ++ (t ++ y)) = some c' := by show (skip true _).head? = _; rw [h3]; rfl
    rw [hc] at this
    cases this
    rcases h1 with rfl | rfl <;> exact absurd hl (by decide)
  · rw [hc]; rintro ⟨⟩; exact absurd hl (by decide)

theorem lead_geomPred {f u : Str} (h : LeadV f u) : parse cfg geomPred true u = .fail :=
  geomPred_fail (h.apart (by decide +kernel)) (h.apart (by decide +kernel))

/-- a digit is an expression -/
theorem digit_expr {c : Char} (hc : Digit c) : GoodE cfg [c] (.mk (.mk [] (.vep (.mk (.str [c]) []))) []) := by
  have h : NumLit [c] := .exact (.int ⟨by simp, by simpa using hc⟩)
  have := good_expr (good_plain (good_prim (good_num (cfg := cfg) (tok_nil (w := [c])) h).q good_idx_nil)) good_nil
  simpa using this

/-- An expression that starts with a digit in front of `=` is this digit. -/
theorem expr_flag {s r b z : Str} {v : VENB} {c : Char} (h : GoodE cfg s v) (hr : ExprEnd r) (hc : c = '0' ∨ c = '1')
    (hb : Blanks b) (e : skip true (s ++ r) = c :: (b ++ '=' :: z)) : r = b ++ '=' :: z := by
  have h1 := h.run r hr
  obtain ⟨b0, hb0, e0⟩ := skip_split (s ++ r)
  rw [e0, e, venb_blanks hb0] at h1
  have hd : Digit c := by rcases hc with rfl | rfl <;> (unfold Digit; decide)
  have ht : Tok cs!"=" (b ++ cs!"=") := ⟨b, hb, rfl⟩
  have he : ExprEnd (b ++ '=' :: z) := by
    have := exprEnd_tok (r := z) ht (by decide)
    simpa using this
  have h2 := (digit_expr (cfg := cfg) hd).run _ he
  rw [List.singleton_append] at h2
  rw [h2] at h1
  cases h1
  rfl

theorem expr_geometry {s r : Str} {v : VENB} (h : GoodE cfg s v) (hr : ExprEnd r)
    (hq : ∀ b z, Blanks b → r = b ++ '=' :: z → parse cfg geomPred true z = .fail) :
    parse cfg geometry true (s ++ r) = .fail :=
  geometry_fail (lead_geomPred (.inl (h.lead r hr.1.1.1))) fun _ _ _ hc hb e => hq _ _ hb (expr_flag h hr hc hb e)

theorem expr_geometry' {s r : Str} {v : VENB} (h : GoodE cfg s v) (hr : ExprEnd r) (hn : next r ≠ some '=') :
    parse cfg geometry true (s ++ r) = .fail := by
  refine expr_geometry h hr fun b z hb e => absurd ?_ hn
  rw [e, next_blanks hb]; rfl

/-! ### Conditions -/

/-- What is found when the text of a condition is read as an expression. -/
def HeadRes (cfg : Config) : Head → Str → Str → Prop
  | .stops, u, _ => ∃ v ρ, parse cfg venb true u = .ok v ρ ∧ next ρ ≠ some ')'
  | .whole, u, r => ∃ v, parse cfg venb true u = .ok v r
  | .none, u, _ => parse cfg venb true u = .fail

/-- The text spells the `boolean_primary` `p`; with `o`, it ends with an expression that could be continued, with
`g`, with a condition. -/
structure GoodB (cfg : Config) (h : Head) (o g : Bool) (s : Str) (p : BP) : Prop where
  lead : ∀ r, NotContinued r → ∃ f, LeadV f (s ++ r) ∧ (h = .none → f = [])
  run : ∀ r, FEnd o r → (g = true → LogEnd r) → parse cfg booleanPrimary true (s ++ r) = .ok p r
  head : ∀ r, FEnd o r → HeadRes cfg h (s ++ r) r
  notWord : ∀ r, NotContinued r → Apart cs!"NOT" (skip true (s ++ r))
  noNot : prefixCI cs!"NOT" (firstBP p) = false → ∀ r, NotContinued r → matchLit true cs!"NOT" (skip true (s ++ r)) = none
  geo : ∀ r, FEnd o r → NoGeo cfg (s ++ r)

/-- The text spells the predicate `p`. -/
structure GoodPr (cfg : Config) (h : Head) (o g : Bool) (s : Str) (p : Pred) : Prop where
  lead : ∀ r, NotContinued r → ∃ f, LeadV f (s ++ r) ∧ (h = .none → f = [])
  run : ∀ r, FEnd o r → (g = true → LogEnd r) → parse cfg predicate true (s ++ r) = .ok p r
  head : ∀ r, FEnd o r → HeadRes cfg h (s ++ r) r
  notWord : ∀ r, NotContinued r → Apart cs!"NOT" (skip true (s ++ r))
  noNot : prefixCI cs!"NOT" (firstBP (.pred p)) = false → ∀ r, NotContinued r → matchLit true cs!"NOT" (skip true (s ++ r)) = none
  geo : ∀ r, FEnd o r → NoGeo cfg (s ++ r)

theorem good_pred {h : Head} {o g : Bool} {s : Str} {p : Pred} (hp : GoodPr cfg h o g s p) : GoodB cfg h o g s (.pred p) :=
  ⟨hp.lead, fun r hr hl => alt_left (map_ok (hp.run r hr hl)), hp.head, hp.notWord, hp.noNot, hp.geo⟩

theorem lead_noNot {f u : Str} (h : LeadIn f exprChars u) (hf : prefixCI cs!"NOT" f = false) :
    matchLit true cs!"NOT" (skip true u) = none := h.none (by decide) hf

theorem lead_noExists {f u : Str} (h : LeadIn f exprChars u) (hf : prefixCI cs!"EXISTS" f = false) :
    matchLit true cs!"EXISTS" (skip true u) = none := h.none (by decide) hf

/-! ### Failing predicates -/

theorem cmp_fail {u ρ : Str} {v : VENB} (h : parse cfg venb true u = .ok v ρ)
    (hρ : next ρ ∉ [some '=', some '!', some '<', some '>']) : parse cfg comparisonPredicate true u = .fail :=
  map_fail (seq_fail2 h (seq_fail (compOp_fail hρ)))

theorem between_fail {u ρ n ρ' : Str} {v : VENB} (h : parse cfg venb true u = .ok v ρ)
    (hn : parse cfg (optS (wordX cs!"NOT")) true ρ = .ok n ρ')
    (hb : matchLit true cs!"BETWEEN" (skip true ρ') = none) : parse cfg betweenPredicate true u = .fail :=
  map_fail (seq_fail2 h (seq_fail2 hn (seqR_fail (wordX_fail hb))))

theorem in_fail {u ρ n ρ' : Str} {v : VENB} (h : parse cfg venb true u = .ok v ρ)
    (hn : parse cfg inNot true ρ = .ok n ρ')
    (hb : matchLit true cs!"IN" (skip true ρ') = none) : parse cfg inPredicate true u = .fail :=
  map_fail (seq_fail2 h (seq_fail2 hn (seqR_fail (wordX_fail hb))))

theorem null_fail {u ρ : Str} {v : VENB} (h : parse cfg venb true u = .ok v ρ)
    (hb : matchLit true cs!"IS" (skip true ρ) = none) : parse cfg nullPredicate true u = .fail :=
  map_fail (seq_fail2 h (seqR_fail (wordX_fail hb)))

theorem like_fail {u ρ n ρ' : Str} {v : VENB} (h : parse cfg venb true u = .ok v ρ)
    (hn : parse cfg (optS (word cs!"NOT")) true ρ = .ok n ρ')
    (hb : matchLit true cs!"LIKE" (skip true ρ') = none) : parse cfg likePredicate true u = .fail :=
  map_fail (seq_fail2 h (seq_fail2 hn (seqR_fail (word_fail (apart_none hb)))))

theorem exists_fail {u : Str} (h : matchLit true cs!"EXISTS" (skip true u) = none) :
    parse cfg existsPredicate true u = .fail := map_fail (seqR_fail (wordX_fail h))

theorem inNot_none {r : Str} (h : matchLit true cs!"NOT" (skip true r) = none) :
    parse cfg inNot true r = .ok [] r := by
  refine optD_none ?_
  simp only [parse, run_lexeme]
  exact map_fail (seq_fail (kw_none (bare_skip r) h))

theorem inNot_ok {k n i : Str} {c : Char} (h : Kw cs!"NOT" k n) (hc : isSpace c = true) :
    parse cfg inNot true (k ++ c :: i) = .ok (n ++ [c]) i := by
  refine optD_ok ?_
  obtain ⟨b, hb, e, hk⟩ := kw_split h (by decide) (blankFirst_notContinued ⟨c, i, rfl, hc⟩)
  rw [e]
  simp only [parse, run_lexeme, skip_blanks hb, skip_bare hk.bare]
  refine cat_ok (kw_start hk) (expect_ok ?_)
  simp [chS, step, skip, hc]

/-- An optional `NOT` and a word. -/
theorem notT_wordX {k n y : Str} (h : NotT k n) (hb : BlankFirst y) (hy : matchLit true cs!"NOT" (skip true y) = none) :
    parse cfg (optS (wordX cs!"NOT")) true (k ++ y) = .ok n y := by
  cases h with
  | none => exact optD_none (wordX_fail hy)
  | some h => exact optD_ok (wordX_ok h.1 (by decide) hb)

theorem notT_word {k n y : Str} (h : NotT k n) (hb : BlankFirst y) (hy : matchLit true cs!"NOT" (skip true y) = none) :
    parse cfg (optS (word cs!"NOT")) true (k ++ y) = .ok n y := by
  cases h with
  | none => exact optD_none (word_fail (apart_none hy))
  | some h => exact optD_ok (word_ok h.1 (by decide) hb)

theorem notT_inNot {k n y : Str} (h : NotT k n) (hb : BlankFirst y) (hy : matchLit true cs!"NOT" (skip true y) = none) :
    ∃ n' y', parse cfg inNot true (k ++ y) = .ok n' y' ∧ skip true y' = skip true y := by
  cases h with
  | none => exact ⟨_, _, inNot_none hy, rfl⟩
  | some h =>
    obtain ⟨c, t, rfl, hc⟩ := hb
    refine ⟨_, _, inNot_ok h.1 hc, ?_⟩
    have : Blanks [c] := by intro x hx; simp at hx; rw [hx]; exact hc
    exact (skip_blanks (s := t) this).symm

theorem notT_end {k n w b b' y : Str} (h : NotT k n) (hb : Word w b b') (hw : wordShape w = true)
    (hy : NotContinued y) : ExprEnd (k ++ (b ++ y)) ∧ ∃ c, next (k ++ (b ++ y)) = some c ∧ isLetter c = true := by
  cases h with
  | none =>
    obtain ⟨e, hk⟩ := word_start hb hw hy
    exact ⟨word_end (k := b) hb hw hy, kwStart_next hk e⟩
  | some h =>
    obtain ⟨e, hk⟩ := word_start h (by decide) (blankFirst_notContinued' (r := y) hb.2)
    exact ⟨word_end h (by decide) (blankFirst_notContinued' hb.2), kwStart_next hk e⟩

theorem word_none {w b b' y : Str} (hb : Word w b b') (hw : wordShape w = true) (hy : NotContinued y) {w' : Str}
    (h : (w'.all isIdChar && !prefixCI w' w) = true) : matchLit true w' (skip true (b ++ y)) = none := by
  obtain ⟨e, hk⟩ := word_start hb hw hy
  rw [e]; exact hk.none h

theorem letter_noComp {r : Str} {c : Char} (h : next r = some c) (hc : isLetter c = true) :
    next r ∉ [some '=', some '!', some '<', some '>'] := by
  rw [h]
  intro hm
  simp only [List.mem_cons, Option.some.injEq, List.not_mem_nil, or_false] at hm
  rcases hm with rfl | rfl | rfl | rfl <;> exact absurd hc (by decide)

/-! ### The predicates -/

/-- What is needed of the first expression of a predicate. -/
structure First (cfg : Config) (s : Str) (v : VENB) : Prop where
  good : GoodE cfg s v
  paren : ∀ r, ExprEnd r → parse cfg parenGeo true (s ++ r) = .fail

/-- A predicate that starts with an expression and continues with a word. -/
theorem good_first {s ρ : Str} {v : VENB} (hs : First cfg s v)
    (hρ : ∀ r, ExprEnd r → ExprEnd (ρ ++ r) ∧ next (ρ ++ r) ≠ some ')' ∧
      ∀ b z, Blanks b → ρ ++ r = b ++ '=' :: z → parse cfg geomPred true z = .fail)
    (hc : ∀ r, NotContinued r → NotContinued (ρ ++ r)) {o g : Bool} {p : Pred}
    (hf : firstBP (.pred p) = firstExpr v)
    (hp : ∀ r, FEnd o r → (g = true → LogEnd r) → parse cfg venb true (s ++ (ρ ++ r)) = .ok v (ρ ++ r) → (∃ f, LeadIn f exprChars (s ++ (ρ ++ r))) →
      parse cfg predicate true (s ++ (ρ ++ r)) = .ok p r) : GoodPr cfg .stops o g (s ++ ρ) p := by
  refine ⟨fun r hr => ?_, fun r hr hl => ?_, fun r hr => ?_, fun r hr => ?_, fun h0 r hr => ?_, fun r hr => ?_⟩ <;> rw [List.append_assoc]
  · exact ⟨_, .inl (hs.good.lead _ (hc r hr)), nofun⟩
  · exact hp r hr hl (hs.good.run _ (hρ r hr.1).1) ⟨_, hs.good.lead _ (hρ r hr.1).1.1.1.1⟩
  · exact ⟨v, _, hs.good.run _ (hρ r hr.1).1, (hρ r hr.1).2.1⟩
  · exact (hs.good.lead _ (hc r hr)).apart (by decide +kernel)
  · exact lead_noNot (hs.good.lead _ (hc r hr)) (hf ▸ h0)
  · exact ⟨expr_geometry hs.good (hρ r hr.1).1 (hρ r hr.1).2.2, hs.paren _ (hρ r hr.1).1⟩

theorem good_cmp {p g : Bool} {s o op t : Str} {v : VENB} {w : VE} (hs : First cfg s v) (hop : op ∈ compOps) (ho : Tok op o)
    (ht : GoodV cfg p g t w) : GoodPr cfg .stops p g (s ++ (o ++ t)) (.cmp v op w) := by
  have key : ∃ c op', op = c :: op' ∧ (!isSpace c && !isIdChar c && !("(.'\":-[*/+|)".toList.contains c)) = true := by
    have : (compOps.all fun w => match w with | [] => false | c :: _ => !isSpace c && !isIdChar c && !("(.'\":-[*/+|)".toList.contains c)) = true := by decide
    have := all_mem this hop
    cases op with
    | nil => cases this
    | cons c op' => exact ⟨c, op', rfl, this⟩
  obtain ⟨c, op', hc, hk⟩ := key
  simp only [Bool.and_eq_true, Bool.not_eq_true'] at hk
  refine good_first hs (fun r hr => ?_) (fun r hr => ?_) rfl (fun r hr hg h1 _ => ?_)
  · rw [List.append_assoc]
    refine ⟨?_, ?_, ?_⟩
    · rw [hc] at ho
      refine exprEnd_tok ho ?_
      rw [hk.1.1, hk.1.2]
      simp only [Bool.not_false, Bool.true_and, Bool.not_eq_true']
      have := hk.2
      rw [List.contains_eq_mem, decide_eq_false_iff_not] at this ⊢
      intro hm
      exact this ((by decide : ∀ x ∈ "(.'\":-[*/+|".toList, x ∈ "(.'\":-[*/+|)".toList) c hm)
    · rw [tok_next ho hc hk.1.1]
      rintro ⟨⟩
      exact absurd hk.2 (by decide)
    · intro b z hb e
      have e1 : skip true (o ++ (t ++ r)) = op ++ (t ++ r) := tok_drop ho hc hk.1.1
      rw [e, skip_blanks hb, skip_bare (bare_cons (by decide))] at e1
      have hl := ht.lead r hr.1.1.1
      have hz : z = t ++ r := by
        have hm := hop
        simp only [compOps, List.mem_cons, List.not_mem_nil, or_false] at hm
        rcases hm with rfl | rfl | rfl | rfl | rfl | rfl | rfl <;> simp at e1
        exact e1
      rw [hz]
      exact lead_geomPred hl
  · rw [List.append_assoc]
    exact tok_notContinued ho hc hk.1.2
  · rw [List.append_assoc] at h1 ⊢
    have hl := ht.lead r hr.1.1.1.1
    exact alt_left (map_ok (f := fun x : VENB × Str × VE => Pred.cmp x.1 x.2.1 x.2.2) (seq_ok h1
      (seq_ok (compOp_ok hop ho (notHead_of_next (by decide) (hl.ne (by decide)))
        (notHead_of_next (by decide) (hl.ne (by decide)))) (ht.run r hr hg))))

/-- the side conditions of `good_first` for a word -/
theorem notT_first {k n w b b' z : Str} (h : NotT k n) (hb : Word w b b') (hw : wordShape w = true)
    (hz : ∀ r, NotContinued r → NotContinued (z ++ r)) :
    (∀ r, ExprEnd r → ExprEnd ((k ++ (b ++ z)) ++ r) ∧ next ((k ++ (b ++ z)) ++ r) ≠ some ')' ∧
      ∀ b' z', Blanks b' → (k ++ (b ++ z)) ++ r = b' ++ '=' :: z' → parse cfg geomPred true z' = .fail) ∧
    (∀ r, NotContinued r → NotContinued ((k ++ (b ++ z)) ++ r)) := by
  refine ⟨fun r hr => ?_, fun r hr => ?_⟩
  · obtain ⟨h1, c, h2, h3⟩ := notT_end h hb hw (hz r hr.1.1.1)
    simp only [List.append_assoc]
    refine ⟨h1, ?_, ?_⟩
    · rw [h2]; rintro ⟨⟩; exact absurd h3 (by decide)
    · intro x z' hx e
      exfalso
      have : next (k ++ (b ++ (z ++ r))) = some '=' := by rw [e, next_blanks hx]; rfl
      rw [h2] at this
      cases this
      exact absurd h3 (by decide)
  · simp only [List.append_assoc]
    exact (notT_end h hb hw (hz r hr)).1.1.1.1

theorem good_between {p g : Bool} {s k n b b' t a a' u : Str} {v lo : VENB} {hi : VE} (hs : First cfg s v) (hk : NotT k n)
    (hb : Word cs!"BETWEEN" b b') (hbt : BlankFirst t) (ht : GoodE cfg t lo) (ha : Word cs!"AND" a a')
    (hbu : BlankFirst u) (hu : GoodV cfg p g u hi) :
    GoodPr cfg .stops p g (s ++ (k ++ (b ++ (t ++ (a ++ u))))) (.between v n (.nb lo) hi) := by
  obtain ⟨f1, f2⟩ := notT_first (cfg := cfg) (z := t ++ (a ++ u)) hk hb (by decide) (fun r _ => blankFirst_notContinued' (blankFirst_append hbt))
  refine good_first hs f1 f2 rfl fun r hr hg h1 _ => ?_
  have hy : NotContinued (t ++ (a ++ (u ++ r))) := blankFirst_notContinued' hbt
  obtain ⟨e1, c, e2, e3⟩ := notT_end hk hb (by decide) hy
  simp only [List.append_assoc] at h1 ⊢
  have hnot := word_none hb (by decide) hy (w' := cs!"NOT") (by decide)
  rw [predicate, alt_right (cmp_fail h1 (letter_noComp e2 e3))]
  refine alt_left (map_ok (f := fun x : VENB × Str × VE × VE => Pred.between x.1 x.2.1 x.2.2.1 x.2.2.2) (seq_ok h1 (seq_ok (notT_wordX hk (blankFirst_append hb.2) hnot)
    (seqR_ok (wordX_ok hb.1 (by decide) (blankFirst_append hbt)) (seq_ok (ht.ve (word_end ha (by decide) (blankFirst_notContinued' hbu)))
      (seqR_ok (wordX_ok ha.1 (by decide) (blankFirst_append hbu)) (hu.run r hr hg)))))))

theorem good_nullP {s i i' k n u u' : Str} {v : VENB} (hs : First cfg s v) (hi : Word cs!"IS" i i')
    (hk : NotT k n) (hu : Word cs!"NULL" u u') : GoodPr cfg .stops false false (s ++ (i ++ (k ++ u))) (.null v n) := by
  have hbk : BlankFirst (k ++ u) := by
    cases hk with
    | none => exact hu.2
    | some h => exact blankFirst_append h.2
  obtain ⟨f1, f2⟩ := notT_first (cfg := cfg) (z := k ++ u) .none hi (by decide) (fun r _ => blankFirst_notContinued' hbk)
  simp only [List.nil_append] at f1 f2
  refine good_first hs f1 f2 rfl fun r hr hg h1 _ => ?_
  have hy : NotContinued (k ++ (u ++ r)) := by
    have := blankFirst_notContinued' (r := r) hbk
    simpa using this
  obtain ⟨e1, c, e2, e3⟩ := notT_end .none hi (by decide) hy
  simp only [List.append_assoc, List.nil_append] at h1 e2 ⊢
  have hn : ∀ {w' : Str}, (w'.all isIdChar && !prefixCI w' cs!"IS") = true → matchLit true w' (skip true (i ++ (k ++ (u ++ r)))) = none :=
    fun h => word_none hi (by decide) hy h
  have hnot := word_none hu (by decide) hr.1.1.1.1 (w' := cs!"NOT") (by decide)
  rw [predicate, alt_right (cmp_fail h1 (letter_noComp e2 e3)),
    alt_right (between_fail h1 (optD_none (wordX_fail (hn (by decide)))) (hn (by decide))),
    alt_right (in_fail h1 (inNot_none (hn (by decide))) (hn (by decide)))]
  exact alt_left (map_ok (f := fun x : VENB × Str => Pred.null x.1 x.2) (seq_ok h1 (seqR_ok (wordX_ok hi.1 (by decide)
    (by have := blankFirst_append (r := r) hbk; simpa using this))
    (seqL_ok (notT_wordX hk (blankFirst_append hu.2) hnot) (kw_ok hu.1 (by decide) hr.1.1.1.1)))))

theorem good_like {s k n l l' t : Str} {v w : VENB} (hs : First cfg s v) (hk : NotT k n)
    (hl : Word cs!"LIKE" l l') (hbt : BlankFirst t) (ht : GoodE cfg t w) :
    GoodPr cfg .stops false false (s ++ (k ++ (l ++ t))) (.like v n (.nb w)) := by
  obtain ⟨f1, f2⟩ := notT_first (cfg := cfg) (z := t) hk hl (by decide) (fun r _ => blankFirst_notContinued' hbt)
  refine good_first hs f1 f2 rfl fun r hr hg h1 _ => ?_
  have hy : NotContinued (t ++ r) := blankFirst_notContinued' hbt
  obtain ⟨e1, c, e2, e3⟩ := notT_end hk hl (by decide) hy
  simp only [List.append_assoc] at h1 ⊢
  have hn : ∀ {w' : Str}, (w'.all isIdChar && !prefixCI w' cs!"LIKE") = true → matchLit true w' (skip true (l ++ (t ++ r))) = none :=
    fun h => word_none hl (by decide) hy h
  have hbl : BlankFirst (l ++ (t ++ r)) := blankFirst_append hl.2
  obtain ⟨n', y', g1, g2⟩ := notT_inNot (cfg := cfg) hk hbl (hn (by decide))
  have his : matchLit true cs!"IS" (skip true (k ++ (l ++ (t ++ r)))) = none := by
    cases hk with
    | none => exact hn (by decide)
    | some h => exact word_none h (by decide) (blankFirst_notContinued hbl) (by decide)
  rw [predicate, alt_right (cmp_fail h1 (letter_noComp e2 e3)),
    alt_right (between_fail h1 (notT_wordX hk hbl (hn (by decide))) (hn (by decide))),
    alt_right (in_fail h1 g1 (by rw [g2]; exact hn (by decide))), alt_right (null_fail h1 his)]
  exact alt_left (map_ok (f := fun x : VENB × Str × VENB => Pred.like x.1 x.2.1 (.nb x.2.2)) (seq_ok h1
    (seq_ok (notT_word hk hbl (hn (by decide))) (seqR_ok (word_ok hl.1 (by decide) (blankFirst_append hbt)) (ht.run r hr.1)))))

/-- the parts of `IN` and `NOT IN` -/
theorem inT_parts {k n : Str} (h : InT k n) : ∃ k1 n1 k2 t, k = k1 ++ k2 ∧ NotT k1 n1 ∧ Word cs!"IN" k2 t := by
  cases h with
  | plain h => exact ⟨[], [], _, _, rfl, .none, h⟩
  | @not k n c i t h hc hi =>
    obtain ⟨b, hb, rfl, hs⟩ := hi
    refine ⟨k, n, c :: (b ++ t), t, rfl, .some h, ⟨c :: b, ?_, rfl, hs⟩, c, _, rfl, hc⟩
    intro x hx
    rcases List.mem_cons.1 hx with rfl | hx
    · exact hc
    · exact hb x hx

theorem inT_ok {k n y : Str} (h : InT k n) (hy : BlankFirst y) :
    ∃ i, parse cfg inNot true (k ++ y) = .ok n i ∧ ∃ t, parse cfg (wordX cs!"IN") true i = .ok t y := by
  cases h with
  | @plain k t h =>
    exact ⟨_, inNot_none (word_none h (by decide) (blankFirst_notContinued hy) (by decide)), t, wordX_ok h.1 (by decide) hy⟩
  | @not k n c i t h hc hi =>
    rw [List.append_assoc]
    exact ⟨_, inNot_ok h.1 hc, t, wordX_ok hi (by decide) hy⟩

/-- the list or the subquery after `IN` -/
def inRight : G (Subquery ⊕ List VE) :=
  .alt (.map Sum.inl subq) (.map Sum.inr (seqR (sym cs!"(") (seqL (sepBy ve (sym cs!",")) (sym cs!")"))))

/-- the predicate with the list or the subquery -/
def inPred (v : VENB) (n : Str) : Subquery ⊕ List VE → Pred
  | .inl q => .inSub v n q
  | .inr l => .inList v n l

theorem good_in {s k n z : Str} {v : VENB} {x : Subquery ⊕ List VE} (hs : First cfg s v) (hk : InT k n)
    (hz : BlankFirst z) (h : ∀ r, ExprEnd r → parse cfg inRight true (z ++ r) = .ok x r) :
    GoodPr cfg .stops false false (s ++ (k ++ z)) (inPred v n x) := by
  obtain ⟨k1, n1, k2, t, e, h1, h2⟩ := inT_parts hk
  have key := notT_first (cfg := cfg) (z := z) h1 h2 (by decide) (fun r _ => blankFirst_notContinued' hz)
  rw [← List.append_assoc, ← e] at key
  refine good_first hs key.1 key.2 (by cases x <;> rfl) fun r hr _ hv _ => ?_
  have hy : NotContinued (z ++ r) := blankFirst_notContinued' hz
  obtain ⟨e1, c, e2, e3⟩ := notT_end h1 h2 (by decide) hy
  have hb2 : BlankFirst (k2 ++ (z ++ r)) := blankFirst_append h2.2
  have hw := notT_wordX (cfg := cfg) h1 hb2 (word_none h2 (by decide) hy (by decide))
  rw [← List.append_assoc, ← e] at e2 hw
  rw [List.append_assoc] at hv ⊢
  rw [predicate, alt_right (cmp_fail hv (letter_noComp e2 e3)),
    alt_right (between_fail hv hw (word_none h2 (by decide) hy (by decide)))]
  obtain ⟨i, g1, t', g2⟩ := inT_ok (cfg := cfg) hk (blankFirst_append (r := r) hz)
  have := map_ok (f := fun x : VENB × Str × (Subquery ⊕ List VE) => inPred x.1 x.2.1 x.2.2)
    (seq_ok hv (seq_ok g1 (seqR_ok g2 (h r hr.1))))
  refine alt_left (Eq.trans ?_ this)
  unfold inPredicate
  congr 2

theorem good_inSub {s k n z : Str} {v : VENB} {q : Subquery} (hs : First cfg s v) (hk : InT k n)
    (hz : BlankFirst z) (h : ∀ r, parse cfg subq true (z ++ r) = .ok q r) :
    GoodPr cfg .stops false false (s ++ (k ++ z)) (.inSub v n q) :=
  good_in (x := .inl q) hs hk hz fun r _ => alt_left (map_ok (h r))

theorem good_inList {s k n o u c : Str} {v : VENB} {vs : List VE} (hs : First cfg s v) (hk : InT k n)
    (hbo : BlankFirst o) (ho : Tok cs!"(" o) (hu : GoodArgs cfg u vs) (hc : Tok cs!")" c)
    (hq : ∀ r, parse cfg subq true (o ++ (u ++ (c ++ r))) = .fail) :
    GoodPr cfg .stops false false (s ++ (k ++ (o ++ (u ++ c)))) (.inList v n vs) := by
  refine good_in (x := .inr vs) hs hk (blankFirst_append hbo) fun r _ => ?_
  simp only [List.append_assoc]
  rw [inRight, alt_right (map_fail (hq r))]
  exact map_ok (seqR_ok (sym_ok1 (by decide) ho) (seqL_ok (hu.run _ (close_v hc)
    (by rw [tok_next hc rfl (by decide)]; decide)) (sym_ok1 (by decide) hc)))

theorem good_exists {e e' t : Str} {q : Subquery} (he : Kw cs!"EXISTS" e e') (hbt : BlankFirst t)
    (h : ∀ r, parse cfg subq true (t ++ r) = .ok q r) : GoodPr cfg .none false false (e ++ t) (.exist q) := by
  have hk : ∀ r, ∃ b, Blanks b ∧ e ++ (t ++ r) = b ++ (e' ++ (t ++ r)) ∧ KwStart cs!"EXISTS" e' (t ++ r) :=
    fun r => kw_split he (by decide) (blankFirst_notContinued' hbt)
  have hv : ∀ r, parse cfg venb true (e ++ (t ++ r)) = .fail := by
    intro r
    obtain ⟨b, hb, e1, hk⟩ := hk r
    rw [e1, venb_blanks hb]
    exact venb_fail_kw hk (by decide +kernel)
  refine ⟨fun r hr => ?_, fun r hr _ => ?_, fun r hr => ?_, fun r hr => ?_, fun _ r hr => ?_, fun r hr => ?_⟩ <;> rw [List.append_assoc]
  · exact ⟨[], leadV_kw he (by decide) (blankFirst_notContinued' hbt), fun _ => rfl⟩
  · rw [predicate, alt_right (p := comparisonPredicate) (map_fail (seq_fail (hv r))),
      alt_right (p := betweenPredicate) (map_fail (seq_fail (hv r))),
      alt_right (p := inPredicate) (map_fail (seq_fail (hv r))),
      alt_right (p := nullPredicate) (map_fail (seq_fail (hv r))),
      alt_right (p := likePredicate) (map_fail (seq_fail (hv r)))]
    exact map_ok (seqR_ok (wordX_ok he (by decide) (blankFirst_append hbt)) (h r))
  · exact hv r
  · obtain ⟨b, hb, e1, hk⟩ := hk r
    rw [e1, skip_blanks hb, skip_bare hk.bare]
    exact apart_none (hk.none (by decide))
  · obtain ⟨b, hb, e1, hk⟩ := hk r
    rw [e1, skip_blanks hb, skip_bare hk.bare]
    exact hk.none (by decide)
  · obtain ⟨b, hb, e1, hk⟩ := hk r
    rw [e1]
    exact noGeo_kw hb hk (by decide)

end Adql.Fwd
