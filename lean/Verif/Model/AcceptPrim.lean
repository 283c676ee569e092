import Verif.Model.AcceptExpr

/-!
# Running the grammar forward: operands
-/

namespace Adql.Fwd

open P Spec

variable {cfg : Config} {sk : Bool}

theorem fail_head {α : Type} {p : G α} {c : Char} {t : Str} (hs : isSpace c = false) (hc : p.consumes = true)
    (hw : P.wf rank 4 4 p = true) (hi : p.idle deadF (some c) = true) :
    parse cfg p sk (c :: t) = .fail := by
  apply parse_idle hc hw
  rw [skip_bare (bare_cons hs)]
  exact hi

/-! ### Failing alternatives -/

theorem num_fail {c : Char} {t : Str} (hs : isSpace c = false) (hc : isDigit c = false) (hd : c ≠ '.') :
    parse cfg unsignedNumeric sk (c :: t) = .fail := by
  apply C08_otherwise_fails
  intro a r h
  rw [C08_numeric_literal] at h
  obtain ⟨b, hb, hB, hn, -⟩ := h
  obtain ⟨d, u, rfl, hd'⟩ := numLit_start hn
  cases b with
  | nil =>
    simp only [List.nil_append, List.cons_append, List.cons.injEq] at hb
    rw [← hb.1] at hd'
    rcases hd' with hd' | hd'
    · exact digit_ne hd' hc rfl
    · exact hd hd'
  | cons x b =>
    simp only [List.cons_append, List.cons.injEq] at hb
    have := hB.1 x (by simp)
    rw [← hb.1, hs] at this; cases this

theorem str_fail {c : Char} {t : Str} (hs : isSpace c = false) (hc : c ≠ '\'') :
    parse cfg charString sk (c :: t) = .fail := by
  apply C07_otherwise_fails
  intro a r h
  rw [C07_string_literal] at h
  obtain ⟨b, hb, hB, hn, -⟩ := h
  obtain ⟨u, rfl⟩ := strLit_start hn
  cases b with
  | nil =>
    simp only [List.nil_append, List.cons_append, List.cons.injEq] at hb
    exact hc hb.1
  | cons x b =>
    simp only [List.cons_append, List.cons.injEq] at hb
    have := hB.1 x (by simp)
    rw [← hb.1, hs] at this; cases this

theorem bool_fail {u : Str} (hu : Bare u) (h1 : matchLit true cs!"TRUE" u = none)
    (h2 : matchLit true cs!"FALSE" u = none) : parse cfg booleanLiteral sk u = .fail := by
  have e : ∀ {w w' : Str}, SameCI w w' → matchLit true w' u = none → matchLit true w u = none := by
    intro w w' hs h
    rw [matchLit_none] at h ⊢
    intro t r hu hl
    exact h t r hu (litOK_ci.2 ((litOK_ci.1 hl).trans hs))
  rw [booleanLiteral, lexeme_bare hu]
  exact alt_fail (kw_none hu (e (by unfold SameCI; decide) h1)) (kw_none hu (e (by unfold SameCI; decide) h2))

/-- No literal starts with a letter, except for `TRUE` and `FALSE`. -/
theorem unsigned_fail {c : Char} {t : Str} (hs : isSpace c = false) (hc : isDigit c = false) (hd : c ≠ '.')
    (hq : c ≠ '\'') (h1 : matchLit true cs!"TRUE" (c :: t) = none)
    (h2 : matchLit true cs!"FALSE" (c :: t) = none) : parse cfg unsignedLiteral sk (c :: t) = .fail := by
  have hu : Bare (c :: t) := bare_cons hs
  rw [unsignedLiteral, lexeme_bare hu]
  refine alt_fail (num_fail hs hc hd) ?_
  rw [generalLiteral, lexeme_bare hu]
  exact alt_fail (str_fail hs hq) (bool_fail hu h1 h2)

theorem letter_facts {c : Char} (h : isLetter c = true) :
    isSpace c = false ∧ isDigit c = false ∧ c ≠ '.' ∧ c ≠ '\'' ∧ c ≠ '(' := by
  refine ⟨isLetter_not_space h, ?_, ?_, ?_, ?_⟩
  · cases hd : isDigit c with
    | false => rfl
    | true =>
      rw [isLetter_toNat] at h
      simp only [isDigit, Bool.and_eq_true, decide_eq_true_eq] at hd
      omega
  all_goals
    rintro rfl
    revert h; decide

theorem unsigned_fail_word {x y : Str} (hx : IdentShape x) (h1 : matchLit true cs!"TRUE" (x ++ y) = none)
    (h2 : matchLit true cs!"FALSE" (x ++ y) = none) : parse cfg unsignedLiteral sk (x ++ y) = .fail := by
  obtain ⟨c, t, rfl, hc, -⟩ := hx
  have := letter_facts (isLetter_iff.2 hc)
  exact unsigned_fail this.1 this.2.1 this.2.2.1 this.2.2.2.1 h1 h2

theorem col_fail {u : Str} (h1 : parse cfg identifier true u = .fail) (h2 : parse cfg tap true u = .fail) :
    parse cfg columnReference true u = .fail :=
  alt_fail (map_fail (seq_fail h1)) (alt_fail (map_fail (seq_fail h1))
    (alt_fail (map_fail (seq_fail (alt_fail h2 h1))) (map_fail h1)))

theorem arr_fail {u : Str} (hu : Bare u) (h : Apart cs!"ARRAY" u) : parse cfg arrayConstructor true u = .fail :=
  map_fail (seqL_fail (seqR_fail (stuck_seq_fail (stuck_kw hu h) fun _ _ hc => sym_idChar hc (by decide))))

theorem chS_idChar {c d : Char} {v : Str} (h : isIdChar c = true) (hd : isIdChar d = false) :
    parse cfg (chS (· == d)) true (c :: v) = .fail := by
  apply chS_fail
  intro x hx
  rw [next_idChar h] at hx
  cases hx
  simp only [beq_eq_false_iff_ne]
  rintro rfl
  rw [h] at hd; cases hd

theorem setFn_fail {u : Str} (hu : Bare u) (h : ∀ w ∈ setFns, Apart w u) :
    parse cfg (.alt (.map Prim.countStar countStar) generalSetFunction) true u = .fail := by
  apply alt_fail
  · exact map_fail (map_fail (stuck_seq_fail (stuck_kw hu (h _ (by decide)))
      fun c v hc => map_fail (seq_fail (chS_idChar hc (by decide)))))
  · exact map_fail (seq_fail (names_fail (ws := setFns) hu h))

theorem case_fail {u : Str} (hu : Bare u) (h1 : Apart cs!"NULLIF" u) (h2 : Apart cs!"COALESCE" u)
    (h3 : Apart cs!"CASE" u) : parse cfg caseExpression true u = .fail := by
  refine alt_fail (alt_fail ?_ ?_) ?_
  · exact map_fail (seqR_fail (stuck_seq_fail (stuck_kw hu h1) fun _ _ hc => sym_idChar hc (by decide)))
  · exact map_fail (seqR_fail (stuck_seq_fail (stuck_kw hu h2) fun _ _ hc => sym_idChar hc (by decide)))
  · refine seqR_fail (stuck_seq_fail (stuck_kw hu h3) fun c v hc => ?_)
    have := idChar_bare (v := v) hc c v rfl
    simp [andNsSpace, parse, step, skip, this]

theorem any_fail {u : Str} (hu : Bare u) (h : Apart cs!"ANY" u) : parse cfg anyExpression true u = .fail :=
  map_fail (seqR_fail (stuck_seq_fail (stuck_kw hu h) fun _ _ hc => sym_idChar hc (by decide)))

/-- what the alternatives after the columns start with -/
def primWords : List Str := setFns ++ [cs!"NULLIF", cs!"COALESCE", cs!"CASE", cs!"ANY"]

/-- the part of `primary` after the columns -/
def primary2 : G Prim :=
  .alt (.alt (.map .countStar countStar) generalSetFunction)
    (.alt (.map .case caseExpression) (.alt anyExpression (.alt (.map .str nullCast)
      (.alt (.map .str nullLiteral) valueSubexpression))))

theorem primary_eq : primary = .alt arrayConstructor (.alt (.map .str unsignedLiteral)
    (.alt (.map .col columnReference) primary2)) := rfl

theorem tap_kw {w t y : Str} (h : KwStart w t y) (ho : offAll [cs!"TAP_UPLOAD"] w = true) :
    parse cfg tap sk (t ++ y) = .fail := by
  apply tap_fail h.bare
  intro r e
  have h1 : t = cs!"TAP_UPLOAD" :=
    prefix_word (k := cs!"TAP_UPLOAD") (d := '.') (r := r) (by decide) (identShape_all h.ident) h.stop
      (by decide) (by simpa using e)
  simp only [offAll, List.all_cons, List.all_nil, Bool.and_true, Bool.and_eq_true, Bool.not_eq_true',
    beq_eq_false_iff_ne] at ho
  apply ho.2
  have := h.same
  rw [h1] at this
  exact this.symm

/-- all the conditions on a reserved word under which only the later alternatives of `primary` are tried -/
def primKw (w : Str) : Bool :=
  wordShape w && reservedB w && startWords.contains w &&
    offAll ((cs!"END" :: missed) ++
      [cs!"RIGHT", cs!"LEFT", cs!"UPPER", cs!"LOWER", cs!"DISTINCT", cs!"TRIM"] ++ fnWords) w &&
    !prefixCI cs!"CURRENT_TIMESTAMP" w && offAll [cs!"ARRAY"] w && !prefixCI cs!"TRUE" w &&
    !prefixCI cs!"FALSE" w && offAll [cs!"TAP_UPLOAD"] w

theorem prim_entry {w t y : Str} (h : KwStart w t y) (hw : primKw w = true) :
    parse cfg primary true (t ++ y) = parse cfg primary2 true (t ++ y) := by
  simp only [primKw, Bool.and_eq_true, Bool.not_eq_true'] at hw
  obtain ⟨⟨⟨⟨⟨⟨⟨⟨h1, h2⟩, h3⟩, h4⟩, h5⟩, h6⟩, h7⟩, h8⟩, h9⟩ := hw
  simp only [offAll, List.all_append, Bool.and_eq_true] at h4
  rw [primary_eq, alt_right (arr_fail h.bare (h.apart h6 _ (by simp))),
    alt_right (map_fail (unsigned_fail_word h.ident (h.none (by rw [h7]; decide)) (h.none (by rw [h8]; decide)))),
    alt_right (map_fail (col_fail (h.no_ident (reservedB_iff h2) h4.1.1) (tap_kw h h9)))]

theorem prim_noFn {w t y : Str} (h : KwStart w t y) (hw : primKw w = true) :
    parse cfg numericValueFunction true (t ++ y) = .fail := by
  simp only [primKw, Bool.and_eq_true, Bool.not_eq_true'] at hw
  obtain ⟨⟨⟨⟨⟨⟨⟨⟨h1, h2⟩, h3⟩, h4⟩, h5⟩, h6⟩, h7⟩, h8⟩, h9⟩ := hw
  exact nvf_fail_kw h (reservedB_iff h2) h4 h5

theorem primKw_shape {w : Str} (hw : primKw w = true) : wordShape w = true := by
  simp only [primKw, Bool.and_eq_true] at hw
  exact hw.1.1.1.1.1.1.1.1

theorem primKw_start {w : Str} (hw : primKw w = true) : w ∈ startWords := by
  simp only [primKw, Bool.and_eq_true, List.contains_iff_mem] at hw
  exact hw.1.1.1.1.1.1.2

theorem primary_blanks {b s : Str} (hb : Blanks b) :
    parse cfg primary true (b ++ s) = parse cfg primary true s :=
  parse_blanks (by simp) (by simp) hb

/-- An operand that starts with a keyword and a parenthesis. -/
theorem good_kw {w s t o z : Str} {p : Prim} (hs : Kw w s t) (ho : Tok cs!"(" o) (hw : primKw w = true)
    (h : ∀ r, KwStart w t (o ++ (z ++ r)) → parse cfg primary2 true (t ++ (o ++ (z ++ r))) = .ok p r) :
    GoodP cfg (s ++ (o ++ z)) p := by
  refine ⟨fun r hr => ?_, fun r hr => ?_, fun r hr => ?_⟩ <;> simp only [List.append_assoc] <;>
    obtain ⟨b, hb, rfl, hk⟩ := kw_open (z := z ++ r) hs (primKw_shape hw) ho <;> rw [List.append_assoc]
  · exact (lead_kwStart hk (primKw_start hw)).blanks hb
  · rw [nvf_blanks hb]; exact prim_noFn hk hw
  · rw [primary_blanks hb, prim_entry hk hw]; exact h r hk

/-! ### Operands that start with a keyword -/

theorem chS_tok {d : Char} {s r : Str} (hd : isSpace d = false) (h : Tok [d] s) :
    parse cfg (chS (· == d)) true (s ++ r) = .ok [d] r := by
  obtain ⟨b, hb, rfl⟩ := h
  have h1 : skip true ((b ++ [d]) ++ r) = d :: r := by
    rw [List.append_assoc, skip_blanks hb]
    exact skip_bare (bare_cons hd)
  simp only [chS, parse, run_map, step, h1]
  simp

theorem good_countStar {s t o a c : Str} (hs : Kw cs!"COUNT" s t) (ho : Tok cs!"(" o) (ha : Tok cs!"*" a)
    (hc : Tok cs!")" c) : GoodP cfg (s ++ (o ++ (a ++ c))) (.countStar (t ++ cs!"(*)")) := by
  refine good_kw hs ho (by decide +kernel) fun r hk => ?_
  rw [List.append_assoc] at hk ⊢
  exact alt_left (alt_left (map_ok (cat_ok (kw_start hk) (cat_ok (chS_tok (by decide) ho)
    (cat_ok (chS_tok (by decide) ha) (expect_ok (chS_tok (by decide) hc)))))))

/-- `DISTINCT` and `ALL` are not found at the start of an expression. -/
theorem quant_fail {f u : Str} (h : LeadV f u) : parse cfg setQuantifier true u = .fail := by
  have hu := bare_skip u
  rw [setQuantifier]
  simp only [parse, run_lexeme]
  have hs : skip false (skip true u) = skip true u := rfl
  rw [hs]
  refine stuck_seqL_fail ?_ fun c v hc => ?_
  · have h1 := stuck_kw (cfg := cfg) (sk := false) hu (h.apart (w := cs!"DISTINCT") (by decide +kernel))
    have h2 := stuck_kw (cfg := cfg) (sk := false) hu (h.apart (w := cs!"ALL") (by decide +kernel))
    rcases h1 with h1 | ⟨a, c, v, h1, hc⟩
    · rw [alt_right h1]; exact h2
    · exact .inr ⟨a, c, v, alt_left h1, hc⟩
  · have := idChar_bare (v := v) hc c v rfl
    simp [andSpace, parse, step, skip, this]

theorem setFn_names {w t o z : Str} (hw : w ∈ setFns) (hk : KwStart w t (o ++ z)) (ho : Tok cs!"(" o) :
    parse cfg (seqL setFunctionType (sym cs!"(")) true (t ++ (o ++ z)) = .ok t z := by
  have hp : (setFns.all fun w => picks setFns w) = true := by decide +kernel
  exact names_ok (ws := setFns) hk (by decide +kernel) (all_mem hp hw) ho

theorem countStar_fail {w t o z : Str} (hw : w ∈ setFns) (hk : KwStart w t (o ++ z)) (ho : Tok cs!"(" o)
    (hz : next z ≠ some '*') : parse cfg (.map Prim.countStar countStar) true (t ++ (o ++ z)) = .fail := by
  apply map_fail
  by_cases hc : w = cs!"COUNT"
  · subst hc
    refine map_fail (seq_fail2 (kw_start hk) (map_fail (seq_fail2 (chS_tok (by decide) ho)
      (map_fail (seq_fail (chS_fail fun x hx => ?_))))))
    simp only [beq_eq_false_iff_ne]
    rintro rfl
    exact hz hx
  · have hp : (setFns.all fun w => w == cs!"COUNT" || offAll [cs!"COUNT"] w) = true := by decide +kernel
    have hp := all_mem hp hw
    simp only [Bool.or_eq_true, beq_iff_eq, hc, false_or] at hp
    exact map_fail (stuck_seq_fail (stuck_kw hk.bare (hk.apart hp _ (by simp)))
      fun c v hc => map_fail (seq_fail (chS_idChar hc (by decide))))

theorem setFns_primKw {w : Str} (hw : w ∈ setFns) : primKw w = true := by
  have hp : (setFns.all primKw) = true := by decide +kernel
  exact all_mem hp hw

theorem good_setFn {s fn o u c : Str} {p g : Bool} {v : VE} (hs : KwIn setFns s fn) (ho : Tok cs!"(" o)
    (hu : GoodV cfg p g u v) (hc : Tok cs!")" c) :
    GoodP cfg (s ++ (o ++ (u ++ c))) (.setFn fn [] v) := by
  obtain ⟨w, hw, hs⟩ := hs
  refine good_kw hs ho (setFns_primKw hw) fun r hk => ?_
  rw [List.append_assoc] at hk ⊢
  have hl := hu.lead (c ++ r) (notContinued_tok hc (by decide))
  rw [primary2]
  apply alt_left
  rw [alt_right (countStar_fail hw hk ho (hl.ne (by decide)))]
  exact map_ok (f := fun x : Str × Str × VE => Prim.setFn x.1 x.2.1 x.2.2)
    (seq_ok (setFn_names hw hk ho) (seqL_ok (expect_ok (seq_ok (optD_none (quant_fail hl)) (hu.ve (close_v hc))))
      (expect_ok (sym_ok1 (by decide) hc))))

theorem andSpace_ok {c : Char} {t : Str} (h : isSpace c = true) : parse cfg andSpace false (c :: t) = .ok () (c :: t) := by
  simp [andSpace, parse, step, skip, h]

theorem quant_ok {w q u r : Str} (hw : KwIn [cs!"DISTINCT", cs!"ALL"] w q) (hb : BlankFirst u) :
    parse cfg setQuantifier true (w ++ (u ++ r)) = .ok q (u ++ r) := by
  obtain ⟨m, hm, b, hb', rfl, hq⟩ := hw
  obtain ⟨c, t, rfl, hc⟩ := hb
  rw [List.append_assoc, parse_blanks (by simp) (by simp) hb']
  have hk : KwStart m q (c :: t ++ r) := by
    refine ⟨?_, hq, ?_⟩
    · have : ([cs!"DISTINCT", cs!"ALL"].all wordShape) = true := by decide
      exact all_mem this hm
    · rw [notContinued_iff]
      intro d v e
      simp only [List.cons_append, List.cons.injEq] at e
      rw [← e.1]
      cases hd : isIdChar c with
      | false => rfl
      | true => rw [isSpace_iff] at hc; rw [isIdChar_toNat] at hd; omega
  rw [setQuantifier, lexeme_bare hk.bare, lexeme_bare hk.bare]
  refine seqL_ok ?_ (andSpace_ok hc)
  simp only [List.mem_cons, List.not_mem_nil, or_false] at hm
  rcases hm with rfl | rfl
  · exact alt_left (kw_start hk)
  · rw [alt_right (kw_none hk.bare (hk.none (by decide)))]
    exact kw_start hk

theorem good_setFnQ {s fn o w q u c : Str} {p g : Bool} {v : VE} (hs : KwIn setFns s fn) (ho : Tok cs!"(" o)
    (hw : KwIn [cs!"DISTINCT", cs!"ALL"] w q) (hb : BlankFirst u)
    (hu : GoodV cfg p g u v) (hc : Tok cs!")" c) :
    GoodP cfg (s ++ (o ++ (w ++ (u ++ c)))) (.setFn fn q v) := by
  obtain ⟨m, hm, hs⟩ := hs
  refine good_kw hs ho (setFns_primKw hm) fun r hk => ?_
  simp only [List.append_assoc] at hk ⊢
  have hn : next (w ++ (u ++ (c ++ r))) ≠ some '*' := by
    obtain ⟨k, hkm, b, hb', rfl, hq⟩ := hw
    rw [List.append_assoc, next_blanks hb']
    have h1 : wordShape q = true := by
      have : ([cs!"DISTINCT", cs!"ALL"].all wordShape) = true := by decide
      rw [wordShape_sameCI hq]; exact all_mem this hkm
    obtain ⟨x, y, rfl, hx, -⟩ := wordShape_iff.1 h1
    have hx := isLetter_iff.2 hx
    rw [List.cons_append, next_bare (isLetter_not_space hx)]
    rintro ⟨⟩
    revert hx; decide
  rw [primary2]
  apply alt_left
  rw [alt_right (countStar_fail hm hk ho hn)]
  exact map_ok (f := fun x : Str × Str × VE => Prim.setFn x.1 x.2.1 x.2.2)
    (seq_ok (setFn_names hm hk ho) (seqL_ok (expect_ok (seq_ok (optD_ok (quant_ok hw hb)) (hu.ve (close_v hc))))
      (expect_ok (sym_ok1 (by decide) hc))))

theorem nullif_entry {w t y : Str} (hk : KwStart w t y) (ho : offAll setFns w = true) :
    parse cfg primary2 true (t ++ y) = parse cfg (.alt (.map .case caseExpression) (.alt anyExpression (.alt (.map .str nullCast)
      (.alt (.map .str nullLiteral) valueSubexpression)))) true (t ++ y) := by
  rw [primary2, alt_right (setFn_fail hk.bare (hk.apart ho))]

theorem good_nullif {s t o u m u' c : Str} {p g p' g' : Bool} {v v' : VE} (hs : Kw cs!"NULLIF" s t) (ho : Tok cs!"(" o)
    (hu : GoodV cfg p g u v) (hm : Tok cs!"," m) (hu' : GoodV cfg p' g' u' v') (hc : Tok cs!")" c) :
    GoodP cfg (s ++ (o ++ (u ++ (m ++ (u' ++ c))))) (.case (.nullif v v')) := by
  refine good_kw hs ho (by decide +kernel) fun r hk => ?_
  simp only [List.append_assoc] at hk ⊢
  rw [nullif_entry hk (by decide +kernel)]
  exact alt_left (map_ok (alt_left (alt_left (map_ok (f := fun x : VE × VE => CaseE.nullif x.1 x.2)
    (seqR_ok (seq_ok (kw_start hk) (sym_ok1 (by decide) ho)) (seq_ok (hu.ve (comma_v hm))
      (seqR_ok (sym_ok1 (by decide) hm) (seqL_ok (hu'.ve (close_v hc)) (sym_ok1 (by decide) hc)))))))))

theorem good_coalesce {s t o u c : Str} {vs : List VE} (hs : Kw cs!"COALESCE" s t) (ho : Tok cs!"(" o)
    (hu : GoodArgs cfg u vs) (hc : Tok cs!")" c) :
    GoodP cfg (s ++ (o ++ (u ++ c))) (.case (.coalesce vs)) := by
  refine good_kw hs ho (by decide +kernel) fun r hk => ?_
  simp only [List.append_assoc] at hk ⊢
  rw [nullif_entry hk (by decide +kernel)]
  refine alt_left (map_ok (alt_left ?_))
  have h1 : parse cfg nullif true (t ++ (o ++ (u ++ (c ++ r)))) = .fail :=
    map_fail (seqR_fail (stuck_seq_fail (stuck_kw hk.bare (hk.apart (ws := [cs!"NULLIF"]) (by decide) _ (by simp)))
      fun _ _ hc => sym_idChar hc (by decide)))
  rw [alt_right h1]
  exact map_ok (seqR_ok (seq_ok (kw_start hk) (sym_ok1 (by decide) ho))
    (seqL_ok (hu.run _ (close_v hc) (by rw [tok_next hc rfl (by decide)]; decide)) (sym_ok1 (by decide) hc)))

theorem kwStart_end {w t r : Str} (hs : wordShape w = true) (hw : SameCI t w) (hr : NotContinued r) :
    KwStart w t r := ⟨hs, hw, hr⟩

theorem matchLit_colon {w' t r : Str} (ht : SameCI t cs!"NULL") (hr : NotHead ':' r) :
    matchLit true (cs!"NULL" ++ ':' :: w') (t ++ r) = none := by
  rw [matchLit_none]
  intro a z e hl
  have hl := litOK_ci.1 hl
  unfold SameCI at hl ht
  simp only [List.map_append, List.map_cons] at hl
  obtain ⟨a1, a2, rfl, h1, h2⟩ := List.map_eq_append_iff.1 hl
  cases a2 with
  | nil => simp at h2
  | cons x a2 =>
    simp only [List.map_cons, List.cons.injEq] at h2
    rw [List.append_assoc] at e
    have hlen : t.length = a1.length := by
      have := congrArg List.length (ht.trans h1.symm)
      simpa using this
    have := List.append_inj_right e hlen
    have hx : x = ':' := by
      have h3 := lowerC_toNat x
      have h4 : lowerC ':' = ':' := by decide
      rw [h2.1, h4] at h3
      have h5 : (':' : Char).toNat = 58 := rfl
      rw [h5] at h3
      split at h3
      · omega
      · exact Char.toNat_inj.1 (by rw [← h3]; rfl)
    subst hx
    exact hr _ this

theorem good_null {s t : Str} (hs : Kw cs!"NULL" s t) : GoodP cfg s (.str t) := by
  obtain ⟨b, hb, rfl, hw⟩ := hs
  have hk : ∀ r, NotContinued r → KwStart cs!"NULL" t r := fun r hr => ⟨by decide, hw, hr⟩
  refine ⟨fun r hr => ?_, fun r hr => ?_, fun r hr => ?_⟩ <;> rw [List.append_assoc]
  · exact (lead_kwStart (hk r hr) (by decide +kernel)).blanks hb
  · rw [nvf_blanks hb]; exact prim_noFn (hk r hr.1) (by decide +kernel)
  · have h := hk r hr.1
    have hcolon := notHead_of_next (by decide) (primEnd_ne hr (c := ':') (by decide))
    rw [primary_blanks hb, prim_entry h (by decide +kernel), nullif_entry h (by decide +kernel),
      alt_right (map_fail (case_fail h.bare (h.apart (ws := [cs!"NULLIF"]) (by decide) _ (by simp))
        (h.apart (ws := [cs!"COALESCE"]) (by decide) _ (by simp)) (h.apart (ws := [cs!"CASE"]) (by decide) _ (by simp)))),
      alt_right (any_fail h.bare (h.apart (ws := [cs!"ANY"]) (by decide) _ (by simp)))]
    have hn : parse cfg nullCast true (t ++ r) = .fail := by
      rw [nullCast, lexeme_bare h.bare]
      simp only [parse, run_anyKw, skip_bare h.bare]
      have e : firstLit [cs!"NULL::char", cs!"NULL::int", cs!"NULL::float"] (t ++ r) = none := by
        simp only [firstLit, List.findSome?_cons, List.findSome?_nil]
        have e1 := matchLit_colon (w' := cs!":char") hw hcolon
        have e2 := matchLit_colon (w' := cs!":int") hw hcolon
        have e3 := matchLit_colon (w' := cs!":float") hw hcolon
        simp only [List.cons_append, List.nil_append] at e1 e2 e3
        simp only [e1, e2, e3]
      rw [e]
    rw [alt_right (map_fail hn)]
    refine alt_left (map_ok ?_)
    rw [nullLiteral, lexeme_bare h.bare]
    exact kw_start h

theorem good_arr {s t o u c : Str} {vs : List VE} (hs : Kw cs!"ARRAY" s t) (ho : Tok cs!"[" o)
    (hu : GoodArgs cfg u vs) (hc : Tok cs!"]" c) : GoodP cfg (s ++ (o ++ (u ++ c))) (.arr vs) := by
  obtain ⟨b, hb, rfl, hw⟩ := hs
  have hk : ∀ r, KwStart cs!"ARRAY" t (o ++ (u ++ (c ++ r))) :=
    fun r => ⟨by decide, hw, notContinued_tok ho (by decide)⟩
  refine ⟨fun r hr => ?_, fun r hr => ?_, fun r hr => ?_⟩ <;> simp only [List.append_assoc]
  · exact (lead_kwStart (hk r) (by decide +kernel)).blanks hb
  · rw [nvf_blanks hb]
    have h := hk r
    refine nvf_fail h.bare (h.apart (by decide +kernel)) ?_ (h.none (by decide +kernel))
    have hr : ¬ Reserved t := by
      rintro ⟨m, hm, h1⟩
      have h2 : (Spec.words.all fun m => !(cs!"ARRAY".map lowerC == m.map lowerC)) = true := by decide +kernel
      have h3 := all_mem h2 hm
      simp only [Bool.not_eq_true', beq_eq_false_iff_ne] at h3
      exact h3 ((sameCI_trans' hw).1 h1)
    refine seqL_fail2 (a := t) (r := o ++ (u ++ (c ++ r))) ?_ (sym_fail ?_)
    · rw [udfName, lexeme_bare h.bare]
      exact alt_left (regular_word h.ident (fun h => absurd h hr) h.stop)
    · rw [tok_next ho rfl (by decide)]; decide
  · rw [primary_blanks hb]
    exact alt_left (map_ok (seqL_ok (seqR_ok (seq_ok (kw_start (hk r)) (sym_ok1 (by decide) ho))
      (hu.run _ (bracket_v hc) (by rw [tok_next hc rfl (by decide)]; decide))) (expect_ok (sym_ok1 (by decide) hc))))

theorem good_bool {s t : Str} (hs : KwIn [cs!"TRUE", cs!"FALSE"] s t) : GoodP cfg s (.str t) := by
  obtain ⟨w, hw, b, hb, rfl, hs⟩ := hs
  have hp : ([cs!"TRUE", cs!"FALSE"].all fun w => wordShape w && startWords.contains w && reservedB w &&
    offAll ((cs!"END" :: missed) ++
      [cs!"RIGHT", cs!"LEFT", cs!"UPPER", cs!"LOWER", cs!"DISTINCT", cs!"TRIM"] ++ fnWords) w &&
    !prefixCI cs!"CURRENT_TIMESTAMP" w && offAll [cs!"ARRAY"] w) = true := by decide +kernel
  have hp := all_mem hp hw
  simp only [Bool.and_eq_true, Bool.not_eq_true', List.contains_iff_mem] at hp
  obtain ⟨⟨⟨⟨⟨h1, h2⟩, h3⟩, h4⟩, h5⟩, h6⟩ := hp
  have hk : ∀ r, NotContinued r → KwStart w t r := fun r hr => ⟨h1, hs, hr⟩
  refine ⟨fun r hr => ?_, fun r hr => ?_, fun r hr => ?_⟩ <;> rw [List.append_assoc]
  · exact (lead_kwStart (hk r hr) h2).blanks hb
  · rw [nvf_blanks hb]; exact nvf_fail_kw (hk r hr.1) (reservedB_iff h3) h4 h5
  · have h := hk r hr.1
    rw [primary_blanks hb, primary_eq, alt_right (arr_fail h.bare (h.apart h6 _ (by simp)))]
    refine alt_left (map_ok ?_)
    obtain ⟨c, x, hx, hc, -⟩ := h.ident
    have hf := letter_facts (isLetter_iff.2 hc)
    rw [unsignedLiteral, lexeme_bare h.bare]
    have e1 : parse cfg unsignedNumeric false (t ++ r) = .fail := by
      rw [hx]; exact num_fail hf.1 hf.2.1 hf.2.2.1
    have e2 : parse cfg charString false (t ++ r) = .fail := by
      rw [hx]; exact str_fail hf.1 hf.2.2.2.1
    rw [alt_right e1, generalLiteral, lexeme_bare h.bare, alt_right e2, booleanLiteral, lexeme_bare h.bare]
    simp only [List.mem_cons, List.not_mem_nil, or_false] at hw
    rcases hw with rfl | rfl
    · refine alt_left (kw_start ⟨by decide, hs.trans (by decide), hr.1⟩)
    · rw [alt_right (kw_none h.bare (h.none (by decide)))]
      exact kw_start ⟨by decide, hs.trans (by decide), hr.1⟩

/-! ### Literals, columns, parentheses -/

theorem nvf_char {c : Char} {t : Str} (hc : c ∈ atomChars) :
    parse cfg numericValueFunction true (c :: t) = .fail := by
  have hs : (atomChars.all fun c => !isSpace c) = true := by decide
  have hs := all_mem hs hc
  simp only [Bool.not_eq_true'] at hs
  refine fail_head hs (by simp) (by simp) ?_
  have : (atomChars.all fun c => numericValueFunction.idle deadF (some c)) = true := by kernel_rfl
  exact all_mem this hc

theorem arr_char {c : Char} {t : Str} (hc : c ∈ atomChars) :
    parse cfg arrayConstructor true (c :: t) = .fail := by
  have hs : (atomChars.all fun c => !isSpace c) = true := by decide
  have hs := all_mem hs hc
  simp only [Bool.not_eq_true'] at hs
  refine fail_head hs (by simp) (by simp) ?_
  have : (atomChars.all fun c => arrayConstructor.idle deadF (some c)) = true := by kernel_rfl
  exact all_mem this hc

/-- An operand that starts with one of `atomChars`. -/
theorem good_charQ {s t : Str} {p : Prim} (hs : Tok t s) (h0 : ∃ c u, t = c :: u ∧ c ∈ atomChars)
    (h : ∀ r, PrimEnd r → (strPrim p = true → NoComment r) →
      parse cfg (.alt (.map .str unsignedLiteral) (.alt (.map .col columnReference) primary2)) true (t ++ r) = .ok p r) :
    GoodPrim cfg s p := by
  obtain ⟨b, hb, rfl⟩ := hs
  obtain ⟨c, u, rfl, hc⟩ := h0
  have hs : (atomChars.all fun c => !isSpace c) = true := by decide
  have hs := all_mem hs hc
  simp only [Bool.not_eq_true'] at hs
  refine ⟨fun r hr => ?_, fun r hr => ?_, fun r hr hq => ?_⟩ <;> rw [List.append_assoc]
  · exact (lead_chr hs hc rfl).blanks hb
  · rw [nvf_blanks hb]; exact nvf_char hc
  · rw [primary_blanks hb, primary_eq, List.cons_append, alt_right (arr_char hc)]
    exact h r hr hq

theorem good_char {s t : Str} {p : Prim} (hs : Tok t s) (h0 : ∃ c u, t = c :: u ∧ c ∈ atomChars)
    (h : ∀ r, PrimEnd r → parse cfg (.alt (.map .str unsignedLiteral) (.alt (.map .col columnReference) primary2))
      true (t ++ r) = .ok p r) : GoodP cfg s p := by
  obtain ⟨b, hb, rfl⟩ := hs
  obtain ⟨c, u, rfl, hc⟩ := h0
  have hs : (atomChars.all fun c => !isSpace c) = true := by decide
  have hs := all_mem hs hc
  simp only [Bool.not_eq_true'] at hs
  refine ⟨fun r hr => ?_, fun r hr => ?_, fun r hr => ?_⟩ <;> rw [List.append_assoc]
  · exact (lead_chr hs hc rfl).blanks hb
  · rw [nvf_blanks hb]; exact nvf_char hc
  · rw [primary_blanks hb, primary_eq, List.cons_append, alt_right (arr_char hc)]
    exact h r hr

theorem good_num {s t : Str} (hs : Tok t s) (ht : NumLit t) : GoodP cfg s (.str t) := by
  obtain ⟨c, u, hu, hc⟩ := numLit_start ht
  have hm := digit_mem hc
  refine good_char hs ⟨c, u, hu, ?_⟩ fun r hr => ?_
  · have : ∀ x ∈ "0123456789.".toList, x ∈ atomChars := by decide
    exact this c hm
  · refine alt_left (map_ok ?_)
    have hs : ("0123456789.".toList.all fun c => !isSpace c) = true := by decide
    have hs := all_mem hs hm
    simp only [Bool.not_eq_true'] at hs
    rw [unsignedLiteral, lexeme_bare (by rw [hu]; exact bare_cons hs)]
    exact alt_left (num_ok ht hr.1 (notHead_of_next (by decide) (primEnd_ne hr (by decide))))

theorem good_str {s t : Str} (hs : Tok t s) (ht : StrLit t) : GoodPrim cfg s (.str t) := by
  obtain ⟨u, hu⟩ := strLit_start ht
  refine good_charQ hs ⟨_, u, hu, by decide⟩ fun r hr hq => ?_
  refine alt_left (map_ok ?_)
  have hb : Bare (t ++ r) := by rw [hu]; exact bare_cons (by decide)
  have e1 : parse cfg unsignedNumeric false (t ++ r) = .fail := by
    rw [hu]; exact num_fail (by decide) (by decide) (by decide)
  rw [unsignedLiteral, lexeme_bare hb, alt_right e1, generalLiteral, lexeme_bare hb]
  exact alt_left (str_ok ht (primEnd_str hr (hq (by rw [hu]; rfl))))

theorem good_sub {o s c : Str} {p g : Bool} {v : VE} (ho : Tok cs!"(" o) (hs : GoodV cfg p g s v) (hc : Tok cs!")" c) :
    GoodP cfg (o ++ (s ++ c)) (.sub v) := by
  have hT : ∃ w, Tok ('(' :: w) (o ++ (s ++ c)) ∧ w = s ++ c := by
    obtain ⟨b, hb, rfl⟩ := ho
    exact ⟨s ++ c, ⟨b, hb, by simp⟩, rfl⟩
  obtain ⟨w, hT, hw⟩ := hT
  refine good_char hT ⟨_, _, rfl, by decide⟩ fun r hr => ?_
  rw [List.cons_append]
  have hu : Bare ('(' :: (w ++ r)) := bare_cons (by decide)
  have hn : NoLetter ('(' :: (w ++ r)) := by intro c t e; cases e; decide
  have hid : parse cfg identifier true ('(' :: (w ++ r)) = .fail := ident_fail hu hn (by intro t e; cases e)
  rw [alt_right (map_fail (unsigned_fail (by decide) (by decide) (by decide) (by decide)
      (matchLit_noLetter (by decide) hn) (matchLit_noLetter (by decide) hn))),
    alt_right (map_fail (col_fail hid (tap_fail hu (by intro z e; cases e))))]
  have hf : ∀ {α : Type} {p : G α}, p.consumes = true → P.wf rank 4 4 p = true → p.idle deadF (some '(') = true →
      parse cfg p true ('(' :: (w ++ r)) = .fail := fun h1 h2 h3 => fail_head (by decide) h1 h2 h3
  rw [primary2, alt_right (alt_fail (map_fail (hf (by simp) (by simp) (by kernel_rfl))) (hf (by simp) (by simp) (by kernel_rfl))),
    alt_right (map_fail (hf (by simp) (by simp) (by kernel_rfl))), alt_right (hf (by simp) (by simp) (by kernel_rfl)),
    alt_right (map_fail (hf (by simp) (by simp) (by kernel_rfl))), alt_right (map_fail (hf (by simp) (by simp) (by kernel_rfl)))]
  refine map_ok (seqR_ok (r := w ++ r) (a := cs!"(") ?_ (seqL_ok (r := c ++ r) ?_ (sym_ok1 (by decide) hc)))
  · exact sym_ok1 (s := cs!"(") (by decide) tok_nil
  · rw [hw, List.append_assoc]
    exact hs.ve (close_v hc)

theorem tap_start {y : Str} : KwStart cs!"TAP_UPLOAD" cs!"TAP_UPLOAD" ('.' :: y) :=
  ⟨by decide, rfl, by rw [notContinued_iff]; intro c t hc; cases hc; decide⟩

/-- the first name of a column -/
theorem colT_first {S : Mode} {s r : Str} {c : ColRef} (h : ColT S s c) (hr : NotContinued r) (ho : next r ≠ some '(') :
    ∃ b x y, Blanks b ∧ s ++ r = b ++ (x ++ y) ∧ (NameT x ∨ KwStart cs!"TAP_UPLOAD" x y) ∧ NotContinued y ∧ next y ≠ some '(' := by
  have hd : ∀ {d z : Str}, Tok cs!"." d → next (d ++ z) ≠ some '(' := by
    intro d z h; rw [dot_next h]; decide
  cases h with
  | col hs hx =>
    obtain ⟨b, hb, rfl⟩ := hs
    exact ⟨b, _, _, hb, List.append_assoc _ _ _, .inl hx, hr, ho⟩
  | qc hs hx h1 =>
    obtain ⟨b, hb, rfl⟩ := hs
    exact ⟨b, _, _, hb, by simp only [List.append_assoc]; rfl, .inl hx, dot_notContinued h1, hd h1⟩
  | sqc hs hx h1 =>
    obtain ⟨b, hb, rfl⟩ := hs
    exact ⟨b, _, _, hb, by simp only [List.append_assoc]; rfl, .inl hx, dot_notContinued h1, hd h1⟩
  | csqc hs hx h1 =>
    obtain ⟨b, hb, rfl⟩ := hs
    exact ⟨b, _, _, hb, by simp only [List.append_assoc]; rfl, .inl hx, dot_notContinued h1, hd h1⟩
  | up hs hx h1 =>
    obtain ⟨b, hb, rfl⟩ := hs
    exact ⟨b, cs!"TAP_UPLOAD", _, hb, by simp only [List.append_assoc]; rfl, .inr tap_start, tap_start.stop, by simp [next, isSpace]⟩

theorem colT_lead {S : Mode} {s r : Str} {c : ColRef} (h : ColT S s c) (hr : NotContinued r) : LeadIn (firstCol c) atomChars (s ++ r) := by
  have key : ∀ {b x y : Str}, Blanks b → NameT x → NotContinued y → LeadIn x atomChars (b ++ (x ++ y)) := by
    intro b x y hb hx hy
    refine LeadIn.blanks hb ?_
    rcases hx with hx | hx
    · exact lead_word hx.1 hy (.inl ⟨hx.fn, rfl⟩)
    · obtain ⟨z, rfl, -⟩ := hx
      exact lead_chr (by decide) (by decide) rfl
  cases h with
  | col hs hx =>
    obtain ⟨b, hb, rfl⟩ := hs
    rw [List.append_assoc]; exact key hb hx hr
  | qc hs hx h1 =>
    obtain ⟨b, hb, rfl⟩ := hs
    simp only [List.append_assoc]; exact key hb hx (dot_notContinued h1)
  | sqc hs hx h1 =>
    obtain ⟨b, hb, rfl⟩ := hs
    simp only [List.append_assoc]; exact key hb hx (dot_notContinued h1)
  | csqc hs hx h1 =>
    obtain ⟨b, hb, rfl⟩ := hs
    simp only [List.append_assoc]; exact key hb hx (dot_notContinued h1)
  | up hs hx h1 =>
    obtain ⟨b, hb, rfl⟩ := hs
    simp only [List.append_assoc]
    exact (lead_kwStart tap_start (by decide)).blanks hb

theorem plain_none {x y w : Str} (hx : PlainName x) (hy : NotContinued y) (hw : w ∈ greedyWords) :
    matchLit true w (x ++ y) = none := by
  have : (greedyWords.all fun w => w.all isIdChar) = true := by decide
  exact matchLit_prefix (all_mem this hw) hy (hx.2.2.1.1 w hw)

theorem nvf_col {S : Mode} {s r : Str} {c : ColRef} (h : ColT S s c) (hr : NotContinued r) (ho : next r ≠ some '(') :
    parse cfg numericValueFunction true (s ++ r) = .fail := by
  obtain ⟨b, x, y, hb, e, hx, hy, hn⟩ := colT_first h hr ho
  rw [e, nvf_blanks hb]
  rcases hx with (hx | hx) | hx
  · rw [udf_entry hx.fn hy]
    exact alt_fail (map_fail (seq_fail (seqL_fail2 (udfName_plain hx.fn hy) (sym_fail hn))))
      (now_fail (identShape_bare hx.1) (plain_none hx hy (by decide)))
  · obtain ⟨z, rfl, -⟩ := hx
    exact nvf_char (by decide)
  · exact nvf_fail_kw hx ⟨cs!"TAP_UPLOAD", by decide +kernel, rfl⟩ (by decide +kernel) (by decide)

theorem primary_col {S : Mode} {s r : Str} {c : ColRef} (h : ColT S s c) (hr : NotContinued r) (ho : next r ≠ some '(')
    (hcol : parse cfg columnReference true (s ++ r) = .ok c r) : parse cfg primary true (s ++ r) = .ok (.col c) r := by
  obtain ⟨b, x, y, hb, e, hx, hy, hn⟩ := colT_first h hr ho
  rw [e] at hcol ⊢
  rw [parse_blanks (by simp) (by simp) hb] at hcol
  rw [primary_blanks hb, primary_eq]
  rcases hx with (hx | hx) | hx
  · have h1 : Apart cs!"ARRAY" (x ++ y) := plain_apart (ws := [cs!"ARRAY"]) hx.fn hy (by decide)
      (by intro w hw; simp only [List.mem_cons, List.not_mem_nil, or_false] at hw; exact .inr (by subst hw; simp [openWords])) _ (by simp)
    rw [alt_right (arr_fail (identShape_bare hx.1) h1),
      alt_right (map_fail (unsigned_fail_word hx.1 (plain_none hx hy (by decide)) (plain_none hx hy (by decide))))]
    exact alt_left (map_ok hcol)
  · obtain ⟨z, hz, -⟩ := hx
    have hn : NoLetter (x ++ y) := by rw [hz]; intro c t e; cases e; decide
    have e1 : parse cfg arrayConstructor true (x ++ y) = .fail := by rw [hz]; exact arr_char (by decide)
    have e2 : parse cfg unsignedLiteral true (x ++ y) = .fail := by
      have h1 := matchLit_noLetter (l := 'T') (w := cs!"RUE") (by decide) hn
      have h2 := matchLit_noLetter (l := 'F') (w := cs!"ALSE") (by decide) hn
      rw [hz] at h1 h2 ⊢
      exact unsigned_fail (by decide) (by decide) (by decide) (by decide) h1 h2
    rw [alt_right e1, alt_right (map_fail e2)]
    exact alt_left (map_ok hcol)
  · rw [alt_right (arr_fail hx.bare (hx.apart (ws := [cs!"ARRAY"]) (by decide) _ (by simp))),
      alt_right (map_fail (unsigned_fail_word hx.ident (hx.none (by decide)) (hx.none (by decide))))]
    exact alt_left (map_ok hcol)

theorem good_col {S : Mode} [Fits S cfg] {s : Str} {c : ColRef} (h : ColT S s c) : GoodP cfg s (.col c) :=
  ⟨fun _ hr => colT_lead h hr, fun _ hr => nvf_col h hr.1 (primEnd_ne hr (by decide)),
    fun _ hr => primary_col h hr.1 (primEnd_ne hr (by decide)) (col_ok h (primEnd_col hr))⟩

end Adql.Fwd
