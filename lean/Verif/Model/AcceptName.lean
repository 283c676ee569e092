import Verif.Model.AcceptCond

/-!
# Running the grammar forward: names of tables, and why expressions are not mistaken for tables
-/

namespace Adql.Fwd

open P Spec

variable {cfg : Config} {sk : Bool}

/-- A text that the code accepts as a name. -/
structure NameLike (cfg : Config) (x : Str) : Prop where
  bare : ∀ y, Bare (x ++ y)
  ident : ∀ sk y, NotContinued y → NotHead '"' y → parse cfg identifier sk (x ++ y) = .ok x y
  tap : ∀ sk y, NotContinued y → parse cfg tap sk (x ++ y) = .fail
  noParen : ∀ y t, x ++ y ≠ '(' :: t
  nil : x ≠ []

theorem ident_cases {x y : Str} (h1 : parse cfg regularIdentifier false (x ++ y) = .ok x y) (hb : Bare (x ++ y)) :
    parse cfg identifier sk (x ++ y) = .ok x y := by
  simp only [identifier, parse, run_lexeme, skip_bare hb]
  exact alt_left h1

theorem identShape_noParen {x y t : Str} (h : IdentShape x) : x ++ y ≠ '(' :: t := by
  obtain ⟨c, z, rfl, hc, -⟩ := h
  intro e
  simp only [List.cons_append, List.cons.injEq] at e
  rw [e.1] at hc
  exact absurd (isLetter_iff.2 hc) (by decide)

theorem nameLike_tab {x : Str} (h : Part x ∧ x ≠ cs!"TAP_UPLOAD") : NameLike cfg x := by
  refine ⟨fun y => part_bare h.1, fun sk y h1 h2 => ident_ok h.1 h1 h2,
    fun sk y h1 => tap_part h.1 h.2 h1, fun y t e => ?_, part_ne h.1⟩
  rcases h.1 with h | ⟨z, rfl, -⟩
  · exact identShape_noParen h.1 e
  · cases e

theorem nameLike_nameT {x : Str} (h : NameT x) : NameLike cfg x := nameLike_tab h.tab

theorem nameLike_kw {w t : Str} (hs : wordShape w = true) (hw : SameCI t w)
    (h : (decide (w ∈ missed) || !reservedB w) = true) (ho : offAll [cs!"TAP_UPLOAD"] w = true) : NameLike cfg t := by
  have hk : ∀ y, NotContinued y → KwStart w t y := fun y hy => ⟨hs, hw, hy⟩
  have hi : IdentShape t := (hk [] (by intro c t e; cases e)).ident
  refine ⟨fun y => identShape_bare hi, fun sk y h1 h2 => ident_cases ?_ (identShape_bare hi),
    fun sk y h1 => tap_kw (hk y h1) ho, fun y t e => identShape_noParen hi e, ?_⟩
  · rcases Bool.or_eq_true_iff.1 h with hm | hr
    · exact (C05_missed_accepted cfg false t y h1 w (of_decide_eq_true hm) hw).2
    · refine regular_word hi ?_ h1
      rintro ⟨k, hk, hs⟩
      have : reservedB w = true := by
        unfold reservedB
        refine List.any_eq_true.2 ⟨k, hk, ?_⟩
        have : w.map lowerC = k.map lowerC := hw.symm.trans hs
        simp [this]
      rw [this] at hr; cases hr
  · obtain ⟨c, z, rfl, -⟩ := hi
    intro e; cases e

/-! ### Names with several parts -/

/-- What may follow a name. -/
def NameEnd (e : Str) : Prop := NotContinued e ∧ next e ≠ some '.' ∧ next e ≠ some '"'

/-- Further parts of a name. -/
inductive Tail (e : Str) : Str → Prop
  | nil : Tail e e
  | cons {d t y τ} : Tok cs!"." d → Tok y t → Part y → Tail e τ → Tail e (d ++ (t ++ τ))

theorem tail_end {e τ : Str} (h : Tail e τ) (he : NameEnd e) : NotContinued τ ∧ next τ ≠ some '"' := by
  cases h with
  | nil => exact ⟨he.1, he.2.2⟩
  | cons hd ht hy h =>
    refine ⟨dot_notContinued hd, ?_⟩
    rw [dot_next hd]; decide

/-- Without skipping, nothing but a name or a quote starts an identifier. -/
theorem ident_fail_raw {u : Str} (h1 : NoLetter u) (h2 : ∀ t, u ≠ '"' :: t) :
    parse cfg identifier false u = .fail := by
  simp only [identifier, parse, run_lexeme, skip, run_alt, run_regularIdentifier, run_delimited]
  cases u with
  | nil => rfl
  | cons c t =>
    have hc := h1 c t rfl
    have hq : c ≠ '"' := fun e => h2 t (by rw [e])
    simp [hc, hq]

theorem period_ok {t : Str} : parse cfg period false ('.' :: t) = .ok cs!"." t := by
  simp [period, chS, parse, step, skip]

theorem period_fail {u : Str} (h : ∀ t, u ≠ '.' :: t) : parse cfg period false u = .fail := by
  cases u with
  | nil => simp [period, chS, parse, step, skip]
  | cons c t =>
    have hc : c ≠ '.' := fun e => h t (by rw [e])
    simp [period, chS, parse, step, skip, hc]

theorem space_noLetter {c : Char} {u : Str} (h : isSpace c = true) : NoLetter (c :: u) := by
  intro d t e
  cases e
  cases hd : isLetter c with
  | false => rfl
  | true => rw [isLetter_not_space hd] at h; cases h

/-- One more part of a name, without blanks. -/
theorem tail_step {e τ : Str} (h : Tail e τ) (he : NameEnd e) :
    parse cfg period false τ = .fail ∨ ∃ τ1, parse cfg period false τ = .ok cs!"." τ1 ∧
      (parse cfg identifier false τ1 = .fail ∨ ∃ y τ2, parse cfg identifier false τ1 = .ok y τ2 ∧ Tail e τ2) := by
  cases h with
  | nil =>
    refine .inl (period_fail ?_)
    rintro t rfl
    exact he.2.1 (next_bare (by decide))
  | @cons d t y τ hd ht hy h =>
    obtain ⟨b, hb, rfl⟩ := hd
    cases b with
    | cons c b =>
      refine .inl (period_fail ?_)
      intro z e
      simp only [List.cons_append, List.cons.injEq] at e
      have := hb c (by simp)
      rw [e.1] at this
      exact absurd this (by decide)
    | nil =>
      refine .inr ⟨t ++ τ, period_ok, ?_⟩
      obtain ⟨b, hb, rfl⟩ := ht
      cases b with
      | cons c b =>
        refine .inl (ident_fail_raw (space_noLetter (hb c (by simp))) ?_)
        intro z e
        simp only [List.cons_append, List.cons.injEq] at e
        have := hb c (by simp)
        rw [e.1] at this
        exact absurd this (by decide)
      | nil =>
        have ht := tail_end h he
        exact .inr ⟨y, τ, ident_ok hy ht.1 (notHead_of_next (by decide) ht.2), h⟩

/-- What `table_name` reads of a name. -/
theorem tableName_tail {x e τ : Str} (hx : NameLike cfg x) (h : Tail e τ) (he : NameEnd e) :
    ∃ n τ', (∀ sk, parse cfg tableName sk (x ++ τ) = .ok n τ') ∧ Tail e τ' := by
  have ht := tail_end h he
  have hi := hx.ident false τ ht.1 (notHead_of_next (by decide) ht.2)
  have htap := hx.tap false τ ht.1
  have key : ∀ n τ', parse cfg (.alt (cat identifier (cat period (cat identifier (cat period identifier))))
      (.alt (cat identifier (cat period identifier)) identifier)) false (x ++ τ) = .ok n τ' →
      ∀ sk, parse cfg tableName sk (x ++ τ) = .ok n τ' := by
    intro n τ' h1 sk
    rw [tableName, lexeme_bare (hx.bare _), alt_right htap]
    exact h1
  rcases tail_step (cfg := cfg) h he with h1 | ⟨τ1, h1, h2 | ⟨y, τ2, h2, h3⟩⟩
  · refine ⟨x, τ, key _ _ ?_, h⟩
    exact (alt_right (map_fail (seq_fail2 hi (map_fail (seq_fail h1))))).trans
      ((alt_right (map_fail (seq_fail2 hi (map_fail (seq_fail h1))))).trans hi)
  · refine ⟨x, τ, key _ _ ?_, h⟩
    exact (alt_right (map_fail (seq_fail2 hi (map_fail (seq_fail2 h1 (map_fail (seq_fail h2))))))).trans
      ((alt_right (map_fail (seq_fail2 hi (map_fail (seq_fail2 h1 h2))))).trans hi)
  · have h2' : parse cfg (cat identifier (cat period identifier)) false (x ++ τ) = .ok (x ++ (cs!"." ++ y)) τ2 :=
      cat_ok hi (cat_ok h1 h2)
    rcases tail_step (cfg := cfg) h3 he with h4 | ⟨τ3, h4, h5 | ⟨z, τ4, h5, h6⟩⟩
    · refine ⟨x ++ (cs!"." ++ y), τ2, key _ _ ?_, h3⟩
      exact (alt_right (map_fail (seq_fail2 hi (map_fail (seq_fail2 h1 (map_fail (seq_fail2 h2
        (map_fail (seq_fail h4))))))))).trans (alt_left h2')
    · refine ⟨x ++ (cs!"." ++ y), τ2, key _ _ ?_, h3⟩
      exact (alt_right (map_fail (seq_fail2 hi (map_fail (seq_fail2 h1 (map_fail (seq_fail2 h2
        (map_fail (seq_fail2 h4 h5))))))))).trans (alt_left h2')
    · exact ⟨_, τ4, key _ _ (alt_left (cat_ok hi (cat_ok h1 (cat_ok h2 (cat_ok h4 h5))))), h6⟩

theorem part_noStar {y u t : Str} (h : Part y) : y ++ u ≠ '*' :: t := by
  rcases h with ⟨⟨c, z, rfl, hc, -⟩, -⟩ | ⟨z, rfl, -⟩
  · intro e
    simp only [List.cons_append, List.cons.injEq] at e
    rw [e.1] at hc
    exact absurd (isLetter_iff.2 hc) (by decide)
  · intro e; cases e

theorem tail_noStar {e τ : Str} (h : Tail e τ) (he : NameEnd e) : parse cfg (sym cs!".*") false τ = .fail := by
  have key : ∀ u, τ ≠ cs!".*" ++ u := by
    intro u e'
    cases h with
    | nil =>
      rw [e'] at he
      exact he.2.1 (next_bare (by decide))
    | @cons d t y τ hd ht hy h =>
      obtain ⟨b, hb, rfl⟩ := hd
      have hsp : ∀ {c : Char} {b : Str}, Blanks (c :: b) → ∀ d, isSpace d = false → c ≠ d := by
        rintro c b hb d hd rfl
        have := hb c (by simp)
        rw [this] at hd; cases hd
      cases b with
      | cons c b =>
        simp only [List.cons_append, List.cons.injEq] at e'
        exact hsp hb '.' (by decide) e'.1
      | nil =>
        simp only [List.nil_append, List.cons_append, List.cons.injEq, true_and] at e'
        obtain ⟨b, hb, rfl⟩ := ht
        cases b with
        | cons c b =>
          simp only [List.cons_append, List.cons.injEq] at e'
          exact hsp hb '*' (by decide) e'.1
        | nil =>
          simp only [List.nil_append] at e'
          exact part_noStar hy e'
  have := matchLit_cs_none (x := []) (y := τ) key
  rw [List.nil_append] at this
  simp [sym, lit_eq, skip, this]

/-! ### Joins do not start here -/

/-- the words with which a join continues -/
def joinWords : List Str := [cs!"NATURAL", cs!"INNER", cs!"LEFT", cs!"RIGHT", cs!"FULL", cs!"JOIN"]

theorem stuck_alt {α : Type} {p q : G α} {u : Str} (hp : Stuck (parse cfg p sk u)) (hq : Stuck (parse cfg q sk u)) :
    Stuck (parse cfg (.alt p q) sk u) := by
  rcases hp with hp | ⟨a, c, v, hp, hc⟩
  · rw [alt_right hp]; exact hq
  · exact .inr ⟨a, c, v, alt_left hp, hc⟩

theorem joinType_fail {r : Str} (h : ∀ w ∈ joinWords, Apart w (skip true r)) : parse cfg joinType true r = .fail := by
  refine alt_fail (map_fail (word_fail (h _ (by decide)))) (map_fail (seq_fail ?_))
  simp only [parse, run_lexeme]
  have hb := bare_skip r
  refine stuck_seqL_fail ?_ fun c v hc => andSpace_idChar hc
  exact stuck_alt (stuck_kw hb (h _ (by decide))) (stuck_alt (stuck_kw hb (h _ (by decide))) (stuck_kw hb (h _ (by decide))))

theorem joinSuffix_fail {r : Str} (h : ∀ w ∈ joinWords, Apart w (skip true r)) :
    parse cfg joinSuffix true r = .fail :=
  map_fail (seq_fail2 (optD_none (map_fail (word_fail (h _ (by decide)))))
    (seq_fail (seqL_fail2 (optD_none (joinType_fail h)) (word_fail (h _ (by decide))))))

theorem noLetter_join {r : Str} (h : NoLetter (skip true r)) : ∀ w ∈ joinWords, Apart w (skip true r) := by
  intro w hw
  have : (joinWords.all startsLetter) = true := by decide
  exact apart_noLetter (all_mem this hw) h

theorem corr_fail {r : Str} (h : NoLetter (skip true r)) (hq : next r ≠ some '"') :
    parse cfg correlationSpecification true r = .fail := by
  refine seqR_fail2 (optD_none (word_fail (apart_noLetter (by decide) h))) ?_
  rw [parse_skip (by simp) (by simp)]
  refine ident_fail (bare_skip r) h ?_
  intro t e
  apply hq
  show (skip true r).head? = _
  rw [e]; rfl

/-- the words with which a condition continues after its first expression -/
def shutWords : List Str := [cs!"NOT", cs!"BETWEEN", cs!"IN", cs!"IS", cs!"LIKE", cs!"AND", cs!"OR"]

/-- What follows a name is neither a correlation name nor the continuation of a join. -/
def Shut (e : Str) : Prop :=
  NoLetter (skip true e) ∨ ∃ w t y, w ∈ shutWords ∧ skip true e = t ++ y ∧ KwStart w t y

theorem shut_word {w k k' y : Str} (h : Word w k k') (hw : w ∈ shutWords) (hy : NotContinued y) : Shut (k ++ y) := by
  have : (shutWords.all wordShape) = true := by decide
  obtain ⟨e, hk⟩ := word_start h (all_mem this hw) hy
  exact .inr ⟨w, _, _, hw, e, hk⟩

theorem Shut.join {r : Str} (h : Shut r) : ∀ w ∈ joinWords, Apart w (skip true r) := by
  rcases h with h | ⟨w, t, y, hw, e, hk⟩
  · exact noLetter_join h
  · rw [e]
    have : (shutWords.all fun w => offAll joinWords w) = true := by decide
    exact hk.apart (all_mem this hw)

theorem Shut.corr {r : Str} (h : Shut r) (hq : next r ≠ some '"') :
    parse cfg correlationSpecification true r = .fail := by
  rcases h with h | ⟨w, t, y, hw, e, hk⟩
  · exact corr_fail h hq
  · have : (shutWords.all fun w => offAll [cs!"AS"] w && (reservedB w && offAll (cs!"END" :: missed) w)) = true := by decide +kernel
    have := all_mem this hw
    simp only [Bool.and_eq_true] at this
    refine seqR_fail2 (optD_none (word_fail ?_)) ?_
    · rw [e]; exact hk.apart this.1 _ (by simp)
    · rw [parse_skip (by simp) (by simp), e]
      exact hk.no_ident (reservedB_iff this.2.1) this.2.2

/-! ### How an expression starts, in detail -/

/-- the words that are not accepted as names -/
def frontKw (w : Str) : Bool :=
  reservedB w && offAll (cs!"END" :: missed) w && offAll [cs!"TAP_UPLOAD"] w

/-- The ways in which the text `u` of an expression, with `r` after the expression, can start. -/
inductive Front (cfg : Config) : Str → Str → Prop
  | chr {r u c t} : skip true u = c :: t → c ∈ "0123456789.'+-".toList → Front cfg r u
  | paren {r u u' r'} : skip true u = '(' :: u' → parse cfg geometry true u' = .fail → next r' = some ')' →
      Front cfg r' u' → Front cfg r u
  | kw {r u w t y} : skip true u = t ++ y → KwStart w t y → frontKw w = true → Front cfg r u
  | name {r u x τ e} : skip true u = x ++ τ → NameLike cfg x → Tail e τ → NameEnd e →
      (e = r ∨ Shut e) → Front cfg r u
  | up {r u x z τ e} : skip true u = cs!"TAP_UPLOAD." ++ (x ++ τ) → Part x → cfg.mapping x = some z → Tail e τ → NameEnd e →
      (e = r ∨ Shut e) → Front cfg r u

/-- What `table_name` reads of an uploaded table. -/
theorem tableName_up {x z y : Str} (hx : Part x) (hz : cfg.mapping x = some z) (h1 : NotContinued y) (h2 : NotHead '"' y) :
    parse cfg tableName sk (cs!"TAP_UPLOAD." ++ (x ++ y)) = .ok z y := by
  rw [tableName, lexeme_bare tap_bare]
  exact alt_left (tap_ok hx hz h1 h2)

theorem front_mono {r r' u : Str} (h : Front cfg r u) (hr : r = r' ∨ Shut r) : Front cfg r' u := by
  cases h with
  | chr h1 h2 => exact .chr h1 h2
  | paren h1 h2 h3 h4 => exact .paren h1 h2 h3 h4
  | kw h1 h2 h3 => exact .kw h1 h2 h3
  | name h1 h2 h3 h4 h5 =>
    refine .name h1 h2 h3 h4 ?_
    rcases h5 with rfl | h5
    · exact hr
    · exact .inr h5
  | up h1 h2 h2' h3 h4 h5 =>
    refine .up h1 h2 h2' h3 h4 ?_
    rcases h5 with rfl | h5
    · exact hr
    · exact .inr h5

theorem front_chr_ident {u : Str} {c : Char} {t : Str} (hc : isSpace c = false) (hl : isLetter c = false) (hq : c ≠ '"')
    (e : skip true u = c :: t) : parse cfg tableName sk (skip true u) = .fail := by
  rw [e]
  have hb : Bare (c :: t) := bare_cons hc
  have hn : NoLetter (c :: t) := by intro d z h; cases h; exact hl
  have hi : parse cfg identifier false (c :: t) = .fail := ident_fail hb hn (by intro z h; cases h; exact hq rfl)
  have ht : parse cfg tap false (c :: t) = .fail := by
    refine tap_fail hb ?_
    intro z h
    simp only [List.cons_append, List.cons.injEq] at h
    rw [h.1] at hl
    exact absurd hl (by decide)
  rw [tableName, lexeme_bare hb]
  exact alt_fail ht (alt_fail (map_fail (seq_fail hi)) (alt_fail (map_fail (seq_fail hi)) hi))

theorem chr_facts {c : Char} (h : c ∈ "0123456789.'+-(".toList) :
    isSpace c = false ∧ isLetter c = false ∧ c ≠ '"' := by
  have : ("0123456789.'+-(".toList.all fun c => !isSpace c && !isLetter c && !(c == '"')) = true := by decide
  have := all_mem this h
  simp only [Bool.and_eq_true, Bool.not_eq_true', beq_eq_false_iff_ne] at this
  exact ⟨this.1.1, this.1.2, this.2⟩

theorem tableName_kw {w t y : Str} (h : KwStart w t y) (hw : frontKw w = true) :
    parse cfg tableName sk (t ++ y) = .fail := by
  simp only [frontKw, Bool.and_eq_true] at hw
  have hi : parse cfg identifier false (t ++ y) = .fail := h.no_ident (reservedB_iff hw.1.1) hw.1.2
  rw [tableName, lexeme_bare h.bare]
  exact alt_fail (tap_kw h hw.2) (alt_fail (map_fail (seq_fail hi)) (alt_fail (map_fail (seq_fail hi)) hi))

/-- What `table_name` makes of an expression. -/
theorem front_tableName {r u : Str} (h : Front cfg r u) :
    (∀ sk, parse cfg tableName sk (skip true u) = .fail) ∨ (next u ≠ some '(' ∧ ∃ n τ e,
      (∀ sk, parse cfg tableName sk (skip true u) = .ok n τ) ∧ Tail e τ ∧ NameEnd e ∧ (e = r ∨ Shut e)) := by
  cases h with
  | chr h1 h2 =>
    have := chr_facts ((by decide : ∀ c ∈ "0123456789.'+-".toList, c ∈ "0123456789.'+-(".toList) _ h2)
    exact .inl fun sk => front_chr_ident this.1 this.2.1 this.2.2 h1
  | paren h1 => exact .inl fun sk => front_chr_ident (by decide) (by decide) (by decide) h1
  | kw h1 h2 h3 => exact .inl fun sk => by rw [h1]; exact tableName_kw h2 h3
  | name h1 h2 h3 h4 h5 =>
    obtain ⟨n, τ', h6, h7⟩ := tableName_tail h2 h3 h4
    refine .inr ⟨?_, n, τ', _, ?_, h7, h4, h5⟩
    · intro e
      have e : (skip true u).head? = some '(' := e
      cases hz : skip true u with
      | nil => rw [hz] at e; cases e
      | cons d z =>
        rw [hz] at e
        cases e
        exact h2.noParen _ _ (h1.symm.trans hz)
    · rw [h1]; exact h6
  | @up r u x z τ e h1 h2 h2' h3 h4 h5 =>
    have ht := tail_end h3 h4
    refine .inr ⟨?_, z, _, _, fun sk => ?_, h3, h4, h5⟩
    · show (skip true u).head? ≠ _
      rw [h1]; rintro ⟨⟩
    · rw [h1]; exact tableName_up h2 h2' ht.1 (notHead_of_next (by decide) ht.2)

theorem front_star {r u : Str} (h : Front cfg r u) : parse cfg qualifierStar true u = .fail := by
  simp only [qualifierStar, parse, run_lexeme]
  rcases front_tableName h with h | ⟨-, n, τ, e, h1, h2, h3, -⟩
  · exact map_fail (seq_fail (h _))
  · exact map_fail (seq_fail2 (h1 _) (tail_noStar h2 h3))

theorem front_parenGeo {r u : Str} (h : Front cfg r u) : parse cfg parenGeo true u = .fail := by
  cases h with
  | chr h1 h2 =>
    refine parenGeo_fail ?_
    show (skip true u).head? ≠ _
    rw [h1]
    rintro ⟨⟩
    revert h2; decide
  | paren h1 h2 h3 h4 =>
    obtain ⟨b, hb, e⟩ := skip_split u
    rw [e, h1]
    rw [parenGeo, parse_blanks rfl rfl hb]
    exact seqR_fail2 (sym_ok1 (s := cs!"(") (by decide) tok_nil) (seqL_fail h2)
  | kw h1 h2 h3 =>
    refine parenGeo_fail ?_
    obtain ⟨c, hc, hl⟩ := kwStart_next h2 h1
    rw [hc]; rintro ⟨⟩; exact absurd hl (by decide)
  | name h1 h2 h3 h4 h5 =>
    refine parenGeo_fail ?_
    intro e
    have e : (skip true u).head? = some '(' := e
    cases hz : skip true u with
    | nil => rw [hz] at e; cases e
    | cons d z =>
      rw [hz] at e
      cases e
      exact h2.noParen _ _ (h1.symm.trans hz)
  | up h1 =>
    refine parenGeo_fail ?_
    show (skip true u).head? ≠ _
    rw [h1]; rintro ⟨⟩

theorem tableName_skip (u : Str) : parse cfg tableName true u = parse cfg tableName true (skip true u) :=
  parse_skip rfl rfl u

theorem tc_noLetter {u n τ : Str} (h : parse cfg tableName true (skip true u) = .ok n τ) (hn : Shut τ)
    (hq : next τ ≠ some '"') : parse cfg tableCorrelation true u = .ok ⟨n, []⟩ τ :=
  map_ok (f := fun x : Str × Str => (⟨x.1, x.2⟩ : TableCorr))
    (seq_ok ((tableName_skip u).trans h) (optD_none (hn.corr hq)))

theorem noLetter_of_next {r : Str} {c : Char} (h : next r = some c) (hc : isLetter c = false) : NoLetter (skip true r) := by
  intro d t e
  have : next r = some d := by show (skip true r).head? = _; rw [e]; rfl
  rw [h] at this
  cases this
  exact hc

theorem jt_of_parts {u : Str} (h1 : parse cfg parenJoined true u = .fail)
    (h2 : parse cfg tableCorrelation true u = .fail ∨
      ∃ t τ, parse cfg tableCorrelation true u = .ok t τ ∧ parse cfg joinSuffix true τ = .fail) :
    parse cfg jt true u = .fail := by
  rw [jt, parse_nt]
  refine alt_fail (map_fail (map_fail ?_)) (map_fail h1)
  rcases h2 with h2 | ⟨t, τ, h2, h3⟩
  · exact seq_fail (alt_fail (map_fail h1) (map_fail h2))
  · exact seq_fail2 ((alt_right (map_fail h1)).trans (map_ok h2)) (map_fail (seq_fail h3))

theorem front_jt_name {r u : Str} (h : next u ≠ some '(' ∧ ∃ n τ e,
    (∀ sk, parse cfg tableName sk (skip true u) = .ok n τ) ∧ Tail e τ ∧ NameEnd e ∧ (e = r ∨ Shut e))
    (hr : Shut r) : parse cfg jt true u = .fail := by
  obtain ⟨hp, n, τ', e', h6, h7, h8, h9⟩ := h
  have hn : Shut τ' := by
    cases h7 with
    | nil =>
      rcases h9 with rfl | h9
      · exact hr
      · exact h9
    | cons hd ht hy h => exact .inl (noLetter_of_next (dot_next hd) (by decide))
  exact jt_of_parts (seqR_fail (sym_fail hp)) (.inr ⟨_, _, tc_noLetter (h6 true) hn (tail_end h7 h8).2,
    joinSuffix_fail hn.join⟩)

/-- An expression in front of a comma or a closing parenthesis is not a joined table. -/
theorem front_jt {r u : Str} (h : Front cfg r u) (hr : Shut r) : parse cfg jt true u = .fail := by
  induction h with
  | @paren r u u' r' h1 h2 h3 h4 ih =>
    have hj := ih (.inl (noLetter_of_next h3 (by decide)))
    obtain ⟨b, hb, e⟩ := skip_split u
    refine jt_of_parts ?_ (.inl (map_fail (seq_fail ((tableName_skip u).trans (front_chr_ident (by decide) (by decide) (by decide) h1)))))
    rw [e, h1, parenJoined, parse_blanks rfl rfl hb]
    exact seqR_fail2 (sym_ok1 (s := cs!"(") (by decide) tok_nil) (seqL_fail hj)
  | @chr r u c t h1 h2 =>
    have hf := chr_facts ((by decide : ∀ c ∈ "0123456789.'+-".toList, c ∈ "0123456789.'+-(".toList) _ h2)
    refine jt_of_parts (seqR_fail (sym_fail ?_)) (.inl (map_fail (seq_fail ((tableName_skip u).trans
      (front_chr_ident hf.1 hf.2.1 hf.2.2 h1)))))
    show (skip true u).head? ≠ _
    rw [h1]
    rintro ⟨⟩
    revert h2; decide
  | @kw r u w t y h1 h2 h3 =>
    refine jt_of_parts (seqR_fail (sym_fail ?_)) (.inl (map_fail (seq_fail ((tableName_skip u).trans
      (by rw [h1]; exact tableName_kw h2 h3)))))
    obtain ⟨c, hc, hl⟩ := kwStart_next h2 h1
    rw [hc]; rintro ⟨⟩; exact absurd hl (by decide)
  | @name r u x τ e h1 h2 h3 h4 h5 =>
    obtain h | h := front_tableName (.name (r := r) h1 h2 h3 h4 h5)
    · obtain ⟨n, τ', h6, h7⟩ := tableName_tail h2 h3 h4
      have := h true
      rw [h1, h6] at this; cases this
    · exact front_jt_name h hr
  | @up r u x z τ e h1 h2 h2' h3 h4 h5 =>
    obtain h | h := front_tableName (.up (r := r) h1 h2 h2' h3 h4 h5)
    · have ht := tail_end h3 h4
      have := h true
      rw [h1, tableName_up h2 h2' ht.1 (notHead_of_next (by decide) ht.2)] at this; cases this
    · exact front_jt_name h hr

end Adql.Fwd
