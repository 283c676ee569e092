import Verif.Model.AcceptFront

/-!
# Running the grammar forward: tables and joins
-/

namespace Adql.Fwd

open P Spec

variable {cfg : Config} {sk : Bool} {S : Mode} [Fits S cfg]

/-! ### Names of tables -/

/-- What follows is not a further part of the name. -/
def NameStop (cfg : Config) (e : Str) : Prop :=
  NotContinued e ∧ NotHead '"' e ∧ (parse cfg period false e = .fail ∨
    ∃ e1, parse cfg period false e = .ok cs!"." e1 ∧ parse cfg identifier false e1 = .fail)

theorem nameStop_end {e : Str} (h : NameEnd e) : NameStop cfg e :=
  ⟨h.1, notHead_of_next (by decide) h.2.2, .inl (period_fail (notHead_of_next (by decide) h.2.1))⟩

theorem nameStop_star {r : Str} : NameStop cfg (cs!".*" ++ r) := by
  refine ⟨?_, ?_, .inr ⟨'*' :: r, period_ok, ident_fail_raw ?_ ?_⟩⟩
  · rw [notContinued_iff]; intro c t e; cases e; decide
  · intro t e; cases e
  · intro c t e; cases e; decide
  · intro t e; cases e

theorem dot_more {y : Str} : NotContinued ('.' :: y) ∧ NotHead '"' ('.' :: y) := by
  refine ⟨?_, ?_⟩
  · rw [notContinued_iff]; intro c t e; cases e; decide
  · intro t e; cases e

theorem _root_.Adql.Spec.NameParts.mono {P Q : Str → Prop} (hPQ : ∀ x, P x → Q x) {n : Str} (h : NameParts P n) : NameParts Q n := by
  cases h with
  | one h => exact .one (hPQ _ h)
  | two h hy => exact .two (hPQ _ h) hy
  | three h hy hz => exact .three (hPQ _ h) hy hz

theorem tabName_from {n : Str} (h : TabName n) : FromName n := h.mono fun _ h => h.tab

theorem tabName_ok {n e : Str} (h : FromName n) (he : NameStop cfg e) : parse cfg tableName sk (n ++ e) = .ok n e := by
  have key : ∀ {x y : Str}, Part x ∧ x ≠ cs!"TAP_UPLOAD" → NotContinued y → NotHead '"' y → ∀ {n e},
      parse cfg (.alt (cat identifier (cat period (cat identifier (cat period identifier))))
      (.alt (cat identifier (cat period identifier)) identifier)) false (x ++ y) = .ok n e →
      parse cfg tableName sk (x ++ y) = .ok n e := by
    intro x y hx hy _ n e h
    rw [tableName, lexeme_bare (part_bare hx.1), alt_right (tap_part hx.1 hx.2 hy)]
    exact h
  have hid : ∀ {x y : Str}, Part x → NotContinued y → NotHead '"' y → parse cfg identifier false (x ++ y) = .ok x y :=
    fun hx h1 h2 => ident_ok hx h1 h2
  cases h with
  | one hx =>
    refine key hx he.1 he.2.1 ?_
    have hi := hid hx.1 he.1 he.2.1
    rcases he.2.2 with h1 | ⟨e1, h1, h2⟩
    · exact (alt_right (map_fail (seq_fail2 hi (map_fail (seq_fail h1))))).trans
        ((alt_right (map_fail (seq_fail2 hi (map_fail (seq_fail h1))))).trans hi)
    · exact (alt_right (map_fail (seq_fail2 hi (map_fail (seq_fail2 h1 (map_fail (seq_fail h2))))))).trans
        ((alt_right (map_fail (seq_fail2 hi (map_fail (seq_fail2 h1 h2))))).trans hi)
  | @two x y hx hy =>
    rw [List.append_assoc, List.cons_append]
    refine key hx dot_more.1 dot_more.2 ?_
    have hi := hid (y := '.' :: (y ++ e)) hx.1 dot_more.1 dot_more.2
    have h1 : parse cfg period false ('.' :: (y ++ e)) = .ok cs!"." (y ++ e) := period_ok
    have h2 := hid hy he.1 he.2.1
    have h2' : parse cfg (cat identifier (cat period identifier)) false (x ++ '.' :: (y ++ e)) = .ok (x ++ (cs!"." ++ y)) e :=
      cat_ok hi (cat_ok h1 h2)
    rcases he.2.2 with h3 | ⟨e1, h3, h4⟩
    · exact (alt_right (map_fail (seq_fail2 hi (map_fail (seq_fail2 h1 (map_fail (seq_fail2 h2
        (map_fail (seq_fail h3))))))))).trans (alt_left h2')
    · exact (alt_right (map_fail (seq_fail2 hi (map_fail (seq_fail2 h1 (map_fail (seq_fail2 h2
        (map_fail (seq_fail2 h3 h4))))))))).trans (alt_left h2')
  | @three x y z hx hy hz =>
    simp only [List.append_assoc, List.cons_append]
    refine key hx dot_more.1 dot_more.2 ?_
    have hi := hid (y := '.' :: (y ++ '.' :: (z ++ e))) hx.1 dot_more.1 dot_more.2
    have h2 := hid (y := '.' :: (z ++ e)) hy dot_more.1 dot_more.2
    have h3 := hid hz he.1 he.2.1
    exact alt_left (cat_ok (a := x) (b := cs!"." ++ (y ++ (cs!"." ++ z))) hi (cat_ok period_ok (cat_ok h2 (cat_ok period_ok h3))))

theorem tabName_bare {n e : Str} (h : FromName n) : Bare (n ++ e) := by
  cases h with
  | one hx => exact part_bare hx.1
  | two hx => rw [List.append_assoc]; exact part_bare hx.1
  | three hx => rw [List.append_assoc]; exact part_bare hx.1

theorem tableName_tok {s n e : Str} (hs : Tok n s) (h : FromName n) (he : NameStop cfg e) :
    parse cfg tableName true (s ++ e) = .ok n e := by
  obtain ⟨b, hb, rfl⟩ := hs
  rw [List.append_assoc, parse_blanks rfl rfl hb]
  exact tabName_ok h he

theorem tabName_noParen {s n e : Str} (hs : Tok n s) (h : FromName n) : next (s ++ e) ≠ some '(' := by
  obtain ⟨b, hb, rfl⟩ := hs
  rw [List.append_assoc, next_blanks hb]
  have key : ∀ {x y : Str}, Part x ∧ x ≠ cs!"TAP_UPLOAD" → next (x ++ y) ≠ some '(' := by
    intro x y hx e
    have e : (skip true (x ++ y)).head? = some '(' := e
    rw [skip_bare (part_bare hx.1)] at e
    cases hz : x ++ y with
    | nil => rw [hz] at e; cases e
    | cons d z =>
      rw [hz] at e
      cases e
      exact (nameLike_tab (cfg := ⟨fun _ => none, false⟩) hx).noParen _ _ hz
  cases h with
  | one hx => exact key hx
  | two hx => rw [List.append_assoc]; exact key hx
  | three hx => rw [List.append_assoc]; exact key hx

/-! ### Correlation names -/

theorem part_apart {x y w : Str} (hx : Part x) (hy : NotContinued y) (hw : (takenB w && startsLetter w && w.all isIdChar) = true) :
    Apart w (x ++ y) := by
  simp only [Bool.and_eq_true] at hw
  rcases hx with ⟨h1, h2⟩ | h
  · exact apart_word hw.2 h1 hy (free_other h2 (takenB_iff hw.1.1))
  · exact apart_noLetter hw.1.2 (delimited_noLetter h)

/-- no correlation name follows -/
def CorrStop (cfg : Config) (r : Str) : Prop := NameEnd r ∧ parse cfg correlationSpecification true r = .fail

theorem newName_ok {t x r : Str} (h : NewNameT t x) (hr : NotContinued r) (hq : next r ≠ some '"') :
    parse cfg correlationSpecification true (t ++ r) = .ok x r := by
  cases h with
  | name ht hb hx =>
    refine seqR_ok (optD_none (word_fail ?_)) (ident_tok ht hx hr hq)
    obtain ⟨b, hb', rfl⟩ := ht
    rw [List.append_assoc, skip_blanks hb', skip_bare (part_bare hx)]
    exact part_apart hx hr (by decide +kernel)
  | as ha ht hb hx =>
    rw [List.append_assoc]
    exact seqR_ok (optD_ok (word_ok ha.1 (by decide) (blankFirst_append hb))) (ident_tok ht hx hr hq)

theorem newName_blank {t x : Str} (h : NewNameT t x) : BlankFirst t := by
  cases h with
  | name _ hb _ => exact hb
  | as ha => exact blankFirst_append ha.2

theorem part_next {s x r : Str} (hs : Tok x s) (hx : Part x) : ∃ c, next (s ++ r) = some c ∧ (isLetter c = true ∨ c = '"') := by
  rcases hx with ⟨⟨c, z, rfl, hc, -⟩, -⟩ | ⟨z, rfl, -⟩
  · exact ⟨c, tok_next hs rfl (isLetter_not_space (isLetter_iff.2 hc)), .inl (isLetter_iff.2 hc)⟩
  · exact ⟨'"', tok_next hs rfl (by decide), .inr rfl⟩

theorem newName_next {t x r : Str} (h : NewNameT t x) :
    ∃ c, next (t ++ r) = some c ∧ (isLetter c = true ∨ c = '"') := by
  cases h with
  | name ht hb hx => exact part_next ht hx
  | as ha ht hb hx =>
    rw [List.append_assoc]
    obtain ⟨e, hk⟩ := word_start ha (by decide) (blankFirst_notContinued' (r := r) hb)
    obtain ⟨c, h1, h2⟩ := kwStart_next hk e
    exact ⟨c, h1, .inl h2⟩

/-- the condition on what follows a table name in front of a correlation name -/
theorem newName_stop {t x r : Str} (h : NewNameT t x) : NameStop cfg (t ++ r) := by
  refine ⟨blankFirst_notContinued' (newName_blank h), ?_, .inl (period_fail ?_)⟩
  · obtain ⟨c, u, e, hc⟩ := blankFirst_append (r := r) (newName_blank h)
    rw [e]; intro z h; cases h; exact absurd hc (by decide)
  · obtain ⟨c, u, e, hc⟩ := blankFirst_append (r := r) (newName_blank h)
    rw [e]; intro z h; cases h; exact absurd hc (by decide)

theorem tableName_upTok {s x z e : Str} (hs : Tok (cs!"TAP_UPLOAD." ++ x) s) (hx : UpT S x z) (h1 : NotContinued e)
    (h2 : NotHead '"' e) : parse cfg tableName true (s ++ e) = .ok z e := by
  obtain ⟨b, hb, rfl⟩ := hs
  rw [List.append_assoc, List.append_assoc, parse_blanks rfl rfl hb]
  exact tableName_up hx.1 (Fits.up _ _ hx.2) h1 h2

theorem tc_ok {s r : Str} {t : TableCorr} (h : TcT S s t) (hr : CorrStop cfg r) :
    parse cfg tableCorrelation true (s ++ r) = .ok t r := by
  cases h with
  | mk hs hn ha =>
    rw [List.append_assoc]
    cases ha with
    | none =>
      exact map_ok (f := fun x : Str × Str => (⟨x.1, x.2⟩ : TableCorr))
        (seq_ok (tableName_tok hs hn (nameStop_end hr.1)) (optD_none hr.2))
    | some ha =>
      exact map_ok (f := fun x : Str × Str => (⟨x.1, x.2⟩ : TableCorr))
        (seq_ok (tableName_tok hs hn (newName_stop ha)) (optD_ok (newName_ok ha hr.1.1 hr.1.2.2)))
  | up hs hn ha =>
    rw [List.append_assoc]
    cases ha with
    | none =>
      exact map_ok (f := fun x : Str × Str => (⟨x.1, x.2⟩ : TableCorr))
        (seq_ok (tableName_upTok hs hn hr.1.1 (notHead_of_next (by decide) hr.1.2.2)) (optD_none hr.2))
    | some ha =>
      exact map_ok (f := fun x : Str × Str => (⟨x.1, x.2⟩ : TableCorr))
        (seq_ok (tableName_upTok hs hn (newName_stop (cfg := cfg) ha).1 (newName_stop (cfg := cfg) ha).2.1)
          (optD_ok (newName_ok ha hr.1.1 hr.1.2.2)))

theorem tc_noParen {s r : Str} {t : TableCorr} (h : TcT S s t) : next (s ++ r) ≠ some '(' := by
  cases h with
  | mk hs hn ha => rw [List.append_assoc]; exact tabName_noParen hs hn
  | up hs hn ha => rw [List.append_assoc, tok_next hs rfl (by decide)]; decide

theorem tc_lead {s r w : Str} {t : TableCorr} (h : TcT S s t) (hr : NotContinued r) (hw : w.all isIdChar = true)
    (h1 : prefixCI w t.name = false) (h2 : prefixCI w cs!"TAP_UPLOAD" = false) : matchLit true w (skip true (s ++ r)) = none := by
  have alias : ∀ {a x : Str}, AliasT a x → NotContinued (a ++ r) := by
    intro a x ha
    cases ha with
    | none => exact hr
    | some ha => exact blankFirst_notContinued' (newName_blank ha)
  cases h with
  | mk hs hn ha =>
    obtain ⟨b, hb, rfl⟩ := hs
    rw [List.append_assoc, List.append_assoc, skip_blanks hb, skip_bare (tabName_bare hn)]
    exact matchLit_prefix hw (alias ha) h1
  | up hs hn ha =>
    obtain ⟨b, hb, rfl⟩ := hs
    simp only [List.append_assoc]
    rw [skip_blanks hb, skip_bare (show Bare (cs!"TAP_UPLOAD." ++ _) from bare_cons (by decide))]
    exact matchLit_prefix (x := cs!"TAP_UPLOAD") (y := '.' :: _) hw dot_more.1 h2

/-! ### What follows tables -/

/-- the words that can follow the FROM clause -/
def clauseWords : List Str := [cs!"WHERE", cs!"GROUP", cs!"HAVING", cs!"ORDER", cs!"UNION"]

/-- the words that can follow a table -/
def tabWords : Bool → List Str
  | true => clauseWords
  | false => clauseWords ++ [cs!"ON", cs!"USING"]

/-- the words with which a join suffix starts -/
def sufWords : Bool → List Str
  | false => [cs!"NATURAL", cs!"LEFT", cs!"RIGHT", cs!"FULL", cs!"JOIN"]
  | true => [cs!"NATURAL", cs!"LEFT", cs!"RIGHT", cs!"FULL", cs!"JOIN", cs!"INNER"]

/-- all of them -/
def afterTab : List Str := clauseWords ++ [cs!"ON", cs!"USING"] ++ sufWords true

theorem tabWords_sub {k : Bool} : ∀ w ∈ tabWords k, w ∈ clauseWords ++ [cs!"ON", cs!"USING"] := by
  cases k <;> intro w h
  · exact h
  · exact List.mem_append_left _ h

theorem tabWords_after {k : Bool} : ∀ w ∈ tabWords k, w ∈ afterTab :=
  fun w h => List.mem_append_left _ (tabWords_sub w h)

theorem sufWords_after {i : Bool} : ∀ w ∈ sufWords i, w ∈ afterTab := by
  cases i <;> decide

theorem afterTab_stop {r : Str} (h : Ends afterTab r) : CorrStop cfg r := by
  refine ⟨⟨(ends_expr (by decide) h).1.1.1, ends_ne (by decide) h (by decide), ends_ne (by decide) h (by decide)⟩, ?_⟩
  exact seqR_fail2 (optD_none (word_fail (ends_apart (by decide) h (by decide +kernel))))
    (ends_ident_fail (by decide) (by decide +kernel) h)

theorem ends_noJoin {ws : List Str} {r : Str} (hw : (ws.all wordShape) = true)
    (ho : (joinWords.all fun w' => ws.all fun w => offAll [w'] w) = true) (h : Ends ws r) :
    ∀ w ∈ joinWords, Apart w (skip true r) := by
  intro w' hm
  have h1 : (joinWords.all startsLetter) = true := by decide
  exact ends_apart hw h (by rw [all_mem h1 hm]; exact all_mem ho hm)

theorem tab_noJoin {k : Bool} {r : Str} (h : Ends (tabWords k) r) : parse cfg joinSuffix true r = .fail :=
  joinSuffix_fail (ends_noJoin (by decide) (by decide) (ends_mono tabWords_sub h))

theorem close_ends {ws : List Str} {c r : Str} (h : Tok cs!")" c) : Ends ws (c ++ r) :=
  .inl ⟨(close_end h).1.1.1, by rw [tok_next h rfl (by decide)]; decide⟩

theorem comma_ends {ws : List Str} {c r : Str} (h : Tok cs!"," c) : Ends ws (c ++ r) :=
  .inl ⟨(comma_end h).1.1.1, by rw [tok_next h rfl (by decide)]; decide⟩

/-! ### Tables -/

/-- The text spells the table `t`. -/
structure GoodTab (cfg : Config) (k : Bool) (s : Str) (t : TR) : Prop where
  run : ∀ r, Ends (tabWords k) r → parse cfg tr true (s ++ r) = .ok t r
  /-- a table that takes no join suffixes can also be followed by one -/
  bare : takesJoin t = false → ∀ r, Ends afterTab r → parse cfg tr true (s ++ r) = .ok t r

/-- The text spells the joined table `j`. -/
structure GoodJoin (cfg : Config) (k : Bool) (s : Str) (j : JT) : Prop where
  run : ∀ r, Ends (tabWords k) r → parse cfg jt true (s ++ r) = .ok j r
  lead : ∀ w, w ∈ [cs!"WITH", cs!"SELECT"] → prefixCI w (firstJT j) = false → ∀ r, Ends (tabWords k) r →
    matchLit true w (skip true (s ++ r)) = none

/-- The text spells the first table of a join. -/
structure GoodHead (cfg : Config) (s : Str) (h : QJHead) : Prop where
  run : ∀ r, Ends afterTab r → parse cfg
    (.alt (.map (fun j => .jt (.wrap j)) parenJoined) (.map .tc tableCorrelation) : G QJHead) true (s ++ r) = .ok h r
  lead : ∀ w, w ∈ [cs!"WITH", cs!"SELECT"] → (∀ t, h = .tc t → prefixCI w t.name = false) → ∀ r, Ends afterTab r →
    matchLit true w (skip true (s ++ r)) = none

/-- The text spells the further tables of a join. -/
structure GoodSufs (cfg : Config) (i k : Bool) (s : Str) (l : List JoinSuffix) : Prop where
  start : ∀ r, Ends (sufWords i) (s ++ r)
  plus : ∀ r, Ends (tabWords k) r → parse cfg (plus joinSuffix) true (s ++ r) = .ok l r
  star : ∀ r, Ends (tabWords k) r → parse cfg (.star joinSuffix) true (s ++ r) = .ok l r

/-- What follows a further table of a join. -/
def SufEnd (k o : Bool) (r : Str) : Prop := (k = true → Ends clauseWords r) ∧ (k = false → FEnd o r ∧ LogEnd r)

/-- The text spells a further table of a join. -/
structure GoodSuf (cfg : Config) (i k o : Bool) (s : Str) (x : JoinSuffix) : Prop where
  start : ∀ r, Ends (sufWords i) (s ++ r)
  run : ∀ r, SufEnd k o r → parse cfg joinSuffix true (s ++ r) = .ok x r

/-- The text spells an optional join specification. -/
structure GoodSpec (cfg : Config) (k o : Bool) (s : Str) (x : JoinSpec) : Prop where
  start : ∀ r, SufEnd k o r → Ends (tabWords k) (s ++ r)
  run : ∀ r, SufEnd k o r → parse cfg (optD JoinSpec.dflt joinSpecification) true (s ++ r) = .ok x r

theorem good_tabTc {s : Str} {t : TableCorr} (h : TcT S s t) : GoodTab cfg false s (.tc t) := by
  refine ⟨fun r hr => ?_, nofun⟩
  have ht := tc_ok (cfg := cfg) h (afterTab_stop (ends_mono tabWords_after hr))
  rw [tr, parse_nt]
  exact (alt_right (map_fail (jt_of_parts (seqR_fail (sym_fail (tc_noParen h))) (.inr ⟨_, _, ht, tab_noJoin hr⟩)))).trans
    (alt_left (map_ok ht))

/-! ### Table functions -/

theorem pq_ok {x r : Str} (h : PQName x) (hs : ∀ c t, r = c :: t → isPQIdChar c = false) :
    parse cfg pqIdentifier sk (x ++ r) = .ok x r := by
  obtain ⟨c, t, rfl, hc, ht⟩ := h
  have hl := isLetter_iff.2 hc
  have htk := takeWhile_eq (f := isPQIdChar) (w := t) (r := r) (fun d hd => by
    rcases ht d hd with h | rfl
    · simp [isPQIdChar, isIdChar_iff.2 h]
    · decide) hs
  rw [List.cons_append, pqIdentifier, lexeme_bare (bare_cons (isLetter_not_space hl))]
  refine cat_ok (a := [c]) (b := t) (r := t ++ r) ?_ ?_
  · simp only [parse, run_chS, hl, if_true]
  · simp only [parse, run_manyS_chS, htk.1, htk.2]

theorem pq_tok {s x r : Str} (hs : Tok x s) (h : PQName x) (hr : ∀ c t, r = c :: t → isPQIdChar c = false) :
    parse cfg pqIdentifier true (s ++ r) = .ok x r := by
  obtain ⟨b, hb, rfl⟩ := hs
  rw [List.append_assoc, pqIdentifier, parse_blanks rfl rfl hb]
  exact pq_ok h hr

/-- a quote, after blanks, ends a name -/
theorem quote_pq {w s r : Str} (h : Tok ('\'' :: w) s) : ∀ c t, s ++ r = c :: t → isPQIdChar c = false := by
  obtain ⟨b, hb, rfl⟩ := h
  intro c t e
  cases b with
  | nil => cases e; decide
  | cons d b =>
    cases e
    have : isSpace c = true := hb c (by simp)
    cases hc : isPQIdChar c with
    | false => rfl
    | true =>
      simp only [isPQIdChar, Bool.or_eq_true, beq_iff_eq] at hc
      rcases hc with hc | rfl
      · rw [space_not_id this] at hc; cases hc
      · exact absurd this (by decide)

theorem fnArgs_ok {s : Str} {l : List Str} (h : FnArgsT s l) {c r : Str} (hc : Tok cs!"')" c) :
    parse cfg (sepBy pqIdentifier (sym cs!"','")) true (s ++ (c ++ r)) = .ok l (c ++ r) := by
  induction h with
  | one hs hx =>
    refine sepBy_one (pq_tok hs hx (quote_pq hc)) ?_
    obtain ⟨b, hb, rfl⟩ := hc
    rw [List.append_assoc, sym, lit_eq, skip_blanks hb, List.cons_append, skip_bare (bare_cons (by decide))]
    rfl
  | cons hs hx hm _ ih =>
    simp only [List.append_assoc]
    exact sepBy_cons (by simp) (pq_tok hs hx (quote_pq hm)) (sym_tok (bare_cons (by decide)) (by simp) hm) ih

theorem lowerC_paren {c : Char} (h : lowerC c = '(') : c = '(' := by
  have := congrArg Char.toNat h
  rw [lowerC_toNat] at this
  have h2 : ('(' : Char).toNat = 40 := rfl
  refine Char.ext (UInt32.toNat_inj.1 ?_)
  show c.toNat = 40
  split at this <;> omega

/-- a table function -/
theorem good_tabFn {k k' n s c d : Str} {l : List Str} (hk : Kw cs!"table(" k k') (hn : PQName n) (hs : FnArgsT s l)
    (hc : Tok cs!"')" c) (hd : Tok cs!")" d) : GoodTab cfg false (k ++ (n ++ (cs!"('" ++ (s ++ (c ++ d))))) (.tvf n l) := by
  suffices H : ∀ r, parse cfg tr true ((k ++ (n ++ (cs!"('" ++ (s ++ (c ++ d))))) ++ r) = .ok (.tvf n l) r from
    ⟨fun r _ => H r, fun _ r _ => H r⟩
  intro r
  obtain ⟨b, hb, rfl, hsame⟩ := hk
  have hsame' : k'.map lowerC = cs!"table" ++ cs!"(" := hsame
  obtain ⟨t, u, rfl, ht, hu⟩ := List.map_eq_append_iff.1 hsame'
  have hu : u = cs!"(" := by
    cases u with
    | nil => cases hu
    | cons x u =>
      simp only [List.map_cons, List.cons.injEq, List.map_eq_nil_iff] at hu
      rw [hu.2, lowerC_paren hu.1]
  subst hu
  have hk : ∀ y : Str, KwStart cs!"TABLE" t ('(' :: y) := fun y =>
    ⟨by decide, ht.trans (by decide), tok_notContinued (w := cs!"(") (s := cs!"(") tok_nil rfl (by decide)⟩
  have e : ∀ y : Str, b ++ (t ++ cs!"(") ++ y = b ++ (t ++ ('(' :: y)) := by intro y; simp
  rw [List.append_assoc, e]
  generalize hy : (n ++ (cs!"('" ++ (s ++ (c ++ d)))) ++ r = y
  have hp : next (b ++ (t ++ ('(' :: y))) ≠ some '(' := by
    obtain ⟨x, h1, h2⟩ := kwStart_next (hk y) (r := b ++ (t ++ ('(' :: y))) (by rw [skip_blanks hb, skip_bare (hk y).bare])
    rw [h1]; rintro ⟨⟩; exact absurd h2 (by decide)
  have hn' : parse cfg tableName true (b ++ (t ++ ('(' :: y))) = .fail := by
    rw [tableName, parse_blanks rfl rfl hb]; exact tableName_kw (hk y) (by decide +kernel)
  have htc : parse cfg tableCorrelation true (b ++ (t ++ ('(' :: y))) = .fail := map_fail (seq_fail hn')
  rw [tr, parse_nt]
  refine (alt_right (map_fail (jt_of_parts (seqR_fail (sym_fail hp)) (.inl htc)))).trans
    ((alt_right (map_fail htc)).trans ((alt_right (map_fail (seq_fail (by rw [subq, parse_nt]; exact seqR_fail (sym_fail hp))))).trans ?_))
  refine map_ok (f := fun x : Str × List Str => TR.tvf x.1 x.2) (seq_ok (r := s ++ (c ++ (d ++ r))) ?_ ?_)
  · simp only [parse, run_lexeme, skip_blanks hb, skip_bare (hk y).bare]
    refine seqR_ok (a := t ++ cs!"(") (r := y) ?_ ?_
    · show parse cfg (kw cs!"table(") false _ = _
      rw [show t ++ '(' :: y = (t ++ cs!"(") ++ y by simp]
      have hm : matchLit true cs!"table(" ((t ++ cs!"(") ++ y) = some (t ++ cs!"(", y) := matchLit_iff.2 ⟨rfl, litOK_ci.2 hsame⟩
      rw [kw, lit_eq]
      simp only [skip, hm, Bool.false_eq_true, if_false]
    · rw [← hy]
      simp only [List.append_assoc]
      refine seqL_ok (b := cs!"('") (r := cs!"('" ++ (s ++ (c ++ (d ++ r)))) (pq_ok hn (by intro c z e; cases e; decide)) ?_
      rfl
  · exact seqL_ok (seqL_ok (optD_ok (fnArgs_ok hs hc)) (sym_tok (bare_cons (by decide)) (by simp) hc)) (sym_ok1 (by decide) hd)

theorem good_tabJoin {k : Bool} {s : Str} {j : JT} (h : GoodJoin cfg k s j) : GoodTab cfg k s (.jt j) := by
  refine ⟨fun r hr => ?_, nofun⟩
  rw [tr, parse_nt]
  exact alt_left (map_ok (h.run r hr))

theorem parenJoined_ok {k : Bool} {o s c r : Str} {j : JT} (ho : Tok cs!"(" o) (h : GoodJoin cfg k s j) (hc : Tok cs!")" c) :
    parse cfg parenJoined true (o ++ (s ++ (c ++ r))) = .ok j r :=
  seqR_ok (sym_ok1 (by decide) ho) (seqL_ok (h.run _ (close_ends hc)) (sym_ok1 (by decide) hc))

theorem good_headTc {s : Str} {t : TableCorr} (h : TcT S s t) : GoodHead cfg s (.tc t) := by
  refine ⟨fun r hr => ?_, fun w hw hp r hr => ?_⟩
  · exact (alt_right (map_fail (seqR_fail (sym_fail (tc_noParen h))))).trans (map_ok (tc_ok h (afterTab_stop hr)))
  · have h1 : ([cs!"WITH", cs!"SELECT"].all fun w => w.all isIdChar && !prefixCI w cs!"TAP_UPLOAD") = true := by decide
    have h1 := all_mem h1 hw
    simp only [Bool.and_eq_true, Bool.not_eq_true'] at h1
    exact tc_lead h (afterTab_stop (cfg := ⟨fun _ => none, false⟩) hr).1.1 h1.1 (hp t rfl) h1.2

theorem open_lead {o y w : Str} (ho : Tok cs!"(" o) (hw : w ∈ [cs!"WITH", cs!"SELECT"]) : matchLit true w (skip true (o ++ y)) = none := by
  rw [show skip true (o ++ y) = '(' :: y from tok_drop ho rfl (by decide)]
  have h1 : ([cs!"WITH", cs!"SELECT"].all startsLetter) = true := by decide
  exact matchLit_noLetter' (all_mem h1 hw) (noLetter_of_mem (c := '(') (by decide) (by decide : '(' ∈ exprChars))

theorem good_headParen {k : Bool} {o s c : Str} {j : JT} (ho : Tok cs!"(" o) (h : GoodJoin cfg k s j) (hc : Tok cs!")" c) :
    GoodHead cfg (o ++ (s ++ c)) (.jt (.wrap j)) := by
  refine ⟨fun r hr => ?_, fun w hw _ r hr => ?_⟩ <;> simp only [List.append_assoc]
  · exact alt_left (map_ok (f := fun j => QJHead.jt (.wrap j)) (parenJoined_ok ho h hc))
  · exact open_lead ho hw

theorem good_join {i k : Bool} {s t : Str} {hd : QJHead} {l : List JoinSuffix} (hs : GoodHead cfg s hd)
    (ht : GoodSufs cfg i k t l) : GoodJoin cfg k (s ++ t) (.qj (.mk hd l)) := by
  refine ⟨fun r hr => ?_, fun w hw hp r hr => ?_⟩ <;> rw [List.append_assoc]
  · rw [jt, parse_nt]
    exact alt_left (map_ok (map_ok (f := fun x : QJHead × List JoinSuffix => QJ.mk x.1 x.2)
      (seq_ok (hs.run _ (ends_mono sufWords_after (ht.start r))) (ht.plus r hr))))
  · exact hs.lead w hw (fun t e => by subst e; exact hp) _ (ends_mono sufWords_after (ht.start r))

theorem good_joinParen {k : Bool} {o s c : Str} {j : JT} (ho : Tok cs!"(" o) (h : GoodJoin cfg k s j) (hc : Tok cs!")" c) :
    GoodJoin cfg false (o ++ (s ++ c)) (.wrap j) := by
  refine ⟨fun r hr => ?_, fun w hw _ r _ => by simp only [List.append_assoc]; exact open_lead ho hw⟩
  simp only [List.append_assoc]
  rw [jt, parse_nt]
  have hp := parenJoined_ok (r := r) ho h hc
  exact (alt_right (map_fail (map_fail (seq_fail2 (alt_left (map_ok hp)) (map_fail (seq_fail (tab_noJoin hr))))))).trans
    (map_ok hp)

theorem sufsEnd_tab {k o : Bool} {r : Str} (h : Ends (tabWords k) r) : SufEnd k o r := by
  refine ⟨fun e => by subst e; exact h, fun e => ?_⟩
  have h' := ends_mono tabWords_sub h
  exact ⟨⟨ends_expr (by decide) h', fun _ => ends_bare (by decide) (by decide) h'⟩, ends_log (by decide) (by decide) h'⟩

theorem sufsEnd_suf {i o : Bool} {r : Str} (h : Ends (sufWords i) r) (ho : o = true → i = false) : SufEnd false o r := by
  refine ⟨fun e => (by cases e), fun e => ?_⟩
  have h' := ends_mono (ws' := sufWords true) (by cases i <;> decide) h
  refine ⟨⟨ends_expr (by decide) h', fun e => ?_⟩, ends_log (by decide) (by decide) h'⟩
  have := ho e
  subst this
  exact ends_bare (by decide) (by decide) h

theorem good_sufs_one {i k o : Bool} {s : Str} {x : JoinSuffix} (h : GoodSuf cfg i k o s x) : GoodSufs cfg i k s [x] := by
  refine ⟨h.start, fun r hr => ?_, fun r hr => ?_⟩
  · exact map_ok (f := fun x : JoinSuffix × List JoinSuffix => x.1 :: x.2)
      (seq_ok (h.run r (sufsEnd_tab hr)) (star_nil (tab_noJoin hr)))
  · exact star_cons (by simp) (h.run r (sufsEnd_tab hr)) (star_nil (tab_noJoin hr))

theorem good_sufs_cons {i o i' k : Bool} {s t : Str} {x : JoinSuffix} {l : List JoinSuffix} (h : GoodSuf cfg i false o s x)
    (ht : GoodSufs cfg i' k t l) (ho : o = true → i' = false) : GoodSufs cfg i k (s ++ t) (x :: l) := by
  refine ⟨fun r => ?_, fun r hr => ?_, fun r hr => ?_⟩ <;> rw [List.append_assoc]
  · exact h.start _
  · exact map_ok (f := fun x : JoinSuffix × List JoinSuffix => x.1 :: x.2)
      (seq_ok (h.run _ (sufsEnd_suf (ht.start r) ho)) (ht.star r hr))
  · exact star_cons (by simp) (h.run _ (sufsEnd_suf (ht.start r) ho)) (ht.star r hr)

/-! ### Join specifications -/

theorem good_specNone : GoodSpec cfg true false [] JoinSpec.dflt := by
  refine ⟨fun r hr => hr.1 rfl, fun r hr => ?_⟩
  have h := hr.1 rfl
  exact optD_none (alt_fail (map_fail (seqR_fail (word_fail (ends_apart (by decide) h (by decide +kernel)))))
    (map_fail (seqR_fail (seq_fail (word_fail (ends_apart (by decide) h (by decide +kernel)))))))

theorem good_specOn {k k' s : Str} {h : Head} {o : Bool} {c : SC} (hk : Word cs!"ON" k k') (hb : BlankFirst s)
    (hc : GoodC cfg h o s c) : GoodSpec cfg false o (k ++ s) (.on c) := by
  refine ⟨fun r hr => ?_, fun r hr => ?_⟩ <;> rw [List.append_assoc]
  · exact .inr ⟨_, k, k', s ++ r, by decide, hk, blankFirst_notContinued' hb, rfl⟩
  · exact optD_ok (alt_left (map_ok (seqR_ok (word_ok hk.1 (by decide) (blankFirst_append hb)) (hc.run r (hr.2 rfl).1 (hr.2 rfl).2))))

theorem names_ok' {s : Str} {l : List Str} (h : NamesT s l) {c r : Str} (hc : Tok cs!")" c) :
    parse cfg (sepBy identifier (sym cs!",")) true (s ++ (c ++ r)) = .ok l (c ++ r) := by
  induction h with
  | one hs hx =>
    refine sepBy_one (ident_tok hs hx (close_end hc).1.1.1 ?_) (sym_fail ?_)
    · rw [tok_next hc rfl (by decide)]; decide
    · rw [tok_next hc rfl (by decide)]; decide
  | cons hs hx hm ht ih =>
    simp only [List.append_assoc]
    refine sepBy_cons (by simp) (ident_tok hs hx (comma_end hm).1.1.1 ?_) (sym_ok1 (by decide) hm) ih
    rw [tok_next hm rfl (by decide)]; decide

theorem good_specUsing {k k' o s c : Str} {l : List Str} (hk : Word cs!"USING" k k') (hb : BlankFirst o) (ho : Tok cs!"(" o)
    (hs : NamesT s l) (hc : Tok cs!")" c) : GoodSpec cfg false false (k ++ (o ++ (s ++ c))) (.named l) := by
  refine ⟨fun r hr => ?_, fun r hr => ?_⟩ <;> simp only [List.append_assoc]
  · exact .inr ⟨_, k, k', o ++ (s ++ (c ++ r)), by decide, hk, blankFirst_notContinued' hb, rfl⟩
  · obtain ⟨e, hk'⟩ := word_start hk (by decide) (blankFirst_notContinued' (r := s ++ (c ++ r)) hb)
    refine optD_ok ((alt_right (map_fail (seqR_fail (word_fail ?_)))).trans (map_ok (seqR_ok
      (seq_ok (word_ok hk.1 (by decide) (blankFirst_append hb)) (sym_ok1 (by decide) ho))
      (seqL_ok (expect_ok (names_ok' hs hc)) (expect_ok (sym_ok1 (by decide) hc))))))
    rw [e]
    exact hk'.apart (ws := [cs!"ON"]) (by decide) _ (by simp)

/-! ### Join suffixes -/

theorem joinType_fail' {r : Str} (h : ∀ w ∈ [cs!"INNER", cs!"LEFT", cs!"RIGHT", cs!"FULL"], Apart w (skip true r)) :
    parse cfg joinType true r = .fail := by
  refine alt_fail (map_fail (word_fail (h _ (by decide)))) (map_fail (seq_fail ?_))
  simp only [parse, run_lexeme]
  have hb := bare_skip r
  refine stuck_seqL_fail ?_ fun c v hc => andSpace_idChar hc
  exact stuck_alt (stuck_kw hb (h _ (by decide))) (stuck_alt (stuck_kw hb (h _ (by decide))) (stuck_kw hb (h _ (by decide))))

theorem outerKw_ok {s t y : Str} (h : WordIn [cs!"LEFT", cs!"RIGHT", cs!"FULL"] s t) (hy : BlankFirst y) :
    parse cfg (.lexeme (seqL (.alt (kw cs!"LEFT") (.alt (kw cs!"RIGHT") (kw cs!"FULL"))) andSpace)) true (s ++ y) = .ok t y := by
  obtain ⟨w, hw, h⟩ := h
  have hs : wordShape w = true := by
    have : ([cs!"LEFT", cs!"RIGHT", cs!"FULL"].all wordShape) = true := by decide
    exact all_mem this hw
  obtain ⟨e, hk⟩ := word_start h hs (blankFirst_notContinued hy)
  simp only [parse, run_lexeme, e]
  refine seqL_ok ?_ (andSpace_first hy)
  simp only [List.mem_cons, List.not_mem_nil, or_false] at hw
  rcases hw with rfl | rfl | rfl
  · exact alt_left (kw_start hk)
  · exact (alt_right (kw_none hk.bare (hk.none (by decide)))).trans (alt_left (kw_start hk))
  · exact (alt_right (kw_none hk.bare (hk.none (by decide)))).trans
      ((alt_right (kw_none hk.bare (hk.none (by decide)))).trans (kw_start hk))

/-- the words of an optional join type -/
theorem jtype_start {i : Bool} {y j j' z : Str} {ty : JoinType} (h : JTypeT i y ty) (hj : Word cs!"JOIN" j j') (hz : NotContinued z) :
    BlankFirst (y ++ (j ++ z)) ∧ Ends (if i then [cs!"INNER"] else [cs!"LEFT", cs!"RIGHT", cs!"FULL", cs!"JOIN"]) (y ++ (j ++ z)) := by
  have hbj : BlankFirst (j ++ z) := blankFirst_append hj.2
  cases h with
  | none => exact ⟨hbj, .inr ⟨_, j, j', z, by decide, hj, hz, rfl⟩⟩
  | inner h => exact ⟨blankFirst_append h.2, .inr ⟨_, _, _, j ++ z, by decide, h, blankFirst_notContinued hbj, rfl⟩⟩
  | outer h hu =>
    obtain ⟨w, hw, h⟩ := h
    rw [List.append_assoc]
    refine ⟨blankFirst_append h.2, .inr ⟨w, _, _, _, ?_, h, ?_, rfl⟩⟩
    · exact (by decide : ∀ w ∈ [cs!"LEFT", cs!"RIGHT", cs!"FULL"], w ∈ [cs!"LEFT", cs!"RIGHT", cs!"FULL", cs!"JOIN"]) w hw
    · cases hu with
      | none => exact blankFirst_notContinued hbj
      | some h' => exact blankFirst_notContinued' h'.2

theorem jtype_ok {i : Bool} {y j j' z : Str} {ty : JoinType} (h : JTypeT i y ty) (hj : Word cs!"JOIN" j j') (hz : BlankFirst z) :
    parse cfg (seqL (optD (.str []) joinType) (word cs!"JOIN")) true (y ++ (j ++ z)) = .ok ty z := by
  have hbj : BlankFirst (j ++ z) := blankFirst_append hj.2
  obtain ⟨e, hk⟩ := word_start hj (by decide) (blankFirst_notContinued hz)
  have hw := word_ok (cfg := cfg) hj.1 (by decide) hz
  cases h with
  | none =>
    refine seqL_ok (optD_none (joinType_fail' ?_)) hw
    rw [List.nil_append, e]
    exact hk.apart (by decide)
  | inner h => exact seqL_ok (optD_ok (alt_left (map_ok (word_ok h.1 (by decide) hbj)))) hw
  | @outer s t u b h hu =>
    rw [List.append_assoc]
    have hb2 : BlankFirst (u ++ (j ++ z)) := by
      cases hu with
      | none => exact hbj
      | some h => exact blankFirst_append h.2
    have hinner : Apart cs!"INNER" (skip true (s ++ (u ++ (j ++ z)))) := by
      obtain ⟨w, hw, h⟩ := h
      have : ([cs!"LEFT", cs!"RIGHT", cs!"FULL"].all fun w => wordShape w && offAll [cs!"INNER"] w) = true := by decide
      have := all_mem this hw
      rw [Bool.and_eq_true] at this
      obtain ⟨e, hk⟩ := word_start h this.1 (blankFirst_notContinued hb2)
      rw [e]; exact hk.apart this.2 _ (by simp)
    have ho : parse cfg (optD false (.map (fun _ => true) (word cs!"OUTER"))) true (u ++ (j ++ z)) = .ok b (j ++ z) := by
      cases hu with
      | none =>
        refine optD_none (map_fail (word_fail ?_))
        rw [List.nil_append, e]
        exact hk.apart (ws := [cs!"OUTER"]) (by decide) _ (by simp)
      | some h => exact optD_ok (map_ok (f := fun _ => true) (word_ok h.1 (by decide) hbj))
    exact seqL_ok (optD_ok ((alt_right (map_fail (word_fail hinner))).trans
      (map_ok (f := fun x : Str × Bool => JoinType.outer x.1 x.2) (seq_ok (outerKw_ok h hb2) ho)))) hw

theorem good_suf {n y j j' t p : Str} {b i k k' o : Bool} {ty : JoinType} {x : TR} {sp : JoinSpec} (hn : NatT n b)
    (hy : JTypeT i y ty) (hj : Word cs!"JOIN" j j') (hb : BlankFirst t) (ht : GoodTab cfg k t x)
    (hp : GoodSpec cfg k' o p sp) (hk : k' = false → k = false) :
    GoodSuf cfg (i && !b) k' o (n ++ (y ++ (j ++ (t ++ p)))) (.mk b ty x sp) := by
  have hz : ∀ r, BlankFirst (t ++ (p ++ r)) := fun r => blankFirst_append hb
  have hst := fun r => jtype_start hy hj (blankFirst_notContinued (hz r))
  refine ⟨fun r => ?_, fun r hr => ?_⟩ <;> simp only [List.append_assoc]
  · cases hn with
    | none =>
      refine ends_mono ?_ (hst r).2
      cases i <;> decide
    | some h =>
      refine .inr ⟨_, _, _, _, ?_, h, blankFirst_notContinued (hst r).1, rfl⟩
      cases i <;> decide
  · have hnat : parse cfg (optD false (.map (fun _ => true) (word cs!"NATURAL"))) true (n ++ (y ++ (j ++ (t ++ (p ++ r))))) =
        .ok b (y ++ (j ++ (t ++ (p ++ r)))) := by
      cases hn with
      | none =>
        refine optD_none (map_fail (word_fail ?_))
        rw [List.nil_append]
        have := (hst r).2
        cases i
        · exact ends_apart (by decide) this (by decide)
        · exact ends_apart (by decide) this (by decide)
      | some h => exact optD_ok (map_ok (f := fun _ => true) (word_ok h.1 (by decide) (hst r).1))
    have htab : Ends (tabWords k) (p ++ r) := by
      have := hp.start r hr
      cases k'
      · rw [hk rfl]; exact this
      · cases k
        · exact ends_mono (by decide) this
        · exact this
    exact map_ok (f := fun x : Bool × JoinType × TR × JoinSpec => JoinSuffix.mk x.1 x.2.1 x.2.2.1 x.2.2.2)
      (seq_ok hnat (seq_ok (jtype_ok hy hj (hz r)) (expect_ok (seq_ok (ht.run _ htab) (hp.run r hr)))))

/-- a table without specification in front of another one -/
theorem good_sufs_bare {n y j j' t u : Str} {b i i' k : Bool} {ty : JoinType} {x : TR} {l : List JoinSuffix} (hn : NatT n b)
    (hy : JTypeT i y ty) (hj : Word cs!"JOIN" j j') (hb : BlankFirst t) (ht : GoodTab cfg false t x)
    (hx : takesJoin x = false) (hu : GoodSufs cfg i' k u l) :
    GoodSufs cfg (i && !b) k ((n ++ (y ++ (j ++ t))) ++ u) (.mk b ty x JoinSpec.dflt :: l) := by
  have hz : ∀ r, BlankFirst (t ++ (u ++ r)) := fun r => blankFirst_append hb
  have hst := fun r => jtype_start hy hj (blankFirst_notContinued (hz r))
  have h1 : ∀ r, parse cfg joinSuffix true (n ++ (y ++ (j ++ (t ++ (u ++ r))))) = .ok (.mk b ty x JoinSpec.dflt) (u ++ r) := by
    intro r
    have hnat : parse cfg (optD false (.map (fun _ => true) (word cs!"NATURAL"))) true (n ++ (y ++ (j ++ (t ++ (u ++ r))))) =
        .ok b (y ++ (j ++ (t ++ (u ++ r)))) := by
      cases hn with
      | none =>
        refine optD_none (map_fail (word_fail ?_))
        rw [List.nil_append]
        have := (hst r).2
        cases i
        · exact ends_apart (by decide) this (by decide)
        · exact ends_apart (by decide) this (by decide)
      | some h => exact optD_ok (map_ok (f := fun _ => true) (word_ok h.1 (by decide) (hst r).1))
    have he := hu.start r
    have hsp : parse cfg (optD JoinSpec.dflt joinSpecification) true (u ++ r) = .ok JoinSpec.dflt (u ++ r) := by
      have hw : ∀ w ∈ [cs!"ON", cs!"USING"], Apart w (skip true (u ++ r)) := by
        intro w hw
        have : ([cs!"ON", cs!"USING"].all fun w => startsLetter w && (sufWords true).all fun w' => offAll [w] w') = true := by decide +kernel
        exact ends_apart (ws := sufWords true) (by decide) (ends_mono (by cases i' <;> decide) he) (all_mem this hw)
      exact optD_none (alt_fail (map_fail (seqR_fail (word_fail (hw _ (by simp)))))
        (map_fail (seqR_fail (seq_fail (word_fail (hw _ (by simp)))))))
    exact map_ok (f := fun x : Bool × JoinType × TR × JoinSpec => JoinSuffix.mk x.1 x.2.1 x.2.2.1 x.2.2.2)
      (seq_ok hnat (seq_ok (jtype_ok hy hj (hz r)) (expect_ok (seq_ok (ht.bare hx _ (ends_mono sufWords_after he)) hsp))))
  refine ⟨fun r => ?_, fun r hr => ?_, fun r hr => ?_⟩ <;> simp only [List.append_assoc]
  · cases hn with
    | none =>
      refine ends_mono ?_ (hst r).2
      cases i <;> decide
    | some h =>
      refine .inr ⟨_, _, _, _, ?_, h, blankFirst_notContinued (hst r).1, rfl⟩
      cases i <;> decide
  · exact map_ok (f := fun x : JoinSuffix × List JoinSuffix => x.1 :: x.2) (seq_ok (h1 r) (hu.star r hr))
  · exact star_cons (by simp) (h1 r) (hu.star r hr)

end Adql.Fwd
