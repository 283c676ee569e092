import Verif.Peg.Spacing
import Verif.Peg.Closed
import Verif.Peg.Fold
import Verif.Spec.Spacing
import Verif.Props.Identifiers
import Verif.Props.Literals
import Verif.Props.Geometry

/-!
# The grammar on texts that differ only in the blanks between their tokens

Rule by rule: `Sp` (Peg/Spacing.lean) holds with the relation `Respaced`.
-/

namespace Adql

open P Spec

/-! ### The relation -/

/-- neither a blank nor a quote -/
def tokC (c : Char) : Bool := !isSpace c && c != '\'' && c != '"'

theorem tokC_iff {c : Char} : tokC c = true ↔ isSpace c = false ∧ c ≠ '\'' ∧ c ≠ '"' := by
  simp [tokC, and_assoc]

theorem delimited_cons {q : Str} (h : Delimited q) : ∃ q', q = '"' :: q' := by
  obtain ⟨b, rfl, _, _⟩ := h; exact ⟨_, rfl⟩

theorem strLit_cons {q : Str} (h : StrLit q) : ∃ q', q = '\'' :: q' := by
  obtain ⟨p, u, rfl, ⟨b, rfl, _⟩, _⟩ := h; exact ⟨_, rfl⟩

theorem dropWhile_first {s : Str} (h : ∀ c u, s = c :: u → isSpace c = false) :
    s.dropWhile isSpace = s := by
  cases s with
  | nil => rfl
  | cons c s => simp [h c s rfl]

/-- The first characters agree: both are blanks, or they are the same. -/
theorem rs_head {s t : Str} (h : Respaced s t) : (s = [] ∧ t = []) ∨
    ∃ c s' d t', s = c :: s' ∧ t = d :: t' ∧
      ((isSpace c = true ∧ isSpace d = true) ∨ (c = d ∧ isSpace c = false)) := by
  cases h with
  | nil => exact .inl ⟨rfl, rfl⟩
  | chr h1 _ _ _ _ => exact .inr ⟨_, _, _, _, rfl, rfl, .inr ⟨rfl, h1⟩⟩
  | @blanks b b' _ _ h1 h2 h3 h4 _ _ _ =>
    cases b with
    | nil => exact absurd rfl h1
    | cons c b =>
      cases b' with
      | nil => exact absurd rfl h2
      | cons d b' =>
        exact .inr ⟨_, _, _, _, rfl, rfl, .inl ⟨h3 c List.mem_cons_self, h4 d List.mem_cons_self⟩⟩
  | name h1 _ _ _ =>
    obtain ⟨q, rfl⟩ := delimited_cons h1
    exact .inr ⟨_, _, _, _, rfl, rfl, .inr ⟨rfl, by decide⟩⟩
  | str h1 _ _ _ =>
    obtain ⟨q, rfl⟩ := strLit_cons h1
    exact .inr ⟨_, _, _, _, rfl, rfl, .inr ⟨rfl, by decide⟩⟩

/-- Skipping the blanks. -/
theorem rs_skip (k : Bool) (s t : Str) (h : Respaced s t) : Respaced (skip k s) (skip k t) := by
  cases k with
  | false => exact h
  | true =>
    simp only [skip, if_true]
    cases h with
    | nil => exact .nil
    | chr h1 h2 h3 h4 h5 =>
      rw [dropWhile_first (by rintro _ _ ⟨⟩; exact h1), dropWhile_first (by rintro _ _ ⟨⟩; exact h1)]
      exact .chr h1 h2 h3 h4 h5
    | blanks h1 h2 h3 h4 h5 h6 h7 =>
      rw [dropWhile_blanks h3, dropWhile_blanks h4, dropWhile_first h5, dropWhile_first h6]
      exact h7
    | name h1 h2 h3 h4 =>
      obtain ⟨q, rfl⟩ := delimited_cons h1
      rw [dropWhile_first (by rintro _ _ ⟨⟩; decide), dropWhile_first (by rintro _ _ ⟨⟩; decide)]
      exact .name h1 h2 h3 h4
    | str h1 h2 h3 h4 =>
      obtain ⟨q, rfl⟩ := strLit_cons h1
      rw [dropWhile_first (by rintro _ _ ⟨⟩; decide), dropWhile_first (by rintro _ _ ⟨⟩; decide)]
      exact .str h1 h2 h3 h4

/-- A character that is neither a blank nor a quote. -/
theorem rs_cons {c : Char} {s t : Str} (h : Respaced (c :: s) t) (hc : tokC c = true) :
    ∃ t', t = c :: t' ∧ Fixed (c :: s) (c :: t') ∧ Respaced s t' := by
  obtain ⟨h1, h2, h3⟩ := tokC_iff.1 hc
  generalize hx : c :: s = x at h
  cases h with
  | nil => cases hx
  | chr _ _ _ h4 h5 => obtain ⟨rfl, rfl⟩ := List.cons.inj hx; exact ⟨_, rfl, h4, h5⟩
  | @blanks b _ _ _ h4 _ h5 _ _ _ _ =>
    cases b with
    | nil => exact absurd rfl h4
    | cons d b =>
      obtain ⟨rfl, _⟩ := List.cons.inj hx
      rw [h5 c List.mem_cons_self] at h1; cases h1
  | name h4 _ _ _ =>
    obtain ⟨q, rfl⟩ := delimited_cons h4
    exact absurd (List.cons.inj hx).1 h3
  | str h4 _ _ _ =>
    obtain ⟨q, rfl⟩ := strLit_cons h4
    exact absurd (List.cons.inj hx).1 h2

theorem respaced_symm_head {c : Char} {s t : Str} (h : Respaced s (c :: t)) (hc : tokC c = true) :
    ∃ s', s = c :: s' ∧ Respaced s' t := by
  obtain ⟨h1, h2, h3⟩ := tokC_iff.1 hc
  rcases rs_head h with ⟨_, e⟩ | ⟨d, s', _, t', rfl, e, hd⟩
  · cases e
  · obtain ⟨rfl, rfl⟩ := List.cons.inj e
    rcases hd with ⟨_, hd⟩ | ⟨rfl, _⟩
    · rw [h1] at hd; cases hd
    · obtain ⟨t'', e, _, h5⟩ := rs_cons h hc
      obtain ⟨_, rfl⟩ := List.cons.inj e
      exact ⟨s', rfl, h5⟩

/-! ### Characters and literals -/

/-- The calls that occur: only `tap_upload` is called where blanks are not skipped. -/
def SpW (n : Rule) (k : Bool) : Prop := k = true ∨ n = .tap

variable {α β : Type} {sk : Bool}

/-- `Sp` for the grammar -/
abbrev SpG (sk : Bool) (p : G α) : Prop := Sp Respaced SpW sk p

theorem SpG.lexeme {p : G α} (hp : SpG false p) : SpG sk (.lexeme p) := Sp.lexeme rs_skip hp

theorem rsp_chr {f : Char → Bool} (hf : ∀ c, f c = true → tokC c = true) : SpG sk (.chr f) := by
  intro rec _ s t e
  have e1 := rs_skip sk s t e
  simp only [step]
  rcases rs_head e1 with ⟨e2, e3⟩ | ⟨c, s', d, t', e2, e3, h⟩
  · rw [e2, e3]; exact .fail
  · rw [e2, e3] at e1 ⊢
    dsimp only
    cases hc : f c with
    | true =>
      obtain ⟨t'', e4, _, e5⟩ := rs_cons e1 (hf c hc)
      obtain ⟨rfl, rfl⟩ := List.cons.inj e4
      rw [hc]; exact .ok e5
    | false =>
      cases hd : f d with
      | false => exact .fail
      | true =>
        have hpd := hf d hd
        rcases h with ⟨_, h⟩ | ⟨rfl, _⟩
        · rw [(tokC_iff.1 hpd).1] at h; cases h
        · rw [hc] at hd; cases hd

/-- A test whose result is the same for all blanks. -/
theorem rsp_look {f : Char → Bool} {a : α} (hf : ∀ c d, isSpace c = true → isSpace d = true → f c = f d) :
    SpG sk (.map (fun _ => a) (.andP (.chr f))) := by
  intro rec _ s t e
  have e1 := rs_skip sk s t e
  simp only [step]
  rcases rs_head e1 with ⟨e2, e3⟩ | ⟨c, s', d, t', e2, e3, h⟩
  · rw [e2, e3]; exact .fail
  · rw [e2, e3] at e1 ⊢
    have : f c = f d := by
      rcases h with ⟨h, h'⟩ | ⟨rfl, _⟩
      · exact hf c d h h'
      · rfl
    dsimp only
    rw [this]
    cases f d with
    | true => exact .ok e
    | false => exact .fail

/-- Matching a literal without blanks and quotes. -/
theorem rs_lit {ci : Bool} : ∀ {w s t : Str}, (∀ c d, c ∈ w → (c == d || (ci && lowerC c == lowerC d)) = true →
      tokC d = true) → Respaced s t →
    (∃ k r u, matchLit ci w s = some (k, r) ∧ matchLit ci w t = some (k, u) ∧ s = k ++ r ∧
      t = k ++ u ∧ Respaced r u ∧ ∀ c ∈ k, tokC c = true) ∨
    (matchLit ci w s = none ∧ matchLit ci w t = none)
  | [], s, t, _, e => .inl ⟨[], s, t, rfl, rfl, rfl, rfl, e, by simp⟩
  | c :: w, s, t, hw, e => by
    rcases rs_head e with ⟨rfl, rfl⟩ | ⟨d, s', d', t', rfl, rfl, h⟩
    · exact .inr ⟨rfl, rfl⟩
    · simp only [matchLit]
      cases hc : (c == d || (ci && lowerC c == lowerC d)) with
      | true =>
        have hp := hw c d List.mem_cons_self hc
        obtain ⟨u, e4, _, e5⟩ := rs_cons e hp
        obtain ⟨rfl, rfl⟩ := List.cons.inj e4
        rw [hc]
        rcases rs_lit (fun c d h => hw c d (List.mem_cons_of_mem _ h)) e5 with
          ⟨k, r, u, h1, h2, rfl, rfl, h5, h6⟩ | ⟨h1, h2⟩
        · refine .inl ⟨d' :: k, r, u, ?_, ?_, rfl, rfl, h5, ?_⟩
          · simp [h1]
          · simp [h2]
          · simp only [List.mem_cons, forall_eq_or_imp]
            exact ⟨hp, h6⟩
        · exact .inr (by simp [h1, h2])
      | false =>
        refine .inr ⟨by simp, ?_⟩
        cases hd : (c == d' || (ci && lowerC c == lowerC d')) with
        | false => simp
        | true =>
          have hp := hw c d' List.mem_cons_self hd
          rcases h with ⟨_, h⟩ | ⟨rfl, _⟩
          · rw [(tokC_iff.1 hp).1] at h; cases h
          · rw [hc] at hd; cases hd

/-- folding the case does not make blanks or quotes -/
theorem tokC_lower {c d : Char} (h : lowerC c = lowerC d) : tokC c = tokC d := by
  have e : ∀ c, tokC (lowerC c) = tokC c := by
    intro c
    unfold lowerC
    split
    · next h =>
      simp only [Bool.and_eq_true, decide_eq_true_eq] at h
      have h1 : (Char.ofNat (c.toNat + 32)).toNat = c.toNat + 32 := by
        have hv : (c.toNat + 32).isValidChar := .inl (by omega)
        simp only [Char.ofNat, dif_pos hv]
        rfl
      have e : ∀ d : Char, d.toNat ≥ 65 → tokC d = true := by
        intro d hd
        have hne : d ≠ ' ' := by rintro rfl; exact absurd hd (by decide)
        have hne1 : d ≠ '\'' := by rintro rfl; exact absurd hd (by decide)
        have hne2 : d ≠ '"' := by rintro rfl; exact absurd hd (by decide)
        simp [tokC, isSpace, hne, hne1, hne2]; omega
      rw [e _ (by omega), e _ (by omega)]
    · rfl
  rw [← e c, ← e d, h]

theorem lit_plain {ci : Bool} {w : Str} (hw : w.all tokC = true) (c d : Char) (hc : c ∈ w)
    (h : (c == d || (ci && lowerC c == lowerC d)) = true) : tokC d = true := by
  have h1 := List.all_eq_true.1 hw c hc
  simp only [Bool.or_eq_true, Bool.and_eq_true, beq_iff_eq] at h
  rcases h with rfl | ⟨_, h⟩
  · exact h1
  · rw [← tokC_lower h]; exact h1

theorem rsp_lit {ci : Bool} {w : Str} (hw : w.all tokC = true) : SpG sk (.lit ci w) := by
  intro rec _ s t e
  simp only [step]
  rcases rs_lit (ci := ci) (lit_plain hw) (rs_skip sk s t e) with ⟨k, r, u, h1, h2, _, _, h3, _⟩ | ⟨h1, h2⟩
  · rw [h1, h2]; exact .ok h3
  · rw [h1, h2]; exact .fail

theorem tokc_code {c : Char} (h : c.toNat ≠ 32 ∧ ¬ (9 ≤ c.toNat ∧ c.toNat ≤ 13) ∧ c.toNat ≠ 39 ∧ c.toNat ≠ 34) :
    tokC c = true := by
  obtain ⟨h1, h2, h3, h4⟩ := h
  have hne : c ≠ ' ' := by rintro rfl; exact h1 rfl
  have hne1 : c ≠ '\'' := by rintro rfl; exact h3 rfl
  have hne2 : c ≠ '"' := by rintro rfl; exact h4 rfl
  simp [tokC, isSpace, hne, hne1, hne2]; omega

theorem tokc_digit (c : Char) (h : isDigit c = true) : tokC c = true := by
  simp only [isDigit, Bool.and_eq_true, decide_eq_true_eq] at h
  exact tokc_code (by omega)
theorem tokc_letter (c : Char) (h : isLetter c = true) : tokC c = true := by
  simp only [isLetter, Bool.or_eq_true, Bool.and_eq_true, decide_eq_true_eq] at h
  exact tokc_code (by omega)
theorem tokc_eq (d : Char) (hd : tokC d = true) (c : Char) (h : (c == d) = true) : tokC c = true := by
  rw [eq_of_beq h]; exact hd
theorem tokc_id (c : Char) (h : isIdChar c = true) : tokC c = true := by
  simp only [isIdChar, Bool.or_eq_true] at h
  rcases h with (h | h) | h
  · exact tokc_digit c h
  · exact tokc_letter c h
  · exact tokc_eq '_' (by decide) c h
theorem tokc_pqid (c : Char) (h : isPQIdChar c = true) : tokC c = true := by
  simp only [isPQIdChar, Bool.or_eq_true] at h
  rcases h with h | h
  · exact tokc_id c h
  · exact tokc_eq '.' (by decide) c h
theorem tokc_or {f g : Char → Bool} (hf : ∀ c, f c = true → tokC c = true)
    (hg : ∀ c, g c = true → tokC c = true) (c : Char) (h : (f c || g c) = true) : tokC c = true := by
  rcases Bool.or_eq_true _ _ ▸ h with h | h
  · exact hf c h
  · exact hg c h

/-! ### Helpers -/

theorem rsp_kw {w : Str} (hw : w.all tokC = true) : SpG sk (kw w) := rsp_lit hw
theorem rsp_sym {w : Str} (hw : w.all tokC = true) : SpG sk (sym w) := rsp_lit hw
theorem rsp_chS {f : Char → Bool} (hf : ∀ c, f c = true → tokC c = true) : SpG sk (chS f) :=
  Sp.map (rsp_chr hf)
theorem rsp_cat {p q : G Str} (hp : SpG sk p) (hq : SpG sk q) : SpG sk (cat p q) := Sp.map (Sp.seq hp hq)
theorem rsp_manyS {p : G Str} (hp : SpG sk p) : SpG sk (manyS p) := Sp.map (Sp.star hp)
theorem rsp_plusS {p : G Str} (hp : SpG sk p) : SpG sk (plusS p) := rsp_cat hp (rsp_manyS hp)
theorem rsp_optS {p : G Str} (hp : SpG sk p) : SpG sk (optS p) := Sp.optD hp
theorem rsp_failP : SpG sk failP := Sp.map (rsp_chr fun _ h => by cases h)
theorem rsp_anyKw : ∀ {ws : List Str}, (ws.all fun w => w.all tokC) = true → SpG sk (anyKw ws)
  | [], _ => rsp_failP
  | w :: ws, h => by
    simp only [List.all_cons, Bool.and_eq_true] at h
    exact Sp.alt (rsp_kw h.1) (rsp_anyKw h.2)
theorem rsp_andSpace : SpG sk andSpace := rsp_look fun c d hc hd => by rw [hc, hd]
theorem rsp_andNsSpace : SpG sk andNsSpace := by
  intro rec _ s t e
  have := rsp_andSpace (sk := false) rec (by assumption) s t e
  exact this
theorem rsp_andNonId : SpG sk andNonId := rsp_look fun c d hc hd => by
  have h : ∀ c, isSpace c = true → isIdChar c = false := by
    intro c hc
    cases h : isIdChar c with
    | false => rfl
    | true => rw [(tokC_iff.1 (tokc_id c h)).1] at hc; cases hc
  rw [h c hc, h d hd]
theorem rsp_word {w : Str} (hw : w.all tokC = true) : SpG sk (word w) :=
  .lexeme (Sp.seqL (rsp_kw hw) rsp_andSpace)
theorem rsp_wordX {w : Str} (hw : w.all tokC = true) : SpG sk (wordX w) :=
  .lexeme (Sp.seqL (rsp_kw hw) (Sp.expect rsp_andSpace))
theorem rsp_ve : SpG true ve := Sp.nt (.inl rfl)
theorem rsp_venb : SpG true venb := Sp.nt (.inl rfl)
theorem rsp_sc : SpG true sc := Sp.nt (.inl rfl)
theorem rsp_subq : SpG true subq := Sp.nt (.inl rfl)
theorem rsp_jt : SpG true jt := Sp.nt (.inl rfl)
theorem rsp_tr : SpG true tr := Sp.nt (.inl rfl)
theorem rsp_tap : SpG sk tap := Sp.nt (.inr rfl)

/-! ### Quoted texts -/

theorem rsp_delimited : SpG sk delimitedIdentifier := by
  suffices h : ∀ s t, Respaced s t → RR Respaced (parse ⟨fun _ => none, false⟩ delimitedIdentifier false s)
      (parse ⟨fun _ => none, false⟩ delimitedIdentifier false t) by
    intro rec _ s t e
    have := h _ _ (rs_skip sk s t e)
    rw [parse, parse, step_closed (rec' := rec) delimitedIdentifier rfl,
      step_closed (rec' := rec) delimitedIdentifier rfl] at this
    exact this
  intro s t e
  have hf : ∀ s : Str, (∀ u, s ≠ '"' :: u) →
      parse ⟨fun _ => none, false⟩ delimitedIdentifier false s = .fail := by
    intro s hs
    refine C06_otherwise_fails _ _ _ fun a r h => ?_
    obtain ⟨b, rfl, ⟨_, hb⟩, ha, _⟩ := (C06_delimited_identifier _ _ _ _ _).1 h
    obtain rfl := hb rfl
    obtain ⟨q, rfl⟩ := delimited_cons ha
    exact hs _ rfl
  by_cases hq : ∃ u, s = '"' :: u
  · obtain ⟨u, rfl⟩ := hq
    generalize hx : '"' :: u = x at e
    cases e with
    | nil => cases hx
    | chr _ _ h _ _ => exact absurd (List.cons.inj hx).1.symm h
    | @blanks b _ _ _ h4 _ h5 _ _ _ _ =>
      cases b with
      | nil => exact absurd rfl h4
      | cons d b =>
        have := h5 d List.mem_cons_self
        rw [← (List.cons.inj hx).1] at this; cases this
    | name h4 h5 h6 h7 =>
      have hd : ∀ {q s : Str}, Delimited q → NotHead '"' s →
          parse ⟨fun _ => none, false⟩ delimitedIdentifier false (q ++ s) = .ok q s := fun h h' =>
        (C06_delimited_identifier _ _ _ _ _).2 ⟨[], rfl, ⟨by simp, fun _ => rfl⟩, h, h'⟩
      rw [hd h4 h5, hd h4 h6]
      exact .ok h7
    | str h4 _ _ _ =>
      obtain ⟨q, rfl⟩ := strLit_cons h4
      exact absurd (List.cons.inj hx).1 (by decide)
  · rw [hf s fun u hu => hq ⟨u, hu⟩, hf t fun u hu => ?_]
    · exact .fail
    · subst hu
      rcases rs_head e with ⟨_, h⟩ | ⟨c, s', d, t', rfl, h, h'⟩
      · cases h
      · obtain ⟨rfl, rfl⟩ := List.cons.inj h
        rcases h' with ⟨_, h'⟩ | ⟨rfl, _⟩
        · cases h'
        · exact hq ⟨_, rfl⟩

/-- A text whose first character is a single quote. -/
theorem rs_quote {s t : Str} (h : Respaced ('\'' :: s) t) : ∃ q s' t', '\'' :: s = q ++ s' ∧ t = q ++ t' ∧
    StrLit q ∧ StrEnds s' ∧ StrEnds t' ∧ Respaced s' t' := by
  generalize hx : '\'' :: s = x at h
  cases h with
  | nil => cases hx
  | chr _ h _ _ _ => exact absurd (List.cons.inj hx).1.symm h
  | @blanks b _ _ _ h4 _ h5 _ _ _ _ =>
    cases b with
    | nil => exact absurd rfl h4
    | cons d b =>
      have := h5 d List.mem_cons_self
      rw [← (List.cons.inj hx).1] at this; cases this
  | str h4 h5 h6 h7 => exact ⟨_, _, _, rfl, rfl, h4, h5, h6, h7⟩
  | name h4 _ _ _ =>
    obtain ⟨q, rfl⟩ := delimited_cons h4
    exact absurd (List.cons.inj hx).1 (by decide)

/-- Both texts start with a single quote, or none. -/
theorem rs_notQuote {s t : Str} (h : Respaced s t) (hs : ∀ u, s ≠ '\'' :: u) : ∀ u, t ≠ '\'' :: u := by
  rintro u rfl
  rcases rs_head h with ⟨_, h⟩ | ⟨c, s', d, t', rfl, h, h'⟩
  · cases h
  · obtain ⟨rfl, rfl⟩ := List.cons.inj h
    rcases h' with ⟨_, h'⟩ | ⟨rfl, _⟩
    · cases h'
    · exact hs _ rfl

theorem rsp_charString : SpG sk charString := by
  suffices h : ∀ s t, Respaced s t → RR Respaced (parse ⟨fun _ => none, false⟩ charString false s)
      (parse ⟨fun _ => none, false⟩ charString false t) by
    intro rec _ s t e
    have := h _ _ (rs_skip sk s t e)
    rw [parse, parse, step_closed (rec' := rec) charString rfl,
      step_closed (rec' := rec) charString rfl] at this
    exact this
  intro s t e
  have hf : ∀ s : Str, (∀ u, s ≠ '\'' :: u) →
      parse ⟨fun _ => none, false⟩ charString false s = .fail := by
    intro s hs
    refine C07_otherwise_fails _ _ _ fun a r h => ?_
    obtain ⟨b, rfl, ⟨_, hb⟩, ha, _⟩ := (C07_string_literal _ _ _ _ _).1 h
    obtain rfl := hb rfl
    obtain ⟨q, rfl⟩ := strLit_cons ha
    exact hs _ rfl
  by_cases hq : ∃ u, s = '\'' :: u
  · obtain ⟨u, rfl⟩ := hq
    obtain ⟨q, s', t', e1, rfl, h1, h2, h3, h4⟩ := rs_quote e
    have hd : ∀ {q s : Str}, StrLit q → StrEnds s →
        parse ⟨fun _ => none, false⟩ charString false (q ++ s) = .ok q s := fun h h' =>
      (C07_string_literal _ _ _ _ _).2 ⟨[], rfl, ⟨by simp, fun _ => rfl⟩, h, h'.1, h'.2⟩
    rw [e1, hd h1 h2, hd h1 h3]
    exact .ok h4
  · have hq' : ∀ u, s ≠ '\'' :: u := fun u hu => hq ⟨u, hu⟩
    rw [hf s hq', hf t (rs_notQuote e hq')]
    exact .fail

/-! ### Coordinate systems -/

/-- the text up to the closing quote of a coordinate system -/
theorem sysText_body {u : Str} {c : CoordSys} (h : SysText u c) :
    ∃ x, u = '\'' :: (x ++ ['\'']) ∧ '\'' ∉ x := by
  obtain @⟨b₁, f, b₂, p, b₃, fr, po, h₁, hf, h₂, hp, h₃⟩ := h
  refine ⟨b₁ ++ (f ++ (b₂ ++ (p ++ b₃))), by simp, ?_⟩
  have hb : ∀ b : Str, (∀ c ∈ b, isSpace c = true) → '\'' ∉ b := fun b h h' => by
    have := h _ h'; cases this
  have hci : ∀ {t w : Str}, SameCI t w → w.all tokC = true → '\'' ∉ t := by
    intro t w h hw ht
    obtain ⟨c, hc, hl⟩ := List.mem_map.1 (h ▸ List.mem_map_of_mem (f := lowerC) ht : lowerC '\'' ∈ w.map lowerC)
    have h1 := List.all_eq_true.1 hw c hc
    rw [tokC_lower hl] at h1
    cases h1
  have hf' : '\'' ∉ f := by
    cases hf with
    | none => simp
    | icrs h => exact hci h (by decide)
    | j2000 h => exact hci h (by decide)
    | galactic h => exact hci h (by decide)
  have hp' : '\'' ∉ p := by
    cases hp with
    | none => simp
    | geocenter h => exact hci h (by decide)
  simp only [List.mem_append, not_or]
  exact ⟨hb _ h₁, hf', hb _ h₂, hp', hb _ h₃⟩

/-- the first quote of a text -/
theorem first_quote {x r : Str} : ∀ {y z : Str}, '\'' ∉ x → '\'' ∈ y → x ++ '\'' :: r = y ++ z →
    ∃ y', y = x ++ '\'' :: y' ∧ r = y' ++ z := by
  induction x with
  | nil =>
    intro y z _ hy e
    cases y with
    | nil => simp at hy
    | cons c y =>
      obtain ⟨rfl, rfl⟩ := List.cons.inj e
      exact ⟨y, rfl, rfl⟩
  | cons d x ih =>
    intro y z hx hy e
    cases y with
    | nil => simp at hy
    | cons c y =>
      obtain ⟨rfl, e2⟩ := List.cons.inj e
      simp only [List.mem_cons, not_or] at hx
      have hy' : '\'' ∈ y := by
        rcases List.mem_cons.1 hy with h | h
        · exact absurd h hx.1
        · exact h
      obtain ⟨y', rfl, h⟩ := ih hx.2 hy' e2
      exact ⟨y', rfl, h⟩

/-- no comma follows in the separators of a string literal -/
theorem seps_noComma {x : Str} (h : Seps x) : ∀ (y : Str), (∀ u, y.dropWhile isSpace ≠ ',' :: u) →
    ∀ u, (x ++ y).dropWhile isSpace ≠ ',' :: u := by
  have h1 : ∀ {x : Str}, Sep x → ∀ (y : Str), (∀ u, y.dropWhile isSpace ≠ ',' :: u) →
      ∀ u, (x ++ y).dropWhile isSpace ≠ ',' :: u := by
    intro x h y hy u
    cases h with
    | blank => exact hy u
    | newline => exact hy u
    | comment => simp [show isSpace '-' = false from by decide]
  induction h with
  | one h => exact h1 h
  | cons h _ ih =>
    intro y hy u
    rw [List.append_assoc]
    exact h1 h _ (ih y hy) u

/-- What is left of a string literal after a quote inside it does not continue with a comma. -/
theorem strLit_rest {q x y : Str} (h : StrLit q) (hx : '\'' ∉ x) (e0 : q = '\'' :: (x ++ '\'' :: y)) (hy : y ≠ []) :
    ∀ (z u : Str), (y ++ z).dropWhile isSpace ≠ ',' :: u := by
  intro z u
  obtain ⟨p, v, rfl, ⟨b, rfl, hb⟩, hv⟩ := h
  have e : b ++ '\'' :: v = x ++ '\'' :: y := by simpa using e0
  by_cases hq : '\'' ∈ b
  · obtain ⟨b', rfl, e'⟩ := first_quote (z := '\'' :: v) hx hq e.symm
    have : ∃ b'', b' = '\'' :: b'' := by
      clear e0 e e' hq hv
      induction x with
      | nil => cases hb with
        | chr h _ => exact absurd rfl h
        | dbl _ => exact ⟨_, rfl⟩
      | cons c x ih =>
        simp only [List.mem_cons, not_or] at hx
        refine ih hx.2 ?_
        generalize hz : c :: x ++ '\'' :: b' = z at hb
        cases hb with
        | nil => cases hz
        | chr _ h => obtain ⟨_, rfl⟩ := List.cons.inj hz; exact h
        | dbl _ => exact absurd (List.cons.inj hz).1.symm hx.1
    obtain ⟨b'', rfl⟩ := this
    rw [e']
    simp [show isSpace '\'' = false from by decide]
  · obtain ⟨y', e1, e2⟩ := first_quote (y := x ++ ['\'']) (z := y) hq (by simp) (by simpa using e)
    have : y' = [] := by
      cases hy' : y' with
      | nil => rfl
      | cons c w =>
        exfalso
        have h1 : (x ++ ['\'']).getLast? = (b ++ '\'' :: y').getLast? := by rw [e1]
        obtain ⟨w', c', hw⟩ : ∃ w' c', y' = w' ++ [c'] := by
          refine ⟨y'.dropLast, y'.getLast (by rw [hy']; simp), ?_⟩
          exact (List.dropLast_concat_getLast _).symm
        rw [hw] at e1
        have e3 : x ++ ['\''] = (b ++ '\'' :: w') ++ [c'] := by rw [e1]; simp
        obtain ⟨e4, _⟩ := List.append_inj' e3 rfl
        exact hx (e4 ▸ by simp)
    subst this
    simp only [List.nil_append] at e2
    subst e2
    cases hv with
    | nil => exact absurd rfl hy
    | @cons xs ps t hs hp _ =>
      obtain ⟨pb, rfl, _⟩ := hp
      rw [List.append_assoc]
      exact seps_noComma hs _ (by simp [show isSpace '\'' = false from by decide]) u

theorem rsp_optCoordSys : SpG true optCoordSys := by
  let cfg : Config := ⟨fun _ => none, false⟩
  suffices h : ∀ s t, Respaced s t → RR Respaced (parse cfg optCoordSys true s)
      (parse cfg optCoordSys true t) by
    intro rec _ s t e
    have := h _ _ e
    rw [parse, parse, step_closed (rec' := rec) optCoordSys rfl,
      step_closed (rec' := rec) optCoordSys rfl] at this
    exact this
  intro s t e
  have e1 := rs_skip true s t e
  by_cases hq : ∃ u, skip true s = '\'' :: u
  · obtain ⟨u, hu⟩ := hq
    rw [hu] at e1
    obtain ⟨q, s', t', e2, e3, h1, h2, h3, h4⟩ := rs_quote e1
    -- the same coordinate system is read in both texts
    have key : ∀ {s s' t t' : Str}, skip true s = q ++ s' → skip true t = q ++ t' → ∀ c r,
        parse cfg coordSys true s = .ok c r → ∃ q', r = q' ++ s' ∧ parse cfg coordSys true t = .ok c (q' ++ t') ∧
          (q' ≠ [] → ∀ z u : Str, (q' ++ z).dropWhile isSpace ≠ ',' :: u) := by
      intro s s' t t' es et c r h
      obtain ⟨b, v, hb, rfl, hv⟩ := C35_only cfg s r c h
      obtain ⟨x, rfl, hx⟩ := sysText_body hv
      have es2 : '\'' :: (x ++ '\'' :: r) = q ++ s' := by
        rw [← es]
        simp only [skip, if_true]
        rw [dropWhile_blanks hb]
        simp [show isSpace '\'' = false from by decide]
      have hq' : ∃ q0, q = '\'' :: q0 ∧ '\'' ∈ q0 := by
        obtain ⟨p, w, rfl, ⟨b0, rfl, _⟩, _⟩ := h1
        exact ⟨b0 ++ ['\''] ++ w, by simp, by simp⟩
      obtain ⟨q0, rfl, hq0⟩ := hq'
      obtain ⟨q', rfl, rfl⟩ := first_quote hx hq0 (List.cons.inj es2).2
      refine ⟨q', rfl, ?_, fun hne => strLit_rest h1 hx rfl hne⟩
      obtain ⟨bt, hbt, hBt⟩ := skip_blank true t
      rw [hbt, et]
      have := C35_written cfg bt ('\'' :: (x ++ ['\''])) (q' ++ t') hBt.1 c hv
      simpa using this
    have hcalm := fun s => parse_calm (cfg := cfg) (p := coordSys) rfl (WF.wf_coordSys 4) true s
    have hunf : ∀ s, parse cfg optCoordSys true s =
        match parse cfg coordSys true s with
        | .ok c r => match (r.dropWhile isSpace : Str) with
          | ',' :: v => .ok c v
          | _ => .err (.expect "','" r)
        | .fail => .ok {} s
        | .err e => .err e
        | .oof => .oof := by
      intro s
      simp only [parse, optCoordSys, optD, seqL, step]
      cases step (D cfg) coordSys true s with
      | ok c r =>
        simp only [sym, step, skip, if_true]
        cases h : r.dropWhile isSpace with
        | nil => rfl
        | cons d v =>
          by_cases hd : d = ','
          · subst hd; rfl
          · have : (',' == d) = false := by simpa using fun h => hd h.symm
            simp only [matchLit, this, Bool.false_and, Bool.or_false, Bool.false_eq_true, if_false]
            split
            · next h => obtain ⟨rfl, _⟩ := List.cons.inj h; exact absurd rfl hd
            · rfl
      | fail => rfl
      | err e => rfl
      | oof => rfl
    rw [hunf s, hunf t]
    rcases hcalm s with ⟨c, r, hs⟩ | hs
    · obtain ⟨q', rfl, ht, hc⟩ := key (hu.trans e2) e3 c r hs
      rw [hs, ht]
      by_cases hq' : q' = []
      · subst hq'
        simp only [List.nil_append]
        have h5 := rs_skip true s' t' h4
        simp only [skip, if_true] at h5
        rcases rs_head h5 with ⟨h6, h7⟩ | ⟨d, v, d', v', h6, h7, h8⟩
        · rw [h6, h7]; exact .expect
        · rw [h6, h7] at h5 ⊢
          by_cases hd : d = ','
          · subst hd
            obtain ⟨v'', e6, _, e7⟩ := rs_cons h5 (by decide)
            obtain ⟨rfl, rfl⟩ := List.cons.inj e6
            exact .ok e7
          · have hd' : d' ≠ ',' := by
              rintro rfl
              rcases h8 with ⟨_, h8⟩ | ⟨rfl, _⟩
              · cases h8
              · exact hd rfl
            split
            · next h => obtain ⟨rfl, _⟩ := List.cons.inj h; exact absurd rfl hd
            · split
              · next h => obtain ⟨rfl, _⟩ := List.cons.inj h; exact absurd rfl hd'
              · exact .expect
      · dsimp only
        split
        · next h => exact absurd h (hc hq' _ _)
        · split
          · next h => exact absurd h (hc hq' _ _)
          · exact .expect
    · rcases hcalm t with ⟨c, r, ht⟩ | ht
      · obtain ⟨q', _, h, _⟩ := key e3 (hu.trans e2) c r ht
        rw [hs] at h; cases h
      · rw [hs, ht]; exact .ok e
  · have hq' : ∀ u, skip true s ≠ '\'' :: u := fun u hu => hq ⟨u, hu⟩
    rw [C35_missing cfg s hq', C35_missing cfg t (rs_notQuote e1 hq')]
    exact .ok e

/-! ### The rules that look at blanks -/

theorem litOK_sameCI {k w : Str} (h : LitOK true w k) : SameCI k w := litOK_ci.1 h

/-- a literal of the words copied with their blanks does not match -/
theorem rs_copied {s t : Str} (e : Respaced s t) {w : Str} (hw : w ∈ copiedWords) :
    matchLit true w s = none ∧ matchLit true w t = none := by
  have hp : w.all tokC = true := by
    simp only [copiedWords, List.mem_cons, List.not_mem_nil, or_false] at hw
    rcases hw with rfl | rfl <;> decide
  have hne : w ≠ [] := by
    simp only [copiedWords, List.mem_cons, List.not_mem_nil, or_false] at hw
    rcases hw with rfl | rfl <;> simp
  rcases rs_lit (ci := true) (lit_plain hp) e with ⟨k, r, u, h1, _, rfl, rfl, _, hk⟩ | h
  · exfalso
    obtain ⟨_, hl⟩ := matchLit_ok h1
    have hs := litOK_sameCI hl
    cases k with
    | nil =>
      have := congrArg List.length hs
      simp at this
      exact hne (List.length_eq_zero_iff.1 this.symm)
    | cons c k =>
      obtain ⟨t', _, hF, _⟩ := rs_cons e (hk c List.mem_cons_self)
      exact hF.copied w hw (c :: k) hs ⟨r, rfl⟩
  · exact h

/-- not-a-number, without an argument -/
theorem rsp_nan : SpG false (cat (kw cs!"nan") (optS (cat (chS (· == '('))
    (cat (manyS (chS (· != ')'))) (chS (· == ')')))))) := by
  intro rec _ s t e
  rcases rs_lit (ci := true) (w := cs!"nan") (lit_plain (by decide)) e with ⟨k, r, u, h1, h2, rfl, rfl, h3, _⟩ | ⟨h1, h2⟩
  · have hno : ∀ {k r : Str}, matchLit true cs!"nan" (k ++ r) = some (k, r) →
        matchLit true cs!"nan(" (k ++ r) = none → ∀ v, r ≠ '(' :: v := by
      rintro k r hm hn v rfl
      have hl := litOK_ci.1 (matchLit_ok hm).2
      have : matchLit true cs!"nan(" (k ++ '(' :: v) = some (k ++ ['('], v) :=
        matchLit_iff.2 ⟨by simp, litOK_ci.2 (by
          show (k ++ ['(']).map lowerC = (cs!"nan" ++ ['(']).map lowerC
          rw [List.map_append, List.map_append]
          congr 1)⟩
      rw [this] at hn; cases hn
    obtain ⟨c1, c2⟩ := rs_copied e (w := cs!"nan(") (by decide)
    have n1 := hno h1 c1
    have n2 := hno h2 c2
    have hz : ∀ {r : Str}, (∀ v, r ≠ '(' :: v) → step rec (optS (cat (chS (· == '('))
        (cat (manyS (chS (· != ')'))) (chS (· == ')'))))) false r = .ok [] r := by
      intro r hr
      cases r with
      | nil => rfl
      | cons c v =>
        have : (c == '(') = false := by
          simp only [beq_eq_false_iff_ne]; rintro rfl; exact hr v rfl
        simp only [optS, optD, cat, chS, step, skip, this, Bool.false_eq_true, if_false]
    have hk : ∀ {r : Str}, (∀ v, r ≠ '(' :: v) → matchLit true cs!"nan" (k ++ r) = some (k, r) →
        step rec (cat (kw cs!"nan") (optS (cat (chS (· == '('))
          (cat (manyS (chS (· != ')'))) (chS (· == ')')))))) false (k ++ r) = .ok (k ++ []) r := by
      intro r hr hm
      rw [cat]
      simp only [step, hz hr, kw, show ∀ x : Str, skip false x = x from fun _ => rfl, hm]
    rw [hk n1 h1, hk n2 h2]
    exact .ok h3
  · have hk : ∀ {s : Str}, matchLit true cs!"nan" s = none →
        step rec (cat (kw cs!"nan") (optS (cat (chS (· == '('))
          (cat (manyS (chS (· != ')'))) (chS (· == ')')))))) false s = .fail := by
      intro s hm
      rw [cat]
      simp only [step, kw, show ∀ x : Str, skip false x = x from fun _ => rfl, hm]
    rw [hk h1, hk h2]; exact .fail

theorem rsp_tableValuedFunction : SpG true tableValuedFunction := by
  intro rec _ s t e
  obtain ⟨c1, c2⟩ := rs_copied (rs_skip true s t e) (w := cs!"table(") (by decide)
  simp only [tableValuedFunction, seqR, kw, step, show ∀ x : Str, skip false x = x from fun _ => rfl, c1, c2]
  exact .fail

/-- One blank that is the same in both texts. -/
theorem rs_blank1 {c : Char} {s t : Str} (h : Respaced (c :: s) (c :: t)) (hc : isSpace c = true)
    (hs : ∀ d u, s = d :: u → isSpace d = false) (ht : ∀ d u, t = d :: u → isSpace d = false) :
    Respaced s t := by
  generalize hx : c :: s = x at h
  generalize hy : c :: t = y at h
  have hone : ∀ {b s v : Str}, b ≠ [] → (∀ d ∈ b, isSpace d = true) → c :: s = b ++ v →
      (∀ d u, s = d :: u → isSpace d = false) → v = s := by
    intro b s v h1 h2 h3 h4
    cases b with
    | nil => exact absurd rfl h1
    | cons d b =>
      obtain ⟨rfl, rfl⟩ := List.cons.inj h3
      cases b with
      | nil => rfl
      | cons d' b =>
        have := h4 _ _ rfl
        rw [h2 d' (by simp)] at this; cases this
  cases h with
  | nil => cases hx
  | chr h _ _ _ _ =>
    obtain ⟨rfl, _⟩ := List.cons.inj hx
    rw [hc] at h; cases h
  | blanks h1 h2 h3 h4 _ _ h5 =>
    obtain rfl := hone h1 h3 hx hs
    obtain rfl := hone h2 h4 hy ht
    exact h5
  | name h _ _ _ =>
    obtain ⟨q, rfl⟩ := delimited_cons h
    obtain ⟨rfl, _⟩ := List.cons.inj hx
    cases hc
  | str h _ _ _ =>
    obtain ⟨q, rfl⟩ := strLit_cons h
    obtain ⟨rfl, _⟩ := List.cons.inj hx
    cases hc

/-- Characters that are the same in both texts. -/
theorem rs_strip : ∀ {k r u : Str}, k.all tokC = true → Respaced (k ++ r) (k ++ u) → Respaced r u
  | [], _, _, _, h => h
  | c :: k, r, u, hk, h => by
    simp only [List.all_cons, Bool.and_eq_true] at hk
    obtain ⟨t', e, _, h5⟩ := rs_cons h hk.1
    obtain ⟨_, rfl⟩ := List.cons.inj e
    exact rs_strip hk.2 h5

theorem sameCI_all {k w : Str} (h : SameCI k w) (hw : w.all tokC = true) : k.all tokC = true := by
  rw [List.all_eq_true]
  intro c hc
  obtain ⟨d, hd, hl⟩ := List.mem_map.1 (h ▸ List.mem_map_of_mem (f := lowerC) hc : lowerC c ∈ w.map lowerC)
  rw [← tokC_lower hl]
  exact List.all_eq_true.1 hw d hd

/-- A union operator with a blank: the same text in both. -/
theorem rs_union {s t x : Str} (e : Respaced s t) (hx : cs!"UNION" ++ ' ' :: x ∈ unionWords)
    (hp : x.all tokC = true) (hxne : x ≠ []) :
    (∃ k r u, matchLit true (cs!"UNION" ++ ' ' :: x) s = some (k, r) ∧
      matchLit true (cs!"UNION" ++ ' ' :: x) t = some (k, u) ∧ Respaced r u) ∨
    (matchLit true (cs!"UNION" ++ ' ' :: x) s = none ∧ matchLit true (cs!"UNION" ++ ' ' :: x) t = none) := by
  generalize hw : cs!"UNION" ++ ' ' :: x = w at hx
  have main : ∀ k, LitOK true w k → ∀ r u, s = k ++ r → t = k ++ u → Respaced r u := by
    rintro k hl r u rfl rfl
    have hs := litOK_ci.1 hl
    subst hw
    -- the parts of the operator
    obtain ⟨k1, k2, rfl, h1, h2⟩ := List.map_eq_append_iff.1
      (hs.trans (List.map_append (f := lowerC) (l₁ := cs!"UNION") (l₂ := ' ' :: x)))
    obtain ⟨c, k3, rfl, h3, h4⟩ := List.map_eq_cons_iff.1 (h2.trans List.map_cons)
    have hk1 : k1.all tokC = true := sameCI_all (w := cs!"UNION") h1 (by decide)
    have hk3 : k3.all tokC = true := sameCI_all (w := x) h4 hp
    have hc : isSpace c = true := by
      have := space_sameCI h3
      rw [this]; decide
    have hk3ne : k3 ≠ [] := by
      rintro rfl
      cases x with
      | nil => exact hxne rfl
      | cons d x => simp at h4
    have e2 : Respaced (c :: (k3 ++ r)) (c :: (k3 ++ u)) := by
      have : Respaced (k1 ++ (c :: (k3 ++ r))) (k1 ++ (c :: (k3 ++ u))) := by simpa using e
      exact rs_strip hk1 this
    obtain ⟨d, k4, rfl⟩ : ∃ d k4, k3 = d :: k4 := by
      cases k3 with
      | nil => exact absurd rfl hk3ne
      | cons d k4 => exact ⟨d, k4, rfl⟩
    have hd : isSpace d = false := by
      simp only [List.all_cons, Bool.and_eq_true] at hk3
      exact (tokC_iff.1 hk3.1).1
    refine rs_strip hk3 (rs_blank1 e2 hc ?_ ?_)
    · rintro _ _ ⟨⟩; exact hd
    · rintro _ _ ⟨⟩; exact hd
  have hfix : ∀ k, LitOK true w k → (k <+: s ↔ k <+: t) := by
    intro k hl
    have hs := litOK_ci.1 hl
    rcases rs_head e with ⟨rfl, rfl⟩ | ⟨c, s', d, t', rfl, rfl, h⟩
    · exact Iff.rfl
    · by_cases hc : tokC c = true
      · obtain ⟨t'', e4, hF, _⟩ := rs_cons e hc
        rw [e4]
        exact hF.union w hx k hs
      · -- a blank or a quote: the operator starts with neither
        subst hw
        obtain ⟨k1, k2, rfl, h1, h2⟩ := List.map_eq_append_iff.1
          (hs.trans (List.map_append (f := lowerC) (l₁ := cs!"UNION") (l₂ := ' ' :: x)))
        have hk1 : k1.all tokC = true := sameCI_all (w := cs!"UNION") h1 (by decide)
        obtain ⟨a, k1, rfl⟩ : ∃ a k', k1 = a :: k' := by
          cases k1 with
          | nil => cases h1
          | cons a k' => exact ⟨a, k', rfl⟩
        simp only [List.all_cons, Bool.and_eq_true] at hk1
        constructor
        · rintro ⟨z, hz⟩
          obtain ⟨rfl, _⟩ := List.cons.inj hz
          exact absurd hk1.1 hc
        · rintro ⟨z, hz⟩
          obtain ⟨rfl, _⟩ := List.cons.inj hz
          rcases h with ⟨_, h⟩ | ⟨rfl, _⟩
          · rw [(tokC_iff.1 hk1.1).1] at h; cases h
          · exact absurd hk1.1 hc
  cases hm : matchLit true w s with
  | some x =>
    obtain ⟨k, r⟩ := x
    obtain ⟨rfl, hl⟩ := matchLit_ok hm
    obtain ⟨u, rfl⟩ := (hfix k hl).1 ⟨r, rfl⟩
    exact .inl ⟨k, r, u, rfl, matchLit_iff.2 ⟨rfl, hl⟩, main k hl r u rfl rfl⟩
  | none =>
    refine .inr ⟨rfl, ?_⟩
    cases hm' : matchLit true w t with
    | none => rfl
    | some x =>
      obtain ⟨k, u⟩ := x
      obtain ⟨rfl, hl⟩ := matchLit_ok hm'
      obtain ⟨r, rfl⟩ := (hfix k hl).2 ⟨u, rfl⟩
      rw [matchLit_iff.2 ⟨rfl, hl⟩] at hm; cases hm

theorem rsp_unionKw {x : Str} (hx : cs!"UNION" ++ ' ' :: x ∈ unionWords) (hp : x.all tokC = true)
    (hne : x ≠ []) : SpG sk (kw (cs!"UNION" ++ ' ' :: x)) := by
  intro rec _ s t e
  simp only [kw, step]
  rcases rs_union (rs_skip sk s t e) hx hp hne with ⟨k, r, u, h1, h2, h3⟩ | ⟨h1, h2⟩
  · rw [h1, h2]; exact .ok h3
  · rw [h1, h2]; exact .fail

theorem rsp_unionOp : SpG sk unionOp :=
  .lexeme (Sp.seqL (Sp.alt (rsp_unionKw (x := cs!"DISTINCT") (by decide) (by decide) (by decide))
    (Sp.alt (rsp_unionKw (x := cs!"ALL") (by decide) (by decide) (by decide)) (rsp_kw (by decide))))
    rsp_andSpace)

/-- The optional NOT of `in_predicate` and what follows it. -/
theorem rsp_notIn {X : G α} (hX : SpG true X) : SpG true (.seq inNot (seqR (wordX cs!"IN") X)) := by
  intro rec hrec s t e
  have hY : SpG true (seqR (wordX cs!"IN") X) := Sp.seqR (rsp_wordX (by decide)) hX
  have e1 := rs_skip true s t e
  simp only [step, inNot, optS, optD, cat, chS, kw]
  simp only [show ∀ x : Str, skip false x = x from fun _ => rfl]
  rcases rs_lit (ci := true) (w := cs!"NOT") (lit_plain (by decide)) e1 with
    ⟨n, r, u, h1, h2, h3, h4, h5, hn⟩ | ⟨h1, h2⟩
  · simp only [h1, h2]
    rcases rs_head h5 with ⟨rfl, rfl⟩ | ⟨c, r', d, u', rfl, rfl, h⟩
    · exact .expect
    · rcases h with ⟨hc, hd⟩ | ⟨rfl, hc⟩
      · simp only [hc, hd, if_true]
        -- the blanks after NOT
        have e2 := rs_skip true _ _ h5
        have k1 : skip true (c :: r') = skip true r' := by simp [skip, hc]
        have k2 : skip true (d :: u') = skip true u' := by simp [skip, hd]
        rw [k1, k2] at e2
        have hidem : ∀ x : Str, skip true (skip true x) = skip true x := by
          intro x
          simp only [skip, if_true]
          refine dropWhile_first fun c u h => ?_
          have := List.head_dropWhile_not isSpace (l := x) (by rw [h]; simp)
          simpa [h] using this
        have hcong : ∀ x : Str, step rec (seqR (wordX cs!"IN") X) true x =
            step rec (seqR (wordX cs!"IN") X) true (skip true x) := by
          intro x
          simp only [seqR, wordX, step, hidem]
        rw [hcong r', hcong u']
        by_cases hcd : c = d
        · subst hcd
          have h6 := hY rec hrec _ _ e2
          generalize step rec (seqR (wordX cs!"IN") X) true (skip true r') = y1 at h6 ⊢
          generalize step rec (seqR (wordX cs!"IN") X) true (skip true u') = y2 at h6 ⊢
          cases h6 with
          | ok e3 => exact .ok e3
          | fail => exact .fail
          | expect => exact .expect
          | noTable => exact .noTable
          | oofL => exact .oofL
          | oofR => exact .oofR
        · -- different blanks: IN does not follow
          have hno : matchLit true cs!"IN" (skip true r') = none := by
            cases hm : matchLit true cs!"IN" (skip true r') with
            | none => rfl
            | some x =>
              exfalso
              obtain ⟨i, z⟩ := x
              obtain ⟨e5, hl⟩ := matchLit_ok hm
              obtain ⟨b, hb, hB⟩ := skip_blank true r'
              cases n with
              | nil => have := litOK_ci.1 (matchLit_ok h1).2; cases this
              | cons n0 n =>
                rw [h3] at e1
                obtain ⟨t', e6, hF, _⟩ := rs_cons e1 (hn n0 List.mem_cons_self)
                have := hF.notIn (n0 :: n) c b i z (by rw [hb, e5]; rfl) (litOK_ci.1 (matchLit_ok h1).2) hc
                  hB.1 (litOK_ci.1 hl)
                rw [← e6, h4] at this
                obtain ⟨z', hz⟩ := this
                rw [List.append_assoc] at hz
                have := List.append_cancel_left hz
                exact hcd (List.cons.inj this).1
          have hno' : matchLit true cs!"IN" (skip true u') = none := by
            rcases rs_lit (ci := true) (w := cs!"IN") (lit_plain (by decide)) e2 with ⟨_, _, _, h, _⟩ | ⟨_, h⟩
            · rw [hno] at h; cases h
            · exact h
          have hfail : ∀ x : Str, matchLit true cs!"IN" (skip true x) = none →
              step rec (seqR (wordX cs!"IN") X) true (skip true x) = .fail := by
            intro x hx
            simp only [seqR, wordX, kw, seqL, step, hidem, show ∀ x : Str, skip false x = x from fun _ => rfl, hx]
          rw [hfail _ hno, hfail _ hno']
          exact .fail
      · simp only [hc]
        exact .expect
  · simp only [h1, h2]
    have h6 := hY rec hrec _ _ e
    generalize step rec (seqR (wordX cs!"IN") X) true s = y1 at h6 ⊢
    generalize step rec (seqR (wordX cs!"IN") X) true t = y2 at h6 ⊢
    cases h6 with
    | ok e3 => exact .ok e3
    | fail => exact .fail
    | expect => exact .expect
    | noTable => exact .noTable
    | oofL => exact .oofL
    | oofR => exact .oofR

/-! ### Rule by rule -/

/-- one of the lemmas about the rules -/
syntax "rsp_rule" : tactic
/-- closes a goal `Sp` by the structure of the expression -/
syntax "rsp_auto" : tactic
macro_rules | `(tactic| rsp_rule) => `(tactic| first
  | exact rsp_kw (by decide) | exact rsp_sym (by decide) | exact rsp_anyKw (by decide +kernel)
  | exact rsp_word (by decide) | exact rsp_wordX (by decide) | exact rsp_andSpace | exact rsp_andNsSpace
  | exact rsp_andNonId | exact rsp_ve | exact rsp_venb | exact rsp_sc | exact rsp_subq | exact rsp_jt
  | exact rsp_tr | exact rsp_tap | exact rsp_delimited | exact rsp_charString | exact rsp_optCoordSys
  | exact rsp_unionOp | exact rsp_tableValuedFunction)
macro_rules | `(tactic| rsp_auto) => `(tactic| with_reducible repeat' first
  | assumption | rsp_rule
  | exact rsp_chS tokc_digit | exact rsp_chS tokc_letter | exact rsp_chS tokc_id | exact rsp_chS tokc_pqid
  | exact rsp_chr tokc_id
  | apply rsp_cat | apply rsp_manyS | apply rsp_plusS | apply rsp_optS
  | apply Sp.seqL | apply Sp.seqR | apply Sp.diff | apply Sp.sepBy | apply Sp.plus | apply Sp.optD
  | apply Sp.pure | apply Sp.seq | apply Sp.alt | apply Sp.star | apply Sp.notP | apply Sp.andP
  | apply Sp.expect | apply Sp.map | apply Sp.act | apply SpG.lexeme | apply Sp.noskip)

theorem tokc_sign (c : Char) (h : (c == '+' || c == '-') = true) : tokC c = true :=
  tokc_or (tokc_eq '+' (by decide)) (tokc_eq '-' (by decide)) c h
theorem tokc_expo (c : Char) (h : (c == 'E' || c == 'e') = true) : tokC c = true :=
  tokc_or (tokc_eq 'E' (by decide)) (tokc_eq 'e' (by decide)) c h
theorem tokc_flag (c : Char) (h : (c == '0' || c == '1') = true) : tokC c = true :=
  tokc_or (tokc_eq '0' (by decide)) (tokc_eq '1' (by decide)) c h
theorem tokc_arith (c : Char) (h : (c == '+' || c == '-' || c == '*' || c == '/') = true) : tokC c = true :=
  tokc_or (tokc_or (tokc_or (tokc_eq '+' (by decide)) (tokc_eq '-' (by decide)))
    (tokc_eq '*' (by decide))) (tokc_eq '/' (by decide)) c h
theorem rsp_chSign : SpG sk (chS fun c => c == '+' || c == '-') := rsp_chS tokc_sign
theorem rsp_chExpo : SpG sk (chS fun c => c == 'E' || c == 'e') := rsp_chS tokc_expo
theorem rsp_chDot : SpG sk (chS (· == '.')) := rsp_chS (tokc_eq '.' (by decide))
theorem rsp_chOpen : SpG sk (chS (· == '(')) := rsp_chS (tokc_eq '(' (by decide))
theorem rsp_chStar : SpG sk (chS (· == '*')) := rsp_chS (tokc_eq '*' (by decide))
theorem rsp_chClose : SpG sk (chS (· == ')')) := rsp_chS (tokc_eq ')' (by decide))
macro_rules | `(tactic| rsp_rule) => `(tactic| first
  | exact rsp_chSign | exact rsp_chExpo | exact rsp_chDot | exact rsp_chOpen | exact rsp_chStar
  | exact rsp_chClose | exact rsp_nan)
theorem rsp_keyword : SpG sk keyword := by
  unfold keyword; rsp_auto
macro_rules | `(tactic| rsp_rule) => `(tactic| exact rsp_keyword)
theorem rsp_allIdentifiers : SpG sk allIdentifiers := by
  unfold allIdentifiers; rsp_auto
macro_rules | `(tactic| rsp_rule) => `(tactic| exact rsp_allIdentifiers)
theorem rsp_regularIdentifier : SpG sk regularIdentifier := by
  unfold regularIdentifier; rsp_auto
macro_rules | `(tactic| rsp_rule) => `(tactic| exact rsp_regularIdentifier)
theorem rsp_pqIdentifier : SpG sk pqIdentifier := by
  unfold pqIdentifier; rsp_auto
macro_rules | `(tactic| rsp_rule) => `(tactic| exact rsp_pqIdentifier)
theorem rsp_identifier : SpG sk identifier := by
  unfold identifier; rsp_auto
macro_rules | `(tactic| rsp_rule) => `(tactic| exact rsp_identifier)
theorem rsp_period : SpG sk period := by
  unfold period; rsp_auto
macro_rules | `(tactic| rsp_rule) => `(tactic| exact rsp_period)
theorem rsp_tapUploadIdentifier (cfg : Config) : SpG sk (tapUploadIdentifier cfg) := by
  unfold tapUploadIdentifier; rsp_auto
theorem rsp_tapUpload (cfg : Config) : SpG sk (tapUpload cfg) := by
  have := rsp_tapUploadIdentifier (sk := false) cfg
  unfold tapUpload; rsp_auto
theorem rsp_tableName : SpG sk tableName := by
  unfold tableName; rsp_auto
macro_rules | `(tactic| rsp_rule) => `(tactic| exact rsp_tableName)
theorem rsp_columnReference : SpG sk columnReference := by
  unfold columnReference; rsp_auto
macro_rules | `(tactic| rsp_rule) => `(tactic| exact rsp_columnReference)
theorem rsp_unsignedInteger : SpG sk unsignedInteger := by
  unfold unsignedInteger; rsp_auto
macro_rules | `(tactic| rsp_rule) => `(tactic| exact rsp_unsignedInteger)
theorem rsp_exactNumeric : SpG sk exactNumeric := by
  unfold exactNumeric; rsp_auto
macro_rules | `(tactic| rsp_rule) => `(tactic| exact rsp_exactNumeric)
theorem rsp_sign : SpG sk sign := by
  unfold sign; rsp_auto
macro_rules | `(tactic| rsp_rule) => `(tactic| exact rsp_sign)
theorem rsp_signedInteger : SpG sk signedInteger := by
  unfold signedInteger; rsp_auto
macro_rules | `(tactic| rsp_rule) => `(tactic| exact rsp_signedInteger)
theorem rsp_approxNumeric : SpG sk approxNumeric := by
  unfold approxNumeric; rsp_auto
macro_rules | `(tactic| rsp_rule) => `(tactic| exact rsp_approxNumeric)
theorem rsp_unsignedNumeric : SpG sk unsignedNumeric := by
  unfold unsignedNumeric; rsp_auto
macro_rules | `(tactic| rsp_rule) => `(tactic| exact rsp_unsignedNumeric)
theorem rsp_booleanLiteral : SpG sk booleanLiteral := by
  unfold booleanLiteral; rsp_auto
macro_rules | `(tactic| rsp_rule) => `(tactic| exact rsp_booleanLiteral)
theorem rsp_generalLiteral : SpG sk generalLiteral := by
  unfold generalLiteral; rsp_auto
macro_rules | `(tactic| rsp_rule) => `(tactic| exact rsp_generalLiteral)
theorem rsp_unsignedLiteral : SpG sk unsignedLiteral := by
  unfold unsignedLiteral; rsp_auto
macro_rules | `(tactic| rsp_rule) => `(tactic| exact rsp_unsignedLiteral)
theorem rsp_double : SpG sk double := by
  unfold double; rsp_auto
macro_rules | `(tactic| rsp_rule) => `(tactic| exact rsp_double)
theorem rsp_arithOp : SpG sk arithOp := .lexeme (rsp_chr tokc_arith)
macro_rules | `(tactic| rsp_rule) => `(tactic| exact rsp_arithOp)
theorem rsp_charFlag : SpG sk charFlag := .lexeme (rsp_chr tokc_flag)
macro_rules | `(tactic| rsp_rule) => `(tactic| exact rsp_charFlag)
theorem rsp_coordExpr : SpG sk coordExpr := by
  unfold coordExpr; rsp_auto
macro_rules | `(tactic| rsp_rule) => `(tactic| exact rsp_coordExpr)
theorem rsp_coord : SpG sk coord := by
  unfold coord; rsp_auto
macro_rules | `(tactic| rsp_rule) => `(tactic| exact rsp_coord)
theorem rsp_xCoordExpr : SpG sk xCoordExpr := by
  unfold xCoordExpr; rsp_auto
macro_rules | `(tactic| rsp_rule) => `(tactic| exact rsp_xCoordExpr)
theorem rsp_shapeHead {w : Str} (hw : w.all tokC = true) : SpG true (shapeHead w) := by
  have := rsp_kw (sk := true) hw
  unfold shapeHead; rsp_auto
macro_rules | `(tactic| rsp_rule) => `(tactic| exact rsp_shapeHead (by decide))
theorem rsp_xClose : SpG true xClose := by
  unfold xClose; rsp_auto
macro_rules | `(tactic| rsp_rule) => `(tactic| exact rsp_xClose)
theorem rsp_point : SpG true point := by
  unfold point; rsp_auto
macro_rules | `(tactic| rsp_rule) => `(tactic| exact rsp_point)
theorem rsp_circle : SpG true circle := by
  unfold circle; rsp_auto
macro_rules | `(tactic| rsp_rule) => `(tactic| exact rsp_circle)
theorem rsp_ellipse : SpG true ellipse := by
  unfold ellipse; rsp_auto
macro_rules | `(tactic| rsp_rule) => `(tactic| exact rsp_ellipse)
theorem rsp_box : SpG true box := by
  unfold box; rsp_auto
macro_rules | `(tactic| rsp_rule) => `(tactic| exact rsp_box)
theorem rsp_polygon : SpG true polygon := by
  unfold polygon; rsp_auto
macro_rules | `(tactic| rsp_rule) => `(tactic| exact rsp_polygon)
theorem rsp_shape : SpG true shape := by
  unfold shape; rsp_auto
macro_rules | `(tactic| rsp_rule) => `(tactic| exact rsp_shape)
theorem rsp_pointOrColumn : SpG true pointOrColumn := by
  unfold pointOrColumn; rsp_auto
macro_rules | `(tactic| rsp_rule) => `(tactic| exact rsp_pointOrColumn)
theorem rsp_shapeOrColumn : SpG true shapeOrColumn := by
  unfold shapeOrColumn; rsp_auto
macro_rules | `(tactic| rsp_rule) => `(tactic| exact rsp_shapeOrColumn)
theorem rsp_xShapeTail : SpG true xShapeTail := by
  unfold xShapeTail; rsp_auto
macro_rules | `(tactic| rsp_rule) => `(tactic| exact rsp_xShapeTail)
theorem rsp_contains : SpG true contains := by
  unfold contains; rsp_auto
macro_rules | `(tactic| rsp_rule) => `(tactic| exact rsp_contains)
theorem rsp_intersects : SpG true intersects := by
  unfold intersects; rsp_auto
macro_rules | `(tactic| rsp_rule) => `(tactic| exact rsp_intersects)
theorem rsp_geomPred : SpG true geomPred := by
  unfold geomPred; rsp_auto
macro_rules | `(tactic| rsp_rule) => `(tactic| exact rsp_geomPred)
theorem rsp_geometry : SpG true geometry := by
  unfold geometry; rsp_auto
macro_rules | `(tactic| rsp_rule) => `(tactic| exact rsp_geometry)
theorem rsp_xOpen : SpG true xOpen := by
  unfold xOpen; rsp_auto
macro_rules | `(tactic| rsp_rule) => `(tactic| exact rsp_xOpen)
theorem rsp_xComma : SpG true xComma := by
  unfold xComma; rsp_auto
macro_rules | `(tactic| rsp_rule) => `(tactic| exact rsp_xComma)
theorem rsp_xVe : SpG true xVe := by
  unfold xVe; rsp_auto
macro_rules | `(tactic| rsp_rule) => `(tactic| exact rsp_xVe)
theorem rsp_fnHead {p : G Str} (hp : SpG false p) : SpG true (fnHead p) := by
  unfold fnHead; rsp_auto
macro_rules | `(tactic| rsp_auto) => `(tactic| with_reducible repeat' first
  | assumption | rsp_rule
  | exact rsp_chS tokc_digit | exact rsp_chS tokc_letter | exact rsp_chS tokc_id | exact rsp_chS tokc_pqid
  | exact rsp_chr tokc_id
  | apply rsp_cat | apply rsp_manyS | apply rsp_plusS | apply rsp_optS | apply rsp_fnHead | apply rsp_notIn
  | apply Sp.seqL | apply Sp.seqR | apply Sp.diff | apply Sp.sepBy | apply Sp.plus | apply Sp.optD
  | apply Sp.pure | apply Sp.seq | apply Sp.alt | apply Sp.star | apply Sp.notP | apply Sp.andP
  | apply Sp.expect | apply Sp.map | apply Sp.act | apply SpG.lexeme | apply Sp.noskip)
theorem rsp_trigNames : SpG sk trigNames := by
  unfold trigNames; rsp_auto
macro_rules | `(tactic| rsp_rule) => `(tactic| exact rsp_trigNames)
theorem rsp_math0Names : SpG sk math0Names := by
  unfold math0Names; rsp_auto
macro_rules | `(tactic| rsp_rule) => `(tactic| exact rsp_math0Names)
theorem rsp_math1Names : SpG sk math1Names := by
  unfold math1Names; rsp_auto
macro_rules | `(tactic| rsp_rule) => `(tactic| exact rsp_math1Names)
theorem rsp_math2Names : SpG sk math2Names := by
  unfold math2Names; rsp_auto
macro_rules | `(tactic| rsp_rule) => `(tactic| exact rsp_math2Names)
theorem rsp_trigFunction : SpG true trigFunction := by
  unfold trigFunction; rsp_auto
macro_rules | `(tactic| rsp_rule) => `(tactic| exact rsp_trigFunction)
theorem rsp_mathFunction : SpG true mathFunction := by
  unfold mathFunction; rsp_auto
macro_rules | `(tactic| rsp_rule) => `(tactic| exact rsp_mathFunction)
theorem rsp_geoFunction : SpG true geoFunction := by
  unfold geoFunction; rsp_auto
macro_rules | `(tactic| rsp_rule) => `(tactic| exact rsp_geoFunction)
theorem rsp_castAs : SpG sk castAs := by
  unfold castAs; rsp_auto
macro_rules | `(tactic| rsp_rule) => `(tactic| exact rsp_castAs)
theorem rsp_castFunction : SpG true castFunction := by
  unfold castFunction; rsp_auto
macro_rules | `(tactic| rsp_rule) => `(tactic| exact rsp_castFunction)
theorem rsp_udfName : SpG sk udfName := by
  unfold udfName; rsp_auto
macro_rules | `(tactic| rsp_rule) => `(tactic| exact rsp_udfName)
theorem rsp_userDefinedFunction : SpG true userDefinedFunction := by
  unfold userDefinedFunction; rsp_auto
macro_rules | `(tactic| rsp_rule) => `(tactic| exact rsp_userDefinedFunction)
theorem rsp_sqlNoArgFunction : SpG sk sqlNoArgFunction := by
  unfold sqlNoArgFunction; rsp_auto
macro_rules | `(tactic| rsp_rule) => `(tactic| exact rsp_sqlNoArgFunction)
theorem rsp_numericValueFunction : SpG true numericValueFunction := by
  unfold numericValueFunction; rsp_auto
macro_rules | `(tactic| rsp_rule) => `(tactic| exact rsp_numericValueFunction)
theorem rsp_setFunctionType : SpG sk setFunctionType := by
  unfold setFunctionType; rsp_auto
macro_rules | `(tactic| rsp_rule) => `(tactic| exact rsp_setFunctionType)
theorem rsp_setQuantifier : SpG sk setQuantifier := by
  unfold setQuantifier; rsp_auto
macro_rules | `(tactic| rsp_rule) => `(tactic| exact rsp_setQuantifier)
theorem rsp_countStar : SpG true countStar := by
  unfold countStar; rsp_auto
macro_rules | `(tactic| rsp_rule) => `(tactic| exact rsp_countStar)
theorem rsp_generalSetFunction : SpG true generalSetFunction := by
  unfold generalSetFunction; rsp_auto
macro_rules | `(tactic| rsp_rule) => `(tactic| exact rsp_generalSetFunction)
theorem rsp_nullLiteral : SpG sk nullLiteral := by
  unfold nullLiteral; rsp_auto
macro_rules | `(tactic| rsp_rule) => `(tactic| exact rsp_nullLiteral)
theorem rsp_caseResult : SpG true caseResult := by
  unfold caseResult; rsp_auto
macro_rules | `(tactic| rsp_rule) => `(tactic| exact rsp_caseResult)
theorem rsp_simpleWhen : SpG true simpleWhen := by
  unfold simpleWhen; rsp_auto
macro_rules | `(tactic| rsp_rule) => `(tactic| exact rsp_simpleWhen)
theorem rsp_elseClause : SpG true elseClause := by
  unfold elseClause; rsp_auto
macro_rules | `(tactic| rsp_rule) => `(tactic| exact rsp_elseClause)
theorem rsp_simpleCase : SpG true simpleCase := by
  unfold simpleCase; rsp_auto
macro_rules | `(tactic| rsp_rule) => `(tactic| exact rsp_simpleCase)
theorem rsp_searchedWhen : SpG true searchedWhen := by
  unfold searchedWhen; rsp_auto
macro_rules | `(tactic| rsp_rule) => `(tactic| exact rsp_searchedWhen)
theorem rsp_searchedCase : SpG true searchedCase := by
  unfold searchedCase; rsp_auto
macro_rules | `(tactic| rsp_rule) => `(tactic| exact rsp_searchedCase)
theorem rsp_caseSpecification : SpG true caseSpecification := by
  unfold caseSpecification; rsp_auto
macro_rules | `(tactic| rsp_rule) => `(tactic| exact rsp_caseSpecification)
theorem rsp_nullif : SpG true nullif := by
  unfold nullif; rsp_auto
macro_rules | `(tactic| rsp_rule) => `(tactic| exact rsp_nullif)
theorem rsp_coalesce : SpG true coalesce := by
  unfold coalesce; rsp_auto
macro_rules | `(tactic| rsp_rule) => `(tactic| exact rsp_coalesce)
theorem rsp_caseExpression : SpG true caseExpression := by
  unfold caseExpression; rsp_auto
macro_rules | `(tactic| rsp_rule) => `(tactic| exact rsp_caseExpression)
theorem rsp_anyExpression : SpG true anyExpression := by
  unfold anyExpression; rsp_auto
macro_rules | `(tactic| rsp_rule) => `(tactic| exact rsp_anyExpression)
theorem rsp_valueSubexpression : SpG true valueSubexpression := by
  unfold valueSubexpression; rsp_auto
macro_rules | `(tactic| rsp_rule) => `(tactic| exact rsp_valueSubexpression)
theorem rsp_arrayIndex : SpG true arrayIndex := by
  unfold arrayIndex; rsp_auto
macro_rules | `(tactic| rsp_rule) => `(tactic| exact rsp_arrayIndex)
theorem rsp_nullCast : SpG sk nullCast := by
  unfold nullCast; rsp_auto
macro_rules | `(tactic| rsp_rule) => `(tactic| exact rsp_nullCast)
theorem rsp_arrayConstructor : SpG true arrayConstructor := by
  unfold arrayConstructor; rsp_auto
macro_rules | `(tactic| rsp_rule) => `(tactic| exact rsp_arrayConstructor)
theorem rsp_primary : SpG true primary := by
  unfold primary; rsp_auto
macro_rules | `(tactic| rsp_rule) => `(tactic| exact rsp_primary)
theorem rsp_valueExpressionPrimary : SpG true valueExpressionPrimary := by
  unfold valueExpressionPrimary; rsp_auto
macro_rules | `(tactic| rsp_rule) => `(tactic| exact rsp_valueExpressionPrimary)
theorem rsp_numericPrimary : SpG true numericPrimary := by
  unfold numericPrimary; rsp_auto
macro_rules | `(tactic| rsp_rule) => `(tactic| exact rsp_numericPrimary)
theorem rsp_factor : SpG true factor := by
  unfold factor; rsp_auto
macro_rules | `(tactic| rsp_rule) => `(tactic| exact rsp_factor)
theorem rsp_binaryOperators : SpG true binaryOperators := by
  unfold binaryOperators; rsp_auto
macro_rules | `(tactic| rsp_rule) => `(tactic| exact rsp_binaryOperators)
theorem rsp_venbTerm : SpG true venbTerm := by
  unfold venbTerm; rsp_auto
macro_rules | `(tactic| rsp_rule) => `(tactic| exact rsp_venbTerm)
theorem rsp_venbBody : SpG true venbBody := by
  unfold venbBody; rsp_auto
macro_rules | `(tactic| rsp_rule) => `(tactic| exact rsp_venbBody)
theorem rsp_veBody : SpG true veBody := by
  unfold veBody; rsp_auto
macro_rules | `(tactic| rsp_rule) => `(tactic| exact rsp_veBody)
theorem rsp_compOp : SpG true compOp := by
  unfold compOp; rsp_auto
macro_rules | `(tactic| rsp_rule) => `(tactic| exact rsp_compOp)
theorem rsp_comparisonPredicate : SpG true comparisonPredicate := by
  unfold comparisonPredicate; rsp_auto
macro_rules | `(tactic| rsp_rule) => `(tactic| exact rsp_comparisonPredicate)
theorem rsp_betweenPredicate : SpG true betweenPredicate := by
  unfold betweenPredicate; rsp_auto
macro_rules | `(tactic| rsp_rule) => `(tactic| exact rsp_betweenPredicate)
theorem rsp_inPredicate : SpG true inPredicate := by
  unfold inPredicate; rsp_auto
macro_rules | `(tactic| rsp_rule) => `(tactic| exact rsp_inPredicate)
theorem rsp_nullPredicate : SpG true nullPredicate := by
  unfold nullPredicate; rsp_auto
macro_rules | `(tactic| rsp_rule) => `(tactic| exact rsp_nullPredicate)
theorem rsp_likePredicate : SpG true likePredicate := by
  unfold likePredicate; rsp_auto
macro_rules | `(tactic| rsp_rule) => `(tactic| exact rsp_likePredicate)
theorem rsp_existsPredicate : SpG true existsPredicate := by
  unfold existsPredicate; rsp_auto
macro_rules | `(tactic| rsp_rule) => `(tactic| exact rsp_existsPredicate)
theorem rsp_predicate : SpG true predicate := by
  unfold predicate; rsp_auto
macro_rules | `(tactic| rsp_rule) => `(tactic| exact rsp_predicate)
theorem rsp_booleanPrimary : SpG true booleanPrimary := by
  unfold booleanPrimary; rsp_auto
macro_rules | `(tactic| rsp_rule) => `(tactic| exact rsp_booleanPrimary)
theorem rsp_factorNot (residue : Bool) : SpG true (factorNot residue) := by
  unfold factorNot
  cases residue
  · simp only [Bool.false_eq_true, if_false]; rsp_auto
  · simp only [if_true]; rsp_auto
macro_rules | `(tactic| rsp_rule) => `(tactic| exact rsp_factorNot _)
theorem rsp_booleanFactor (residue : Bool) : SpG true (booleanFactor residue) := by
  unfold booleanFactor; rsp_auto
macro_rules | `(tactic| rsp_rule) => `(tactic| exact rsp_booleanFactor _)
theorem rsp_logicalOp : SpG true logicalOp := by
  unfold logicalOp; rsp_auto
macro_rules | `(tactic| rsp_rule) => `(tactic| exact rsp_logicalOp)
theorem rsp_scBody (residue : Bool) : SpG true (scBody residue) := by
  unfold scBody; rsp_auto
macro_rules | `(tactic| rsp_rule) => `(tactic| exact rsp_scBody _)
theorem rsp_correlationSpecification : SpG true correlationSpecification := by
  unfold correlationSpecification; rsp_auto
macro_rules | `(tactic| rsp_rule) => `(tactic| exact rsp_correlationSpecification)
theorem rsp_tableCorrelation : SpG true tableCorrelation := by
  unfold tableCorrelation; rsp_auto
macro_rules | `(tactic| rsp_rule) => `(tactic| exact rsp_tableCorrelation)
theorem rsp_joinType : SpG true joinType := by
  unfold joinType; rsp_auto
macro_rules | `(tactic| rsp_rule) => `(tactic| exact rsp_joinType)
theorem rsp_joinSpecification : SpG true joinSpecification := by
  unfold joinSpecification; rsp_auto
macro_rules | `(tactic| rsp_rule) => `(tactic| exact rsp_joinSpecification)
theorem rsp_joinSuffix : SpG true joinSuffix := by
  unfold joinSuffix; rsp_auto
macro_rules | `(tactic| rsp_rule) => `(tactic| exact rsp_joinSuffix)
theorem rsp_parenJoined : SpG true parenJoined := by
  unfold parenJoined; rsp_auto
macro_rules | `(tactic| rsp_rule) => `(tactic| exact rsp_parenJoined)
theorem rsp_qualifiedJoin : SpG true qualifiedJoin := by
  unfold qualifiedJoin; rsp_auto
macro_rules | `(tactic| rsp_rule) => `(tactic| exact rsp_qualifiedJoin)
theorem rsp_jtBody : SpG true jtBody := by
  unfold jtBody; rsp_auto
macro_rules | `(tactic| rsp_rule) => `(tactic| exact rsp_jtBody)
theorem rsp_derivedCorrelation : SpG true derivedCorrelation := by
  unfold derivedCorrelation; rsp_auto
macro_rules | `(tactic| rsp_rule) => `(tactic| exact rsp_derivedCorrelation)
theorem rsp_trBody : SpG true trBody := by
  unfold trBody; rsp_auto
macro_rules | `(tactic| rsp_rule) => `(tactic| exact rsp_trBody)
theorem rsp_fromClause : SpG true fromClause := by
  unfold fromClause; rsp_auto
macro_rules | `(tactic| rsp_rule) => `(tactic| exact rsp_fromClause)
theorem rsp_asItem : SpG true asItem := by
  unfold asItem; rsp_auto
macro_rules | `(tactic| rsp_rule) => `(tactic| exact rsp_asItem)
theorem rsp_qualifierStar : SpG sk qualifierStar := by
  unfold qualifierStar; rsp_auto
macro_rules | `(tactic| rsp_rule) => `(tactic| exact rsp_qualifierStar)
theorem rsp_selectItem : SpG true selectItem := by
  unfold selectItem; rsp_auto
macro_rules | `(tactic| rsp_rule) => `(tactic| exact rsp_selectItem)
theorem rsp_columns : SpG true columns := by
  unfold columns; rsp_auto
macro_rules | `(tactic| rsp_rule) => `(tactic| exact rsp_columns)
theorem rsp_ulongLong : SpG sk ulongLong := by
  unfold ulongLong; rsp_auto
macro_rules | `(tactic| rsp_rule) => `(tactic| exact rsp_ulongLong)
theorem rsp_topClause : SpG true topClause := by
  unfold topClause; rsp_auto
macro_rules | `(tactic| rsp_rule) => `(tactic| exact rsp_topClause)
theorem rsp_select : SpG true select := by
  unfold select; rsp_auto
macro_rules | `(tactic| rsp_rule) => `(tactic| exact rsp_select)
theorem rsp_whereClause : SpG true whereClause := by
  unfold whereClause; rsp_auto
macro_rules | `(tactic| rsp_rule) => `(tactic| exact rsp_whereClause)
theorem rsp_whereNoGeometry : SpG true whereNoGeometry := by
  unfold whereNoGeometry; rsp_auto
macro_rules | `(tactic| rsp_rule) => `(tactic| exact rsp_whereNoGeometry)
theorem rsp_sfwWith {w : G Where} (hw : SpG true w) : SpG true (sfwWith w) := by
  unfold sfwWith; rsp_auto
theorem rsp_sfwList {w : G Where} (hw : SpG true w) : SpG true (sfwList w) := by
  have := rsp_sfwWith hw
  unfold sfwList; rsp_auto
theorem rsp_groupByTerm : SpG true groupByTerm := by
  unfold groupByTerm; rsp_auto
macro_rules | `(tactic| rsp_rule) => `(tactic| exact rsp_groupByTerm)
theorem rsp_groupBy : SpG true groupBy := by
  unfold groupBy; rsp_auto
macro_rules | `(tactic| rsp_rule) => `(tactic| exact rsp_groupBy)
theorem rsp_having : SpG true having := by
  unfold having; rsp_auto
macro_rules | `(tactic| rsp_rule) => `(tactic| exact rsp_having)
theorem rsp_sortSpecification : SpG true sortSpecification := by
  unfold sortSpecification; rsp_auto
macro_rules | `(tactic| rsp_rule) => `(tactic| exact rsp_sortSpecification)
theorem rsp_orderBy : SpG true orderBy := by
  unfold orderBy; rsp_auto
macro_rules | `(tactic| rsp_rule) => `(tactic| exact rsp_orderBy)
theorem rsp_withClause : SpG true withClause := by
  unfold withClause; rsp_auto
macro_rules | `(tactic| rsp_rule) => `(tactic| exact rsp_withClause)
theorem rsp_queryWith {w : G Where} (hw : SpG true w) : SpG true (queryWith w) := by
  have := rsp_sfwList hw
  unfold queryWith; rsp_auto
theorem rsp_query : SpG true query := rsp_queryWith rsp_whereClause
theorem rsp_queryNoGeometry : SpG true queryNoGeometry := rsp_queryWith rsp_whereNoGeometry
macro_rules | `(tactic| rsp_rule) => `(tactic| exact rsp_queryNoGeometry)
theorem rsp_subqBody : SpG true subqBody := by
  unfold subqBody; rsp_auto
macro_rules | `(tactic| rsp_rule) => `(tactic| exact rsp_subqBody)

/-- The rules of the grammar. -/
theorem rsp_grammar (cfg : Config) : ∀ n k, SpW n k → SpG k (grammar cfg n) := by
  intro n k hk
  rcases hk with rfl | rfl
  · cases n with
    | ve => exact rsp_veBody
    | venb => exact rsp_venbBody
    | sc => exact rsp_scBody _
    | subq => exact rsp_subqBody
    | jt => exact rsp_jtBody
    | tr => exact rsp_trBody
    | tap => exact rsp_tapUpload cfg
  · exact rsp_tapUpload cfg

end Adql
