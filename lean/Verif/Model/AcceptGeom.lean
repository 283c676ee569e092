import Verif.Model.AcceptCond
import Verif.Props.Geometry

/-!
# Running the grammar forward: coordinates and shapes
-/

namespace Adql.Fwd

open P Spec

variable {cfg : Config} {sk : Bool}

/-! ### Numerals of coordinates -/

/-- no digit follows -/
def NoDigit (r : Str) : Prop := ∀ c t, r = c :: t → isDigit c = false

theorem noDigit_of {r : Str} (h : NotContinued r) : NoDigit r := by
  intro c t e
  have := notContinued_iff.1 h c t e
  cases hc : isDigit c with
  | false => rfl
  | true => simp [isIdChar, hc] at this

theorem noDigit_cons {c : Char} {t : Str} (h : isDigit c = false) : NoDigit (c :: t) := by
  intro d u e; cases e; exact h

theorem takeDigits {d r : Str} (hd : ∀ c ∈ d, isDigit c = true) (hr : NoDigit r) :
    (d ++ r).takeWhile isDigit = d ∧ (d ++ r).dropWhile isDigit = r := by
  induction d with
  | nil =>
    cases r with
    | nil => exact ⟨rfl, rfl⟩
    | cons c r => simp [hr c r rfl]
  | cons c d ih =>
    have := ih fun x hx => hd x (by simp [hx])
    simp [hd c (by simp), this.1, this.2]

theorem many_digits {d r : Str} (hd : ∀ c ∈ d, isDigit c = true) (hr : NoDigit r) :
    parse cfg (manyS (chS isDigit)) false (d ++ r) = .ok d r := by
  simp only [parse, run_manyS_chS]
  rw [(takeDigits hd hr).1, (takeDigits hd hr).2]

theorem plus_digits {d r : Str} (hd : Digits d) (hr : NoDigit r) :
    parse cfg (plusS (chS isDigit)) false (d ++ r) = .ok d r := by
  have h : ∀ c ∈ d, isDigit c = true := fun c hc => isDigit_iff.2 (hd.2 c hc)
  simp only [parse, run_plusS_chS]
  rw [(takeDigits h hr).1, (takeDigits h hr).2]
  simp [hd.1]

theorem plus_noDigit {r : Str} (hr : NoDigit r) : parse cfg (plusS (chS isDigit)) false r = .fail := by
  simp only [parse, run_plusS_chS]
  rw [show r.takeWhile isDigit = [] from (takeDigits (d := []) nofun hr).1]
  rfl

theorem chS_raw {f : Char → Bool} {c : Char} {t : Str} (h : f c = true) :
    parse cfg (chS f) false (c :: t) = .ok [c] t := by
  simp only [parse, run_chS, h, if_true]

theorem chS_rawFail {f : Char → Bool} {s : Str} (h : ∀ c t, s = c :: t → f c = false) :
    parse cfg (chS f) false s = .fail := by
  simp only [parse, run_chS]
  cases s with
  | nil => rfl
  | cons c t => simp [h c t rfl]

theorem cat_fail {p q : G Str} {s : Str} (h : parse cfg p sk s = .fail) : parse cfg (cat p q) sk s = .fail :=
  map_fail (seq_fail h)

theorem cat_fail2 {p q : G Str} {s r a : Str} (h : parse cfg p sk s = .ok a r) (h2 : parse cfg q sk r = .fail) :
    parse cfg (cat p q) sk s = .fail := map_fail (seq_fail2 h h2)

theorem cat_ok0 {p q : G Str} {s r r' a : Str} (h : parse cfg p sk s = .ok a r) (h2 : parse cfg q sk r = .ok [] r') :
    parse cfg (cat p q) sk s = .ok a r' := by
  have := cat_ok h h2
  rwa [List.append_nil] at this

/-- What may follow a numeral of a coordinate. -/
def NumEnd (r : Str) : Prop := NotContinued r ∧ NotHead '.' r ∧ NotHead '(' r

theorem notE {c : Char} {t : Str} (h : NotContinued (c :: t)) : (c == 'E' || c == 'e') = false := by
  have := notContinued_iff.1 h c t rfl
  cases hc : (c == 'E' || c == 'e') with
  | false => rfl
  | true =>
    simp only [Bool.or_eq_true, beq_iff_eq] at hc
    rcases hc with rfl | rfl <;> exact absurd this (by decide)

/-- the optional exponent -/
theorem expo_run {e r : Str} (he : e = [] ∨ Expo e) (hr : NotContinued r) :
    parse cfg (optS (cat (chS fun c => c == 'E' || c == 'e')
      (cat (optS (chS fun c => c == '+' || c == '-')) (plusS (chS isDigit))))) false (e ++ r) = .ok e r := by
  rcases he with rfl | he
  · refine optD_none (cat_fail (chS_rawFail ?_))
    rintro c t e
    rw [List.nil_append] at e
    subst e
    exact notE hr
  · cases he with
    | @mk x d hx hd =>
      refine optD_ok (cat_ok (a := [x]) (b := d) (r := d ++ r) (chS_raw (by rcases hx with rfl | rfl <;> rfl)) ?_)
      have h0 : parse cfg (optS (chS fun c => c == '+' || c == '-')) false (d ++ r) = .ok [] (d ++ r) := by
        refine optD_none (chS_rawFail ?_)
        intro c t e
        cases d with
        | nil => exact absurd rfl hd.1
        | cons y d =>
          simp only [List.cons_append, List.cons.injEq] at e
          rw [← e.1]
          have hy := hd.2 y (by simp)
          have h1 := digit_ne hy (d := '+') (by decide)
          have h2 := digit_ne hy (d := '-') (by decide)
          simp [h1, h2]
      exact cat_ok h0 (plus_digits hd (noDigit_of hr))
    | @signed x g d hx hg hd =>
      refine optD_ok (cat_ok (a := [x]) (b := g :: d) (r := g :: (d ++ r)) (chS_raw (by rcases hx with rfl | rfl <;> rfl)) ?_)
      exact cat_ok (a := [g]) (optD_ok (chS_raw (by rcases hg with rfl | rfl <;> rfl))) (plus_digits hd (noDigit_of hr))

/-- what follows the digits -/
theorem expo_stop {e r : Str} (he : e = [] ∨ Expo e) (hr : NumEnd r) : NoDigit (e ++ r) ∧ NotHead '.' (e ++ r) := by
  rcases he with rfl | he
  · exact ⟨noDigit_of hr.1, hr.2.1⟩
  · have : ∃ x u, e = x :: u ∧ (x = 'E' ∨ x = 'e') := by
      cases he with
      | mk hx _ => exact ⟨_, _, rfl, hx⟩
      | signed hx _ _ => exact ⟨_, _, rfl, hx⟩
    obtain ⟨x, u, rfl, hx⟩ := this
    refine ⟨noDigit_cons (by rcases hx with rfl | rfl <;> rfl), ?_⟩
    intro t e
    simp only [List.cons_append, List.cons.injEq] at e
    rcases hx with rfl | rfl <;> exact absurd e.1 (by decide)

theorem mant_run {m z : Str} (hm : Unsigned m) (h1 : NoDigit z) (h2 : NotHead '.' z) :
    parse cfg (.alt (cat (plusS (chS isDigit)) (optS (cat (chS (· == '.')) (manyS (chS isDigit)))))
      (cat (chS (· == '.')) (plusS (chS isDigit)))) false (m ++ z) = .ok m z := by
  have hdot : ∀ t, NoDigit ('.' :: t) := fun t => noDigit_cons (by decide)
  cases hm with
  | int hd =>
    refine alt_left (cat_ok0 (plus_digits hd h1) (optD_none (cat_fail (chS_rawFail ?_))))
    intro c t e
    have : c ≠ '.' := fun hc => h2 t (by rw [e, hc])
    simp [this]
  | @dot d hd =>
    rw [List.append_assoc]
    exact alt_left (cat_ok (plus_digits hd (hdot _)) (optD_ok (cat_ok0 (chS_raw rfl) (many_digits (d := []) nofun h1))))
  | @dec d f hd hf =>
    rw [List.append_assoc]
    exact alt_left (cat_ok (plus_digits hd (hdot _)) (optD_ok (cat_ok (a := ['.']) (chS_raw rfl)
      (many_digits (fun c hc => isDigit_iff.2 (hf.2 c hc)) h1))))
  | @frac f hf =>
    refine (alt_right (cat_fail (plus_noDigit (hdot _)))).trans ?_
    exact cat_ok (a := ['.']) (chS_raw rfl) (plus_digits hf h1)

theorem unsigned_head {m : Str} (h : Unsigned m) : ∃ c t, m = c :: t ∧ (Digit c ∨ c = '.') := by
  have key : ∀ {d : Str}, Digits d → ∀ u, ∃ c t, d ++ u = c :: t ∧ (Digit c ∨ c = '.') := by
    rintro d ⟨h0, hd⟩ u
    cases d with
    | nil => exact absurd rfl h0
    | cons c d => exact ⟨c, d ++ u, rfl, .inl (hd c (by simp))⟩
  cases h with
  | int h => simpa using key h []
  | dot h => exact key h _
  | dec h _ => exact key h _
  | frac _ => exact ⟨_, _, rfl, .inr rfl⟩

theorem sameCI_split {t a b : Str} (h : SameCI t (a ++ b)) : ∃ x y, t = x ++ y ∧ SameCI x a ∧ SameCI y b := by
  unfold SameCI at *
  rw [List.map_append] at h
  exact List.map_eq_append_iff.1 h

theorem letter_i {c : Char} (h : lowerC c = 'i') : isLetter c = true := by
  have := congrArg Char.toNat h
  rw [lowerC_toNat] at this
  have h2 : ('i' : Char).toNat = 105 := rfl
  rw [h2] at this
  rw [isLetter_toNat]
  split at this <;> omega

theorem inf_letter {m : Str} {v : Str} (h : SameCI m ('i' :: v)) : ∃ c t, m = c :: t ∧ isLetter c = true := by
  obtain ⟨c, t, rfl, hc, -⟩ := sameCI_cons h
  exact ⟨c, t, rfl, letter_i hc⟩

theorem nan_letter {m : Str} {v : Str} (h : SameCI m ('n' :: v)) : ∃ c t, m = c :: t ∧ isLetter c = true := by
  obtain ⟨c, t, rfl, hc, -⟩ := sameCI_cons h
  refine ⟨c, t, rfl, ?_⟩
  have := congrArg Char.toNat hc
  rw [lowerC_toNat] at this
  have h2 : (lowerC 'n' : Char).toNat = 110 := rfl
  rw [h2] at this
  rw [isLetter_toNat]
  split at this <;> omega

theorem plainMag_head {m : Str} (h : PlainMag m) : ∃ c t, m = c :: t ∧ ((Digit c ∨ c = '.') ∨ isLetter c = true) := by
  cases h with
  | num h _ =>
    obtain ⟨c, t, rfl, hc⟩ := unsigned_head h
    exact ⟨c, _, rfl, .inl hc⟩
  | inf h =>
    obtain ⟨c, t, rfl, hc⟩ := inf_letter h
    exact ⟨c, _, rfl, .inr hc⟩
  | infinity h =>
    obtain ⟨c, t, rfl, hc⟩ := inf_letter h
    exact ⟨c, _, rfl, .inr hc⟩
  | nan h =>
    obtain ⟨c, t, rfl, hc⟩ := nan_letter h
    exact ⟨c, _, rfl, .inr hc⟩

theorem magnitude_head {m : Str} (h : CoordMag m) : ∃ c t, m = c :: t ∧ ((Digit c ∨ c = '.') ∨ isLetter c = true) := by
  cases h with
  | plain h => exact plainMag_head h
  | nanArg h _ =>
    obtain ⟨c, t, rfl, hc⟩ := nan_letter h
    exact ⟨c, _, rfl, .inr hc⟩

theorem coordNum_head {x : Str} (h : CoordNum x) : ∃ c t, x = c :: t ∧ (c ∈ "0123456789.+-".toList ∨ isLetter c = true) := by
  obtain ⟨g, m, hg, hm, rfl⟩ := h
  obtain ⟨c, t, rfl, hc⟩ := magnitude_head hm
  simp only [List.mem_cons, List.not_mem_nil, or_false] at hg
  rcases hg with rfl | rfl | rfl
  · refine ⟨c, t, rfl, hc.imp_left fun hc => ?_⟩
    have := digit_mem hc
    have h2 : ∀ c ∈ "0123456789.".toList, c ∈ "0123456789.+-".toList := by decide
    exact h2 c this
  · exact ⟨'+', _, rfl, .inl (by decide)⟩
  · exact ⟨'-', _, rfl, .inl (by decide)⟩

theorem kw_raw {w z : Str} : parse cfg (kw w) false z = match matchLit true w z with
    | some (t, r) => .ok t r
    | none => .fail := lit_eq

theorem mant_letter {c : Char} {t : Str} (hc : isLetter c = true) : NoDigit (c :: t) ∧ ∀ d u, c :: t = d :: u → (d == '.') = false := by
  refine ⟨noDigit_cons ?_, ?_⟩
  · cases hd : isDigit c with
    | false => rfl
    | true =>
      simp only [isDigit, Bool.and_eq_true, decide_eq_true_eq] at hd
      simp only [isLetter_toNat] at hc
      omega
  · intro d u e
    cases e
    have h1 := letter_ne hc (d := '.') (by decide)
    simp [h1]

/-- the alternatives of numbers -/
theorem magnitude_run {m r : Str} (h : CoordMag m) (hr : NumEnd r) :
    parse cfg (.alt (cat (.alt (cat (plusS (chS isDigit)) (optS (cat (chS (· == '.')) (manyS (chS isDigit)))))
      (cat (chS (· == '.')) (plusS (chS isDigit)))) (optS (cat (chS fun c => c == 'E' || c == 'e')
        (cat (optS (chS fun c => c == '+' || c == '-')) (plusS (chS isDigit))))))
      (.alt (cat (kw cs!"nan") (optS (cat (chS (· == '(')) (cat (manyS (chS (· != ')'))) (chS (· == ')'))))))
        (cat (kw cs!"inf") (optS (kw cs!"inity"))))) false (m ++ r) = .ok m r := by
  have letters : ∀ {p q : G Str} {v : Str}, SameCI m ('i' :: v) → parse cfg (cat (kw cs!"inf") p) false (m ++ r) = .ok m r →
      parse cfg (.alt (cat (.alt (cat (plusS (chS isDigit)) (optS (cat (chS (· == '.')) (manyS (chS isDigit)))))
        (cat (chS (· == '.')) (plusS (chS isDigit)))) q) (.alt (cat (kw cs!"nan")
        (optS (cat (chS (· == '(')) (cat (manyS (chS (· != ')'))) (chS (· == ')')))))) (cat (kw cs!"inf") p))) false (m ++ r) = .ok m r := by
    intro p q v hm hp
    obtain ⟨c, t, rfl, hc, -⟩ := sameCI_cons hm
    have hl : isLetter c = true := letter_i hc
    obtain ⟨h1, h2⟩ := mant_letter (t := t ++ r) hl
    refine (alt_right (cat_fail (alt_fail (cat_fail (plus_noDigit h1)) (cat_fail (chS_rawFail h2))))).trans
      ((alt_right (cat_fail ?_)).trans hp)
    rw [kw_raw]
    have : matchLit true cs!"nan" (c :: (t ++ r)) = none := by
      rw [matchLit_prefixCI]
      unfold prefixCI
      simp only [List.map_cons]
      have h1 : lowerC c = 'i' := hc
      rw [h1]; rfl
    rw [this]
  have nans : ∀ {x u : Str} {q : G Str}, SameCI x cs!"nan" →
      parse cfg (optS (cat (chS (· == '(')) (cat (manyS (chS (· != ')'))) (chS (· == ')'))))) false (u ++ r) = .ok u r →
      parse cfg (.alt (cat (.alt (cat (plusS (chS isDigit)) (optS (cat (chS (· == '.')) (manyS (chS isDigit)))))
        (cat (chS (· == '.')) (plusS (chS isDigit)))) (optS (cat (chS fun c => c == 'E' || c == 'e')
        (cat (optS (chS fun c => c == '+' || c == '-')) (plusS (chS isDigit)))))) (.alt (cat (kw cs!"nan")
        (optS (cat (chS (· == '(')) (cat (manyS (chS (· != ')'))) (chS (· == ')')))))) q)) false (x ++ (u ++ r)) = .ok (x ++ u) r := by
    intro x u q hx hu
    have hk : parse cfg (kw cs!"nan") false (x ++ (u ++ r)) = .ok x (u ++ r) := by rw [kw_raw, matchLit_sameCI hx]
    obtain ⟨c, t, rfl, hl⟩ := nan_letter hx
    obtain ⟨h1, h2⟩ := mant_letter (t := t ++ (u ++ r)) hl
    exact (alt_right (cat_fail (alt_fail (cat_fail (plus_noDigit h1)) (cat_fail (chS_rawFail h2))))).trans
      (alt_left (cat_ok hk hu))
  cases h with
  | nanArg hm ha =>
    rename_i x a
    rw [List.append_assoc]
    refine nans hm (optD_ok ?_)
    have htk := takeWhile_eq (f := (· != ')')) (w := a) (r := ')' :: r) (fun d hd => by
      simp only [bne_iff_ne, ne_eq]; rintro rfl; exact ha hd) (fun c t e => by cases e; decide)
    refine cat_ok (a := ['(']) (b := a ++ [')']) (r := (a ++ [')']) ++ r) (chS_raw (by decide)) ?_
    rw [List.append_assoc]
    refine cat_ok (a := a) (b := [')']) (r := ')' :: r) ?_ (chS_raw (by decide))
    simp only [parse, run_manyS_chS, List.cons_append, List.nil_append, htk.1, htk.2]
  | plain h =>
  cases h with
  | nan hm =>
    have := nans (u := []) (q := cat (kw cs!"inf") (optS (kw cs!"inity"))) hm (optD_none (cat_fail (chS_rawFail fun c t e => by
      cases hc : c == '(' with
      | false => rfl
      | true => rw [beq_iff_eq] at hc; exact absurd (hc ▸ e) (hr.2.2 t))))
    rwa [List.append_nil] at this
  | num hm he =>
    obtain ⟨h1, h2⟩ := expo_stop he hr
    rw [List.append_assoc]
    exact alt_left (cat_ok (mant_run hm h1 h2) (expo_run he hr.1))
  | inf hm =>
    refine letters hm (cat_ok0 (r := r) ?_ (optD_none ?_))
    · rw [kw_raw, matchLit_sameCI hm]
    · rw [kw_raw]
      have := matchLit_word (k := cs!"inity") (w := []) (r := r) (by decide) (notContinued_iff.1 hr.1)
      rw [List.nil_append] at this
      rw [this]; rfl
  | infinity hm =>
    obtain ⟨x, y, rfl, h1, h2⟩ := sameCI_split (a := cs!"inf") (b := cs!"inity") hm
    refine letters hm ?_
    rw [List.append_assoc]
    refine cat_ok (a := x) (b := y) (r := y ++ r) ?_ (optD_ok ?_)
    · rw [kw_raw, matchLit_sameCI h1]
    · rw [kw_raw, matchLit_sameCI h2]

theorem coordNum_bare {c : Char} (h : c ∈ "0123456789.+-".toList ∨ isLetter c = true) : isSpace c = false ∧ c ≠ '\'' := by
  rcases h with h | h
  · have : ("0123456789.+-".toList.all fun c => !isSpace c && !(c == '\'')) = true := by decide
    have := all_mem this h
    simpa using this
  · exact ⟨isLetter_not_space h, letter_ne h (by decide)⟩

/-- A number is read as a whole. -/
theorem double_ok {s x r : Str} (hs : Tok x s) (hx : CoordNum x) (hr : NumEnd r) :
    parse cfg double true (s ++ r) = .ok x r := by
  obtain ⟨b, hb, rfl⟩ := hs
  obtain ⟨c, t, e, hc⟩ := coordNum_head hx
  have hbare : Bare (x ++ r) := by
    rw [e]
    exact bare_cons (coordNum_bare hc).1
  clear e hc
  simp only [double, parse, run_lexeme, List.append_assoc, skip_blanks hb, skip_bare hbare]
  obtain ⟨g, m, hg, hm, rfl⟩ := hx
  simp only [List.append_assoc]
  refine cat_ok (a := g) (r := m ++ r) ?_ (magnitude_run hm hr)
  obtain ⟨c, t, rfl, hc⟩ := magnitude_head hm
  simp only [List.mem_cons, List.not_mem_nil, or_false] at hg
  rcases hg with rfl | rfl | rfl
  · refine optD_none (chS_rawFail ?_)
    intro d u e
    simp only [List.nil_append, List.cons_append, List.cons.injEq] at e
    rw [← e.1]
    have hd : ∀ {d : Char}, isLetter d = false → isDigit d = false → d ≠ '.' → c ≠ d := by
      intro d h1 h2 h3 e
      subst e
      rcases hc with (hc | hc) | hc
      · rw [isDigit_iff.2 hc] at h2; cases h2
      · exact h3 hc
      · rw [hc] at h1; cases h1
    have h1 := hd (d := '+') (by decide) (by decide) (by decide)
    have h2 := hd (d := '-') (by decide) (by decide) (by decide)
    simp [h1, h2]
  · exact optD_ok (chS_raw rfl)
  · exact optD_ok (chS_raw rfl)

/-! ### Words are no numerals -/

theorem matchLit_inWord {w x y t r : Str} (hw : w.all isIdChar = true) (hy : NotContinued y)
    (hm : matchLit true w (x ++ y) = some (t, r)) : ∃ x', x = t ++ x' ∧ r = x' ++ y := by
  rw [matchLit_word hw (notContinued_iff.1 hy)] at hm
  cases hm' : matchLit true w x with
  | none => rw [hm'] at hm; cases hm
  | some p =>
    obtain ⟨t', r'⟩ := p
    rw [hm'] at hm
    simp only [Option.map_some, Option.some.injEq, Prod.mk.injEq] at hm
    obtain ⟨rfl, rfl⟩ := hm
    exact ⟨r', (matchLit_iff.1 hm').1, rfl⟩

/-- the next character after a part of a word -/
theorem next_inWord {x y : Str} (hx : ∀ c ∈ x, isIdChar c = true) {l : List (Option Char)} (hl : ∀ c, some c ∈ l → isIdChar c = false)
    (hn : next y ∉ l) : next (x ++ y) ∉ l := by
  cases x with
  | nil => exact hn
  | cons c x =>
    have hc := hx c (by simp)
    rw [List.cons_append, next_idChar hc]
    intro h
    have := hl c h
    rw [hc] at this; cases this

/-- the characters after which a column cannot be mistaken for a numeral or a shape -/
def opChars : List (Option Char) := [some '(', some '+', some '-', some '*', some '/']

theorem opChars_id : ∀ c, some c ∈ opChars → isIdChar c = false := by
  intro c h
  simp only [opChars, List.mem_cons, List.not_mem_nil, or_false, Option.some.injEq] at h
  rcases h with rfl | rfl | rfl | rfl | rfl <;> decide

theorem arithOp_fail {s : Str} (h : next s ∉ opChars) : parse cfg arithOp true s = .fail := by
  simp only [arithOp, parse, run_lexeme]
  have h' : (skip true s).head? ∉ opChars := h
  cases hs : skip true s with
  | nil => rfl
  | cons c t =>
    rw [hs] at h'
    simp only [opChars, List.head?_cons, List.mem_cons, List.not_mem_nil, or_false, Option.some.injEq, not_or] at h'
    simp [step, skip, h'.2.1, h'.2.2.1, h'.2.2.2.1, h'.2.2.2.2]

theorem arithOp_ok {c : Char} {o r : Str} (hc : c ∈ ['+', '-', '*', '/']) (ho : Tok [c] o) :
    parse cfg arithOp true (o ++ r) = .ok c r := by
  obtain ⟨b, hb, rfl⟩ := ho
  have hs : isSpace c = false := by
    have : (['+', '-', '*', '/'].all fun c => !isSpace c) = true := by decide
    simpa using all_mem this hc
  simp only [arithOp, parse, run_lexeme, List.append_assoc, skip_blanks hb]
  rw [List.singleton_append, skip_bare (bare_cons hs)]
  have h1 : (c == '+' || c == '-' || c == '*' || c == '/') = true := by
    simp only [List.mem_cons, List.not_mem_nil, or_false] at hc
    rcases hc with rfl | rfl | rfl | rfl <;> rfl
  simp [step, skip, h1]

theorem bae_word {x y : Str} (hx : IdentShape x) (hy : NotContinued y) (hn : next y ∉ opChars) :
    parse cfg (.seq double (.seq arithOp double)) true (x ++ y) = .fail := by
  have hall := identShape_all hx
  have hop : ∀ {x' : Str}, (∀ c ∈ x', isIdChar c = true) → parse cfg (.seq arithOp double) true (x' ++ y) = .fail :=
    fun h => seq_fail (arithOp_fail (next_inWord h opChars_id hn))
  have hparen : ∀ {x' : Str}, (∀ c ∈ x', isIdChar c = true) → ∀ c t, x' ++ y = c :: t → (c == '(') = false := by
    intro x' h c t e
    cases hc : c == '(' with
    | false => rfl
    | true =>
      rw [beq_iff_eq] at hc; subst hc
      exact absurd (by rw [e]; exact List.mem_cons_self) (next_inWord h opChars_id hn)
  suffices h : parse cfg double true (x ++ y) = .fail ∨
      ∃ a x', parse cfg double true (x ++ y) = .ok a (x' ++ y) ∧ ∀ c ∈ x', isIdChar c = true by
    rcases h with h | ⟨a, x', h, h'⟩
    · exact seq_fail h
    · exact seq_fail2 h (hop h')
  have hb : Bare (x ++ y) := identShape_bare hx
  have hl : ∃ c t, x ++ y = c :: t ∧ isLetter c = true := by
    obtain ⟨c, t, rfl, hc, -⟩ := hx
    exact ⟨c, t ++ y, rfl, isLetter_iff.2 hc⟩
  rw [double, lexeme_bare hb]
  obtain ⟨c, t, e, hc⟩ := hl
  have h1 : parse cfg (optS (chS fun c => c == '+' || c == '-')) false (x ++ y) = .ok [] (x ++ y) := by
    refine optD_none (chS_rawFail ?_)
    intro d u e'
    rw [e] at e'; cases e'
    have h1 := letter_ne hc (d := '+') (by decide)
    have h2 := letter_ne hc (d := '-') (by decide)
    simp [h1, h2]
  have hnd : NoDigit (x ++ y) := by
    rw [e]
    refine noDigit_cons ?_
    cases hd : isDigit c with
    | false => rfl
    | true =>
      simp only [isDigit, Bool.and_eq_true, decide_eq_true_eq] at hd
      simp only [isLetter_toNat] at hc
      omega
  have h2 : parse cfg (cat (.alt (cat (plusS (chS isDigit)) (optS (cat (chS (· == '.')) (manyS (chS isDigit)))))
      (cat (chS (· == '.')) (plusS (chS isDigit)))) (optS (cat (chS fun c => c == 'E' || c == 'e')
      (cat (optS (chS fun c => c == '+' || c == '-')) (plusS (chS isDigit)))))) false (x ++ y) = .fail := by
    refine cat_fail (alt_fail (cat_fail (plus_noDigit hnd)) (cat_fail (chS_rawFail ?_)))
    intro d u e'
    rw [e] at e'; cases e'
    have h1 := letter_ne hc (d := '.') (by decide)
    simp [h1]
  have run : ∀ {p : G Str} {a r}, parse cfg p false (x ++ y) = .ok a r →
      parse cfg (cat (optS (chS fun c => c == '+' || c == '-')) p) false (x ++ y) = .ok a r := fun h => cat_ok (a := []) h1 h
  have stop : ∀ {p : G Str}, parse cfg p false (x ++ y) = .fail →
      parse cfg (cat (optS (chS fun c => c == '+' || c == '-')) p) false (x ++ y) = .fail := fun h => cat_fail2 h1 h
  have kwr : ∀ {w z : Str}, parse cfg (kw w) false z = match matchLit true w z with
      | some (t, r) => .ok t r
      | none => .fail := fun {w z} => lit_eq
  cases hn' : matchLit true cs!"nan" (x ++ y) with
  | some p =>
    obtain ⟨u, v⟩ := p
    obtain ⟨x', rfl, rfl⟩ := matchLit_inWord (by decide) hy hn'
    have hx' : ∀ c ∈ x', isIdChar c = true := fun c hc => hall c (by simp [hc])
    refine .inr ⟨u, x', run ((alt_right h2).trans (alt_left (cat_ok0 (r := x' ++ y) ?_ ?_))), hx'⟩
    · rw [kwr, hn']
    · exact optD_none (cat_fail (chS_rawFail (hparen hx')))
  | none =>
    have hnan : parse cfg (cat (kw cs!"nan") (optS (cat (chS (· == '(')) (cat (manyS (chS (· != ')'))) (chS (· == ')'))))))
        false (x ++ y) = .fail := cat_fail (by rw [kwr, hn'])
    cases hi : matchLit true cs!"inf" (x ++ y) with
    | none => exact .inl (stop ((alt_right h2).trans ((alt_right hnan).trans (cat_fail (by rw [kwr, hi])))))
    | some p =>
      obtain ⟨u, v⟩ := p
      obtain ⟨x', rfl, rfl⟩ := matchLit_inWord (by decide) hy hi
      have hx' : ∀ c ∈ x', isIdChar c = true := fun c hc => hall c (by simp [hc])
      have hinf : parse cfg (kw cs!"inf") false (u ++ x' ++ y) = .ok u (x' ++ y) := by rw [kwr, hi]
      cases hi' : matchLit true cs!"inity" (x' ++ y) with
      | none =>
        exact .inr ⟨u, x', run ((alt_right h2).trans ((alt_right hnan).trans (cat_ok0 hinf (optD_none (by rw [kwr, hi']))))), hx'⟩
      | some p =>
        obtain ⟨u', v'⟩ := p
        obtain ⟨x'', rfl, rfl⟩ := matchLit_inWord (by decide) hy hi'
        exact .inr ⟨u ++ u', x'', run ((alt_right h2).trans ((alt_right hnan).trans (cat_ok hinf (optD_ok (by rw [kwr, hi']))))),
          fun c hc => hx' c (by simp [hc])⟩

/-! ### Coordinates -/

/-- the first name of a column -/
theorem colT_name {S : Mode} {s r : Str} {c : ColRef} (h : ColT S s c) (hr : NotContinued r) (ho : next r ∉ opChars) :
    ∃ b x y, Blanks b ∧ s ++ r = b ++ (x ++ y) ∧ (IdentShape x ∨ Delimited x) ∧ NotContinued y ∧ next y ∉ opChars := by
  have hd : ∀ {d z : Str}, Tok cs!"." d → next (d ++ z) ∉ opChars := by
    intro d z h; rw [dot_next h]; decide
  cases h with
  | col hs hx =>
    obtain ⟨b, hb, rfl⟩ := hs
    exact ⟨b, _, _, hb, List.append_assoc _ _ _, hx.imp And.left id, hr, ho⟩
  | qc hs hx h1 =>
    obtain ⟨b, hb, rfl⟩ := hs
    exact ⟨b, _, _, hb, by simp only [List.append_assoc]; rfl, hx.imp And.left id, dot_notContinued h1, hd h1⟩
  | sqc hs hx h1 =>
    obtain ⟨b, hb, rfl⟩ := hs
    exact ⟨b, _, _, hb, by simp only [List.append_assoc]; rfl, hx.imp And.left id, dot_notContinued h1, hd h1⟩
  | csqc hs hx h1 =>
    obtain ⟨b, hb, rfl⟩ := hs
    exact ⟨b, _, _, hb, by simp only [List.append_assoc]; rfl, hx.imp And.left id, dot_notContinued h1, hd h1⟩
  | up hs hx h1 =>
    obtain ⟨b, hb, rfl⟩ := hs
    exact ⟨b, cs!"TAP_UPLOAD", _, hb, by simp only [List.append_assoc]; rfl, .inl (tap_start (y := [])).ident, tap_start.stop,
      by simp [next, isSpace]; decide⟩

/-- What may follow a coordinate. -/
def CoordEnd (r : Str) : Prop := ColEnd r ∧ NumEnd r ∧ next r ∉ opChars

theorem coordEnd_tok {c : Char} {s r : Str} (h : Tok [c] s) (hc : c ∈ [',', ')']) : CoordEnd (s ++ r) := by
  have hp : ([',', ')'].all fun c => !isSpace c && !isIdChar c && !(opChars.contains (some c)) && !(c == '"') && !(c == '(') && !(c == '.')) = true := by
    decide
  have hp := all_mem hp hc
  simp only [Bool.and_eq_true, Bool.not_eq_true', beq_eq_false_iff_ne] at hp
  have hn : next (s ++ r) = some c := tok_next h rfl hp.1.1.1.1.1
  have hnc : NotContinued (s ++ r) := tok_notContinued h rfl hp.1.1.1.1.2
  refine ⟨⟨hnc, ?_, ?_⟩, ⟨hnc, notHead_of_next (by decide) ?_, notHead_of_next (by decide) ?_⟩, ?_⟩
  · rw [hn]; intro e; cases e; exact hp.1.1.2 rfl
  · rw [hn]; intro e; cases e; exact hp.2 rfl
  · rw [hn]; intro e; cases e; exact hp.2 rfl
  · rw [hn]; intro e; cases e; exact hp.1.2 rfl
  · rw [hn]
    have := hp.1.1.1.2
    simpa using this

theorem bae_col {S : Mode} [Fits S cfg] {s r : Str} {c : ColRef} (h : ColT S s c) (hr : NotContinued r) (ho : next r ∉ opChars) :
    parse cfg (.seq double (.seq arithOp double)) true (s ++ r) = .fail := by
  obtain ⟨b, x, y, hb, e, hx, hy, hn⟩ := colT_name h hr ho
  rw [e, parse_blanks (by decide +kernel) (by decide +kernel) hb]
  rcases hx with hx | ⟨z, rfl, -⟩
  · exact bae_word hx hy hn
  · refine seq_fail (fail_head (by decide) (by simp) (by simp) ?_)
    decide +kernel

theorem coordNum_noCol {s x r : Str} (hs : Tok x s) (hx : CoordNum x) (hl : ∀ c t, x = c :: t → ¬ Letter c) :
    parse cfg columnReference true (s ++ r) = .fail := by
  obtain ⟨c, t, e, hc⟩ := coordNum_head hx
  have hsp : isSpace c = false := (coordNum_bare hc).1
  replace hc : c ∈ "0123456789.+-".toList := hc.resolve_right fun h => hl c t e (isLetter_iff.1 h)
  have hid : parse cfg identifier true (s ++ r) = .fail :=
    fail_among (cs := "0123456789.+-".toList) (by simp) (by simp) (by kernel_rfl) hc (tok_next hs e hsp)
  obtain ⟨b, hb, rfl⟩ := hs
  rw [List.append_assoc, parse_blanks (by simp) (by simp) hb] at hid ⊢
  subst e
  refine col_fail hid (tap_fail (bare_cons hsp) ?_)
  intro v e
  simp only [List.cons_append, List.cons.injEq] at e
  rw [e.1] at hc
  revert hc; decide

theorem numEnd_op {c : Char} {o r : Str} (hc : c ∈ ['+', '-', '*', '/']) (ho : Tok [c] o) : NumEnd (o ++ r) := by
  have hp : (['+', '-', '*', '/'].all fun c => !isSpace c && !isIdChar c && !(c == '(') && !(c == '.')) = true := by decide
  have hp := all_mem hp hc
  simp only [Bool.and_eq_true, Bool.not_eq_true', beq_eq_false_iff_ne] at hp
  refine ⟨tok_notContinued ho rfl hp.1.1.2, notHead_of_next (by decide) ?_, notHead_of_next (by decide) ?_⟩
  · rw [tok_next ho rfl hp.1.1.1]; intro e; cases e; exact hp.2 rfl
  · rw [tok_next ho rfl hp.1.1.1]; intro e; cases e; exact hp.1.2 rfl

theorem coordExpr_ok {S : Mode} [Fits S cfg] {s r : Str} {x : CoordExpr} (h : CoordT S s x) (hr : CoordEnd r) :
    parse cfg coordExpr true (s ++ r) = .ok x r := by
  cases h with
  | col h =>
    exact (alt_right (map_fail (bae_col h hr.1.1 hr.2.2))).trans (alt_left (map_ok (col_ok h hr.1)))
  | num hs hx hl =>
    have hd := double_ok (cfg := cfg) hs hx hr.2.1
    exact (alt_right (map_fail (seq_fail2 hd (seq_fail (arithOp_fail hr.2.2))))).trans
      ((alt_right (map_fail (coordNum_noCol hs hx hl))).trans (map_ok hd))
  | op hs hx hc ho ht hy =>
    simp only [List.append_assoc]
    exact alt_left (map_ok (f := fun x : Str × Char × Str => CoordExpr.bae x.1 x.2.1 x.2.2)
      (seq_ok (double_ok hs hx (numEnd_op hc ho)) (seq_ok (arithOp_ok hc ho) (double_ok ht hy hr.2.1))))

theorem coord_ok {S : Mode} [Fits S cfg] {s r : Str} {x : Coord} (h : PairT S s x) (hr : CoordEnd r) : parse cfg coord true (s ++ r) = .ok x r := by
  cases h with
  | mk hs hm ht =>
    simp only [List.append_assoc]
    exact map_ok (f := fun x : CoordExpr × CoordExpr => (⟨x.1, x.2⟩ : Coord))
      (seq_ok (coordExpr_ok hs (coordEnd_tok hm (by simp))) (seqR_ok (sym_ok1 (by decide) hm) (coordExpr_ok ht hr)))

theorem coords_ok {S : Mode} [Fits S cfg] {s r : Str} {l : List Coord} (h : PairsT S s l) (hr : CoordEnd r) (hc : next r ≠ some ',') :
    parse cfg (sepBy coord (sym cs!",")) true (s ++ r) = .ok l r := by
  induction h with
  | one h => exact sepBy_one (coord_ok h hr) (sym_fail hc)
  | cons h hm _ ih =>
    simp only [List.append_assoc]
    exact sepBy_cons rfl (coord_ok h (coordEnd_tok hm (by simp))) (sym_ok1 (by decide) hm) ih

theorem xCoordExpr_ok {S : Mode} [Fits S cfg] {s r : Str} {x : CoordExpr} (h : MoreT S s x) (hr : CoordEnd r) :
    parse cfg xCoordExpr true (s ++ r) = .ok x r := by
  cases h with
  | mk hm hs =>
    simp only [List.append_assoc]
    exact seqR_ok (expect_ok (sym_ok1 (by decide) hm)) (expect_ok (coordExpr_ok hs hr))

theorem moreT_end {S : Mode} {s r : Str} {x : CoordExpr} (h : MoreT S s x) : CoordEnd (s ++ r) := by
  cases h with
  | mk hm _ =>
    rw [List.append_assoc]
    exact coordEnd_tok hm (by simp)

/-! ### Shapes -/

theorem coordT_next {S : Mode} {s r : Str} {x : CoordExpr} (h : CoordT S s x) : next (s ++ r) ≠ some '\'' := by
  have num : ∀ {s x r : Str}, Tok x s → CoordNum x → next (s ++ r) ≠ some '\'' := by
    intro s x r hs hx
    obtain ⟨c, t, e, hc⟩ := coordNum_head hx
    have hp := coordNum_bare hc
    rw [tok_next hs e hp.1]
    intro e; cases e; exact hp.2 rfl
  have name : ∀ {s x r : Str}, Tok x s → NameT x → next (s ++ r) ≠ some '\'' := by
    intro s x r hs hx
    rcases hx with ⟨⟨c, t, rfl, hc, -⟩, -⟩ | ⟨z, rfl, -⟩
    · have hl := isLetter_iff.2 hc
      rw [tok_next hs rfl (isLetter_not_space hl)]
      intro e; cases e; exact absurd hl (by decide)
    · rw [tok_next hs rfl (by decide)]; decide
  cases h with
  | col h =>
    cases h with
    | col hs hx => exact name hs hx
    | qc hs hx => simp only [List.append_assoc]; exact name hs hx
    | sqc hs hx => simp only [List.append_assoc]; exact name hs hx
    | csqc hs hx => simp only [List.append_assoc]; exact name hs hx
    | up hs => simp only [List.append_assoc]; rw [tok_next hs rfl (by decide)]; decide
  | num hs hx => exact num hs hx
  | op hs hx => simp only [List.append_assoc]; exact num hs hx

theorem pairT_next {S : Mode} {s r : Str} {x : Coord} (h : PairT S s x) : next (s ++ r) ≠ some '\'' := by
  cases h with
  | mk hs _ _ => simp only [List.append_assoc]; exact coordT_next hs

theorem pairsT_next {S : Mode} {s r : Str} {l : List Coord} (h : PairsT S s l) : next (s ++ r) ≠ some '\'' := by
  cases h with
  | one h => exact pairT_next h
  | cons h _ _ => simp only [List.append_assoc]; exact pairT_next h

theorem sys_ok {y z : Str} {c : CoordSys} (h : SysT y c) (hz : next z ≠ some '\'') :
    parse cfg optCoordSys true (y ++ z) = .ok c z := by
  cases h with
  | none =>
    refine C35_missing cfg z fun t e => hz ?_
    simp only [next, e, List.head?_cons]
  | some hb hu hm =>
    simp only [List.append_assoc]
    exact optD_ok (seqL_ok (C35_written cfg _ _ _ hb c hu) (expect_ok (sym_ok1 (by decide) hm)))

theorem head_ok {w h z : Str} {c : CoordSys} (hs : wordShape w = true) (hh : ShapeHead w h c) (hz : next z ≠ some '\'') :
    parse cfg (shapeHead w) true (h ++ z) = .ok c z := by
  cases hh with
  | mk hk ho hy =>
    simp only [List.append_assoc]
    exact seqR_ok (kw_ok hk hs (tok_notContinued ho rfl (by decide))) (seqR_ok (sym_ok1 (by decide) ho) (sys_ok hy hz))

/-- another word -/
theorem head_fail {w w' h z : Str} {c : CoordSys} (hs : wordShape w = true) (hh : ShapeHead w h c)
    (hw : (w'.all isIdChar && !prefixCI w' w) = true) : parse cfg (shapeHead w') true (h ++ z) = .fail := by
  cases hh with
  | @mk k t o y c hk ho hy =>
    simp only [List.append_assoc]
    obtain ⟨b, hb, e, hk⟩ := kw_split hk hs (tok_notContinued (r := y ++ z) ho rfl (by decide))
    refine seqR_fail (kw_fail ?_)
    rw [e, skip_blanks hb, skip_bare hk.bare]
    exact hk.none hw

theorem point_ok {S : Mode} [Fits S cfg] {s r : Str} {p : Point} (h : PointT S s p) : parse cfg point true (s ++ r) = .ok p r := by
  cases h with
  | mk hh hs he =>
    simp only [List.append_assoc]
    exact map_ok (f := fun x : CoordSys × Coord => (⟨x.1, x.2⟩ : Point)) (seq_ok (head_ok (by decide) hh (pairT_next hs))
      (seqL_ok (expect_ok (coord_ok hs (coordEnd_tok he (by simp)))) (expect_ok (sym_ok1 (by decide) he))))

theorem shape_ok {S : Mode} [Fits S cfg] {s r : Str} {x : Shape} (h : ShapeT S s x) : parse cfg shape true (s ++ r) = .ok x r := by
  have no : ∀ {w h z : Str} {c : CoordSys} {w' : Str} {α β : Type} {f : CoordSys × α → β} {q : G α}, ShapeHead w h c →
      (w'.all isIdChar && !prefixCI w' w) = true → wordShape w = true →
      parse cfg (.map f (.seq (shapeHead w') q)) true (h ++ z) = .fail :=
    fun hh hw hs => map_fail (seq_fail (head_fail hs hh hw))
  cases h with
  | point h => exact alt_left (map_ok (point_ok h))
  | circle hh hs ht he =>
    simp only [List.append_assoc]
    refine (alt_right (map_fail (no hh (by decide) (by decide)))).trans (alt_left ?_)
    exact map_ok (f := fun x : CoordSys × Coord × CoordExpr => Shape.circle x.1 x.2.1 x.2.2)
      (seq_ok (head_ok (by decide) hh (pairT_next hs)) (seq_ok (expect_ok (coord_ok hs (moreT_end ht)))
        (seqL_ok (xCoordExpr_ok ht (coordEnd_tok he (by simp))) (expect_ok (sym_ok1 (by decide) he)))))
  | box hh hs ht hu he =>
    simp only [List.append_assoc]
    refine (alt_right (map_fail (no hh (by decide) (by decide)))).trans ((alt_right (no hh (by decide) (by decide))).trans (alt_left ?_))
    exact map_ok (f := fun x : CoordSys × Coord × CoordExpr × CoordExpr => Shape.box x.1 x.2.1 x.2.2.1 x.2.2.2)
      (seq_ok (head_ok (by decide) hh (pairT_next hs)) (seq_ok (expect_ok (coord_ok hs (moreT_end ht)))
        (seq_ok (xCoordExpr_ok ht (moreT_end hu))
          (seqL_ok (xCoordExpr_ok hu (coordEnd_tok he (by simp))) (expect_ok (sym_ok1 (by decide) he))))))
  | ellipse hh hs ht hu hv he =>
    simp only [List.append_assoc]
    refine (alt_right (map_fail (no hh (by decide) (by decide)))).trans ((alt_right (no hh (by decide) (by decide))).trans
      ((alt_right (no hh (by decide) (by decide))).trans (alt_left ?_)))
    exact map_ok (f := fun x : CoordSys × Coord × CoordExpr × CoordExpr × CoordExpr => Shape.ellipse x.1 x.2.1 x.2.2.1 x.2.2.2.1 x.2.2.2.2)
      (seq_ok (head_ok (by decide) hh (pairT_next hs)) (seq_ok (expect_ok (coord_ok hs (moreT_end ht)))
        (seq_ok (xCoordExpr_ok ht (moreT_end hu)) (seq_ok (xCoordExpr_ok hu (moreT_end hv))
          (seqL_ok (xCoordExpr_ok hv (coordEnd_tok he (by simp))) (expect_ok (sym_ok1 (by decide) he)))))))
  | polygon hh hs he =>
    simp only [List.append_assoc]
    refine (alt_right (map_fail (no hh (by decide) (by decide)))).trans ((alt_right (no hh (by decide) (by decide))).trans
      ((alt_right (no hh (by decide) (by decide))).trans ((alt_right (no hh (by decide) (by decide))).trans ?_)))
    exact map_ok (f := fun x : CoordSys × List Coord => Shape.polygon x.1 x.2)
      (seq_ok (head_ok (by decide) hh (pairsT_next hs)) (seqL_ok (expect_ok (coords_ok hs (coordEnd_tok he (by simp))
        (by rw [tok_next he rfl (by decide)]; decide))) (expect_ok (sym_ok1 (by decide) he))))

/-- A column is no shape. -/
theorem head_col {S : Mode} [Fits S cfg] {s r : Str} {c : ColRef} {w : Str} (hw : (w.all isIdChar && startsLetter w) = true) (h : ColT S s c) (hr : NotContinued r)
    (ho : next r ∉ opChars) : parse cfg (shapeHead w) true (s ++ r) = .fail := by
  rw [Bool.and_eq_true] at hw
  obtain ⟨b, x, y, hb, e, hx, hy, hn⟩ := colT_name h hr ho
  have hn' : ∀ {x' : Str}, (∀ c ∈ x', isIdChar c = true) → next (x' ++ y) ≠ some '(' := by
    intro x' h e
    exact next_inWord h opChars_id hn (by rw [e]; decide)
  have hbare : Bare (x ++ y) := by
    rcases hx with hx | ⟨z, rfl, -⟩
    · exact identShape_bare hx
    · exact bare_cons (by decide)
  have kwr : parse cfg (kw w) true (s ++ r) = match matchLit true w (x ++ y) with
      | some (t, r) => .ok t r
      | none => .fail := by
    rw [e, kw, lit_eq, skip_blanks hb, skip_bare hbare]
    rfl
  rcases hx with hx | hx
  · cases hm : matchLit true w (x ++ y) with
    | none => exact seqR_fail (by rw [kwr, hm])
    | some p =>
      obtain ⟨t, v⟩ := p
      obtain ⟨x', rfl, rfl⟩ := matchLit_inWord hw.1 hy hm
      exact seqR_fail2 (r := x' ++ y) (by rw [kwr, hm]) (seqR_fail (sym_fail (hn' fun c hc => identShape_all hx c (by simp [hc]))))
  · exact seqR_fail (by rw [kwr, matchLit_noLetter' hw.2 (delimited_noLetter hx)])

theorem pointOrColumn_ok {S : Mode} [Fits S cfg] {s r : Str} {p : PointOrCol} (h : PointColT S s p) (hr : CoordEnd r) :
    parse cfg pointOrColumn true (s ++ r) = .ok p r := by
  cases h with
  | point h => exact alt_left (map_ok (point_ok h))
  | col h =>
    exact (alt_right (map_fail (map_fail (seq_fail (head_col (by decide) h hr.1.1 hr.2.2))))).trans (map_ok (col_ok h hr.1))

theorem shapeOrColumn_ok {S : Mode} [Fits S cfg] {s r : Str} {p : ShapeOrCol} (h : ShapeColT S s p) (hr : CoordEnd r) :
    parse cfg shapeOrColumn true (s ++ r) = .ok p r := by
  cases h with
  | shape h => exact alt_left (map_ok (shape_ok h))
  | col h =>
    refine (alt_right (map_fail ?_)).trans (map_ok (col_ok h hr.1))
    refine alt_fail (map_fail (map_fail (seq_fail (head_col (by decide) h hr.1.1 hr.2.2)))) ?_
    refine alt_fail (map_fail (seq_fail (head_col (by decide) h hr.1.1 hr.2.2))) ?_
    refine alt_fail (map_fail (seq_fail (head_col (by decide) h hr.1.1 hr.2.2))) ?_
    exact alt_fail (map_fail (seq_fail (head_col (by decide) h hr.1.1 hr.2.2)))
      (map_fail (seq_fail (head_col (by decide) h hr.1.1 hr.2.2)))

end Adql.Fwd
