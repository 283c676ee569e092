import Verif.Model.AcceptTok

/-!
# Running the grammar forward: literals and keywords
-/

namespace Adql.Fwd

open P Spec

variable {cfg : Config} {sk : Bool}

/-! ### Numerals -/

theorem digits_last {d : Str} (h : Digits d) : ∃ u c, d = u ++ [c] ∧ Digit c := by
  obtain ⟨h0, h1⟩ := h
  refine ⟨d.dropLast, d.getLast h0, (List.dropLast_concat_getLast h0).symm, h1 _ (List.getLast_mem h0)⟩

theorem mantissa_last {m : Str} (h : Mantissa m) : ∃ u c, m = u ++ [c] ∧ Digit c := by
  cases h with
  | int h => exact digits_last h
  | @dec d f h1 h2 =>
    obtain ⟨u, c, rfl, hc⟩ := digits_last h2
    exact ⟨d ++ '.' :: u, c, by simp, hc⟩
  | @frac f h2 =>
    obtain ⟨u, c, rfl, hc⟩ := digits_last h2
    exact ⟨'.' :: u, c, by simp, hc⟩

theorem numLit_last {t : Str} (h : NumLit t) : ∃ u c, t = u ++ [c] ∧ Digit c := by
  cases h with
  | exact h => exact mantissa_last h
  | @approx m e h1 h2 =>
    cases h2 with
    | @mk e d _ h3 =>
      obtain ⟨u, c, rfl, hc⟩ := digits_last h3
      exact ⟨m ++ e :: u, c, by simp, hc⟩
    | @signed e g d _ _ h3 =>
      obtain ⟨u, c, rfl, hc⟩ := digits_last h3
      exact ⟨m ++ e :: g :: u, c, by simp, hc⟩

/-- the characters of a mantissa -/
theorem mantissa_chars {m : Str} (h : Mantissa m) : ∀ c ∈ m, Digit c ∨ c = '.' := by
  intro c hc
  cases h with
  | int h => exact .inl (h.2 c hc)
  | dec h1 h2 =>
    simp only [List.mem_append, List.mem_cons] at hc
    rcases hc with hc | rfl | hc
    · exact .inl (h1.2 c hc)
    · exact .inr rfl
    · exact .inl (h2.2 c hc)
  | frac h2 =>
    simp only [List.mem_cons] at hc
    rcases hc with rfl | hc
    · exact .inr rfl
    · exact .inl (h2.2 c hc)

theorem digit_ne {c d : Char} (h : Digit c) (hd : isDigit d = false) : c ≠ d := by
  rintro rfl
  rw [isDigit_iff.2 h] at hd; cases hd

theorem numLit_sign {u z : Str} {g : Char} (hg : g = '+' ∨ g = '-') (h : NumLit (u ++ g :: z)) :
    ∃ v e, u = v ++ [e] ∧ (e = 'E' ∨ e = 'e') := by
  have hgm : ∀ {m : Str}, Mantissa m → g ∉ m := by
    intro m hm hc
    rcases mantissa_chars hm g hc with h1 | h1
    · rcases hg with rfl | rfl
      · exact digit_ne h1 (by decide) rfl
      · exact digit_ne h1 (by decide) rfl
    · rcases hg with rfl | rfl <;> cases h1
  have hgd : ∀ {m : Str}, Digits m → g ∉ m := fun hm => hgm (.int hm)
  generalize hw : u ++ g :: z = w at h
  cases h with
  | exact h => exact absurd (by rw [← hw]; simp) (hgm h)
  | @approx m e h1 h2 =>
    rcases List.append_eq_append_iff.1 hw with ⟨a, h3, h4⟩ | ⟨a, h3, h4⟩
    · -- `m = u ++ a`, `g :: z = a ++ e`
      cases a with
      | nil =>
        simp at h4
        cases h2 with
        | mk h5 h6 => injection h4 with h7; subst h7; rcases hg with rfl | rfl <;> rcases h5 with h5 | h5 <;> cases h5
        | signed h5 _ h6 => injection h4 with h7; subst h7; rcases hg with rfl | rfl <;> rcases h5 with h5 | h5 <;> cases h5
      | cons x a =>
        simp at h4
        exact absurd (by rw [h3, h4.1]; simp) (hgm h1)
    · -- `u = m ++ a`, `e = a ++ g :: z`
      cases h2 with
      | @mk e d h5 h6 =>
        cases a with
        | nil => simp at h4; rcases hg with rfl | rfl <;> rcases h5 with h5 | h5 <;> rw [h5] at h4 <;> simp at h4
        | cons x a =>
          simp at h4
          exact absurd (by rw [h4.2]; simp) (hgd h6)
      | @signed e g' d h5 h7 h6 =>
        cases a with
        | nil => simp at h4; rcases hg with rfl | rfl <;> rcases h5 with h5 | h5 <;> rw [h5] at h4 <;> simp at h4
        | cons x a =>
          simp at h4
          cases a with
          | nil => exact ⟨m, x, h3, by rw [← h4.1]; exact h5⟩
          | cons y a =>
            simp at h4
            exact absurd (by rw [h4.2.2]; simp) (hgd h6)

/-- the characters of a numeral -/
theorem numLit_chars {t : Str} (h : NumLit t) :
    ∀ c ∈ t, isIdChar c = true ∨ c = '.' ∨ c = '+' ∨ c = '-' := by
  have hd : ∀ {c}, Digit c → isIdChar c = true := by
    intro c h; simp [isIdChar, isDigit_iff.2 h]
  have hm : ∀ {m : Str}, Mantissa m → ∀ c ∈ m, isIdChar c = true ∨ c = '.' ∨ c = '+' ∨ c = '-' := by
    intro m hm c hc
    rcases mantissa_chars hm c hc with h1 | h1
    · exact .inl (hd h1)
    · exact .inr (.inl h1)
  intro c hc
  cases h with
  | exact h => exact hm h c hc
  | approx h1 h2 =>
    rcases List.mem_append.1 hc with hc | hc
    · exact hm h1 c hc
    · cases h2 with
      | mk h5 h6 =>
        rcases List.mem_cons.1 hc with rfl | hc
        · left; rcases h5 with rfl | rfl <;> decide
        · exact .inl (hd (h6.2 c hc))
      | signed h5 h7 h6 =>
        rcases List.mem_cons.1 hc with rfl | hc
        · left; rcases h5 with rfl | rfl <;> decide
        · rcases List.mem_cons.1 hc with rfl | hc
          · rcases h7 with h7 | h7
            · exact .inr (.inr (.inl h7))
            · exact .inr (.inr (.inr h7))
          · exact .inl (hd (h6.2 c hc))

/-- A numeral ends where no word character and no dot follows. -/
theorem num_maximal {a r : Str} (h : NumLit a) (hr : NotContinued r) (hdot : NotHead '.' r) :
    ∀ a', NumLit a' → a' <+: a ++ r → a'.length ≤ a.length := by
  intro a' h' hp
  rcases Nat.lt_or_ge a.length a'.length with hl | hl
  · exfalso
    obtain ⟨z, hz⟩ := hp
    rcases List.append_eq_append_iff.1 hz with ⟨w, h1, h2⟩ | ⟨w, h1, h2⟩
    · rw [h1, List.length_append] at hl; omega
    · cases w with
      | nil => rw [h1] at hl; simp at hl
      | cons c w =>
        have hc := numLit_chars h' c (by rw [h1]; simp)
        have hr1 := notContinued_iff.1 hr c (w ++ z) (by rw [h2]; rfl)
        rcases hc with hc | rfl | hc
        · rw [hr1] at hc; cases hc
        · exact hdot _ h2
        · rw [h1] at h'
          obtain ⟨v, e, h3, h4⟩ := numLit_sign hc h'
          obtain ⟨u, d, h5, h6⟩ := numLit_last h
          rw [h5] at h3
          have h7 := List.append_inj_right' h3 rfl
          injection h7 with h7
          rcases h4 with rfl | rfl <;> exact digit_ne h6 (by decide) h7
  · exact hl

theorem num_ok {a r : Str} (h : NumLit a) (hr : NotContinued r) (hdot : NotHead '.' r) :
    parse cfg unsignedNumeric sk (a ++ r) = .ok a r := by
  rw [C08_numeric_literal]
  exact ⟨[], rfl, blank_nil _, h, num_maximal h hr hdot⟩

theorem mantissa_start {m : Str} (h : Mantissa m) : ∃ c t, m = c :: t ∧ (Digit c ∨ c = '.') := by
  obtain ⟨u, d, hm, -⟩ := mantissa_last h
  cases m with
  | nil => simp at hm
  | cons c t => exact ⟨c, t, rfl, mantissa_chars h c (by simp)⟩

theorem numLit_start {t : Str} (h : NumLit t) : ∃ c u, t = c :: u ∧ (Digit c ∨ c = '.') := by
  cases h with
  | exact h => exact mantissa_start h
  | approx h1 _ =>
    obtain ⟨c, u, rfl, h⟩ := mantissa_start h1
    exact ⟨c, _, rfl, h⟩

theorem digit_mem {c : Char} (h : Digit c ∨ c = '.') : c ∈ "0123456789.".toList := by
  rcases h with h | rfl
  · have h1 := isDigit_iff.2 h
    simp only [isDigit, Bool.and_eq_true, decide_eq_true_eq] at h1
    have h2 : c = Char.ofNat c.toNat := (Char.ofNat_toNat c).symm
    have h3 : c.toNat = 48 ∨ c.toNat = 49 ∨ c.toNat = 50 ∨ c.toNat = 51 ∨ c.toNat = 52 ∨ c.toNat = 53 ∨
      c.toNat = 54 ∨ c.toNat = 55 ∨ c.toNat = 56 ∨ c.toNat = 57 := by omega
    rcases h3 with h3 | h3 | h3 | h3 | h3 | h3 | h3 | h3 | h3 | h3 <;> rw [h3] at h2 <;> rw [h2] <;> decide
  · decide

/-! ### Strings -/

theorem seps_start {x t : Str} (h : Seps x) :
    next (x ++ '\'' :: t) = some '\'' ∨ ∃ v, (x ++ '\'' :: t).dropWhile isSpace = '-' :: '-' :: v := by
  induction h with
  | one h =>
    cases h with
    | blank => left; rfl
    | newline => left; rfl
    | @comment u _ => right; exact ⟨u ++ ['\n'] ++ '\'' :: t, by simp [isSpace]⟩
  | @cons x u h1 h2 ih =>
    cases h1 with
    | blank =>
      rw [List.append_assoc]
      have : ∀ v, next ([' '] ++ v) = next v := fun v => rfl
      rw [this]
      simpa [isSpace] using ih
    | newline =>
      rw [List.append_assoc]
      have : ∀ v, next (['\n'] ++ v) = next v := fun v => rfl
      rw [this]
      simpa [isSpace] using ih
    | @comment w _ => right; exact ⟨w ++ ['\n'] ++ (u ++ '\'' :: t), by simp [isSpace]⟩

/-- What may follow a string. -/
def StrEnd (r : Str) : Prop := next r ≠ some '\'' ∧ ¬ ∃ t, r.dropWhile isSpace = '-' :: '-' :: t

theorem str_ok {a r : Str} (h : StrLit a) (hr : StrEnd r) :
    parse cfg charString sk (a ++ r) = .ok a r := by
  rw [C07_string_literal]
  refine ⟨[], rfl, blank_nil _, h, notHead_of_next (by decide) hr.1, ?_⟩
  rintro ⟨x, p, v, rfl, hx, ⟨b, rfl, -⟩, -⟩
  have := seps_start (t := b ++ '\'' :: v) hx
  simp only [List.cons_append, List.append_assoc, List.nil_append] at hr
  rcases this with h1 | h1
  · exact hr.1 h1
  · exact hr.2 h1

theorem strLit_start {a : Str} (h : StrLit a) : ∃ t, a = '\'' :: t := by
  obtain ⟨p, u, rfl, ⟨b, rfl, -⟩, -⟩ := h
  exact ⟨_, rfl⟩

/-! ### Failing at a character -/

/-- An expression that cannot start at the next character fails. -/
theorem fail_at {α : Type} {p : G α} {c : Char} {s : Str} (hc : p.consumes = true)
    (hw : P.wf rank 4 4 p = true) (hi : p.idle deadF (some c) = true) (h : next s = some c) :
    parse cfg p true s = .fail := by
  apply parse_idle hc hw
  have : (skip true s).head? = next s := rfl
  rw [this, h, hi]

theorem fail_among {α : Type} {p : G α} {cs : Str} {c : Char} {s : Str} (hc : p.consumes = true)
    (hw : P.wf rank 4 4 p = true) (hi : (cs.all fun c => p.idle deadF (some c)) = true)
    (hm : c ∈ cs) (h : next s = some c) : parse cfg p true s = .fail :=
  fail_at hc hw (List.all_eq_true.1 hi c hm) h

/-! ### Keywords as first words -/

theorem sameCI_prefixCI {t w : Str} (h : SameCI t w) (w' : Str) : prefixCI w' t = prefixCI w' w := by
  unfold prefixCI; rw [h]

theorem sameCI_trans' {t w w' : Str} (h : SameCI t w) : SameCI t w' ↔ SameCI w w' := by
  unfold SameCI at h ⊢; rw [h]

/-- a word with the shape of a name -/
def wordShape : Str → Bool
  | [] => false
  | c :: t => isLetter c && t.all isIdChar

theorem wordShape_iff {x : Str} : wordShape x = true ↔ IdentShape x := by
  cases x with
  | nil => simp [wordShape, IdentShape]
  | cons c t =>
    simp only [wordShape, Bool.and_eq_true, List.all_eq_true, IdentShape]
    constructor
    · rintro ⟨h1, h2⟩
      exact ⟨c, t, rfl, isLetter_iff.1 h1, fun d hd => isIdChar_iff.1 (h2 d hd)⟩
    · rintro ⟨c', t', e, h1, h2⟩
      cases e
      exact ⟨isLetter_iff.2 h1, fun d hd => isIdChar_iff.2 (h2 d hd)⟩

theorem wordShape_sameCI : ∀ {t w : Str}, SameCI t w → wordShape t = wordShape w
  | [], [], _ => rfl
  | [], _ :: _, h => by simp [SameCI] at h
  | _ :: _, [], h => by simp [SameCI] at h
  | c :: t, d :: w, h => by
    simp only [SameCI, List.map_cons, List.cons.injEq] at h
    have h1 : isLetter c = isLetter d := by rw [← isLetter_lowerC c, h.1, isLetter_lowerC]
    have h2 : ∀ {t w : Str}, t.map lowerC = w.map lowerC → t.all isIdChar = w.all isIdChar := by
      intro t
      induction t with
      | nil => intro w h; cases w <;> simp_all
      | cons x t ih =>
        intro w h
        cases w with
        | nil => simp at h
        | cons y w =>
          simp only [List.map_cons, List.cons.injEq] at h
          have : isIdChar x = isIdChar y := by rw [← isIdChar_lowerC x, h.1, isIdChar_lowerC]
          simp only [List.all_cons, ih h.2, this]
    simp only [wordShape, h1, h2 h.2]

/-- the word differs from all the words of the list -/
def offAll (ws : List Str) (w : Str) : Bool :=
  ws.all fun w' => w'.all isIdChar && !(w.map lowerC == w'.map lowerC)

/-- `u` starts with the keyword `w`, written as `t`; `y` follows. -/
structure KwStart (w t y : Str) : Prop where
  shape : wordShape w = true
  same : SameCI t w
  stop : NotContinued y

namespace KwStart

variable {w t y : Str}

theorem ident (h : KwStart w t y) : IdentShape t :=
  wordShape_iff.1 ((wordShape_sameCI h.same).trans h.shape)

theorem bare (h : KwStart w t y) : Bare (t ++ y) := identShape_bare h.ident

theorem apart (h : KwStart w t y) {ws : List Str} (hw : offAll ws w = true) :
    ∀ w' ∈ ws, Apart w' (t ++ y) := by
  intro w' hm
  have h1 := List.all_eq_true.1 hw w' hm
  simp only [Bool.and_eq_true, Bool.not_eq_true', beq_eq_false_iff_ne] at h1
  apply apart_word h1.1 h.ident h.stop
  intro h2
  exact h1.2 ((sameCI_trans' h.same).1 h2)

theorem none (h : KwStart w t y) {w' : Str} (h1 : (w'.all isIdChar && !prefixCI w' w) = true) :
    matchLit true w' (t ++ y) = none := by
  simp only [Bool.and_eq_true, Bool.not_eq_true'] at h1
  exact matchLit_prefix h1.1 h.stop (by rw [sameCI_prefixCI h.same]; exact h1.2)

theorem reserved (h : KwStart w t y) (hr : Reserved w) : Reserved t := by
  obtain ⟨m, hm, h1⟩ := hr
  exact ⟨m, hm, (sameCI_trans' h.same).2 h1⟩

theorem no_ident (h : KwStart w t y) (hr : Reserved w)
    (hm : offAll (cs!"END" :: missed) w = true) : parse cfg identifier sk (t ++ y) = .fail := by
  apply ident_reserved h.ident h.stop (h.reserved hr)
  · rintro ⟨m, hm1, h2⟩
    have h1 := List.all_eq_true.1 hm m (by simp [hm1])
    simp only [Bool.and_eq_true, Bool.not_eq_true', beq_eq_false_iff_ne] at h1
    exact h1.2 ((sameCI_trans' h.same).1 h2)
  · intro h2
    have h1 := List.all_eq_true.1 hm cs!"END" (by simp)
    simp only [Bool.and_eq_true, Bool.not_eq_true', beq_eq_false_iff_ne] at h1
    exact h1.2 ((sameCI_trans' h.same).1 h2)

theorem no_regular (h : KwStart w t y) (hr : Reserved w)
    (hm : offAll (cs!"END" :: missed) w = true) : parse cfg regularIdentifier sk (t ++ y) = .fail := by
  apply regular_reserved h.ident h.stop (h.reserved hr)
  · rintro ⟨m, hm1, h2⟩
    have h1 := List.all_eq_true.1 hm m (by simp [hm1])
    simp only [Bool.and_eq_true, Bool.not_eq_true', beq_eq_false_iff_ne] at h1
    exact h1.2 ((sameCI_trans' h.same).1 h2)
  · intro h2
    have h1 := List.all_eq_true.1 hm cs!"END" (by simp)
    simp only [Bool.and_eq_true, Bool.not_eq_true', beq_eq_false_iff_ne] at h1
    exact h1.2 ((sameCI_trans' h.same).1 h2)

end KwStart

/-- The first word of the list that begins `w` is `w`. -/
def picks (ws : List Str) (w : Str) : Bool :=
  match ws.find? fun w' => prefixCI w' w with
  | some w' => w'.map lowerC == w.map lowerC
  | none => false

theorem firstLit_picks {t y w : Str} (h : KwStart w t y) :
    ∀ {ws : List Str}, (ws.all fun w' => w'.all isIdChar) = true → picks ws w = true →
      firstLit ws (t ++ y) = some (t, y)
  | [], _, hp => by simp [picks] at hp
  | w' :: ws, ha, hp => by
    simp only [List.all_cons, Bool.and_eq_true] at ha
    simp only [firstLit, List.findSome?_cons]
    cases hx : prefixCI w' w with
    | false =>
      rw [h.none (by simp only [ha.1, hx]; rfl)]
      have hp' : picks ws w = true := by
        simp only [picks, List.find?_cons, hx] at hp
        exact hp
      exact firstLit_picks h ha.2 hp'
    | true =>
      simp only [picks, List.find?_cons, hx, beq_iff_eq] at hp
      have : matchLit true w' (t ++ y) = some (t, y) := by
        apply matchLit_iff.2
        exact ⟨rfl, litOK_ci.2 (h.same.trans hp.symm)⟩
      rw [this]

theorem anyKw_picks {t y w : Str} (h : KwStart w t y) {ws : List Str}
    (ha : (ws.all fun w' => w'.all isIdChar) = true) (hp : picks ws w = true) :
    parse cfg (anyKw ws) sk (t ++ y) = .ok t y := by
  simp only [parse, run_anyKw, skip_bare h.bare, firstLit_picks h ha hp]

theorem kw_start {t y w : Str} (h : KwStart w t y) : parse cfg (kw w) sk (t ++ y) = .ok t y := by
  simp only [kw, lit_eq, skip_bare h.bare, matchLit_iff.2 ⟨rfl, litOK_ci.2 h.same⟩]

theorem lexeme_bare {α : Type} {p : G α} {u : Str} (hu : Bare u) :
    parse cfg (.lexeme p) sk u = parse cfg p false u := by
  simp only [parse, run_lexeme, skip_bare hu]

theorem andNonId_ok {y : Str} (h : NotContinued y) (h0 : y ≠ []) :
    parse cfg andNonId false y = .ok () y := by
  cases y with
  | nil => exact absurd rfl h0
  | cons c y =>
    have := notContinued_iff.1 h c y rfl
    simp [andNonId, parse, step, skip, this]

theorem andNonId_idChar {c : Char} {v : Str} (h : isIdChar c = true) :
    parse cfg andNonId false (c :: v) = .fail := by
  simp [andNonId, parse, step, skip, h]

end Adql.Fwd
