import Verif.Model.Scan
import Verif.Spec.Lex

/-!
# Exact description of the rules for identifiers
-/

namespace Adql

/-! ### Literals -/

theorem matchLit_iff {ci : Bool} {w s t r : Str} :
    matchLit ci w s = some (t, r) ↔ s = t ++ r ∧ LitOK ci w t := by
  constructor
  · exact matchLit_ok
  · rintro ⟨rfl, h⟩
    induction w generalizing t with
    | nil =>
      cases t with
      | nil => rfl
      | cons d t => cases ci <;> simp [LitOK] at h
    | cons c w ih =>
      cases t with
      | nil => cases ci <;> simp [LitOK] at h
      | cons d t =>
        cases ci with
        | false =>
          simp [LitOK] at h
          obtain ⟨rfl, rfl⟩ := h
          have := ih (t := t) (by simp [LitOK])
          simp only [List.cons_append, matchLit, this]; simp
        | true =>
          simp [LitOK] at h
          have := ih (t := t) (by simp [LitOK]; exact h.2)
          simp only [List.cons_append, matchLit, this, h.1]; simp

theorem matchLit_none {ci : Bool} {w s : Str} :
    matchLit ci w s = none ↔ ∀ t r, s = t ++ r → ¬ LitOK ci w t := by
  constructor
  · intro h t r hs hl
    rw [matchLit_iff.2 ⟨hs, hl⟩] at h; cases h
  · intro h
    cases h' : matchLit ci w s with
    | none => rfl
    | some x =>
      obtain ⟨t, r⟩ := x
      obtain ⟨h1, h2⟩ := matchLit_iff.1 h'
      exact absurd h2 (h t r h1)

theorem litOK_ci {w t : Str} : LitOK true w t ↔ t.map lowerC = w.map lowerC := by simp [LitOK]

theorem litOK_cs {w t : Str} : LitOK false w t ↔ t = w := by simp [LitOK]

theorem litOK_length {ci : Bool} {w t : Str} (h : LitOK ci w t) : t.length = w.length := by
  cases ci with
  | false => rw [litOK_cs.1 h]
  | true => simpa using congrArg List.length (litOK_ci.1 h)

/-- The first literal of a list that matches. -/
def firstLit (ws : List Str) (s : Str) : Option (Str × Str) :=
  ws.findSome? fun w => matchLit true w s

section
variable {rec : (n : Rule) → Bool → Str → Res (Attr n)} {sk : Bool} {s : Str}
open P

theorem run_anyKw (ws : List Str) : step rec (anyKw ws) sk s =
    match firstLit ws (skip sk s) with
    | some (t, r) => .ok t r
    | none => .fail := by
  induction ws with
  | nil => simp [anyKw, failP, step, firstLit]; cases skip sk s <;> simp
  | cons w ws ih =>
    simp only [anyKw, run_alt, ih, kw, step, firstLit, List.findSome?_cons]
    cases h : matchLit true w (skip sk s) with
    | none => simp
    | some x => simp

/-- What `keyword` sees at the start of `s`. -/
def keywordAt (s : Str) : Bool :=
  match firstLit Spec.words s with
  | some (_, []) => true
  | some (_, c :: _) => !isIdChar c
  | none => false

theorem firstLit_append (us ws : List Str) (s : Str) :
    firstLit (us ++ ws) s = (firstLit us s).or (firstLit ws s) := by
  simp [firstLit, List.findSome?_append]

theorem run_keyword : (keywordAt (skip sk s) = true → ∃ t r, step rec keyword sk s = .ok t r) ∧
    (keywordAt (skip sk s) = false → step rec keyword sk s = .fail) := by
  have h0 : ∀ s, skip false s = s := fun s => rfl
  simp only [keyword, run_lexeme, run_seqL, run_alt, run_anyKw, h0, keywordAt, Spec.words,
    firstLit_append]
  have hn : ∀ (u : Str), step rec (.notP (.chr isIdChar)) false u =
      match u with | [] => .ok () [] | c :: r => if isIdChar c then .fail else .ok () (c :: r) := by
    intro u
    cases u with
    | nil => rfl
    | cons c r => by_cases h : isIdChar c = true <;> simp [step, skip, h]
  cases h1 : firstLit sqlWords (skip sk s) with
  | some x =>
    obtain ⟨t, r⟩ := x
    simp only [Option.some_or, Res.orElse_ok, Res.bind_ok, hn]
    cases r with
    | nil => simp
    | cons c r => by_cases h : isIdChar c = true <;> simp [h]
  | none =>
    simp only [Option.none_or, Res.orElse_fail]
    cases h2 : firstLit adqlWords (skip sk s) with
    | none => simp
    | some x =>
      obtain ⟨t, r⟩ := x
      simp only [Res.bind_ok, hn]
      cases r with
      | nil => simp
      | cons c r => by_cases h : isIdChar c = true <;> simp [h]

theorem run_allIdentifiers : step rec allIdentifiers sk s =
    match skip sk s with
    | [] => .fail
    | c :: r => if isLetter c then .ok (c :: r.takeWhile isIdChar) (r.dropWhile isIdChar) else .fail := by
  simp only [allIdentifiers, run_lexeme, run_cat, run_chS, run_manyS_chS]
  cases skip sk s with
  | nil => rfl
  | cons c r => by_cases h : isLetter c = true <;> simp [h]

theorem skip_skip (sk : Bool) (s : Str) : skip false (skip sk s) = skip sk s := rfl

/-- Exact result of `regular_identifier`. -/
theorem run_regularIdentifier : step rec regularIdentifier sk s =
    match skip sk s with
    | [] => .fail
    | c :: r =>
      if isLetter c && !keywordAt (c :: r) then
        .ok (c :: r.takeWhile isIdChar) (r.dropWhile isIdChar) else .fail := by
  simp only [regularIdentifier, run_lexeme, diff, run_seqR, run_allIdentifiers]
  have hk := @run_keyword rec false (skip sk s)
  rw [skip_skip] at hk
  cases h : keywordAt (skip sk s) with
  | true =>
    obtain ⟨t, r, h1⟩ := hk.1 h
    have h2 : step rec (.notP keyword) false (skip sk s) = .fail := step_notP_fail.2 ⟨t, r, h1⟩
    rw [h2]
    cases h3 : skip sk s with
    | nil => rfl
    | cons c r => rw [h3] at h; simp [h, skip]
  | false =>
    have h2 : step rec (.notP keyword) false (skip sk s) = .ok () (skip sk s) :=
      step_notP_ok.2 ⟨hk.2 h, rfl⟩
    rw [h2]
    cases h3 : skip sk s with
    | nil => rfl
    | cons c r => rw [h3] at h; simp [h, skip]

end

/-! ### Character classes -/

theorem isLetter_iff {c : Char} : isLetter c = true ↔ Spec.Letter c := by
  simp only [isLetter, Spec.Letter, Bool.or_eq_true, Bool.and_eq_true, decide_eq_true_eq,
    Char.le_def, UInt32.le_iff_toNat_le]
  rfl

theorem isDigit_iff {c : Char} : isDigit c = true ↔ Spec.Digit c := by
  simp only [isDigit, Spec.Digit, Bool.and_eq_true, decide_eq_true_eq,
    Char.le_def, UInt32.le_iff_toNat_le]
  rfl

theorem isIdChar_iff {c : Char} : isIdChar c = true ↔ Spec.IdChar c := by
  simp only [isIdChar, Spec.IdChar, Bool.or_eq_true, isLetter_iff, isDigit_iff, beq_iff_eq]
  constructor
  · rintro ((h | h) | h)
    · exact .inr (.inl h)
    · exact .inl h
    · exact .inr (.inr h)
  · rintro (h | h | h)
    · exact .inl (.inr h)
    · exact .inl (.inl h)
    · exact .inr h

theorem toNat_ofNat {n : Nat} (h : n < 0xd800) : (Char.ofNat n).toNat = n := by
  have : n.isValidChar := .inl h
  simp [Char.ofNat, this, Char.ofNatAux, Char.toNat]

theorem char_ext {c d : Char} (h : c.toNat = d.toNat) : c = d := by
  apply Char.ext; apply UInt32.toNat.inj; exact h

theorem lowerC_toNat (c : Char) :
    (lowerC c).toNat = if 65 ≤ c.toNat ∧ c.toNat ≤ 90 then c.toNat + 32 else c.toNat := by
  simp only [lowerC, Bool.and_eq_true, decide_eq_true_eq]
  split
  · rw [toNat_ofNat (by omega)]
  · rfl

theorem isSpace_iff {c : Char} : isSpace c = true ↔ c.toNat = 32 ∨ (9 ≤ c.toNat ∧ c.toNat ≤ 13) := by
  simp only [isSpace, Bool.or_eq_true, beq_iff_eq, Bool.and_eq_true, decide_eq_true_eq]
  constructor
  · rintro (rfl | h)
    · exact .inl rfl
    · exact .inr h
  · rintro (h | h)
    · exact .inl (char_ext h)
    · exact .inr h

theorem isIdChar_toNat {c : Char} : isIdChar c = true ↔
    (48 ≤ c.toNat ∧ c.toNat ≤ 57) ∨ (97 ≤ c.toNat ∧ c.toNat ≤ 122) ∨
      (65 ≤ c.toNat ∧ c.toNat ≤ 90) ∨ c.toNat = 95 := by
  simp only [isIdChar, isDigit, isLetter, Bool.or_eq_true, Bool.and_eq_true, decide_eq_true_eq,
    beq_iff_eq]
  constructor
  · rintro ((h | h | h) | rfl)
    · exact .inl h
    · exact .inr (.inl h)
    · exact .inr (.inr (.inl h))
    · exact .inr (.inr (.inr rfl))
  · rintro (h | h | h | h)
    · exact .inl (.inl h)
    · exact .inl (.inr (.inl h))
    · exact .inl (.inr (.inr h))
    · exact .inr (char_ext h)

theorem isLetter_toNat {c : Char} : isLetter c = true ↔
    (97 ≤ c.toNat ∧ c.toNat ≤ 122) ∨ (65 ≤ c.toNat ∧ c.toNat ≤ 90) := by
  simp only [isLetter, Bool.or_eq_true, Bool.and_eq_true, decide_eq_true_eq]

theorem isIdChar_lowerC (c : Char) : isIdChar (lowerC c) = isIdChar c := by
  rw [Bool.eq_iff_iff, isIdChar_toNat, isIdChar_toNat, lowerC_toNat]
  split <;> omega

theorem isLetter_isIdChar {c : Char} (h : isLetter c = true) : isIdChar c = true := by
  simp [isIdChar, h]

theorem isLetter_not_space {c : Char} (h : isLetter c = true) : isSpace c = false := by
  cases h' : isSpace c with
  | false => rfl
  | true => rw [isLetter_toNat] at h; rw [isSpace_iff] at h'; omega

theorem notContinued_iff {r : Str} : Spec.NotContinued r ↔ ∀ c t, r = c :: t → isIdChar c = false := by
  simp only [Spec.NotContinued, ← isIdChar_iff, Bool.not_eq_true]

/-! ### Reserved words -/

/-- the words listed before `END-EXEC` -/
def wordsA : List Str := (Spec.words.takeWhile (· != cs!"END-EXEC"))
/-- the words listed after `END-EXEC` -/
def wordsB : List Str := (Spec.words.dropWhile (· != cs!"END-EXEC")).drop 1

theorem words_split : Spec.words = wordsA ++ cs!"END-EXEC" :: wordsB := by decide +kernel

/-- all words but `END-EXEC` consist of word characters -/
theorem words_id : ((wordsA ++ wordsB).all fun k => !k.isEmpty && k.all isIdChar) = true := by
  decide +kernel

theorem matchLit_word : ∀ {k w r : Str}, k.all isIdChar = true →
    (∀ c t, r = c :: t → isIdChar c = false) →
    matchLit true k (w ++ r) = (matchLit true k w).map fun x => (x.1, x.2 ++ r)
  | [], w, r, _, _ => rfl
  | c :: k, [], r, hk, hr => by
    cases r with
    | nil => rfl
    | cons d r =>
      simp only [List.all_cons, Bool.and_eq_true] at hk
      have hd := hr d r rfl
      have : ¬ (lowerC c = lowerC d) := by
        intro h
        rw [← isIdChar_lowerC, ← h, isIdChar_lowerC] at hd
        rw [hk.1] at hd; cases hd
      have h' : ¬ (c = d) := fun h => this (by rw [h])
      simp [matchLit, this, h']
  | c :: k, d :: w, r, hk, hr => by
    simp only [List.all_cons, Bool.and_eq_true] at hk
    simp only [List.cons_append, matchLit]
    split
    · rw [matchLit_word hk.2 hr]
      cases matchLit true k w <;> rfl
    · rfl

theorem firstLit_word {ks : List Str} {w r : Str} (hk : (ks.all fun k => k.all isIdChar) = true)
    (hr : ∀ c t, r = c :: t → isIdChar c = false) :
    firstLit ks (w ++ r) = (firstLit ks w).map fun x => (x.1, x.2 ++ r) := by
  induction ks with
  | nil => rfl
  | cons k ks ih =>
    simp only [List.all_cons, Bool.and_eq_true] at hk
    simp only [firstLit, List.findSome?_cons, matchLit_word hk.1 hr]
    cases matchLit true k w with
    | none => exact ih hk.2
    | some x => rfl

theorem matchLit_ci_congr : ∀ {k w w' : Str}, w.map lowerC = w'.map lowerC →
    (matchLit true k w).map (fun x => x.2.map lowerC) = (matchLit true k w').map (fun x => x.2.map lowerC)
  | [], w, w', h => by simp [matchLit, h]
  | c :: k, [], w', h => by
    cases w' with
    | nil => rfl
    | cons _ _ => simp at h
  | c :: k, d :: w, w', h => by
    cases w' with
    | nil => simp at h
    | cons d' w' =>
      simp only [List.map_cons, List.cons.injEq] at h
      have ih := matchLit_ci_congr (k := k) h.2
      have e : ∀ x : Char, (c == x || (true && lowerC c == lowerC x)) = (lowerC c == lowerC x) := by
        intro x
        by_cases hx : c = x
        · subst hx; simp
        · simp [hx]
      simp only [matchLit]
      rw [e d, e d', h.1]
      by_cases hc : (lowerC c == lowerC d') = true
      · rw [if_pos hc, if_pos hc]
        cases h1 : matchLit true k w <;> cases h2 : matchLit true k w' <;> simp [h1, h2] at ih ⊢
        exact ih
      · rw [if_neg hc, if_neg hc]

theorem firstLit_ci_congr {ks : List Str} {w w' : Str} (h : w.map lowerC = w'.map lowerC) :
    (firstLit ks w).map (fun x => x.2.map lowerC) = (firstLit ks w').map (fun x => x.2.map lowerC) := by
  induction ks with
  | nil => rfl
  | cons k ks ih =>
    simp only [firstLit, List.findSome?_cons]
    have h1 := matchLit_ci_congr (k := k) h
    cases h2 : matchLit true k w with
    | none =>
      cases h3 : matchLit true k w' with
      | none => exact ih
      | some y => simp [h2, h3] at h1
    | some x =>
      cases h3 : matchLit true k w' with
      | none => simp [h2, h3] at h1
      | some y => rw [h2, h3] at h1; exact h1

/-- The word `w` is taken to be a reserved word (when followed by no word character, and apart from
`END-EXEC`). -/
def kwWord (w : Str) : Bool :=
  match firstLit (wordsA ++ wordsB) w with
  | some (_, []) => true
  | _ => false

theorem kwWord_congr {w w' : Str} (h : w.map lowerC = w'.map lowerC) : kwWord w = kwWord w' := by
  have := firstLit_ci_congr (ks := wordsA ++ wordsB) h
  unfold kwWord
  cases h1 : firstLit (wordsA ++ wordsB) w with
  | none =>
    cases h2 : firstLit (wordsA ++ wordsB) w' with
    | none => rfl
    | some x => simp [h1, h2] at this
  | some x =>
    cases h2 : firstLit (wordsA ++ wordsB) w' with
    | none => simp [h1, h2] at this
    | some y =>
      obtain ⟨x1, x2⟩ := x; obtain ⟨y1, y2⟩ := y
      simp [h1, h2] at this
      cases x2 <;> cases y2 <;> simp at this ⊢

/-- The complete table: which listed word is taken to be reserved. -/
theorem kwWord_table : ((wordsA ++ wordsB).all fun k => kwWord k == !Spec.missed.contains k) = true := by
  decide +kernel

theorem missed_sub : (Spec.missed.all fun k => (wordsA ++ wordsB).contains k) = true := by
  decide +kernel

theorem firstLit_some {ks : List Str} {s t r : Str} (h : firstLit ks s = some (t, r)) :
    ∃ k ∈ ks, matchLit true k s = some (t, r) := by
  unfold firstLit at h
  obtain ⟨k, hk, h⟩ := List.exists_of_findSome?_eq_some h
  exact ⟨k, hk, h⟩

theorem kwWord_iff {w : Str} (hw : w.all isIdChar = true) :
    kwWord w = true ↔ Spec.Reserved w ∧ ¬ ∃ m ∈ Spec.missed, Spec.SameCI w m := by
  have tab := kwWord_table
  rw [List.all_eq_true] at tab
  constructor
  · intro h
    refine ⟨?_, ?_⟩
    · unfold kwWord at h
      cases h1 : firstLit (wordsA ++ wordsB) w with
      | none => simp [h1] at h
      | some x =>
        obtain ⟨t, r⟩ := x
        cases r with
        | cons _ _ => simp [h1] at h
        | nil =>
          obtain ⟨k, hk, h2⟩ := firstLit_some h1
          obtain ⟨h3, h4⟩ := matchLit_iff.1 h2
          refine ⟨k, ?_, ?_⟩
          · rw [words_split]
            rcases List.mem_append.1 hk with hk | hk
            · exact List.mem_append.2 (.inl hk)
            · exact List.mem_append.2 (.inr (List.mem_cons_of_mem _ hk))
          · simp at h3; subst h3; exact litOK_ci.1 h4
    · rintro ⟨m, hm, hs⟩
      have hm' : m ∈ wordsA ++ wordsB := by
        have := missed_sub
        rw [List.all_eq_true] at this
        exact List.contains_iff_mem.1 (this m hm)
      have := tab m hm'
      rw [kwWord_congr hs] at h
      rw [h] at this
      have hc : Spec.missed.contains m = true := List.contains_iff_mem.2 hm
      rw [hc] at this; simp at this
  · rintro ⟨⟨k, hk, hs⟩, hm⟩
    rw [words_split] at hk
    have hk' : k ∈ wordsA ++ wordsB := by
      rcases List.mem_append.1 hk with hk | hk
      · exact List.mem_append.2 (.inl hk)
      · rcases List.mem_cons.1 hk with rfl | hk
        · exfalso
          have : (w.map lowerC).all isIdChar = true := by
            rw [List.all_map]
            simpa [Function.comp_def, isIdChar_lowerC] using hw
          rw [show w.map lowerC = _ from hs] at this
          revert this; decide
        · exact List.mem_append.2 (.inr hk)
    have := tab k hk'
    rw [kwWord_congr hs]
    have hc : Spec.missed.contains k = false := by
      cases h : Spec.missed.contains k with
      | false => rfl
      | true => exact absurd ⟨k, List.contains_iff_mem.1 h, hs⟩ hm
    rw [hc] at this
    simpa using this

theorem wordsA_end : firstLit wordsA cs!"END" = none := by decide +kernel

theorem words_idA : (wordsA.all fun k => k.all isIdChar) = true := by decide +kernel
theorem words_idB : (wordsB.all fun k => k.all isIdChar) = true := by decide +kernel
theorem kwWord_end : kwWord cs!"END" = true := by decide +kernel

theorem matchLit_append_left : ∀ {u v s : Str}, matchLit true (u ++ v) s =
    (matchLit true u s).bind fun x => (matchLit true v x.2).map fun y => (x.1 ++ y.1, y.2)
  | [], v, s => by simp [matchLit]
  | c :: u, v, [] => rfl
  | c :: u, v, d :: s => by
    simp only [List.cons_append, matchLit]
    split
    · rw [matchLit_append_left]
      cases h1 : matchLit true u s with
      | none => rfl
      | some x =>
        simp only [Option.bind_some]
        cases matchLit true v x.2 <;> simp
    · rfl

/-- `END-EXEC` at the start of a text that starts with the whole word `w`. -/
theorem matchLit_endExec {w r : Str} (hw : w.all isIdChar = true)
    (hr : ∀ c t, r = c :: t → isIdChar c = false) {t u : Str} :
    matchLit true cs!"END-EXEC" (w ++ r) = some (t, u) ↔
      Spec.SameCI w cs!"END" ∧ ∃ x, r = x ++ u ∧ Spec.SameCI x cs!"-EXEC" ∧ t = w ++ x := by
  have e : cs!"END-EXEC" = cs!"END" ++ cs!"-EXEC" := rfl
  rw [e, matchLit_append_left, matchLit_word (by decide) hr]
  constructor
  · intro h
    cases h1 : matchLit true cs!"END" w with
    | none => rw [h1] at h; simp at h
    | some x =>
      obtain ⟨a, b⟩ := x
      rw [h1] at h
      simp only [Option.map_some, Option.bind_some] at h
      obtain ⟨h2, h3⟩ := matchLit_iff.1 h1
      cases h4 : matchLit true cs!"-EXEC" (b ++ r) with
      | none => rw [h4] at h; simp at h
      | some y =>
        obtain ⟨y1, y2⟩ := y
        rw [h4] at h
        simp only [Option.map_some, Option.some.injEq, Prod.mk.injEq] at h
        obtain ⟨h5, h6⟩ := matchLit_iff.1 h4
        have hb : b = [] := by
          cases b with
          | nil => rfl
          | cons c b =>
            exfalso
            have hc : isIdChar c = true := by
              rw [h2] at hw; simp at hw; exact hw.2.1
            cases y1 with
            | nil => simp [LitOK] at h6
            | cons d y1 =>
              simp at h5
              rw [litOK_ci] at h6
              simp only [List.map_cons, List.cons.injEq] at h6
              rw [← h5.1] at h6
              have := isIdChar_lowerC c
              rw [h6.1, hc] at this
              revert this; decide
        subst hb
        refine ⟨?_, y1, ?_, litOK_ci.1 h6, ?_⟩
        · have : w = a := by simpa using h2
          rw [this]; exact litOK_ci.1 h3
        · rw [← h.2]; simpa using h5
        · rw [← h.1, h2]; simp
  · rintro ⟨h1, x, rfl, h2, rfl⟩
    have h3 : matchLit true cs!"END" w = some (w, []) := matchLit_iff.2 ⟨by simp, litOK_ci.2 h1⟩
    have h4 : matchLit true cs!"-EXEC" ([] ++ (x ++ u)) = some (x, u) :=
      matchLit_iff.2 ⟨rfl, litOK_ci.2 h2⟩
    rw [h3]
    simp only [Option.map_some, Option.bind_some]
    rw [h4]; rfl

/-- What `keyword` sees at a whole word. -/
theorem keywordAt_word {w r : Str} (hw : w.all isIdChar = true)
    (hr : ∀ c t, r = c :: t → isIdChar c = false) :
    keywordAt (w ++ r) = true ↔ kwWord w = true ∧ ¬ Spec.EndExec w r := by
  have hA := firstLit_word (w := w) words_idA hr
  have hB := firstLit_word (w := w) words_idB hr
  have hsplit : firstLit Spec.words (w ++ r) = (firstLit wordsA (w ++ r)).or
      ((matchLit true cs!"END-EXEC" (w ++ r)).or (firstLit wordsB (w ++ r))) := by
    rw [words_split, firstLit_append]
    congr 1
    simp only [firstLit, List.findSome?_cons]
    cases matchLit true cs!"END-EXEC" (w ++ r) <;> rfl
  cases hE : matchLit true cs!"END-EXEC" (w ++ r) with
  | none =>
    have hne : ¬ Spec.EndExec w r := by
      rintro ⟨h1, x, c, t, rfl, h2, -⟩
      rw [(matchLit_endExec hw hr).2 ⟨h1, x, rfl, h2, rfl⟩] at hE; cases hE
    have : firstLit Spec.words (w ++ r) =
        (firstLit (wordsA ++ wordsB) w).map fun x => (x.1, x.2 ++ r) := by
      rw [hsplit, hE, hA, hB, firstLit_append]
      cases firstLit wordsA w <;> simp
    simp only [keywordAt, this, kwWord, hne, not_false_iff, and_true]
    cases h1 : firstLit (wordsA ++ wordsB) w with
    | none => simp
    | some x =>
      obtain ⟨t, u⟩ := x
      cases u with
      | nil =>
        cases r with
        | nil => simp
        | cons c r => simp [hr c r rfl]
      | cons c u =>
        obtain ⟨k, -, h2⟩ := firstLit_some h1
        have h3 := (matchLit_iff.1 h2).1
        have : isIdChar c = true := by rw [h3] at hw; simp at hw; exact hw.2.1
        simp [this]
  | some x =>
    obtain ⟨t, u⟩ := x
    obtain ⟨h1, x, rfl, h2, rfl⟩ := (matchLit_endExec hw hr).1 hE
    have hAn : firstLit wordsA w = none := by
      have := firstLit_ci_congr (ks := wordsA) (show w.map lowerC = _ from h1)
      rw [wordsA_end] at this
      cases h : firstLit wordsA w with
      | none => rfl
      | some _ => simp [h] at this
    have hkw : kwWord w = true := by rw [kwWord_congr (show w.map lowerC = _ from h1)]; exact kwWord_end
    have : firstLit Spec.words (w ++ (x ++ u)) = some (w ++ x, u) := by
      rw [hsplit, hE, hA, hAn]; rfl
    simp only [keywordAt, this, hkw, true_and]
    cases u with
    | nil =>
      simp only [true_iff]
      rintro ⟨-, y, c, t, h3, h4, -⟩
      have l1 : x.length = 5 := by simpa using congrArg List.length h2
      have l2 : y.length = 5 := by simpa using congrArg List.length h4
      have := congrArg List.length h3
      simp at this; omega
    | cons c u =>
      simp only [Bool.not_eq_true', ← Bool.not_eq_true, isIdChar_iff]
      apply not_congr
      constructor
      · intro hc; exact ⟨h1, x, c, u, rfl, h2, hc⟩
      · rintro ⟨-, y, c', t, h3, h4, hc⟩
        have l1 : x.length = 5 := by simpa using congrArg List.length h2
        have l2 : y.length = 5 := by simpa using congrArg List.length h4
        obtain ⟨-, h5⟩ := List.append_inj h3 (by omega)
        cases h5; exact hc

end Adql
