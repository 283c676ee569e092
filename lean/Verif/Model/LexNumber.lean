import Verif.Model.LexString

/-!
# Exact description of unsigned numeric literals (init_literals.cxx L25-L36)
-/

namespace Adql

open P Spec

/-- greedy digits, at least one -/
def digits1 (s : Str) : Option (Str × Str) :=
  if s.takeWhile isDigit = [] then none else some (s.takeWhile isDigit, s.dropWhile isDigit)

/-- what `exact_numeric_literal` takes -/
def exactN (s : Str) : Option (Str × Str) :=
  match digits1 s with
  | some (d, r) =>
    match r with
    | '.' :: u =>
      match digits1 u with
      | some (f, v) => some (d ++ '.' :: f, v)
      | none => some (d, r)
    | _ => some (d, r)
  | none =>
    match s with
    | '.' :: u =>
      match digits1 u with
      | some (f, v) => some ('.' :: f, v)
      | none => none
    | _ => none

/-- what the exponent takes -/
def expoN (s : Str) : Option (Str × Str) :=
  match s with
  | [] => none
  | e :: u =>
    if e = 'E' ∨ e = 'e' then
      match u with
      | [] => none
      | g :: v =>
        if g = '+' ∨ g = '-' then
          match digits1 v with
          | some (d, r) => some (e :: g :: d, r)
          | none => none
        else
          match digits1 u with
          | some (d, r) => some (e :: d, r)
          | none => none
    else none

/-- what `unsigned_numeric_literal` takes -/
def numN (s : Str) : Option (Str × Str) :=
  match exactN s with
  | some (m, r) =>
    match expoN r with
    | some (e, v) => some (m ++ e, v)
    | none => some (m, r)
  | none => none

/-- `some` is success, `none` failure -/
def ofOpt (x : Option (Str × Str)) : Res Str :=
  match x with
  | some (a, r) => .ok a r
  | none => .fail

section
variable {rec : (n : Rule) → Bool → Str → Res (Attr n)} {sk : Bool} {s : Str}

theorem run_unsignedInteger : step rec unsignedInteger sk s = ofOpt (digits1 (skip sk s)) := by
  simp only [unsignedInteger, run_lexeme, run_plusS_chS, digits1, List.isEmpty_iff]
  split <;> rfl

theorem run_period : step rec period sk s = match skip sk s with
    | [] => .fail
    | c :: r => if c = '.' then .ok ['.'] r else .fail := by
  simp only [period, run_lexeme, run_chS]
  cases skip sk s with
  | nil => rfl
  | cons c r => by_cases h : c = '.' <;> simp [h]

theorem run_exactNumeric : step rec exactNumeric sk s = ofOpt (exactN (skip sk s)) := by
  simp only [exactNumeric, run_lexeme, run_alt, run_cat, run_optS, run_unsignedInteger, run_period,
    wf_calm_false, exactN]
  generalize skip sk s = t
  cases h : digits1 t with
  | some x =>
    obtain ⟨d, r⟩ := x
    simp only [ofOpt, Res.bind_ok]
    cases r with
    | nil => simp
    | cons c u =>
      by_cases hc : c = '.'
      · subst hc
        cases hf : digits1 u with
        | some y => simp [hf]
        | none => simp [hf]
      · simp [hc]
  | none =>
    simp only [ofOpt, Res.bind_fail, Res.orElse_fail]
    cases t with
    | nil => rfl
    | cons c u =>
      by_cases hc : c = '.'
      · subst hc
        cases hf : digits1 u with
        | some y => simp [hf]
        | none => simp [hf]
      · simp [hc]

theorem isDigit_not_sign {c : Char} (h : isDigit c = true) : ¬ (c = '+' ∨ c = '-') := by
  rintro (rfl | rfl) <;> revert h <;> decide

theorem run_signedInteger : step rec signedInteger false s = ofOpt (match s with
      | [] => none
      | g :: v =>
        if g = '+' ∨ g = '-' then
          match digits1 v with
          | some (d, r) => some (g :: d, r)
          | none => none
        else digits1 s) := by
  simp only [signedInteger, sign, run_lexeme, run_cat, run_optS, run_chS, run_unsignedInteger,
    wf_calm_false]
  cases s with
  | nil => rfl
  | cons g v =>
    by_cases h : g = '+' ∨ g = '-'
    · have h' : (g == '+' || g == '-') = true := by simpa using h
      simp only [h, h', if_true, Res.orElse_ok, Res.bind_ok]
      cases hd : digits1 v with
      | some x => obtain ⟨d, r⟩ := x; simp [ofOpt]
      | none => simp [ofOpt]
    · have h' : (g == '+' || g == '-') = false := by
        simpa using h
      simp only [h, h', if_false, Bool.false_eq_true, Res.orElse_fail, Res.bind_ok]
      cases hd : digits1 (g :: v) with
      | some x => obtain ⟨d, r⟩ := x; simp [ofOpt]
      | none => simp [ofOpt]

theorem run_unsignedNumeric : step rec unsignedNumeric sk s = ofOpt (numN (skip sk s)) := by
  simp only [unsignedNumeric, approxNumeric, run_lexeme, run_alt, run_cat, run_exactNumeric, run_chS,
    run_signedInteger, wf_calm_false]
  generalize skip sk s = t
  simp only [numN]
  cases h : exactN t with
  | none => rfl
  | some x =>
    obtain ⟨m, r⟩ := x
    simp only [ofOpt, Res.bind_ok, expoN]
    cases r with
    | nil => rfl
    | cons e u =>
      by_cases he : e = 'E' ∨ e = 'e'
      · have he' : (e == 'E' || e == 'e') = true := by simpa using he
        simp only [he, he', if_true, Res.bind_ok]
        cases u with
        | nil => rfl
        | cons g v =>
          by_cases hg : g = '+' ∨ g = '-'
          · simp only [hg, if_true]
            cases digits1 v with
            | some y => simp
            | none => simp
          · simp only [hg, if_false]
            cases digits1 (g :: v) with
            | some y => simp
            | none => simp
      · have he' : (e == 'E' || e == 'e') = false := by simpa using he
        simp [he, he']

end

/-! ### The functions against the specification -/

theorem digits1_some {s d r : Str} (h : digits1 s = some (d, r)) : s = d ++ r ∧ Digits d := by
  unfold digits1 at h
  split at h
  · cases h
  · rename_i hne
    cases h
    exact ⟨List.takeWhile_append_dropWhile.symm, hne,
      fun c hc => isDigit_iff.1 (takeWhile_all _ _ c hc)⟩

theorem digits1_append {d t : Str} (h : Digits d) :
    digits1 (d ++ t) = some (d ++ t.takeWhile isDigit, t.dropWhile isDigit) := by
  have h1 : ∀ c ∈ d, isDigit c = true := fun c hc => isDigit_iff.2 (h.2 c hc)
  have e1 : (d ++ t).takeWhile isDigit = d ++ t.takeWhile isDigit :=
    List.takeWhile_append_of_pos h1
  have e2 : (d ++ t).dropWhile isDigit = t.dropWhile isDigit :=
    List.dropWhile_append_of_pos h1
  unfold digits1
  rw [e1, e2, if_neg]
  simp [h.1]

theorem exactN_some {s m r : Str} (h : exactN s = some (m, r)) : s = m ++ r ∧ Mantissa m := by
  unfold exactN at h
  split at h
  · rename_i d u hd
    obtain ⟨rfl, h1⟩ := digits1_some hd
    split at h
    · split at h
      · rename_i f v hf
        obtain ⟨rfl, h2⟩ := digits1_some hf
        cases h
        exact ⟨by simp, .dec h1 h2⟩
      · cases h; exact ⟨rfl, .int h1⟩
    · cases h; exact ⟨rfl, .int h1⟩
  · split at h
    · split at h
      · rename_i f v hf
        obtain ⟨rfl, h2⟩ := digits1_some hf
        cases h
        exact ⟨by simp, .frac h2⟩
      · cases h
    · cases h

theorem dot_not_digit : isDigit '.' = false := by decide

/-- The mantissa taken is at least as long as any mantissa that starts the text, and equal to it
when an exponent mark follows. -/
theorem exactN_max {m t : Str} (h : Mantissa m) : ∃ m0 r0, exactN (m ++ t) = some (m0, r0) ∧
    m.length ≤ m0.length ∧
    (∀ c u, t = c :: u → (c = 'E' ∨ c = 'e') → m0 = m ∧ r0 = t) := by
  have tail : ∀ c u, t = c :: u → (c = 'E' ∨ c = 'e') → t.takeWhile isDigit = [] ∧
      t.dropWhile isDigit = t := by
    rintro c u rfl (rfl | rfl)
    · have : isDigit 'E' = false := by decide
      simp [this]
    · have : isDigit 'e' = false := by decide
      simp [this]
  cases h with
  | int hd =>
    unfold exactN
    rw [digits1_append hd]
    simp only
    split
    · rename_i u hu
      have noexp : ∀ c u, t = c :: u → ¬ (c = 'E' ∨ c = 'e') := by
        intro c v hv hc
        obtain ⟨-, h2⟩ := tail c v hv hc
        rw [h2, hv] at hu
        simp at hu
        rcases hc with rfl | rfl
        · exact absurd hu.1 (by decide)
        · exact absurd hu.1 (by decide)
      split
      · exact ⟨_, _, rfl, by simp, fun c u h1 h2 => absurd h2 (noexp c u h1)⟩
      · exact ⟨_, _, rfl, by simp, fun c u h1 h2 => absurd h2 (noexp c u h1)⟩
    · refine ⟨_, _, rfl, by simp, ?_⟩
      intro c u h1 h2
      obtain ⟨h3, h4⟩ := tail c u h1 h2
      exact ⟨by simp [h3], h4⟩
  | @dec d f hd hf =>
    unfold exactN
    rw [List.append_assoc, digits1_append hd]
    simp only [List.cons_append, List.takeWhile_cons, dot_not_digit, List.dropWhile_cons,
      Bool.false_eq_true, if_false, digits1_append hf]
    refine ⟨_, _, rfl, by simp, ?_⟩
    intro c u h1 h2
    obtain ⟨h3, h4⟩ := tail c u h1 h2
    exact ⟨by simp [h3], h4⟩
  | @frac f hf =>
    unfold exactN
    have : digits1 ('.' :: f ++ t) = none := by
      simp [digits1, dot_not_digit]
    rw [this]
    simp only [List.cons_append, digits1_append hf]
    refine ⟨_, _, rfl, by simp, ?_⟩
    intro c u h1 h2
    obtain ⟨h3, h4⟩ := tail c u h1 h2
    exact ⟨by simp [h3], h4⟩

theorem expoN_some {s e r : Str} (h : expoN s = some (e, r)) : s = e ++ r ∧ Expo e := by
  unfold expoN at h
  split at h
  · cases h
  · split at h
    · rename_i c u hc
      split at h
      · cases h
      · split at h
        · rename_i g v hg
          split at h
          · rename_i d w hd
            obtain ⟨rfl, h1⟩ := digits1_some hd
            cases h
            exact ⟨by simp, .signed hc hg h1⟩
          · cases h
        · split at h
          · rename_i d w hd
            obtain ⟨h0, h1⟩ := digits1_some hd
            cases h
            exact ⟨by simp [h0], .mk hc h1⟩
          · cases h
    · cases h

theorem expoN_max {e t : Str} (h : Expo e) : ∃ e0 r0, expoN (e ++ t) = some (e0, r0) ∧
    e.length ≤ e0.length := by
  cases h with
  | @mk c d hc hd =>
    obtain ⟨x, d', rfl⟩ := List.exists_cons_of_ne_nil hd.1
    have hx : ¬ (x = '+' ∨ x = '-') :=
      isDigit_not_sign (isDigit_iff.2 (hd.2 x (by simp)))
    unfold expoN
    simp only [List.cons_append, hc, if_true, hx, if_false]
    have := digits1_append (t := t) hd
    rw [List.cons_append] at this
    rw [this]
    exact ⟨_, _, rfl, by simp⟩
  | @signed c g d hc hg hd =>
    unfold expoN
    simp only [List.cons_append, hc, if_true, hg]
    rw [digits1_append hd]
    exact ⟨_, _, rfl, by simp⟩

theorem expo_head {e : Str} (h : Expo e) : ∃ c u, e = c :: u ∧ (c = 'E' ∨ c = 'e') := by
  cases h with
  | mk h _ => exact ⟨_, _, rfl, h⟩
  | signed h _ _ => exact ⟨_, _, rfl, h⟩

theorem numN_some {s a r : Str} (h : numN s = some (a, r)) : s = a ++ r ∧ NumLit a := by
  unfold numN at h
  split at h
  · rename_i m u hm
    obtain ⟨rfl, h1⟩ := exactN_some hm
    split at h
    · rename_i e v he
      obtain ⟨rfl, h2⟩ := expoN_some he
      cases h
      exact ⟨by simp, .approx h1 h2⟩
    · cases h; exact ⟨rfl, .exact h1⟩
  · cases h

/-- The literal taken is at least as long as any literal that starts the text. -/
theorem numN_max {a t : Str} (h : NumLit a) : ∃ a0 r0, numN (a ++ t) = some (a0, r0) ∧
    a.length ≤ a0.length := by
  cases h with
  | exact hm =>
    obtain ⟨m0, r0, h1, h2, -⟩ := exactN_max (t := t) hm
    unfold numN
    rw [h1]
    simp only
    split
    · exact ⟨_, _, rfl, by simp; omega⟩
    · exact ⟨_, _, rfl, h2⟩
  | @approx m e hm he =>
    obtain ⟨c, u, rfl, hc⟩ := expo_head he
    obtain ⟨m0, r0, h1, h2, h3⟩ := exactN_max (t := c :: u ++ t) hm
    obtain ⟨rfl, rfl⟩ := h3 c (u ++ t) rfl hc
    obtain ⟨e0, r1, h4, h5⟩ := expoN_max (t := t) he
    unfold numN
    rw [List.append_assoc, h1]
    simp only [h4]
    exact ⟨_, _, rfl, by simp only [List.length_append]; omega⟩

end Adql
