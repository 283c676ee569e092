import Verif.Model.Lex
import Verif.Spec.Literal

/-!
# Exact description of delimited identifiers and string literals
-/

namespace Adql

/-- The longest run of characters other than `q` and doubled `q`s, and the rest. -/
def qbody (q : Char) : Str → Str × Str
  | [] => ([], [])
  | [c] => if c = q then ([], [c]) else ([c], [])
  | c :: d :: s =>
    if c = q then
      if d = q then (q :: q :: (qbody q s).1, (qbody q s).2) else ([], c :: d :: s)
    else (c :: (qbody q (d :: s)).1, (qbody q (d :: s)).2)

theorem qbody_append (q : Char) (s : Str) : (qbody q s).1 ++ (qbody q s).2 = s := by
  fun_induction qbody q s <;> simp_all

theorem qbody_body (q : Char) (s : Str) : Spec.QBody q (qbody q s).1 := by
  fun_induction qbody q s with
  | case1 => exact .nil
  | case2 => exact .nil
  | case3 c h => exact .chr h .nil
  | case4 s ih => exact .dbl ih
  | case5 => exact .nil
  | case6 c d s h ih => exact .chr h ih

/-- The rest is empty or starts with an undoubled quote. -/
theorem qbody_rest (q : Char) (s : Str) : (qbody q s).2 = [] ∨
    ∃ r, (qbody q s).2 = q :: r ∧ Spec.NotHead q r := by
  fun_induction qbody q s with
  | case1 => exact .inl rfl
  | case2 => exact .inr ⟨[], rfl, by intro t; simp⟩
  | case3 c h => exact .inl rfl
  | case4 s ih => exact ih
  | case5 d s h => exact .inr ⟨d :: s, rfl, by intro t ht; simp at ht; exact h ht.1⟩
  | case6 c d s h ih => exact ih

theorem qbody_of_body {q : Char} {b : Str} (hb : Spec.QBody q b) {r : Str} (hr : Spec.NotHead q r) :
    qbody q (b ++ q :: r) = (b, q :: r) := by
  induction hb with
  | nil =>
    cases r with
    | nil => simp [qbody]
    | cons d r =>
      have : d ≠ q := fun h => hr r (by rw [h])
      simp [qbody, this]
  | @chr c b hc _ ih =>
    have : qbody q (c :: (b ++ q :: r)) =
        (c :: (qbody q (b ++ q :: r)).1, (qbody q (b ++ q :: r)).2) := by
      cases h : b ++ q :: r with
      | nil => simp at h
      | cons d s => simp [qbody, hc]
    rw [List.cons_append, this, ih]
  | @dbl b _ ih => simp [qbody, ih]

section
variable {rec : (n : Rule) → Bool → Str → Res (Attr n)} {sk : Bool} {s : Str}
open P

/-- one character other than the quote, or a doubled quote -/
def qpart (q : Char) : G Str := .lexeme (.alt (chS fun c => c != q) (sym [q, q]))

theorem run_qpart (q : Char) (s : Str) : step rec (qpart q) false s =
    match s with
    | [] => .fail
    | c :: s =>
      if c = q then
        match s with
        | [] => .fail
        | d :: s => if d = q then .ok [q, q] s else .fail
      else .ok [c] s := by
  simp only [qpart, run_lexeme, run_alt, run_chS, skip, if_false, Bool.false_eq_true]
  cases s with
  | nil => rfl
  | cons c s =>
    by_cases h : c = q
    · subst h
      cases s with
      | nil => simp [sym, step, skip, matchLit]
      | cons d s =>
        by_cases h : d = c
        · subst h; simp [sym, step, skip, matchLit]
        · have h' : ¬ (c = d) := fun e => h e.symm
          simp [sym, step, skip, matchLit, h, h']
    · simp [h]

theorem run_many_qpart (q : Char) (s : Str) : step rec (manyS (qpart q)) false s =
    .ok (qbody q s).1 (qbody q s).2 := by
  have key : ∀ s : Str, ∃ l, Iter (step rec (qpart q) false) s l (qbody q s).2 ∧
      l.flatten = (qbody q s).1 := by
    intro s
    fun_induction qbody q s with
    | case1 => exact ⟨[], .nil (by simp [run_qpart]), rfl⟩
    | case2 => exact ⟨[], .nil (by simp [run_qpart]), rfl⟩
    | case3 c h =>
      exact ⟨[[c]], .cons (r := []) (by simp [run_qpart, h]) (by simp) (.nil (by simp [run_qpart])), rfl⟩
    | case4 s ih =>
      obtain ⟨l, h1, h2⟩ := ih
      exact ⟨[q, q] :: l, .cons (r := s) (by simp [run_qpart]) (by simp; omega) h1, by simp [h2]⟩
    | case5 d s h =>
      exact ⟨[], .nil (by simp [run_qpart, h]), rfl⟩
    | case6 c d s h ih =>
      obtain ⟨l, h1, h2⟩ := ih
      exact ⟨[c] :: l, .cons (r := d :: s) (by simp [run_qpart, h]) (by simp) h1, by simp [h2]⟩
  obtain ⟨l, h1, h2⟩ := key s
  have h3 : step rec (.star (qpart q)) false s = .ok l (qbody q s).2 := step_star_ok.2 h1
  simp only [manyS, run_map, h3, Res.bind_ok, h2]

theorem run_plus_qpart (q : Char) (s : Str) : step rec (plusS (qpart q)) false s =
    if (qbody q s).1.isEmpty then .fail else .ok (qbody q s).1 (qbody q s).2 := by
  simp only [plusS, run_cat, run_qpart, run_many_qpart]
  match s with
  | [] => rfl
  | [c] => by_cases h : c = q <;> simp [h, qbody]
  | c :: d :: s =>
    by_cases h : c = q
    · subst h
      by_cases h : d = c
      · subst h; simp [qbody]
      · simp [h, qbody]
    · simp [h, qbody]

theorem delimitedPart_eq : delimitedPart = qpart '"' := rfl
theorem charRep_eq : charRep = qpart '\'' := rfl

/-- Exact result of `delimited_identifier`. -/
theorem run_delimited : step rec delimitedIdentifier sk s =
    match skip sk s with
    | [] => .fail
    | c :: r =>
      if c = '"' ∧ (qbody '"' r).1 ≠ [] ∧ (qbody '"' r).2 ≠ [] then
        .ok ('"' :: (qbody '"' r).1 ++ ['"']) ((qbody '"' r).2.drop 1)
      else .fail := by
  simp only [delimitedIdentifier, delimitedPart_eq, run_lexeme, run_cat, run_chS, run_plus_qpart]
  cases skip sk s with
  | nil => rfl
  | cons c r =>
    by_cases h : c = '"'
    · subst h
      rcases qbody_rest '"' r with h2 | ⟨u, h2, -⟩
      · by_cases h1 : (qbody '"' r).1 = [] <;> simp [h1, h2]
      · by_cases h1 : (qbody '"' r).1 = [] <;> simp [h1, h2]
    · simp [h]

/-- one quoted part of a string literal -/
def strPartG : G Str := cat quote (cat (manyS charRep) quote)

/-- Exact result of a quoted part. -/
theorem run_strPart : step rec strPartG false s =
    match s with
    | [] => .fail
    | c :: r =>
      if c = '\'' ∧ (qbody '\'' r).2 ≠ [] then
        .ok ('\'' :: (qbody '\'' r).1 ++ ['\'']) ((qbody '\'' r).2.drop 1)
      else .fail := by
  simp only [strPartG, charRep_eq, quote, run_lexeme, run_cat, run_chS, run_many_qpart, skip,
    if_false, Bool.false_eq_true]
  cases s with
  | nil => rfl
  | cons c r =>
    by_cases h : c = '\''
    · subst h
      rcases qbody_rest '\'' r with h2 | ⟨u, h2, -⟩
      · simp [h2]
      · simp [h2]
    · simp [h]

end

end Adql
