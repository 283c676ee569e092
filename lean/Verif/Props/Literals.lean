import Verif.Model.LexNumber

/-!
# C07, C08: literals
-/

namespace Adql

open Spec

/-- **C07.** A string literal is taken exactly for quoted parts (quotes doubled inside) joined over
separators (blank, line end, `--` comment); it is kept verbatim and it extends as far as possible: the
text after it continues neither the last part nor the literal. -/
theorem C07_string_literal (cfg : Config) (sk : Bool) (s a r : Str) :
    parse cfg charString sk s = .ok a r ↔
      ∃ b, s = b ++ (a ++ r) ∧ Blank sk b ∧ StrLit a ∧ NotHead '\'' r ∧
        ¬ ∃ x p v, r = x ++ (p ++ v) ∧ Seps x ∧ StrPart p ∧ NotHead '\'' v := charString_iff

/-- Otherwise the rule fails (it never throws). -/
theorem C07_otherwise_fails (cfg : Config) (sk : Bool) (s : Str)
    (h : ∀ a r, parse cfg charString sk s ≠ .ok a r) : parse cfg charString sk s = .fail := by
  rcases parse_calm (cfg := cfg) (p := charString) rfl (WF.wf_charString 4) sk s with ⟨a, r, h1⟩ | h1
  · exact absurd h1 (h a r)
  · exact h1

/-- the hypotheses are met by two parts joined over a comment -/
example : StrLit cs!"'it''s' -- two\n'parts'" ∧ NotHead '\'' cs!" AS x" := by
  have h : parse ⟨fun _ => none, false⟩ charString true
      (cs!" 'it''s' -- two\n'parts'" ++ cs!" AS x") = .ok cs!"'it''s' -- two\n'parts'" cs!" AS x" := by
    kernel_rfl
  obtain ⟨b, -, -, h1, h2, -⟩ := (C07_string_literal _ _ _ _ _).1 h
  exact ⟨h1, h2⟩

/-- **C08.** An unsigned number is taken exactly when a numeral starts the text (after blanks); the
longest one is taken and kept verbatim. -/
theorem C08_numeric_literal (cfg : Config) (sk : Bool) (s a r : Str) :
    parse cfg unsignedNumeric sk s = .ok a r ↔
      ∃ b, s = b ++ (a ++ r) ∧ Blank sk b ∧ NumLit a ∧
        ∀ a', NumLit a' → a' <+: a ++ r → a'.length ≤ a.length := by
  simp only [parse, run_unsignedNumeric]
  constructor
  · intro h
    obtain ⟨b, hb, hB⟩ := skip_blank sk s
    cases h1 : numN (skip sk s) with
    | none => rw [h1] at h; cases h
    | some x =>
      obtain ⟨a0, r0⟩ := x
      rw [h1] at h; cases h
      obtain ⟨h2, h3⟩ := numN_some h1
      refine ⟨b, by rw [hb, h2], hB, h3, ?_⟩
      rintro a' ha ⟨t, ht⟩
      obtain ⟨a0, r0, h4, h5⟩ := numN_max (t := t) ha
      rw [ht, ← h2, h1] at h4
      cases h4
      exact h5
  · rintro ⟨b, rfl, hB, ha, hmax⟩
    have hsk : skip sk (b ++ (a ++ r)) = a ++ r := by
      apply skip_eq hB
      intro c t hc
      have : Digit c ∨ c = '.' := by
        have hm : ∀ m u, Mantissa m → m ++ u = c :: t → Digit c ∨ c = '.' := by
          intro m u hm he
          cases hm with
          | int hd =>
            obtain ⟨x, d', rfl⟩ := List.exists_cons_of_ne_nil hd.1
            simp at he; exact .inl (he.1 ▸ hd.2 x (by simp))
          | dec hd _ =>
            obtain ⟨x, d', rfl⟩ := List.exists_cons_of_ne_nil hd.1
            simp at he; exact .inl (he.1 ▸ hd.2 x (by simp))
          | frac _ => simp at he; exact .inr he.1.symm
        cases ha with
        | exact h => exact hm _ _ h hc
        | approx h _ => rw [List.append_assoc] at hc; exact hm _ _ h hc
      rcases this with h | rfl
      · rw [← isDigit_iff] at h
        simp only [isDigit, Bool.and_eq_true, decide_eq_true_eq] at h
        rw [← Bool.not_eq_true, isSpace_iff]
        omega
      · decide
    rw [hsk]
    obtain ⟨a0, r0, h4, h5⟩ := numN_max (t := r) ha
    obtain ⟨h6, h7⟩ := numN_some h4
    have h8 := hmax a0 h7 ⟨r0, h6.symm⟩
    have h9 : a.length = a0.length := by omega
    obtain ⟨rfl, rfl⟩ := List.append_inj h6 h9
    rw [h4]; rfl

/-- If no numeral starts the text the rule fails (it never throws). -/
theorem C08_otherwise_fails (cfg : Config) (sk : Bool) (s : Str)
    (h : ∀ a r, parse cfg unsignedNumeric sk s ≠ .ok a r) :
    parse cfg unsignedNumeric sk s = .fail := by
  simp only [parse, run_unsignedNumeric] at h ⊢
  cases h1 : numN (skip sk s) with
  | none => rfl
  | some x => rw [h1] at h; exact absurd rfl (h x.1 x.2)

/-- the hypotheses are met by `1.5E+3` in front of `.7` -/
example : NumLit cs!"1.5E+3" ∧
    ∀ a', NumLit a' → a' <+: cs!"1.5E+3" ++ cs!".7" → a'.length ≤ cs!"1.5E+3".length := by
  have h : parse ⟨fun _ => none, false⟩ Adql.unsignedNumeric true (cs!" 1.5E+3" ++ cs!".7") =
      .ok cs!"1.5E+3" cs!".7" := by kernel_rfl
  obtain ⟨b, -, -, h1, h2⟩ := (C08_numeric_literal _ _ _ _ _).1 h
  exact ⟨h1, h2⟩

end Adql
