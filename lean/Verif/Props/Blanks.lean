import Verif.Props.Outcome

/-!
# C36: blanks in front of the text
-/

namespace Adql

open P Spec

theorem parse_head {cfg : Config} {b : Str} (hb : ∀ c ∈ b, isSpace c = true) {α : Type} {p : G α}
    (hp : p.headOK = true) (s : Str) :
    SameHead b s (parse cfg p true (b ++ s)) (parse cfg p true s) := by
  have hrec : ∀ n s, SameHead b s (D cfg n true (b ++ s)) (D cfg n true s) := by
    intro n s
    have h := run_head hb (grammar_wf cfg).consumes (grammar_headOK cfg)
      (4 * ((b ++ s).length + 1)) n s
    have e1 : run (grammar cfg) (4 * ((b ++ s).length + 1)) n true (b ++ s) = D cfg n true (b ++ s) :=
      rfl
    have e2 : run (grammar cfg) (4 * ((b ++ s).length + 1)) n true s = D cfg n true s := by
      apply run_eq_den (grammar_wf cfg)
      apply run_not_oof (grammar_wf cfg)
      have := (grammar_wf cfg).rank_lt n
      simp only [List.length_append]
      omega
    rw [e1, e2] at h
    exact h
  exact step_head hb den_suffix (D_consumes cfg) hrec p hp s

/-- **C36.** For the grammar, blanks in front of the text make no difference: the outcome is the same,
except that the message about a missing SELECT quotes the text as given. -/
theorem C36_leading_blanks (cfg : Config) (b s : Str) (hb : ∀ c ∈ b, isSpace c = true) :
    parseIt cfg (b ++ s) = parseIt cfg s ∨
      (parseIt cfg (b ++ s) = .error (.expectingSelect (b ++ s)) ∧
        parseIt cfg s = .error (.expectingSelect s)) := by
  unfold parseIt
  rw [parseQuery_eq, parseQuery_eq]
  rcases parse_head (cfg := cfg) hb query_headOK s with h | ⟨a, h1, h2⟩
  · rw [h]
    cases hq : parse cfg query true s with
    | fail => exact .inr ⟨rfl, rfl⟩
    | err e => cases e <;> exact .inl rfl
    | _ => exact .inl rfl
  · have := parse_consumes (cfg := cfg) (p := query) (WF.consumes_query) h2
    omega


end Adql
