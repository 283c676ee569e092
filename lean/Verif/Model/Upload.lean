import Verif.Props.Identifiers
import Verif.Peg.Calm

/-!
# Exact description of `tap_upload` (init_column_reference.cxx L6-L13, L55-L60)
-/

namespace Adql

open P Spec

theorem calm_anyKw : ∀ ws, (anyKw ws).calm = true
  | [] => rfl
  | w :: ws => by
    have := calm_anyKw ws
    simp [anyKw, P.calm, kw, this]

theorem calm_identifier : identifier.calm = true := by
  simp [identifier, regularIdentifier, delimitedIdentifier, allIdentifiers, keyword, delimitedPart,
    P.calm, diff, seqR, seqL, calm_anyKw, cat, chS, manyS, plusS, sym]

theorem identifier_total (cfg : Config) (sk : Bool) (s : Str) :
    (∃ a r, parse cfg identifier sk s = .ok a r) ∨ parse cfg identifier sk s = .fail := by
  cases h : parse cfg identifier sk s with
  | ok a r => exact .inl ⟨a, r, rfl⟩
  | fail => exact .inr rfl
  | err e => exact absurd h (step_calm _ calm_identifier _ _ _)
  | oof => exact absurd h (parse_not_oof (WF.wf_identifier 4))

/-- identifiers do not depend on the recursive rules -/
theorem step_identifier (rec : (n : Rule) → Bool → Str → Res (Attr n)) (cfg : Config) (sk : Bool)
    (s : Str) : step rec identifier sk s = parse cfg identifier sk s := by
  simp only [parse, identifier, run_lexeme, run_alt, run_regularIdentifier, run_delimited]

theorem run_tapUpload (rec : (n : Rule) → Bool → Str → Res (Attr n)) (cfg : Config) (sk : Bool)
    (s : Str) : step rec (tapUpload cfg) sk s =
    match matchLit false cs!"TAP_UPLOAD." (skip sk s) with
    | none => .fail
    | some (_, r) =>
      match parse cfg identifier false r with
      | .ok x r' =>
        match cfg.mapping x with
        | some t => .ok t r'
        | none => .err (.noTable x)
      | _ => .err (.expect "TAP_UPLOAD identifier" r) := by
  have e : step rec (tapUpload cfg) sk s =
      (step rec (sym cs!"TAP_UPLOAD.") false (skip sk s)).bind fun _ r =>
        (step rec (tapUploadIdentifier cfg) false r).orElse
          (.err (.expect "TAP_UPLOAD identifier" r)) := by
    simp only [tapUpload, run_lexeme, run_seqR, run_expect]
  rw [e]
  have e2 : step rec (sym cs!"TAP_UPLOAD.") false (skip sk s) =
      match matchLit false cs!"TAP_UPLOAD." (skip sk s) with
      | some (t, r) => .ok t r
      | none => .fail := rfl
  rw [e2]
  cases matchLit false cs!"TAP_UPLOAD." (skip sk s) with
  | none => rfl
  | some x =>
    obtain ⟨t, r⟩ := x
    simp only [Res.bind_ok, tapUploadIdentifier, run_lexeme, run_act]
    rw [step_identifier rec cfg]
    have : skip false r = r := rfl
    rw [this]
    rcases identifier_total cfg false r with ⟨a, u, h⟩ | h
    · rw [h]
      simp only [Res.bind_ok]
      cases cfg.mapping a <;> rfl
    · rw [h]; rfl

theorem identifier_append {cfg : Config} {sk : Bool} {s a r : Str}
    (h : parse cfg identifier sk s = .ok a r) : ∃ b, s = b ++ (a ++ r) ∧ Blank sk b := by
  rw [C06_identifier, C04_regular_identifier, C06_delimited_identifier] at h
  rcases h with ⟨b, h1, h2, -⟩ | ⟨b, h1, h2, -⟩
  · exact ⟨b, h1, h2⟩
  · exact ⟨b, h1, h2⟩

end Adql
