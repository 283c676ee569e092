import Verif.Model.Upload
import Verif.Props.Outcome

/-!
# C10: names of uploaded tables
-/

namespace Adql

open P Spec

theorem identifier_iff {cfg : Config} {sk : Bool} {s x r : Str} :
    parse cfg identifier sk s = .ok x r ↔ ∃ b, s = b ++ (x ++ r) ∧ Blank sk b ∧ IdentAt x r := by
  rw [C06_identifier, C04_regular_identifier, C06_delimited_identifier]
  constructor
  · rintro (⟨b, h1, h2, h3⟩ | ⟨b, h1, h2, h3⟩)
    · exact ⟨b, h1, h2, .inl h3⟩
    · exact ⟨b, h1, h2, .inr h3⟩
  · rintro ⟨b, h1, h2, h3 | h3⟩
    · exact .inl ⟨b, h1, h2, h3⟩
    · exact .inr ⟨b, h1, h2, h3⟩

theorem matchLit_tap (r : Str) : matchLit false cs!"TAP_UPLOAD." (cs!"TAP_UPLOAD." ++ r) =
    some (cs!"TAP_UPLOAD.", r) := by
  rw [matchLit_iff]
  exact ⟨rfl, litOK_cs.2 rfl⟩

/-- the word TAP_UPLOAD is not an identifier -/
theorem identifier_tap {cfg : Config} {sk : Bool} {b r : Str} (hb : Blank sk b) :
    parse cfg identifier sk (b ++ (cs!"TAP_UPLOAD." ++ r)) = .fail := by
  have hsk : skip sk (b ++ (cs!"TAP_UPLOAD." ++ r)) = cs!"TAP_UPLOAD." ++ r := by
    apply skip_eq hb
    intro c t h; simp at h; rw [← h.1]; decide
  rcases identifier_total cfg sk (b ++ (cs!"TAP_UPLOAD." ++ r)) with ⟨a, u, h⟩ | h
  · exfalso
    have h' : parse cfg identifier false (cs!"TAP_UPLOAD." ++ r) = .ok a u := by
      rw [← h]
      simp only [parse, identifier, run_lexeme, run_alt, hsk]
      rfl
    rw [C06_identifier] at h'
    rcases h' with h' | h'
    · have : cs!"TAP_UPLOAD." ++ r = cs!"TAP_UPLOAD" ++ ('.' :: r) := rfl
      rw [this, C05_reserved_refused_partial cfg false cs!"TAP_UPLOAD" ('.' :: r)] at h'
      · cases h'
      · exact ⟨'T', _, rfl, isLetter_iff.1 (by decide), fun d hd => isIdChar_iff.1 (by
          have : (cs!"AP_UPLOAD".all isIdChar) = true := by decide
          exact List.all_eq_true.1 this d hd)⟩
      · rw [notContinued_iff]; intro c t hc; simp at hc; rw [← hc.1]; decide
      · exact ⟨cs!"TAP_UPLOAD", by decide +kernel, rfl⟩
      · rintro ⟨m, hm, hs⟩
        have : (missed.all fun m => cs!"TAP_UPLOAD".map lowerC != m.map lowerC) = true := by decide
        have := List.all_eq_true.1 this m hm
        simp only [bne_iff_ne] at this
        exact this hs
      · intro he
        unfold EndExec at he
        have := he.1
        revert this; unfold SameCI; decide
    · rw [C06_delimited_identifier] at h'
      obtain ⟨b, h1, h2, ⟨v, h3, -⟩, -⟩ := h'
      rw [blank_false] at h2
      subst h2
      rw [h3] at h1
      simp at h1
  · exact h

/-- **C10.** `tap_upload` succeeds exactly on `TAP_UPLOAD.x` with a known `x`, and its value is the
mapped name. -/
theorem C10_upload_ok (cfg : Config) (sk : Bool) (s t r : Str) :
    parse cfg tap sk s = .ok t r ↔
      ∃ b x, s = b ++ (cs!"TAP_UPLOAD." ++ (x ++ r)) ∧ Blank sk b ∧ IdentAt x r ∧
        cfg.mapping x = some t := by
  have e : parse cfg tap sk s = step (D cfg) (tapUpload cfg) sk s := parse_nt cfg .tap sk s
  rw [e, run_tapUpload]
  constructor
  · intro h
    split at h
    · cases h
    · rename_i u v ht
      have hs := matchLit_cs_append ht
      split at h
      · rename_i x w hx
        obtain ⟨b', hb', hB', hx'⟩ := identifier_iff.1 hx
        rw [blank_false] at hB'
        subst hB'
        split at h
        · rename_i t' hm
          cases h
          obtain ⟨b, hb, hB⟩ := skip_blank sk s
          refine ⟨b, x, ?_, hB, hx', hm⟩
          rw [hb, hs, hb']; rfl
        · cases h
      · cases h
  · rintro ⟨b, x, rfl, hB, hx, hm⟩
    have hsk : skip sk (b ++ (cs!"TAP_UPLOAD." ++ (x ++ r))) = cs!"TAP_UPLOAD." ++ (x ++ r) := by
      apply skip_eq hB
      intro c t h; simp at h; rw [← h.1]; decide
    have hid : parse cfg identifier false (x ++ r) = .ok x r :=
      identifier_iff.2 ⟨[], rfl, blank_nil _, hx⟩
    rw [hsk, matchLit_tap]
    simp only [hid, hm]

/-- **C10.** An unknown name throws the error naming it. -/
theorem C10_upload_unknown (cfg : Config) (sk : Bool) (b x r : Str) (hB : Blank sk b)
    (hx : IdentAt x r) (hm : cfg.mapping x = none) :
    parse cfg tap sk (b ++ (cs!"TAP_UPLOAD." ++ (x ++ r))) = .err (.noTable x) := by
  have e := parse_nt cfg .tap sk (b ++ (cs!"TAP_UPLOAD." ++ (x ++ r)))
  have e' : parse cfg tap sk (b ++ (cs!"TAP_UPLOAD." ++ (x ++ r))) =
      step (D cfg) (tapUpload cfg) sk (b ++ (cs!"TAP_UPLOAD." ++ (x ++ r))) := e
  have hsk : skip sk (b ++ (cs!"TAP_UPLOAD." ++ (x ++ r))) = cs!"TAP_UPLOAD." ++ (x ++ r) := by
    apply skip_eq hB
    intro c t h; simp at h; rw [← h.1]; decide
  have hid : parse cfg identifier false (x ++ r) = .ok x r :=
    identifier_iff.2 ⟨[], rfl, blank_nil _, hx⟩
  rw [e', run_tapUpload, hsk, matchLit_tap]
  simp only [hid, hm]

theorem parse_lexeme {cfg : Config} {α : Type} {p : G α} {sk : Bool} {s : Str} :
    parse cfg (.lexeme p) sk s = parse cfg p false (skip sk s) := rfl

/-- **C10, tables.** In the place of a table, `TAP_UPLOAD.x` becomes exactly the mapped name. -/
theorem C10_table (cfg : Config) (sk : Bool) (b x r : Str) (hB : Blank sk b) (hx : IdentAt x r) :
    parse cfg tableName sk (b ++ (cs!"TAP_UPLOAD." ++ (x ++ r))) =
      match cfg.mapping x with
      | some t => .ok t r
      | none => .err (.noTable x) := by
  have hsk : skip sk (b ++ (cs!"TAP_UPLOAD." ++ (x ++ r))) = cs!"TAP_UPLOAD." ++ (x ++ r) := by
    apply skip_eq hB
    intro c t h; simp at h; rw [← h.1]; decide
  unfold tableName
  rw [parse_lexeme, hsk]
  simp only [parse]
  rw [run_alt]
  cases hm : cfg.mapping x with
  | some t =>
    have := (C10_upload_ok cfg false (cs!"TAP_UPLOAD." ++ (x ++ r)) t r).2
      ⟨[], x, rfl, blank_nil _, hx, hm⟩
    simp only [parse] at this
    rw [this]; rfl
  | none =>
    have := C10_upload_unknown cfg false [] x r (blank_nil _) hx hm
    simp only [parse, List.nil_append] at this
    rw [this]; rfl

/-- **C10, tables.** Every other table name is kept verbatim. -/
theorem C10_table_verbatim (cfg : Config) (sk : Bool) (s a r : Str)
    (hs : ¬ cs!"TAP_UPLOAD." <+: skip sk s) (h : parse cfg tableName sk s = .ok a r) :
    ∃ b, s = b ++ (a ++ r) ∧ Blank sk b := by
  obtain ⟨b, hb, hB⟩ := skip_blank sk s
  refine ⟨b, ?_, hB⟩
  unfold tableName at h
  rw [parse_lexeme] at h
  have key : skip sk s = a ++ r := by
    have cat' : ∀ {p q : G Str}, (∀ s a r, parse cfg p false s = .ok a r → s = a ++ r) →
        (∀ s a r, parse cfg q false s = .ok a r → s = a ++ r) →
        ∀ s a r, parse cfg (cat p q) false s = .ok a r → s = a ++ r := by
      intro p q hp hq s a r h
      simp only [parse, run_cat] at h
      cases h1 : step (D cfg) p false s with
      | ok x u =>
        rw [h1] at h
        simp only [Res.bind_ok] at h
        cases h2 : step (D cfg) q false u with
        | ok y v =>
          rw [h2] at h
          cases h
          rw [hp _ _ _ h1, hq _ _ _ h2, List.append_assoc]
        | _ => rw [h2] at h; cases h
      | _ => rw [h1] at h; cases h
    have idv : ∀ s a r, parse cfg identifier false s = .ok a r → s = a ++ r := by
      intro s a r h
      obtain ⟨b, h1, h2⟩ := identifier_append h
      rw [blank_false] at h2; subst h2; exact h1
    have pv : ∀ s a r, parse cfg period false s = .ok a r → s = a ++ r := by
      intro s a r h
      simp only [parse, period, run_lexeme, run_chS] at h
      cases s with
      | nil => cases h
      | cons c s =>
        simp only [skip, Bool.false_eq_true, if_false] at h
        split at h
        · cases h; rfl
        · cases h
    simp only [parse, run_alt] at h
    have ht : parse cfg tap false (skip sk s) = .fail := by
      have e : parse cfg tap false (skip sk s) = step (D cfg) (tapUpload cfg) false (skip sk s) :=
        parse_nt cfg .tap _ _
      rw [e, run_tapUpload]
      split
      · rfl
      · rename_i t u hm
        exact absurd ⟨u, (matchLit_cs_append hm).symm⟩ hs
    rw [show step (D cfg) tap false (skip sk s) = .fail from ht] at h
    simp only [Res.orElse_fail] at h
    cases h1 : step (D cfg) (cat identifier (cat period (cat identifier (cat period identifier))))
        false (skip sk s) with
    | ok x u =>
      rw [h1] at h; cases h
      exact cat' idv (cat' pv (cat' idv (cat' pv idv))) _ _ _ h1
    | fail =>
      rw [h1] at h
      simp only [Res.orElse_fail] at h
      cases h2 : step (D cfg) (cat identifier (cat period identifier)) false (skip sk s) with
      | ok x u => rw [h2] at h; cases h; exact cat' idv (cat' pv idv) _ _ _ h2
      | fail => rw [h2] at h; exact idv _ _ _ h
      | _ => rw [h2] at h; cases h
    | _ => rw [h1] at h; cases h
  rw [← key, ← hb]

/-- **C10, columns.** In a column reference `TAP_UPLOAD.x.c` the qualifier becomes exactly the mapped
name. -/
theorem C10_column (cfg : Config) (sk : Bool) (b x r : Str) (hB : Blank sk b) (hx : IdentAt x r) :
    parse cfg columnReference sk (b ++ (cs!"TAP_UPLOAD." ++ (x ++ r))) =
      match cfg.mapping x with
      | some t => (parse cfg (seqR (sym cs!".") identifier) sk r).bind fun c r' => .ok (.qc t c) r'
      | none => .err (.noTable x) := by
  have hid := identifier_tap (cfg := cfg) (r := x ++ r) hB
  simp only [parse] at hid
  simp only [columnReference, parse, run_alt, run_map, run_seq, hid, Res.bind_fail,
    Res.orElse_fail]
  cases hm : cfg.mapping x with
  | some t =>
    have := (C10_upload_ok cfg sk (b ++ (cs!"TAP_UPLOAD." ++ (x ++ r))) t r).2
      ⟨b, x, rfl, hB, hx, hm⟩
    simp only [parse] at this
    rw [this]
    simp only [Res.orElse_ok, Res.bind_ok]
    cases step (D cfg) (seqR (sym cs!".") identifier) sk r <;> rfl
  | none =>
    have := C10_upload_unknown cfg sk b x r hB hx hm
    simp only [parse] at this
    rw [this]
    rfl

/-- the hypotheses are met by `TAP_UPLOAD.my_table` in front of ` AS t` -/
example : IdentAt cs!"my_table" cs!" AS t" := by
  have h : parse ⟨fun _ => none, false⟩ identifier false (cs!"my_table" ++ cs!" AS t") =
      .ok cs!"my_table" cs!" AS t" := by kernel_rfl
  obtain ⟨b, -, -, h1⟩ := identifier_iff.1 h
  exact h1

end Adql
