import Verif.Model.Origin
import Verif.Model.AcceptName
import Verif.Model.AcceptGeom
import Verif.Model.FaithfulGeom
import Verif.Spec.Regular
import Verif.Spec.Alternatives

/-!
# What cannot come from a text

Conditions of `Regular` that hold of every node that came from a text: an alternative that is tried earlier would
have been taken.
-/

namespace Adql.Reach

open P Spec Fwd

variable {cfg : Config}

/-! ### Words -/

/-- The word `w`, spelled `t`, begins the text `s`, and a blank follows. -/
def Starts (w s t r : Str) : Prop := ∃ b, Blanks b ∧ s = b ++ (t ++ r) ∧ SameCI t w ∧ BlankFirst r

theorem andSpace_inv {s r : Str} {x : Unit} (h : parse cfg andSpace false s = .ok x r) : r = s ∧ BlankFirst s := by
  simp only [parse, andSpace, step_map_ok, step_andP_ok, step_chr_ok] at h
  obtain ⟨c, ⟨⟨t, h1, h2⟩, rfl⟩, -⟩ := h
  exact ⟨rfl, c, t, h1, h2⟩

theorem word_inv {w s t r : Str} (h : parse cfg (word w) true s = .ok t r) : Starts w s t r := by
  simp only [parse, word, step_lexeme, seqL, step_map_ok, step_seq_ok, kw, step_lit_ok] at h
  obtain ⟨⟨a, b⟩, ⟨u, h1, h2⟩, rfl⟩ := h
  obtain ⟨rfl, hb⟩ := andSpace_inv (cfg := cfg) h2
  obtain ⟨b, hb', e⟩ := skip_split s
  obtain ⟨h3, h4⟩ := matchLit_iff.1 h1
  rw [show skip false (skip true s) = skip true s from rfl] at h3
  exact ⟨b, hb', by rw [← h3]; exact e, litOK_ci.1 h4, hb⟩

theorem wordX_inv {w s t r : Str} (h : parse cfg (wordX w) true s = .ok t r) : Starts w s t r := by
  simp only [parse, wordX, step_lexeme, seqL, step_map_ok, step_seq_ok, kw, step_lit_ok, step_expect_ok] at h
  obtain ⟨⟨a, b⟩, ⟨u, h1, h2⟩, rfl⟩ := h
  obtain ⟨rfl, hb⟩ := andSpace_inv (cfg := cfg) h2
  obtain ⟨b, hb', e⟩ := skip_split s
  obtain ⟨h3, h4⟩ := matchLit_iff.1 h1
  rw [show skip false (skip true s) = skip true s from rfl] at h3
  exact ⟨b, hb', by rw [← h3]; exact e, litOK_ci.1 h4, hb⟩

/-- `wordX` only fails when the word does not begin the text. -/
theorem wordX_none {w s : Str} (h : parse cfg (wordX w) true s = .fail) : matchLit true w (skip true s) = none := by
  simp only [parse, wordX, step_lexeme, seqL, step_map_fail, step_seq_fail, kw, step_lit_fail] at h
  rcases h with h | ⟨a, t, -, h⟩
  · exact h
  · exact absurd h step_expect_fail

namespace Starts

variable {w s t r : Str}

theorem start (h : Starts w s t r) (hw : wordShape w = true) : skip true s = t ++ r ∧ KwStart w t r := by
  obtain ⟨b, hb, rfl, hs, hr⟩ := h
  have hk : KwStart w t r := ⟨hw, hs, blankFirst_notContinued hr⟩
  exact ⟨by rw [skip_blanks hb, skip_bare hk.bare], hk⟩

theorem venb (h : Starts w s t r) (hw : wordShape w = true) (hv : venbKw w = true) : parse cfg Adql.venb true s = .fail := by
  obtain ⟨b, hb, e, -, -⟩ := id h
  obtain ⟨-, hk⟩ := h.start hw
  rw [e, venb_blanks hb]
  exact venb_fail_kw hk hv

theorem next (h : Starts w s t r) (hw : wordShape w = true) : ∃ c, Spec.next s = some c ∧ isLetter c = true := by
  obtain ⟨e, hk⟩ := h.start hw
  exact kwStart_next hk e

theorem next_ne (h : Starts w s t r) (hw : wordShape w = true) {d : Char} (hd : isLetter d = false) : Spec.next s ≠ some d := by
  obtain ⟨c, e, hc⟩ := h.next hw
  rw [e]; rintro ⟨⟩; rw [hd] at hc; cases hc

end Starts

theorem sym_inv {w s t r : Str} (h : parse cfg (sym w) true s = .ok t r) : t = w ∧ ∃ b, Blanks b ∧ s = b ++ (w ++ r) := by
  simp only [parse, sym, step_lit_ok] at h
  obtain ⟨h1, h2⟩ := matchLit_iff.1 h
  obtain ⟨b, hb, e⟩ := skip_split s
  have : t = w := h2
  subst this
  exact ⟨rfl, b, hb, by rw [← h1]; exact e⟩

/-! ### Taking rules apart -/

theorem parse_seq_ok {α β : Type} {p : G α} {q : G β} {s r : Str} {x : α × β} :
    parse cfg (.seq p q) true s = .ok x r ↔ ∃ t, parse cfg p true s = .ok x.1 t ∧ parse cfg q true t = .ok x.2 r := step_seq_ok

theorem parse_map_ok {α β : Type} {p : G α} {f : α → β} {s r : Str} {x : β} :
    parse cfg (.map f p) true s = .ok x r ↔ ∃ y, parse cfg p true s = .ok y r ∧ f y = x := step_map_ok

theorem parse_alt_ok {α : Type} {p q : G α} {s r : Str} {x : α} :
    parse cfg (.alt p q) true s = .ok x r ↔
      parse cfg p true s = .ok x r ∨ parse cfg p true s = .fail ∧ parse cfg q true s = .ok x r := step_alt_ok

theorem parse_expect_ok {α : Type} {w : String} {p : G α} {s r : Str} {x : α} :
    parse cfg (.expect w p) true s = .ok x r ↔ parse cfg p true s = .ok x r := step_expect_ok

theorem parse_seqR_ok {α β : Type} {p : G α} {q : G β} {s r : Str} {x : β} :
    parse cfg (seqR p q) true s = .ok x r ↔ ∃ a t, parse cfg p true s = .ok a t ∧ parse cfg q true t = .ok x r := by
  unfold seqR
  rw [parse_map_ok]
  constructor
  · rintro ⟨⟨a, b⟩, h, rfl⟩
    obtain ⟨t, h1, h2⟩ := parse_seq_ok.1 h
    exact ⟨a, t, h1, h2⟩
  · rintro ⟨a, t, h1, h2⟩
    exact ⟨(a, x), parse_seq_ok.2 ⟨t, h1, h2⟩, rfl⟩

theorem parse_seqL_ok {α β : Type} {p : G α} {q : G β} {s r : Str} {x : α} :
    parse cfg (seqL p q) true s = .ok x r ↔ ∃ b t, parse cfg p true s = .ok x t ∧ parse cfg q true t = .ok b r := by
  unfold seqL
  rw [parse_map_ok]
  constructor
  · rintro ⟨⟨a, b⟩, h, rfl⟩
    obtain ⟨t, h1, h2⟩ := parse_seq_ok.1 h
    exact ⟨b, t, h1, h2⟩
  · rintro ⟨b, t, h1, h2⟩
    exact ⟨(x, b), parse_seq_ok.2 ⟨t, h1, h2⟩, rfl⟩

/-- `predicate` -/
theorem pred_inv {s r : Str} {q : Pred} (h : parse cfg predicate true s = .ok q r) :
    (∃ v ρ op ρ' w, q = .cmp v op w ∧ parse cfg venb true s = .ok v ρ ∧ parse cfg compOp true ρ = .ok op ρ' ∧
      parse cfg ve true ρ' = .ok w r) ∨
    (∃ v ρ n ρ1 b ρ2 lo ρ3 a ρ4 hi, q = .between v n lo hi ∧ parse cfg venb true s = .ok v ρ ∧
      parse cfg (optS (wordX cs!"NOT")) true ρ = .ok n ρ1 ∧ parse cfg (wordX cs!"BETWEEN") true ρ1 = .ok b ρ2 ∧
      parse cfg ve true ρ2 = .ok lo ρ3 ∧ parse cfg (wordX cs!"AND") true ρ3 = .ok a ρ4 ∧ parse cfg ve true ρ4 = .ok hi r) ∨
    (∃ v ρ n ρ1 b ρ2, parse cfg venb true s = .ok v ρ ∧ parse cfg inNot true ρ = .ok n ρ1 ∧ parse cfg (wordX cs!"IN") true ρ1 = .ok b ρ2 ∧
      ((∃ x, q = .inSub v n x ∧ parse cfg subq true ρ2 = .ok x r) ∨
       (∃ l, q = .inList v n l ∧ parse cfg subq true ρ2 = .fail ∧
        parse cfg (seqR (sym cs!"(") (seqL (sepBy ve (sym cs!",")) (sym cs!")"))) true ρ2 = .ok l r))) ∨
    (∃ v ρ b ρ1 n, q = .null v n ∧ parse cfg venb true s = .ok v ρ ∧ parse cfg (wordX cs!"IS") true ρ = .ok b ρ1) ∨
    (∃ v ρ n ρ1 b ρ2 w, q = .like v n (.nb w) ∧ parse cfg venb true s = .ok v ρ ∧ parse cfg (optS (word cs!"NOT")) true ρ = .ok n ρ1 ∧
      parse cfg (word cs!"LIKE") true ρ1 = .ok b ρ2) ∨
    (∃ b ρ x, q = .exist x ∧ parse cfg (wordX cs!"EXISTS") true s = .ok b ρ) := by
  rw [predicate, parse_alt_ok] at h
  rcases h with h | ⟨-, h⟩
  · left
    replace h := parse_map_ok.1 h; obtain ⟨⟨v, op, w⟩, h, rfl⟩ := h
    obtain ⟨t, h1, h⟩ := parse_seq_ok.1 h
    obtain ⟨t', h2, h3⟩ := parse_seq_ok.1 h
    exact ⟨_, _, _, _, _, rfl, h1, h2, h3⟩
  right
  replace h := parse_alt_ok.1 h; rcases h with h | ⟨-, h⟩
  · left
    replace h := parse_map_ok.1 h; obtain ⟨⟨v, n, lo, hi⟩, h, rfl⟩ := h
    obtain ⟨t, h1, h⟩ := parse_seq_ok.1 h
    obtain ⟨t', h2, h⟩ := parse_seq_ok.1 h
    obtain ⟨b, t2, h3, h⟩ := parse_seqR_ok.1 h
    obtain ⟨t3, h4, h⟩ := parse_seq_ok.1 h
    obtain ⟨a, t4, h5, h6⟩ := parse_seqR_ok.1 h
    exact ⟨_, _, _, _, _, _, _, _, _, _, _, rfl, h1, h2, h3, h4, h5, h6⟩
  right
  replace h := parse_alt_ok.1 h; rcases h with h | ⟨-, h⟩
  · left
    replace h := parse_map_ok.1 h; obtain ⟨⟨v, n, z⟩, h, rfl⟩ := h
    obtain ⟨t, h1, h⟩ := parse_seq_ok.1 h
    obtain ⟨t', h2, h⟩ := parse_seq_ok.1 h
    obtain ⟨b, t2, h3, h⟩ := parse_seqR_ok.1 h
    refine ⟨_, _, _, _, _, _, h1, h2, h3, ?_⟩
    rcases parse_alt_ok.1 h with h | ⟨h0, h⟩
    · obtain ⟨x, h', e⟩ := parse_map_ok.1 h
      cases e
      exact .inl ⟨x, rfl, h'⟩
    · obtain ⟨x, h', e⟩ := parse_map_ok.1 h
      cases e
      exact .inr ⟨x, rfl, step_map_fail.1 h0, h'⟩
  right
  replace h := parse_alt_ok.1 h; rcases h with h | ⟨-, h⟩
  · left
    replace h := parse_map_ok.1 h; obtain ⟨⟨v, n⟩, h, rfl⟩ := h
    obtain ⟨t, h1, h⟩ := parse_seq_ok.1 h
    obtain ⟨b, t2, h3, h⟩ := parse_seqR_ok.1 h
    exact ⟨_, _, _, _, _, rfl, h1, h3⟩
  right
  replace h := parse_alt_ok.1 h; rcases h with h | ⟨-, h⟩
  · left
    replace h := parse_map_ok.1 h; obtain ⟨⟨v, n, w⟩, h, rfl⟩ := h
    obtain ⟨t, h1, h⟩ := parse_seq_ok.1 h
    obtain ⟨t', h2, h⟩ := parse_seq_ok.1 h
    obtain ⟨b, t2, h3, h⟩ := parse_seqR_ok.1 h
    exact ⟨_, _, _, _, _, _, _, rfl, h1, h2, h3⟩
  right
  replace h := parse_map_ok.1 h; obtain ⟨x, h, rfl⟩ := h
  obtain ⟨b, t2, h3, h⟩ := parse_seqR_ok.1 h
  exact ⟨_, _, _, rfl, h3⟩

/-- `boolean_primary` -/
theorem bp_inv {s r : Str} {p : BP} (h : parse cfg booleanPrimary true s = .ok p r) :
    (∃ q, p = .pred q ∧ parse cfg predicate true s = .ok q r) ∨
    (∃ c o u ρ d, p = .sc c ∧ parse cfg predicate true s = .fail ∧ parse cfg (sym cs!"(") true s = .ok o u ∧ parse cfg sc true u = .ok c ρ ∧
      parse cfg (sym cs!")") true ρ = .ok d r) ∨
    (∃ v, p = .ve v ∧ parse cfg predicate true s = .fail ∧
      parse cfg (seqR (sym cs!"(") (seqL sc (sym cs!")"))) true s = .fail ∧ parse cfg venb true s = .ok v r) := by
  rw [booleanPrimary, parse_alt_ok] at h
  rcases h with h | ⟨h0, h⟩
  · replace h := parse_map_ok.1 h; obtain ⟨x, h, rfl⟩ := h
    exact .inl ⟨x, rfl, h⟩
  right
  replace h := parse_alt_ok.1 h; rcases h with h | ⟨h1, h⟩
  · left
    replace h := parse_map_ok.1 h; obtain ⟨x, h, rfl⟩ := h
    obtain ⟨o, u, h2, h⟩ := parse_seqR_ok.1 h
    obtain ⟨d, ρ, h3, h4⟩ := parse_seqL_ok.1 h
    exact ⟨_, _, _, _, _, rfl, step_map_fail.1 h0, h2, h3, h4⟩
  · right
    replace h := parse_map_ok.1 h; obtain ⟨x, h, rfl⟩ := h
    exact ⟨_, rfl, step_map_fail.1 h0, step_map_fail.1 h1, h⟩

/-- `search_condition` -/
theorem sc_inv {s r : Str} {c : SC} (h : parse cfg sc true s = .ok c r) :
    (∃ b ρ op ρ' c', c = .term b op c' ∧ parse cfg (booleanFactor cfg.residue) true s = .ok b ρ ∧ parse cfg logicalOp true ρ = .ok op ρ' ∧
      parse cfg sc true ρ' = .ok c' r) ∨
    (∃ b, c = .factor b ∧ parse cfg (booleanFactor cfg.residue) true s = .ok b r ∧ parse cfg (.seq logicalOp sc) true r = .fail) := by
  rw [sc, parse_nt] at h
  replace h := parse_alt_ok.1 h; rcases h with h | ⟨h0, h⟩
  · left
    replace h := parse_map_ok.1 h; obtain ⟨⟨b, op, c'⟩, h, rfl⟩ := h
    obtain ⟨ρ, h1, h⟩ := parse_seq_ok.1 h
    obtain ⟨ρ', h2, h3⟩ := parse_seq_ok.1 h
    exact ⟨_, _, _, _, _, rfl, h1, h2, h3⟩
  · right
    replace h := parse_map_ok.1 h; obtain ⟨b, h, rfl⟩ := h
    refine ⟨b, rfl, h, ?_⟩
    rcases step_seq_fail.1 (step_map_fail.1 h0) with h1 | ⟨a, t, h1, h2⟩
    · rw [parse] at h; rw [h] at h1; cases h1
    · rw [parse] at h; rw [h] at h1; cases h1; exact h2

/-- A condition goes on as long as possible. -/
theorem sc_end : ∀ (c : SC) {s r op t : Str}, parse cfg sc true s = .ok c r → parse cfg logicalOp true r = .ok op t →
    parse cfg sc true t = .fail
  | .term b o c, s, r, op, t, h, ho => by
    rcases sc_inv h with ⟨b', ρ, op', ρ', c', e, h1, h2, h3⟩ | ⟨b', e, h1, h2⟩
    · cases e; exact sc_end c h3 ho
    · cases e
  | .factor b, s, r, op, t, h, ho => by
    rcases sc_inv h with ⟨b', ρ, op', ρ', c', e, h1, h2, h3⟩ | ⟨b', e, h1, h2⟩
    · cases e
    · rcases step_seq_fail.1 h2 with h3 | ⟨a, u, h3, h4⟩
      · rw [parse] at ho; rw [ho] at h3; cases h3
      · rw [parse] at ho; rw [ho] at h3; cases h3; exact h4

theorem opt_inv {α : Type} {d : α} {p : G α} {s r : Str} {x : α} (h : parse cfg (optD d p) true s = .ok x r) :
    parse cfg p true s = .ok x r ∨ parse cfg p true s = .fail ∧ x = d ∧ r = s := by
  rcases parse_alt_ok.1 h with h | ⟨h0, h⟩
  · exact .inl h
  · exact .inr ⟨h0, step_pure_ok.1 h⟩

/-! ### The name with which an expression begins -/

/-- The text of an expression without a sign begins with its operand. -/
theorem venb_inv {s r : Str} {sg : Str} {np : NumPrim} {ts : List Term} (h : parse cfg venb true s = .ok (.mk (.mk sg np) ts) r) :
    (∃ t ρ, parse cfg sign true s = .ok sg t ∧ parse cfg numericPrimary true t = .ok np ρ ∧ parse cfg (.star venbTerm) true ρ = .ok ts r) ∨
    (sg = [] ∧ parse cfg sign true s = .fail ∧ ∃ ρ, parse cfg numericPrimary true s = .ok np ρ ∧ parse cfg (.star venbTerm) true ρ = .ok ts r) := by
  rw [venb, parse_nt] at h
  obtain ⟨⟨f, ts'⟩, h1, e⟩ := parse_map_ok.1 h
  cases e
  obtain ⟨ρ, h2, h3⟩ := parse_seq_ok.1 h1
  obtain ⟨⟨sg', np'⟩, h4, e⟩ := parse_map_ok.1 h2
  cases e
  obtain ⟨t, h5, h6⟩ := parse_seq_ok.1 h4
  rcases opt_inv h5 with h7 | ⟨h7, h8, rfl⟩
  · exact .inl ⟨t, ρ, h7, h6, h3⟩
  · exact .inr ⟨h8, h7, ρ, h6, h3⟩

theorem sign_inv {s r x : Str} (h : parse cfg sign true s = .ok x r) : x ≠ [] := by
  simp only [parse, sign, step_lexeme, chS, step_map_ok] at h
  obtain ⟨c, -, rfl⟩ := h
  nofun

/-- A first operand without sign. -/
theorem venb_plain {s r : Str} {np : NumPrim} {ts : List Term} (h : parse cfg venb true s = .ok (.mk (.mk [] np) ts) r) :
    ∃ ρ, parse cfg numericPrimary true s = .ok np ρ := by
  rcases venb_inv h with ⟨t, ρ, h1, -, -⟩ | ⟨-, -, ρ, h1, -⟩
  · exact absurd rfl (sign_inv h1)
  · exact ⟨ρ, h1⟩

theorem np_nvf {s r : Str} {f : NumFn} (h : parse cfg numericPrimary true s = .ok (.nvf f) r) :
    parse cfg numericValueFunction true s = .ok f r := by
  rcases parse_alt_ok.1 h with h | ⟨-, h⟩
  · obtain ⟨x, h1, e⟩ := parse_map_ok.1 h
    cases e; exact h1
  · obtain ⟨x, h1, e⟩ := parse_map_ok.1 h
    cases e

theorem np_vep {s r : Str} {p : Prim} {is : List VE} (h : parse cfg numericPrimary true s = .ok (.vep (.mk p is)) r) :
    parse cfg numericValueFunction true s = .fail ∧ ∃ ρ, parse cfg primary true s = .ok p ρ ∧ parse cfg (.star arrayIndex) true ρ = .ok is r := by
  rcases parse_alt_ok.1 h with h | ⟨h0, h⟩
  · obtain ⟨x, h1, e⟩ := parse_map_ok.1 h
    cases e
  · refine ⟨step_map_fail.1 h0, ?_⟩
    obtain ⟨x, h1, e⟩ := parse_map_ok.1 h
    cases e
    obtain ⟨⟨p', is'⟩, h2, e⟩ := parse_map_ok.1 h1
    cases e
    exact parse_seq_ok.1 h2

theorem udf_inv {s r fn : Str} {as : List VE} (h : parse cfg numericValueFunction true s = .ok (.udf fn as) r) :
    ∃ ρ, parse cfg udfName true s = .ok fn ρ := by
  rcases parse_alt_ok.1 h with h | ⟨-, h⟩
  · rcases parse_alt_ok.1 h with h | ⟨-, h⟩ <;> obtain ⟨x, -, e⟩ := parse_map_ok.1 h <;> cases e
  rcases parse_alt_ok.1 h with h | ⟨-, h⟩
  · rcases parse_alt_ok.1 h with h | ⟨-, h⟩
    · obtain ⟨x, -, e⟩ := parse_map_ok.1 h; cases e
    rcases parse_alt_ok.1 h with h | ⟨-, h⟩ <;> obtain ⟨x, -, e⟩ := parse_map_ok.1 h <;> cases e
  rcases parse_alt_ok.1 h with h | ⟨-, h⟩
  · obtain ⟨x, -, e⟩ := parse_map_ok.1 h; cases e
  rcases parse_alt_ok.1 h with h | ⟨-, h⟩
  · rcases parse_alt_ok.1 h with h | ⟨-, h⟩ <;> obtain ⟨x, -, e⟩ := parse_map_ok.1 h <;> cases e
  rcases parse_alt_ok.1 h with h | ⟨-, h⟩
  · obtain ⟨⟨x, y⟩, h1, e⟩ := parse_map_ok.1 h
    cases e
    obtain ⟨t, h2, -⟩ := parse_seq_ok.1 h1
    obtain ⟨b, ρ, h3, -⟩ := parse_seqL_ok.1 h2
    exact ⟨ρ, h3⟩
  · obtain ⟨x, -, e⟩ := parse_map_ok.1 h; cases e

theorem primCol_inv {s r : Str} {c : ColRef} (h : parse cfg primary true s = .ok (.col c) r) :
    parse cfg columnReference true s = .ok c r := by
  rcases parse_alt_ok.1 h with h | ⟨-, h⟩
  · obtain ⟨x, -, e⟩ := parse_map_ok.1 h; cases e
  rcases parse_alt_ok.1 h with h | ⟨-, h⟩
  · obtain ⟨x, -, e⟩ := parse_map_ok.1 h; cases e
  rcases parse_alt_ok.1 h with h | ⟨-, h⟩
  · obtain ⟨x, h1, e⟩ := parse_map_ok.1 h; cases e; exact h1
  rcases parse_alt_ok.1 h with h | ⟨-, h⟩
  · rcases parse_alt_ok.1 h with h | ⟨-, h⟩ <;> obtain ⟨x, -, e⟩ := parse_map_ok.1 h <;> cases e
  rcases parse_alt_ok.1 h with h | ⟨-, h⟩
  · obtain ⟨x, -, e⟩ := parse_map_ok.1 h; cases e
  rcases parse_alt_ok.1 h with h | ⟨-, h⟩
  · obtain ⟨x, -, e⟩ := parse_map_ok.1 h; cases e
  rcases parse_alt_ok.1 h with h | ⟨-, h⟩
  · obtain ⟨x, -, e⟩ := parse_map_ok.1 h; cases e
  rcases parse_alt_ok.1 h with h | ⟨-, h⟩ <;> obtain ⟨x, -, e⟩ := parse_map_ok.1 h <;> cases e

/-- The first name of a column is an identifier at the beginning of the text, or a mapped one. -/
theorem col_first {s r : Str} {c : ColRef} (h : parse cfg columnReference true s = .ok c r) :
    (∃ ρ, parse cfg identifier true s = .ok (firstCol c) ρ) ∨ ∃ ρ, parse cfg tap true s = .ok (firstCol c) ρ := by
  rcases parse_alt_ok.1 h with h | ⟨-, h⟩
  · obtain ⟨x, h1, rfl⟩ := parse_map_ok.1 h
    obtain ⟨t, h2, -⟩ := parse_seq_ok.1 h1
    exact .inl ⟨t, h2⟩
  rcases parse_alt_ok.1 h with h | ⟨-, h⟩
  · obtain ⟨x, h1, rfl⟩ := parse_map_ok.1 h
    obtain ⟨t, h2, -⟩ := parse_seq_ok.1 h1
    exact .inl ⟨t, h2⟩
  rcases parse_alt_ok.1 h with h | ⟨-, h⟩
  · obtain ⟨x, h1, rfl⟩ := parse_map_ok.1 h
    obtain ⟨t, h2, -⟩ := parse_seq_ok.1 h1
    rcases parse_alt_ok.1 h2 with h | ⟨-, h⟩
    · exact .inr ⟨t, h⟩
    · exact .inl ⟨t, h⟩
  · obtain ⟨x, h1, rfl⟩ := parse_map_ok.1 h
    exact .inl ⟨_, h1⟩

/-- The word begins the text and is not continued, or is quoted. -/
structure Leading (x u : Str) : Prop where
  text : ∃ z, u = x ++ z ∧ ((IdentShape x ∧ NotContinued z) ∨ Delimited x)

theorem ident_leading {s x ρ : Str} (h : parse cfg identifier true s = .ok x ρ) : Leading x (skip true s) := by
  rcases (C06_identifier ..).1 h with h | h
  · obtain ⟨b, rfl, hb, hx, hr, -⟩ := (C04_regular_identifier ..).1 h
    rw [skip_blanks hb.1, skip_bare (identShape_bare hx)]
    exact ⟨ρ, rfl, .inl ⟨hx, hr⟩⟩
  · obtain ⟨b, rfl, hb, hx, hr⟩ := (C06_delimited_identifier ..).1 h
    rw [skip_blanks hb.1, skip_bare (delimited_bare hx)]
    exact ⟨ρ, rfl, .inr hx⟩

theorem anyKw_inv : ∀ {ws : List Str} {u x r : Str}, parse cfg (anyKw ws) false u = .ok x r → ∃ w ∈ ws, u = x ++ r ∧ SameCI x w
  | [], u, x, r, h => by
    simp only [parse, run_anyKw, firstLit] at h
    cases h
  | w :: ws, u, x, r, h => by
    rcases step_alt_ok.1 h with h | ⟨-, h⟩
    · obtain ⟨h1, h2⟩ := matchLit_iff.1 (step_lit_ok.1 h)
      exact ⟨w, by simp, h1, litOK_ci.1 h2⟩
    · obtain ⟨w', hw, h1⟩ := anyKw_inv h
      exact ⟨w', by simp [hw], h1⟩

theorem udfName_inv {s x ρ : Str} (h : parse cfg udfName true s = .ok x ρ) :
    (∃ z, skip true s = x ++ z) ∧ ((IdentShape x ∧ NotContinued ρ ∧ skip true s = x ++ ρ) ∨
      ∃ w ∈ [cs!"RIGHT", cs!"LEFT", cs!"UPPER", cs!"LOWER", cs!"DISTINCT", cs!"TRIM"], SameCI x w) := by
  have h : parse cfg (.alt regularIdentifier (anyKw [cs!"RIGHT", cs!"LEFT", cs!"UPPER", cs!"LOWER", cs!"DISTINCT", cs!"TRIM"]))
    false (skip true s) = .ok x ρ := h
  rcases step_alt_ok.1 h with h | ⟨-, h⟩
  · obtain ⟨b, e, hb, hx, hr, -⟩ := (C04_regular_identifier cfg ..).1 h
    rw [hb.2 rfl] at e
    exact ⟨⟨ρ, e⟩, .inl ⟨hx, hr, e⟩⟩
  · obtain ⟨w, hw, e, h1⟩ := anyKw_inv (cfg := cfg) h
    exact ⟨⟨ρ, e⟩, .inr ⟨w, hw, h1⟩⟩

/-- The name with which an expression begins is at the beginning of the text, or a mapped name. -/
theorem first_inv {s r : Str} {v : VENB} (h : parse cfg venb true s = .ok v r) (h0 : firstExpr v ≠ []) :
    (∃ z, skip true s = firstExpr v ++ z) ∨ ∃ ρ, parse cfg tap true s = .ok (firstExpr v) ρ := by
  obtain ⟨⟨sg, np⟩, ts⟩ := v
  cases sg with
  | cons c t => exact absurd rfl h0
  | nil =>
    obtain ⟨ρ, h1⟩ := venb_plain h
    cases np with
    | nvf f =>
      cases f with
      | udf fn as =>
        obtain ⟨ρ', h2⟩ := udf_inv (np_nvf h1)
        exact .inl (udfName_inv h2).1
      | _ => exact absurd rfl h0
    | vep p =>
      obtain ⟨p, is⟩ := p
      cases p with
      | col c =>
        obtain ⟨-, ρ', h2, -⟩ := np_vep h1
        rcases col_first (primCol_inv h2) with ⟨_, h3⟩ | h3
        · obtain ⟨⟨z, e, -⟩⟩ := ident_leading h3
          exact .inl ⟨z, e⟩
        · exact .inr h3
      | _ => exact absurd rfl h0

theorem lower_n {c : Char} (h : lowerC c = 'n') : c = 'n' ∨ c = 'N' := by
  have h1 := lowerC_toNat c
  rw [h] at h1
  split at h1
  · right; apply Char.toNat_inj.1; simp at h1 ⊢; omega
  · left; apply Char.toNat_inj.1; simp at h1 ⊢; omega

/-- The text begins with the letters of `NOT`. -/
theorem not_text {u : Str} (h : matchLit true cs!"NOT" u ≠ none) :
    (∃ z, u = 'n' :: z ∨ u = 'N' :: z) ∧ ∀ w, matchLit true ('N' :: 'U' :: w) u = none := by
  cases hm : matchLit true cs!"NOT" u with
  | none => exact absurd hm h
  | some x =>
    obtain ⟨t, r⟩ := x
    obtain ⟨rfl, h1⟩ := matchLit_iff.1 hm
    have h1 := litOK_ci.1 h1
    obtain _ | ⟨c, _ | ⟨d, _ | ⟨e, _ | ⟨f, t⟩⟩⟩⟩ := t <;> simp only [List.map_cons, List.map_nil, List.cons.injEq, reduceCtorEq, and_false] at h1
    constructor
    · rcases lower_n (c := c) (by rw [h1.1]; decide) with rfl | rfl
      · exact ⟨_, .inl rfl⟩
      · exact ⟨_, .inr rfl⟩
    · intro w
      rw [matchLit_none]
      intro t' r' e hl
      have hl := litOK_ci.1 hl
      obtain _ | ⟨c', _ | ⟨d', t'⟩⟩ := t' <;> simp only [List.map_cons, List.map_nil, List.cons.injEq, reduceCtorEq, and_false] at hl
      simp only [List.cons_append, List.cons.injEq] at e
      rw [← e.2.1, h1.2.1] at hl
      exact absurd hl.2.1 (by decide)

/-- An expression whose text begins with the letters of `NOT` begins with a name that does. -/
theorem venb_not {s r : Str} {v : VENB} (h : parse cfg venb true s = .ok v r)
    (hn : matchLit true cs!"NOT" (skip true s) ≠ none) : prefixCI cs!"NOT" (firstExpr v) = true := by
  obtain ⟨b, hb, e⟩ := skip_split s
  obtain ⟨⟨z, hz⟩, hnu⟩ := not_text hn
  have hu : Bare (skip true s) := bare_skip s
  rw [e, venb_blanks hb] at h
  generalize skip true s = u at hn hnu hu h hz
  have hf : ∀ {α : Type} {p : G α}, p.consumes = true → P.wf rank 4 4 p = true → p.idle deadF (some 'n') = true → p.idle deadF (some 'N') = true →
      parse cfg p true u = .fail := by
    intro α p h1 h2 h3 h4
    rcases hz with rfl | rfl
    · exact fail_head (by decide) h1 h2 h3
    · exact fail_head (by decide) h1 h2 h4
  have hk : ∀ w, parse cfg (kw ('N' :: 'U' :: w)) true u = .fail := fun w => kw_none hu (hnu w)
  have hs : parse cfg sign true u = .fail := hf (by simp) (by simp) (by kernel_rfl) (by kernel_rfl)
  obtain ⟨⟨sg, np⟩, ts⟩ := v
  rcases venb_inv h with ⟨t, ρ, h1, -, -⟩ | ⟨rfl, -, ρ, h1, -⟩
  · rw [hs] at h1; cases h1
  have hpre : ∀ {x z : Str}, u = x ++ z → IdentShape x → NotContinued z → prefixCI cs!"NOT" x = true := by
    intro x z e hx hzc
    cases hp : prefixCI cs!"NOT" x with
    | true => rfl
    | false => exact absurd (e ▸ matchLit_prefix (by decide) hzc hp) hn
  cases np with
  | nvf f =>
    have h2 := np_nvf h1
    rcases parse_alt_ok.1 h2 with h3 | ⟨-, h2⟩
    · rw [hf (by simp) (by simp) (by kernel_rfl) (by kernel_rfl)] at h3; cases h3
    rcases parse_alt_ok.1 h2 with h3 | ⟨-, h2⟩
    · rw [hf (by simp) (by simp) (by kernel_rfl) (by kernel_rfl)] at h3; cases h3
    rcases parse_alt_ok.1 h2 with h3 | ⟨-, h2⟩
    · rw [hf (by simp) (by simp) (by kernel_rfl) (by kernel_rfl)] at h3; cases h3
    rcases parse_alt_ok.1 h2 with h3 | ⟨-, h2⟩
    · rw [hf (by simp) (by simp) (by kernel_rfl) (by kernel_rfl)] at h3; cases h3
    rcases parse_alt_ok.1 h2 with h3 | ⟨-, h2⟩
    · obtain ⟨⟨x, y⟩, h4, rfl⟩ := parse_map_ok.1 h3
      obtain ⟨t, h5, -⟩ := parse_seq_ok.1 h4
      obtain ⟨b, ρ, h6, -⟩ := parse_seqL_ok.1 h5
      obtain ⟨⟨z', hz'⟩, ⟨h7, h8, h9⟩ | ⟨w, hw, h7⟩⟩ := udfName_inv h6
      · rw [skip_bare hu] at h9
        exact hpre h9 h7 h8
      · rw [skip_bare hu] at hz'
        exfalso
        have : ∃ c y, x = c :: y ∧ (c = 'n' ∨ c = 'N') := by
          cases x with
          | nil => 
            simp only [List.mem_cons, List.not_mem_nil, or_false] at hw
            rcases hw with rfl | rfl | rfl | rfl | rfl | rfl <;> cases h7
          | cons c y =>
            refine ⟨c, y, rfl, ?_⟩
            rw [hz'] at hz
            simp only [List.cons_append, List.cons.injEq] at hz
            exact hz.imp And.left And.left
        obtain ⟨c, y, rfl, hc⟩ := this
        simp only [List.mem_cons, List.not_mem_nil, or_false] at hw
        rcases hw with rfl | rfl | rfl | rfl | rfl | rfl <;> rcases hc with rfl | rfl <;>
          exact absurd (List.cons.inj h7).1 (by decide)
    · rw [Fwd.map_fail (hf (by simp) (by simp) (by kernel_rfl) (by kernel_rfl))] at h2; cases h2
  | vep p =>
    obtain ⟨p, is⟩ := p
    obtain ⟨-, ρ', h2, -⟩ := np_vep h1
    rcases parse_alt_ok.1 h2 with h3 | ⟨-, h2⟩
    · rw [hf (by simp) (by simp) (by kernel_rfl) (by kernel_rfl)] at h3; cases h3
    rcases parse_alt_ok.1 h2 with h3 | ⟨-, h2⟩
    · rw [Fwd.map_fail (hf (by simp) (by simp) (by kernel_rfl) (by kernel_rfl))] at h3; cases h3
    rcases parse_alt_ok.1 h2 with h3 | ⟨-, h2⟩
    · obtain ⟨c, h4, rfl⟩ := parse_map_ok.1 h3
      rcases col_first h4 with ⟨_, h5⟩ | ⟨_, h5⟩
      · obtain ⟨⟨z', e, h6⟩⟩ := ident_leading h5
        rw [skip_bare hu] at e
        rcases h6 with h6 | ⟨b, h6, -⟩
        · exact hpre e h6.1 h6.2
        · rw [e, h6] at hz
          rcases hz with hz | hz <;> cases hz
      · rw [tap_fail hu (by intro z e; rcases hz with rfl | rfl <;> cases e)] at h5; cases h5
    rcases parse_alt_ok.1 h2 with h3 | ⟨-, h2⟩
    · rw [alt_fail (Fwd.map_fail (hf (by simp) (by simp) (by kernel_rfl) (by kernel_rfl))) (hf (by simp) (by simp) (by kernel_rfl) (by kernel_rfl))] at h3; cases h3
    rcases parse_alt_ok.1 h2 with h3 | ⟨-, h2⟩
    · have : parse cfg caseExpression true u = .fail :=
        alt_fail (alt_fail (Fwd.map_fail (Fwd.seqR_fail (Fwd.seq_fail (hk _)))) (hf (by simp) (by simp) (by kernel_rfl) (by kernel_rfl)))
          (hf (by simp) (by simp) (by kernel_rfl) (by kernel_rfl))
      rw [Fwd.map_fail this] at h3; cases h3
    rcases parse_alt_ok.1 h2 with h3 | ⟨-, h2⟩
    · rw [hf (by simp) (by simp) (by kernel_rfl) (by kernel_rfl)] at h3; cases h3
    rcases parse_alt_ok.1 h2 with h3 | ⟨-, h2⟩
    · have : parse cfg nullCast true u = .fail := by
        rw [nullCast, lexeme_bare hu]
        have hk' : ∀ w, parse cfg (kw ('N' :: 'U' :: w)) false u = .fail := fun w => kw_none hu (hnu w)
        exact alt_fail (hk' _) (alt_fail (hk' _) (alt_fail (hk' _) (by rw [parse, run_anyKw]; rfl)))
      rw [Fwd.map_fail this] at h3; cases h3
    rcases parse_alt_ok.1 h2 with h3 | ⟨-, h2⟩
    · have : parse cfg nullLiteral true u = .fail := by
        rw [nullLiteral, lexeme_bare hu]
        exact kw_none hu (hnu _)
      rw [Fwd.map_fail this] at h3; cases h3
    · rw [hf (by simp) (by simp) (by kernel_rfl) (by kernel_rfl)] at h2; cases h2

/-! ### Conditions and what is read as an expression -/

/-- A predicate begins with an expression that stops before a parenthesis is closed, or with `EXISTS`. -/
theorem pred_first {s r : Str} {q : Pred} (h : parse cfg predicate true s = .ok q r) :
    (∃ v ρ, parse cfg venb true s = .ok v ρ ∧ firstBP (.pred q) = firstExpr v ∧ next ρ ≠ some ')' ∧ headBP (.pred q) = .stops) ∨
    (∃ x b ρ, q = .exist x ∧ Starts cs!"EXISTS" s b ρ) := by
  rcases pred_inv h with ⟨v, ρ, op, ρ', w, rfl, h1, h2, h3⟩ | ⟨v, ρ, n, ρ1, b, ρ2, lo, ρ3, a, ρ4, hi, rfl, h1, h2, h3, -, -, -⟩ |
    ⟨v, ρ, n, ρ1, b, ρ2, h1, h2, h3, h4⟩ | ⟨v, ρ, b, ρ1, n, rfl, h1, h2⟩ | ⟨v, ρ, n, ρ1, b, ρ2, w, rfl, h1, h2, h3⟩ | ⟨b, ρ, x, rfl, h1⟩
  · refine .inl ⟨v, ρ, h1, rfl, ?_, rfl⟩
    intro e
    rw [compOp_fail (by rw [e]; decide)] at h2
    cases h2
  · refine .inl ⟨v, ρ, h1, rfl, ?_, rfl⟩
    rcases opt_inv h2 with h2 | ⟨-, -, rfl⟩
    · exact (wordX_inv h2).next_ne (by decide) (by decide)
    · exact (wordX_inv h3).next_ne (by decide) (by decide)
  · have hρ : next ρ ≠ some ')' := by
      rcases opt_inv h2 with h2 | ⟨-, -, rfl⟩
      · have h2 : parse cfg (cat (kw cs!"NOT") (.expect "space" (chS isSpace))) false (skip true ρ) = .ok n ρ1 := h2
        obtain ⟨⟨x, y⟩, h5, -⟩ := step_map_ok.1 h2
        obtain ⟨t, h6, -⟩ := step_seq_ok.1 h5
        obtain ⟨h7, h8⟩ := matchLit_iff.1 (step_lit_ok.1 h6)
        have h8 := litOK_ci.1 h8
        have h7 : skip true ρ = x ++ t := h7
        show (skip true ρ).head? ≠ _
        rw [h7]
        cases x with
        | nil => cases h8
        | cons c x => rintro ⟨⟩; exact absurd (List.cons.inj h8).1 (by decide)
      · exact (wordX_inv h3).next_ne (by decide) (by decide)
    rcases h4 with ⟨x, rfl, -⟩ | ⟨l, rfl, -⟩ <;> exact .inl ⟨v, ρ, h1, rfl, hρ, rfl⟩
  · exact .inl ⟨v, ρ, h1, rfl, (wordX_inv h2).next_ne (by decide) (by decide), rfl⟩
  · refine .inl ⟨v, ρ, h1, rfl, ?_, rfl⟩
    rcases opt_inv h2 with h2 | ⟨-, -, rfl⟩
    · exact (word_inv h2).next_ne (by decide) (by decide)
    · exact (word_inv h3).next_ne (by decide) (by decide)
  · exact .inr ⟨x, b, ρ, rfl, wordX_inv h1⟩

theorem Starts.match {w s t r : Str} (h : Starts w s t r) (hw : wordShape w = true) {w' : Str} (h' : (w'.all isIdChar && !prefixCI w' w) = true) :
    matchLit true w' (skip true s) = none := by
  obtain ⟨e, hk⟩ := h.start hw
  rw [e]
  exact hk.none h'

/-- `boolean_factor`: NOT was read when it is in the tree, if the condition does not begin with a name that begins
with NOT. -/
theorem bf_inv {s r n : Str} {p : BP} (h : parse cfg (booleanFactor cfg.residue) true s = .ok (.mk n p) r)
    (hq : cfg.residue = true → prefixCI cs!"NOT" (firstBP p) = false) :
    (n = [] ∧ parse cfg booleanPrimary true s = .ok p r) ∨
    (n ≠ [] ∧ ∃ t, Starts cs!"NOT" s n t ∧ parse cfg booleanPrimary true t = .ok p r) := by
  obtain ⟨⟨n', p'⟩, h1, e⟩ := parse_map_ok.1 h
  cases e
  obtain ⟨t, h2, h3⟩ := parse_seq_ok.1 h1
  rcases parse_alt_ok.1 h2 with h4 | ⟨-, h4⟩
  · have := word_inv h4
    refine .inr ⟨?_, t, this, h3⟩
    obtain ⟨-, -, -, h5, -⟩ := this
    intro e
    have h5 : SameCI [] cs!"NOT" := e ▸ h5
    cases h5
  cases hres : cfg.residue with
  | false =>
    rw [hres] at h4
    obtain ⟨h5, rfl⟩ := step_pure_ok.1 h4
    exact .inl ⟨h5, h3⟩
  | true =>
    rw [hres] at h4
    rcases parse_alt_ok.1 h4 with h4 | ⟨-, h4⟩
    · exfalso
      obtain ⟨⟨u, h5⟩, rfl⟩ := step_andP_ok.1 h4
      have hn : matchLit true cs!"NOT" (skip true t) ≠ none := by
        have := step_lit_ok.1 h5
        intro e
        rw [show skip false (skip true t) = skip true t from rfl, e] at this
        cases this
      have hq := hq hres
      have hv : ∀ {v ρ}, parse cfg venb true t = .ok v ρ → firstBP p' = firstExpr v → False := by
        intro v ρ h6 h7
        rw [h7, venb_not h6 hn] at hq
        cases hq
      rcases bp_inv h3 with ⟨q, rfl, h6⟩ | ⟨c, o, u, ρ, d, rfl, -, h6, -⟩ | ⟨v, rfl, -, -, h6⟩
      · rcases pred_first h6 with ⟨v, ρ, h7, h8, -⟩ | ⟨x, b, ρ, -, h7⟩
        · exact hv h7 h8
        · exact hn (h7.match (by decide) (by decide))
      · obtain ⟨-, b, hb, e⟩ := sym_inv h6
        apply hn
        rw [e, skip_blanks hb]
        rfl
      · exact hv h6 rfl
    · obtain ⟨h5, rfl⟩ := step_pure_ok.1 h4
      exact .inl ⟨h5, h3⟩

/-- What does not continue an expression in parentheses. -/
def Ends (r : Str) : Prop := next r ≠ some '[' ∧ next r ∉ [some '*', some '/', some '+', some '-', some '|']

theorem close_ends {s t r : Str} (h : parse cfg (sym cs!")") true s = .ok t r) : next s = some ')' := by
  obtain ⟨-, b, hb, rfl⟩ := sym_inv h
  show (skip true _).head? = _
  rw [skip_blanks hb]
  rfl

theorem ends_of {r : Str} {c : Char} (h : next r = some c) (hc : c ∉ ['[', '*', '/', '+', '-', '|']) : Ends r := by
  simp only [List.mem_cons, List.not_mem_nil, or_false, not_or] at hc
  obtain ⟨h1, h2⟩ := hc
  constructor <;> rw [h] <;> simpa

/-- A value in parentheses is an expression. -/
theorem paren_venb {s o u ρ d r : Str} {x : VE} (ho : parse cfg (sym cs!"(") true s = .ok o u) (hx : parse cfg ve true u = .ok x ρ)
    (hd : parse cfg (sym cs!")") true ρ = .ok d r) :
    parse cfg venb true s ≠ .fail ∧ (Ends r → ∃ v, parse cfg venb true s = .ok v r) := by
  obtain ⟨-, b, hb, rfl⟩ := sym_inv ho
  rw [venb_blanks hb]
  have hp : parse cfg primary true (cs!"(" ++ u) = .ok (.sub x) r := by
    show parse cfg primary true ('(' :: u) = _
    rw [primary_paren]
    exact Fwd.map_ok (Fwd.seqR_ok (sym_ok1 (s := cs!"(") (by decide) tok_nil) (Fwd.seqL_ok hx hd))
  have hs : parse cfg sign true (cs!"(" ++ u) = .fail := by
    refine sign_fail ?_ ?_ <;> exact fun e => by
      rw [show next (cs!"(" ++ u) = some '(' from next_bare (c := '(') (by decide)] at e
      cases e
  have hn : parse cfg numericValueFunction true (cs!"(" ++ u) = .fail := nvf_char (c := '(') (by decide)
  rw [venb, parse_nt]
  constructor
  · intro h
    have star : ∀ {α : Type} {p : G α} {t : Str}, parse cfg (.star p) true t ≠ .fail := step_star_fail
    rcases step_seq_fail.1 (step_map_fail.1 h) with h | ⟨_, _, -, h⟩
    · rcases step_seq_fail.1 (step_map_fail.1 h) with h | ⟨_, t, h1, h⟩
      · exact (step_alt_fail.1 h).2 |> step_pure_fail
      · rcases opt_inv h1 with h1 | ⟨-, -, rfl⟩
        · rw [hs] at h1; cases h1
        · rcases step_seq_fail.1 (step_map_fail.1 (step_map_fail.1 (step_alt_fail.1 h).2)) with h | ⟨_, _, -, h⟩
          · cases hp.symm.trans h
          · exact star h
    · exact star h
  · intro he
    exact ⟨_, Fwd.map_ok (Fwd.seq_ok (Fwd.map_ok (Fwd.seq_ok (optD_none hs) ((alt_right (Fwd.map_fail hn)).trans
      (Fwd.map_ok (Fwd.map_ok (Fwd.seq_ok hp (star_nil (Fwd.seqR_fail (sym_fail he.1)))))))))
      (star_nil (Fwd.map_fail (Fwd.seq_fail (binop_fail he.2)))))⟩

/-- What is found when the text of a condition is read as an expression. -/
def HeadIs (cfg : Config) : Head → Str → Str → Prop
  | .stops, s, _ => ∃ v ρ, parse cfg venb true s = .ok v ρ ∧ next ρ ≠ some ')'
  | .whole, s, r => parse cfg venb true s ≠ .fail ∧ (Ends r → ∃ v, parse cfg venb true s = .ok v r)
  | .none, s, _ => parse cfg venb true s = .fail

/-- No condition begins with a name that begins with NOT, where that matters. -/
def NoNot (cfg : Config) : Node → Prop
  | .bf (.mk _ p) => cfg.residue = true → prefixCI cs!"NOT" (firstBP p) = false
  | _ => True

theorem all_here {K : Node → Prop} {n : Node} (h : All K n) : K n := h _ (.refl _)
theorem all_sub {K : Node → Prop} {n m : Node} (h : All K n) (hc : Node.child n m) : All K m := fun k hk => h k (.step hc hk)

theorem logicalOp_inv {s op t : Str} (h : parse cfg logicalOp true s = .ok op t) :
    Starts cs!"AND" s op t ∨ Starts cs!"OR" s op t := by
  simp only [parse, logicalOp, step_lexeme, seqL, step_map_ok, step_seq_ok, kw, step_alt_ok, step_lit_ok] at h
  obtain ⟨⟨a, b⟩, ⟨u, h1, h2⟩, rfl⟩ := h
  obtain ⟨rfl, hb⟩ := andSpace_inv (cfg := cfg) h2
  obtain ⟨b, hb', e⟩ := skip_split s
  rcases h1 with h1 | ⟨-, h1⟩
  · obtain ⟨h3, h4⟩ := matchLit_iff.1 h1
    rw [show skip false (skip true s) = skip true s from rfl] at h3
    exact .inl ⟨b, hb', by rw [← h3]; exact e, litOK_ci.1 h4, hb⟩
  · obtain ⟨h3, h4⟩ := matchLit_iff.1 h1
    rw [show skip false (skip true s) = skip true s from rfl] at h3
    exact .inr ⟨b, hb', by rw [← h3]; exact e, litOK_ci.1 h4, hb⟩

theorem logicalOp_next {s op t : Str} (h : parse cfg logicalOp true s = .ok op t) :
    ∃ c, next s = some c ∧ isLetter c = true := by
  rcases logicalOp_inv h with h | h <;> exact h.next (by decide)

theorem ve_nb {s r : Str} {v : VENB} (h : parse cfg venb true s = .ok v r) : parse cfg ve true s = .ok (.nb v) r := by
  rw [ve, parse_nt]
  exact alt_left (Fwd.map_ok h)

theorem ve_cond {s r : Str} {c : SC} (h0 : parse cfg venb true s = .fail) (h : parse cfg sc true s = .ok c r) :
    parse cfg ve true s = .ok (.sc c) r := by
  rw [ve, parse_nt]
  exact (alt_right (Fwd.map_fail h0)).trans (Fwd.map_ok h)

mutual

theorem sc_head : ∀ (c : SC) {s r : Str}, All (NoNot cfg) (.sc c) → parse cfg sc true s = .ok c r → HeadIs cfg (headSC c) s r
  | .factor b, s, r, hq, h => by
    rcases sc_inv h with ⟨b', ρ, op', ρ', c', e, h1, h2, h3⟩ | ⟨b', e, h1, h2⟩
    · cases e
    · cases e; exact bf_head b (all_sub hq rfl) h1
  | .term b op c, s, r, hq, h => by
    rcases sc_inv h with ⟨b', ρ, op', ρ', c', e, h1, h2, h3⟩ | ⟨b', e, h1, h2⟩
    · cases e
      have := bf_head b (all_sub hq (.inl rfl)) h1
      obtain ⟨x, hx, hl⟩ := logicalOp_next h2
      rw [headSC]
      cases hb : headBF b with
      | none => rw [hb] at this; exact this
      | stops => rw [hb] at this; exact this
      | whole =>
        rw [hb] at this
        have he : Ends ρ := ends_of hx (by rintro hm; revert hl; simp at hm; rcases hm with rfl | rfl | rfl | rfl | rfl | rfl <;> decide)
        obtain ⟨v, hv⟩ := this.2 he
        exact ⟨v, ρ, hv, by rw [hx]; rintro ⟨⟩; revert hl; decide⟩
    · cases e

theorem bf_head : ∀ (b : BF) {s r : Str}, All (NoNot cfg) (.bf b) → parse cfg (booleanFactor cfg.residue) true s = .ok b r →
    HeadIs cfg (headBF b) s r
  | .mk n p, s, r, hq, h => by
    rcases bf_inv h (all_here hq) with ⟨rfl, h1⟩ | ⟨hn, t, h1, -⟩
    · exact bp_head p (all_sub hq rfl) h1
    · have : headBF (.mk n p) = .none := by
        cases n with
        | nil => exact absurd rfl hn
        | cons c n => rfl
      rw [this]
      exact h1.venb (by decide) (by decide +kernel)

theorem bp_head : ∀ (p : BP) {s r : Str}, All (NoNot cfg) (.bp p) → parse cfg booleanPrimary true s = .ok p r → HeadIs cfg (headBP p) s r
  | .pred q, s, r, hq, h => by
    rcases bp_inv h with ⟨q', e, h6⟩ | ⟨c, o, u, ρ, d, e, -⟩ | ⟨v, e, -⟩
    · cases e
      rcases pred_first h6 with ⟨v, ρ, h7, -, h8, h9⟩ | ⟨x, b, ρ, rfl, h7⟩
      · rw [h9]; exact ⟨v, ρ, h7, h8⟩
      · exact h7.venb (by decide) (by decide +kernel)
    · cases e
    · cases e
  | .ve w, s, r, hq, h => by
    rcases bp_inv h with ⟨q', e, h6⟩ | ⟨c, o, u, ρ, d, e, -⟩ | ⟨v, e, -, -, h6⟩
    · cases e
    · cases e
    · cases e
      exact ⟨fun h7 => (nomatch h6.symm.trans h7), fun _ => ⟨w, h6⟩⟩
  | .sc c, s, r, hq, h => by
    rcases bp_inv h with ⟨q', e, h6⟩ | ⟨c', o, u, ρ, d, e, -, h6, h7, h8⟩ | ⟨v, e, -⟩
    · cases e
    · cases e
      have hc := sc_head c (all_sub hq rfl) h7
      have hr := close_ends h8
      rw [headBP]
      cases hh : headSC c with
      | none =>
        rw [hh] at hc
        exact paren_venb h6 (x := .sc c) (ve_cond hc h7) h8
      | stops =>
        rw [hh] at hc
        obtain ⟨v, ρ', h1, h2⟩ := hc
        have hve : parse cfg ve true u = .ok (.nb v) ρ' := ve_nb h1
        obtain ⟨-, b, hb, rfl⟩ := sym_inv h6
        show parse cfg venb true _ = .fail
        rw [← List.append_assoc]
        refine venb_paren_fail ⟨b, hb, rfl⟩ (fun x ρ'' h3 => ?_) (by rw [hve]; nofun) (by rw [hve]; nofun)
        rw [hve] at h3
        cases h3
        exact h2
      | whole =>
        rw [hh] at hc
        obtain ⟨v, hv⟩ := hc.2 (ends_of hr (by decide))
        exact paren_venb h6 (x := .nb v) (ve_nb hv) h8
    · cases e

end

/-! ### Conditions as values -/

theorem veSc_inv {s r : Str} {c : SC} (h : parse cfg ve true s = .ok (.sc c) r) :
    parse cfg venb true s = .fail ∧ parse cfg sc true s = .ok c r := by
  rw [ve, parse_nt] at h
  rcases parse_alt_ok.1 h with h | ⟨h0, h⟩
  · obtain ⟨x, -, e⟩ := parse_map_ok.1 h
    cases e
  · obtain ⟨x, h1, e⟩ := parse_map_ok.1 h
    cases e
    exact ⟨step_map_fail.1 h0, h1⟩

theorem veNb_inv {s r : Str} {v : VENB} (h : parse cfg ve true s = .ok (.nb v) r) : parse cfg venb true s = .ok v r := by
  rw [ve, parse_nt] at h
  rcases parse_alt_ok.1 h with h | ⟨h0, h⟩
  · obtain ⟨x, h1, e⟩ := parse_map_ok.1 h
    cases e
    exact h1
  · obtain ⟨x, -, e⟩ := parse_map_ok.1 h
    cases e

/-- A condition as a value does not begin with an expression. -/
theorem made_cond {c : SC} (h : Made cfg ve (.sc c)) (hq : All (NoNot cfg) (.sc c)) : headSC c = .none := by
  obtain ⟨s, r, h⟩ := h
  obtain ⟨h1, h2⟩ := veSc_inv h
  have := sc_head c hq h2
  cases hc : headSC c with
  | none => rfl
  | stops =>
    rw [hc] at this
    obtain ⟨v, ρ, h3, -⟩ := this
    rw [h1] at h3
    cases h3
  | whole =>
    rw [hc] at this
    exact absurd h1 this.1

theorem bf_bp {s r n : Str} {p : BP} (h : parse cfg (booleanFactor cfg.residue) true s = .ok (.mk n p) r) :
    ∃ t, parse cfg booleanPrimary true t = .ok p r := by
  obtain ⟨⟨n', p'⟩, h1, e⟩ := parse_map_ok.1 h
  cases e
  obtain ⟨t, -, h3⟩ := parse_seq_ok.1 h1
  exact ⟨t, h3⟩

/-- What follows a condition as a value belongs to it. -/
theorem made_term {b : BF} {op : Str} {c : SC} (h : Made cfg sc (.term b op c)) : condBF b = false := by
  obtain ⟨s, r, h⟩ := h
  rcases sc_inv h with ⟨b', ρ, op', ρ', c', e, h1, h2, h3⟩ | ⟨b', e, -⟩
  · cases e
    have key : ∀ {t w}, parse cfg ve true t = .ok w ρ → isCond w = false := by
      intro t w hw
      cases w with
      | nb v => rfl
      | sc x => rw [sc_end x (veSc_inv hw).2 h2] at h3; cases h3
    obtain ⟨n, p⟩ := b
    obtain ⟨t, h4⟩ := bf_bp h1
    rcases bp_inv h4 with ⟨q, rfl, h6⟩ | ⟨c', o, u, ρ, d, rfl, -⟩ | ⟨v, rfl, -⟩
    · rcases pred_inv h6 with ⟨v, _, op, _, w, rfl, -, -, h7⟩ | ⟨v, _, n, _, b, _, lo, _, a, _, hi, rfl, -, -, -, -, -, h7⟩ |
        ⟨v, _, n, _, b, _, -, -, -, h7⟩ | ⟨v, _, b, _, n, rfl, -⟩ | ⟨v, _, n, _, b, _, w, rfl, -⟩ | ⟨b, _, x, rfl, -⟩
      · exact key h7
      · exact key h7
      · rcases h7 with ⟨x, rfl, -⟩ | ⟨l, rfl, -⟩ <;> rfl
      · rfl
      · rfl
      · rfl
    · rfl
    · rfl
  · cases e

/-- An expression is a condition, too. -/
theorem venb_sc {s r : Str} {v : VENB} (h : parse cfg venb true s = .ok v r) : parse cfg sc true s ≠ .fail := by
  intro hf
  rw [sc, parse_nt] at hf
  have hf := (step_alt_fail.1 hf).2
  rcases step_seq_fail.1 (step_map_fail.1 (step_map_fail.1 hf)) with h1 | ⟨n, t, h1, h2⟩
  · have h1 := (step_alt_fail.1 h1).2
    cases hres : cfg.residue with
    | false => rw [hres] at h1; exact step_pure_fail h1
    | true => rw [hres] at h1; exact step_pure_fail (step_alt_fail.1 h1).2
  · have ht : t = s := by
      rcases step_alt_ok.1 h1 with h3 | ⟨-, h3⟩
      · rw [(word_inv (cfg := cfg) h3).venb (by decide) (by decide +kernel)] at h
        cases h
      · cases hres : cfg.residue with
        | false => rw [hres] at h3; exact (step_pure_ok.1 h3).2
        | true =>
          rw [hres] at h3
          rcases step_alt_ok.1 h3 with h3 | ⟨-, h3⟩
          · exact (step_andP_ok.1 h3).2
          · exact (step_pure_ok.1 h3).2
    subst ht
    have h3 := step_map_fail.1 (step_alt_fail.1 (step_alt_fail.1 h2).2).2
    cases h.symm.trans h3

theorem and_logical {s a t : Str} (h : parse cfg (wordX cs!"AND") true s = .ok a t) : parse cfg logicalOp true s = .ok a t := by
  have h : parse cfg (seqL (kw cs!"AND") (.expect "space" andSpace)) false (skip true s) = .ok a t := h
  obtain ⟨⟨x, y⟩, h1, e⟩ := step_map_ok.1 h
  obtain ⟨u, h2, h3⟩ := step_seq_ok.1 h1
  show parse cfg (seqL (.alt (kw cs!"AND") (kw cs!"OR")) andSpace) false (skip true s) = .ok a t
  rw [← e]
  exact Fwd.seqL_ok (alt_left h2) (step_expect_ok.1 h3)

/-- The lower bound of a range is an expression. -/
theorem made_between {v : VENB} {n : Str} {w : SC} {hi : VE} : ¬ Made cfg predicate (.between v n (.sc w) hi) := by
  rintro ⟨s, r, h⟩
  rcases pred_inv h with ⟨v, _, op, _, w, e, -⟩ | ⟨v, _, n, _, b, _, lo, ρ3, a, ρ4, hi', e, -, -, -, h1, h2, h3⟩ |
    ⟨v, _, n, _, b, _, -, -, -, h7⟩ | ⟨v, _, b, _, n, e, -⟩ | ⟨v, _, n, _, b, _, w, e, -⟩ | ⟨b, _, x, e, -⟩
  · cases e
  · cases e
    have := sc_end w (veSc_inv h1).2 (and_logical h2)
    cases hi with
    | nb v' => exact venb_sc (veNb_inv h3) this
    | sc x => cases this.symm.trans (veSc_inv h3).2
  · rcases h7 with ⟨x, e, -⟩ | ⟨l, e, -⟩ <;> cases e
  · cases e
  · cases e
  · cases e

/-- A pattern is an expression. -/
theorem made_like {v : VENB} {n : Str} {w : SC} : ¬ Made cfg predicate (.like v n (.sc w)) := by
  rintro ⟨s, r, h⟩
  rcases pred_inv h with ⟨v, _, op, _, w, e, -⟩ | ⟨v, _, n, _, b, _, lo, ρ3, a, ρ4, hi', e, -⟩ |
    ⟨v, _, n, _, b, _, -, -, -, h7⟩ | ⟨v, _, b, _, n, e, -⟩ | ⟨v, _, n, _, b, _, w, e, -⟩ | ⟨b, _, x, e, -⟩
  · cases e
  · cases e
  · rcases h7 with ⟨x, e, -⟩ | ⟨l, e, -⟩ <;> cases e
  · cases e
  · cases e
  · cases e

/-! ### Alternatives that are never taken -/

theorem venb_fail_primary {s : Str} (h : parse cfg venb true s = .fail) (hs : parse cfg sign true s = .fail) :
    parse cfg primary true s = .fail := by
  rw [venb, parse_nt] at h
  have star : ∀ {α : Type} {p : G α} {t : Str}, parse cfg (.star p) true t ≠ .fail := step_star_fail
  rcases step_seq_fail.1 (step_map_fail.1 h) with h2 | ⟨_, _, -, h2⟩
  · rcases step_seq_fail.1 (step_map_fail.1 h2) with h3 | ⟨_, t, h1, h3⟩
    · exact absurd (step_alt_fail.1 h3).2 step_pure_fail
    · rcases opt_inv h1 with h1 | ⟨-, -, rfl⟩
      · rw [hs] at h1; cases h1
      · rcases step_seq_fail.1 (step_map_fail.1 (step_map_fail.1 (step_alt_fail.1 h3).2)) with h4 | ⟨_, _, -, h4⟩
        · exact h4
        · exact absurd h4 star
  · exact absurd h2 star

theorem made_result {x : Str} : ¬ Made cfg caseResult (.str x) := by
  rintro ⟨s, r, h⟩
  rcases parse_alt_ok.1 h with h | ⟨h0, h⟩
  · obtain ⟨x, -, e⟩ := parse_map_ok.1 h
    cases e
  · obtain ⟨x, h1, e⟩ := parse_map_ok.1 h
    have h0 := step_map_fail.1 h0
    have h0 : parse cfg ve true s = .fail := h0
    rw [ve, parse_nt] at h0
    have hv : parse cfg venb true s = .fail := step_map_fail.1 (step_alt_fail.1 h0).1
    have hn : ∃ c t, skip true s = c :: t ∧ lowerC c = 'n' := by
      obtain ⟨h4, h5⟩ := matchLit_iff.1 (step_lit_ok.1 h1)
      have h5 := litOK_ci.1 h5
      have h4 : skip true s = x ++ r := h4
      rw [h4]
      cases x with
      | nil => cases h5
      | cons c x => exact ⟨c, x ++ r, rfl, (List.cons.inj h5).1⟩
    obtain ⟨c, t, e1, e2⟩ := hn
    have hs : parse cfg sign true s = .fail := by
      refine sign_fail ?_ ?_ <;> (show (skip true s).head? ≠ _; rw [e1]; rintro ⟨⟩; revert e2; decide)
    have := venb_fail_primary hv hs
    rw [primary] at this
    have := (step_alt_fail.1 (step_alt_fail.1 (step_alt_fail.1 (step_alt_fail.1 (step_alt_fail.1 (step_alt_fail.1 (step_alt_fail.1
      (step_alt_fail.1 this).2).2).2).2).2).2).2).1
    cases (step_map_fail.1 this).symm.trans h1

theorem made_group {x : ColRef} : ¬ Made cfg groupByTerm (.col x) := by
  rintro ⟨s, r, h⟩
  rcases parse_alt_ok.1 h with h | ⟨h0, h⟩
  · obtain ⟨x, -, e⟩ := parse_map_ok.1 h
    cases e
  · obtain ⟨x, h1, e⟩ := parse_map_ok.1 h
    have h0 := step_map_fail.1 h0
    have h0 : parse cfg ve true s = .fail := h0
    rw [ve, parse_nt] at h0
    have hv : parse cfg venb true s = .fail := step_map_fail.1 (step_alt_fail.1 h0).1
    have hs : parse cfg sign true s = .fail := by
      have hc : ∀ c, c = '+' ∨ c = '-' → next s ≠ some c := by
        intro c hc hn
        obtain ⟨b, hb, e⟩ := skip_split s
        have hn : (skip true s).head? = some c := hn
        cases hk : skip true s with
        | nil => rw [hk] at hn; cases hn
        | cons d t =>
          rw [hk] at hn e
          cases hn
          rw [e, parse_blanks rfl rfl hb] at h1
          have hu : Bare (c :: t) := bare_cons (by rcases hc with rfl | rfl <;> decide)
          rw [col_fail (ident_fail hu (by intro x y e; cases e; rcases hc with rfl | rfl <;> decide)
              (by intro y e; cases e; rcases hc with h | h <;> cases h))
            (tap_fail hu (by intro y e; cases e; rcases hc with h | h <;> cases h))] at h1
          cases h1
      exact sign_fail (hc _ (.inl rfl)) (hc _ (.inr rfl))
    have := venb_fail_primary hv hs
    rw [primary] at this
    have := (step_alt_fail.1 (step_alt_fail.1 (step_alt_fail.1 this).2).2).1
    cases (step_map_fail.1 this).symm.trans h1

/-! ### Names at the beginning -/

theorem tap_mapped {sk : Bool} {s x r : Str} (h : parse cfg tap sk s = .ok x r) : ∃ y, cfg.mapping y = some x := by
  rw [tap, parse_nt] at h
  have h : parse cfg (seqR (sym cs!"TAP_UPLOAD.") (.expect "TAP_UPLOAD identifier" (tapUploadIdentifier cfg))) false (skip sk s) = .ok x r := h
  obtain ⟨⟨a, b⟩, h1, rfl⟩ := step_map_ok.1 h
  obtain ⟨t, -, h2⟩ := step_seq_ok.1 h1
  have h2 := step_expect_ok.1 h2
  rw [tapUploadIdentifier, step_lexeme] at h2
  obtain ⟨y, h3, h4⟩ := step_act_ok.1 h2
  refine ⟨y, ?_⟩
  cases hm : cfg.mapping y with
  | none => rw [hm] at h4; cases h4
  | some z => rw [hm] at h4; cases h4; rfl

/-- The name with which an expression begins does not begin with a word that is not in the text. -/
theorem first_none (hm : MapsWell cfg.mapping) {s r w : Str} {v : VENB} (hw : w ∈ [cs!"EXISTS", cs!"WITH", cs!"SELECT"])
    (h : parse cfg venb true s = .ok v r) (h0 : matchLit true w (skip true s) = none) : prefixCI w (firstExpr v) = false := by
  cases hp : prefixCI w (firstExpr v) with
  | false => rfl
  | true =>
    exfalso
    have hne : firstExpr v ≠ [] := by
      intro e
      rw [e] at hp
      simp only [List.mem_cons, List.not_mem_nil, or_false] at hw
      rcases hw with rfl | rfl | rfl <;> cases hp
    rcases first_inv h hne with ⟨z, e⟩ | ⟨ρ, h1⟩
    · rw [e] at h0
      obtain ⟨k, z', e', hk⟩ := prefixCI_iff.1 hp
      have h1 : prefixCI w (firstExpr v ++ z) = true := prefixCI_iff.2 ⟨k, z' ++ z, by rw [e', List.append_assoc], hk⟩
      rw [matchLit_prefixCI.1 h0] at h1
      cases h1
    · obtain ⟨y, hy⟩ := tap_mapped h1
      rw [hm _ _ hy _ hw] at hp
      cases hp

/-- An expression that is a condition by itself does not begin with EXISTS. -/
theorem made_bare (hm : MapsWell cfg.mapping) {v : VENB} (h : Made cfg booleanPrimary (.ve v)) : prefixCI cs!"EXISTS" (firstExpr v) = false := by
  obtain ⟨s, r, h⟩ := h
  rcases bp_inv h with ⟨q, e, -⟩ | ⟨c, o, u, ρ, d, e, -⟩ | ⟨v', e, h1, -, h2⟩
  · cases e
  · cases e
  cases e
  have h3 := (step_alt_fail.1 (step_alt_fail.1 (step_alt_fail.1 (step_alt_fail.1 (step_alt_fail.1 h1).2).2).2).2).2
  rcases step_seq_fail.1 (step_map_fail.1 (step_map_fail.1 h3)) with h4 | ⟨b, t, h4, -⟩
  · exact first_none hm (by simp) h2 (wordX_none h4)
  · rw [(wordX_inv (cfg := cfg) h4).venb (by decide) (by decide +kernel)] at h2
    cases h2

/-- A word that is begun but not ended is an error. -/
theorem wordX_err {w s : Str} (hw : P.wf rank 4 4 (wordX w) = true) (h : matchLit true w (skip true s) ≠ none)
    (h' : ∀ t r, ¬ Starts w s t r) : ∃ e, parse cfg (wordX w) true s = .err e := by
  cases hr : parse cfg (wordX w) true s with
  | ok t r => exact absurd (wordX_inv hr) (h' t r)
  | fail => exact absurd (wordX_none hr) h
  | err e => exact ⟨e, rfl⟩
  | oof => exact absurd hr (parse_not_oof hw)

theorem queryNoGeometry_with {u : Str} {e : Err} (h : parse cfg (wordX cs!"WITH") true u = .err e) :
    parse cfg queryNoGeometry true u = .err e :=
  step_map_err.2 (step_seq_err.2 (.inl (step_alt_err.2 (.inl (step_map_err.2 (step_map_err.2 (step_seq_err.2 (.inl h))))))))

theorem queryNoGeometry_select {u : Str} {e : Err} (h0 : parse cfg (wordX cs!"WITH") true u = .fail)
    (h : parse cfg (wordX cs!"SELECT") true u = .err e) : parse cfg queryNoGeometry true u = .err e := by
  have h1 : parse cfg (optD With.dflt withClause) true u = .ok With.dflt u := optD_none (Fwd.map_fail (Fwd.seqR_fail h0))
  exact step_map_err.2 (step_seq_err.2 (.inr ⟨_, _, h1, step_seq_err.2 (.inl (step_map_err.2 (step_seq_err.2 (.inl
    (step_map_err.2 (step_seq_err.2 (.inl (step_map_err.2 (step_map_err.2 (step_seq_err.2 (.inl h)))))))))))⟩))

/-- A list does not begin like a subquery. -/
theorem made_inList (hm : MapsWell cfg.mapping) {v : VENB} {n : Str} {l : List VE} (h : Made cfg predicate (.inList v n l)) :
    prefixCI cs!"WITH" (firstArgs l) = false ∧ prefixCI cs!"SELECT" (firstArgs l) = false := by
  obtain ⟨s, r, h⟩ := h
  rcases pred_inv h with ⟨v, _, op, _, w, e, -⟩ | ⟨v, _, n, _, b, _, lo, ρ3, a, ρ4, hi', e, -⟩ |
    ⟨v, _, n, _, b, ρ, -, -, -, h7⟩ | ⟨v, _, b, _, n, e, -⟩ | ⟨v, _, n, _, b, _, w, e, -⟩ | ⟨b, _, x, e, -⟩
  · cases e
  · cases e
  · rcases h7 with ⟨x, e, -⟩ | ⟨l', e, h1, h2⟩
    · cases e
    cases e
    obtain ⟨o, u, h3, h4⟩ := parse_seqR_ok.1 h2
    obtain ⟨_, _, h5, -⟩ := parse_seqL_ok.1 h4
    obtain ⟨a, l', r', h6, -, rfl⟩ := sepBy_inv h5
    cases a with
    | sc c => exact ⟨rfl, rfl⟩
    | nb v' =>
      have hv := veNb_inv h6
      have herr : ∀ e, parse cfg queryNoGeometry true u ≠ .err e := by
        intro e he
        rw [subq, parse_nt] at h1
        have : parse cfg subqBody true ρ = .err e := step_map_err.2 (step_seq_err.2 (.inr ⟨_, _, h3, step_map_err.2 (step_seq_err.2 (.inl
          (step_alt_err.2 (.inl (step_map_err.2 he)))))⟩))
        cases h1.symm.trans this
      have hno : ∀ w, venbKw w = true → wordShape w = true → ∀ t r, ¬ Starts w u t r := by
        intro w h1 h2 t r h3
        rw [h3.venb h2 h1] at hv
        cases hv
      have hw : matchLit true cs!"WITH" (skip true u) = none := by
        refine Classical.byContradiction fun hw => ?_
        obtain ⟨e, he⟩ := wordX_err (cfg := cfg) rfl hw (hno _ (by decide +kernel) (by decide))
        exact herr e (queryNoGeometry_with he)
      refine ⟨first_none hm (by simp) hv hw, first_none hm (by simp) hv ?_⟩
      refine Classical.byContradiction fun hs => ?_
      obtain ⟨e, he⟩ := wordX_err (cfg := cfg) rfl hs (hno _ (by decide +kernel) (by decide))
      exact herr e (queryNoGeometry_select (wordX_fail hw) he)
  · cases e
  · cases e
  · cases e

/-- The name of a table does not begin with a word that is not in the text. -/
theorem name_none (hm : MapsWell cfg.mapping) {s r w n : Str} (hw : w ∈ [cs!"EXISTS", cs!"WITH", cs!"SELECT"])
    (h : parse cfg tableName true s = .ok n r) (h0 : matchLit true w (skip true s) = none) : prefixCI w n = false := by
  have h : parse cfg (.alt tap (.alt (cat identifier (cat period (cat identifier (cat period identifier))))
      (.alt (cat identifier (cat period identifier)) identifier))) false (skip true s) = .ok n r := h
  have hid : ∀ {x ρ : Str}, parse cfg identifier false (skip true s) = .ok x ρ → prefixCI w x = false := by
    intro x ρ h
    have : ∃ z, skip true s = x ++ z := by
      rcases (C06_identifier ..).1 h with h | h
      · obtain ⟨b, e, hb, -⟩ := (C04_regular_identifier ..).1 h
        exact ⟨ρ, by rw [e, hb.2 rfl]; rfl⟩
      · obtain ⟨b, e, hb, -⟩ := (C06_delimited_identifier ..).1 h
        exact ⟨ρ, by rw [e, hb.2 rfl]; rfl⟩
    obtain ⟨z, e⟩ := this
    rw [e] at h0
    cases hp : prefixCI w x with
    | false => rfl
    | true =>
      obtain ⟨k, z', e', hk⟩ := prefixCI_iff.1 hp
      have h1 : prefixCI w (x ++ z) = true := prefixCI_iff.2 ⟨k, z' ++ z, by rw [e', List.append_assoc], hk⟩
      rw [matchLit_prefixCI.1 h0] at h1
      cases h1
  have hdot : ∀ {q : G Str}, parse cfg (cat identifier (cat period q)) false (skip true s) = .ok n r → prefixCI w n = false := by
    intro q h
    obtain ⟨⟨x, y⟩, h1, rfl⟩ := step_map_ok.1 h
    obtain ⟨ρ, h2, h3⟩ := step_seq_ok.1 h1
    obtain ⟨⟨p, z⟩, h4, rfl⟩ := step_map_ok.1 h3
    obtain ⟨_, h5, -⟩ := step_seq_ok.1 h4
    have hp : p = cs!"." := by
      obtain ⟨c, h6, rfl⟩ := step_map_ok.1 (show parse cfg (chS (· == '.')) false ρ = .ok p _ from h5)
      have h7 := (step_chr_ok.1 h6).2
      simpa using h7
    subst hp
    have h6 := hid h2
    have hw' : (w.map lowerC).all (fun c => decide (c ≠ '.')) = true := by
      have : ([cs!"EXISTS", cs!"WITH", cs!"SELECT"].all fun w => (w.map lowerC).all (fun c => decide (c ≠ '.'))) = true := by decide
      exact List.all_eq_true.1 this w hw
    unfold prefixCI at h6 ⊢
    show (w.map lowerC).isPrefixOf ((x ++ '.' :: z).map lowerC) = false
    rw [List.map_append, List.map_cons, show lowerC '.' = '.' from by decide, prefix_dot _ _ _ hw']
    exact h6
  rcases step_alt_ok.1 h with h | ⟨-, h⟩
  · obtain ⟨y, hy⟩ := tap_mapped h
    exact hm _ _ hy _ hw
  rcases step_alt_ok.1 h with h | ⟨-, h⟩
  · exact hdot h
  rcases step_alt_ok.1 h with h | ⟨-, h⟩
  · exact hdot h
  · exact hid h

/-- A join that is a subquery does not begin like a query. -/
theorem made_subjoin (hm : MapsWell cfg.mapping) {j : JT} (h : Made cfg subq (.jt j)) :
    prefixCI cs!"WITH" (firstJT j) = false ∧ prefixCI cs!"SELECT" (firstJT j) = false := by
  obtain ⟨s, r, h⟩ := h
  rw [subq, parse_nt] at h
  obtain ⟨o, u, -, h4⟩ := parse_seqR_ok.1 (show parse cfg subqBody true s = .ok _ _ from h)
  obtain ⟨_, ρ, h5, -⟩ := parse_seqL_ok.1 h4
  rcases parse_alt_ok.1 h5 with h6 | ⟨h0, h6⟩
  · obtain ⟨q, -, e⟩ := parse_map_ok.1 h6
    cases e
  obtain ⟨j', hj, e⟩ := parse_map_ok.1 h6
  cases e
  have h0 : parse cfg queryNoGeometry true u = .fail := step_map_fail.1 h0
  have hno : ∀ w, Fwd.frontKw w = true → wordShape w = true → ∀ t r, ¬ Starts w u t r := by
    intro w h1 h2 t r h3
    obtain ⟨e, hk⟩ := h3.start h2
    have : parse cfg jt true u = .fail := by
      refine Fwd.jt_of_parts (Fwd.seqR_fail (Fwd.sym_fail ?_)) (.inl (Fwd.map_fail (Fwd.seq_fail ((Fwd.tableName_skip _).trans ?_))))
      · obtain ⟨d, h4, h5⟩ := Fwd.kwStart_next hk e
        rw [h4]; rintro ⟨⟩; exact absurd h5 (by decide)
      · rw [e]
        exact Fwd.tableName_kw hk h1
    rw [this] at hj
    cases hj
  have hw : matchLit true cs!"WITH" (skip true u) = none := by
    refine Classical.byContradiction fun hw => ?_
    obtain ⟨e, he⟩ := wordX_err (cfg := cfg) rfl hw (hno _ (by decide +kernel) (by decide))
    cases h0.symm.trans (queryNoGeometry_with he)
  have hs : matchLit true cs!"SELECT" (skip true u) = none := by
    refine Classical.byContradiction fun hs => ?_
    obtain ⟨e, he⟩ := wordX_err (cfg := cfg) rfl hs (hno _ (by decide +kernel) (by decide))
    cases h0.symm.trans (queryNoGeometry_select (wordX_fail hw) he)
  match j, hj with
  | .wrap _, _ => exact ⟨rfl, rfl⟩
  | .qj (.mk (.jt _) _), _ => exact ⟨rfl, rfl⟩
  | .qj (.mk (.tc t) ss), hj =>
    rw [jt, parse_nt] at hj
    rcases parse_alt_ok.1 hj with h2 | ⟨-, h2⟩
    · obtain ⟨q, h3, e⟩ := parse_map_ok.1 h2
      cases e
      obtain ⟨⟨hd, ss'⟩, h14, e⟩ := parse_map_ok.1 h3
      cases e
      obtain ⟨_, h5, -⟩ := parse_seq_ok.1 h14
      rcases parse_alt_ok.1 h5 with h6 | ⟨-, h6⟩
      · obtain ⟨_, -, e⟩ := parse_map_ok.1 h6
        cases e
      · obtain ⟨t', h7, e⟩ := parse_map_ok.1 h6
        cases e
        obtain ⟨⟨n, x⟩, h8, rfl⟩ := parse_map_ok.1 h7
        obtain ⟨_, h9, -⟩ := parse_seq_ok.1 h8
        exact ⟨name_none hm (by simp) h9 hw, name_none hm (by simp) h9 hs⟩
    · obtain ⟨x, -, e⟩ := parse_map_ok.1 h2
      cases e

/-- A join in parentheses is a table by itself. -/
theorem made_derived {j : JT} {x : Str} : ¬ Made cfg tr (.derived (.jt j) x) := by
  rintro ⟨s, r, h⟩
  rw [tr, parse_nt] at h
  rcases parse_alt_ok.1 h with h | ⟨h0, h⟩
  · obtain ⟨_, -, e⟩ := parse_map_ok.1 h
    cases e
  rcases parse_alt_ok.1 h with h | ⟨-, h⟩
  · obtain ⟨_, -, e⟩ := parse_map_ok.1 h
    cases e
  rcases parse_alt_ok.1 h with h | ⟨-, h⟩
  · obtain ⟨⟨q, y⟩, h1, e⟩ := parse_map_ok.1 h
    cases e
    obtain ⟨_, h2, -⟩ := parse_seq_ok.1 h1
    rw [subq, parse_nt] at h2
    obtain ⟨o, u, h3, h4⟩ := parse_seqR_ok.1 (show parse cfg subqBody true s = .ok _ _ from h2)
    obtain ⟨c, ρ, h5, h6⟩ := parse_seqL_ok.1 h4
    rcases parse_alt_ok.1 h5 with h7 | ⟨-, h7⟩
    · obtain ⟨_, -, e⟩ := parse_map_ok.1 h7
      cases e
    obtain ⟨_, h8, e⟩ := parse_map_ok.1 h7
    cases e
    have h9 : parse cfg parenJoined true s = .ok _ _ := parse_seqR_ok.2 ⟨o, u, h3, parse_seqL_ok.2 ⟨c, ρ, h8, h6⟩⟩
    have h0 : parse cfg jt true s = .fail := step_map_fail.1 h0
    rw [jt, parse_nt] at h0
    cases h9.symm.trans (step_map_fail.1 (step_alt_fail.1 h0).2)
  · obtain ⟨_, -, e⟩ := parse_map_ok.1 h
    cases e

/-! ### Joins -/

theorem Starts.begins {w s t r : Str} (h : Starts w s t r) (hw : wordShape w = true) {w' : Str}
    (h' : ((w'.map lowerC).isPrefixOf (w.map lowerC)) = true) : matchLit true w' (skip true s) ≠ none := by
  obtain ⟨e, -⟩ := h.start hw
  obtain ⟨_, _, _, hs, _⟩ := h
  rw [e]
  intro hn
  have := matchLit_prefixCI.1 hn
  unfold prefixCI at this
  rw [List.map_append, show t.map lowerC = w.map lowerC from hs] at this
  rw [List.isPrefixOf_iff_prefix] at h'
  rw [List.isPrefixOf_iff_prefix.2 (h'.trans (List.prefix_append ..))] at this
  cases this

/-- INNER does not follow an expression that is a condition by itself. -/
theorem bare_end {t r b z : Str} {v : VENB} (h : parse cfg predicate true t = .fail) (hv : parse cfg venb true t = .ok v r)
    (hi : Starts cs!"INNER" r b z) : False := by
  have h1 := (step_alt_fail.1 (step_alt_fail.1 (step_alt_fail.1 h).2).2).1
  have hn : parse cfg inNot true r = .ok [] r := inNot_none (hi.match (by decide) (by decide))
  rcases step_seq_fail.1 (step_map_fail.1 h1) with h2 | ⟨v', r', h2, h3⟩
  · cases hv.symm.trans h2
  · cases hv.symm.trans h2
    rcases step_seq_fail.1 h3 with h4 | ⟨_, _, h4, h5⟩
    · cases hn.symm.trans h4
    · cases hn.symm.trans h4
      rcases step_seq_fail.1 (step_map_fail.1 h5) with h6 | ⟨_, _, h6, -⟩
      · exact hi.begins (by decide) (by decide) (wordX_none (cfg := cfg) h6)
      · exact hi.begins (w' := cs!"INNER") (by decide) (by decide) ((wordX_inv (cfg := cfg) h6).match (by decide) (by decide))

theorem inner_ends {r b z : Str} (hi : Starts cs!"INNER" r b z) : Ends r := by
  obtain ⟨x, hx, hl⟩ := hi.next (by decide)
  exact ends_of hx (by rintro hm; revert hl; simp at hm; rcases hm with rfl | rfl | rfl | rfl | rfl | rfl <;> decide)

mutual

theorem sc_bare : ∀ (c : SC) {s r b z : Str}, All (NoNot cfg) (.sc c) → parse cfg sc true s = .ok c r → Starts cs!"INNER" r b z → bareSC c = false
  | .factor f, s, r, b, z, hq, h, hi => by
    rcases sc_inv h with ⟨b', ρ, op', ρ', c', e, h1, h2, h3⟩ | ⟨b', e, h1, h2⟩
    · cases e
    · cases e; exact bf_bare f (all_sub hq rfl) h1 hi
  | .term f op c, s, r, b, z, hq, h, hi => by
    rcases sc_inv h with ⟨b', ρ, op', ρ', c', e, h1, h2, h3⟩ | ⟨b', e, h1, h2⟩
    · cases e; exact sc_bare c (all_sub hq (.inr rfl)) h3 hi
    · cases e

theorem bf_bare : ∀ (f : BF) {s r b z : Str}, All (NoNot cfg) (.bf f) → parse cfg (booleanFactor cfg.residue) true s = .ok f r →
    Starts cs!"INNER" r b z → bareBF f = false
  | .mk n (.pred q), s, r, b, z, hq, h, hi => by
    obtain ⟨t, h1⟩ := bf_bp h
    have hq := all_sub (all_sub hq rfl) rfl
    rcases bp_inv h1 with ⟨q', e, h6⟩ | ⟨c', o, u, ρ, d, e, -⟩ | ⟨v, e, -⟩
    · cases e
      match q, hq, h6 with
      | .cmp v op (.sc c), hq, h6 =>
        rcases pred_inv h6 with ⟨v, _, op, _, w, e, -, -, h7⟩ | ⟨v, _, n, _, b, _, lo, _, a, _, hi, e, -, -, -, -, -, h7⟩ |
          ⟨v, _, n, _, b, _, -, -, -, h7⟩ | ⟨v, _, b, _, n, e, -⟩ | ⟨v, _, n, _, b, _, w, e, -⟩ | ⟨b, _, x, e, -⟩
        · cases e; exact sc_bare c (all_sub (all_sub hq (.inr rfl)) rfl) (veSc_inv h7).2 hi
        · cases e
        · rcases h7 with ⟨x, e, -⟩ | ⟨l, e, -⟩ <;> cases e
        · cases e
        · cases e
        · cases e
      | .between v m lo (.sc c), hq, h6 =>
        rcases pred_inv h6 with ⟨v, _, op, _, w, e, -, -, h7⟩ | ⟨v, _, n, _, b, _, lo, _, a, _, hi, e, -, -, -, -, -, h7⟩ |
          ⟨v, _, n, _, b, _, -, -, -, h7⟩ | ⟨v, _, b, _, n, e, -⟩ | ⟨v, _, n, _, b, _, w, e, -⟩ | ⟨b, _, x, e, -⟩
        · cases e
        · cases e; exact sc_bare c (all_sub (all_sub hq (.inr (.inr rfl))) rfl) (veSc_inv h7).2 hi
        · rcases h7 with ⟨x, e, -⟩ | ⟨l, e, -⟩ <;> cases e
        · cases e
        · cases e
        · cases e
      | .cmp v op (.nb w), _, _ => rfl
      | .between v m lo (.nb w), _, _ => rfl
      | .inSub .., _, _ => rfl
      | .inList .., _, _ => rfl
      | .null .., _, _ => rfl
      | .like .., _, _ => rfl
      | .exist .., _, _ => rfl
    · cases e
    · cases e
  | .mk n (.sc c), s, r, b, z, hq, h, hi => by
    obtain ⟨t, h1⟩ := bf_bp h
    have hh := bp_head (.sc c) (all_sub hq rfl) h1
    rcases bp_inv h1 with ⟨q', e, h6⟩ | ⟨c', o, u, ρ, d, e, h6, -⟩ | ⟨v, e, -⟩
    · cases e
    · rw [headBP] at hh
      show decide _ = false
      rw [decide_eq_false_iff_not]
      intro hw
      rw [hw] at hh
      obtain ⟨v, hv⟩ := hh.2 (inner_ends hi)
      exact bare_end h6 hv hi
    · cases e
  | .mk n (.ve v), s, r, b, z, hq, h, hi => by
    obtain ⟨t, h1⟩ := bf_bp h
    rcases bp_inv h1 with ⟨q', e, h6⟩ | ⟨c', o, u, ρ, d, e, -⟩ | ⟨v, e, h2, -, h3⟩
    · cases e
    · cases e
    · exact (bare_end h2 h3 hi).elim

end

/-- a `join_suffix` -/
theorem suffix_inv {s r : Str} {n : Bool} {ty : JoinType} {t : TR} {sp : JoinSpec} (h : parse cfg joinSuffix true s = .ok (.mk n ty t sp) r) :
    ∃ ρ ρ' j ρ1 ρ2, parse cfg (optD false (.map (fun _ => true) (word cs!"NATURAL"))) true s = .ok n ρ ∧
      parse cfg (optD (.str []) joinType) true ρ = .ok ty ρ' ∧ parse cfg (word cs!"JOIN") true ρ' = .ok j ρ1 ∧
      parse cfg tr true ρ1 = .ok t ρ2 ∧ parse cfg (optD JoinSpec.dflt joinSpecification) true ρ2 = .ok sp r := by
  obtain ⟨⟨n', ty', t', sp'⟩, h1, e⟩ := parse_map_ok.1 h
  cases e
  obtain ⟨ρ, h2, h3⟩ := parse_seq_ok.1 h1
  obtain ⟨ρ1, h4, h5⟩ := parse_seq_ok.1 h3
  obtain ⟨j, ρ', h6, h7⟩ := parse_seqL_ok.1 h4
  obtain ⟨ρ2, h8, h9⟩ := parse_seq_ok.1 (parse_expect_ok.1 h5)
  exact ⟨ρ, ρ', j, ρ1, ρ2, h2, h6, h7, h8, h9⟩

theorem spec_named {s r : Str} : parse cfg joinSpecification true s ≠ .ok (.named []) r := by
  intro h
  rcases parse_alt_ok.1 h with h | ⟨-, h⟩
  · obtain ⟨x, -, e⟩ := parse_map_ok.1 h
    cases e
  · obtain ⟨x, h1, e⟩ := parse_map_ok.1 h
    cases e
    obtain ⟨_, _, -, h2⟩ := parse_seqR_ok.1 h1
    obtain ⟨_, _, h3, -⟩ := parse_seqL_ok.1 h2
    obtain ⟨_, _, _, -, -, e⟩ := sepBy_inv (parse_expect_ok.1 h3)
    cases e

/-- No specification follows a table that ends with a join without specification. -/
theorem open_end {s r : Str} {t : TR} (h : parse cfg tr true s = .ok t r) (ho : openTR t = true) :
    parse cfg joinSpecification true r = .fail := by
  rw [tr, parse_nt] at h
  rcases parse_alt_ok.1 h with h | ⟨-, h⟩
  · obtain ⟨j, h1, rfl⟩ := parse_map_ok.1 h
    rw [jt, parse_nt] at h1
    rcases parse_alt_ok.1 h1 with h2 | ⟨-, h2⟩
    · obtain ⟨q, h3, rfl⟩ := parse_map_ok.1 h2
      obtain ⟨⟨hd, ss⟩, h4, rfl⟩ := parse_map_ok.1 h3
      obtain ⟨t, -, h5⟩ := parse_seq_ok.1 h4
      obtain ⟨⟨x, l⟩, h6, rfl⟩ := parse_map_ok.1 h5
      obtain ⟨t', h7, h8⟩ := parse_seq_ok.1 h6
      have last : ∀ {s l r}, Iter (step (D cfg) joinSuffix true) s l r → ∀ {x s'}, parse cfg joinSuffix true s' = .ok x s →
          ∃ y s', (x :: l).getLast? = some y ∧ parse cfg joinSuffix true s' = .ok y r := by
        intro s l r hi
        induction hi with
        | nil => intro x s' h; exact ⟨x, s', rfl, h⟩
        | cons h1 _ _ ih =>
          intro x s' h
          obtain ⟨y, s'', h2, h3⟩ := ih h1
          exact ⟨y, s'', by rw [List.getLast?_cons_cons]; exact h2, h3⟩
      obtain ⟨⟨n, ty, t, sp⟩, s', hl, hy⟩ := last (step_star_ok.1 h8) h7
      obtain ⟨_, _, _, _, ρ2, -, -, -, -, h9⟩ := suffix_inv hy
      have ho : openJT (.qj (.mk hd (x :: l))) = true := ho
      rw [openJT, hl] at ho
      rcases opt_inv h9 with h9 | ⟨h9, -, rfl⟩
      · cases sp with
        | on c => cases ho
        | named ns =>
          cases ns with
          | nil => exact absurd h9 spec_named
          | cons => cases ho
      · exact h9
    · obtain ⟨x, -, rfl⟩ := parse_map_ok.1 h2
      cases ho
  rcases parse_alt_ok.1 h with h | ⟨-, h⟩
  · obtain ⟨j, h1, rfl⟩ := parse_map_ok.1 h
    cases ho
  rcases parse_alt_ok.1 h with h | ⟨-, h⟩
  · obtain ⟨j, h1, rfl⟩ := parse_map_ok.1 h
    cases ho
  · obtain ⟨j, h1, rfl⟩ := parse_map_ok.1 h
    cases ho

/-- A specification belongs to the last join before it that has none. -/
theorem made_suffix {s r : Str} {x : JoinSuffix} (h : parse cfg joinSuffix true s = .ok x r) : sufOK x := by
  obtain ⟨n, ty, t, sp⟩ := x
  intro hs
  obtain ⟨_, _, _, _, ρ2, -, -, -, h1, h2⟩ := suffix_inv h
  cases ht : openTR t with
  | false => rfl
  | true =>
    have h3 := open_end h1 ht
    rcases opt_inv h2 with h2 | ⟨-, rfl, -⟩
    · cases h3.symm.trans h2
    · cases hs

theorem plus_not_fail {α : Type} {p : G α} {s r : Str} {a : α} (h : parse cfg p true s = .ok a r) : parse cfg (plus p) true s ≠ .fail := by
  intro hf
  rcases step_seq_fail.1 (step_map_fail.1 hf) with h1 | ⟨_, _, -, h1⟩
  · cases h.symm.trans h1
  · exact step_star_fail h1

theorem tc_next {s r : Str} {t : TableCorr} (h : parse cfg tableCorrelation true s = .ok t r) : next s ≠ some '(' := by
  intro hn
  obtain ⟨b, hb, e⟩ := skip_split s
  have hn : (skip true s).head? = some '(' := hn
  cases hk : skip true s with
  | nil => rw [hk] at hn; cases hn
  | cons d t =>
    rw [hk] at hn e
    cases hn
    rw [e, parse_blanks rfl rfl hb] at h
    have hu : Bare ('(' :: t) := bare_cons (by decide)
    have hid : parse cfg identifier false ('(' :: t) = .fail :=
      ident_fail hu (by intro x y e; cases e; decide) (by intro y e; cases e)
    have htap : parse cfg tap false ('(' :: t) = .fail := tap_fail hu (by intro y e; cases e)
    obtain ⟨_, h1, -⟩ := parse_map_ok.1 h
    obtain ⟨_, h2, -⟩ := parse_seq_ok.1 h1
    rw [tableName] at h2
    have h2 : parse cfg (.alt tap (.alt (cat identifier (cat period (cat identifier (cat period identifier))))
      (.alt (cat identifier (cat period identifier)) identifier))) false (skip true ('(' :: t)) = .ok _ _ := h2
    rw [skip_bare hu] at h2
    have hc : ∀ q, parse cfg (cat identifier q) false ('(' :: t) = .fail := fun q => Fwd.map_fail (Fwd.seq_fail hid)
    rw [alt_right htap, alt_right (hc _), alt_right (hc _), hid] at h2
    cases h2

/-- No join follows a table that could have taken it. -/
theorem taken {s r r' : Str} {t : TR} {y : JoinSuffix} (h : parse cfg tr true s = .ok t r) (hy : parse cfg joinSuffix true r = .ok y r') :
    takesJoin t = false := by
  rw [tr, parse_nt] at h
  rcases parse_alt_ok.1 h with h | ⟨h0, h⟩
  · exfalso
    obtain ⟨j, h1, rfl⟩ := parse_map_ok.1 h
    rw [jt, parse_nt] at h1
    rcases parse_alt_ok.1 h1 with h2 | ⟨h0, h2⟩
    · obtain ⟨q, h3, rfl⟩ := parse_map_ok.1 h2
      obtain ⟨⟨hd, ss⟩, h4, rfl⟩ := parse_map_ok.1 h3
      obtain ⟨t, -, h5⟩ := parse_seq_ok.1 h4
      obtain ⟨⟨x, l⟩, h6, rfl⟩ := parse_map_ok.1 h5
      obtain ⟨t', h7, h8⟩ := parse_seq_ok.1 h6
      have last : ∀ {s l r}, Iter (step (D cfg) joinSuffix true) s l r → parse cfg joinSuffix true r = .fail := by
        intro s l r hi
        induction hi with
        | nil h => exact h
        | cons _ _ _ ih => exact ih
      cases hy.symm.trans (last (step_star_ok.1 h8))
    · obtain ⟨x, h3, rfl⟩ := parse_map_ok.1 h2
      rcases step_seq_fail.1 (step_map_fail.1 (step_map_fail.1 h0)) with h4 | ⟨_, _, h4, h5⟩
      · cases h3.symm.trans (step_map_fail.1 (step_alt_fail.1 h4).1)
      · rcases step_alt_ok.1 h4 with h6 | ⟨h6, -⟩
        · obtain ⟨_, h7, -⟩ := step_map_ok.1 h6
          cases h3.symm.trans h7
          exact plus_not_fail hy h5
        · cases h3.symm.trans (step_map_fail.1 h6)
  rcases parse_alt_ok.1 h with h | ⟨-, h⟩
  · exfalso
    obtain ⟨j, h1, rfl⟩ := parse_map_ok.1 h
    have h0 := step_map_fail.1 h0
    have h0 : parse cfg jt true s = .fail := h0
    rw [jt, parse_nt] at h0
    have h2 := step_map_fail.1 (step_alt_fail.1 h0).1
    have hp : parse cfg parenJoined true s = .fail := Fwd.seqR_fail (sym_fail (tc_next h1))
    rcases step_seq_fail.1 (step_map_fail.1 h2) with h4 | ⟨_, _, h4, h5⟩
    · cases h1.symm.trans (step_map_fail.1 (step_alt_fail.1 h4).2)
    · rcases step_alt_ok.1 h4 with h6 | ⟨h6, h7⟩
      · obtain ⟨_, h7, -⟩ := step_map_ok.1 h6
        cases hp.symm.trans h7
      · obtain ⟨_, h7, -⟩ := step_map_ok.1 h7
        cases h1.symm.trans h7
        exact plus_not_fail hy h5
  rcases parse_alt_ok.1 h with h | ⟨-, h⟩
  · obtain ⟨j, h1, rfl⟩ := parse_map_ok.1 h
    rfl
  · obtain ⟨j, h1, rfl⟩ := parse_map_ok.1 h
    rfl

theorem suf_mid {s s' r' : Str} {x y : JoinSuffix} (h : parse cfg joinSuffix true s' = .ok x s)
    (h1 : parse cfg joinSuffix true s = .ok y r') : hasSpec x = true ∨ takesSuffix x = false := by
  obtain ⟨n, ty, t, sp⟩ := x
  obtain ⟨_, _, _, _, ρ2, -, -, -, h3, h2⟩ := suffix_inv h
  rcases opt_inv h2 with h2 | ⟨-, -, e⟩
  · left
    cases sp with
    | on => rfl
    | named l =>
      cases l with
      | nil => exact (spec_named h2).elim
      | cons => rfl
  · right
    subst e
    exact taken h3 h1

/-- Joins in a row, without a condition on the tree. -/
theorem sufs_row {s r : Str} {l : List JoinSuffix} (h : Iter (step (D cfg) joinSuffix true) s l r) :
    ∀ {x s'}, parse cfg joinSuffix true s' = .ok x s → Row (x :: l) := by
  induction h with
  | nil => intro x s' h; exact made_suffix h
  | cons h1 _ _ ih => intro x s' h; exact ⟨made_suffix h, suf_mid h h1, ih h1⟩

/-- Joins in a row. -/
theorem sufs_ok {s r : Str} {l : List JoinSuffix} (h : Iter (step (D cfg) joinSuffix true) s l r) :
    ∀ {x s'}, parse cfg joinSuffix true s' = .ok x s →
      (∀ y ∈ x :: l, All (NoNot cfg) (.suffix y)) → sufsOK (x :: l) := by
  induction h with
  | nil => intro x s' h _; exact made_suffix h
  | @cons s ρ t y l h1 _ _ ih =>
    intro x s' h hq
    refine ⟨made_suffix h, suf_mid h h1, fun hb => ?_, ih h1 fun z hz => hq z (by simp [hz])⟩
    obtain ⟨n, ty, t, sp⟩ := x
    cases sp with
    | named => cases hb
    | on c =>
      obtain ⟨_, _, _, _, ρ2, -, -, -, -, h2⟩ := suffix_inv h
      rcases opt_inv h2 with h2 | ⟨-, e, -⟩
      · rcases parse_alt_ok.1 h2 with h3 | ⟨-, h3⟩
        · obtain ⟨x, h4, e⟩ := parse_map_ok.1 h3
          cases e
          obtain ⟨_, ρ3, -, h5⟩ := parse_seqR_ok.1 h4
          have hq' := all_sub (all_sub (hq (.mk n ty t (.on c)) (by simp)) (.inr ⟨nofun, rfl⟩)) rfl
          obtain ⟨n', ty', t', sp'⟩ := y
          cases n' with
          | true => rfl
          | false =>
            match ty', h1 with
            | .str [], _ => rfl
            | .outer .., _ => rfl
            | .str (a :: as), h1 =>
              exfalso
              obtain ⟨ρ4, ρ5, _, _, _, h6, h7, -⟩ := suffix_inv (cfg := cfg) h1
              have e4 : ρ4 = s := by
                rcases opt_inv h6 with h6 | ⟨-, -, e⟩
                · obtain ⟨_, -, e⟩ := parse_map_ok.1 h6
                  cases e
                · exact e
              subst e4
              rcases opt_inv h7 with h7 | ⟨-, e, -⟩
              · rcases parse_alt_ok.1 h7 with h8 | ⟨-, h8⟩
                · obtain ⟨z, h9, e⟩ := parse_map_ok.1 h8
                  rw [show bareSuffix (.mk n ty t (.on c)) = bareSC c from rfl, sc_bare c hq' h5 (word_inv h9)] at hb
                  cases hb
                · obtain ⟨_, -, e⟩ := parse_map_ok.1 h8
                  cases e
              · cases e
        · obtain ⟨x, -, e⟩ := parse_map_ok.1 h3
          cases e
      · cases e

theorem made_row {hd : QJHead} {ss : List JoinSuffix} (h : Made cfg qualifiedJoin (.mk hd ss)) : (∀ q, hd ≠ .jt (.qj q)) ∧ Row ss := by
  obtain ⟨s, r, h⟩ := h
  obtain ⟨⟨hd', ss'⟩, h4, e⟩ := parse_map_ok.1 h
  cases e
  obtain ⟨t, h3, h5⟩ := parse_seq_ok.1 h4
  obtain ⟨⟨x, l⟩, h6, rfl⟩ := parse_map_ok.1 h5
  obtain ⟨t', h7, h8⟩ := parse_seq_ok.1 h6
  refine ⟨?_, sufs_row (step_star_ok.1 h8) h7⟩
  rcases parse_alt_ok.1 h3 with h3 | ⟨-, h3⟩
  · obtain ⟨j, -, e⟩ := parse_map_ok.1 h3
    cases e; nofun
  · obtain ⟨j, -, e⟩ := parse_map_ok.1 h3
    cases e; nofun

theorem made_qj {hd : QJHead} {ss : List JoinSuffix} (h : Made cfg qualifiedJoin (.mk hd ss))
    (hq : ∀ y ∈ ss, All (NoNot cfg) (.suffix y)) : (∀ q, hd ≠ .jt (.qj q)) ∧ sufsOK ss := by
  obtain ⟨s, r, h⟩ := h
  obtain ⟨⟨hd', ss'⟩, h4, e⟩ := parse_map_ok.1 h
  cases e
  obtain ⟨t, h3, h5⟩ := parse_seq_ok.1 h4
  obtain ⟨⟨x, l⟩, h6, rfl⟩ := parse_map_ok.1 h5
  obtain ⟨t', h7, h8⟩ := parse_seq_ok.1 h6
  exact ⟨(made_row ⟨s, r, h⟩).1, sufs_ok (step_star_ok.1 h8) h7 hq⟩

/-! ### Coordinates -/

theorem number_coord {x : Str} (h : Number x) : CoordNum x := by
  have mag : ∀ {m}, Magnitude m → CoordMag m := by
    intro m h
    cases h with
    | plain h => have := PlainMag.num h (.inl rfl); rw [List.append_nil] at this; exact .plain this
    | expo h he => exact .plain (.num h (.inr he))
    | inf h =>
      obtain ⟨k, hk, h⟩ := h
      simp only [List.mem_cons, List.not_mem_nil, or_false] at hk
      rcases hk with rfl | rfl
      · exact .plain (.inf h)
      · exact .plain (.infinity h)
    | nan h => exact .plain (.nan h)
    | nanArg h ha => exact .nanArg h ha
  cases h with
  | plain h => exact ⟨[], _, by decide, mag h, rfl⟩
  | plus h => exact ⟨cs!"+", _, by decide, mag h, rfl⟩
  | minus h => exact ⟨cs!"-", _, by decide, mag h, rfl⟩

/-- A number that starts with a letter starts with one of three words. -/
theorem number_letter {x : Str} {c : Char} {t : Str} (h : Number x) (e : x = c :: t) (hc : Letter c) :
    ∃ k ∈ [cs!"inf", cs!"infinity", cs!"nan"], ∃ m z, x = m ++ z ∧ SameCI m k := by
  have uns : ∀ {m z : Str}, Unsigned m → m ++ z = c :: t → False := by
    intro m z hm e
    obtain ⟨d, u, rfl, hd⟩ := unsigned_head hm
    cases e
    have hc := isLetter_iff.2 hc
    rcases hd with hd | rfl
    · have hd := isDigit_iff.2 hd
      rw [isLetter_toNat] at hc
      simp only [isDigit, Bool.and_eq_true, decide_eq_true_eq] at hd
      omega
    · exact absurd hc (by decide)
  cases h with
  | plain h =>
    cases h with
    | plain h => exact (uns (z := []) h (by rw [List.append_nil]; exact e)).elim
    | expo h _ => exact (uns h e).elim
    | inf h =>
      obtain ⟨k, hk, h⟩ := h
      refine ⟨k, ?_, x, [], (List.append_nil _).symm, h⟩
      simp only [List.mem_cons, List.not_mem_nil, or_false] at hk ⊢
      rcases hk with rfl | rfl <;> simp
    | nan h => exact ⟨_, by simp, x, [], (List.append_nil _).symm, h⟩
    | nanArg h ha => exact ⟨_, by simp, _, _, rfl, h⟩
  | plus h => cases e; exact absurd (isLetter_iff.2 hc) (by decide)
  | minus h => cases e; exact absurd (isLetter_iff.2 hc) (by decide)

/-- A text that starts with one of these words starts with a name. -/
theorem infNan_name {k m z s b : Str} (hk : k ∈ [cs!"inf", cs!"infinity", cs!"nan"]) (hm : SameCI m k) (hb : Blanks b)
    (e : s = b ++ (m ++ z)) : parse cfg identifier true s ≠ .fail := by
  have hsh : IdentShape m := by
    have : ([cs!"inf", cs!"infinity", cs!"nan"].all wordShape) = true := by decide
    exact wordShape_iff.1 ((wordShape_sameCI hm).trans (all_mem this hk))
  obtain ⟨c, u, rfl, hc, hu⟩ := hsh
  have ht := List.takeWhile_append_dropWhile (p := isIdChar) (l := z)
  have hok : parse cfg regularIdentifier true s = .ok ((c :: u) ++ z.takeWhile isIdChar) (z.dropWhile isIdChar) := by
    refine (C04_regular_identifier ..).2 ⟨b, ?_, ⟨hb, nofun⟩, ⟨c, u ++ z.takeWhile isIdChar, rfl, hc, ?_⟩, ?_, ?_⟩
    · rw [e, List.append_assoc, ht]
    · intro d hd
      rcases List.mem_append.1 hd with hd | hd
      · exact hu d hd
      · exact isIdChar_iff.1 (takeWhile_all _ _ d hd)
    · rw [notContinued_iff]
      exact fun _ _ => dropWhile_head
    · rintro ⟨w, hw, hs⟩
      have hp : prefixCI k ((c :: u) ++ z.takeWhile isIdChar) = true := prefixCI_iff.2 ⟨_, _, rfl, hm⟩
      rw [sameCI_prefixCI hs] at hp
      have : (words.all fun w => [cs!"inf", cs!"infinity", cs!"nan"].all fun k => !prefixCI k w) = true := by decide +kernel
      have := all_mem (all_mem this hw) hk
      rw [hp] at this
      cases this
  have := (C06_identifier cfg true s _ _).2 (.inl hok)
  rw [this]; nofun

theorem double_number {s x r : Str} (h : parse cfg double true s = .ok x r) : Number x ∧ ∃ b, Blanks b ∧ s = b ++ (x ++ r) := by
  obtain ⟨t, e, h⟩ := step_sem (I := fun _ _ _ _ _ => True)
    (fun n sk s a r h => den_sem (fun _ _ _ _ _ _ => trivial) n sk s a r h) _ _ _ _ _ h
  obtain ⟨b, hb, rfl⟩ := l1_double _ _ _ _ h
  exact ⟨ap_double _ _ _ _ h, b, hb.1, by rw [e, List.append_assoc]⟩

/-- A number that is a coordinate by itself does not start with a letter: it would be a column. -/
theorem made_coordNum {x : Str} (h : Made cfg coordExpr (.num x)) : CoordNum x ∧ ∀ c t, x = c :: t → ¬ Letter c := by
  obtain ⟨s, r, h⟩ := h
  rcases parse_alt_ok.1 h with h | ⟨-, h⟩
  · obtain ⟨_, -, e⟩ := parse_map_ok.1 h
    cases e
  rcases parse_alt_ok.1 h with h | ⟨h0, h⟩
  · obtain ⟨_, -, e⟩ := parse_map_ok.1 h
    cases e
  obtain ⟨y, h1, e⟩ := parse_map_ok.1 h
  cases e
  obtain ⟨hn, b, hb, e''⟩ := double_number h1
  refine ⟨number_coord hn, fun c t e hc => ?_⟩
  obtain ⟨k, hk, m, z, e', hm⟩ := number_letter hn e hc
  rw [e', List.append_assoc] at e''
  refine infNan_name (cfg := cfg) hk hm hb e'' ?_
  have h0 := step_map_fail.1 h0
  have h0 := step_alt_fail.1 h0
  have h0 := step_alt_fail.1 h0.2
  have h0 := step_alt_fail.1 h0.2
  exact step_map_fail.1 h0.2

theorem made_coordOp {x y : Str} {c : Char} (h : Made cfg coordExpr (.bae x c y)) : CoordNum x ∧ CoordNum y := by
  obtain ⟨s, r, h⟩ := h
  rcases parse_alt_ok.1 h with h | ⟨-, h⟩
  · obtain ⟨⟨_, _, _⟩, h', e⟩ := parse_map_ok.1 h
    cases e
    obtain ⟨t, h1, h2⟩ := parse_seq_ok.1 h'
    obtain ⟨t', -, h3⟩ := parse_seq_ok.1 h2
    exact ⟨number_coord (double_number h1).1, number_coord (double_number h3).1⟩
  rcases parse_alt_ok.1 h with h | ⟨h0, h⟩
  · obtain ⟨_, -, e⟩ := parse_map_ok.1 h
    cases e
  · obtain ⟨_, -, e⟩ := parse_map_ok.1 h
    cases e

/-! ### All nodes -/

theorem sub_trans {a b c : Node} (h : Sub a b) (h' : Sub b c) : Sub a c := by
  induction h' with
  | refl => exact h
  | step hc _ ih => exact .step hc ih

/-- A tree that came from a text and has nothing unusual is regular. -/
theorem usual_regular (hm : MapsWell cfg.mapping) {nots nots' : Bool} (h1 : nots = true → cfg.residue = false) (h2 : nots = true → nots' = true)
    {n : Node} (hc : All (Came cfg) n) (hu : All (Usual nots) n) : All (Regular nots') n := by
  have hq : ∀ {m}, All (Usual nots) m → All (NoNot cfg) m := by
    intro m hm k hk
    have := hm k hk
    cases k with
    | bf f =>
      obtain ⟨n, p⟩ := f
      intro hr
      refine this ?_
      cases hn : nots with
      | false => rfl
      | true => rw [h1 hn] at hr; cases hr
    | _ => trivial
  intro k hk
  have sub : ∀ {K : Node → Prop}, All K n → All K k := fun h m hm => h m (sub_trans hm hk)
  have hc := sub hc
  have hu := sub hu
  have c0 := all_here hc
  have u0 := all_here hu
  cases k with
  | bf f =>
    obtain ⟨n, p⟩ := f
    cases n with
    | nil =>
      intro hn
      refine u0 ?_
      cases ht : nots with
      | false => rfl
      | true => rw [h2 ht] at hn; cases hn
    | cons => trivial
  | ve x =>
    cases x with
    | nb => trivial
    | sc c => exact made_cond c0 (hq (all_sub hu rfl))
  | sc c =>
    cases c with
    | factor => trivial
    | term => exact made_term c0
  | pred q =>
    match q, c0 with
    | .between _ _ (.sc _) _, c0 => exact made_between c0
    | .like _ _ (.sc _), c0 => exact made_like c0
    | .inList .., c0 => exact made_inList hm c0
    | .between _ _ (.nb _) _, _ => trivial
    | .like _ _ (.nb _), _ => trivial
    | .cmp .., _ => trivial
    | .inSub .., _ => trivial
    | .null .., _ => trivial
    | .exist .., _ => trivial
  | result x =>
    cases x with
    | str => exact made_result c0
    | ve => trivial
  | bp p =>
    cases p with
    | ve v => exact ⟨u0, made_bare hm c0⟩
    | _ => trivial
  | qj q =>
    obtain ⟨hd, ss⟩ := q
    exact made_qj c0 fun y hy => hq (all_sub hu (.inr ⟨y, hy, rfl⟩))
  | group g =>
    cases g with
    | col => exact made_group c0
    | ve => trivial
  | numFn f => cases f <;> first | exact u0 | trivial
  | subq x =>
    cases x with
    | jt j => exact made_subjoin hm c0
    | qs => trivial
  | spec x => cases x <;> first | exact u0 | trivial
  | tr x =>
    match x, c0, u0 with
    | .derived (.jt _) _, c0, _ => exact made_derived c0
    | .derived (.qs _) _, _, u0 => exact u0
    | .tvf .., _, u0 => exact u0
    | .tc _, _, _ => trivial
    | .jt _, _, _ => trivial
  | item x => cases x <;> first | exact u0 | trivial
  | with_ x => cases x; exact u0
  | venb x => cases x; exact u0
  | colRef x => cases x <;> exact u0
  | coordExpr x =>
    cases x with
    | num => exact made_coordNum c0
    | bae => exact made_coordOp c0
    | col => trivial
  | tcorr x => cases x; exact u0
  | _ => trivial

end Adql.Reach
