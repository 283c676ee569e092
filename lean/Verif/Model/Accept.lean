import Verif.Spec.Core
import Verif.Props.Literals
import Verif.Props.Blanks
import Verif.Model.Dead

/-!
# Running the grammar forward: tokens
-/

namespace Adql.Fwd

open P Spec

variable {cfg : Config} {sk : Bool}

/-! ### Blanks in front -/

theorem skip_blanks {b s : Str} (hb : Blanks b) : skip true (b ++ s) = skip true s :=
  dropWhile_blanks hb s

theorem next_blanks {b s : Str} (hb : Blanks b) : next (b ++ s) = next s := by
  simp only [next, dropWhile_blanks hb]

theorem blanks_nil : Blanks [] := by intro c hc; cases hc

/-- Blanks in front make no difference to an expression that consumes. -/
theorem parse_blanks {α : Type} {p : G α} (hp : p.headOK = true) (hc : p.consumes = true) {b s : Str}
    (hb : Blanks b) : parse cfg p true (b ++ s) = parse cfg p true s := by
  rcases parse_head (cfg := cfg) hb hp s with h | ⟨a, _, h2⟩
  · exact h
  · have := parse_consumes hc h2; omega

/-- A text that does not start with a blank. -/
def Bare (u : Str) : Prop := ∀ c t, u = c :: t → isSpace c = false

theorem bare_cons {c : Char} {t : Str} (h : isSpace c = false) : Bare (c :: t) := by
  intro d u e; cases e; exact h

theorem skip_bare {u : Str} (h : Bare u) : skip sk u = u := by
  have := skip_eq (sk := sk) (b := []) (t := u) (blank_nil _) h
  simpa using this

theorem bare_skip (s : Str) : Bare (skip true s) := by
  intro c t h
  exact dropWhile_head h

theorem skip_split (s : Str) : ∃ b, Blanks b ∧ s = b ++ skip true s := by
  obtain ⟨b, h, hb⟩ := skip_blank true s
  exact ⟨b, hb.1, h⟩

/-- Parsing starts after the blanks. -/
theorem parse_skip {α : Type} {p : G α} (hp : p.headOK = true) (hc : p.consumes = true) (s : Str) :
    parse cfg p true s = parse cfg p true (skip true s) := by
  obtain ⟨b, hb, h⟩ := skip_split s
  conv => lhs; rw [h]
  exact parse_blanks hp hc hb

/-! ### Symbols and keywords -/

theorem lit_eq {ci : Bool} {w s : Str} : parse cfg (.lit ci w) sk s =
    match matchLit ci w (skip sk s) with
    | some (t, r) => .ok t r
    | none => .fail := rfl

theorem sym_tok {w s r : Str} (hw : Bare w) (h0 : w ≠ []) (h : Tok w s) :
    parse cfg (sym w) true (s ++ r) = .ok w r := by
  obtain ⟨b, hb, rfl⟩ := h
  have h1 : Bare (w ++ r) := by
    cases w with
    | nil => exact absurd rfl h0
    | cons c w => exact bare_cons (hw c w rfl)
  simp only [sym, lit_eq, List.append_assoc, skip_blanks hb, skip_bare h1]
  rw [matchLit_iff.2 ⟨rfl, litOK_cs.2 rfl⟩]

theorem kw_tok {w s t r : Str} (hw : Bare t) (h0 : t ≠ []) (h : Kw w s t) :
    parse cfg (kw w) true (s ++ r) = .ok t r := by
  obtain ⟨b, hb, rfl, hs⟩ := h
  have h1 : Bare (t ++ r) := by
    cases t with
    | nil => exact absurd rfl h0
    | cons c t => exact bare_cons (hw c t rfl)
  simp only [kw, lit_eq, List.append_assoc, skip_blanks hb, skip_bare h1]
  rw [matchLit_iff.2 ⟨rfl, litOK_ci.2 hs⟩]

/-- The next character is not the one a symbol starts with. -/
theorem sym_fail {d : Char} {w s : Str} (h : next s ≠ some d) :
    parse cfg (sym (d :: w)) true s = .fail := by
  simp only [sym, lit_eq]
  have h' : (skip true s).head? ≠ some d := h
  cases hs : skip true s with
  | nil => rfl
  | cons c r =>
    rw [hs] at h'
    have : ¬ d = c := fun e => h' (by rw [e]; rfl)
    simp [matchLit, this]

theorem chS_fail {f : Char → Bool} {s : Str} (h : ∀ c, next s = some c → f c = false) :
    parse cfg (chS f) true s = .fail := by
  simp only [chS, run_map]
  have h' : ∀ c, (skip true s).head? = some c → f c = false := h
  cases hs : skip true s with
  | nil => simp [step, hs]
  | cons c r =>
    have := h' c (by rw [hs]; rfl)
    simp [step, hs, this]

/-! ### Words that are not continued -/

/-- Wherever the keyword `w` matches at the start of `u`, a word character follows. -/
def Apart (w u : Str) : Prop :=
  ∀ t r, matchLit true w u = some (t, r) → ∃ c v, r = c :: v ∧ isIdChar c = true

/-- The parser fails, or stops in front of a word character. -/
def Stuck {α : Type} (x : Res α) : Prop :=
  x = .fail ∨ ∃ a c v, x = .ok a (c :: v) ∧ isIdChar c = true

theorem stuck_kw {w u : Str} (hu : Bare u) (h : Apart w u) : Stuck (parse cfg (kw w) sk u) := by
  simp only [kw, lit_eq, skip_bare hu]
  cases hm : matchLit true w u with
  | none => exact .inl rfl
  | some x =>
    obtain ⟨t, r⟩ := x
    obtain ⟨c, v, rfl, hc⟩ := h t r hm
    exact .inr ⟨t, c, v, rfl, hc⟩

theorem stuck_anyKw {ws : List Str} {u : Str} (hu : Bare u) (h : ∀ w ∈ ws, Apart w u) :
    Stuck (parse cfg (anyKw ws) sk u) := by
  simp only [parse, run_anyKw, skip_bare hu]
  cases hm : firstLit ws u with
  | none => exact .inl rfl
  | some x =>
    obtain ⟨t, r⟩ := x
    obtain ⟨w, hw, h1⟩ := List.exists_of_findSome?_eq_some hm
    obtain ⟨c, v, rfl, hc⟩ := h w hw t r h1
    exact .inr ⟨t, c, v, rfl, hc⟩

theorem stuck_lexeme {α : Type} {p : G α} {u : Str} (hu : Bare u)
    (h : Stuck (parse cfg p false u)) : Stuck (parse cfg (.lexeme p) sk u) := by
  simpa only [parse, run_lexeme, skip_bare hu] using h

theorem idChar_bare {c : Char} {v : Str} (h : isIdChar c = true) : Bare (c :: v) := by
  apply bare_cons
  rw [isIdChar_toNat] at h
  cases hs : isSpace c with
  | false => rfl
  | true => rw [isSpace_iff] at hs; omega

theorem next_bare {c : Char} {v : Str} (h : isSpace c = false) : next (c :: v) = some c := by
  simp [next, h]

theorem next_idChar {c : Char} {v : Str} (h : isIdChar c = true) : next (c :: v) = some c :=
  next_bare (idChar_bare h c v rfl)

theorem sym_idChar {d c : Char} {w v : Str} (h : isIdChar c = true) (hd : isIdChar d = false) :
    parse cfg (sym (d :: w)) true (c :: v) = .fail := by
  apply sym_fail
  rw [next_idChar h]
  intro e; cases e; rw [h] at hd; cases hd

theorem stuck_seq_fail {α β : Type} {p : G α} {q : G β} {u : Str} (h : Stuck (parse cfg p sk u))
    (hq : ∀ c v, isIdChar c = true → parse cfg q sk (c :: v) = .fail) :
    parse cfg (.seq p q) sk u = .fail := by
  rcases h with h | ⟨a, c, v, h, hc⟩
  · simp only [parse, run_seq] at h ⊢; rw [h]; rfl
  · have := hq c v hc
    simp only [parse, run_seq] at h this ⊢; rw [h]; simp only [Res.bind_ok]; rw [this]; rfl

theorem map_fail {α β : Type} {f : α → β} {p : G α} {s : Str} (h : parse cfg p sk s = .fail) :
    parse cfg (.map f p) sk s = .fail := by
  simp only [parse, run_map] at h ⊢; rw [h]; rfl

theorem seq_fail {α β : Type} {p : G α} {q : G β} {s : Str} (h : parse cfg p sk s = .fail) :
    parse cfg (.seq p q) sk s = .fail := by
  simp only [parse, run_seq] at h ⊢; rw [h]; rfl

theorem seq_fail2 {α β : Type} {p : G α} {q : G β} {s r : Str} {a : α}
    (h : parse cfg p sk s = .ok a r) (h2 : parse cfg q sk r = .fail) :
    parse cfg (.seq p q) sk s = .fail := by
  simp only [parse, run_seq] at h h2 ⊢; rw [h]; simp only [Res.bind_ok]; rw [h2]; rfl

theorem alt_fail {α : Type} {p q : G α} {s : Str} (h : parse cfg p sk s = .fail)
    (h2 : parse cfg q sk s = .fail) : parse cfg (.alt p q) sk s = .fail := by
  simp only [parse, run_alt] at h h2 ⊢; rw [h, h2]; rfl

theorem alt_right {α : Type} {p q : G α} {s : Str} (h : parse cfg p sk s = .fail) :
    parse cfg (.alt p q) sk s = parse cfg q sk s := by
  simp only [parse, run_alt] at h ⊢; rw [h]; rfl

theorem alt_left {α : Type} {p q : G α} {s r : Str} {a : α} (h : parse cfg p sk s = .ok a r) :
    parse cfg (.alt p q) sk s = .ok a r := by
  simp only [parse, run_alt] at h ⊢; rw [h]; rfl

theorem seqL_fail {α β : Type} {p : G α} {q : G β} {s : Str} (h : parse cfg p sk s = .fail) :
    parse cfg (seqL p q) sk s = .fail := map_fail (seq_fail h)

theorem seqR_fail {α β : Type} {p : G α} {q : G β} {s : Str} (h : parse cfg p sk s = .fail) :
    parse cfg (seqR p q) sk s = .fail := map_fail (seq_fail h)

theorem seqL_fail2 {α β : Type} {p : G α} {q : G β} {s r : Str} {a : α}
    (h : parse cfg p sk s = .ok a r) (h2 : parse cfg q sk r = .fail) :
    parse cfg (seqL p q) sk s = .fail := map_fail (seq_fail2 h h2)

theorem seqR_fail2 {α β : Type} {p : G α} {q : G β} {s r : Str} {a : α}
    (h : parse cfg p sk s = .ok a r) (h2 : parse cfg q sk r = .fail) :
    parse cfg (seqR p q) sk s = .fail := map_fail (seq_fail2 h h2)

theorem stuck_seqL_fail {α β : Type} {p : G α} {q : G β} {u : Str} (h : Stuck (parse cfg p sk u))
    (hq : ∀ c v, isIdChar c = true → parse cfg q sk (c :: v) = .fail) :
    parse cfg (seqL p q) sk u = .fail := map_fail (stuck_seq_fail h hq)

theorem stuck_seqR_fail {α β : Type} {p : G α} {q : G β} {u : Str} (h : Stuck (parse cfg p sk u))
    (hq : ∀ c v, isIdChar c = true → parse cfg q sk (c :: v) = .fail) :
    parse cfg (seqR p q) sk u = .fail := map_fail (stuck_seq_fail h hq)

theorem map_ok {α β : Type} {f : α → β} {p : G α} {s r : Str} {a : α}
    (h : parse cfg p sk s = .ok a r) : parse cfg (.map f p) sk s = .ok (f a) r := by
  simp only [parse, run_map] at h ⊢; rw [h]; rfl

theorem seq_ok {α β : Type} {p : G α} {q : G β} {s r r' : Str} {a : α} {b : β}
    (h : parse cfg p sk s = .ok a r) (h2 : parse cfg q sk r = .ok b r') :
    parse cfg (.seq p q) sk s = .ok (a, b) r' := by
  simp only [parse, run_seq] at h h2 ⊢; rw [h]; simp only [Res.bind_ok]; rw [h2]; rfl

theorem seqL_ok {α β : Type} {p : G α} {q : G β} {s r r' : Str} {a : α} {b : β}
    (h : parse cfg p sk s = .ok a r) (h2 : parse cfg q sk r = .ok b r') :
    parse cfg (seqL p q) sk s = .ok a r' := map_ok (f := Prod.fst) (seq_ok h h2)

theorem seqR_ok {α β : Type} {p : G α} {q : G β} {s r r' : Str} {a : α} {b : β}
    (h : parse cfg p sk s = .ok a r) (h2 : parse cfg q sk r = .ok b r') :
    parse cfg (seqR p q) sk s = .ok b r' := map_ok (f := Prod.snd) (seq_ok h h2)

theorem cat_ok {p q : G Str} {s r r' : Str} {a b : Str}
    (h : parse cfg p sk s = .ok a r) (h2 : parse cfg q sk r = .ok b r') :
    parse cfg (cat p q) sk s = .ok (a ++ b) r' := map_ok (f := fun x : Str × Str => x.1 ++ x.2) (seq_ok h h2)

theorem expect_ok {α : Type} {w : String} {p : G α} {s r : Str} {a : α}
    (h : parse cfg p sk s = .ok a r) : parse cfg (.expect w p) sk s = .ok a r := by
  simp only [parse, run_expect] at h ⊢; rw [h]; rfl

theorem optD_ok {α : Type} {d : α} {p : G α} {s r : Str} {a : α}
    (h : parse cfg p sk s = .ok a r) : parse cfg (optD d p) sk s = .ok a r := alt_left h

theorem optD_none {α : Type} {d : α} {p : G α} {s : Str}
    (h : parse cfg p sk s = .fail) : parse cfg (optD d p) sk s = .ok d s := by
  rw [optD, alt_right h]; rfl

theorem star_nil {α : Type} {p : G α} {s : Str} (h : parse cfg p sk s = .fail) :
    parse cfg (.star p) sk s = .ok [] s := by
  simp only [parse, step] at h ⊢
  unfold starLoop
  rw [h]

theorem star_cons {α : Type} {p : G α} (hc : p.consumes = true) {s r r' : Str} {a : α} {l : List α}
    (h : parse cfg p sk s = .ok a r) (h2 : parse cfg (.star p) sk r = .ok l r') :
    parse cfg (.star p) sk s = .ok (a :: l) r' := by
  have hl := parse_consumes hc h
  simp only [parse, step] at h h2 ⊢
  unfold starLoop
  rw [h]
  simp only [hl, if_true]
  rw [starLoop_fuel s.length (r.length + 1) r hl (by omega), h2]

end Adql.Fwd
