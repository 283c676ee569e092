import Verif.Model.Accept

/-!
# Running the grammar forward: names, literals, and what fails at them
-/

namespace Adql.Fwd

open P Spec

variable {cfg : Config} {sk : Bool}

/-! ### Letters -/

theorem isLetter_lowerC (c : Char) : isLetter (lowerC c) = isLetter c := by
  have h := lowerC_toNat c
  cases h1 : isLetter c with
  | true =>
    rw [isLetter_toNat] at h1 ⊢
    rw [h]; split <;> omega
  | false =>
    have h2 : ¬ isLetter c = true := by simp [h1]
    have h3 : ¬ isLetter (lowerC c) = true := by
      rw [isLetter_toNat] at h2 ⊢
      rw [h]; split <;> omega
    simpa using h3

/-- the text does not start with a letter -/
def NoLetter (u : Str) : Prop := ∀ c t, u = c :: t → isLetter c = false

theorem matchLit_noLetter {l : Char} {w u : Str} (hl : isLetter l = true) (hu : NoLetter u) :
    matchLit true (l :: w) u = none := by
  cases u with
  | nil => rfl
  | cons c u =>
    have hc := hu c u rfl
    have h : ¬ lowerC l = lowerC c := by
      intro e
      rw [← isLetter_lowerC, ← e, isLetter_lowerC, hl] at hc; cases hc
    have h' : ¬ l = c := fun e => h (by rw [e])
    simp [matchLit, h, h']

/-- the word starts with a letter -/
def startsLetter : Str → Bool
  | [] => false
  | c :: _ => isLetter c

theorem matchLit_noLetter' {w u : Str} (hl : startsLetter w = true) (hu : NoLetter u) :
    matchLit true w u = none := by
  cases w with
  | nil => cases hl
  | cons l w => exact matchLit_noLetter hl hu

theorem apart_noLetter {w u : Str} (hl : startsLetter w = true) (hu : NoLetter u) : Apart w u := by
  intro t r h
  rw [matchLit_noLetter' hl hu] at h; cases h

theorem identShape_all {x : Str} (h : IdentShape x) : ∀ c ∈ x, isIdChar c = true := by
  obtain ⟨c, t, rfl, hc, ht⟩ := h
  intro d hd
  rcases List.mem_cons.1 hd with rfl | hd
  · exact isLetter_isIdChar (isLetter_iff.2 hc)
  · exact isIdChar_iff.2 (ht d hd)

/-- A keyword and a word other than it. -/
theorem apart_word {w x y : Str} (hw : w.all isIdChar = true) (hx : IdentShape x)
    (hy : NotContinued y) (h : ¬ SameCI x w) : Apart w (x ++ y) := by
  intro t r hm
  rw [matchLit_word hw (notContinued_iff.1 hy)] at hm
  cases hm' : matchLit true w x with
  | none => rw [hm'] at hm; cases hm
  | some p =>
    obtain ⟨t', r'⟩ := p
    rw [hm'] at hm
    simp only [Option.map_some, Option.some.injEq, Prod.mk.injEq] at hm
    obtain ⟨rfl, rfl⟩ := hm
    obtain ⟨h1, h2⟩ := matchLit_iff.1 hm'
    cases r' with
    | nil =>
      rw [List.append_nil] at h1; subst h1
      exact absurd (litOK_ci.1 h2) h
    | cons c v =>
      refine ⟨c, v ++ y, rfl, identShape_all hx c ?_⟩
      rw [h1]; simp

theorem prefixCI_iff {w x : Str} : prefixCI w x = true ↔ ∃ t r, x = t ++ r ∧ SameCI t w := by
  unfold prefixCI SameCI
  rw [List.isPrefixOf_iff_prefix]
  constructor
  · rintro ⟨u, hu⟩
    obtain ⟨t, r, rfl, h1, h2⟩ := List.map_eq_append_iff.1 hu.symm
    exact ⟨t, r, rfl, h1⟩
  · rintro ⟨t, r, rfl, h⟩
    rw [List.map_append, h]
    exact List.prefix_append _ _

theorem matchLit_prefix {w x y : Str} (hw : w.all isIdChar = true) (hy : NotContinued y)
    (h : prefixCI w x = false) : matchLit true w (x ++ y) = none := by
  rw [matchLit_word hw (notContinued_iff.1 hy)]
  cases hm' : matchLit true w x with
  | none => rfl
  | some p =>
    obtain ⟨t', r'⟩ := p
    obtain ⟨h1, h2⟩ := matchLit_iff.1 hm'
    have : prefixCI w x = true := prefixCI_iff.2 ⟨t', r', h1, litOK_ci.1 h2⟩
    rw [h] at this; cases this

theorem kw_none {w u : Str} (hu : Bare u) (h : matchLit true w u = none) :
    parse cfg (kw w) sk u = .fail := by
  simp only [kw, lit_eq, skip_bare hu, h]

/-! ### Names -/

theorem identShape_bare {x y : Str} (h : IdentShape x) : Bare (x ++ y) := by
  obtain ⟨c, t, rfl, hc, ht⟩ := h
  exact bare_cons (isLetter_not_space (isLetter_iff.2 hc))

theorem delimited_bare {x y : Str} (h : Delimited x) : Bare (x ++ y) := by
  obtain ⟨b, rfl, -, -⟩ := h
  exact bare_cons (by decide)

theorem delimited_noLetter {x y : Str} (h : Delimited x) : NoLetter (x ++ y) := by
  obtain ⟨b, rfl, -, -⟩ := h
  intro c t e
  cases e; decide

theorem part_bare {x y : Str} (h : Part x) : Bare (x ++ y) := by
  rcases h with h | h
  · exact identShape_bare h.1
  · exact delimited_bare h

theorem nameT_part {x : Str} (h : NameT x) : Part x := by
  rcases h with h | h
  · exact .inl ⟨h.1, h.2.1⟩
  · exact .inr h

theorem part_ne {x : Str} (h : Part x) : x ≠ [] := by
  rintro rfl
  rcases h with ⟨⟨c, t, h, -⟩, -⟩ | ⟨b, h, -⟩ <;> cases h

theorem regular_word {x y : Str} (h : IdentShape x) (hr : Free x) (hy : NotContinued y) :
    parse cfg regularIdentifier sk (x ++ y) = .ok x y := by
  by_cases h1 : Reserved x
  · obtain ⟨m, hm, hs⟩ := hr h1
    exact (C05_missed_accepted cfg sk x y hy m hm hs).2
  · exact C05_other_accepted cfg sk x y h hy h1

/-- An identifier in front of something that does not continue it. -/
theorem ident_ok {x y : Str} (h : Part x) (hy : NotContinued y) (hq : NotHead '"' y) :
    parse cfg identifier sk (x ++ y) = .ok x y := by
  rw [C06_identifier]
  rcases h with ⟨h, hr⟩ | h
  · exact .inl (regular_word h hr hy)
  · right
    rw [C06_delimited_identifier]
    exact ⟨[], rfl, blank_nil _, h, hq⟩

theorem notHead_of_next {q : Char} {y : Str} (hs : isSpace q = false) (h : next y ≠ some q) :
    NotHead q y := by
  intro t e
  subst e
  exact h (next_bare hs)

theorem ident_tok {s x y : Str} (hs : Tok x s) (h : Part x) (hy : NotContinued y)
    (hq : next y ≠ some '"') : parse cfg identifier true (s ++ y) = .ok x y := by
  obtain ⟨b, hb, rfl⟩ := hs
  rw [List.append_assoc, parse_blanks HeadOK.headOK_identifier WF.consumes_identifier hb]
  exact ident_ok h hy (notHead_of_next (by decide) hq)

/-- Nothing but a name or a quote starts an identifier. -/
theorem ident_fail {u : Str} (hu : Bare u) (h1 : NoLetter u) (h2 : ∀ t, u ≠ '"' :: t) :
    parse cfg identifier sk u = .fail := by
  have e1 : parse cfg regularIdentifier false u = .fail := by
    simp only [parse, run_regularIdentifier, skip_bare hu]
    cases u with
    | nil => rfl
    | cons c t => simp [h1 c t rfl]
  have e2 : parse cfg delimitedIdentifier false u = .fail := by
    apply C06_otherwise_fails
    intro a r h
    rw [C06_delimited_identifier] at h
    obtain ⟨b, hb, hB, ⟨d, rfl, -, -⟩, -⟩ := h
    have : b = [] := hB.2 rfl
    subst this
    exact h2 _ hb
  simp only [identifier, parse, run_lexeme, skip_bare hu]
  exact alt_fail e1 e2

/-- A reserved word is no identifier. -/
theorem regular_reserved {x y : Str} (hx : IdentShape x) (hy : NotContinued y) (hr : Reserved x)
    (hm : ¬ ∃ m ∈ missed, SameCI x m) (he : ¬ SameCI x cs!"END") :
    parse cfg regularIdentifier sk (x ++ y) = .fail :=
  C05_reserved_refused_partial cfg sk x y hx hy hr hm (fun h => he h.1)

theorem ident_reserved {x y : Str} (hx : IdentShape x) (hy : NotContinued y) (hr : Reserved x)
    (hm : ¬ ∃ m ∈ missed, SameCI x m) (he : ¬ SameCI x cs!"END") :
    parse cfg identifier sk (x ++ y) = .fail := by
  have hu := identShape_bare (y := y) hx
  have e2 : parse cfg delimitedIdentifier false (x ++ y) = .fail := by
    apply C06_otherwise_fails
    intro a r h
    rw [C06_delimited_identifier] at h
    obtain ⟨b, hb, hB, ⟨d, rfl, -, -⟩, -⟩ := h
    have : b = [] := hB.2 rfl
    subst this
    obtain ⟨c, t, rfl, hc, ht⟩ := hx
    simp only [List.cons_append, List.nil_append, List.cons.injEq] at hb
    obtain ⟨rfl, -⟩ := hb
    have := isLetter_iff.2 hc
    revert this; decide
  simp only [identifier, parse, run_lexeme, skip_bare hu]
  exact alt_fail (regular_reserved hx hy hr hm he) e2

/-! ### Columns -/

theorem tok_next {w s r : Str} {c : Char} {t : Str} (h : Tok w s) (hw : w = c :: t)
    (hc : isSpace c = false) : next (s ++ r) = some c := by
  obtain ⟨b, hb, rfl⟩ := h
  rw [List.append_assoc, next_blanks hb, hw]
  exact next_bare hc

theorem tok_notContinued {w s r : Str} {c : Char} {t : Str} (h : Tok w s) (hw : w = c :: t)
    (hc : isIdChar c = false) : NotContinued (s ++ r) := by
  rw [notContinued_iff]
  obtain ⟨b, hb, rfl⟩ := h
  intro d u e
  cases b with
  | nil => rw [hw] at e; simp at e; rw [← e.1]; exact hc
  | cons x b =>
    simp at e
    have hx := hb x (by simp)
    rw [e.1] at hx
    cases hd : isIdChar d with
    | false => rfl
    | true =>
      rw [isSpace_iff] at hx; rw [isIdChar_toNat] at hd; omega

theorem dot_next {d r : Str} (h : Tok cs!"." d) : next (d ++ r) = some '.' :=
  tok_next h rfl (by decide)

theorem dot_notContinued {d r : Str} (h : Tok cs!"." d) : NotContinued (d ++ r) :=
  tok_notContinued h rfl (by decide)

theorem sym_ok1 {c : Char} {s r : Str} (hc : isSpace c = false) (h : Tok [c] s) :
    parse cfg (sym [c]) true (s ++ r) = .ok [c] r :=
  sym_tok (bare_cons hc) (by simp) h

/-- `. name` -/
theorem dotted {d t y r : Str} (hd : Tok cs!"." d) (ht : Tok y t) (hy : Part y)
    (hr : NotContinued r) (hq : next r ≠ some '"') :
    parse cfg (seqR (sym cs!".") identifier) true (d ++ (t ++ r)) = .ok y r :=
  seqR_ok (sym_ok1 (by decide) hd) (ident_tok ht hy hr hq)

theorem dot_fail {r : Str} (h : next r ≠ some '.') :
    parse cfg (seqR (sym cs!".") identifier) true r = .fail := seqR_fail (sym_fail h)

theorem matchLit_cs_none {w x y : Str} (h : ∀ r, x ++ y ≠ w ++ r) :
    matchLit false w (x ++ y) = none := by
  rw [matchLit_none]
  intro t r e hl
  rw [litOK_cs] at hl; subst hl
  exact h r e

/-- `tap_upload` fails at a name that is not `TAP_UPLOAD`. -/
theorem tap_fail {u : Str} (hu : Bare u) (h : ∀ r, u ≠ cs!"TAP_UPLOAD." ++ r) :
    parse cfg tap sk u = .fail := by
  rw [tap, parse_nt]
  show parse cfg (tapUpload cfg) sk u = .fail
  simp only [tapUpload, parse, run_lexeme, skip_bare hu]
  apply seqR_fail
  simp only [sym, lit_eq, skip]
  have : matchLit false cs!"TAP_UPLOAD." ([] ++ u) = none := matchLit_cs_none (by simpa using h)
  rw [List.nil_append] at this
  simp [this]

theorem prefix_word : ∀ {k x y r : Str}, (∀ c ∈ k, isIdChar c = true) → (∀ c ∈ x, isIdChar c = true) →
    NotContinued y → ∀ {d}, isIdChar d = false → x ++ y = k ++ d :: r → x = k
  | [], [], _, _, _, _, _, _, _, _ => rfl
  | [], c :: x, y, r, _, hx, _, d, hd, e => by
    simp at e
    have := hx c (by simp)
    rw [e.1, hd] at this; cases this
  | c :: k, [], y, r, hk, _, hy, d, hd, e => by
    simp at e
    have h1 := notContinued_iff.1 hy c _ e
    rw [hk c (by simp)] at h1; cases h1
  | c :: k, c' :: x, y, r, hk, hx, hy, d, hd, e => by
    simp at e
    rw [e.1, prefix_word (fun a ha => hk a (by simp [ha])) (fun a ha => hx a (by simp [ha])) hy hd e.2]

theorem _root_.Adql.Spec.NameT.tab {x : Str} (h : NameT x) : Part x ∧ x ≠ cs!"TAP_UPLOAD" := by
  refine ⟨nameT_part h, ?_⟩
  rcases h with h | ⟨z, rfl, -⟩
  · exact h.2.2.2
  · intro e; cases e

theorem tap_part {x y : Str} (h : Part x) (ht : x ≠ cs!"TAP_UPLOAD") (hy : NotContinued y) :
    parse cfg tap sk (x ++ y) = .fail := by
  apply tap_fail (part_bare h)
  intro r e
  rcases h with h | h
  · have h1 : x = cs!"TAP_UPLOAD" :=
      prefix_word (k := cs!"TAP_UPLOAD") (d := '.') (r := r) (by decide) (identShape_all h.1) hy
        (by decide) (by simpa using e)
    exact ht h1
  · have := delimited_noLetter (y := y) h 'T' _ e
    revert this; decide

/-- The uploaded tables of the language are known to the configuration. -/
class Fits (S : Mode) (cfg : Config) : Prop where
  up : ∀ x y, S.up x = some y → cfg.mapping x = some y
  nots : S.nots = true → cfg.residue = false

instance : Fits .core cfg := ⟨nofun, nofun⟩
instance {b : Bool} : Fits ⟨b, fun _ => none, false⟩ cfg := ⟨nofun, nofun⟩
instance {b : Bool} : Fits ⟨b, fun _ => none, !cfg.residue⟩ cfg := ⟨nofun, by simp⟩
instance {b r : Bool} {m : Str → Option Str} : Fits ⟨b, m, false⟩ ⟨m, r⟩ := ⟨fun _ _ h => h, nofun⟩
instance {b n : Bool} {m : Str → Option Str} : Fits ⟨b, m, n⟩ ⟨m, false⟩ := ⟨fun _ _ h => h, fun _ => rfl⟩
instance {b n : Bool} {m : Str → Option Str} : Fits ⟨b, m, n⟩ ⟨m, !n⟩ := ⟨fun _ _ h => h, fun h => by cases h; rfl⟩
instance {b : Bool} : Fits ⟨b, cfg.mapping, !cfg.residue⟩ cfg := ⟨fun _ _ h => h, by simp⟩
instance {S : Mode} [Fits S cfg] : Fits S.out cfg := ⟨nofun, fun h => Fits.nots (S := S) h⟩

theorem nots_off {S : Mode} [i : Fits S cfg] (h : cfg.residue = true) : S.nots = false := by
  cases e : S.nots with
  | false => rfl
  | true => rw [i.nots e] at h; cases h

theorem tap_bare {y : Str} : Bare (cs!"TAP_UPLOAD." ++ y) := bare_cons (by decide)

/-- `tap_upload` finds the mapped name. -/
theorem tap_ok {x y z : Str} (hx : Part x) (hz : cfg.mapping x = some z) (h1 : NotContinued y) (h2 : NotHead '"' y) :
    parse cfg tap sk (cs!"TAP_UPLOAD." ++ (x ++ y)) = .ok z y := by
  have hi : parse cfg identifier false (x ++ y) = .ok x y := ident_ok hx h1 h2
  have hm : matchLit false cs!"TAP_UPLOAD." (cs!"TAP_UPLOAD." ++ (x ++ y)) = some (cs!"TAP_UPLOAD.", x ++ y) := by
    rw [matchLit_iff]; exact ⟨rfl, litOK_cs.2 rfl⟩
  rw [tap, parse_nt]
  show parse cfg (tapUpload cfg) sk _ = _
  simp only [tapUpload, parse, run_lexeme, skip_bare tap_bare]
  refine seqR_ok (cfg := cfg) (by simp only [sym, lit_eq, skip, hm]; rfl) (expect_ok ?_)
  simp only [tapUploadIdentifier, parse, run_lexeme, skip_bare (part_bare hx)]
  simp only [parse] at hi
  simp [step, skip, hi, hz]

/-- The word TAP_UPLOAD is no identifier. -/
theorem ident_tap {y : Str} : parse cfg identifier sk (cs!"TAP_UPLOAD." ++ y) = .fail := by
  have : cs!"TAP_UPLOAD." ++ y = cs!"TAP_UPLOAD" ++ ('.' :: y) := rfl
  rw [this]
  refine ident_reserved ?_ ?_ ⟨cs!"TAP_UPLOAD", by decide +kernel, rfl⟩ ?_ (by unfold SameCI; decide)
  · exact ⟨'T', _, rfl, isLetter_iff.1 (by decide), fun d hd => isIdChar_iff.1
      (List.all_eq_true.1 (by decide : (cs!"AP_UPLOAD".all isIdChar) = true) d hd)⟩
  · rw [notContinued_iff]; intro c t hc; cases hc; decide
  · rintro ⟨m, hm, hs⟩
    have : (missed.all fun m => cs!"TAP_UPLOAD".map lowerC != m.map lowerC) = true := by decide
    have := List.all_eq_true.1 this m hm
    simp only [bne_iff_ne] at this
    exact this hs

/-- What may follow a column. -/
def ColEnd (r : Str) : Prop := NotContinued r ∧ next r ≠ some '"' ∧ next r ≠ some '.'

theorem col_ok' {S : Mode} [Fits S cfg] {s r : Str} {c : ColRef} (h : ColT S s c) (hr1 : NotContinued r) (hr2 : next r ≠ some '"')
    (hr3 : parse cfg (seqR (sym cs!".") identifier) true r = .fail) :
    parse cfg columnReference true (s ++ r) = .ok c r := by
  have q1 : ∀ {d r : Str}, Tok cs!"." d → next (d ++ r) ≠ some '"' := by
    intro d r hd; rw [dot_next hd]; decide
  unfold columnReference
  cases h with
  | @col s x hs hx =>
    have hi : parse cfg identifier true (s ++ r) = .ok x r := ident_tok hs (nameT_part hx) hr1 hr2
    rw [alt_right (map_fail (seq_fail2 hi (seq_fail hr3))),
      alt_right (map_fail (seq_fail2 hi (seq_fail hr3)))]
    have ha : parse cfg (.alt tap identifier) true (s ++ r) = .ok x r := by
      obtain ⟨b, hb, rfl⟩ := hs
      rw [List.append_assoc, parse_blanks (by simp [P.headOK, tap]) (by simp [P.consumes, tap]) hb]
      rw [alt_right (tap_part hx.tab.1 hx.tab.2 hr1)]
      exact ident_ok (nameT_part hx) hr1 (notHead_of_next (by decide) hr2)
    rw [alt_right (map_fail (seq_fail2 ha hr3))]
    exact map_ok hi
  | @qc s x d t y hs hx hd ht hy =>
    simp only [List.append_assoc]
    have hi : parse cfg identifier true (s ++ (d ++ (t ++ r))) = .ok x (d ++ (t ++ r)) :=
      ident_tok hs (nameT_part hx) (dot_notContinued hd) (q1 hd)
    have h2 := dotted (cfg := cfg) hd ht hy hr1 hr2
    rw [alt_right (map_fail (seq_fail2 hi (seq_fail2 h2 (seq_fail hr3)))),
      alt_right (map_fail (seq_fail2 hi (seq_fail2 h2 hr3)))]
    have ha : parse cfg (.alt tap identifier) true (s ++ (d ++ (t ++ r))) = .ok x (d ++ (t ++ r)) := by
      obtain ⟨b, hb, rfl⟩ := hs
      rw [List.append_assoc, parse_blanks (by simp [P.headOK, tap]) (by simp [P.consumes, tap]) hb]
      rw [alt_right (tap_part hx.tab.1 hx.tab.2 (dot_notContinued hd))]
      exact ident_ok (nameT_part hx) (dot_notContinued hd) (notHead_of_next (by decide) (q1 hd))
    exact alt_left (map_ok (f := fun x : Str × Str => ColRef.qc x.1 x.2) (seq_ok ha h2))
  | @sqc s x d t y d' u z hs hx hd ht hy hd' hu hz =>
    simp only [List.append_assoc]
    have hi : parse cfg identifier true (s ++ (d ++ (t ++ (d' ++ (u ++ r))))) = .ok x _ :=
      ident_tok hs (nameT_part hx) (dot_notContinued hd) (q1 hd)
    have h2 := dotted (cfg := cfg) hd ht hy (dot_notContinued (r := u ++ r) hd') (q1 hd')
    have h3 := dotted (cfg := cfg) hd' hu hz hr1 hr2
    rw [alt_right (map_fail (seq_fail2 hi (seq_fail2 h2 (seq_fail2 h3 hr3))))]
    exact alt_left (map_ok (f := fun x : Str × Str × Str => ColRef.sqc x.1 x.2.1 x.2.2)
      (seq_ok hi (seq_ok h2 h3)))
  | @csqc s x d t y d' u z d'' v w hs hx hd ht hy hd' hu hz hd'' hv hw =>
    simp only [List.append_assoc]
    have hi : parse cfg identifier true (s ++ (d ++ (t ++ (d' ++ (u ++ (d'' ++ (v ++ r))))))) = .ok x _ :=
      ident_tok hs (nameT_part hx) (dot_notContinued hd) (q1 hd)
    have h2 := dotted (cfg := cfg) hd ht hy (dot_notContinued (r := u ++ (d'' ++ (v ++ r))) hd') (q1 hd')
    have h3 := dotted (cfg := cfg) hd' hu hz (dot_notContinued (r := v ++ r) hd'') (q1 hd'')
    have h4 := dotted (cfg := cfg) hd'' hv hw hr1 hr2
    exact alt_left (map_ok (f := fun x : Str × Str × Str × Str => ColRef.csqc x.1 x.2.1 x.2.2.1 x.2.2.2)
      (seq_ok hi (seq_ok h2 (seq_ok h3 h4))))
  | @up s x y d t z hs hx hd ht hz =>
    obtain ⟨b, hb, rfl⟩ := hs
    simp only [List.append_assoc]
    have hi : parse cfg identifier true (b ++ (cs!"TAP_UPLOAD." ++ (x ++ (d ++ (t ++ r))))) = .fail := by
      rw [parse_blanks rfl rfl hb]; exact ident_tap
    rw [alt_right (map_fail (seq_fail hi)), alt_right (map_fail (seq_fail hi))]
    have h2 := dotted (cfg := cfg) hd ht hz hr1 hr2
    have ha : parse cfg (.alt tap identifier) true (b ++ (cs!"TAP_UPLOAD." ++ (x ++ (d ++ (t ++ r))))) = .ok y (d ++ (t ++ r)) := by
      rw [parse_blanks (by simp [P.headOK, tap]) (by simp [P.consumes, tap]) hb]
      exact alt_left (tap_ok hx.1 (Fits.up _ _ hx.2) (dot_notContinued hd) (notHead_of_next (by decide) (q1 hd)))
    exact alt_left (map_ok (f := fun x : Str × Str => ColRef.qc x.1 x.2) (seq_ok ha h2))

theorem col_ok {S : Mode} [Fits S cfg] {s r : Str} {c : ColRef} (h : ColT S s c) (hr : ColEnd r) :
    parse cfg columnReference true (s ++ r) = .ok c r := col_ok' h hr.1 hr.2.1 (dot_fail hr.2.2)

end Adql.Fwd
