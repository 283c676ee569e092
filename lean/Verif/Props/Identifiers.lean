import Verif.Model.LexQuoted

/-!
# C04, C05, C06: identifiers
-/

namespace Adql

open Spec

/-- **C04.** An unquoted identifier is accepted at a position exactly when, after blanks (if the
skipper is active), a maximal run letter(letter|digit|_)* starts there which is not a reserved word
that the code recognises; the attribute is that run verbatim.  `END` in front of
`-EXEC<word character>` is the only case in which the text after the word matters. -/
theorem C04_regular_identifier (cfg : Config) (sk : Bool) (s a r : Str) :
    parse cfg regularIdentifier sk s = .ok a r ↔
      ∃ b, s = b ++ (a ++ r) ∧ Blank sk b ∧ IdentShape a ∧ NotContinued r ∧
        (Reserved a → (∃ m ∈ missed, SameCI a m) ∨ EndExec a r) := by
  have kw : ∀ c u r, isLetter c = true → (∀ d ∈ u, isIdChar d = true) → NotContinued r →
      (keywordAt (c :: u ++ r) = false ↔
        (Reserved (c :: u) → (∃ m ∈ missed, SameCI (c :: u) m) ∨ EndExec (c :: u) r)) := by
    intro c u r hc hu hr
    have hall : (c :: u).all isIdChar = true := by
      simp only [List.all_cons, Bool.and_eq_true, List.all_eq_true]
      exact ⟨isLetter_isIdChar hc, hu⟩
    rw [← Bool.not_eq_true, keywordAt_word hall (notContinued_iff.1 hr), kwWord_iff hall]
    constructor
    · intro h hR
      by_cases h1 : ∃ m ∈ missed, SameCI (c :: u) m
      · exact .inl h1
      · by_cases h2 : EndExec (c :: u) r
        · exact .inr h2
        · exact absurd ⟨⟨hR, h1⟩, h2⟩ h
    · rintro h ⟨⟨hR, h1⟩, h2⟩
      rcases h hR with h | h
      · exact h1 h
      · exact h2 h
  simp only [parse, run_regularIdentifier]
  constructor
  · intro h
    obtain ⟨b, hb, hB⟩ := skip_blank sk s
    cases hs : skip sk s with
    | nil => rw [hs] at h; cases h
    | cons c u =>
      rw [hs] at h
      simp only at h
      split at h
      · rename_i hc
        simp only [Bool.and_eq_true, Bool.not_eq_true'] at hc
        cases h
        have happ : u.takeWhile isIdChar ++ u.dropWhile isIdChar = u :=
          List.takeWhile_append_dropWhile
        have hall : ∀ d ∈ u.takeWhile isIdChar, isIdChar d = true := takeWhile_all _ _
        have hnc : NotContinued (u.dropWhile isIdChar) :=
          notContinued_iff.2 fun d t hd => dropWhile_head hd
        refine ⟨b, ?_, hB, ?_, hnc, ?_⟩
        · rw [List.cons_append, happ, ← hs, ← hb]
        · exact ⟨c, _, rfl, isLetter_iff.1 hc.1, fun d hd => isIdChar_iff.1 (hall d hd)⟩
        · rw [← kw c _ _ hc.1 hall hnc, List.cons_append, happ]; exact hc.2
      · cases h
  · rintro ⟨b, rfl, hB, ⟨c, u, rfl, hc, hu⟩, hnc, hk⟩
    have hc' : isLetter c = true := isLetter_iff.2 hc
    have hu' : ∀ d ∈ u, isIdChar d = true := fun d hd => isIdChar_iff.2 (hu d hd)
    have hsk : skip sk (b ++ (c :: u ++ r)) = c :: (u ++ r) := by
      apply skip_eq hB
      intro d t hd
      simp at hd; rw [← hd.1]; exact isLetter_not_space hc'
    have hkw := (kw c u r hc' hu' hnc).2 hk
    obtain ⟨h1, h2⟩ := takeWhile_eq hu' (notContinued_iff.1 hnc)
    rw [hsk]
    simp only
    rw [List.cons_append] at hkw
    simp [hc', hkw, h1, h2]

/-- Otherwise the rule fails (it never throws). -/
theorem C04_otherwise_fails (cfg : Config) (sk : Bool) (s : Str)
    (h : ∀ a r, parse cfg regularIdentifier sk s ≠ .ok a r) :
    parse cfg regularIdentifier sk s = .fail := by
  simp only [parse, run_regularIdentifier] at h ⊢
  cases hs : skip sk s with
  | nil => rfl
  | cons c r =>
    simp only [hs] at h ⊢
    split
    · rename_i hc; rw [if_pos hc] at h; exact absurd rfl (h _ _)
    · rfl

/-- the hypotheses are met by `  ra_2000 FROM` -/
example : ∃ b, cs!"  ra_2000 FROM" = b ++ (cs!"ra_2000" ++ cs!" FROM") ∧ Blank true b ∧
    IdentShape cs!"ra_2000" ∧ NotContinued cs!" FROM" ∧
    (Reserved cs!"ra_2000" → (∃ m ∈ missed, SameCI cs!"ra_2000" m) ∨
      EndExec cs!"ra_2000" cs!" FROM") :=
  (C04_regular_identifier ⟨fun _ => none, false⟩ true _ _ _).1 (by kernel_rfl)

/-- **C05, what holds.** A reserved word (in any letter case, alone or followed by any text that does
not continue the word) is refused as an identifier, unless it is one of the six words of
`Spec.missed` or the `END-EXEC` corner case applies. -/
theorem C05_reserved_refused_partial (cfg : Config) (sk : Bool) (w r : Str) (hw : IdentShape w)
    (hr : NotContinued r) (hR : Reserved w) (hm : ¬ ∃ m ∈ missed, SameCI w m)
    (he : ¬ EndExec w r) : parse cfg regularIdentifier sk (w ++ r) = .fail := by
  apply C04_otherwise_fails
  intro a u h
  rw [C04_regular_identifier] at h
  obtain ⟨b, h1, hB, ⟨c, t, rfl, hc, ht⟩, hu, hk⟩ := h
  obtain ⟨c', t', rfl, hc', ht'⟩ := hw
  have hb : b = [] := by
    cases b with
    | nil => rfl
    | cons d b =>
      exfalso
      simp at h1
      have := hB.1 d (by simp)
      rw [← h1.1] at this
      rw [isLetter_not_space (isLetter_iff.2 hc')] at this; cases this
  subst hb
  have key : ∀ (x y : Str) (u v : Str), (∀ d ∈ x, IdChar d) → (∀ d ∈ y, IdChar d) →
      NotContinued u → NotContinued v → x ++ u = y ++ v → x = y ∧ u = v := by
    intro x y u v hx hy hu hv hxy
    have e1 := takeWhile_eq (fun d hd => isIdChar_iff.2 (hx d hd)) (notContinued_iff.1 hu)
    have e2 := takeWhile_eq (fun d hd => isIdChar_iff.2 (hy d hd)) (notContinued_iff.1 hv)
    rw [hxy] at e1
    exact ⟨e1.1.symm.trans e2.1, e1.2.symm.trans e2.2⟩
  obtain ⟨h2, rfl⟩ := key (c' :: t') (c :: t) r u
    (by intro d hd; rcases List.mem_cons.1 hd with rfl | hd
        · exact .inl hc'
        · exact ht' d hd)
    (by intro d hd; rcases List.mem_cons.1 hd with rfl | hd
        · exact .inl hc
        · exact ht d hd) hr hu (by simpa using h1)
  rw [← h2] at hk
  rcases hk hR with h | h
  · exact hm h
  · exact he h

/-- **C05, every other word is accepted**: in particular no word is refused because it merely begins
with a reserved word. -/
theorem C05_other_accepted (cfg : Config) (sk : Bool) (w r : Str) (hw : IdentShape w)
    (hr : NotContinued r) (hR : ¬ Reserved w) :
    parse cfg regularIdentifier sk (w ++ r) = .ok w r := by
  rw [C04_regular_identifier]
  exact ⟨[], rfl, blank_nil _, hw, hr, fun h => absurd h hR⟩

/-- **C05, violation**: each of the six words is reserved and is accepted as an identifier, in every
letter case and whatever follows. -/
theorem C05_missed_accepted (cfg : Config) (sk : Bool) (w r : Str) (hr : NotContinued r)
    (m : Str) (hm : m ∈ missed) (hs : SameCI w m) :
    Reserved w ∧ parse cfg regularIdentifier sk (w ++ r) = .ok w r := by
  have hmw : m ∈ words := by
    have : (missed.all fun k => words.contains k) = true := by decide +kernel
    rw [List.all_eq_true] at this
    exact List.contains_iff_mem.1 (this m hm)
  refine ⟨⟨m, hmw, hs⟩, ?_⟩
  rw [C04_regular_identifier]
  refine ⟨[], rfl, blank_nil _, ?_, hr, fun _ => .inl ⟨m, hm, hs⟩⟩
  have hshape : (missed.all fun k => match k with
      | [] => false
      | c :: t => isLetter c && t.all isIdChar) = true := by decide +kernel
  rw [List.all_eq_true] at hshape
  have := hshape m hm
  cases m with
  | nil => cases this
  | cons c t =>
    simp only [Bool.and_eq_true, List.all_eq_true] at this
    cases w with
    | nil => simp [SameCI] at hs
    | cons d w =>
      simp only [SameCI, List.map_cons, List.cons.injEq] at hs
      refine ⟨d, w, rfl, ?_, ?_⟩
      · rw [← isLetter_iff]
        have h1 := this.1
        rw [isLetter_toNat] at h1 ⊢
        have h2 := congrArg Char.toNat hs.1
        rw [lowerC_toNat, lowerC_toNat] at h2
        split at h2 <;> split at h2 <;> omega
      · intro x hx
        rw [← isIdChar_iff, ← isIdChar_lowerC]
        have : lowerC x ∈ w.map lowerC := List.mem_map_of_mem hx
        rw [hs.2] at this
        obtain ⟨y, hy, hxy⟩ := List.mem_map.1 this
        rw [← hxy, isIdChar_lowerC]
        exact (by assumption : _ ∧ ∀ x ∈ t, isIdChar x = true).2 y hy

/-- `top` is reserved and accepted, `Select` is reserved and refused, `selector` is accepted. -/
example (cfg : Config) : parse cfg regularIdentifier true cs!"top FROM" = .ok cs!"top" cs!" FROM" :=
  (C05_missed_accepted cfg true cs!"top" cs!" FROM" (by intro c t h; simp at h; rw [← h.1]
                                                        simp only [← isIdChar_iff]; decide)
    cs!"TOP" (by decide) (by unfold SameCI; decide)).2

/-- **C06.** Delimited identifiers: accepted exactly for `"` body `"` with a non-empty body made of
characters other than `"` and doubled `"`, ending at the first undoubled quote, kept verbatim. -/
theorem C06_delimited_identifier (cfg : Config) (sk : Bool) (s a r : Str) :
    parse cfg delimitedIdentifier sk s = .ok a r ↔
      ∃ b, s = b ++ (a ++ r) ∧ Blank sk b ∧ Delimited a ∧ NotHead '"' r := by
  simp only [parse, run_delimited]
  constructor
  · intro h
    obtain ⟨b, hb, hB⟩ := skip_blank sk s
    cases hs : skip sk s with
    | nil => rw [hs] at h; cases h
    | cons c u =>
      rw [hs] at h
      simp only at h
      split at h
      · rename_i hc
        obtain ⟨rfl, h1, h2⟩ := hc
        rcases qbody_rest '"' u with h3 | ⟨v, h3, h4⟩
        · exact absurd h3 h2
        · rw [h3] at h; cases h
          refine ⟨b, ?_, hB, ⟨_, rfl, h1, qbody_body _ _⟩, h4⟩
          have := qbody_append '"' u
          rw [h3] at this
          rw [hb, hs]
          congr 1
          simp only [List.cons_append, List.cons.injEq, true_and, List.append_assoc,
            List.nil_append, List.drop_succ_cons, List.drop_zero]
          exact this.symm
      · cases h
  · rintro ⟨b, rfl, hB, ⟨u, rfl, h1, h2⟩, hr⟩
    have hsk : skip sk (b ++ ('"' :: u ++ ['"'] ++ r)) = '"' :: (u ++ '"' :: r) := by
      have := skip_eq (t := '"' :: (u ++ '"' :: r)) hB
        (by intro d t hd; simp at hd; rw [← hd.1]; decide)
      simpa using this
    rw [hsk]
    simp only [qbody_of_body h2 hr]
    simp [h1]

/-- Otherwise the rule fails. -/
theorem C06_otherwise_fails (cfg : Config) (sk : Bool) (s : Str)
    (h : ∀ a r, parse cfg delimitedIdentifier sk s ≠ .ok a r) :
    parse cfg delimitedIdentifier sk s = .fail := by
  simp only [parse, run_delimited] at h ⊢
  cases hs : skip sk s with
  | nil => rfl
  | cons c r =>
    simp only [hs] at h ⊢
    split
    · rename_i hc; rw [if_pos hc] at h; exact absurd rfl (h _ _)
    · rfl

/-- the hypotheses are met by `"SELECT ""x"" ("` followed by ` FROM` -/
example : Delimited cs!"\"SELECT \"\"x\"\" (\"" ∧ NotHead '"' cs!" FROM" := by
  have h : parse ⟨fun _ => none, false⟩ delimitedIdentifier true
      (cs!"\"SELECT \"\"x\"\" (\"" ++ cs!" FROM") = .ok cs!"\"SELECT \"\"x\"\" (\"" cs!" FROM" := by
    kernel_rfl
  obtain ⟨b, -, -, h1, h2⟩ := (C06_delimited_identifier _ _ _ _ _).1 h
  exact ⟨h1, h2⟩

/-- An identifier is an unquoted or a delimited one. -/
theorem C06_identifier (cfg : Config) (sk : Bool) (s a r : Str) :
    parse cfg identifier sk s = .ok a r ↔
      parse cfg regularIdentifier sk s = .ok a r ∨ parse cfg delimitedIdentifier sk s = .ok a r := by
  have e1 : parse cfg identifier sk s =
      (parse cfg regularIdentifier sk s).orElse (parse cfg delimitedIdentifier sk s) := by
    simp only [parse, identifier, run_lexeme, run_alt]
    rfl
  rw [e1]
  by_cases h : ∃ a r, parse cfg regularIdentifier sk s = .ok a r
  · obtain ⟨a', r', h⟩ := h
    rw [h]
    simp only [Res.orElse_ok]
    constructor
    · exact .inl
    · rintro (h' | h')
      · exact h'
      · exfalso
        rw [C04_regular_identifier] at h
        rw [C06_delimited_identifier] at h'
        obtain ⟨b, e, hB, ⟨c, t, rfl, hc, -⟩, -⟩ := h
        obtain ⟨b', e', hB', ⟨u, rfl, -⟩, -⟩ := h'
        have s1 : skip sk s = c :: t ++ r' := by
          rw [e]; apply skip_eq hB
          intro d v hd; simp at hd; rw [← hd.1]; exact isLetter_not_space (isLetter_iff.2 hc)
        have s2 : skip sk s = '"' :: u ++ ['"'] ++ r := by
          rw [e']; apply skip_eq hB'
          intro d v hd; simp at hd; rw [← hd.1]; decide
        rw [s1] at s2
        simp at s2
        rw [← isLetter_iff, s2.1] at hc
        revert hc; decide
  · have hf := C04_otherwise_fails cfg sk s (fun a r h' => h ⟨a, r, h'⟩)
    rw [hf]
    simp

end Adql
