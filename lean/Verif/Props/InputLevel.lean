import Verif.Props.Blanks
import Verif.Props.Meaning

/-!
# C11 and C36 in terms of the text given to the constructor

The preprocessing interprets `$`, so these need texts without `$`.
-/

namespace Adql

open Spec

/-! ### C11 -/

theorem prefix_split {c : Char} {y : Str} : ∀ {w x : Str}, c ∉ w → w <+: x ++ c :: y → w <+: x
  | [], x, _, _ => List.nil_prefix
  | d :: w, [], hc, h => by
    simp only [List.nil_append, List.cons_prefix_cons] at h
    exact absurd (by simp [h.1]) hc
  | d :: w, e :: x, hc, h => by
    simp only [List.cons_append, List.cons_prefix_cons] at h ⊢
    exact ⟨h.1, prefix_split (fun h' => hc (by simp [h'])) h.2⟩

/-- A word without the character `c` that occurs in `x ++ c :: y` occurs in `x` or in `y`. -/
theorem infix_split {w : Str} {c : Char} (hc : c ∉ w) {y : Str} : ∀ {x : Str},
    w <:+: x ++ c :: y → w <:+: x ∨ w <:+: y
  | [], h => by
    rcases List.infix_cons_iff.1 h with h | h
    · exact .inl (prefix_split (x := []) hc h).isInfix
    · exact .inr h
  | d :: x, h => by
    rw [List.cons_append, List.infix_cons_iff, ← List.cons_append] at h
    rcases h with h | h
    · exact .inl (prefix_split hc h).isInfix
    · rcases infix_split hc h with h | h
      · exact .inl (h.trans (List.suffix_cons _ _).isInfix)
      · exact .inr h

/-- Preprocessing a text without `$` does not create an occurrence of a word without blank and `W`
that does not occur in AND. -/
theorem preprocess_infix {s t w : Str} (h : preprocess s = .ok t) (hd : '$' ∉ s) (h1 : ' ' ∉ w)
    (h2 : 'W' ∉ w) (h3 : ¬ w <:+: cs!"AND") (h4 : ¬ w <:+: cs!"HERE") (hw : w <:+: t) : w <:+: s := by
  rcases C32_no_dollar_partial h hd with rfl | ⟨P, v, L, G, R, T, L', G', rfl, hwf, hst, rfl⟩
  · exact hw
  · have hL : w <:+: L → w <:+: P ++ v := by
      rintro ⟨x, y, rfl⟩
      obtain ⟨k, b1, a, b2, X, rfl, -⟩ := hwf
      exact ⟨P ++ k ++ x, y ++ (b1 ++ (a ++ (b2 ++ (G ++ X)))), by simp⟩
    have hG : w <:+: G → w <:+: P ++ v := by
      rintro ⟨x, y, rfl⟩
      obtain ⟨k, b1, a, b2, X, rfl, -⟩ := hwf
      exact ⟨P ++ k ++ L ++ b1 ++ a ++ b2 ++ x, y ++ X, by simp⟩
    have hL' : w <:+: L' → w <:+: P ++ v := by
      intro h
      rcases hst with ⟨rfl, -⟩ | ⟨rfl, -⟩
      · exact hL h
      · exact hL (h.trans (List.suffix_cons _ _).isInfix)
    have hG' : w <:+: G' → w <:+: P ++ v := by
      intro h
      rcases hst with ⟨-, rfl⟩ | ⟨-, rfl⟩
      · exact hG h
      · exact hG (h.trans (List.prefix_append _ _).isInfix)
    rcases infix_split (c := 'W') (x := P) h2 hw with hw | hw
    · exact hw.trans (List.prefix_append _ _).isInfix
    · rcases infix_split (c := ' ') (x := cs!"HERE") h1 (by simpa using hw) with hw | hw
      · exact absurd hw h4
      · rcases infix_split (c := ' ') (x := G') h1 hw with hw | hw
        · exact hG' hw
        · rcases infix_split (c := ' ') (x := cs!"AND") h1 hw with hw | hw
          · exact absurd hw h3
          · cases R with
            | none => exact hL' (by simpa using hw)
            | some R =>
              rcases infix_split (c := ' ') (x := L') h1 hw with hw | hw
              · exact hL' hw
              · rcases infix_split (c := ' ') (x := cs!"AND") h1 hw with hw | hw
                · exact absurd hw h3
                · obtain ⟨x, y, rfl⟩ := hw
                  obtain ⟨k, b1, a, b2, X, rfl, -, -, -, -, -, -, -, ⟨b3, a', b4, rfl, -⟩, -⟩ := hwf
                  exact ⟨P ++ k ++ L ++ b1 ++ a ++ b2 ++ G ++ b3 ++ a' ++ b4 ++ x, y ++ T, by simp⟩

/-- **C11** in terms of the text given: without `$` and without `TAP_UPLOAD.` the mapping is
irrelevant. -/
theorem C11_input (cfg cfg' : Config) (hres : cfg.residue = cfg'.residue) (input : Str)
    (hd : '$' ∉ input) (h : ¬ cs!"TAP_UPLOAD." <:+: input) :
    construct cfg input = construct cfg' input :=
  C11_mapping_irrelevant cfg cfg' hres input fun _ hs ht =>
    h (preprocess_infix hs hd (by decide) (by decide) (by decide) (by decide) ht)

/-- Texts with `$` are an exception: preprocessing may create `TAP_UPLOAD.`. -/
example : ¬ cs!"TAP_UPLOAD." <:+: cs!"SELECT a FROM t WHERE TAP_UPLOAD$3.x=1 AND CONTAINS(p,q)=1" ∧
    preprocess cs!"SELECT a FROM t WHERE TAP_UPLOAD$3.x=1 AND CONTAINS(p,q)=1" =
      .ok cs!"SELECT a FROM t WHERE CONTAINS(p,q)=1 AND TAP_UPLOAD.x=1" :=
  ⟨by decide, by kernel_rfl⟩

/-! ### C36 -/

/-- Blanks in front of a text without `$` stay in front of the preprocessed text. -/
theorem preprocess_blanks {b s : Str} (hb : ∀ c ∈ b, isSpace c = true) (hd : '$' ∉ s) :
    preprocess (b ++ s) = (preprocess s).map (b ++ ·) := by
  unfold preprocess
  rw [search_blanks hb]
  cases hm : geomRegex.search [] s with
  | none => rfl
  | some m =>
    obtain ⟨P, v, L, G, R, T, rfl, hw, rfl, -⟩ := search_some hm
    have hv : '$' ∉ v := fun hv => hd (by simp [hv])
    simp only [Option.map_some, tweakInputString, str_one, str_two, str_three]
    cases hc : checkAndAdjustParens L G with
    | error e => rfl
    | ok x =>
      obtain ⟨L', G'⟩ := x
      simp only [Except.map]
      have hr := replacement_dollar (R := R.getD []) (check_stripped hc)
        (fun x => hv ((mem_where hw).1 x)) (fun x => hv ((mem_where hw).2.1 x))
        (fun x => hv ((mem_where hw).2.2.1 x))
      rw [fmtExpand_plain _ _ _ hr, fmtExpand_plain _ _ _ hr]
      simp

/-- **C36** for the constructor: blanks in front of a text without `$` do not change the outcome,
except that the message about a missing SELECT quotes them. -/
theorem C36_construct (cfg : Config) (b s : Str) (hb : ∀ c ∈ b, isSpace c = true) (hd : '$' ∉ s) :
    construct cfg (b ++ s) = construct cfg s ∨
      ∃ t, construct cfg (b ++ s) = .error (.expectingSelect (b ++ t)) ∧
        construct cfg s = .error (.expectingSelect t) := by
  unfold construct
  rw [preprocess_blanks hb hd]
  cases preprocess s with
  | error e => exact .inl rfl
  | ok t =>
    rcases C36_leading_blanks cfg b t hb with h | ⟨h1, h2⟩
    · exact .inl h
    · exact .inr ⟨t, h1, h2⟩

/-- **C36**: a text that is accepted is accepted with blanks in front, as the same query. -/
theorem C36_same_query (cfg : Config) (b s : Str) (hb : ∀ c ∈ b, isSpace c = true) (hd : '$' ∉ s)
    (q : QuerySpec) : construct cfg (b ++ s) = .ok q ↔ construct cfg s = .ok q := by
  rcases C36_construct cfg b s hb hd with h | ⟨t, h1, h2⟩
  · rw [h]
  · rw [h1, h2]; simp

/-- non-trivial case: a rewritten text, with a line end and blanks in front -/
example : preprocess cs!"\n  SELECT a FROM t WHERE x>1 AND CONTAINS(b,c)=1" =
    .ok cs!"\n  SELECT a FROM t WHERE CONTAINS(b,c)=1 AND x>1" := by kernel_rfl

end Adql
