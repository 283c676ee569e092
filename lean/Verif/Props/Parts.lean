import Verif.Spec.Parts
import Verif.Props.Lookup

/-!
# C67: every value can be put into a query safely
-/

namespace Adql

open Spec Fwd

variable {fmt : Str → Str} {nt : Bool} {M : Str → Prop}

theorem quoted_part (v : Str) : StrPart (quoted v) := ⟨doubled '\'' v, rfl, doubled_body _ v⟩

theorem inParts_tail : ∀ v : Str, v ≠ [] → ∃ p u, inParts v = p ++ u ∧ StrPart p ∧ StrTail u
  | [], h => absurd rfl h
  | [c], _ => ⟨quoted [c], [], by simp [inParts], quoted_part _, .nil⟩
  | c :: d :: r, _ => by
    obtain ⟨p, u, h, hp, hu⟩ := inParts_tail (d :: r) nofun
    exact ⟨quoted [c], ['\n'] ++ (p ++ u), by simp [inParts, h], quoted_part _, .cons (.one .newline) hp hu⟩

theorem litValue_parts : ∀ v : Str, litValue false (inParts v) = v
  | [] => by kernel_rfl
  | [c] => by
    by_cases h : c = '\''
    · subst h; kernel_rfl
    · simp [inParts, quoted, doubled, litValue, h]
  | c :: d :: r => by
    have ih := litValue_parts (d :: r)
    by_cases h : c = '\''
    · subst h
      simp [inParts, quoted, doubled, litValue, ih]
    · simp [inParts, quoted, doubled, litValue, h, ih]

/-- **C67.** The literal in parts is a string literal, and its value is the one it was made of. -/
theorem C67_literal (v : Str) : StrLit (inParts v) ∧ litValue false (inParts v) = v := by
  refine ⟨?_, litValue_parts v⟩
  cases v with
  | nil => exact ⟨quoted [], [], rfl, quoted_part [], .nil⟩
  | cons c r => exact inParts_tail (c :: r) nofun

theorem litValue_doubled : ∀ v : Str, litValue true (doubled '\'' v ++ ['\'']) = v
  | [] => by kernel_rfl
  | c :: r => by
    have ih := litValue_doubled r
    unfold doubled
    split
    · rename_i h
      subst h
      simp only [List.cons_append, litValue, if_true, ih]
    · rename_i h
      cases hr : doubled '\'' r ++ ['\''] with
      | nil => simp at hr
      | cons d t => rw [List.cons_append, hr, litValue, if_neg h, ← hr, ih]

/-- The literals of C65 have their values in this sense, too. -/
theorem C67_quoted (v : Str) : litValue false (quoted v) = v := litValue_doubled v

/-- **C67.** The comparison of a well-made expression with a string literal is a well-made condition. -/
theorem C67_compared {e : VENB} (he : All (WellMade nt M) (.venb e)) (hn : nt = false → prefixCI cs!"NOT" (firstExpr e) = false) {op : Str}
    (ho : op ∈ [cs!"=", cs!"!=", cs!"<>", cs!"<=", cs!">=", cs!"<", cs!">"]) {x : Str} (hx : StrLit x) : All (WellMade nt M) (.sc (comparedLit e op x)) := by
  refine all_iff.2 ⟨⟨trivial, trivial, trivial⟩, ?_⟩
  rintro m rfl
  refine all_iff.2 ⟨⟨.inl rfl, trivial, hn⟩, ?_⟩
  rintro m rfl
  refine all_iff.2 ⟨⟨trivial, trivial, trivial⟩, ?_⟩
  rintro m rfl
  refine all_iff.2 ⟨⟨ho, trivial, trivial⟩, ?_⟩
  rintro m (rfl | rfl)
  · exact he
  refine all_iff.2 ⟨⟨trivial, trivial, trivial⟩, ?_⟩
  rintro m rfl
  refine all_iff.2 ⟨⟨trivial, trivial, trivial⟩, ?_⟩
  rintro m (rfl | ⟨t, ht, rfl⟩)
  · refine all_iff.2 ⟨⟨by simp [Ranges], trivial, trivial⟩, ?_⟩
    rintro m rfl
    refine all_iff.2 ⟨⟨trivial, trivial, trivial⟩, ?_⟩
    rintro m rfl
    refine all_iff.2 ⟨⟨trivial, trivial, trivial⟩, ?_⟩
    rintro m (rfl | ⟨t, ht, rfl⟩)
    · exact all_iff.2 ⟨⟨.inr (.inl hx), trivial, trivial⟩, fun _ (h : False) => h.elim⟩
    · cases ht
  · cases ht

/-- A text is too short for a word. -/
theorem contains_short {w a : Str} (h : a.length < w.length) : ¬ Contains w a := by
  rintro ⟨u, k, z, rfl, hk⟩
  have : k.length = w.length := by simpa using congrArg List.length hk
  simp at h
  omega

/-- A word is not in a literal in parts. -/
theorem contains_parts {w b : Str} (hw : '\'' ∉ w.map lowerC) (hl : 2 ≤ w.length) : ∀ (v : Str) {a : Str}, Contains w (a ++ (inParts v ++ b)) →
    Contains w a ∨ Contains w b := by
  have hq : ∀ {a c b}, Contains w (a ++ (quoted [c] ++ b)) → Contains w a ∨ Contains w b := by
    intro a c b h
    rw [← List.append_assoc] at h
    rcases contains_literal hw h with h | h | h
    · exact .inl h
    · exact absurd h (contains_short (by simp; omega))
    · exact .inr h
  intro v
  induction v with
  | nil =>
    intro a h
    rcases contains_literal (v := []) hw (by rw [List.append_assoc]; exact h) with h | h | h
    · exact .inl h
    · exact absurd h (contains_short (by simp; omega))
    · exact .inr h
  | cons c r ih =>
    intro a h
    cases r with
    | nil => exact hq h
    | cons d r =>
      rw [inParts, List.append_assoc] at h
      rcases hq h with h | h
      · exact .inl h
      · rcases ih (a := ['\n']) h with h | h
        · exact absurd h (contains_short (by simp; omega))
        · exact .inr h

/-- **C67.** The constructor does not rewrite a text with a literal in parts, whatever the value is, if what is around it does not contain one
of the words CONTAINS and INTERSECTS. -/
theorem C67_constructor (cfg : Config) (v : Str) {a b : Str} (h : ∀ s ∈ [a, b], ¬ Contains cs!"CONTAINS" s ∧ ¬ Contains cs!"INTERSECTS" s) :
    construct cfg (a ++ (inParts v ++ b)) = parseIt cfg (a ++ (inParts v ++ b)) := by
  have key : ∀ w : Str, '\'' ∉ w.map lowerC → 2 ≤ w.length → (∀ s ∈ [a, b], ¬ Contains w s) → ¬ Contains w (a ++ (inParts v ++ b)) := by
    intro w hw hl hs hc
    rcases contains_parts hw hl v hc with h | h
    · exact hs a (by simp) h
    · exact hs b (by simp) h
  have h1 := key cs!"CONTAINS" (by decide +kernel) (by decide) fun s hs => (h s hs).1
  have h2 := key cs!"INTERSECTS" (by decide +kernel) (by decide) fun s hs => (h s hs).2
  unfold construct
  rw [C27_no_geometry_word _ fun u k z e => ⟨fun hk => h1 ⟨u, k, z, e, hk⟩, fun hk => h2 ⟨u, k, z, e, hk⟩⟩]

/-- **C67.** A query restricted by a comparison with a value in parts is read as the query that was meant. -/
theorem C67_restricted (hfmt : FmtNum fmt) (cfg : Config) {q : QuerySpec} (h : All (WellMade (!cfg.residue) M) (.query q)) {e : VENB}
    (he : All (WellMade (!cfg.residue) M) (.venb e)) (hn : (!cfg.residue) = false → prefixCI cs!"NOT" (firstExpr e) = false) {op : Str}
    (ho : op ∈ [cs!"=", cs!"!=", cs!"<>", cs!"<=", cs!">=", cs!"<", cs!">"]) (v : Str) :
    ∃ p, parseIt cfg ((everySelect (restrict (comparedLit e op (inParts v))) q).print fmt) = .ok p ∧
      SameQuery fmt (everySelect (restrict (comparedLit e op (inParts v))) q) p ∧
      ∀ γ ρ, SpellingFree fmt γ ρ → ((components p).map fun s => whereHolds γ ρ s.where_) =
        (components q).map fun s => (sfwHolds γ ρ s).and (holds ρ (comparedLit e op (inParts v))) := by
  refine C56_restricted hfmt cfg h (C67_compared he hn ho (C67_literal v).1) ?_
  have : ∀ x ∈ [cs!"=", cs!"!=", cs!"<>", cs!"<=", cs!">=", cs!"<", cs!">"], x.isEmpty = false := by decide
  exact this op ho

theorem parts_text (s t : Str) {cols : List Str} {k x : Str} : (everySelect (restrict (comparedLit (columnOf k) cs!"=" x)) (pick s t cols)).print fmt =
    cs!"SELECT " ++ joinSep cs!", " (cols.map delimited) ++ cs!" FROM " ++ tableOf s t ++ cs!" WHERE (" ++ delimited k ++ cs!" = " ++ x ++ cs!")" := by
  have hi : ∀ l : List Str, printItems fmt (l.map entryOf) = l.map delimited := by
    intro l
    induction l with
    | nil => simp [printItems]
    | cons c l ih =>
      simp [printItems, ih, entryOf, columnOf, Item.print, VE.print, VENB.print, Factor.print, NumPrim.print, VEP.print, Prim.print, ColRef.print,
        printTerms, printIdx]
  have h4 : joinSep cs!", " (printTRs fmt [.tc ⟨tableOf s t, []⟩]) = tableOf s t := by
    simp [printTRs, TR.print, TableCorr.print, joinSep]
  have h5 : With.dflt.isEmpty = true ∧ SC.dflt.isEmpty = true ∧ Geom.dflt.isEmpty = true := ⟨rfl, rfl, rfl⟩
  have h6 : ∀ c, printSelect [] (2 ^ 64 - 1) c = cs!"SELECT " ++ c := fun c => by simp [printSelect, topMax]
  have h7 : (comparedLit (columnOf k) cs!"=" x).print fmt = delimited k ++ cs!" = " ++ x := by
    simp [comparedLit, columnOf, SC.print, BF.print, BP.print, Pred.print, VE.print, VENB.print, Factor.print, NumPrim.print, VEP.print, Prim.print,
      ColRef.print, printTerms, printIdx, SC.isEmpty, BF.isEmpty, BP.isEmpty, Pred.isEmpty]
  have h8 : (comparedLit (columnOf k) cs!"=" x).isEmpty = false := rfl
  simp [pick, everySelect, restrict, both, QuerySpec.print, SFWList.print, SFW.print, Select.print, Columns.print, printAddons, Where.dflt, Where.print,
    Where.isEmpty, SC.print, BF.print, BP.print, SC.isEmpty, BF.isEmpty, BP.isEmpty, hi, h4, h5, h6, h7, h8]

/-- **C67.** Rows of a table whose names do not contain the two words can be looked up by any value of a column through the constructor, without
the condition on the value of C66. -/
theorem C67_lookup (hfmt : FmtNum fmt) (cfg : Config) {s t k : Str} (hs : s ≠ []) (ht : t ≠ []) (hk : k ≠ []) {cols : List Str} (hc : cols ≠ [])
    (hn : ∀ c ∈ cols, c ≠ []) (hw : ∀ x ∈ s :: t :: k :: cols, ¬ Contains cs!"CONTAINS" x ∧ ¬ Contains cs!"INTERSECTS" x) (v : Str) :
    ∃ p, construct cfg (cs!"SELECT " ++ joinSep cs!", " (cols.map delimited) ++ cs!" FROM " ++ tableOf s t ++ cs!" WHERE (" ++ delimited k ++ cs!" = " ++
        inParts v ++ cs!")") = .ok p ∧ SameQuery fmt (everySelect (restrict (comparedLit (columnOf k) cs!"=" (inParts v))) (pick s t cols)) p ∧
      ∀ γ ρ, SpellingFree fmt γ ρ → ((components p).map fun s => whereHolds γ ρ s.where_) = [holds ρ (comparedLit (columnOf k) cs!"=" (inParts v))] := by
  obtain ⟨p, h1, h2, h3⟩ := C67_restricted (M := fun _ => False) hfmt cfg (C66_pick hs ht hc hn) (columnOf_made hk) (fun _ => rfl) (op := cs!"=") (by simp) v
  refine ⟨p, ?_, h2, fun γ ρ h => ?_⟩
  · rw [parts_text] at h1
    rw [← h1, List.append_assoc _ (inParts v)]
    refine C67_constructor cfg v ?_
    have key : ∀ w : Str, '"' ∉ w.map lowerC → (∀ x ∈ [cs!"SELECT ", cs!", ", cs!" FROM ", cs!".", cs!" WHERE (", cs!" = "], ¬ Contains w x) →
        (∀ x ∈ s :: t :: k :: cols, ¬ Contains w x) →
        ¬ Contains w (cs!"SELECT " ++ joinSep cs!", " (cols.map delimited) ++ cs!" FROM " ++ tableOf s t ++ cs!" WHERE (" ++ delimited k ++ cs!" = ") := by
      intro w hw hf hx hh
      have e : cs!"SELECT " ++ joinSep cs!", " (cols.map delimited) ++ cs!" FROM " ++ tableOf s t ++ cs!" WHERE (" ++ delimited k ++ cs!" = " =
          cs!"SELECT " ++ (joinSep cs!", " (cols.map delimited) ++ (cs!" FROM " ++ (delimited s ++ (cs!"." ++
            (delimited t ++ (cs!" WHERE (" ++ (delimited k ++ cs!" = "))))))) := by simp [tableOf]
      rw [e] at hh
      rcases contains_list hw cols hc hh with h | h | h | ⟨c, hc, h⟩
      · exact hf _ (by simp) h
      · exact hf _ (by simp) h
      · rcases contains_delimited hw h with h | h | h
        · exact hf _ (by simp) h
        · exact hx _ (by simp) h
        · rcases contains_delimited hw h with h | h | h
          · exact hf _ (by simp) h
          · exact hx _ (by simp) h
          · rcases contains_delimited hw h with h | h | h
            · exact hf _ (by simp) h
            · exact hx _ (by simp) h
            · exact hf _ (by simp) h
      · exact hx c (by simp [hc]) h
    intro y hy
    simp only [List.mem_cons, List.not_mem_nil, or_false] at hy
    rcases hy with rfl | rfl
    · exact ⟨key _ (by decide +kernel) (fun x hx => no_word (by revert x; decide +kernel)) fun x hx => (hw x hx).1,
        key _ (by decide +kernel) (fun x hx => no_word (by revert x; decide +kernel)) fun x hx => (hw x hx).2⟩
    · exact ⟨no_word (by decide +kernel), no_word (by decide +kernel)⟩
  · rw [h3 γ ρ h]
    have e : ∀ x : Truth, (Truth.and (Truth.and .yes .yes) x) = x := by intro x; cases x <;> rfl
    show [(Truth.and (Truth.and .yes .yes) _)] = _
    rw [e]

/-! ### Examples -/

example : inParts cs!"it's" = cs!"'i'\n't'\n''''\n's'" ∧ litValue false cs!"'i'\n't'\n''''\n's'" = cs!"it's" := ⟨by kernel_rfl, by kernel_rfl⟩

/-- the value of `C65_injection` stays in its literal -/
example (hfmt : FmtNum fmt) : ∃ p, construct ⟨fun _ => none, false⟩ (cs!"SELECT \"a\" FROM \"s\".\"t\" WHERE (\"b\" = " ++
      inParts cs!" AND CONTAINS(POINT(1,2),d)=1 AND $1 OR 1=1 OR $1" ++ cs!")") = .ok p ∧
    ∀ γ ρ, SpellingFree fmt γ ρ → ((components p).map fun s => whereHolds γ ρ s.where_) =
      [holds ρ (comparedLit (columnOf cs!"b") cs!"=" (inParts cs!" AND CONTAINS(POINT(1,2),d)=1 AND $1 OR 1=1 OR $1"))] := by
  obtain ⟨p, h1, -, h2⟩ := C67_lookup hfmt ⟨fun _ => none, false⟩ (s := cs!"s") (t := cs!"t") (k := cs!"b") (cols := [cs!"a"]) nofun nofun nofun nofun
    (by decide) (fun x hx => ⟨no_word (by revert x; decide +kernel), no_word (by revert x; decide +kernel)⟩)
    cs!" AND CONTAINS(POINT(1,2),d)=1 AND $1 OR 1=1 OR $1"
  exact ⟨p, h1, h2⟩

end Adql
