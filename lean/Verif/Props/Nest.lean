import Verif.Peg.Nest
import Verif.Props.Cost

/-!
# C49: how deep the rule calls of the constructor are nested

A recursive-descent parser needs machine stack in proportion to the nesting of its rule calls, and nothing in
`/repo/src` limits it.  Only the recursive rules of the model are counted (`Rule`, Model/Grammar.lean), as in
Model/Calls.lean.
-/

namespace Adql

open P Spec Fwd

/-- The nesting of the rule calls made by `parse_it` (Query.cxx L140-L154). -/
def parseNest (cfg : Config) (s : Str) : Nat :=
  nest (run (grammar cfg) (fuelFor s)) (runNest (grammar cfg) (fuelFor s)) query true s

/-- The nesting of the rule calls made by the constructor (Query.cxx L156-L176). -/
def constructNest (cfg : Config) (input : Str) : Nat :=
  match preprocess input with
  | .ok s => parseNest cfg s
  | .error _ => 0

/-- The nesting of the recursive rules called by a parser expression. -/
abbrev Nesting (cfg : Config) {α : Type} (p : G α) (s : Str) : Nat := nest (D cfg) (denNest (grammar cfg) 4) p true s

theorem parseNest_eq (cfg : Config) (s : Str) : parseNest cfg s = Nesting cfg query s := by
  have h : parseQuery cfg s ≠ .oof := by rw [parseQuery_eq]; exact parse_not_oof query_wf
  exact nest_run_eq_den (grammar_wf cfg) query h

theorem nesting_nt (cfg : Config) (n : Rule) (s : Str) : Nesting cfg (.nt n) s = 1 + Nesting cfg (grammar cfg n) s :=
  congrArg (1 + ·) (denNest_eq (grammar_wf cfg) n true s)

section
variable {cfg : Config} {α β : Type}

theorem nesting_seq {p : G α} {q : G β} {s r : Str} {a : α} (h : parse cfg p true s = .ok a r) :
    Nesting cfg q r ≤ Nesting cfg (.seq p q) s := by
  unfold Nesting at *
  simp only [parse] at h
  simp only [nest, h]
  omega

theorem nesting_seq1 {p : G α} {q : G β} {s : Str} : Nesting cfg p s ≤ Nesting cfg (.seq p q) s := by
  unfold Nesting
  simp only [nest]
  omega

theorem nesting_alt1 {p q : G α} {s : Str} : Nesting cfg p s ≤ Nesting cfg (.alt p q) s := by
  unfold Nesting
  simp only [nest]
  omega

theorem nesting_alt2 {p q : G α} {s : Str} (h : parse cfg p true s = .fail) :
    Nesting cfg q s ≤ Nesting cfg (.alt p q) s := by
  simp only [parse] at h
  unfold Nesting
  simp only [nest, h]
  omega
end

/-- One pair of parentheses: the condition inside is read one call deeper. -/
theorem nesting_paren (cfg : Config) {o u r : Str} {c : SC} (ho : Tok cs!"(" o)
    (h : parse cfg sc true (o ++ u) = .ok (.factor (.mk [] (.sc c))) r) :
    1 + Nesting cfg sc u ≤ Nesting cfg sc (o ++ u) := by
  have h1 : parse cfg (scBody cfg.residue) true (o ++ u) = .ok (.factor (.mk [] (.sc c))) r := by
    rw [sc, parse_nt] at h; exact h
  have h2 := alt_first h1 fun t e => by
    simp only [parse, step] at e
    split at e <;> cases e
  rw [scBody, alt_right h2] at h1
  have hn := factorNot_paren cfg (u := u) ho
  -- the primary is a condition in parentheses
  have h3 : parse cfg booleanPrimary true (o ++ u) = .ok (.sc c) r := by
    simp only [parse, booleanFactor, step] at h1 hn ⊢
    rw [hn] at h1
    simp only at h1
    cases hb : step (D cfg) booleanPrimary true (o ++ u) with
    | ok a t => rw [hb] at h1; cases h1; rfl
    | _ => rw [hb] at h1; cases h1
  have h4 := alt_first h3 fun t e => by
    simp only [parse, step] at e
    split at e <;> cases e
  have h5 : Nesting cfg booleanPrimary (o ++ u) ≤ Nesting cfg (booleanFactor cfg.residue) (o ++ u) :=
    nesting_seq (cfg := cfg) hn
  have h6 : Nesting cfg sc u ≤ Nesting cfg (.map BP.sc (seqR (sym cs!"(") (seqL sc (sym cs!")")))) (o ++ u) :=
    Nat.le_trans (nesting_seq1 (q := sym cs!")")) (nesting_seq (q := seqL sc (sym cs!")")) (sym_ok1 (cfg := cfg) (r := u) (by decide) ho))
  have h7 : Nesting cfg (.map BP.sc (seqR (sym cs!"(") (seqL sc (sym cs!")")))) (o ++ u) ≤ Nesting cfg booleanPrimary (o ++ u) := by
    rw [booleanPrimary]
    exact Nat.le_trans nesting_alt1 (nesting_alt2 h4)
  have e : Nesting cfg sc (o ++ u) = 1 + Nesting cfg (scBody cfg.residue) (o ++ u) := nesting_nt cfg .sc _
  have h8 : Nesting cfg (booleanFactor cfg.residue) (o ++ u) ≤ Nesting cfg (scBody cfg.residue) (o ++ u) :=
    nesting_alt2 (q := .map SC.factor (booleanFactor cfg.residue)) h2
  omega

/-- **C49**, conditions: `n` pairs of parentheses around a condition make the calls `n` deeper. -/
theorem C49_deeper (cfg : Config) {S : Mode} [Fits S cfg] {h : Head} {o : Bool} {s : Str} {c : SC} (hc : CondT S h o s c) :
    ∀ (n : Nat) {r : Str}, FEnd true r → LogEnd r →
      n + Nesting cfg sc (s ++ (List.replicate n ')' ++ r)) ≤ Nesting cfg sc (parens n s ++ r)
  | 0, r, hr, hl => by simp [parens]
  | n + 1, r, hr, hl => by
    obtain ⟨h', o', c', hc'⟩ := condT_parens hc n
    have hg := condT_good (cfg := cfg) (.factor (.plain (.paren (tok_self cs!"(") hc' (tok_self cs!")")) (fun _ => by rfl)))
    have hrun := hg.run r ⟨hr.1, fun _ => hr.2 rfl⟩ hl
    have ih := C49_deeper cfg hc n (r := cs!")" ++ r) (close_fEnd (tok_self _)) (close_log (tok_self _))
    simp only [List.append_assoc] at hrun
    have h1 := nesting_paren cfg (tok_self cs!"(") hrun
    have e : List.replicate n ')' ++ (cs!")" ++ r) = List.replicate (n + 1) ')' ++ r := by
      rw [List.replicate_succ', List.append_assoc]
    rw [e] at ih
    have e2 : parens (n + 1) s ++ r = cs!"(" ++ (parens n s ++ (cs!")" ++ r)) := by
      simp only [parens, List.append_assoc]
    rw [e2]
    omega

/-- The WHERE clause of a SELECT is read where it stands. -/
theorem nesting_where (cfg : Config) {S : Mode} [Fits S cfg] {k k' q qt p cl f f' tb w w' s : Str} {n : Nat} {cs : Columns} {ts : List TR} {h : Head}
    {o : Bool} {c : SC} (hk : Kw cs!"SELECT" k k') (hq : QuantT q qt) (hp : TopT p n) (hb : BlankFirst cl)
    (hc : ColumnsT S cl cs) (hf : Word cs!"FROM" f f') (hbt : BlankFirst tb) (ht : TabsT S tb ts) (hw : Word cs!"WHERE" w w')
    (hbs : BlankFirst s) (hs : CondT S h o s c) :
    Nesting cfg sc s ≤ parseNest cfg (k ++ (q ++ (p ++ (cl ++ (f ++ (tb ++ (w ++ s))))))) := by
  rw [parseNest_eq]
  have h0 := endsQ_word (ws := [cs!"FROM"]) (y := tb ++ (w ++ s)) (by decide) (by decide) hf (blankFirst_notContinued' hbt)
  have h1 := endsQ_word (ws := clauseWords) (y := s) (by decide) (by decide) hw (blankFirst_notContinued hbs)
  have hE : Ends [] ([] : Str) := .inl ⟨nofun, by simp [next]⟩
  have he := clause_end (o := o) (r := []) (by decide) hE
  have hg := (condT_good (cfg := cfg) hs).geo [] he.1
  rw [List.append_nil] at hg
  -- WHERE
  have a1 : Nesting cfg sc s ≤ Nesting cfg whereClause (w ++ s) := by
    refine Nat.le_trans ?_ (nesting_seq (cfg := cfg) (wordX_ok (cfg := cfg) hw.1 (by decide) hbs))
    show Nesting cfg sc s ≤ Nesting cfg (.alt _ (.alt _ _)) s
    have hg2 : parse cfg (seqR (sym cs!"(") (seqL geometry xClose)) true s = .fail := hg.2
    exact Nat.le_trans (nesting_alt2 (q := .map (fun s => Where.mk Geom.dflt s) sc) (Fwd.map_fail hg2))
      (nesting_alt2 (Fwd.map_fail (Fwd.seq_fail hg.1)))
  -- FROM
  have a2 : Nesting cfg whereClause (w ++ s) ≤ Nesting cfg (sfwWith whereClause) (k ++ (q ++ (p ++ (cl ++ (f ++ (tb ++ (w ++ s))))))) := by
    refine Nat.le_trans ?_ (nesting_seq (cfg := cfg) (select_ok hk hq hp hb (columnsT_good hc) h0.1 h0.2))
    refine Nat.le_trans ?_ (nesting_seq (cfg := cfg) (p := fromClause)
      (seqR_ok (wordX_ok hf.1 (by decide) (blankFirst_append hbt)) (expect_ok ((tabsT_good ht).run _ h1))))
    exact nesting_alt1
  have hkw := kw_split hk (by decide) (blankFirst_notContinued (quantT_blank hq (topT_blank hp (blankFirst_append (r := f ++ (tb ++ (w ++ s))) hb))))
  obtain ⟨b, hbb, e, hks⟩ := hkw
  refine Nat.le_trans (Nat.le_trans a1 a2) ?_
  refine Nat.le_trans ?_ (nesting_seq (cfg := cfg) (p := optD With.dflt withClause) (optD_none (with_fail ?_)))
  · exact Nat.le_trans nesting_seq1 (nesting_seq1 (cfg := cfg) (p := sfwList whereClause))
  · rw [e, skip_blanks hbb, skip_bare hks.bare]; exact hks.none (by decide)

/-- **C49**, the meaning of the number: with at most `f` nested rule calls allowed, the parser finishes the text
exactly when `f` is at least the nesting. -/
theorem C49_enough (cfg : Config) (s : Str) (f : Nat) :
    step (run (grammar cfg) f) query true s ≠ .oof ↔ parseNest cfg s ≤ f := by
  rw [parseNest_eq]
  exact run_enough (grammar_wf cfg) (parse_not_oof query_wf) f

/-- **C49**, from above: the nesting is at most four calls for every character and four more. -/
theorem C49_upper (cfg : Config) (s : Str) : parseNest cfg s ≤ 4 * (s.length + 1) := by
  have h : parseQuery cfg s ≠ .oof := by rw [parseQuery_eq]; exact parse_not_oof query_wf
  exact (C49_enough cfg s _).1 h

/-- **C49**, from below: these queries of `2 n + 27` characters are accepted, with at least `n + 2` rule calls open at
the same time, for every table mapping. -/
theorem C49_lower (cfg : Config) (n : Nat) :
    (∃ q, construct cfg (deepText n) = .ok q) ∧ (deepText n).length = 2 * n + 27 ∧ n + 2 ≤ constructNest cfg (deepText n) := by
  refine ⟨(C47_construct cfg n).1, deepText_length n, ?_⟩
  unfold constructNest
  rw [C27_no_geometry_after_and _ (deepText_noAnd n)]
  obtain ⟨h1, o1, c1, hc1⟩ := condT_parens deep_cond n
  have hcond := CondT.factor (.plain (.paren (tok_blank cs!"(") hc1 (tok_self cs!")")) (fun _ => by rfl))
  have key := nesting_where cfg (kw_self (t := cs!"SELECT") rfl) .none .none (blankFirst_cons _) deep_cols (word_blank (t := cs!"FROM") rfl)
      (blankFirst_cons _) deep_tabs (word_blank (t := cs!"WHERE") rfl) (blankFirst_cons _) hcond
  refine Nat.le_trans ?_ key
  have hE : Ends [] ([] : Str) := .inl ⟨nofun, by simp [next]⟩
  have he := clause_end (o := true) (r := []) (by decide) hE
  have hrun := (condT_good (cfg := cfg) hcond).run [] ⟨he.1.1, fun _ => he.1.2 rfl⟩ he.2
  rw [List.append_nil] at hrun
  have a1 := nesting_paren cfg (u := parens n cs!"a=1" ++ cs!")") (tok_blank cs!"(") hrun
  have a2 := C49_deeper cfg deep_cond n (r := cs!")") (close_fEnd (r := []) (tok_self _)) (close_log (r := []) (tok_self _))
  have a3 := nesting_nt cfg .sc (cs!"a=1" ++ (List.replicate n ')' ++ cs!")"))
  change Nesting cfg sc _ = _ at a3
  refine Nat.le_trans ?_ a1
  omega

/-- **C49**: no constant bounds the nesting, not even on the texts that the constructor accepts. -/
theorem C49_unbounded (cfg : Config) (b : Nat) : ∃ s q, construct cfg s = .ok q ∧ b < constructNest cfg s := by
  obtain ⟨⟨q, h⟩, -, hn⟩ := C49_lower cfg b
  exact ⟨_, q, h, by omega⟩

/-- **C49**, non-trivial case: exact numbers for `SELECT a FROM t WHERE (a=1)` and `… WHERE ((a=1))`. -/
example (m : Str → Option Str) : parseNest ⟨m, true⟩ (deepText 0) = 5 ∧ parseNest ⟨m, true⟩ (deepText 1) = 8 := by
  constructor <;> kernel_rfl


end Adql
