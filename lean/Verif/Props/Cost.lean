import Verif.Model.Calls
import Verif.Props.Accept

/-!
# C47: the work of the constructor

The grammar tries a condition as `factor AND/OR condition` first, and reads the factor a second time when no `AND` or
`OR` follows (init_search_condition.cxx L32-L38).  A condition in `n` parentheses is therefore read `2 ^ n` times.
-/

namespace Adql

open P Spec Fwd

/-- The recursive rules called by a parser expression. -/
abbrev Calls (cfg : Config) {α : Type} (p : G α) (s : Str) : Nat := cost (D cfg) (denCost (grammar cfg) 4) p true s

theorem parseCalls_eq (cfg : Config) (s : Str) : parseCalls cfg s = Calls cfg query s := by
  have h : parseQuery cfg s ≠ .oof := by rw [parseQuery_eq]; exact parse_not_oof query_wf
  exact cost_run_eq_den (grammar_wf cfg) query h

theorem calls_nt (cfg : Config) (n : Rule) (s : Str) : Calls cfg (.nt n) s = 1 + Calls cfg (grammar cfg n) s :=
  congrArg (1 + ·) (denCost_eq (grammar_wf cfg) n true s)

section
variable {cfg : Config} {α β : Type}

theorem calls_seq {p : G α} {q : G β} {s r : Str} {a : α} (h : parse cfg p true s = .ok a r) :
    Calls cfg q r ≤ Calls cfg (.seq p q) s := by
  unfold Calls at *
  simp only [parse] at h
  simp only [cost, h]
  omega

theorem calls_seq1 {p : G α} {q : G β} {s : Str} : Calls cfg p s ≤ Calls cfg (.seq p q) s := by
  unfold Calls
  simp only [cost]
  omega

theorem calls_alt1 {p q : G α} {s : Str} : Calls cfg p s ≤ Calls cfg (.alt p q) s := by
  unfold Calls
  simp only [cost]
  omega

theorem calls_alt {p q : G α} {s : Str} (h : parse cfg p true s = .fail) :
    Calls cfg (.alt p q) s = Calls cfg p s + Calls cfg q s := by
  simp only [parse] at h
  unfold Calls
  simp only [cost, h]

/-- Where the second alternative gives the value, the first has failed. -/
theorem alt_first {p q : G α} {s r : Str} {a : α} (h : parse cfg (.alt p q) true s = .ok a r)
    (hp : ∀ t, parse cfg p true s ≠ .ok a t) : parse cfg p true s = .fail := by
  simp only [parse, step] at h hp ⊢
  cases hs : step (D cfg) p true s with
  | fail => rfl
  | ok b t => rw [hs] at h hp; cases h; exact absurd rfl (hp r)
  | err e => rw [hs] at h; cases h
  | oof => rw [hs] at h; cases h
end

/-- One condition: when no logical operator follows, the factor is read twice. -/
theorem calls_factor (cfg : Config) {s r : Str} {f : BF} (h : parse cfg sc true s = .ok (.factor f) r) :
    1 + 2 * Calls cfg (booleanFactor cfg.residue) s ≤ Calls cfg sc s := by
  have h1 : parse cfg (scBody cfg.residue) true s = .ok (.factor f) r := by
    rw [sc, parse_nt] at h; exact h
  have h2 := alt_first h1 fun t e => by
    simp only [parse, step] at e
    split at e <;> cases e
  have e : Calls cfg sc s = 1 + Calls cfg (scBody cfg.residue) s := calls_nt cfg .sc s
  rw [e, scBody, calls_alt h2]
  have h3 : Calls cfg (booleanFactor cfg.residue) s ≤ Calls cfg (.map (fun x : BF × Str × SC => SC.term x.1 x.2.1 x.2.2)
      (.seq (booleanFactor cfg.residue) (.seq logicalOp sc))) s := calls_seq1
  have h4 : Calls cfg (.map SC.factor (booleanFactor cfg.residue)) s = Calls cfg (booleanFactor cfg.residue) s := rfl
  omega

theorem factorNot_paren (cfg : Config) {o u : Str} (ho : Tok cs!"(" o) :
    parse cfg (factorNot cfg.residue) true (o ++ u) = .ok [] (o ++ u) := by
  have hn : matchLit true cs!"NOT" (skip true (o ++ u)) = none :=
    matchLit_noLetter' (by decide) (tok_noLetter ho (by decide) (by decide))
  rw [factorNot, alt_right (word_fail (apart_none hn))]
  split
  · rw [alt_right]
    · rfl
    · have e : parse cfg (.lexeme (kw cs!"NOT")) true (o ++ u) = .fail := by
        simp only [parse, run_lexeme]
        exact kw_none (bare_skip _) hn
      simp only [parse, step] at e ⊢
      rw [e]
  · rfl

/-- One pair of parentheses: the condition inside is read twice. -/
theorem calls_paren (cfg : Config) {o u r : Str} {c : SC} (ho : Tok cs!"(" o)
    (h : parse cfg sc true (o ++ u) = .ok (.factor (.mk [] (.sc c))) r) :
    1 + 2 * Calls cfg sc u ≤ Calls cfg sc (o ++ u) := by
  have h0 := calls_factor cfg h
  have h1 : parse cfg (scBody cfg.residue) true (o ++ u) = .ok (.factor (.mk [] (.sc c))) r := by
    rw [sc, parse_nt] at h; exact h
  have h2 := alt_first h1 fun t e => by
    simp only [parse, step] at e
    split at e <;> cases e
  rw [scBody, alt_right h2] at h1
  have hn := factorNot_paren cfg (u := u) ho
  -- the primary is a condition in parentheses
  have h3 : parse cfg booleanPrimary true (o ++ u) = .ok (.sc c) r := by
    simp only [parse, booleanFactor, step] at h1 hn ⊢
    rw [hn] at h1
    simp only at h1
    cases hb : step (D cfg) booleanPrimary true (o ++ u) with
    | ok a t => rw [hb] at h1; cases h1; rfl
    | _ => rw [hb] at h1; cases h1
  have h4 := alt_first h3 fun t e => by
    simp only [parse, step] at e
    split at e <;> cases e
  have h5 : Calls cfg booleanPrimary (o ++ u) ≤ Calls cfg (booleanFactor cfg.residue) (o ++ u) :=
    calls_seq (cfg := cfg) hn
  have h6 : Calls cfg sc u ≤ Calls cfg (.map BP.sc (seqR (sym cs!"(") (seqL sc (sym cs!")")))) (o ++ u) :=
    Nat.le_trans (calls_seq1 (q := sym cs!")")) (calls_seq (q := seqL sc (sym cs!")")) (sym_ok1 (cfg := cfg) (r := u) (by decide) ho))
  have h7 : Calls cfg (.map BP.sc (seqR (sym cs!"(") (seqL sc (sym cs!")")))) (o ++ u) ≤ Calls cfg booleanPrimary (o ++ u) := by
    rw [booleanPrimary, calls_alt h4]
    exact Nat.le_trans calls_alt1 (Nat.le_add_left _ _)
  omega

namespace Spec
/-- The text in `n` pairs of parentheses. -/
def parens : Nat → Str → Str
  | 0, s => s
  | n + 1, s => cs!"(" ++ (parens n s ++ cs!")")

theorem parens_length (s : Str) : ∀ n, (parens n s).length = s.length + 2 * n
  | 0 => rfl
  | n + 1 => by simp only [parens, List.length_append, parens_length s n, List.length_singleton]; omega

/-- A bound of the form `c · (length + 1) ^ d`. -/
def Polynomial (f : Str → Nat) : Prop := ∃ c d, ∀ s : Str, f s ≤ c * (s.length + 1) ^ d
end Spec

theorem condT_parens {S : Mode} {h : Head} {o : Bool} {s : Str} {c : SC} (hc : CondT S h o s c) :
    ∀ n, ∃ h' o' c', CondT S h' o' (parens n s) c'
  | 0 => ⟨_, _, _, hc⟩
  | n + 1 => by
    obtain ⟨h', o', c', ih⟩ := condT_parens hc n
    exact ⟨_, _, _, .factor (.plain (.paren (tok_self _) ih (tok_self _)) (fun _ => by rfl))⟩

/-- **C47**, conditions: a condition in `n` pairs of parentheses makes `2 ^ n` times the rule calls that it makes
alone. -/
theorem C47_doubling (cfg : Config) {S : Mode} [Fits S cfg] {h : Head} {o : Bool} {s : Str} {c : SC} (hc : CondT S h o s c) :
    ∀ (n : Nat) {r : Str}, FEnd true r → LogEnd r →
      ∃ e, 2 ^ n * Calls cfg sc (s ++ (List.replicate n ')' ++ r)) ≤ Calls cfg sc (parens n s ++ r) ∧
        (n ≠ 0 → parse cfg sc true (parens n s ++ r) = .ok e r)
  | 0, r, hr, hl => ⟨c, by simp [parens], nofun⟩
  | n + 1, r, hr, hl => by
    obtain ⟨h', o', c', hc'⟩ := condT_parens hc n
    have hg := condT_good (cfg := cfg) (.factor (.plain (.paren (tok_self cs!"(") hc' (tok_self cs!")")) (fun _ => by rfl)))
    have hrun := hg.run r ⟨hr.1, fun _ => hr.2 rfl⟩ hl
    obtain ⟨_, ih, _⟩ := C47_doubling cfg hc n (r := cs!")" ++ r) (close_fEnd (tok_self _)) (close_log (tok_self _))
    refine ⟨_, ?_, fun _ => hrun⟩
    simp only [List.append_assoc] at hrun
    have h1 := calls_paren cfg (tok_self cs!"(") hrun
    have e : List.replicate n ')' ++ (cs!")" ++ r) = List.replicate (n + 1) ')' ++ r := by
      rw [List.replicate_succ', List.append_assoc]
    rw [e] at ih
    have e2 : parens (n + 1) s ++ r = cs!"(" ++ (parens n s ++ (cs!")" ++ r)) := by
      simp only [parens, List.append_assoc]
    rw [e2, Nat.pow_succ, Nat.mul_comm _ 2, Nat.mul_assoc]
    omega

/-- The WHERE clause of a SELECT is read where it stands. -/
theorem calls_where (cfg : Config) {S : Mode} [Fits S cfg] {k k' q qt p cl f f' tb w w' s : Str} {n : Nat} {cs : Columns} {ts : List TR} {h : Head}
    {o : Bool} {c : SC} (hk : Kw cs!"SELECT" k k') (hq : QuantT q qt) (hp : TopT p n) (hb : BlankFirst cl)
    (hc : ColumnsT S cl cs) (hf : Word cs!"FROM" f f') (hbt : BlankFirst tb) (ht : TabsT S tb ts) (hw : Word cs!"WHERE" w w')
    (hbs : BlankFirst s) (hs : CondT S h o s c) :
    Calls cfg sc s ≤ parseCalls cfg (k ++ (q ++ (p ++ (cl ++ (f ++ (tb ++ (w ++ s))))))) := by
  rw [parseCalls_eq]
  have h0 := endsQ_word (ws := [cs!"FROM"]) (y := tb ++ (w ++ s)) (by decide) (by decide) hf (blankFirst_notContinued' hbt)
  have h1 := endsQ_word (ws := clauseWords) (y := s) (by decide) (by decide) hw (blankFirst_notContinued hbs)
  have hE : Ends [] ([] : Str) := .inl ⟨nofun, by simp [next]⟩
  have he := clause_end (o := o) (r := []) (by decide) hE
  have hg := (condT_good (cfg := cfg) hs).geo [] he.1
  rw [List.append_nil] at hg
  -- WHERE
  have a1 : Calls cfg sc s ≤ Calls cfg whereClause (w ++ s) := by
    refine Nat.le_trans ?_ (calls_seq (cfg := cfg) (wordX_ok (cfg := cfg) hw.1 (by decide) hbs))
    show Calls cfg sc s ≤ Calls cfg (.alt _ (.alt _ _)) s
    have hg2 : parse cfg (seqR (sym cs!"(") (seqL geometry xClose)) true s = .fail := hg.2
    rw [calls_alt (Fwd.map_fail (Fwd.seq_fail hg.1)), calls_alt (Fwd.map_fail hg2)]
    exact Nat.le_trans (Nat.le_add_left _ _) (Nat.le_add_left _ _)
  -- FROM
  have a2 : Calls cfg whereClause (w ++ s) ≤ Calls cfg (sfwWith whereClause) (k ++ (q ++ (p ++ (cl ++ (f ++ (tb ++ (w ++ s))))))) := by
    refine Nat.le_trans ?_ (calls_seq (cfg := cfg) (select_ok hk hq hp hb (columnsT_good hc) h0.1 h0.2))
    refine Nat.le_trans ?_ (calls_seq (cfg := cfg) (p := fromClause)
      (seqR_ok (wordX_ok hf.1 (by decide) (blankFirst_append hbt)) (expect_ok ((tabsT_good ht).run _ h1))))
    exact calls_alt1
  have hkw := kw_split hk (by decide) (blankFirst_notContinued (quantT_blank hq (topT_blank hp (blankFirst_append (r := f ++ (tb ++ (w ++ s))) hb))))
  obtain ⟨b, hbb, e, hks⟩ := hkw
  refine Nat.le_trans (Nat.le_trans a1 a2) ?_
  refine Nat.le_trans ?_ (calls_seq (cfg := cfg) (p := optD With.dflt withClause) (optD_none (with_fail ?_)))
  · exact Nat.le_trans calls_seq1 (calls_seq1 (cfg := cfg) (p := sfwList whereClause))
  · rw [e, skip_blanks hbb, skip_bare hks.bare]; exact hks.none (by decide)

/-- **C47**, queries: a SELECT of the core language whose condition stands in `n` pairs of parentheses makes at least
`2 ^ n` rule calls. -/
theorem C47_exponential (cfg : Config) {S : Mode} [Fits S cfg] {k k' q qt p cl f f' tb w w' s : Str} {m : Nat} {cs : Columns} {ts : List TR}
    {h : Head} {o : Bool} {c : SC} (hk : Kw cs!"SELECT" k k') (hq : QuantT q qt) (hp : TopT p m) (hb : BlankFirst cl)
    (hc : ColumnsT S cl cs) (hf : Word cs!"FROM" f f') (hbt : BlankFirst tb) (ht : TabsT S tb ts) (hw : Word cs!"WHERE" w w')
    (hs : CondT S h o s c) (n : Nat) :
    2 ^ n ≤ parseCalls cfg (k ++ (q ++ (p ++ (cl ++ (f ++ (tb ++ (w ++ (cs!" " ++ parens (n + 1) s)))))))) := by
  obtain ⟨h1, o1, c1, hc1⟩ := condT_parens hs n
  have hcond := CondT.factor (.plain (.paren (tok_blank cs!"(") hc1 (tok_self cs!")")) (fun _ => by rfl))
  have key := calls_where cfg hk hq hp hb hc hf hbt ht hw (blankFirst_cons _) hcond
  refine Nat.le_trans ?_ key
  have hE : Ends [] ([] : Str) := .inl ⟨nofun, by simp [next]⟩
  have he := clause_end (o := true) (r := []) (by decide) hE
  have hrun := (condT_good (cfg := cfg) hcond).run [] ⟨he.1.1, fun _ => he.1.2 rfl⟩ he.2
  rw [List.append_nil] at hrun
  have a1 := calls_paren cfg (u := parens n s ++ cs!")") (tok_blank cs!"(") hrun
  obtain ⟨_, a2, _⟩ := C47_doubling cfg hs n (r := cs!")") (close_fEnd (r := []) (tok_self _)) (close_log (r := []) (tok_self _))
  have a3 : 1 ≤ Calls cfg sc (s ++ (List.replicate n ')' ++ cs!")")) := by
    have := calls_nt cfg .sc (s ++ (List.replicate n ')' ++ cs!")"))
    show 1 ≤ Calls cfg (.nt .sc) _
    omega
  have a4 : 2 ^ n ≤ 2 ^ n * Calls cfg sc (s ++ (List.replicate n ')' ++ cs!")")) := Nat.le_mul_of_pos_right _ a3
  refine Nat.le_trans a4 (Nat.le_trans a2 (Nat.le_trans ?_ a1))
  omega

/-! ### The constructor -/

/-- the query of the next theorems -/
def deepText (n : Nat) : Str := cs!"SELECT a FROM t WHERE " ++ parens (n + 1) cs!"a=1"

theorem deepText_length (n : Nat) : (deepText n).length = 2 * n + 27 := by
  simp only [deepText, List.length_append, parens_length]
  simp
  omega

section
theorem deep_cond : CondT .core .stops false cs!"a=1"
    (.factor (.mk [] (.pred (.cmp (.mk (.mk [] (.vep (.mk (.col (.col cs!"a")) []))) []) cs!"="
      (.nb (.mk (.mk [] (.vep (.mk (.str cs!"1") []))) [])))))) :=
  .factor (.plain (.pred (.cmp (s := cs!"a") (o := cs!"=") (t := cs!"1")
    (exprT_prim (.col (.col (tok_self _) (.inl (plainName_letter (by decide))))))
    (by decide) (tok_self _) (.expr (exprT_prim (numT (by unfold Digit; decide)))))) (fun _ => by rfl))

theorem deep_cols : ColumnsT .core cs!" a" (.items [.nonAsVE (.nb (.mk (.mk [] (.vep (.mk (.col (.col cs!"a")) []))) []))]) :=
  .items (.one (.expr (.expr (exprT_prim (.col (.col (tok_blank cs!"a") (.inl (plainName_letter (by decide)))))))))

theorem deep_tabs : TabsT .core cs!" t" [.tc ⟨cs!"t", []⟩] := by
  exact .one (.tc (.mk (tok_blank cs!"t") (.one (tab_letter (by decide))) .none))

theorem deepText_noAnd (n : Nat) : ¬ HasGeometryAfterAnd (deepText n) := by
  have h1 : ∀ n, ∀ c ∈ parens n cs!"a=1", c ∈ cs!"(a=1)" := by
    intro n
    induction n with
    | zero => decide
    | succ n ih =>
      intro c hc
      simp only [parens, List.mem_append, List.mem_singleton] at hc
      rcases hc with rfl | hc | rfl
      · decide
      · exact ih c hc
      · decide
  have h2 : ∀ c ∈ deepText n, lowerC c ≠ 'n' := by
    intro c hc
    rcases List.mem_append.1 hc with hc | hc
    · exact (show ∀ c ∈ cs!"SELECT a FROM t WHERE ", lowerC c ≠ 'n' by decide) c hc
    · exact (show ∀ c ∈ cs!"(a=1)", lowerC c ≠ 'n' by decide) c (h1 _ c hc)
  rintro ⟨P, w, x, a, b, f, k, z, e, _, ha, _⟩
  have h3 : 'n' ∈ a.map lowerC := by
    rw [show a.map lowerC = (cs!"AND").map lowerC from ha]; decide
  obtain ⟨c, hc, hn⟩ := List.mem_map.1 h3
  exact h2 c (by rw [e]; simp [hc]) hn

theorem deepText_query (n : Nat) : ∃ q, QueryT .core false (deepText n) q := by
  obtain ⟨h1, o1, c1, hc1⟩ := condT_parens deep_cond n
  have hcond := CondT.factor (.plain (.paren (tok_blank cs!"(") hc1 (tok_self cs!")")) (fun _ => by rfl))
  have := QueryT.mk (.mk (.mk (G := false) (kw_self (t := cs!"SELECT") rfl) .none .none (blankFirst_cons _) deep_cols (word_blank (t := cs!"FROM") rfl)
    (blankFirst_cons _) deep_tabs (.some (word_blank (t := cs!"WHERE") rfl) (blankFirst_cons _) hcond)) .nil) .none .none .none
  simp only [List.append_nil] at this
  exact ⟨_, this⟩
end

/-- **C47**, the constructor: these queries of `2 n + 27` characters are accepted, after at least `2 ^ n` rule calls,
for every table mapping. -/
theorem C47_construct (cfg : Config) (n : Nat) :
    (∃ q, construct cfg (deepText n) = .ok q) ∧ (deepText n).length = 2 * n + 27 ∧ 2 ^ n ≤ constructCalls cfg (deepText n) := by
  refine ⟨?_, deepText_length n, ?_⟩
  · obtain ⟨q, hq⟩ := deepText_query n
    have := C39_construct cfg hq (b := []) nofun (by rw [List.append_nil]; exact deepText_noAnd n)
    rw [List.append_nil] at this
    exact ⟨q, this⟩
  · unfold constructCalls
    rw [C27_no_geometry_after_and _ (deepText_noAnd n)]
    exact C47_exponential cfg (kw_self (t := cs!"SELECT") rfl) .none .none (blankFirst_cons _) deep_cols (word_blank (t := cs!"FROM") rfl)
      (blankFirst_cons _) deep_tabs (word_blank (t := cs!"WHERE") rfl) deep_cond n

/-- No polynomial bounds `2 ^ n`. -/
theorem exceeds (c d : Nat) : ∃ n, c * (2 * n + 28) ^ d < 2 ^ n := by
  have hlt : ∀ n : Nat, n < 2 ^ n := fun n => Nat.lt_two_pow_self
  -- n = 2 ^ (2 j)
  obtain ⟨j, hj⟩ : ∃ j, j = c + 2 * d + 6 := ⟨_, rfl⟩
  refine ⟨2 ^ (2 * j), ?_⟩
  have h1 : c + (2 * j + 6) * d < 2 ^ (2 * j) := by
    have e : 2 ^ (2 * j) = 2 ^ j * 2 ^ j := by rw [Nat.two_mul, Nat.pow_add]
    have : (j + 1) * (j + 1) ≤ 2 ^ j * 2 ^ j := Nat.mul_le_mul (hlt j) (hlt j)
    have h2 : c + (2 * j + 6) * d < (j + 1) * (j + 1) := by
      have e1 : (2 * j + 6) * d = j * (2 * d) + 6 * d := by
        rw [Nat.add_mul, Nat.mul_comm 2 j, Nat.mul_assoc]
      have e2 : j * j = j * c + j * (2 * d) + j * 6 := by
        conv => lhs; arg 2; rw [hj]
        rw [Nat.mul_add, Nat.mul_add]
      have e3 : (j + 1) * (j + 1) = j * j + 2 * j + 1 := by
        rw [Nat.add_mul, Nat.mul_add]; omega
      have e4 : c ≤ j * c := Nat.le_mul_of_pos_left _ (by omega)
      omega
    omega
  have h2 : 2 * 2 ^ (2 * j) + 28 ≤ 2 ^ (2 * j + 6) := by
    have := Nat.one_le_two_pow (n := 2 * j)
    rw [Nat.pow_add]
    omega
  calc c * (2 * 2 ^ (2 * j) + 28) ^ d ≤ 2 ^ c * (2 ^ (2 * j + 6)) ^ d :=
        Nat.mul_le_mul (Nat.le_of_lt (hlt c)) (Nat.pow_le_pow_left h2 d)
    _ = 2 ^ (c + (2 * j + 6) * d) := by rw [← Nat.pow_mul, ← Nat.pow_add]
    _ < 2 ^ 2 ^ (2 * j) := Nat.pow_lt_pow_right (by omega) h1

/-- **C47** is false of the code: no polynomial in the length of the text bounds the number of rule calls of the
constructor, not even on the texts that it accepts. -/
theorem C47_not_polynomial (cfg : Config) :
    ¬ ∃ c d, ∀ s : Str, (∃ q, construct cfg s = .ok q) → constructCalls cfg s ≤ c * (s.length + 1) ^ d := by
  rintro ⟨c, d, h⟩
  obtain ⟨n, hn⟩ := exceeds c d
  obtain ⟨h1, h2, h3⟩ := C47_construct cfg n
  have := h _ h1
  rw [h2] at this
  exact absurd (Nat.lt_of_lt_of_le hn (Nat.le_trans h3 this)) (Nat.lt_irrefl _)

/-- **C47** is false of the code, in short. -/
theorem C47_violated (cfg : Config) : ¬ Polynomial (constructCalls cfg) :=
  fun ⟨c, d, h⟩ => C47_not_polynomial cfg ⟨c, d, fun s _ => h s⟩

/-- **C47**, concrete case: on `SELECT a FROM t WHERE (((a=1)))` the constructor makes more than 2000 rule calls. -/
example : constructCalls ⟨fun _ => none, true⟩ (deepText 2) = 2630 := by
  have h : preprocess (deepText 2) = .ok (deepText 2) := C27_no_geometry_after_and _ (deepText_noAnd 2)
  unfold constructCalls
  rw [h]
  show parseCalls _ _ = 2630
  kernel_rfl

/-! ### Upper bounds -/

theorem grammar_size (cfg : Config) (n : Rule) : (grammar cfg n).size ≤ 492 := by
  obtain ⟨m, r⟩ := cfg
  cases r <;> cases n <;> exact Nat.le_of_ble_eq_true (by kernel_rfl)

theorem grammar_depth (cfg : Config) (n : Rule) : (grammar cfg n).depth ≤ 4 := by
  obtain ⟨m, r⟩ := cfg
  cases r <;> cases n <;> exact Nat.le_of_ble_eq_true (by kernel_rfl)

theorem calls_bound (cfg : Config) (f : Nat) (s : Str) :
    cost (run (grammar cfg) f) (runCost (grammar cfg) f) query true s ≤ (1 + 492 * (s.length + 2) ^ 4) ^ (f + 1) := by
  have hB := runCost_le (g := grammar cfg) (grammar_size cfg) (grammar_depth cfg) (m := s.length) f
  have h1 := cost_le (rec := run (grammar cfg) f) (crec := runCost (grammar cfg) f) (run_suffix _ f) (m := s.length) hB query true s
    (Nat.le_refl _)
  have h2 : query.size * (s.length + 2) ^ query.depth ≤ 492 * (s.length + 2) ^ 4 :=
    Nat.mul_le_mul (by decide +kernel) (Nat.pow_le_pow_right (by omega) (by decide +kernel))
  have h3 := Nat.mul_le_mul_right ((1 + 492 * (s.length + 2) ^ 4) ^ f) h2
  rw [Nat.pow_succ, Nat.mul_comm, Nat.add_mul]
  omega

/-- **C47**, in every case: the number of rule calls is finite, with a bound that depends on the length only. -/
theorem C47_bound (cfg : Config) (s : Str) : parseCalls cfg s ≤ (1 + 492 * (s.length + 2) ^ 4) ^ (4 * s.length + 5) :=
  calls_bound cfg _ s

/-- **C47, partial.**  For the texts whose rule calls are nested at most `f` deep the bound is a polynomial.  (Full
statement: `Spec.Polynomial (constructCalls cfg)`; it is false by `C47_violated`.) -/
theorem C47_partial (cfg : Config) (f : Nat) : ∃ c d, ∀ s : Str, step (run (grammar cfg) f) query true s ≠ .oof →
    parseCalls cfg s ≤ c * (s.length + 1) ^ d := by
  refine ⟨(493 * 2 ^ 4) ^ (f + 1), 4 * (f + 1), fun s h => ?_⟩
  have e : parseCalls cfg s = cost (run (grammar cfg) f) (runCost (grammar cfg) f) query true s :=
    (parseCalls_eq cfg s).trans (cost_run_eq_den (grammar_wf cfg) query h).symm
  rw [e]
  refine Nat.le_trans (calls_bound cfg f s) ?_
  rw [Nat.pow_mul, ← Nat.mul_pow]
  refine Nat.pow_le_pow_left ?_ _
  have h1 : (s.length + 2) ^ 4 ≤ (2 * (s.length + 1)) ^ 4 := Nat.pow_le_pow_left (by omega) 4
  rw [Nat.mul_pow] at h1
  have h2 : 1 ≤ 2 ^ 4 * (s.length + 1) ^ 4 := Nat.mul_pos (by decide) (Nat.pow_pos (by omega))
  rw [Nat.mul_assoc]
  omega

/-- **C47, partial**, non-trivial case: the rule calls of a query with a subquery are nested at most ten deep. -/
example (cfg : Config) : step (run (grammar cfg) 10) query true cs!"SELECT a FROM t WHERE a IN (SELECT b FROM u)" ≠ .oof := by
  obtain ⟨m, r⟩ := cfg
  have h : (match step (run (grammar ⟨m, r⟩) 10) query true cs!"SELECT a FROM t WHERE a IN (SELECT b FROM u)" with
      | .ok _ _ => true
      | _ => false) = true := by
    cases r <;> kernel_rfl
  intro e
  rw [e] at h
  cases h

end Adql
