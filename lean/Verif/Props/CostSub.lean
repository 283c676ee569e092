import Verif.Props.Cost

/-!
# C47: nested subqueries

A condition that is not followed by `AND` or `OR` is read twice (Props/Cost.lean), and with it the subquery in it.  So a
query with `n` subqueries inside each other is read `2 ^ n` times as well.
-/

namespace Adql

open P Spec Fwd

theorem factorNot_none (cfg : Config) {s : Str} (hn : matchLit true cs!"NOT" (skip true s) = none) :
    parse cfg (factorNot cfg.residue) true s = .ok [] s := by
  rw [factorNot, alt_right (word_fail (apart_none hn))]
  split
  · rw [alt_right]
    · rfl
    · have e : parse cfg (.lexeme (kw cs!"NOT")) true s = .fail := by
        simp only [parse, run_lexeme]
        exact kw_none (bare_skip _) hn
      simp only [parse, step] at e ⊢
      rw [e]
  · rfl

/-- The WHERE clause of a SELECT in a subquery is read where it stands. -/
theorem calls_whereNo (cfg : Config) {S : Mode} [Fits S cfg] {k k' q qt p cl f f' tb w w' s : Str} {n : Nat} {cs : Columns} {ts : List TR}
    (hk : Kw cs!"SELECT" k k') (hq : QuantT q qt) (hp : TopT p n) (hb : BlankFirst cl)
    (hc : ColumnsT S cl cs) (hf : Word cs!"FROM" f f') (hbt : BlankFirst tb) (ht : TabsT S tb ts) (hw : Word cs!"WHERE" w w')
    (hbs : BlankFirst s) :
    Calls cfg sc s ≤ Calls cfg queryNoGeometry (k ++ (q ++ (p ++ (cl ++ (f ++ (tb ++ (w ++ s))))))) := by
  have h0 := endsQ_word (ws := [cs!"FROM"]) (y := tb ++ (w ++ s)) (by decide) (by decide) hf (blankFirst_notContinued' hbt)
  have h1 := endsQ_word (ws := clauseWords) (y := s) (by decide) (by decide) hw (blankFirst_notContinued hbs)
  have a1 : Calls cfg sc s ≤ Calls cfg whereNoGeometry (w ++ s) :=
    calls_seq (cfg := cfg) (p := word cs!"WHERE") (word_ok hw.1 (by decide) hbs)
  have a2 : Calls cfg whereNoGeometry (w ++ s) ≤ Calls cfg (sfwWith whereNoGeometry) (k ++ (q ++ (p ++ (cl ++ (f ++ (tb ++ (w ++ s))))))) := by
    refine Nat.le_trans ?_ (calls_seq (cfg := cfg) (select_ok hk hq hp hb (columnsT_good hc) h0.1 h0.2))
    refine Nat.le_trans ?_ (calls_seq (cfg := cfg) (p := fromClause)
      (seqR_ok (wordX_ok hf.1 (by decide) (blankFirst_append hbt)) (expect_ok ((tabsT_good ht).run _ h1))))
    exact calls_alt1
  have hkw := kw_split hk (by decide) (blankFirst_notContinued (quantT_blank hq (topT_blank hp (blankFirst_append (r := f ++ (tb ++ (w ++ s))) hb))))
  obtain ⟨b, hbb, e, hks⟩ := hkw
  refine Nat.le_trans (Nat.le_trans a1 a2) ?_
  refine Nat.le_trans ?_ (calls_seq (cfg := cfg) (p := optD With.dflt withClause) (optD_none (with_fail ?_)))
  · exact Nat.le_trans calls_seq1 (calls_seq1 (cfg := cfg) (p := sfwList whereNoGeometry))
  · rw [e, skip_blanks hbb, skip_bare hks.bare]; exact hks.none (by decide)

/-- **C47**, one subquery: `EXISTS (SELECT … WHERE condition)`, with nothing after it, makes more than twice the rule
calls of its condition. -/
theorem C47_exists (cfg : Config) {S : Mode} [Fits S cfg] {e e' o k k' q qt p cl f f' tb w w' s c r : Str} {n : Nat} {cs : Columns} {ts : List TR}
    {h : Head} {b : Bool} {x : SC} (he : Kw cs!"EXISTS" e e') (hbo : BlankFirst o) (ho : Tok cs!"(" o)
    (hk : Kw cs!"SELECT" k k') (hq : QuantT q qt) (hp : TopT p n) (hb : BlankFirst cl)
    (hc : ColumnsT S cl cs) (hf : Word cs!"FROM" f f') (hbt : BlankFirst tb) (ht : TabsT S tb ts) (hw : Word cs!"WHERE" w w')
    (hbs : BlankFirst s) (hs : CondT S h b s x) (hcl : Tok cs!")" c) (hr : FEnd false r) (hl : LogEnd r) :
    2 * Calls cfg sc (s ++ (c ++ r)) <
      Calls cfg sc (e ++ (o ++ (k ++ (q ++ (p ++ (cl ++ (f ++ (tb ++ (w ++ (s ++ (c ++ r))))))))))) := by
  -- the whole condition
  have hquery := QueryT.mk (.mk (.mk (G := false) hk hq hp hb hc hf hbt ht (.some hw hbs hs)) .nil) .none .none .none
  simp only [List.append_nil] at hquery
  have hsub := SubqT.mk ho hquery hcl
  have hpr := good_exists (cfg := cfg) he (blankFirst_append hbo) (subqT_good hsub).run
  have hcond := CondT.factor (.plain (.pred (.exist he (blankFirst_append hbo) hsub)) (fun _ => by rfl))
  have hrun := (condT_good (cfg := cfg) hcond).run r hr hl
  have hno := hpr.noNot rfl r hr.1.1.1.1
  simp only [List.append_assoc] at hrun hno
  have h0 := calls_factor cfg hrun
  have hn := factorNot_none cfg hno
  -- nothing else starts with EXISTS
  have hv : parse cfg venb true (e ++ (o ++ (k ++ (q ++ (p ++ (cl ++ (f ++ (tb ++ (w ++ (s ++ (c ++ r))))))))))) = .fail := by
    obtain ⟨b, hb', e1, hk'⟩ := kw_split (y := o ++ (k ++ (q ++ (p ++ (cl ++ (f ++ (tb ++ (w ++ (s ++ (c ++ r)))))))))) he (by decide)
      (blankFirst_notContinued' hbo)
    rw [e1, venb_blanks hb']
    exact venb_fail_kw hk' (by decide +kernel)
  have h1 : Calls cfg existsPredicate (e ++ (o ++ (k ++ (q ++ (p ++ (cl ++ (f ++ (tb ++ (w ++ (s ++ (c ++ r))))))))))) ≤
      Calls cfg predicate (e ++ (o ++ (k ++ (q ++ (p ++ (cl ++ (f ++ (tb ++ (w ++ (s ++ (c ++ r))))))))))) := by
    rw [predicate, calls_alt (p := comparisonPredicate) (Fwd.map_fail (Fwd.seq_fail hv)),
      calls_alt (p := betweenPredicate) (Fwd.map_fail (Fwd.seq_fail hv)),
      calls_alt (p := inPredicate) (Fwd.map_fail (Fwd.seq_fail hv)),
      calls_alt (p := nullPredicate) (Fwd.map_fail (Fwd.seq_fail hv)),
      calls_alt (p := likePredicate) (Fwd.map_fail (Fwd.seq_fail hv))]
    omega
  have h2 := calls_seq (cfg := cfg) (q := subq) (wordX_ok (cfg := cfg)
    (y := o ++ (k ++ (q ++ (p ++ (cl ++ (f ++ (tb ++ (w ++ (s ++ (c ++ r)))))))))) he (by decide) (blankFirst_append hbo))
  have h3 := calls_nt cfg .subq (o ++ (k ++ (q ++ (p ++ (cl ++ (f ++ (tb ++ (w ++ (s ++ (c ++ r)))))))))) 
  have h4 := calls_seq (cfg := cfg) (q := seqL (.alt (.map Subquery.qs queryNoGeometry) (.map Subquery.jt jt)) (sym cs!")"))
    (sym_ok1 (cfg := cfg) (r := k ++ (q ++ (p ++ (cl ++ (f ++ (tb ++ (w ++ (s ++ (c ++ r)))))))))  (by decide) ho)
  have h5 : Calls cfg queryNoGeometry (k ++ (q ++ (p ++ (cl ++ (f ++ (tb ++ (w ++ (s ++ (c ++ r))))))))) ≤
      Calls cfg (seqL (.alt (.map Subquery.qs queryNoGeometry) (.map Subquery.jt jt)) (sym cs!")"))
        (k ++ (q ++ (p ++ (cl ++ (f ++ (tb ++ (w ++ (s ++ (c ++ r))))))))) :=
    Nat.le_trans (calls_alt1 (p := .map Subquery.qs queryNoGeometry))
      (calls_seq1 (p := .alt (.map Subquery.qs queryNoGeometry) (.map Subquery.jt jt)))
  have h6 := calls_whereNo cfg hk hq hp hb hc hf hbt ht hw (blankFirst_append (r := c ++ r) hbs)
  have h7 := calls_seq (cfg := cfg) (q := booleanPrimary) hn
  have h8 : Calls cfg predicate (e ++ (o ++ (k ++ (q ++ (p ++ (cl ++ (f ++ (tb ++ (w ++ (s ++ (c ++ r))))))))))) ≤
      Calls cfg booleanPrimary (e ++ (o ++ (k ++ (q ++ (p ++ (cl ++ (f ++ (tb ++ (w ++ (s ++ (c ++ r))))))))))) :=
    calls_alt1 (p := .map BP.pred predicate)
  change _ ≤ Calls cfg (grammar cfg .subq) _ at h4
  change _ ≤ Calls cfg existsPredicate _ at h2
  change Calls cfg subq _ = _ at h3
  change _ ≤ Calls cfg (booleanFactor cfg.residue) _ at h7
  omega

/-! ### The constructor -/

/-- `n` subqueries inside each other -/
def existsCond : Nat → Str
  | 0 => cs!" a=1"
  | n + 1 => cs!" EXISTS" ++ (cs!" (" ++ (cs!"SELECT" ++ (cs!" a" ++ (cs!" FROM" ++ (cs!" t" ++ (cs!" WHERE" ++ (existsCond n ++ cs!")")))))))

/-- the query of the next theorem -/
def existsText (n : Nat) : Str := cs!"SELECT a FROM t WHERE" ++ existsCond n

theorem existsText_length (n : Nat) : (existsText n).length = 31 * n + 25 := by
  have : ∀ n, (existsCond n).length = 31 * n + 4 := by
    intro n
    induction n with
    | zero => rfl
    | succ n ih =>
      simp only [existsCond, List.length_append, ih]
      simp
      omega
  simp only [existsText, List.length_append, this]
  simp
  omega

theorem existsCond_blank : ∀ n, BlankFirst (existsCond n)
  | 0 => blankFirst_cons _
  | _ + 1 => blankFirst_cons _

theorem existsCond_cond : ∀ n, ∃ h o c, CondT .core h o (existsCond n) c ∧ (n ≠ 0 → o = false)
  | 0 => ⟨_, _, _, .factor (.plain (.pred (.cmp (s := cs!" a") (o := cs!"=") (t := cs!"1")
      (exprT_prim (.col (.col (tok_blank cs!"a") (.inl (plainName_letter (by decide))))))
      (by decide) (tok_self _) (.expr (exprT_prim (numT (by unfold Digit; decide)))))) (fun _ => by rfl)), nofun⟩
  | n + 1 => by
    obtain ⟨h, o, c, hc, -⟩ := existsCond_cond n
    have hquery := QueryT.mk (.mk (.mk (G := false) (kw_self (t := cs!"SELECT") rfl) .none .none (blankFirst_cons _) deep_cols (word_blank (t := cs!"FROM") rfl)
      (blankFirst_cons _) deep_tabs (.some (word_blank (t := cs!"WHERE") rfl) (existsCond_blank n) hc)) .nil) .none .none .none
    have hcond := CondT.factor (.plain (.pred (.exist (word_blank (t := cs!"EXISTS") rfl).1 (blankFirst_append (blankFirst_cons cs!"("))
      (SubqT.mk (tok_blank cs!"(") hquery (tok_self cs!")")))) (fun _ => by rfl))
    simp only [List.append_nil, List.append_assoc] at hcond
    exact ⟨_, _, _, hcond, fun _ => rfl⟩

theorem exists_doubling (cfg : Config) : ∀ (n : Nat) {r : Str}, FEnd false r → LogEnd r →
    2 ^ n ≤ Calls cfg sc (existsCond n ++ r)
  | 0, r, _, _ => by
    have := calls_nt cfg .sc (existsCond 0 ++ r)
    show 1 ≤ Calls cfg (.nt .sc) _
    omega
  | n + 1, r, hr, hl => by
    obtain ⟨h, o, c, hc, -⟩ := existsCond_cond n
    have hcl : FEnd true (cs!")" ++ r) := close_fEnd (tok_self _)
    have ih := exists_doubling cfg n (r := cs!")" ++ r) ⟨hcl.1, nofun⟩ (close_log (tok_self _))
    have h1 := C47_exists cfg (word_blank (t := cs!"EXISTS") rfl).1 (blankFirst_cons cs!"(") (tok_blank cs!"(")
      (kw_self (t := cs!"SELECT") rfl) .none .none (blankFirst_cons _) deep_cols (word_blank (t := cs!"FROM") rfl)
      (blankFirst_cons _) deep_tabs (word_blank (t := cs!"WHERE") rfl) (existsCond_blank n) hc (tok_self cs!")") hr hl
    have e : existsCond (n + 1) ++ r = cs!" EXISTS" ++ (cs!" (" ++ (cs!"SELECT" ++ ([] ++ ([] ++ (cs!" a" ++ (cs!" FROM" ++ (cs!" t" ++
        (cs!" WHERE" ++ (existsCond n ++ (cs!")" ++ r)))))))))) := by
      simp only [existsCond, List.append_assoc, List.nil_append]
    rw [e, Nat.pow_succ]
    exact Nat.le_of_lt (Nat.lt_of_le_of_lt (by omega) h1)

theorem existsText_noAnd (n : Nat) : ¬ HasGeometryAfterAnd (existsText n) := by
  have h1 : ∀ n, ∀ c ∈ existsCond n, lowerC c ≠ 'n' := by
    intro n
    induction n with
    | zero => decide
    | succ n ih =>
      intro c hc
      simp only [existsCond, ← List.append_assoc] at hc
      rcases List.mem_append.1 hc with hc | hc
      · rcases List.mem_append.1 hc with hc | hc
        · exact (show ∀ c ∈ cs!" EXISTS" ++ cs!" (" ++ cs!"SELECT" ++ cs!" a" ++ cs!" FROM" ++ cs!" t" ++ cs!" WHERE", lowerC c ≠ 'n' by decide) c hc
        · exact ih c hc
      · exact (show ∀ c ∈ cs!")", lowerC c ≠ 'n' by decide) c hc
  have h2 : ∀ c ∈ existsText n, lowerC c ≠ 'n' := by
    intro c hc
    rcases List.mem_append.1 hc with hc | hc
    · exact (show ∀ c ∈ cs!"SELECT a FROM t WHERE", lowerC c ≠ 'n' by decide) c hc
    · exact h1 n c hc
  rintro ⟨P, w, x, a, b, f, k, z, e, _, ha, _⟩
  have h3 : 'n' ∈ a.map lowerC := by
    rw [show a.map lowerC = (cs!"AND").map lowerC from ha]; decide
  obtain ⟨c, hc, hn⟩ := List.mem_map.1 h3
  exact h2 c (by rw [e]; simp [hc]) hn

/-- **C47**, nested subqueries: these queries of `31 n + 25` characters, with `n` subqueries inside each other, are
accepted after at least `2 ^ n` rule calls, for every table mapping. -/
theorem C47_subqueries (cfg : Config) (n : Nat) :
    (∃ q, construct cfg (existsText n) = .ok q) ∧ (existsText n).length = 31 * n + 25 ∧ 2 ^ n ≤ constructCalls cfg (existsText n) := by
  obtain ⟨h, o, c, hc, ho⟩ := existsCond_cond n
  refine ⟨?_, existsText_length n, ?_⟩
  · have hq := QueryT.mk (.mk (.mk (G := false) (kw_self (t := cs!"SELECT") rfl) .none .none (blankFirst_cons _) deep_cols (word_blank (t := cs!"FROM") rfl)
      (blankFirst_cons _) deep_tabs (.some (word_blank (t := cs!"WHERE") rfl) (existsCond_blank n) hc)) .nil) .none .none .none
    simp only [List.append_nil] at hq
    have e : existsText n = cs!"SELECT" ++ ([] ++ ([] ++ (cs!" a" ++ (cs!" FROM" ++ (cs!" t" ++ (cs!" WHERE" ++ existsCond n)))))) := by
      simp [existsText]
    have hn := existsText_noAnd n
    rw [e] at hn ⊢
    have := C39_construct cfg hq (b := []) nofun (by rw [List.append_nil]; exact hn)
    rw [List.append_nil] at this
    exact ⟨_, this⟩
  · unfold constructCalls
    rw [C27_no_geometry_after_and _ (existsText_noAnd n)]
    have key := calls_where cfg (kw_self (t := cs!"SELECT") rfl) .none .none (blankFirst_cons _) deep_cols (word_blank (t := cs!"FROM") rfl)
      (blankFirst_cons _) deep_tabs (word_blank (t := cs!"WHERE") rfl) (existsCond_blank n) hc
    refine Nat.le_trans ?_ key
    have hE : Ends [] ([] : Str) := .inl ⟨nofun, by simp [next]⟩
    have he := clause_end (o := false) (r := []) (by decide) hE
    have := exists_doubling cfg n (r := []) he.1 he.2
    rwa [List.append_nil] at this

/-- **C47**, nested subqueries, concrete case -/
example : constructCalls ⟨fun _ => none, true⟩ (existsText 2) = 182 := by
  have h : preprocess (existsText 2) = .ok (existsText 2) := C27_no_geometry_after_and _ (existsText_noAnd 2)
  unfold constructCalls
  rw [h]
  show parseCalls _ _ = 182
  kernel_rfl

end Adql
