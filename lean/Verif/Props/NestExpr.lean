import Verif.Props.Nest

/-!
# C49: deep nesting at low cost

Parentheses around a *value* are read once, so here the nesting of the rule calls grows with the text while their number
stays linear: `SELECT ((…(NULL)…)) FROM t`.
-/

namespace Adql

open P Spec Fwd

section
variable {cfg : Config} {α β : Type}

theorem calls_seq_ok {p : G α} {q : G β} {s r : Str} {a : α} (h : parse cfg p true s = .ok a r) :
    Calls cfg (.seq p q) s = Calls cfg p s + Calls cfg q r := by
  simp only [parse] at h
  unfold Calls
  simp only [cost, h]

theorem calls_seq_fail {p : G α} {q : G β} {s : Str} (h : parse cfg p true s = .fail) :
    Calls cfg (.seq p q) s = Calls cfg p s := by
  simp only [parse] at h
  unfold Calls
  simp only [cost, h]
  rfl

theorem calls_alt_ok {p q : G α} {s r : Str} {a : α} (h : parse cfg p true s = .ok a r) :
    Calls cfg (.alt p q) s = Calls cfg p s := by
  simp only [parse] at h
  unfold Calls
  simp only [cost, h]
  rfl
end

/-- The alternatives of `value_expression_primary` before the parenthesised expression. -/
def primaryHead : G Prim :=
  .alt arrayConstructor (.alt (.map .str unsignedLiteral) (.alt (.map .col columnReference)
    (.alt (.alt (.map .countStar countStar) generalSetFunction)
      (.alt (.map .case caseExpression) (.alt anyExpression (.alt (.map .str nullCast)
        (.map .str nullLiteral)))))))

section
variable {N : Type} {A : N → Type} {rec : (n : N) → Bool → Str → Res (A n)} {crec : N → Bool → Str → Nat} {α : Type}

theorem step_alt_assoc {p q r : P A α} {sk : Bool} {s : Str} :
    step rec (.alt (.alt p q) r) sk s = step rec (.alt p (.alt q r)) sk s := by
  simp only [step]
  cases step rec p sk s <;> rfl

theorem cost_alt_assoc {p q r : P A α} {sk : Bool} {s : Str} :
    cost rec crec (.alt (.alt p q) r) sk s = cost rec crec (.alt p (.alt q r)) sk s := by
  simp only [cost, step]
  cases step rec p sk s <;> simp [Nat.add_assoc]

theorem nest_alt_assoc {p q r : P A α} {sk : Bool} {s : Str} :
    nest rec crec (.alt (.alt p q) r) sk s = nest rec crec (.alt p (.alt q r)) sk s := by
  simp only [nest, step]
  cases step rec p sk s <;> simp [Nat.max_assoc]

/-- regrouping below an alternative -/
theorem cost_alt_congr {p q r : P A α} {sk : Bool} {s : Str} (h : cost rec crec q sk s = cost rec crec r sk s) :
    cost rec crec (.alt p q) sk s = cost rec crec (.alt p r) sk s := by
  simp only [cost]
  cases step rec p sk s <;> simp [h]

@[inherit_doc cost_alt_congr]
theorem nest_alt_congr {p q r : P A α} {sk : Bool} {s : Str} (h : nest rec crec q sk s = nest rec crec r sk s) :
    nest rec crec (.alt p q) sk s = nest rec crec (.alt p r) sk s := by
  simp only [nest]
  cases step rec p sk s <;> simp [h]
end

theorem calls_primary (cfg : Config) (s : Str) :
    Calls cfg primary s = Calls cfg (.alt primaryHead valueSubexpression) s := by
  unfold primary primaryHead Calls
  iterate 7 (refine (cost_alt_congr ?_).trans cost_alt_assoc.symm)
  rfl

theorem nesting_primary (cfg : Config) (s : Str) :
    Nesting cfg primary s = Nesting cfg (.alt primaryHead valueSubexpression) s := by
  unfold primary primaryHead Nesting
  iterate 7 (refine (nest_alt_congr ?_).trans nest_alt_assoc.symm)
  rfl

/-- What is tried before the parenthesis is found to be one: nothing matches, one rule call. -/
structure OpenParen (cfg : Config) (s u : Str) : Prop where
  sign : parse cfg (optS Adql.sign) true s = .ok [] s
  signCalls : Calls cfg (optS Adql.sign) s = 0
  fn : parse cfg (.map NumPrim.nvf numericValueFunction) true s = .fail
  fnCalls : Calls cfg (.map NumPrim.nvf numericValueFunction) s = 0
  head : parse cfg primaryHead true s = .fail
  headCalls : Calls cfg primaryHead s = 1
  op : parse cfg (sym cs!"(") true s = .ok cs!"(" u
  opCalls : Calls cfg (sym cs!"(") s = 0

theorem openParen (cfg : Config) (u : Str) : OpenParen cfg ('(' :: u) u := by
  obtain ⟨m, r⟩ := cfg
  cases r <;> constructor <;> kernel_rfl

theorem openParen_blank (cfg : Config) (u : Str) : OpenParen cfg (' ' :: '(' :: u) u := by
  obtain ⟨m, r⟩ := cfg
  cases r <;> constructor <;> kernel_rfl

/-- Nothing of an expression follows. -/
structure ExprStop (cfg : Config) (r : Str) : Prop where
  idx : parse cfg (.star arrayIndex) true r = .ok [] r
  idxCalls : Calls cfg (.star arrayIndex) r = 0
  terms : parse cfg (.star venbTerm) true r = .ok [] r
  termsCalls : Calls cfg (.star venbTerm) r = 0

theorem exprStop_close (cfg : Config) (r : Str) : ExprStop cfg (')' :: r) := by
  obtain ⟨m, b⟩ := cfg
  cases b <;> constructor <;> kernel_rfl

theorem exprStop_from (cfg : Config) (r : Str) : ExprStop cfg (' ' :: 'F' :: r) := by
  obtain ⟨m, b⟩ := cfg
  cases b <;> constructor <;> kernel_rfl

/-- One pair of parentheses around a value: three more calls, and the calls are two deeper. -/
theorem value_paren (cfg : Config) {s u r : Str} {v : VE} (hs : OpenParen cfg s u) (hv : parse cfg ve true u = .ok v (')' :: r))
    (hr : ExprStop cfg r) :
    (∃ v', parse cfg ve true s = .ok v' r) ∧ Calls cfg ve s = 3 + Calls cfg ve u ∧ 2 + Nesting cfg ve u ≤ Nesting cfg ve s := by
  -- ( expression )
  have hcl : parse cfg (sym cs!")") true (')' :: r) = .ok cs!")" r := rfl
  have p1 : parse cfg valueSubexpression true s = .ok (.sub v) r :=
    map_ok (f := Prim.sub) (seqR_ok hs.op (seqL_ok hv hcl))
  have c1 : Calls cfg valueSubexpression s = Calls cfg ve u := by
    show Calls cfg (.seq (sym cs!"(") (seqL ve (sym cs!")"))) s = _
    rw [calls_seq_ok hs.op, hs.opCalls, Nat.zero_add]
    show Calls cfg (.seq ve (sym cs!")")) u = _
    rw [calls_seq_ok hv]
    rfl
  have n1 : Nesting cfg ve u ≤ Nesting cfg valueSubexpression s :=
    Nat.le_trans (nesting_seq1 (q := sym cs!")")) (nesting_seq (q := seqL ve (sym cs!")")) hs.op)
  -- the primary
  have p2 : parse cfg primary true s = .ok (.sub v) r := by
    have : parse cfg primary true s = parse cfg (.alt primaryHead valueSubexpression) true s := by
      unfold primary primaryHead parse
      have alt_congr : ∀ {α : Type} {p q r : G α}, step (D cfg) q true s = step (D cfg) r true s →
          step (D cfg) (.alt p q) true s = step (D cfg) (.alt p r) true s := by
        intro α p q r h
        simp only [step]
        cases step (D cfg) p true s <;> simp [h]
      iterate 7 (refine (alt_congr ?_).trans step_alt_assoc.symm)
      rfl
    rw [this, alt_right hs.head, p1]
  have c2 : Calls cfg primary s = 1 + Calls cfg ve u := by
    rw [calls_primary, calls_alt hs.head, hs.headCalls, c1]
  have n2 : Nesting cfg ve u ≤ Nesting cfg primary s := by
    rw [nesting_primary]
    exact Nat.le_trans n1 (nesting_alt2 hs.head)
  -- the operand
  have p3 : parse cfg valueExpressionPrimary true s = .ok (.mk (.sub v) []) r :=
    map_ok (f := fun x : Prim × List VE => VEP.mk x.1 x.2) (seq_ok p2 hr.idx)
  have c3 : Calls cfg valueExpressionPrimary s = 1 + Calls cfg ve u := by
    show Calls cfg (.seq primary (.star arrayIndex)) s = _
    rw [calls_seq_ok p2, c2, hr.idxCalls, Nat.add_zero]
  have n3 : Nesting cfg ve u ≤ Nesting cfg valueExpressionPrimary s := Nat.le_trans n2 (nesting_seq1 (q := .star arrayIndex))
  have p4 : parse cfg numericPrimary true s = .ok (.vep (.mk (.sub v) [])) r := by
    rw [numericPrimary, alt_right hs.fn]; exact map_ok p3
  have c4 : Calls cfg numericPrimary s = 1 + Calls cfg ve u := by
    rw [numericPrimary, calls_alt hs.fn, hs.fnCalls, Nat.zero_add]; exact c3
  have n4 : Nesting cfg ve u ≤ Nesting cfg numericPrimary s :=
    Nat.le_trans n3 (nesting_alt2 (q := .map NumPrim.vep valueExpressionPrimary) hs.fn)
  have p5 : parse cfg factor true s = .ok (.mk [] (.vep (.mk (.sub v) []))) r :=
    map_ok (f := fun x : Str × NumPrim => Factor.mk x.1 x.2) (seq_ok hs.sign p4)
  have c5 : Calls cfg factor s = 1 + Calls cfg ve u := by
    show Calls cfg (.seq (optS sign) numericPrimary) s = _
    rw [calls_seq_ok hs.sign, hs.signCalls, Nat.zero_add, c4]
  have n5 : Nesting cfg ve u ≤ Nesting cfg factor s := Nat.le_trans n4 (nesting_seq (cfg := cfg) hs.sign)
  -- the expression
  have p6 : parse cfg venb true s = .ok (.mk (.mk [] (.vep (.mk (.sub v) []))) []) r := by
    rw [venb, parse_nt]
    exact map_ok (f := fun x : Factor × List Term => VENB.mk x.1 x.2) (seq_ok p5 hr.terms)
  have c6 : Calls cfg venb s = 2 + Calls cfg ve u := by
    rw [venb, calls_nt]
    show 1 + Calls cfg (.seq factor (.star venbTerm)) s = _
    rw [calls_seq_ok p5, c5, hr.termsCalls]
    omega
  have n6 : 1 + Nesting cfg ve u ≤ Nesting cfg venb s := by
    rw [venb, nesting_nt]
    have : Nesting cfg factor s ≤ Nesting cfg (grammar cfg .venb) s := nesting_seq1 (q := .star venbTerm)
    omega
  refine ⟨⟨VE.nb (.mk (.mk [] (.vep (.mk (.sub v) []))) []), ?_⟩, ?_, ?_⟩
  · rw [ve, parse_nt]; exact alt_left (map_ok p6)
  · have e : Calls cfg ve s = 1 + Calls cfg (.alt (.map VE.nb venb) (.map VE.sc sc)) s := calls_nt cfg .ve s
    rw [e, calls_alt_ok (map_ok (f := VE.nb) p6)]
    show 1 + Calls cfg venb s = _
    omega
  · have e : Nesting cfg ve s = 1 + Nesting cfg (.alt (.map VE.nb venb) (.map VE.sc sc)) s := nesting_nt cfg .ve s
    have : Nesting cfg venb s ≤ Nesting cfg (.alt (.map VE.nb venb) (.map VE.sc sc)) s := nesting_alt1 (p := .map VE.nb venb)
    omega

theorem null_value (cfg : Config) (r : Str) : (∃ v, parse cfg ve true (cs!"NULL" ++ ')' :: r) = .ok v (')' :: r)) ∧
    Calls cfg ve (cs!"NULL" ++ ')' :: r) = 3 := by
  refine ⟨⟨.nb (.mk (.mk [] (.vep (.mk (.str cs!"NULL") []))) []), ?_⟩, ?_⟩ <;> obtain ⟨m, b⟩ := cfg <;> cases b <;> kernel_rfl

theorem value_parens (cfg : Config) : ∀ (n : Nat) (r : Str),
    (∃ v, parse cfg ve true (parens n cs!"NULL" ++ ')' :: r) = .ok v (')' :: r)) ∧
      Calls cfg ve (parens n cs!"NULL" ++ ')' :: r) = 3 * n + 3 ∧ 2 * n ≤ Nesting cfg ve (parens n cs!"NULL" ++ ')' :: r)
  | 0, r => ⟨(null_value cfg r).1, (null_value cfg r).2, by omega⟩
  | n + 1, r => by
    have e : parens (n + 1) cs!"NULL" ++ ')' :: r = '(' :: (parens n cs!"NULL" ++ ')' :: ')' :: r) := by
      simp [parens]
    obtain ⟨⟨v, hv⟩, hc, hn⟩ := value_parens cfg n (')' :: r)
    obtain ⟨h1, h2, h3⟩ := value_paren cfg (openParen cfg _) hv (exprStop_close cfg r)
    rw [e]
    exact ⟨h1, by omega, by omega⟩

/-! ### The query -/

/-- The query of the next theorem. -/
def flatText (n : Nat) : Str := cs!"SELECT " ++ (parens (n + 1) cs!"NULL" ++ cs!" FROM t")

theorem flatText_length (n : Nat) : (flatText n).length = 2 * n + 20 := by
  simp only [flatText, List.length_append, parens_length]
  simp
  omega

theorem flat_value (cfg : Config) (n : Nat) :
    (∃ v, parse cfg ve true (' ' :: (parens (n + 1) cs!"NULL" ++ cs!" FROM t")) = .ok v cs!" FROM t") ∧
      Calls cfg ve (' ' :: (parens (n + 1) cs!"NULL" ++ cs!" FROM t")) = 3 * n + 6 ∧
      2 * n + 2 ≤ Nesting cfg ve (' ' :: (parens (n + 1) cs!"NULL" ++ cs!" FROM t")) := by
  have e : parens (n + 1) cs!"NULL" ++ cs!" FROM t" = '(' :: (parens n cs!"NULL" ++ ')' :: cs!" FROM t") := by
    simp [parens]
  obtain ⟨⟨v, hv⟩, hc, hn⟩ := value_parens cfg n cs!" FROM t"
  obtain ⟨h1, h2, h3⟩ := value_paren cfg (openParen_blank cfg _) hv (exprStop_from cfg _)
  rw [e]
  exact ⟨h1, by omega, by omega⟩

theorem from_calls (cfg : Config) : Calls cfg (.seq fromClause (optD Where.dflt whereClause)) cs!" FROM t" = 4 := by
  obtain ⟨m, b⟩ := cfg
  cases b <;> kernel_rfl

theorem from_ok (cfg : Config) : ∃ f, parse cfg (.seq fromClause (optD Where.dflt whereClause)) true cs!" FROM t" = .ok f [] := by
  refine ⟨([.tc ⟨cs!"t", []⟩], Where.dflt), ?_⟩
  obtain ⟨m, b⟩ := cfg
  cases b <;> kernel_rfl

theorem flat_assemble {cfg : Config} {n : Nat} {x y rest : Str} {v : VE} {fr : List TR × Where}
    (hv : parse cfg ve true y = .ok v rest) (hc : Calls cfg ve y = 3 * n + 6) (hn : 2 * n + 2 ≤ Nesting cfg ve y)
    (w : parse cfg (optD With.dflt withClause) true x = .ok With.dflt x ∧ Calls cfg (optD With.dflt withClause) x = 0)
    (k : parse cfg (wordX cs!"SELECT") true x = .ok cs!"SELECT" y ∧ Calls cfg (wordX cs!"SELECT") x = 0)
    (q : parse cfg (optS setQuantifier) true y = .ok [] y ∧ Calls cfg (optS setQuantifier) y = 0)
    (t : parse cfg topClause true y = .ok topMax y ∧ Calls cfg topClause y = 0)
    (a : parse cfg (.map Columns.star (sym cs!"*")) true y = .fail ∧ Calls cfg (.map Columns.star (sym cs!"*")) y = 0)
    (s : parse cfg (.map Item.nonAsStr qualifierStar) true y = .fail ∧ Calls cfg (.map Item.nonAsStr qualifierStar) y = 1)
    (f : parse cfg (word cs!"AS") true rest = .fail ∧ Calls cfg (word cs!"AS") rest = 0)
    (m : parse cfg (.star (seqR (sym cs!",") selectItem)) true rest = .ok [] rest ∧ Calls cfg (.star (seqR (sym cs!",") selectItem)) rest = 0)
    (z : Calls cfg (.star (.map (fun x : Str × SFW => Addon.mk x.1 x.2) (.seq unionOp (sfwWith whereClause)))) [] = 0 ∧
      Calls cfg (.seq (optD [] groupBy) (.seq (optD SC.dflt having) (optD [] orderBy))) [] = 0)
    (hz : parse cfg (.star (.map (fun x : Str × SFW => Addon.mk x.1 x.2) (.seq unionOp (sfwWith whereClause)))) true [] = .ok [] [])
    (hfr : parse cfg (.seq fromClause (optD Where.dflt whereClause)) true rest = .ok fr [])
    (hfc : Calls cfg (.seq fromClause (optD Where.dflt whereClause)) rest = 4) :
    Calls cfg query x = 6 * n + 17 ∧ 2 * n + 2 ≤ Nesting cfg query x := by
  -- one column
  have p1 : parse cfg asItem true y = .fail :=
    Fwd.map_fail (Fwd.seq_fail (Fwd.map_fail (Fwd.seq_fail2 hv f.1)))
  have c1 : Calls cfg asItem y = 3 * n + 6 := by
    have h : parse cfg (seqL ve (word cs!"AS")) true y = .fail := Fwd.map_fail (Fwd.seq_fail2 hv f.1)
    show Calls cfg (.seq (seqL ve (word cs!"AS")) (.expect "column_name" identifier)) _ = _
    rw [calls_seq_fail h]
    show Calls cfg (.seq ve (word cs!"AS")) _ = _
    rw [calls_seq_ok hv, hc, f.2]
  have p2 : parse cfg selectItem true y = .ok (.nonAsVE v) rest := by
    rw [selectItem, alt_right p1, alt_right s.1]; exact map_ok hv
  have c2 : Calls cfg selectItem y = 6 * n + 13 := by
    rw [selectItem, calls_alt p1, c1, calls_alt s.1, s.2]
    show _ + (1 + Calls cfg ve _) = _
    rw [hc]; omega
  have n1 : 2 * n + 2 ≤ Nesting cfg asItem y := by
    have h1 : Nesting cfg ve y ≤ Nesting cfg (seqL ve (word cs!"AS")) y := nesting_seq1 (q := word cs!"AS")
    have h2 : Nesting cfg (seqL ve (word cs!"AS")) y ≤ Nesting cfg asItem y :=
      nesting_seq1 (p := seqL ve (word cs!"AS")) (q := .expect "column_name" identifier)
    omega
  have n2 : 2 * n + 2 ≤ Nesting cfg selectItem y := by
    unfold selectItem
    exact Nat.le_trans n1 nesting_alt1
  -- the columns
  have p3 : parse cfg columns true y = .ok (.items [.nonAsVE v]) rest := by
    rw [columns, alt_right a.1]
    exact map_ok (f := Columns.items) (map_ok (f := fun x : Item × List Item => x.1 :: x.2) (seq_ok p2 m.1))
  have c3 : Calls cfg columns y = 6 * n + 13 := by
    rw [columns, calls_alt a.1, a.2]
    show 0 + Calls cfg (.seq selectItem (.star (seqR (sym cs!",") selectItem))) _ = _
    rw [calls_seq_ok p2, c2, m.2]; omega
  have n3 : 2 * n + 2 ≤ Nesting cfg columns y :=
    Nat.le_trans n2 (Nat.le_trans (nesting_seq1 (q := .star (seqR (sym cs!",") selectItem))) (nesting_alt2 (q := .map Columns.items (sepBy selectItem (sym cs!","))) a.1))
  -- SELECT
  have p4 : parse cfg select true x = .ok (.mk [] topMax (.items [.nonAsVE v])) rest :=
    map_ok (f := fun x : Str × Nat × Columns => Select.mk x.1 x.2.1 x.2.2)
      (seqR_ok k.1 (seq_ok q.1 (seq_ok t.1 (expect_ok p3))))
  have c4 : Calls cfg select x = 6 * n + 13 := by
    show Calls cfg (.seq (wordX cs!"SELECT") (.seq (optS setQuantifier) (.seq topClause (.expect "columns" columns)))) _ = _
    rw [calls_seq_ok k.1, k.2, calls_seq_ok q.1, q.2, calls_seq_ok t.1, t.2]
    show 0 + (0 + (0 + Calls cfg columns _)) = _
    omega
  have n4 : 2 * n + 2 ≤ Nesting cfg select x :=
    Nat.le_trans n3 (Nat.le_trans (nesting_seq (q := .expect "columns" columns) t.1)
      (Nat.le_trans (nesting_seq q.1) (nesting_seq (p := wordX cs!"SELECT") k.1)))
  -- the query
  have p5 : parse cfg (sfwWith whereClause) true x =
      .ok (.mk (.mk [] topMax (.items [.nonAsVE v])) fr.1 fr.2) [] :=
    map_ok (f := fun x : Select × List TR × Where => SFW.mk x.1 x.2.1 x.2.2) (seq_ok p4 (expect_ok hfr))
  have c5 : Calls cfg (sfwWith whereClause) x = 6 * n + 17 := by
    show Calls cfg (.seq select (.expect "from" (.seq fromClause (optD Where.dflt whereClause)))) _ = _
    rw [calls_seq_ok p4, c4]
    show _ + Calls cfg (.seq fromClause (optD Where.dflt whereClause)) _ = _
    rw [hfc]
  have p6 : parse cfg (sfwList whereClause) true x =
      .ok (.mk (.mk (.mk [] topMax (.items [.nonAsVE v])) fr.1 fr.2) []) [] := by
    exact map_ok (f := fun x : SFW × List Addon => SFWList.mk x.1 x.2) (seq_ok p5 hz)
  have c6 : Calls cfg (sfwList whereClause) x = 6 * n + 17 := by
    show Calls cfg (.seq (sfwWith whereClause) (.star (.map (fun x : Str × SFW => Addon.mk x.1 x.2) (.seq unionOp (sfwWith whereClause))))) _ = _
    rw [calls_seq_ok p5, c5, z.1]
  constructor
  · show Calls cfg (.seq (optD With.dflt withClause) (.seq (sfwList whereClause) (.seq (optD [] groupBy) (.seq (optD SC.dflt having) (optD [] orderBy))))) _ = _
    rw [calls_seq_ok w.1, w.2, calls_seq_ok p6, c6, z.2]
    omega
  · refine Nat.le_trans n4 (Nat.le_trans ?_ (nesting_seq (cfg := cfg) (p := optD With.dflt withClause) w.1))
    have h1 : Nesting cfg select x ≤ Nesting cfg (sfwWith whereClause) x :=
      nesting_seq1 (q := .expect "from" (.seq fromClause (optD Where.dflt whereClause)))
    have h2 : Nesting cfg (sfwWith whereClause) x ≤ Nesting cfg (sfwList whereClause) x :=
      nesting_seq1 (q := .star (.map (fun x : Str × SFW => Addon.mk x.1 x.2) (.seq unionOp (sfwWith whereClause))))
    exact Nat.le_trans (Nat.le_trans h1 h2) nesting_seq1

theorem flat_query (cfg : Config) (n : Nat) :
    Calls cfg query (flatText n) = 6 * n + 17 ∧ 2 * n + 2 ≤ Nesting cfg query (flatText n) := by
  obtain ⟨⟨v, hv⟩, hc, hn⟩ := flat_value cfg n
  have e : flatText n = 'S' :: 'E' :: 'L' :: 'E' :: 'C' :: 'T' :: ' ' :: '(' :: (parens n cs!"NULL" ++ ')' :: cs!" FROM t") := by
    simp [flatText, parens]
  have e' : (' ' :: (parens (n + 1) cs!"NULL" ++ cs!" FROM t")) = ' ' :: '(' :: (parens n cs!"NULL" ++ ')' :: cs!" FROM t") := by
    simp [parens]
  rw [e'] at hv hc hn
  clear e'
  rw [e]
  clear e
  generalize parens n cs!"NULL" ++ ')' :: cs!" FROM t" = u at hv hc hn
  -- the heads of the clauses
  have w : parse cfg (optD With.dflt withClause) true ('S' :: 'E' :: 'L' :: 'E' :: 'C' :: 'T' :: ' ' :: '(' :: u) =
      .ok With.dflt ('S' :: 'E' :: 'L' :: 'E' :: 'C' :: 'T' :: ' ' :: '(' :: u) ∧
      Calls cfg (optD With.dflt withClause) ('S' :: 'E' :: 'L' :: 'E' :: 'C' :: 'T' :: ' ' :: '(' :: u) = 0 := by
    obtain ⟨m, b⟩ := cfg
    cases b <;> constructor <;> kernel_rfl
  have k : parse cfg (wordX cs!"SELECT") true ('S' :: 'E' :: 'L' :: 'E' :: 'C' :: 'T' :: ' ' :: '(' :: u) =
      .ok cs!"SELECT" (' ' :: '(' :: u) ∧
      Calls cfg (wordX cs!"SELECT") ('S' :: 'E' :: 'L' :: 'E' :: 'C' :: 'T' :: ' ' :: '(' :: u) = 0 := by
    obtain ⟨m, b⟩ := cfg
    cases b <;> constructor <;> kernel_rfl
  have q : parse cfg (optS setQuantifier) true (' ' :: '(' :: u) = .ok [] (' ' :: '(' :: u) ∧
      Calls cfg (optS setQuantifier) (' ' :: '(' :: u) = 0 := by
    obtain ⟨m, b⟩ := cfg
    cases b <;> constructor <;> kernel_rfl
  have t : parse cfg topClause true (' ' :: '(' :: u) = .ok topMax (' ' :: '(' :: u) ∧
      Calls cfg topClause (' ' :: '(' :: u) = 0 := by
    obtain ⟨m, b⟩ := cfg
    cases b <;> constructor <;> kernel_rfl
  have a : parse cfg (.map Columns.star (sym cs!"*")) true (' ' :: '(' :: u) = .fail ∧
      Calls cfg (.map Columns.star (sym cs!"*")) (' ' :: '(' :: u) = 0 := by
    obtain ⟨m, b⟩ := cfg
    cases b <;> constructor <;> kernel_rfl
  have s : parse cfg (.map Item.nonAsStr qualifierStar) true (' ' :: '(' :: u) = .fail ∧
      Calls cfg (.map Item.nonAsStr qualifierStar) (' ' :: '(' :: u) = 1 := by
    obtain ⟨m, b⟩ := cfg
    cases b <;> constructor <;> kernel_rfl
  have f : parse cfg (word cs!"AS") true cs!" FROM t" = .fail ∧ Calls cfg (word cs!"AS") cs!" FROM t" = 0 := by
    obtain ⟨m, b⟩ := cfg
    cases b <;> constructor <;> kernel_rfl
  have m : parse cfg (.star (seqR (sym cs!",") selectItem)) true cs!" FROM t" = .ok [] cs!" FROM t" ∧
      Calls cfg (.star (seqR (sym cs!",") selectItem)) cs!" FROM t" = 0 := by
    obtain ⟨m, b⟩ := cfg
    cases b <;> constructor <;> kernel_rfl
  have z : Calls cfg (.star (.map (fun x : Str × SFW => Addon.mk x.1 x.2) (.seq unionOp (sfwWith whereClause)))) [] = 0 ∧
      Calls cfg (.seq (optD [] groupBy) (.seq (optD SC.dflt having) (optD [] orderBy))) [] = 0 := by
    obtain ⟨m, b⟩ := cfg
    cases b <;> constructor <;> kernel_rfl
  have hz : parse cfg (.star (.map (fun x : Str × SFW => Addon.mk x.1 x.2) (.seq unionOp (sfwWith whereClause)))) true [] = .ok [] [] := by
    obtain ⟨m, b⟩ := cfg
    cases b <;> kernel_rfl
  obtain ⟨fr, hfr⟩ := from_ok cfg
  exact flat_assemble hv hc hn w k q t a s f m z hz hfr (from_calls cfg)

theorem flatText_noAnd (n : Nat) : ¬ HasGeometryAfterAnd (flatText n) := by
  have h1 : ∀ n, ∀ c ∈ parens n cs!"NULL", c ∈ cs!"(NULL)" := by
    intro n
    induction n with
    | zero => decide
    | succ n ih =>
      intro c hc
      simp only [parens, List.mem_append, List.mem_singleton] at hc
      rcases hc with rfl | hc | rfl
      · decide
      · exact ih c hc
      · decide
  have h2 : ∀ c ∈ flatText n, lowerC c ≠ 'd' := by
    intro c hc
    rcases List.mem_append.1 hc with hc | hc
    · exact (show ∀ c ∈ cs!"SELECT ", lowerC c ≠ 'd' by decide) c hc
    · rcases List.mem_append.1 hc with hc | hc
      · exact (show ∀ c ∈ cs!"(NULL)", lowerC c ≠ 'd' by decide) c (h1 _ c hc)
      · exact (show ∀ c ∈ cs!" FROM t", lowerC c ≠ 'd' by decide) c hc
  rintro ⟨P, w, x, a, b, f, k, z, e, _, ha, _⟩
  have h3 : 'd' ∈ a.map lowerC := by
    rw [show a.map lowerC = (cs!"AND").map lowerC from ha]; decide
  obtain ⟨c, hc, hn⟩ := List.mem_map.1 h3
  exact h2 c (by rw [e]; simp [hc]) hn

theorem exprT_parens : ∀ n, ∃ v, ExprT .core (parens n cs!"NULL") v
  | 0 => ⟨_, exprT_prim (.null (kw_self rfl))⟩
  | n + 1 => by
    obtain ⟨v, h⟩ := exprT_parens n
    exact ⟨_, exprT_prim (.sub (tok_self _) (.expr h) (tok_self _))⟩

theorem flatText_query (n : Nat) : ∃ q, QueryT .core false (flatText n) q := by
  obtain ⟨v, hv⟩ := exprT_parens n
  have hcols : ColumnsT .core _ _ := .items (.one (.expr (.expr (exprT_prim (.sub (tok_blank cs!"(") (.expr hv) (tok_self cs!")"))))))
  have := QueryT.mk (.mk (.mk (G := false) (kw_self (t := cs!"SELECT") rfl) .none .none (blankFirst_cons _) hcols (word_blank (t := cs!"FROM") rfl)
    (blankFirst_cons _) deep_tabs .none) .nil) .none .none .none
  simp only [List.append_nil] at this
  have e : flatText n = cs!"SELECT" ++ ([] ++ ([] ++ (' ' :: cs!"(".append (parens n cs!"NULL" ++ cs!")") ++ (cs!" FROM" ++ cs!" t")))) := by
    simp [flatText, parens]
  rw [e]
  exact ⟨_, this⟩

/-- **C49**, at low cost: these queries of `2 n + 20` characters are accepted after `6 n + 17` rule calls, of which at
least `2 n + 2` are open at the same time. -/
theorem C49_cheap (cfg : Config) (n : Nat) :
    (∃ q, construct cfg (flatText n) = .ok q) ∧ (flatText n).length = 2 * n + 20 ∧
      constructCalls cfg (flatText n) = 6 * n + 17 ∧ 2 * n + 2 ≤ constructNest cfg (flatText n) := by
  have hp := C27_no_geometry_after_and _ (flatText_noAnd n)
  have hq := flat_query cfg n
  refine ⟨?_, flatText_length n, ?_, ?_⟩
  · obtain ⟨q, hq⟩ := flatText_query n
    have := C39_construct cfg hq (b := []) nofun (by rw [List.append_nil]; exact flatText_noAnd n)
    rw [List.append_nil] at this
    exact ⟨q, this⟩
  · unfold constructCalls
    rw [hp]
    exact (parseCalls_eq cfg _).trans hq.1
  · unfold constructNest
    rw [hp]
    show _ ≤ parseNest cfg _
    rw [parseNest_eq]
    exact hq.2

/-- **C49**, non-trivial case: one hundred characters, forty-one pairs of parentheses. -/
example (cfg : Config) : (flatText 40).length = 100 ∧ constructCalls cfg (flatText 40) = 257 ∧ 82 ≤ constructNest cfg (flatText 40) :=
  (C49_cheap cfg 40).2

end Adql
