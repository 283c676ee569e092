import Verif.Model.AcceptSelect
import Verif.Model.AcceptGeom

/-!
# Running the grammar forward: queries
-/

namespace Adql.Fwd

open P Spec

variable {cfg : Config} {sk : Bool} {S : Mode} [Fits S cfg]

/-- What follows a clause, where no comma is possible. -/
def EndsQ (ws : List Str) (r : Str) : Prop := Ends ws r ∧ next r ≠ some ','

theorem endsQ_mono {ws ws' : List Str} (h : ∀ w ∈ ws, w ∈ ws') {r : Str} (hr : EndsQ ws r) : EndsQ ws' r :=
  ⟨ends_mono h hr.1, hr.2⟩

theorem endsQ_word {ws : List Str} {w k k' y : Str} (hw : w ∈ ws) (hs : wordShape w = true) (hk : Word w k k') (hy : NotContinued y) :
    EndsQ ws (k ++ y) := by
  refine ⟨.inr ⟨w, k, k', y, hw, hk, hy, rfl⟩, ?_⟩
  obtain ⟨e, hk⟩ := word_start hk hs hy
  obtain ⟨c, h1, h2⟩ := kwStart_next hk e
  rw [h1]; rintro ⟨⟩; exact absurd h2 (by decide)

theorem close_endsQ {ws : List Str} {c r : Str} (h : Tok cs!")" c) : EndsQ ws (c ++ r) :=
  ⟨close_ends h, by rw [tok_next h rfl (by decide)]; decide⟩

/-- what follows a condition in a clause -/
theorem clause_end {ws : List Str} {o : Bool} {r : Str} (hw : (ws.all fun w => clauseWords.contains w) = true) (h : Ends ws r) :
    FEnd o r ∧ LogEnd r := by
  have h' : Ends clauseWords r := ends_mono (fun w hm => List.contains_iff_mem.1 (all_mem hw hm)) h
  exact ⟨⟨ends_expr (by decide) h', fun _ => ends_bare (by decide) (by decide) h'⟩, ends_log (by decide) (by decide) h'⟩

/-! ### ORDER BY -/

theorem dir_ok {k t r : Str} (h : DirT k t) (hr : Ends [] r) :
    parse cfg (optS (.lexeme (.alt (kw cs!"ASC") (kw cs!"DESC")))) true (k ++ r) = .ok t r := by
  cases h with
  | none =>
    refine optD_none ?_
    simp only [parse, run_lexeme]
    have hn := fun w h => ends_none (w' := w) (ws := []) (by decide) hr h
    exact alt_fail (kw_none (bare_skip r) (hn _ (by decide))) (kw_none (bare_skip r) (hn _ (by decide)))
  | some h =>
    obtain ⟨w, hw, h⟩ := h
    have hs : wordShape w = true := by
      have : ([cs!"ASC", cs!"DESC"].all wordShape) = true := by decide
      exact all_mem this hw
    obtain ⟨e, hk⟩ := word_start h hs (ends_expr (by decide) hr).1.1.1
    refine optD_ok ?_
    simp only [parse, run_lexeme, e]
    simp only [List.mem_cons, List.not_mem_nil, or_false] at hw
    rcases hw with rfl | rfl
    · exact alt_left (kw_start hk)
    · exact (alt_right (kw_none hk.bare (hk.none (by decide)))).trans (kw_start hk)

theorem dir_end {k t r : Str} (h : DirT k t) (hr : Ends [] r) : Ends [cs!"ASC", cs!"DESC"] (k ++ r) := by
  cases h with
  | none => exact ends_mono (by decide) hr
  | some h =>
    obtain ⟨w, hw, h⟩ := h
    exact .inr ⟨w, k, t, r, hw, h, (ends_expr (by decide) hr).1.1.1, rfl⟩

theorem unsignedInteger_ok {d s r : Str} (hs : Tok d s) (hd : Digits d) (hr : NotContinued r) :
    parse cfg unsignedInteger true (s ++ r) = .ok d r := by
  obtain ⟨b, hb, rfl⟩ := hs
  obtain ⟨c, t, hct, hc, -⟩ := digits_notBlank hd
  have hbare : Bare (d ++ r) := by rw [hct]; exact bare_cons hc
  rw [List.append_assoc]
  simp only [unsignedInteger, parse, run_lexeme, skip_blanks hb, skip_bare hbare, run_plusS_chS]
  have h1 : (d ++ r).takeWhile isDigit = d ∧ (d ++ r).dropWhile isDigit = r := by
    obtain ⟨-, hd⟩ := hd
    have hz : r.takeWhile isDigit = [] ∧ r.dropWhile isDigit = r := by
      cases r with
      | nil => exact ⟨rfl, rfl⟩
      | cons e r =>
        rw [notContinued_iff] at hr
        have := hr e r rfl
        have : isDigit e = false := by
          cases he : isDigit e with
          | false => rfl
          | true =>
            have h2 : isIdChar e = true := by
              rw [isIdChar_toNat]
              simp only [isDigit, Bool.and_eq_true, decide_eq_true_eq] at he
              omega
            rw [h2] at this; cases this
        simp [this]
    clear hct hbare hc hr
    induction d with
    | nil => exact hz
    | cons c d ih =>
      have hc := isDigit_iff.2 (hd c (by simp))
      have := ih fun x hx => hd x (by simp [hx])
      simp [hc, this.1, this.2]
  rw [h1.1, h1.2, hct]
  rfl

theorem sort_ok {s r : Str} {x : SortSpec} (h : SortT S s x) (hr : Ends [] r) :
    parse cfg sortSpecification true (s ++ r) = .ok x r := by
  cases h with
  | col hc hd =>
    rw [List.append_assoc]
    have he := ends_expr (by decide) (dir_end hd hr)
    exact map_ok (f := fun x : (Str ⊕ ColRef) × Str => (⟨x.1, x.2⟩ : SortSpec))
      (seq_ok (alt_left (map_ok (col_ok hc (primEnd_col he.1.1)))) (dir_ok hd hr))
  | num hs hd hk =>
    rw [List.append_assoc]
    have he := ends_expr (by decide) (dir_end hk hr)
    refine map_ok (f := fun x : (Str ⊕ ColRef) × Str => (⟨x.1, x.2⟩ : SortSpec))
      (seq_ok ((alt_right (map_fail ?_)).trans (map_ok (unsignedInteger_ok hs hd he.1.1.1))) (dir_ok hk hr))
    obtain ⟨c, t, hct, hsp⟩ := digits_notBlank hd
    have hc := isDigit_iff.2 (hd.2 c (by rw [hct]; simp))
    have hl : isLetter c = false := by
      cases h : isLetter c with
      | false => rfl
      | true =>
        rw [isLetter_toNat] at h
        simp only [isDigit, Bool.and_eq_true, decide_eq_true_eq] at hc
        omega
    rw [parse_skip (by simp) (by simp), show skip true (_ ++ _) = _ from tok_drop hs hct hsp.1, hct]
    refine col_fail (ident_fail (bare_cons hsp.1) ?_ ?_) (tap_fail (bare_cons hsp.1) ?_)
    · intro d z e; cases e; exact hl
    · intro z e; cases e; exact absurd hc (by decide)
    · intro z e
      simp only [List.cons_append, List.cons.injEq] at e
      rw [e.1] at hc; exact absurd hc (by decide)

theorem sorts_ok {s : Str} {l : List SortSpec} (h : SortsT S s l) {r : Str} (hr : EndsQ [] r) :
    parse cfg (sepBy sortSpecification (sym cs!",")) true (s ++ r) = .ok l r := by
  induction h with
  | one h => exact sepBy_one (sort_ok h hr.1) (sym_fail hr.2)
  | cons h hm ht ih =>
    simp only [List.append_assoc]
    exact sepBy_cons (by simp) (sort_ok h (comma_ends hm)) (sym_ok1 (by decide) hm) ih

theorem order_ok {s : Str} {l : List SortSpec} (h : OrderT S s l) {r : Str} (hr : EndsQ [] r) :
    parse cfg (optD [] orderBy) true (s ++ r) = .ok l r := by
  cases h with
  | none => exact optD_none (seqR_fail (wordX_fail (ends_none (by decide) hr.1 (by decide))))
  | some ho hb hbs hs =>
    simp only [List.append_assoc]
    exact optD_ok (seqR_ok (wordX_ok ho.1 (by decide) (blankFirst_append hb.2))
      (seqR_ok (wordX_ok hb.1 (by decide) (blankFirst_append hbs)) (sorts_ok hs hr)))

theorem order_start {s : Str} {l : List SortSpec} (h : OrderT S s l) {r : Str} (hr : EndsQ [] r) : EndsQ [cs!"ORDER"] (s ++ r) := by
  cases h with
  | none => exact endsQ_mono (by decide) hr
  | some ho hb =>
    simp only [List.append_assoc]
    exact endsQ_word (by decide) (by decide) ho (blankFirst_notContinued' hb.2)

/-! ### HAVING -/

/-- The text spells an optional HAVING clause. -/
structure GoodHaving (cfg : Config) (s : Str) (c : SC) : Prop where
  start : ∀ r, EndsQ [cs!"ORDER"] r → EndsQ [cs!"HAVING", cs!"ORDER"] (s ++ r)
  run : ∀ r, EndsQ [cs!"ORDER"] r → parse cfg (optD SC.dflt having) true (s ++ r) = .ok c r

theorem good_havingNone : GoodHaving cfg [] SC.dflt :=
  ⟨fun _ hr => endsQ_mono (by decide) hr,
    fun _ hr => optD_none (seqR_fail (wordX_fail (ends_none (by decide) hr.1 (by decide))))⟩

theorem good_having {k k' s : Str} {h : Head} {o : Bool} {c : SC} (hk : Word cs!"HAVING" k k') (hb : BlankFirst s)
    (hc : GoodC cfg h o s c) : GoodHaving cfg (k ++ s) c := by
  refine ⟨fun r hr => ?_, fun r hr => ?_⟩ <;> rw [List.append_assoc]
  · exact endsQ_word (by decide) (by decide) hk (blankFirst_notContinued' hb)
  · have he := clause_end (o := o) (by decide) hr.1
    exact optD_ok (seqR_ok (wordX_ok hk.1 (by decide) (blankFirst_append hb)) (expect_ok (hc.run r he.1 he.2)))

/-! ### GROUP BY -/

/-- The text spells the elements of a GROUP BY clause. -/
structure GoodGArgs (cfg : Config) (s : Str) (l : List GroupTerm) : Prop where
  run : ∀ r, EndsQ [cs!"HAVING", cs!"ORDER"] r → parse cfg (sepBy groupByTerm (sym cs!",")) true (s ++ r) = .ok l r

theorem good_gargsOne {p g : Bool} {s : Str} {v : VE} (h : GoodV cfg p g s v) : GoodGArgs cfg s [.ve v] :=
  ⟨fun _ hr => sepBy_one (alt_left (map_ok (h.ve (ends_v (by decide) hr.1)))) (sym_fail hr.2)⟩

theorem good_gargsCons {p g : Bool} {s m t : Str} {v : VE} {l : List GroupTerm} (h : GoodV cfg p g s v) (hm : Tok cs!"," m)
    (ht : GoodGArgs cfg t l) : GoodGArgs cfg (s ++ (m ++ t)) (.ve v :: l) := by
  refine ⟨fun r hr => ?_⟩
  simp only [List.append_assoc]
  exact sepBy_cons (by simp) (alt_left (map_ok (h.ve (comma_v hm)))) (sym_ok1 (by decide) hm) (ht.run r hr)

/-- The text spells an optional GROUP BY clause. -/
structure GoodGroup (cfg : Config) (s : Str) (l : List GroupTerm) : Prop where
  start : ∀ r, EndsQ [cs!"HAVING", cs!"ORDER"] r → EndsQ [cs!"GROUP", cs!"HAVING", cs!"ORDER"] (s ++ r)
  run : ∀ r, EndsQ [cs!"HAVING", cs!"ORDER"] r → parse cfg (optD [] groupBy) true (s ++ r) = .ok l r

theorem good_groupNone : GoodGroup cfg [] [] :=
  ⟨fun _ hr => endsQ_mono (by decide) hr,
    fun _ hr => optD_none (seqR_fail (wordX_fail (ends_none (by decide) hr.1 (by decide))))⟩

theorem good_groupSome {g g' b b' s : Str} {l : List GroupTerm} (ho : Word cs!"GROUP" g g') (hb : Word cs!"BY" b b')
    (hbs : BlankFirst s) (hs : GoodGArgs cfg s l) : GoodGroup cfg (g ++ (b ++ s)) l := by
  refine ⟨fun r hr => ?_, fun r hr => ?_⟩ <;> simp only [List.append_assoc]
  · exact endsQ_word (by decide) (by decide) ho (blankFirst_notContinued' hb.2)
  · exact optD_ok (seqR_ok (wordX_ok ho.1 (by decide) (blankFirst_append hb.2))
      (seqR_ok (expect_ok (wordX_ok hb.1 (by decide) (blankFirst_append hbs))) (expect_ok (hs.run r hr))))

/-! ### WHERE -/

/-- the words that can follow the WHERE clause -/
def afterWhere : List Str := [cs!"GROUP", cs!"HAVING", cs!"ORDER", cs!"UNION"]

/-- The rules for WHERE that read a clause; geometric constraints are read by one of them only. -/
def wheres : Bool → List (G Where)
  | true => [whereClause]
  | false => [whereClause, whereNoGeometry]

theorem mem_wheres {G : Bool} {w : Adql.G Where} (h : w ∈ wheres G) : w ∈ [whereClause, whereNoGeometry] := by
  cases G
  · exact h
  · simp only [wheres, List.mem_cons, List.not_mem_nil, or_false] at h ⊢
    exact .inl h

theorem whereClause_mem {G : Bool} : whereClause ∈ wheres G := by cases G <;> simp [wheres]

/-- The text spells an optional WHERE clause. -/
structure GoodWhere (cfg : Config) (G : Bool) (s : Str) (x : Where) : Prop where
  start : ∀ r, EndsQ afterWhere r → EndsQ clauseWords (s ++ r)
  run : ∀ r, EndsQ afterWhere r → ∀ w ∈ wheres G, parse cfg (optD Where.dflt w) true (s ++ r) = .ok x r

theorem good_whereNone {G : Bool} : GoodWhere cfg G [] Where.dflt := by
  refine ⟨fun r hr => endsQ_mono (by decide) hr, fun r hr w hw => optD_none ?_⟩
  have hw := mem_wheres hw
  simp only [List.mem_cons, List.not_mem_nil, or_false] at hw
  rcases hw with rfl | rfl
  · exact seqR_fail (wordX_fail (ends_none (by decide) hr.1 (by decide)))
  · exact map_fail (seqR_fail (word_fail (ends_apart (by decide) hr.1 (by decide))))

theorem good_where {G : Bool} {k k' s : Str} {h : Head} {o : Bool} {c : SC} (hk : Word cs!"WHERE" k k') (hb : BlankFirst s)
    (hc : GoodC cfg h o s c) : GoodWhere cfg G (k ++ s) (.mk Geom.dflt c) := by
  refine ⟨fun r hr => ?_, fun r hr w hw => ?_⟩ <;> rw [List.append_assoc]
  · exact endsQ_word (by decide) (by decide) hk (blankFirst_notContinued' hb)
  · have he := clause_end (o := o) (by decide) hr.1
    have hg := hc.geo r he.1
    have hs := hc.run r he.1 he.2
    have hw := mem_wheres hw
    simp only [List.mem_cons, List.not_mem_nil, or_false] at hw
    rcases hw with rfl | rfl
    · exact optD_ok (seqR_ok (wordX_ok hk.1 (by decide) (blankFirst_append hb)) (expect_ok
        ((alt_right (map_fail (seq_fail hg.1))).trans ((alt_right (map_fail hg.2)).trans (map_ok (f := fun s => Where.mk Geom.dflt s) hs)))))
    · exact optD_ok (map_ok (f := fun s => Where.mk Geom.dflt s) (seqR_ok (word_ok hk.1 (by decide) (blankFirst_append hb)) hs))

/-! ### Geometric constraints -/

/-- The text spells a geometric predicate. -/
structure GoodGP (cfg : Config) (s : Str) (p : GPred) : Prop where
  run : ∀ r, parse cfg geomPred true (s ++ r) = .ok p r
  next : ∀ r, ∃ c, next (s ++ r) = some c ∧ isLetter c = true

theorem kw_next {w k t o z : Str} (hk : Kw w k t) (hs : wordShape w = true) (ho : Tok cs!"(" o) :
    ∃ c, next (k ++ (o ++ z)) = some c ∧ isLetter c = true := by
  obtain ⟨b, hb, e, hk⟩ := kw_split hk hs (tok_notContinued (r := z) ho rfl (by decide))
  exact kwStart_next hk (by rw [e, skip_blanks hb, skip_bare hk.bare])

theorem good_contains {k t o s m u c : Str} {x y : ShapeOrCol} (hk : Kw cs!"CONTAINS" k t) (ho : Tok cs!"(" o) (hs : ShapeColT S s x)
    (hm : Tok cs!"," m) (hu : ShapeColT S u y) (hc : Tok cs!")" c) :
    GoodGP cfg (k ++ (o ++ (s ++ (m ++ (u ++ c))))) (.contains x y) := by
  refine ⟨fun r => ?_, fun r => ?_⟩ <;> simp only [List.append_assoc]
  · exact alt_left (map_ok (f := fun x : ShapeOrCol × ShapeOrCol => GPred.contains x.1 x.2)
      (seqR_ok (seqR_ok (kw_ok hk (by decide) (tok_notContinued ho rfl (by decide))) (sym_ok1 (by decide) ho))
        (seq_ok (expect_ok (shapeOrColumn_ok hs (coordEnd_tok hm (by simp)))) (seqR_ok (expect_ok (sym_ok1 (by decide) hm))
          (seqL_ok (expect_ok (shapeOrColumn_ok hu (coordEnd_tok hc (by simp)))) (expect_ok (sym_ok1 (by decide) hc)))))))
  · exact kw_next hk (by decide) ho

theorem good_intersects {p g : Bool} {k t o s m u c : Str} {v : VE} {y : ShapeOrCol} (hk : Kw cs!"INTERSECTS" k t) (ho : Tok cs!"(" o)
    (hs : GoodV cfg p g s v) (hm : Tok cs!"," m) (hu : ShapeColT S u y) (hc : Tok cs!")" c) :
    GoodGP cfg (k ++ (o ++ (s ++ (m ++ (u ++ c))))) (.intersects v y) := by
  refine ⟨fun r => ?_, fun r => ?_⟩ <;> simp only [List.append_assoc]
  · have hno : parse cfg contains true (k ++ (o ++ (s ++ (m ++ (u ++ (c ++ r)))))) = .fail := by
      obtain ⟨b, hb, e, hk⟩ := kw_split hk (by decide) (tok_notContinued (r := s ++ (m ++ (u ++ (c ++ r)))) ho rfl (by decide))
      refine map_fail (seqR_fail (seqR_fail (kw_fail ?_)))
      rw [e, skip_blanks hb, skip_bare hk.bare]
      exact hk.none (by decide)
    exact (alt_right hno).trans (map_ok (f := fun x : VE × ShapeOrCol => GPred.intersects x.1 x.2)
      (seqR_ok (seqR_ok (kw_ok hk (by decide) (tok_notContinued ho rfl (by decide))) (sym_ok1 (by decide) ho))
        (seq_ok (expect_ok (hs.ve (comma_v hm))) (seqR_ok (expect_ok (sym_ok1 (by decide) hm))
          (seqL_ok (expect_ok (shapeOrColumn_ok hu (coordEnd_tok hc (by simp)))) (expect_ok (sym_ok1 (by decide) hc)))))))
  · exact kw_next hk (by decide) ho

/-- The text spells a geometric constraint. -/
structure GoodGeom (cfg : Config) (s : Str) (g : Geom) : Prop where
  run : ∀ r, next r ≠ some '=' → parse cfg geometry true (s ++ r) = .ok g r

theorem charFlag_ok {x : Char} {f r : Str} (hx : x ∈ ['0', '1']) (hf : Tok [x] f) : parse cfg charFlag true (f ++ r) = .ok x r := by
  obtain ⟨b, hb, rfl⟩ := hf
  have hs : isSpace x = false := by
    have : (['0', '1'].all fun c => !isSpace c) = true := by decide
    simpa using all_mem this hx
  simp only [charFlag, parse, run_lexeme, List.append_assoc, skip_blanks hb]
  rw [List.singleton_append, skip_bare (bare_cons hs)]
  have h1 : (x == '0' || x == '1') = true := by
    simp only [List.mem_cons, List.not_mem_nil, or_false] at hx
    rcases hx with rfl | rfl <;> rfl
  simp [step, skip, h1]

theorem charFlag_fail {c : Char} {s : Str} (h : next s = some c) (hc : (c == '0' || c == '1') = false) :
    parse cfg charFlag true s = .fail := by
  simp only [charFlag, parse, run_lexeme]
  have h' : (skip true s).head? = some c := h
  cases hs : skip true s with
  | nil => rfl
  | cons d t =>
    rw [hs] at h'
    cases h'
    simp [step, skip, hc]

theorem flag_letter {c : Char} (h : isLetter c = true) : (c == '0' || c == '1') = false := by
  have h1 := letter_ne h (d := '0') (by decide)
  have h2 := letter_ne h (d := '1') (by decide)
  simp [h1, h2]

theorem good_geomLeft {f q s : Str} {x : Char} {p : GPred} (hx : x ∈ ['0', '1']) (hf : Tok [x] f) (hq : Tok cs!"=" q)
    (hs : GoodGP cfg s p) : GoodGeom cfg (f ++ (q ++ s)) (.left x p) := by
  refine ⟨fun r _ => ?_⟩
  simp only [List.append_assoc]
  exact alt_left (map_ok (f := fun x : Char × GPred => Geom.left x.1 x.2)
    (seq_ok (seqL_ok (charFlag_ok hx hf) (sym_ok1 (by decide) hq)) (hs.run r)))

theorem good_geomRight {f q s : Str} {x : Char} {p : GPred} (hs : GoodGP cfg s p) (hq : Tok cs!"=" q) (hx : x ∈ ['0', '1'])
    (hf : Tok [x] f) : GoodGeom cfg (s ++ (q ++ f)) (.right p x) := by
  refine ⟨fun r _ => ?_⟩
  simp only [List.append_assoc]
  obtain ⟨c, h1, h2⟩ := hs.next (q ++ (f ++ r))
  exact (alt_right (map_fail (seq_fail (seqL_fail (charFlag_fail h1 (flag_letter h2)))))).trans
    (map_ok (f := fun x : GPred × Char => Geom.right x.1 x.2)
      (seq_ok (hs.run _) (alt_left (seqR_ok (sym_ok1 (by decide) hq) (expect_ok (charFlag_ok hx hf))))))

theorem good_geomBare {s : Str} {p : GPred} (hs : GoodGP cfg s p) : GoodGeom cfg s (.right p '1') := by
  refine ⟨fun r hr => ?_⟩
  obtain ⟨c, h1, h2⟩ := hs.next r
  exact (alt_right (map_fail (seq_fail (seqL_fail (charFlag_fail h1 (flag_letter h2)))))).trans
    (map_ok (f := fun x : GPred × Char => Geom.right x.1 x.2) (seq_ok (hs.run _) (alt_right (seqR_fail (sym_fail hr)))))

theorem good_whereGeom {k k' s : Str} {g : Geom} (hk : Word cs!"WHERE" k k') (hb : BlankFirst s) (hs : GoodGeom cfg s g) :
    GoodWhere cfg true (k ++ s) (.mk g SC.dflt) := by
  refine ⟨fun r hr => ?_, fun r hr w hw => ?_⟩ <;> rw [List.append_assoc]
  · exact endsQ_word (by decide) (by decide) hk (blankFirst_notContinued' hb)
  · simp only [wheres, List.mem_cons, List.not_mem_nil, or_false] at hw
    subst hw
    exact optD_ok (seqR_ok (wordX_ok hk.1 (by decide) (blankFirst_append hb)) (expect_ok
      (alt_left (map_ok (f := fun x : Geom × SC => Where.mk x.1 x.2) (seq_ok (hs.run r (ends_ne (by decide) hr.1 (by decide)))
        (optD_none (seqR_fail (kw_fail (ends_none (by decide) hr.1 (by decide))))))))))

theorem good_whereGeomAnd {k k' s a a' t : Str} {g : Geom} {h : Head} {o : Bool} {c : SC} (hk : Word cs!"WHERE" k k') (hb : BlankFirst s)
    (hs : GoodGeom cfg s g) (ha : Word cs!"AND" a a') (hbt : BlankFirst t) (hc : GoodC cfg h o t c) :
    GoodWhere cfg true (k ++ (s ++ (a ++ t))) (.mk g c) := by
  refine ⟨fun r hr => ?_, fun r hr w hw => ?_⟩ <;> simp only [List.append_assoc]
  · exact endsQ_word (by decide) (by decide) hk (blankFirst_notContinued' hb)
  · simp only [wheres, List.mem_cons, List.not_mem_nil, or_false] at hw
    subst hw
    have he := clause_end (o := o) (by decide) hr.1
    have hn : NotContinued (t ++ r) := blankFirst_notContinued' hbt
    have h1 : next (a ++ (t ++ r)) ≠ some '=' := by
      obtain ⟨e, hk⟩ := word_start ha (by decide) hn
      obtain ⟨d, h1, h2⟩ := kwStart_next hk e
      rw [h1]; rintro ⟨⟩; exact absurd h2 (by decide)
    exact optD_ok (seqR_ok (wordX_ok hk.1 (by decide) (blankFirst_append hb)) (expect_ok
      (alt_left (map_ok (f := fun x : Geom × SC => Where.mk x.1 x.2) (seq_ok (hs.run _ h1)
        (optD_ok (seqR_ok (kw_ok ha.1 (by decide) hn) (expect_ok (hc.run r he.1 he.2)))))))))

theorem geometry_char {s : Str} {c : Char} (h : next s = some c) (hl : isLetter c = false) (hc : (c == '0' || c == '1') = false) :
    parse cfg geometry true s = .fail := by
  have hn : NoLetter (skip true s) := by
    intro d t e
    have : (skip true s).head? = some c := h
    rw [e] at this; cases this; exact hl
  exact alt_fail (map_fail (seq_fail (seqL_fail (charFlag_fail h hc)))) (map_fail (seq_fail
    (alt_fail (map_fail (seqR_fail (seqR_fail (kw_fail (matchLit_noLetter' (by decide) hn)))))
      (map_fail (seqR_fail (seqR_fail (kw_fail (matchLit_noLetter' (by decide) hn))))))))

theorem good_whereGeomParen {k k' o s c : Str} {g : Geom} (hk : Word cs!"WHERE" k k') (hb : BlankFirst o) (ho : Tok cs!"(" o)
    (hs : GoodGeom cfg s g) (hc : Tok cs!")" c) : GoodWhere cfg true (k ++ (o ++ (s ++ c))) (.mk g SC.dflt) := by
  refine ⟨fun r hr => ?_, fun r hr w hw => ?_⟩ <;> simp only [List.append_assoc]
  · exact endsQ_word (by decide) (by decide) hk (blankFirst_notContinued' hb)
  · simp only [wheres, List.mem_cons, List.not_mem_nil, or_false] at hw
    subst hw
    have h1 : next (c ++ r) ≠ some '=' := by rw [tok_next hc rfl (by decide)]; decide
    exact optD_ok (seqR_ok (wordX_ok hk.1 (by decide) (blankFirst_append hb)) (expect_ok
      ((alt_right (map_fail (seq_fail (geometry_char (tok_next ho rfl (by decide)) (by decide) (by decide))))).trans
        (alt_left (map_ok (f := fun g => Where.mk g SC.dflt) (seqR_ok (sym_ok1 (by decide) ho)
          (seqL_ok (hs.run _ h1) (expect_ok (sym_ok1 (by decide) hc)))))))))

/-! ### One SELECT -/

variable {G : Bool}

/-- The text spells a list of tables. -/
structure GoodTabs (cfg : Config) (s : Str) (l : List TR) : Prop where
  run : ∀ r, EndsQ clauseWords r → parse cfg (sepBy tr (sym cs!",")) true (s ++ r) = .ok l r

theorem good_tabsOne {k : Bool} {s : Str} {t : TR} (h : GoodTab cfg k s t) : GoodTabs cfg s [t] := by
  refine ⟨fun r hr => sepBy_one (h.run r ?_) (sym_fail hr.2)⟩
  refine ends_mono ?_ hr.1
  cases k <;> decide

theorem good_tabsCons {k : Bool} {s m u : Str} {t : TR} {l : List TR} (h : GoodTab cfg k s t) (hm : Tok cs!"," m)
    (hu : GoodTabs cfg u l) : GoodTabs cfg (s ++ (m ++ u)) (t :: l) := by
  refine ⟨fun r hr => ?_⟩
  simp only [List.append_assoc]
  exact sepBy_cons rfl (h.run _ (comma_ends hm)) (sym_ok1 (by decide) hm) (hu.run r hr)

/-- The text spells one SELECT. -/
structure GoodSfw (cfg : Config) (G : Bool) (s : Str) (x : SFW) : Prop where
  lead : ∀ r, ∃ k k' y, Kw cs!"SELECT" k k' ∧ BlankFirst y ∧ s ++ r = k ++ y
  run : ∀ r, EndsQ afterWhere r → ∀ w ∈ wheres G, parse cfg (sfwWith w) true (s ++ r) = .ok x r

theorem good_sfw {k k' q qt p cl f f' tb w : Str} {n : Nat} {cs : Columns} {ts : List TR} {wh : Where}
    (hk : Kw cs!"SELECT" k k') (hq : QuantT q qt) (hp : TopT p n) (hb : BlankFirst cl) (hc : GoodCols cfg cl cs)
    (hf : Word cs!"FROM" f f') (hbt : BlankFirst tb) (ht : GoodTabs cfg tb ts) (hw : GoodWhere cfg G w wh) :
    GoodSfw cfg G (k ++ (q ++ (p ++ (cl ++ (f ++ (tb ++ w)))))) (.mk (.mk qt n cs) ts wh) := by
  refine ⟨fun r => ?_, fun r hr w' hm => ?_⟩ <;> simp only [List.append_assoc]
  · exact ⟨k, k', _, hk, quantT_blank hq (topT_blank hp (blankFirst_append hb)), rfl⟩
  · have h0 := endsQ_word (ws := [cs!"FROM"]) (y := tb ++ (w ++ r)) (by decide) (by decide) hf (blankFirst_notContinued' hbt)
    exact map_ok (f := fun x : Select × List TR × Where => SFW.mk x.1 x.2.1 x.2.2)
      (seq_ok (select_ok hk hq hp hb hc h0.1 h0.2) (expect_ok (seq_ok
        (seqR_ok (wordX_ok hf.1 (by decide) (blankFirst_append hbt)) (expect_ok (ht.run _ (hw.start r hr)))) (hw.run r hr w' hm))))

/-! ### UNION -/

/-- the union operators -/
def unionWords : List Str := [cs!"UNION DISTINCT", cs!"UNION ALL", cs!"UNION"]

theorem lowerC_blank {d : Char} (h : lowerC d = lowerC ' ') : d = ' ' := by
  have := congrArg Char.toNat h
  rw [lowerC_toNat, lowerC_toNat] at this
  have h2 : (' ' : Char).toNat = 32 := rfl
  rw [h2] at this
  refine Char.toNat_inj.1 ?_
  rw [h2]
  simp only [Nat.reduceLeDiff, false_and, if_false] at this
  split at this <;> omega

theorem union_start {u op y : Str} (h : WordIn unionWords u op) (hy : NotContinued y) :
    EndsQ afterWhere (u ++ y) := by
  obtain ⟨w, hw, ⟨b, hb, rfl, hs⟩, hbl⟩ := h
  have key : ∀ {x z : Str}, op = x ++ z → SameCI x cs!"UNION" → NotContinued (z ++ y) → EndsQ afterWhere (b ++ op ++ y) := by
    intro x z e hx hz
    have : b ++ op ++ y = (b ++ x) ++ (z ++ y) := by rw [e]; simp
    rw [this]
    refine endsQ_word (w := cs!"UNION") (k' := x) (by decide) (by decide) ⟨⟨b, hb, rfl, hx⟩, ?_⟩ hz
    obtain ⟨c, t, e', hc⟩ := hbl
    cases b with
    | cons d b =>
      simp only [List.cons_append, List.cons.injEq] at e'
      exact ⟨d, b ++ x, rfl, by rw [e'.1]; exact hc⟩
    | nil =>
      exfalso
      rw [List.nil_append] at e'
      obtain ⟨d, v, rfl, hd, -⟩ := sameCI_cons hx
      rw [e] at e'
      simp only [List.cons_append, List.cons.injEq] at e'
      have := lowerC_space hd (by decide)
      rw [e'.1, hc] at this; cases this
  have blank : ∀ {z v : Str}, SameCI z (' ' :: v) → NotContinued (z ++ y) := by
    intro z v hz
    obtain ⟨d, v', rfl, hd, -⟩ := sameCI_cons hz
    have : d = ' ' := lowerC_blank hd
    subst this
    rw [notContinued_iff]; intro c t e; cases e; decide
  simp only [unionWords, List.mem_cons, List.not_mem_nil, or_false] at hw
  rcases hw with rfl | rfl | rfl
  · obtain ⟨x, z, e, h1, h2⟩ := sameCI_split (a := cs!"UNION") (b := cs!" DISTINCT") hs
    exact key e h1 (blank h2)
  · obtain ⟨x, z, e, h1, h2⟩ := sameCI_split (a := cs!"UNION") (b := cs!" ALL") hs
    exact key e h1 (blank h2)
  · exact key (z := []) (List.append_nil _).symm hs hy

theorem union_fail {r : Str} (h : Ends [cs!"GROUP", cs!"HAVING", cs!"ORDER"] r) : parse cfg unionOp true r = .fail := by
  have h0 := ends_none (w' := cs!"UNION") (by decide) h (by decide)
  have h1 : ∀ v, matchLit true (cs!"UNION" ++ v) (skip true r) = none :=
    fun v => matchLit_prefixCI.2 (prefixCI_append (matchLit_prefixCI.1 h0))
  simp only [unionOp, parse, run_lexeme]
  have hb := bare_skip r
  exact seqL_fail (alt_fail (kw_none hb (h1 cs!" DISTINCT")) (alt_fail (kw_none hb (h1 cs!" ALL")) (kw_none hb h0)))

theorem union_ok {u op k k' y : Str} (h : WordIn unionWords u op) (hk : Kw cs!"SELECT" k k') (hb : BlankFirst (k ++ y)) :
    parse cfg unionOp true (u ++ (k ++ y)) = .ok op (k ++ y) := by
  obtain ⟨w, hw, ⟨b, hb', rfl, hs⟩, -⟩ := h
  have hbare : Bare (op ++ (k ++ y)) := by
    have : ∃ v, w = 'U' :: v := by
      simp only [unionWords, List.mem_cons, List.not_mem_nil, or_false] at hw
      rcases hw with rfl | rfl | rfl <;> exact ⟨_, rfl⟩
    obtain ⟨v, rfl⟩ := this
    obtain ⟨d, v', rfl, hd, -⟩ := sameCI_cons hs
    exact bare_cons (lowerC_space hd (by decide))
  rw [List.append_assoc]
  simp only [unionOp, parse, run_lexeme, skip_blanks hb', skip_bare hbare]
  have hm : parse cfg (kw w) false (op ++ (k ++ y)) = .ok op (k ++ y) := by
    simp only [kw, lit_eq, skip_bare hbare, matchLit_sameCI hs]
  have hno : ∀ {w'}, prefixCI w' (op ++ (k ++ y)) = false → parse cfg (kw w') false (op ++ (k ++ y)) = .fail :=
    fun h => kw_none hbare (matchLit_prefixCI.2 h)
  refine seqL_ok ?_ (andSpace_first hb)
  have hs' : op.map lowerC = w.map lowerC := hs
  simp only [unionWords, List.mem_cons, List.not_mem_nil, or_false] at hw
  rcases hw with rfl | rfl | rfl
  · exact alt_left hm
  · refine (alt_right (hno ?_)).trans (alt_left hm)
    unfold prefixCI
    rw [List.map_append, hs']
    rfl
  · have h2 : ∃ c d z, k ++ y = c :: d :: z ∧ (isSpace d = true ∨ lowerC d = 's') := by
      obtain ⟨b, hb1, rfl, hk⟩ := hk
      obtain ⟨x, v', rfl, hx, -⟩ := sameCI_cons hk
      cases b with
      | nil =>
        exfalso
        obtain ⟨c, t, e, hc⟩ := hb
        cases e
        rw [lowerC_space hx (by decide)] at hc; cases hc
      | cons c b =>
        cases b with
        | nil => exact ⟨c, x, _, rfl, .inr hx⟩
        | cons d b => exact ⟨c, d, _, rfl, .inl (hb1 d (by simp))⟩
    obtain ⟨c, d, z, e, hd⟩ := h2
    have key : ∀ d' v, (d' = 'A' ∨ d' = 'D') → prefixCI (cs!"UNION" ++ (' ' :: d' :: v)) (op ++ (k ++ y)) = false := by
      intro d' v hd'
      have hne : (lowerC d' == lowerC d) = false := by
        rw [beq_eq_false_iff_ne]
        intro e
        rcases hd with hd | hd
        · have : isSpace d = false := lowerC_space e.symm (by rcases hd' with rfl | rfl <;> decide)
          rw [this] at hd; cases hd
        · rw [hd] at e
          rcases hd' with rfl | rfl <;> exact absurd e (by decide)
      unfold prefixCI
      rw [List.map_append (l₁ := op), hs', e]
      simp [List.isPrefixOf, hne]
    exact (alt_right (hno (key 'D' cs!"ISTINCT" (.inr rfl)))).trans ((alt_right (hno (key 'A' cs!"LL" (.inl rfl)))).trans hm)

/-! ### Lists of SELECTs -/

/-- The text spells SELECTs after the first one. -/
structure GoodAdd (cfg : Config) (G : Bool) (s : Str) (l : List Addon) : Prop where
  start : ∀ r, EndsQ [cs!"GROUP", cs!"HAVING", cs!"ORDER"] r → EndsQ afterWhere (s ++ r)
  run : ∀ r, EndsQ [cs!"GROUP", cs!"HAVING", cs!"ORDER"] r → ∀ w ∈ wheres G,
    parse cfg (.star (.map (fun x => Addon.mk x.1 x.2) (.seq unionOp (sfwWith w)))) true (s ++ r) = .ok l r

theorem good_addNil : GoodAdd cfg G [] [] :=
  ⟨fun _ hr => endsQ_mono (by decide) hr, fun _ hr _ _ => star_nil (map_fail (seq_fail (union_fail hr.1)))⟩

theorem good_addCons {u op s t : Str} {x : SFW} {l : List Addon} (hu : WordIn unionWords u op) (hb : BlankFirst s)
    (hs : GoodSfw cfg G s x) (ht : GoodAdd cfg G t l) : GoodAdd cfg G (u ++ (s ++ t)) (.mk op x :: l) := by
  refine ⟨fun r hr => ?_, fun r hr w hw => ?_⟩ <;> simp only [List.append_assoc]
  · exact union_start hu (blankFirst_notContinued' hb)
  · obtain ⟨k, k', y, hk, hy, e⟩ := hs.lead (t ++ r)
    have h1 : parse cfg unionOp true (u ++ (s ++ (t ++ r))) = .ok op (s ++ (t ++ r)) := by
      rw [e]
      exact union_ok hu hk (e ▸ blankFirst_append hb)
    refine star_cons ?_ (map_ok (f := fun x : Str × SFW => Addon.mk x.1 x.2) (seq_ok h1 (hs.run _ (ht.start r hr) w hw))) (ht.run r hr w hw)
    have hw := mem_wheres hw
    simp only [List.mem_cons, List.not_mem_nil, or_false] at hw
    rcases hw with rfl | rfl <;> rfl

/-- The text spells SELECTs connected by UNION. -/
structure GoodSfws (cfg : Config) (G : Bool) (s : Str) (l : SFWList) : Prop where
  lead : ∀ r, ∃ k k' y, Kw cs!"SELECT" k k' ∧ BlankFirst y ∧ s ++ r = k ++ y
  run : ∀ r, EndsQ [cs!"GROUP", cs!"HAVING", cs!"ORDER"] r → ∀ w ∈ wheres G,
    parse cfg (sfwList w) true (s ++ r) = .ok l r

theorem good_sfws {s t : Str} {x : SFW} {l : List Addon} (hs : GoodSfw cfg G s x) (ht : GoodAdd cfg G t l) :
    GoodSfws cfg G (s ++ t) (.mk x l) := by
  refine ⟨fun r => ?_, fun r hr w hw => ?_⟩ <;> rw [List.append_assoc]
  · exact hs.lead _
  · exact map_ok (f := fun x : SFW × List Addon => SFWList.mk x.1 x.2)
      (seq_ok (hs.run _ (ht.start r hr) w hw) (ht.run r hr w hw))

/-! ### Queries -/

/-- The text spells the query `q`. -/
structure GoodQ (cfg : Config) (G : Bool) (s : Str) (q : QuerySpec) : Prop where
  lead : ∀ r, ∃ w t y, w ∈ [cs!"SELECT", cs!"WITH"] ∧ skip true (s ++ r) = t ++ y ∧ KwStart w t y
  run : ∀ r, EndsQ [] r → ∀ w ∈ wheres G, parse cfg (queryWith w) true (s ++ r) = .ok q r

theorem select_start {s : Str} {l : SFWList} (h : GoodSfws cfg G s l) (r : Str) :
    ∃ t y, skip true (s ++ r) = t ++ y ∧ KwStart cs!"SELECT" t y := by
  obtain ⟨k, k', y, hk, hy, e⟩ := h.lead r
  obtain ⟨b, hb, e', hk⟩ := kw_split hk (by decide) (blankFirst_notContinued hy)
  exact ⟨k', y, by rw [e, e', skip_blanks hb, skip_bare hk.bare], hk⟩

/-- the clauses after the SELECTs -/
theorem clauses_ok {s g h o r : Str} {l : SFWList} {gs : List GroupTerm} {c : SC} {os : List SortSpec} (hs : GoodSfws cfg G s l)
    (hg : GoodGroup cfg g gs) (hh : GoodHaving cfg h c) (ho : OrderT S o os) (hr : EndsQ [] r) {w : Adql.G Where}
    (hw : w ∈ wheres G) :
    parse cfg (.seq (sfwList w) (.seq (optD [] groupBy) (.seq (optD SC.dflt having) (optD [] orderBy)))) true
      (s ++ (g ++ (h ++ (o ++ r)))) = .ok (l, gs, c, os) r := by
  have h1 := order_start ho hr
  have h2 := hh.start _ h1
  have h3 := hg.start _ h2
  exact seq_ok (hs.run _ h3 w hw) (seq_ok (hg.run _ h2) (seq_ok (hh.run _ h1) (order_ok ho hr)))

theorem good_query {s g h o : Str} {l : SFWList} {gs : List GroupTerm} {c : SC} {os : List SortSpec} (hs : GoodSfws cfg G s l)
    (hg : GoodGroup cfg g gs) (hh : GoodHaving cfg h c) (ho : OrderT S o os) :
    GoodQ cfg G (s ++ (g ++ (h ++ o))) (.mk With.dflt l gs c os) := by
  refine ⟨fun r => ?_, fun r hr w hw => ?_⟩ <;> simp only [List.append_assoc]
  · obtain ⟨t, y, e, hk⟩ := select_start hs (g ++ (h ++ (o ++ r)))
    exact ⟨_, t, y, by decide, e, hk⟩
  · obtain ⟨t, y, e, hk⟩ := select_start hs (g ++ (h ++ (o ++ r)))
    exact map_ok (f := fun x : With × SFWList × List GroupTerm × SC × List SortSpec => QuerySpec.mk x.1 x.2.1 x.2.2.1 x.2.2.2.1 x.2.2.2.2)
      (seq_ok (optD_none (with_fail (by rw [e]; exact hk.none (by decide)))) (clauses_ok hs hg hh ho hr hw))

/-! ### Subqueries -/

/-- The text spells a subquery. -/
structure GoodSub (cfg : Config) (s : Str) (q : Subquery) : Prop where
  run : ∀ r, parse cfg subq true (s ++ r) = .ok q r
  noJt : (∃ q', q = .qs q') → ∀ r, parse cfg jt true (s ++ r) = .fail
  noTc : ∀ r, parse cfg tableCorrelation true (s ++ r) = .fail
  next : ∀ r, next (s ++ r) = some '('

theorem open_noTc {o y : Str} (ho : Tok cs!"(" o) : parse cfg tableCorrelation true (o ++ y) = .fail := by
  refine map_fail (seq_fail ((tableName_skip _).trans ?_))
  have e : skip true (o ++ y) = cs!"(" ++ y := tok_drop ho rfl (by decide)
  exact front_chr_ident (by decide) (by decide) (by decide) e

theorem good_subjoin {k : Bool} {o s c : Str} {j : JT} (ho : Tok cs!"(" o) (hs : GoodJoin cfg k s j)
    (h1 : prefixCI cs!"WITH" (firstJT j) = false) (h2 : prefixCI cs!"SELECT" (firstJT j) = false) (hc : Tok cs!")" c) :
    GoodSub cfg (o ++ (s ++ c)) (.jt j) := by
  refine ⟨fun r => ?_, fun ⟨_, e⟩ => (by cases e), fun r => ?_, fun r => ?_⟩ <;> simp only [List.append_assoc]
  · rw [subq, parse_nt]
    have he := close_ends (ws := tabWords k) (r := r) hc
    exact seqR_ok (sym_ok1 (by decide) ho) (seqL_ok ((alt_right (map_fail (query_fail
      (hs.lead _ (by simp) h1 _ he) (hs.lead _ (by simp) h2 _ he)))).trans (map_ok (hs.run _ he))) (sym_ok1 (by decide) hc))
  · exact open_noTc ho
  · exact tok_next ho rfl (by decide)

theorem good_subquery {o s c : Str} {q : QuerySpec} (ho : Tok cs!"(" o) (hs : GoodQ cfg false s q) (hc : Tok cs!")" c) :
    GoodSub cfg (o ++ (s ++ c)) (.qs q) := by
  have htc : ∀ r, parse cfg tableCorrelation true (o ++ (s ++ (c ++ r))) = .fail := fun r => open_noTc ho
  refine ⟨fun r => ?_, fun _ r => ?_, fun r => ?_, fun r => ?_⟩ <;> simp only [List.append_assoc]
  · rw [subq, parse_nt]
    exact seqR_ok (sym_ok1 (by decide) ho) (seqL_ok (alt_left (map_ok (f := Subquery.qs)
      (hs.run _ (close_endsQ hc) _ (by simp [wheres])))) (sym_ok1 (by decide) hc))
  · refine jt_of_parts (seqR_fail2 (sym_ok1 (by decide) ho) (seqL_fail ?_)) (.inl (htc r))
    obtain ⟨w, t, y, hw, e, hk⟩ := hs.lead (c ++ r)
    refine jt_of_parts (seqR_fail (sym_fail ?_)) (.inl (map_fail (seq_fail ((tableName_skip _).trans ?_))))
    · obtain ⟨d, h1, h2⟩ := kwStart_next hk e
      rw [h1]; rintro ⟨⟩; exact absurd h2 (by decide)
    · rw [e]
      refine tableName_kw hk ?_
      have : ([cs!"SELECT", cs!"WITH"].all frontKw) = true := by decide +kernel
      exact all_mem this hw
  · exact htc r
  · exact tok_next ho rfl (by decide)

theorem good_derived {s a x : Str} {q : QuerySpec} (hs : GoodSub cfg s (.qs q)) (ha : NewNameT a x) :
    GoodTab cfg false (s ++ a) (.derived (.qs q) x) := by
  suffices H : ∀ r, Ends afterTab r → parse cfg tr true ((s ++ a) ++ r) = .ok (.derived (.qs q) x) r from
    ⟨fun r hr => H r (ends_mono tabWords_after hr), fun _ => H⟩
  intro r hr
  rw [List.append_assoc, tr, parse_nt]
  have hc := afterTab_stop (cfg := cfg) hr
  exact (alt_right (map_fail (hs.noJt ⟨_, rfl⟩ _))).trans ((alt_right (map_fail (hs.noTc _))).trans
    (alt_left (map_ok (f := fun x : Subquery × Str => TR.derived x.1 x.2) (seq_ok (hs.run _) (newName_ok ha hc.1.1 hc.1.2.2)))))

/-! ### WITH -/

theorem wcols_ok {l : Str} {cs : List Str} (h : WColsT l cs) {a a' y : Str} (ha : Word cs!"AS" a a') (hy : BlankFirst y) :
    parse cfg (optD [] (seqR (sym cs!"(") (seqL (sepBy identifier (sym cs!",")) xClose))) true (l ++ (a ++ y)) = .ok cs (a ++ y) := by
  cases h with
  | none =>
    refine optD_none (seqR_fail (sym_fail ?_))
    obtain ⟨e, hk⟩ := word_start ha (by decide) (blankFirst_notContinued hy)
    obtain ⟨d, h1, h2⟩ := kwStart_next hk e
    rw [List.nil_append, h1]; rintro ⟨⟩; exact absurd h2 (by decide)
  | some ho hs hc =>
    simp only [List.append_assoc]
    exact optD_ok (seqR_ok (sym_ok1 (by decide) ho) (seqL_ok (names_ok' hs hc) (expect_ok (sym_ok1 (by decide) hc))))

theorem wcols_stop {l : Str} {cs : List Str} (h : WColsT l cs) {a a' y : Str} (ha : Word cs!"AS" a a') (hy : BlankFirst y) :
    NotContinued (l ++ (a ++ y)) ∧ next (l ++ (a ++ y)) ≠ some '"' := by
  cases h with
  | none =>
    refine ⟨by rw [List.nil_append]; exact blankFirst_notContinued' ha.2, ?_⟩
    obtain ⟨e, hk⟩ := word_start ha (by decide) (blankFirst_notContinued hy)
    obtain ⟨d, h1, h2⟩ := kwStart_next hk e
    rw [List.nil_append, h1]; rintro ⟨⟩; exact absurd h2 (by decide)
  | some ho hs hc =>
    simp only [List.append_assoc]
    refine ⟨tok_notContinued ho rfl (by decide), ?_⟩
    rw [tok_next ho rfl (by decide)]; decide

theorem good_with {w w' n x l a a' t s g h o : Str} {cs : List Str} {q : Subquery} {l' : SFWList} {gs : List GroupTerm} {c : SC}
    {os : List SortSpec} (hw : Kw cs!"WITH" w w') (hn : Tok x n) (hbn : BlankFirst n) (hx : Part x) (hl : WColsT l cs)
    (ha : Word cs!"AS" a a') (hbt : BlankFirst t) (ht : GoodSub cfg t q) (hs : GoodSfws cfg G s l') (hg : GoodGroup cfg g gs)
    (hh : GoodHaving cfg h c) (ho : OrderT S o os) :
    GoodQ cfg G (w ++ (n ++ (l ++ (a ++ (t ++ (s ++ (g ++ (h ++ o)))))))) (.mk (.mk x cs q) l' gs c os) := by
  refine ⟨fun r => ?_, fun r hr wr hm => ?_⟩ <;> simp only [List.append_assoc]
  · obtain ⟨b, hb, e, hk⟩ := kw_split hw (by decide) (blankFirst_notContinued'
      (r := l ++ (a ++ (t ++ (s ++ (g ++ (h ++ (o ++ r))))))) hbn)
    exact ⟨_, w', _, by decide, by rw [e, skip_blanks hb, skip_bare hk.bare], hk⟩
  · have hy : BlankFirst (t ++ (s ++ (g ++ (h ++ (o ++ r))))) := blankFirst_append hbt
    have h1 := wcols_stop hl ha hy
    exact map_ok (f := fun x : With × SFWList × List GroupTerm × SC × List SortSpec => QuerySpec.mk x.1 x.2.1 x.2.2.1 x.2.2.2.1 x.2.2.2.2)
      (seq_ok (optD_ok (map_ok (f := fun x : Str × List Str × Subquery => With.mk x.1 x.2.1 x.2.2)
        (seqR_ok (wordX_ok hw (by decide) (blankFirst_append hbn)) (seq_ok (expect_ok (ident_tok hn hx h1.1 h1.2))
          (seq_ok (expect_ok (seqL_ok (wcols_ok hl ha hy) (optD_ok (wordX_ok ha.1 (by decide) hy)))) (expect_ok (ht.run _)))))))
        (clauses_ok hs hg hh ho hr hm))

end Adql.Fwd
