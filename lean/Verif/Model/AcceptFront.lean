import Verif.Model.AcceptName

/-!
# Running the grammar forward: expressions in the places of tables and of geometric conditions
-/

namespace Adql.Fwd

open P Spec

variable {cfg : Config} {S : Mode} [Fits S cfg]

theorem nameEnd_prim {r : Str} (h : PrimEnd r) : NameEnd r := by
  refine ⟨h.1, ?_, ?_⟩
  · intro e; exact h.2 (by simp [e])
  · intro e; exact h.2 (by simp [e])

theorem nameEnd_tok {c : Char} {s r : Str} (h : Tok [c] s) (hc : (!isSpace c && !isIdChar c && !(c == '.') && !(c == '"')) = true) :
    NameEnd (s ++ r) := by
  simp only [Bool.and_eq_true, Bool.not_eq_true', beq_eq_false_iff_ne] at hc
  refine ⟨tok_notContinued h rfl hc.1.1.2, ?_, ?_⟩ <;> rw [tok_next h rfl hc.1.1.1]
  · rintro ⟨⟩; exact hc.1.2 rfl
  · rintro ⟨⟩; exact hc.2 rfl

/-- a text that starts with a keyword which is not a name -/
theorem front_kwF {w s t y r : Str} (h : Kw w s t) (hs : wordShape w = true) (hw : frontKw w = true) (hy : NotContinued y) :
    Front cfg r (s ++ y) := by
  obtain ⟨b, hb, e, hk⟩ := kw_split h hs hy
  refine .kw ?_ hk hw
  rw [e, skip_blanks hb, skip_bare hk.bare]

/-- a text that starts with a keyword which is accepted as a name -/
theorem front_kwN {w s t y r : Str} (h : Kw w s t) (hs : wordShape w = true)
    (hw : (decide (w ∈ missed) || !reservedB w) = true) (ho : offAll [cs!"TAP_UPLOAD"] w = true)
    (hy : NameEnd y) (hl : NoLetter (skip true y)) : Front cfg r (s ++ y) := by
  obtain ⟨b, hb, e, hk⟩ := kw_split h hs hy.1
  refine .name ?_ (nameLike_kw hs hk.same hw ho) .nil hy (.inr (.inl hl))
  rw [e, skip_blanks hb, skip_bare hk.bare]

/-- the words with which an expression can start, in front of a symbol -/
theorem front_word {w s t y r : Str} (h : Kw w s t) (hw : w ∈ callWords) (hy : NameEnd y) (hl : NoLetter (skip true y)) :
    Front cfg r (s ++ y) := by
  have : (callWords.all fun w => wordShape w && (frontKw w || ((decide (w ∈ missed) || !reservedB w) && offAll [cs!"TAP_UPLOAD"] w))) = true := by
    decide +kernel
  have := all_mem this hw
  simp only [Bool.and_eq_true] at this
  obtain ⟨h1, h2⟩ := this
  rw [Bool.or_eq_true_iff] at h2
  rcases h2 with h2 | h2
  · exact front_kwF h h1 h2 hy.1
  · rw [Bool.and_eq_true] at h2
    exact front_kwN h h1 h2.1 h2.2 hy hl

theorem front_call {w s t o z r : Str} (h : Kw w s t) (hw : w ∈ callWords) (ho : Tok cs!"(" o) :
    Front cfg r (s ++ (o ++ z)) :=
  front_word h hw (nameEnd_tok ho (by decide)) (tok_noLetter ho (by decide) (by decide))

theorem front_calls {ws : List Str} {s t o z r : Str} (h : KwIn ws s t) (hw : (ws.all fun w => callWords.contains w) = true)
    (ho : Tok cs!"(" o) : Front cfg r (s ++ (o ++ z)) := by
  obtain ⟨w, hm, h⟩ := h
  exact front_call h (List.contains_iff_mem.1 (all_mem hw hm)) ho

theorem front_chrT {w s y r : Str} {c : Char} {t : Str} (h : Tok w s) (hw : w = c :: t) (hc : c ∈ "0123456789.'+-".toList) :
    Front cfg r (s ++ y) := by
  refine .chr (c := c) (t := t ++ y) ?_ hc
  have hs := (chr_facts ((by decide : ∀ c ∈ "0123456789.'+-".toList, c ∈ "0123456789.'+-(".toList) _ hc)).1
  have : skip true (s ++ y) = w ++ y := tok_drop h hw hs
  rw [this, hw]; rfl

theorem front_name {x s e τ r : Str} (hs : Tok x s) (hx : NameLike cfg x) (ht : Tail e τ) (he : NameEnd e)
    (hr : e = r ∨ Shut e) : Front cfg r (s ++ τ) := by
  obtain ⟨b, hb, rfl⟩ := hs
  refine .name ?_ hx ht he hr
  rw [List.append_assoc, skip_blanks hb, skip_bare (hx.bare _)]

theorem front_col {s r : Str} {c : ColRef} (h : ColT S s c) (hr : NameEnd r) : Front cfg r (s ++ r) := by
  cases h with
  | col hs hx => exact front_name hs (nameLike_nameT hx) .nil hr (.inl rfl)
  | qc hs hx hd ht hy =>
    simp only [List.append_assoc]
    exact front_name hs (nameLike_nameT hx) (.cons hd ht hy .nil) hr (.inl rfl)
  | sqc hs hx hd ht hy hd' hu hz =>
    simp only [List.append_assoc]
    exact front_name hs (nameLike_nameT hx) (.cons hd ht hy (.cons hd' hu hz .nil)) hr (.inl rfl)
  | csqc hs hx hd ht hy hd' hu hz hd'' hv hw =>
    simp only [List.append_assoc]
    exact front_name hs (nameLike_nameT hx) (.cons hd ht hy (.cons hd' hu hz (.cons hd'' hv hw .nil))) hr (.inl rfl)
  | up hs hx hd ht hz =>
    obtain ⟨b, hb, rfl⟩ := hs
    simp only [List.append_assoc]
    refine .up ?_ hx.1 (Fits.up _ _ hx.2) (.cons hd ht hz .nil) hr (.inl rfl)
    rw [skip_blanks hb, skip_bare tap_bare]

theorem digits_chr {d : Str} (h : Digits d) : ∃ c t, d = c :: t ∧ c ∈ "0123456789.'+-".toList := by
  obtain ⟨h0, h1⟩ := h
  cases d with
  | nil => exact absurd rfl h0
  | cons c t =>
    refine ⟨c, t, rfl, ?_⟩
    have hc := h1 c (by simp)
    exact (by decide : ∀ c ∈ "0123456789.".toList, c ∈ "0123456789.'+-".toList) c (digit_mem (.inl hc))

theorem numLit_chr {t : Str} (h : NumLit t) : ∃ c u, t = c :: u ∧ c ∈ "0123456789.'+-".toList := by
  have key : ∀ {m : Str}, Mantissa m → ∃ c u, m = c :: u ∧ c ∈ "0123456789.'+-".toList := by
    intro m hm
    cases hm with
    | int h => exact digits_chr h
    | dec h h' =>
      obtain ⟨c, t, rfl, hc⟩ := digits_chr h
      exact ⟨c, _, rfl, hc⟩
    | frac h => exact ⟨'.', _, rfl, by decide⟩
  cases h with
  | exact h => exact key h
  | approx h h' =>
    obtain ⟨c, u, rfl, hc⟩ := key h
    exact ⟨c, _, rfl, hc⟩

theorem strLit_chr {t : Str} (h : StrLit t) : ∃ c u, t = c :: u ∧ c ∈ "0123456789.'+-".toList := by
  obtain ⟨p, u, rfl, h, -⟩ := h
  obtain ⟨b, rfl, -⟩ := h
  exact ⟨'\'', _, rfl, by decide⟩

theorem front_fn {s r : Str} {f : NumFn} (h : FnT S s f) (hr : AtomEnd r) : Front cfg r (s ++ r) := by
  cases h with
  | trig1 hs ho hu hc => simp only [List.append_assoc]; exact front_calls hs (by decide +kernel) ho
  | trig2 hs ho => simp only [List.append_assoc]; exact front_call hs (by decide +kernel) ho
  | math0 hs ho => simp only [List.append_assoc]; exact front_calls hs (by decide +kernel) ho
  | math1 hs ho => simp only [List.append_assoc]; exact front_calls hs (by decide +kernel) ho
  | math2 hs ho => simp only [List.append_assoc]; exact front_calls hs (by decide +kernel) ho
  | udf0 hs hf ho =>
    simp only [List.append_assoc]
    exact front_name hs (nameLike_tab ⟨.inl ⟨hf.1, hf.2.1⟩, hf.2.2.2⟩) .nil (nameEnd_tok ho (by decide)) (.inr (.inl (tok_noLetter ho (by decide) (by decide))))
  | udf hs hf ho =>
    simp only [List.append_assoc]
    exact front_name hs (nameLike_tab ⟨.inl ⟨hf.1, hf.2.1⟩, hf.2.2.2⟩) .nil (nameEnd_tok ho (by decide)) (.inr (.inl (tok_noLetter ho (by decide) (by decide))))
  | udfKw0 hs ho => simp only [List.append_assoc]; exact front_calls hs (by decide +kernel) ho
  | udfKw hs ho => simp only [List.append_assoc]; exact front_calls hs (by decide +kernel) ho
  | cast hs ho => simp only [List.append_assoc]; exact front_call hs (by decide +kernel) ho
  | coord hs ho => simp only [List.append_assoc]; exact front_calls hs (by decide +kernel) ho
  | distance hs ho => simp only [List.append_assoc]; exact front_call hs (by decide +kernel) ho
  | now hs => exact front_kwF hs (by decide) (by decide +kernel) hr.1.1

theorem op_noLetter {op o r : Str} (hm : op ∈ binOps) (ho : Tok op o) : NoLetter (skip true (o ++ r)) := by
  have : (binOps.all fun w => match w with | [] => false | c :: _ => !isSpace c && !isLetter c) = true := by decide
  have := all_mem this hm
  cases op with
  | nil => cases this
  | cons c w =>
    simp only [Bool.and_eq_true, Bool.not_eq_true'] at this
    exact noLetter_of_next (tok_next ho rfl this.1) this.2

theorem termsT_start {q : Bool} {s : Str} {ts : List Term} (h : TermsT S q s ts) : s = [] ∨ ∀ r, NoLetter (skip true (s ++ r)) := by
  cases h with
  | nil => exact .inl rfl
  | cons hm ho hs hneg ht => exact .inr fun r => by rw [List.append_assoc]; exact op_noLetter hm ho

theorem idxT_start {s : Str} {l : List VE} (h : IdxT S s l) : s = [] ∨ ∀ r, NoLetter (skip true (s ++ r)) := by
  cases h with
  | nil => exact .inl rfl
  | cons ho hs hc hi => exact .inr fun r => by rw [List.append_assoc]; exact tok_noLetter ho (by decide) (by decide)

/-- The text spells the expression `v` and is not mistaken for a table. -/
structure FullE (cfg : Config) (s : Str) (v : VENB) : Prop where
  good : GoodE cfg s v
  front : ∀ r, ExprEnd r → Front cfg r (s ++ r)

/-- The same for operands with sign. -/
structure FullS (cfg : Config) (s : Str) (f : Factor) : Prop where
  good : GoodS cfg s f
  front : ∀ r, AtomEnd r → Front cfg r (s ++ r)

/-- The same for operands. -/
structure FullA (cfg : Config) (s : Str) (p : NumPrim) : Prop where
  good : GoodA cfg s p
  front : ∀ r, AtomEnd r → Front cfg r (s ++ r)

/-- The same for operands without indices. -/
structure FullP (cfg : Config) (s : Str) (p : Prim) : Prop where
  good : GoodPrim cfg s p
  front : ∀ r, PrimEnd r → Front cfg r (s ++ r)

theorem full_expr {s t : Str} {f : Factor} {ts : List Term} (hf : FullS cfg s f) (ht : GoodT cfg (strFactor f) t ts)
    (h0 : t = [] ∨ ∀ r, NoLetter (skip true (t ++ r))) : FullE cfg (s ++ t) (.mk f ts) := by
  refine ⟨good_expr hf.good ht, fun r hr => ?_⟩
  rw [List.append_assoc]
  refine front_mono (hf.front _ (ht.stop r hr)) ?_
  rcases h0 with rfl | h0
  · exact .inl rfl
  · exact .inr (.inl (h0 r))

theorem full_plain {s : Str} {p : NumPrim} (h : FullA cfg s p) : FullS cfg s (.mk [] p) :=
  ⟨good_plain h.good, h.front⟩

theorem full_signed {o : Str} {c : Char} {s : Str} {p : NumPrim} (hc : c = '+' ∨ c = '-') (ho : Tok [c] o)
    (h : FullA cfg s p) : FullS cfg (o ++ s) (.mk [c] p) := by
  refine ⟨good_signed hc ho h.good, fun r _ => ?_⟩
  rw [List.append_assoc]
  refine front_chrT ho rfl ?_
  rcases hc with rfl | rfl <;> decide

theorem full_prim {s t : Str} {p : Prim} {idx : List VE} (h : FullP cfg s p) (ht : GoodI cfg t idx)
    (h0 : t = [] ∨ ∀ r, NoLetter (skip true (t ++ r))) : FullA cfg (s ++ t) (.vep (.mk p idx)) := by
  refine ⟨good_prim h.good ht, fun r hr => ?_⟩
  rw [List.append_assoc]
  refine front_mono (h.front _ (ht.stop r hr)) ?_
  rcases h0 with rfl | h0
  · exact .inl rfl
  · exact .inr (.inl (h0 r))

theorem full_fn {s : Str} {f : NumFn} (hg : GoodF cfg s f) (h : FnT S s f) : FullA cfg s (.nvf f) :=
  ⟨good_fn hg, fun _ hr => front_fn h hr⟩

/-- The text spells the value `x` and is not mistaken for a table or a geometric condition. -/
structure FullV (cfg : Config) (o g : Bool) (s : Str) (x : VE) : Prop where
  good : GoodV cfg o g s x
  geo : ∀ r, FEnd o r → next r ≠ some '=' → parse cfg geometry true (s ++ r) = .fail
  front : ∀ r, FEnd o r → Front cfg r (s ++ r)

theorem FullE.val {s : Str} {v : VENB} (h : FullE cfg s v) : FullV cfg false false s (.nb v) :=
  ⟨h.good.val, fun _ hr hn => expr_geometry' h.good hr.1 hn, fun r hr => h.front r hr.1⟩

theorem front_open {o s c r : Str} (ho : Tok cs!"(" o) (hc : Tok cs!")" c)
    (hg : parse cfg geometry true (s ++ (c ++ r)) = .fail) (hf : Front cfg (c ++ r) (s ++ (c ++ r))) :
    Front cfg r (o ++ (s ++ (c ++ r))) := by
  have e : skip true (o ++ (s ++ (c ++ r))) = cs!"(" ++ (s ++ (c ++ r)) := tok_drop ho rfl (by decide)
  exact .paren e hg (tok_next (r := r) hc rfl (by decide)) hf

theorem full_sub {p g : Bool} {o s c : Str} {v : VE} (ho : Tok cs!"(" o) (h : FullV cfg p g s v) (hc : Tok cs!")" c) :
    FullP cfg (o ++ (s ++ c)) (.sub v) := by
  refine ⟨(good_sub ho h.good hc).q, fun r _ => ?_⟩
  simp only [List.append_assoc]
  exact front_open ho hc (h.geo (c ++ r) (close_v hc).fEnd (by rw [tok_next hc rfl (by decide)]; decide))
    (h.front _ (close_v hc).fEnd)

theorem front_bool {s t r : Str} (h : KwIn [cs!"TRUE", cs!"FALSE"] s t) (hr : PrimEnd r) : Front cfg r (s ++ r) := by
  obtain ⟨w, hw, h⟩ := h
  have : ([cs!"TRUE", cs!"FALSE"].all fun w => wordShape w && frontKw w) = true := by decide +kernel
  have := all_mem this hw
  rw [Bool.and_eq_true] at this
  exact front_kwF h this.1 this.2 hr.1

theorem front_num {s t r : Str} (hs : Tok t s) (ht : NumLit t) : Front cfg r (s ++ r) := by
  obtain ⟨c, u, e, hc⟩ := numLit_chr ht
  exact front_chrT hs e hc

theorem front_str {s t r : Str} (hs : Tok t s) (ht : StrLit t) : Front cfg r (s ++ r) := by
  obtain ⟨c, u, e, hc⟩ := strLit_chr ht
  exact front_chrT hs e hc

theorem front_call' {w s t o z r : Str} (h : Kw w s t) (hw : w ∈ callWords) (ho : Tok cs!"(" o) :
    Front cfg r ((s ++ (o ++ z)) ++ r) := by
  simp only [List.append_assoc]; exact front_call h hw ho

theorem front_calls' {ws : List Str} {s t o z r : Str} (h : KwIn ws s t) (hw : (ws.all fun w => callWords.contains w) = true)
    (ho : Tok cs!"(" o) : Front cfg r ((s ++ (o ++ z)) ++ r) := by
  simp only [List.append_assoc]; exact front_calls h hw ho

theorem front_arr {s t o z r : Str} (hs : Kw cs!"ARRAY" s t) (ho : Tok cs!"[" o) : Front cfg r ((s ++ (o ++ z)) ++ r) := by
  simp only [List.append_assoc]
  exact front_word hs (by decide +kernel) (nameEnd_tok ho (by decide)) (tok_noLetter ho (by decide) (by decide))

theorem front_case {s t z r : Str} (hs : Kw cs!"CASE" s t) (hb : BlankFirst z) : Front cfg r ((s ++ z) ++ r) := by
  rw [List.append_assoc]
  exact front_kwF hs (by decide) (by decide +kernel) (blankFirst_notContinued' hb)

theorem FullE.first {s : Str} {v : VENB} (h : FullE cfg s v) : First cfg s v :=
  ⟨h.good, fun _ hr => front_parenGeo (h.front _ hr)⟩

/-! ### Conditions -/

/-- The text spells the predicate `p` and is not mistaken for a table. -/
structure FullPr (cfg : Config) (h : Head) (o g : Bool) (s : Str) (p : Pred) : Prop where
  good : GoodPr cfg h o g s p
  front : ∀ r, FEnd o r → Front cfg r (s ++ r)

/-- The same for `boolean_primary`. -/
structure FullB (cfg : Config) (h : Head) (o g : Bool) (s : Str) (p : BP) : Prop where
  good : GoodB cfg h o g s p
  front : ∀ r, FEnd o r → Front cfg r (s ++ r)

/-- The same for `boolean_factor`. -/
structure FullBF (cfg : Config) (h : Head) (o g : Bool) (s : Str) (f : BF) : Prop where
  good : GoodBF cfg h o g s f
  front : ∀ r, FEnd o r → Front cfg r (s ++ r)

/-- The same for conditions. -/
structure FullC (cfg : Config) (h : Head) (o : Bool) (s : Str) (c : SC) : Prop where
  good : GoodC cfg h o s c
  front : ∀ r, FEnd o r → Front cfg r (s ++ r)

theorem FullC.val {o : Bool} {s : Str} {c : SC} (h : FullC cfg .none o s c) : FullV cfg o true s (.sc c) :=
  ⟨h.good.val, fun r hr _ => (h.good.geo r hr).1, h.front⟩

/-- A predicate that starts with an expression. -/
theorem full_first {o g : Bool} {s ρ : Str} {v : VENB} {p : Pred} (hs : FullE cfg s v)
    (hg : GoodPr cfg .stops o g (s ++ ρ) p) (hρ : ∀ r, ExprEnd r → ExprEnd (ρ ++ r) ∧ Shut (ρ ++ r)) :
    FullPr cfg .stops o g (s ++ ρ) p := by
  refine ⟨hg, fun r hr => ?_⟩
  rw [List.append_assoc]
  obtain ⟨h1, h2⟩ := hρ r hr.1
  exact front_mono (hs.front _ h1) (.inr h2)

theorem comp_end {op o r : Str} (hop : op ∈ compOps) (ho : Tok op o) : ExprEnd (o ++ r) ∧ Shut (o ++ r) := by
  have : (compOps.all fun w => match w with
    | [] => false
    | c :: _ => (!isSpace c && !isIdChar c && !("(.'\":-[*/+|".toList.contains c)) && !isLetter c) = true := by decide
  have := all_mem this hop
  cases op with
  | nil => cases this
  | cons c w =>
    obtain ⟨h1, h2⟩ := Bool.and_eq_true_iff.1 this
    have h3 : isSpace c = false := by
      simp only [Bool.and_eq_true, Bool.not_eq_true'] at h1; exact h1.1.1
    exact ⟨exprEnd_tok ho h1, .inl (noLetter_of_next (tok_next ho rfl h3) (by simpa using h2))⟩

theorem notT_shut {k n w b b' y : Str} (h : NotT k n) (hb : Word w b b') (hw : w ∈ shutWords)
    (hy : NotContinued y) : ExprEnd (k ++ (b ++ y)) ∧ Shut (k ++ (b ++ y)) := by
  have : (shutWords.all wordShape) = true := by decide
  refine ⟨(notT_end h hb (all_mem this hw) hy).1, ?_⟩
  cases h with
  | none => exact shut_word (k := b) hb hw hy
  | some h => exact shut_word h (by decide) (blankFirst_notContinued' hb.2)

theorem full_cmp {p g : Bool} {s o op t : Str} {v : VENB} {w : VE} (hs : FullE cfg s v) (hop : op ∈ compOps) (ho : Tok op o)
    (ht : GoodV cfg p g t w) : FullPr cfg .stops p g (s ++ (o ++ t)) (.cmp v op w) :=
  full_first hs (good_cmp hs.first hop ho ht) fun r _ => by rw [List.append_assoc]; exact comp_end hop ho

theorem full_between {p g : Bool} {s k n b b' t a a' u : Str} {v lo : VENB} {hi : VE} (hs : FullE cfg s v) (hk : NotT k n)
    (hb : Word cs!"BETWEEN" b b') (hbt : BlankFirst t) (ht : GoodE cfg t lo) (ha : Word cs!"AND" a a')
    (hbu : BlankFirst u) (hu : GoodV cfg p g u hi) :
    FullPr cfg .stops p g (s ++ (k ++ (b ++ (t ++ (a ++ u))))) (.between v n (.nb lo) hi) :=
  full_first hs (good_between hs.first hk hb hbt ht ha hbu hu) fun r _ => by
    simp only [List.append_assoc]; exact notT_shut hk hb (by decide) (blankFirst_notContinued' hbt)

theorem full_nullP {s i i' k n u u' : Str} {v : VENB} (hs : FullE cfg s v) (hi : Word cs!"IS" i i')
    (hk : NotT k n) (hu : Word cs!"NULL" u u') : FullPr cfg .stops false false (s ++ (i ++ (k ++ u))) (.null v n) :=
  full_first hs (good_nullP hs.first hi hk hu) fun r _ => by
    simp only [List.append_assoc]
    have hy : NotContinued (k ++ (u ++ r)) := by
      cases hk with
      | none => exact blankFirst_notContinued' (s := u) hu.2
      | some h => exact blankFirst_notContinued' h.2
    have := notT_shut .none hi (by decide) hy
    simpa using this

theorem full_like {s k n l l' t : Str} {v w : VENB} (hs : FullE cfg s v) (hk : NotT k n)
    (hl : Word cs!"LIKE" l l') (hbt : BlankFirst t) (ht : GoodE cfg t w) :
    FullPr cfg .stops false false (s ++ (k ++ (l ++ t))) (.like v n (.nb w)) :=
  full_first hs (good_like hs.first hk hl hbt ht) fun r _ => by
    simp only [List.append_assoc]; exact notT_shut hk hl (by decide) (blankFirst_notContinued' hbt)

theorem inT_shut {k n z r : Str} (hk : InT k n) (hz : BlankFirst z) :
    ExprEnd (k ++ (z ++ r)) ∧ Shut (k ++ (z ++ r)) := by
  obtain ⟨k1, n1, k2, t, rfl, h1, h2⟩ := inT_parts hk
  rw [List.append_assoc]
  exact notT_shut h1 h2 (by decide) (blankFirst_notContinued' hz)

theorem full_inSub {s k n z : Str} {v : VENB} {q : Subquery} (hs : FullE cfg s v) (hk : InT k n)
    (hz : BlankFirst z) (h : ∀ r, parse cfg subq true (z ++ r) = .ok q r) :
    FullPr cfg .stops false false (s ++ (k ++ z)) (.inSub v n q) :=
  full_first hs (good_inSub hs.first hk hz h) fun r _ => by rw [List.append_assoc]; exact inT_shut hk hz

theorem full_inList {s k n o u c : Str} {v : VENB} {vs : List VE} (hs : FullE cfg s v) (hk : InT k n)
    (hbo : BlankFirst o) (ho : Tok cs!"(" o) (hu : GoodArgs cfg u vs) (hc : Tok cs!")" c)
    (hq : ∀ r, parse cfg subq true (o ++ (u ++ (c ++ r))) = .fail) :
    FullPr cfg .stops false false (s ++ (k ++ (o ++ (u ++ c)))) (.inList v n vs) :=
  full_first hs (good_inList hs.first hk hbo ho hu hc hq) fun r _ => by
    rw [List.append_assoc]; exact inT_shut hk (blankFirst_append hbo)

theorem full_exists {e e' t : Str} {q : Subquery} (he : Kw cs!"EXISTS" e e') (hbt : BlankFirst t)
    (h : ∀ r, parse cfg subq true (t ++ r) = .ok q r) : FullPr cfg .none false false (e ++ t) (.exist q) :=
  ⟨good_exists he hbt h, fun r _ => by
    rw [List.append_assoc]; exact front_kwF he (by decide) (by decide +kernel) (blankFirst_notContinued' hbt)⟩

theorem full_pred {h : Head} {o g : Bool} {s : Str} {p : Pred} (hp : FullPr cfg h o g s p) : FullB cfg h o g s (.pred p) :=
  ⟨good_pred hp.good, hp.front⟩

theorem full_paren {o' s c' : Str} {h : Head} {o : Bool} {c : SC} (ho : Tok cs!"(" o') (hs : FullC cfg h o s c)
    (hc : Tok cs!")" c') : FullB cfg h.paren (decide (h.paren = .whole)) false (o' ++ (s ++ c')) (.sc c) := by
  refine ⟨good_paren ho hs.good hc, fun r _ => ?_⟩
  simp only [List.append_assoc]
  exact front_open ho hc (hs.good.geo _ (close_fEnd hc)).1 (hs.front _ (close_fEnd hc))

theorem full_bare {s : Str} {v : VENB} (hs : FullE cfg s v) (hn : next s ≠ some '(')
    (he : prefixCI cs!"EXISTS" (firstExpr v) = false) : FullB cfg .whole true false s (.ve v) :=
  ⟨good_bare hs.first hn he, fun r hr => hs.front r hr.1⟩

theorem full_fplain {h : Head} {o g : Bool} {s : Str} {p : BP} (hp : FullB cfg h o g s p)
    (hn : cfg.residue = true → prefixCI cs!"NOT" (firstBP p) = false) : FullBF cfg h o g s (.mk [] p) :=
  ⟨good_fplain hp.good hn, hp.front⟩

theorem full_fnot {k n : Str} {h : Head} {o g : Bool} {s : Str} {p : BP} (hk : Kw cs!"NOT" k n) (hb : BlankFirst s)
    (hp : FullB cfg h o g s p) : FullBF cfg .none o g (k ++ s) (.mk n p) :=
  ⟨good_fnot hk hb hp.good, fun r _ => by
    rw [List.append_assoc]; exact front_kwF hk (by decide) (by decide +kernel) (blankFirst_notContinued' hb)⟩

theorem full_factorC {h : Head} {o g : Bool} {s : Str} {f : BF} (hf : FullBF cfg h o g s f) : FullC cfg h o s (.factor f) :=
  ⟨good_factorC hf.good, hf.front⟩

theorem full_term {h h' : Head} {o o' : Bool} {s k op t : Str} {f : BF} {c : SC} (hf : FullBF cfg h o false s f)
    (hk : WordIn [cs!"AND", cs!"OR"] k op) (hb : BlankFirst t) (hc : GoodC cfg h' o' t c) :
    FullC cfg h.more o' (s ++ (k ++ t)) (.term f op c) := by
  refine ⟨good_term hf.good hk hb hc, fun r _ => ?_⟩
  simp only [List.append_assoc]
  have he : FEnd o (k ++ (t ++ r)) :=
    ⟨ends_expr (by decide) (log_end hk hb), fun _ => ends_bare (by decide) (by decide) (log_end hk hb)⟩
  obtain ⟨w, hw, hk⟩ := hk
  exact front_mono (hf.front _ he) (.inr (shut_word hk
    ((by decide : ∀ w ∈ [cs!"AND", cs!"OR"], w ∈ shutWords) w hw) (blankFirst_notContinued' hb)))

/-! ### Lists are not subqueries -/

theorem with_fail {u : Str} (h : matchLit true cs!"WITH" (skip true u) = none) : parse cfg withClause true u = .fail :=
  map_fail (seqR_fail (wordX_fail h))

theorem select_fail {u : Str} (h : matchLit true cs!"SELECT" (skip true u) = none) : parse cfg select true u = .fail :=
  map_fail (seqR_fail (wordX_fail h))

theorem query_fail {w : G Where} {u : Str} (h1 : matchLit true cs!"WITH" (skip true u) = none)
    (h2 : matchLit true cs!"SELECT" (skip true u) = none) : parse cfg (queryWith w) true u = .fail :=
  map_fail (seq_fail2 (optD_none (with_fail h1)) (seq_fail (map_fail (seq_fail (map_fail (seq_fail (select_fail h2)))))))

theorem subq_fail {o u : Str} (ho : Tok cs!"(" o) (h1 : matchLit true cs!"WITH" (skip true u) = none)
    (h2 : matchLit true cs!"SELECT" (skip true u) = none) (h3 : parse cfg jt true u = .fail) :
    parse cfg subq true (o ++ u) = .fail := by
  rw [subq, parse_nt]
  exact seqR_fail2 (sym_ok1 (by decide) ho) (seqL_fail (alt_fail (map_fail (query_fail h1 h2)) (map_fail h3)))

theorem expr_noSubq {p g : Bool} {o s t : Str} {v : VE} (ho : Tok cs!"(" o) (hs : FullV cfg p g s v) (ht : VEnd t)
    (hl : NoLetter (skip true t)) (h1 : prefixCI cs!"WITH" (firstVal v) = false)
    (h2 : prefixCI cs!"SELECT" (firstVal v) = false) : parse cfg subq true (o ++ (s ++ t)) = .fail := by
  have hlead := hs.good.lead t ht.1.1.1.1
  exact subq_fail ho (hlead.none (by decide) h1 (by decide)) (hlead.none (by decide) h2 (by decide))
    (front_jt (hs.front _ ht.fEnd) (.inl hl))

/-- The text spells the list of values `vs` and is not mistaken for a subquery. -/
structure FullArgs (cfg : Config) (s : Str) (vs : List VE) : Prop where
  good : GoodArgs cfg s vs
  noSubq : prefixCI cs!"WITH" (firstArgs vs) = false → prefixCI cs!"SELECT" (firstArgs vs) = false → ∀ {o c : Str}, Tok cs!"(" o → Tok cs!")" c → ∀ r, parse cfg subq true (o ++ (s ++ (c ++ r))) = .fail

theorem full_argsOne {p g : Bool} {s : Str} {v : VE} (h : FullV cfg p g s v) : FullArgs cfg s [v] :=
  ⟨args_one h.good, fun h1 h2 _ _ ho hc _ => expr_noSubq ho h (close_v hc) (tok_noLetter hc (by decide) (by decide)) h1 h2⟩

theorem full_argsCons {p g : Bool} {s m t : Str} {v : VE} {vs : List VE} (h : FullV cfg p g s v) (hm : Tok cs!"," m)
    (ht : FullArgs cfg t vs) : FullArgs cfg (s ++ (m ++ t)) (v :: vs) := by
  refine ⟨args_cons h.good hm ht.good, fun h1 h2 _ _ ho hc _ => ?_⟩
  simp only [List.append_assoc]
  exact expr_noSubq ho h (comma_v hm) (tok_noLetter hm (by decide) (by decide)) h1 h2

end Adql.Fwd
