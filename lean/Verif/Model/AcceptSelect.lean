import Verif.Model.AcceptTab
import Verif.Props.Clauses

/-!
# Running the grammar forward: selected columns
-/

namespace Adql.Fwd

open P Spec

variable {cfg : Config} {sk : Bool} {S : Mode} [Fits S cfg]

/-! ### DISTINCT, ALL and TOP -/

theorem quant_none {u : Str} (h1 : Apart cs!"DISTINCT" (skip true u)) (h2 : Apart cs!"ALL" (skip true u)) :
    parse cfg setQuantifier true u = .fail := by
  have hu := bare_skip u
  rw [setQuantifier]
  simp only [parse, run_lexeme]
  have hs : skip false (skip true u) = skip true u := rfl
  rw [hs]
  refine stuck_seqL_fail ?_ fun c v hc => andSpace_idChar hc
  exact stuck_alt (stuck_kw hu h1) (stuck_kw hu h2)

theorem top_none {u : Str} (h : Apart cs!"TOP" (skip true u)) : parse cfg topClause true u = .ok topMax u :=
  optD_none (seqR_fail (word_fail h))

theorem digits_notBlank {d : Str} (h : Digits d) : ∃ c t, d = c :: t ∧ isSpace c = false ∧ isIdChar c = true := by
  obtain ⟨h0, h1⟩ := h
  cases d with
  | nil => exact absurd rfl h0
  | cons c t =>
    have hc := h1 c (by simp)
    refine ⟨c, t, rfl, ?_, ?_⟩
    · cases hs : isSpace c with
      | false => rfl
      | true =>
        have := space_not_digit hs
        rw [isDigit_iff.2 hc] at this; cases this
    · have := isDigit_iff.2 hc
      rw [isIdChar_toNat]
      simp only [isDigit, Bool.and_eq_true, decide_eq_true_eq] at this
      omega

theorem topT_ok {p y : Str} {n : Nat} (h : TopT p n) (hy : BlankFirst y) (hn : Apart cs!"TOP" (skip true y)) :
    parse cfg topClause true (p ++ y) = .ok n y := by
  cases h with
  | none => exact top_none hn
  | @some k t m d hk hm hb hd hv =>
    obtain ⟨⟨b, hb1, rfl, ht⟩, -⟩ := hk
    obtain ⟨b', hb', rfl⟩ := hm
    obtain ⟨e, r, rfl, he⟩ := hy
    cases b' with
    | nil =>
      exfalso
      obtain ⟨c, u, rfl, hc, -⟩ := digits_notBlank hd
      obtain ⟨c', u', e', hc'⟩ := hb
      cases e'
      rw [hc] at hc'; cases hc'
    | cons c b' =>
      have := C19_value cfg (r := r) hb1 ht (hb' c (by simp)) (b' := b') (fun x hx => hb' x (List.mem_cons_of_mem _ hx)) hd he hv
      simpa only [List.append_assoc, List.cons_append] using this

theorem topT_blank {p y : Str} {n : Nat} (h : TopT p n) (hy : BlankFirst y) : BlankFirst (p ++ y) := by
  cases h with
  | none => exact hy
  | some hk => exact blankFirst_append (blankFirst_append hk.2)

theorem quantT_blank {q t y : Str} (h : QuantT q t) (hy : BlankFirst y) : BlankFirst (q ++ y) := by
  cases h with
  | none => exact hy
  | some hk =>
    obtain ⟨w, -, hk⟩ := hk
    exact blankFirst_append hk.2

theorem quantT_ok {q t y : Str} (h : QuantT q t) (hy : BlankFirst y) (h1 : Apart cs!"DISTINCT" (skip true y))
    (h2 : Apart cs!"ALL" (skip true y)) : parse cfg (optS setQuantifier) true (q ++ y) = .ok t y := by
  cases h with
  | none => exact optD_none (quant_none h1 h2)
  | some hk =>
    obtain ⟨w, hw, hk⟩ := hk
    have := quant_ok (cfg := cfg) (r := []) ⟨w, hw, hk.1⟩ hy
    simp only [List.append_nil] at this
    exact optD_ok this

theorem topT_apart {p y w : Str} {n : Nat} (h : TopT p n) (hy : Apart w (skip true y)) (hw : offAll [w] cs!"TOP" = true) :
    Apart w (skip true (p ++ y)) := by
  cases h with
  | none => exact hy
  | some hk _ hb =>
    rw [List.append_assoc]
    obtain ⟨e, hk⟩ := word_start hk (by decide) (blankFirst_notContinued' (r := y) hb)
    rw [e]
    exact hk.apart hw _ (by simp)

/-! ### Items -/

/-- The text spells the selected column `i`. -/
structure GoodItem (cfg : Config) (s : Str) (i : Item) : Prop where
  lead : ∀ r, NotContinued r → ∃ f, LeadV f (s ++ r)
  run : ∀ r, Ends [cs!"FROM"] r → parse cfg selectItem true (s ++ r) = .ok i r

theorem from_noAs {r : Str} (h : Ends [cs!"FROM"] r) : parse cfg (word cs!"AS") true r = .fail :=
  word_fail (ends_apart (by decide) h (by decide))

theorem good_itemExpr {p g : Bool} {s : Str} {v : VE} (h : FullV cfg p g s v) : GoodItem cfg s (.nonAsVE v) := by
  have hg := h.good
  refine ⟨fun r hr => ⟨_, hg.lead r hr⟩, fun r hr => ?_⟩
  have he := ends_v (by decide) hr
  have hv := hg.ve he
  exact (alt_right (map_fail (seq_fail (seqL_fail2 hv (from_noAs hr))))).trans
    ((alt_right (map_fail (front_star (h.front r he.fEnd)))).trans (map_ok hv))

theorem good_itemAs {s a a' t x : Str} {p g : Bool} {v : VE} (hg : GoodV cfg p g s v) (ha : Word cs!"AS" a a') (ht : Tok x t)
    (hb : BlankFirst t) (hx : Part x) : GoodItem cfg (s ++ (a ++ t)) (.as v x) := by
  refine ⟨fun r _ => ?_, fun r hr => ?_⟩ <;> simp only [List.append_assoc]
  · exact ⟨_, hg.lead _ (blankFirst_notContinued (blankFirst_append ha.2))⟩
  · have h0 : NotContinued (t ++ r) := blankFirst_notContinued' hb
    have he := ends_expr (by decide) hr
    exact alt_left (map_ok (f := fun x : VE × Str => Item.as x.1 x.2)
      (seq_ok (seqL_ok (hg.ve (word_v ha (by decide) h0)) (word_ok ha.1 (by decide) (blankFirst_append hb)))
        (expect_ok (ident_tok ht hx he.1.1.1 (ends_ne (by decide) hr (by decide))))))

theorem tabName_col {s n : Str} (hs : Tok n s) (h : TabName n) : ∃ c, ColT S s c := by
  obtain ⟨b, hb, rfl⟩ := hs
  have tn : ∀ {x : Str}, Tok x x := fun {x} => tok_nil
  cases h with
  | one hx => exact ⟨_, .col ⟨b, hb, rfl⟩ hx⟩
  | @two x y hx hy =>
    have := ColT.qc (S := S) (s := b ++ x) (d := cs!".") (t := y) ⟨b, hb, rfl⟩ hx tn tn hy
    refine ⟨_, (by simpa only [List.append_assoc, List.cons_append, List.nil_append] using this)⟩
  | @three x y z hx hy hz =>
    have := ColT.sqc (S := S) (s := b ++ x) (d := cs!".") (t := y) (d' := cs!".") (u := z) ⟨b, hb, rfl⟩ hx tn tn hy tn tn hz
    refine ⟨_, (by simpa only [List.append_assoc, List.cons_append, List.nil_append] using this)⟩

theorem star_dot {r : Str} : NotContinued (cs!".*" ++ r) ∧ next (cs!".*" ++ r) = some '.' ∧
    parse cfg (seqR (sym cs!".") identifier) true (cs!".*" ++ r) = .fail := by
  refine ⟨dot_more.1, next_bare (by decide), seqR_fail2 (sym_ok1 (s := cs!".") (by decide) tok_nil) ?_⟩
  exact ident_fail (bare_cons (by decide)) (by intro c t e; cases e; decide) (by intro t e; cases e)

/-- the name of a table in front of `.*`, read as an expression -/
theorem star_ve {s r : Str} {c : ColRef} (h : ColT S s c) : ∃ v, parse cfg ve true (s ++ (cs!".*" ++ r)) = .ok v (cs!".*" ++ r) := by
  obtain ⟨h1, h2, h3⟩ := star_dot (cfg := cfg) (r := r)
  have hn : ∀ d, d ≠ '.' → next (cs!".*" ++ r) ≠ some d := by
    intro d hd; rw [h2]; rintro ⟨⟩; exact hd rfl
  have hp := primary_col h h1 (hn _ (by decide)) (col_ok' h h1 (hn _ (by decide)) h3)
  have hf := nvf_col (cfg := cfg) h h1 (hn _ (by decide))
  have hl := colT_lead h h1
  have ha : parse cfg numericPrimary true (s ++ (cs!".*" ++ r)) = .ok (.vep (.mk (.col c) [])) (cs!".*" ++ r) := by
    rw [numericPrimary, alt_right (map_fail hf)]
    exact map_ok (map_ok (f := fun x : Prim × List VE => VEP.mk x.1 x.2)
      (seq_ok hp (star_nil (seqR_fail (sym_fail (hn _ (by decide)))))))
  have hfac : parse cfg factor true (s ++ (cs!".*" ++ r)) = .ok (.mk [] (.vep (.mk (.col c) []))) (cs!".*" ++ r) :=
    map_ok (f := fun x : Str × NumPrim => Factor.mk x.1 x.2)
      (seq_ok (optD_none (sign_fail (hl.ne (by decide)) (hl.ne (by decide)))) ha)
  have hv : parse cfg venb true (s ++ (cs!".*" ++ r)) = .ok (.mk (.mk [] (.vep (.mk (.col c) []))) []) (cs!".*" ++ r) := by
    rw [venb, parse_nt]
    refine map_ok (f := fun x : Factor × List Term => VENB.mk x.1 x.2) (seq_ok hfac (star_nil (map_fail (seq_fail (binop_fail ?_)))))
    rw [h2]; decide
  refine ⟨.nb (.mk (.mk [] (.vep (.mk (.col c) []))) []), ?_⟩
  rw [ve, parse_nt]
  exact alt_left (map_ok hv)

theorem good_itemAll {s n : Str} (hs : Tok (n ++ cs!".*") s) (h : TabName n) : GoodItem cfg s (.nonAsStr (n ++ cs!".*")) := by
  obtain ⟨b, hb, rfl⟩ := hs
  have hs : Tok n (b ++ n) := ⟨b, hb, rfl⟩
  obtain ⟨c, hc⟩ := tabName_col (S := .core) hs h
  refine ⟨fun r _ => ?_, fun r hr => ?_⟩
  · have := (colT_lead hc (star_dot (cfg := cfg) (r := r)).1).mono (cs' := exprChars) (by decide)
    exact ⟨_, .inl (by simpa only [List.append_assoc] using this)⟩
  · obtain ⟨v, hv⟩ := star_ve (cfg := cfg) (r := r) hc
    rw [show b ++ (n ++ cs!".*") ++ r = (b ++ n) ++ (cs!".*" ++ r) by simp]
    refine (alt_right (map_fail (seq_fail (seqL_fail2 hv (word_fail ?_))))).trans (alt_left (map_ok ?_))
    · rw [List.cons_append, skip_bare (bare_cons (by decide))]
      exact apart_noLetter (by decide) (by intro c t e; cases e; decide)
    · have h1 : skip true (b ++ n ++ (cs!".*" ++ r)) = n ++ (cs!".*" ++ r) := by
        rw [List.append_assoc, skip_blanks hb, skip_bare (tabName_bare (tabName_from h))]
      simp only [qualifierStar, parse, run_lexeme, h1]
      refine cat_ok (tabName_ok (tabName_from h) nameStop_star) ?_
      simp [step, sym, skip, matchLit]

/-- all columns of an uploaded table -/
theorem good_itemUp {s x y : Str} (hs : Tok (cs!"TAP_UPLOAD." ++ (x ++ cs!".*")) s) (hx : UpT S x y) :
    GoodItem cfg s (.nonAsStr (y ++ cs!".*")) := by
  obtain ⟨b, hb, rfl⟩ := hs
  have e : ∀ r : Str, b ++ (cs!"TAP_UPLOAD." ++ (x ++ cs!".*")) ++ r = b ++ (cs!"TAP_UPLOAD" ++ ('.' :: (x ++ (cs!".*" ++ r)))) := by
    intro r; simp
  refine ⟨fun r _ => ?_, fun r hr => ?_⟩ <;> rw [e]
  · exact ⟨[], .inl ((lead_kwStart tap_start (by decide)).blanks hb)⟩
  · obtain ⟨h1, h2, h3⟩ := star_dot (cfg := cfg) (r := r)
    have hst := tap_start (y := x ++ (cs!".*" ++ r))
    have hi : parse cfg identifier true (cs!"TAP_UPLOAD" ++ ('.' :: (x ++ (cs!".*" ++ r)))) = .fail := ident_tap
    have ht := tap_ok (cfg := cfg) (sk := true) hx.1 (Fits.up _ _ hx.2) h1 (notHead_of_next (by decide) (by rw [h2]; decide))
    have hc : parse cfg columnReference true (cs!"TAP_UPLOAD" ++ ('.' :: (x ++ (cs!".*" ++ r)))) = .fail :=
      alt_fail (map_fail (seq_fail hi)) (alt_fail (map_fail (seq_fail hi)) (alt_fail (map_fail (seq_fail2 (alt_left ht) h3)) (map_fail hi)))
    have hv := venb_fail_kw0 hst (by decide +kernel) hc
    have hsk : skip true (cs!"TAP_UPLOAD" ++ ('.' :: (x ++ (cs!".*" ++ r)))) = cs!"TAP_UPLOAD" ++ ('.' :: (x ++ (cs!".*" ++ r))) :=
      skip_bare hst.bare
    have hsc : parse cfg sc true (cs!"TAP_UPLOAD" ++ ('.' :: (x ++ (cs!".*" ++ r)))) = .fail :=
      sc_fail hv (by rw [hsk]; exact hst.none (by decide)) (by rw [hsk]; exact hst.none (by decide)) (by
        obtain ⟨c, h4, h5⟩ := kwStart_next hst hsk
        rw [h4]; rintro ⟨⟩; exact absurd h5 (by decide))
    have hve : parse cfg ve true (cs!"TAP_UPLOAD" ++ ('.' :: (x ++ (cs!".*" ++ r)))) = .fail := by
      rw [ve, parse_nt]; exact alt_fail (map_fail hv) (map_fail hsc)
    rw [parse_blanks (by simp) (by simp) hb]
    refine (alt_right (map_fail (seq_fail (seqL_fail hve)))).trans (alt_left (map_ok ?_))
    simp only [qualifierStar, parse, run_lexeme, hsk]
    refine cat_ok (r := cs!".*" ++ r) (tableName_up hx.1 (Fits.up _ _ hx.2) h1 (notHead_of_next (by decide) (by rw [h2]; decide))) ?_
    simp [step, sym, skip, matchLit]

/-- The text spells the list of selected columns `l`. -/
structure GoodItems (cfg : Config) (s : Str) (l : List Item) : Prop where
  lead : ∀ r, NotContinued r → ∃ f, LeadV f (s ++ r)
  run : ∀ r, Ends [cs!"FROM"] r → next r ≠ some ',' → parse cfg (sepBy selectItem (sym cs!",")) true (s ++ r) = .ok l r

theorem good_itemsOne {s : Str} {i : Item} (h : GoodItem cfg s i) : GoodItems cfg s [i] :=
  ⟨h.lead, fun r hr hc => sepBy_one (h.run r hr) (sym_fail hc)⟩

theorem good_itemsCons {s m t : Str} {i : Item} {l : List Item} (h : GoodItem cfg s i) (hm : Tok cs!"," m)
    (ht : GoodItems cfg t l) : GoodItems cfg (s ++ (m ++ t)) (i :: l) := by
  refine ⟨fun r _ => ?_, fun r hr hc => ?_⟩ <;> simp only [List.append_assoc]
  · exact h.lead _ (comma_end hm).1.1.1
  · exact sepBy_cons (by simp) (h.run _ (comma_ends hm)) (sym_ok1 (by decide) hm) (ht.run r hr hc)

/-- The text spells the selected columns. -/
structure GoodCols (cfg : Config) (s : Str) (c : Columns) : Prop where
  start : ∀ r, NotContinued r → ∀ w ∈ [cs!"DISTINCT", cs!"ALL", cs!"TOP"], Apart w (skip true (s ++ r))
  run : ∀ r, Ends [cs!"FROM"] r → next r ≠ some ',' → parse cfg columns true (s ++ r) = .ok c r

theorem good_colsStar {s : Str} (hs : Tok cs!"*" s) : GoodCols cfg s (.star cs!"*") := by
  refine ⟨fun r _ w hw => ?_, fun r hr _ => ?_⟩
  · have : ([cs!"DISTINCT", cs!"ALL", cs!"TOP"].all startsLetter) = true := by decide
    exact apart_noLetter (all_mem this hw) (tok_noLetter hs (by decide) (by decide))
  · exact alt_left (map_ok (sym_ok1 (by decide) hs))

theorem good_colsItems {s : Str} {l : List Item} (h : GoodItems cfg s l) : GoodCols cfg s (.items l) := by
  obtain ⟨h1, h2⟩ := h
  refine ⟨fun r hr w hw => ?_, fun r hr hc => ?_⟩
  · simp only [List.mem_cons, List.not_mem_nil, or_false] at hw
    rcases hw with rfl | rfl | rfl
    · exact (h1 r hr).choose_spec.apart (by decide +kernel)
    · exact (h1 r hr).choose_spec.apart (by decide +kernel)
    · exact (h1 r hr).choose_spec.apart (by decide +kernel)
  · refine (alt_right (map_fail (sym_fail ((h1 r (ends_expr (by decide) hr).1.1.1).choose_spec.ne (by decide))))).trans (map_ok (h2 r hr hc))

/-- SELECT with its columns -/
theorem select_ok {k k' q qt p cl r : Str} {n : Nat} {cs : Columns} (hk : Kw cs!"SELECT" k k') (hq : QuantT q qt) (hp : TopT p n)
    (hb : BlankFirst cl) (hg : GoodCols cfg cl cs) (hr : Ends [cs!"FROM"] r) (hn : next r ≠ some ',') :
    parse cfg select true (k ++ (q ++ (p ++ (cl ++ r)))) = .ok (.mk qt n cs) r := by
  have h0 : NotContinued r := (ends_expr (by decide) hr).1.1.1
  have hbc : BlankFirst (cl ++ r) := blankFirst_append hb
  have hbp : BlankFirst (p ++ (cl ++ r)) := topT_blank hp hbc
  have hw := hg.start r h0
  exact map_ok (f := fun x : Str × Nat × Columns => Select.mk x.1 x.2.1 x.2.2)
    (seqR_ok (wordX_ok hk (by decide) (quantT_blank hq hbp))
      (seq_ok (quantT_ok hq hbp (topT_apart hp (hw _ (by decide)) (by decide)) (topT_apart hp (hw _ (by decide)) (by decide)))
        (seq_ok (topT_ok hp hbc (hw _ (by decide))) (expect_ok (hg.run r hr hn)))))

end Adql.Fwd
