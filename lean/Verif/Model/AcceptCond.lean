import Verif.Model.AcceptPred

/-!
# Running the grammar forward: conditions
-/

namespace Adql.Fwd

open P Spec

variable {cfg : Config} {sk : Bool}

theorem next_append {s r : Str} {c : Char} (h : next (s ++ r) = some c) : next s = some c ∨ next r = some c := by
  induction s with
  | nil => exact .inr h
  | cons d s ih =>
    cases hd : isSpace d with
    | true =>
      have e : ∀ u, next (d :: u) = next u := by intro u; simp [next, hd]
      rw [List.cons_append, e] at h
      rw [e]; exact ih h
    | false =>
      rw [List.cons_append, next_bare hd] at h
      rw [next_bare hd]; exact .inl h

/-! ### Parentheses in front of an expression -/

theorem primary_paren {u : Str} :
    parse cfg primary true ('(' :: u) = parse cfg valueSubexpression true ('(' :: u) := by
  have hu : Bare ('(' :: u) := bare_cons (by decide)
  have hn : NoLetter ('(' :: u) := by intro c t e; cases e; decide
  have hid : parse cfg identifier true ('(' :: u) = .fail := ident_fail hu hn (by intro t e; cases e)
  have hf : ∀ {α : Type} {p : G α}, p.consumes = true → P.wf rank 4 4 p = true → p.idle deadF (some '(') = true →
      parse cfg p true ('(' :: u) = .fail := fun h1 h2 h3 => fail_head (by decide) h1 h2 h3
  rw [primary_eq, alt_right (arr_char (by decide)), alt_right (map_fail (unsigned_fail (by decide) (by decide) (by decide) (by decide)
      (matchLit_noLetter (by decide) hn) (matchLit_noLetter (by decide) hn))),
    alt_right (map_fail (col_fail hid (tap_fail hu (by intro z e; cases e))))]
  rw [primary2, alt_right (alt_fail (map_fail (hf (by simp) (by simp) (by kernel_rfl))) (hf (by simp) (by simp) (by kernel_rfl))),
    alt_right (map_fail (hf (by simp) (by simp) (by kernel_rfl))), alt_right (hf (by simp) (by simp) (by kernel_rfl)),
    alt_right (map_fail (hf (by simp) (by simp) (by kernel_rfl))), alt_right (map_fail (hf (by simp) (by simp) (by kernel_rfl)))]

/-- A parenthesised value expression of any kind. -/
theorem good_subG {o s c : Str} {x : VE} (ho : Tok cs!"(" o) (hc : Tok cs!")" c)
    (hs : ∀ r, parse cfg ve true (s ++ (c ++ r)) = .ok x (c ++ r)) : GoodP cfg (o ++ (s ++ c)) (.sub x) := by
  have hT : ∃ w, Tok ('(' :: w) (o ++ (s ++ c)) ∧ w = s ++ c := by
    obtain ⟨b, hb, rfl⟩ := ho
    exact ⟨s ++ c, ⟨b, hb, by simp⟩, rfl⟩
  obtain ⟨w, hT, hw⟩ := hT
  refine good_char hT ⟨_, _, rfl, by decide⟩ fun r hr => ?_
  have h := primary_paren (cfg := cfg) (u := w ++ r)
  rw [primary_eq, alt_right (arr_char (by decide))] at h
  rw [List.cons_append, h]
  refine map_ok (seqR_ok (r := w ++ r) (a := cs!"(") ?_ (seqL_ok (r := c ++ r) ?_ (sym_ok1 (by decide) hc)))
  · exact sym_ok1 (s := cs!"(") (by decide) tok_nil
  · rw [hw, List.append_assoc]
    exact hs r

/-- the expression that consists of an operand -/
theorem prim_expr {s : Str} {p : Prim} (h : GoodP cfg s p) : GoodE cfg s (.mk (.mk [] (.vep (.mk p []))) []) := by
  have := good_expr (good_plain (good_prim h.q good_idx_nil)) good_nil
  simpa using this

/-- Parentheses around something that is not an expression. -/
theorem venb_paren_fail {o u : Str} (ho : Tok cs!"(" o)
    (h : ∀ x ρ, parse cfg ve true u = .ok x ρ → next ρ ≠ some ')') (h' : parse cfg ve true u ≠ .oof)
    (he : ∀ e, parse cfg ve true u ≠ .err e) : parse cfg venb true (o ++ u) = .fail := by
  obtain ⟨b, hb, rfl⟩ := ho
  rw [List.append_assoc, venb_blanks hb]
  show parse cfg venb true ('(' :: u) = .fail
  have hv : parse cfg valueSubexpression true ('(' :: u) = .fail := by
    refine map_fail (seqR_fail2 (r := u) (a := cs!"(") (sym_ok1 (s := cs!"(") (by decide) tok_nil) ?_)
    cases hr : parse cfg ve true u with
    | ok x ρ => exact seqL_fail2 hr (sym_fail (h x ρ hr))
    | fail => exact seqL_fail hr
    | err e => exact absurd hr (he e)
    | oof => exact absurd hr h'
  rw [venb, parse_nt]
  refine map_fail (seq_fail (map_fail (seq_fail2 (optD_none (sign_fail ?_ ?_))
    (alt_fail (map_fail (nvf_char (by decide))) (map_fail (map_fail (seq_fail ?_)))))))
  · rw [next_bare (by decide)]; decide
  · rw [next_bare (by decide)]; decide
  · rw [primary_paren]; exact hv

/-! ### Conditions -/

theorem preds_fail {u : Str} (hv : parse cfg venb true u = .fail)
    (he : matchLit true cs!"EXISTS" (skip true u) = none) : parse cfg predicate true u = .fail :=
  alt_fail (map_fail (seq_fail hv)) (alt_fail (map_fail (seq_fail hv)) (alt_fail (map_fail (seq_fail hv))
    (alt_fail (map_fail (seq_fail hv)) (alt_fail (map_fail (seq_fail hv)) (exists_fail he)))))

theorem preds_bare {u r : Str} {v : VENB} (hv : parse cfg venb true u = .ok v r) (hr : BareEnd r)
    (he : matchLit true cs!"EXISTS" (skip true u) = none) : parse cfg predicate true u = .fail := by
  have hn : ∀ w ∈ predWords, matchLit true w (skip true r) = none := fun w hw => bareEnd_none hr hw
  exact alt_fail (cmp_fail hv hr.1)
    (alt_fail (between_fail hv (optD_none (wordX_fail (hn _ (by decide)))) (hn _ (by decide)))
    (alt_fail (in_fail hv (inNot_none (hn _ (by decide))) (hn _ (by decide)))
    (alt_fail (null_fail hv (hn _ (by decide)))
    (alt_fail (like_fail hv (optD_none (word_fail (apart_none (hn _ (by decide))))) (hn _ (by decide)))
    (exists_fail he)))))

/-- The text spells the condition `c`. -/
structure GoodC (cfg : Config) (h : Head) (o : Bool) (s : Str) (c : SC) : Prop where
  lead : ∀ r, NotContinued r → ∃ f, LeadV f (s ++ r) ∧ (h = .none → f = [])
  run : ∀ r, FEnd o r → LogEnd r → parse cfg sc true (s ++ r) = .ok c r
  head : ∀ r, FEnd o r → HeadRes cfg h (s ++ r) r
  geo : ∀ r, FEnd o r → NoGeo cfg (s ++ r)

/-- The text spells the `boolean_factor` `f`. -/
structure GoodBF (cfg : Config) (h : Head) (o g : Bool) (s : Str) (f : BF) : Prop where
  lead : ∀ r, NotContinued r → ∃ f, LeadV f (s ++ r) ∧ (h = .none → f = [])
  run : ∀ r, FEnd o r → (g = true → LogEnd r) → parse cfg (booleanFactor cfg.residue) true (s ++ r) = .ok f r
  head : ∀ r, FEnd o r → HeadRes cfg h (s ++ r) r
  geo : ∀ r, FEnd o r → NoGeo cfg (s ++ r)

theorem good_bare {s : Str} {v : VENB} (hs : First cfg s v) (hn : next s ≠ some '(')
    (he : prefixCI cs!"EXISTS" (firstExpr v) = false) : GoodB cfg .whole true false s (.ve v) := by
  refine ⟨fun r hr => ⟨_, .inl (hs.good.lead r hr), nofun⟩, fun r hr _ => ?_, fun r hr => ⟨v, hs.good.run r hr.1⟩,
    fun r hr => (hs.good.lead r hr).apart (by decide +kernel), fun h0 r hr => lead_noNot (hs.good.lead r hr) h0,
    fun r hr => ⟨expr_geometry' hs.good hr.1 fun e => (hr.2 rfl).1 (by simp [e]), hs.paren r hr.1⟩⟩
  have hv := hs.good.run r hr.1
  have ho : next (s ++ r) ≠ some '(' := by
    intro e
    rcases next_append e with e | e
    · exact hn e
    · exact hr.1.1.1.2 (by simp [e])
  rw [booleanPrimary, alt_right (map_fail (preds_bare hv (hr.2 rfl) (lead_noExists (hs.good.lead r hr.1.1.1.1) he))),
    alt_right (map_fail (seqR_fail (sym_fail ho)))]
  exact map_ok hv

theorem close_fEnd {o : Bool} {c r : Str} (h : Tok cs!")" c) : FEnd o (c ++ r) :=
  ⟨close_end h, fun _ => close_bare h⟩

theorem good_paren {o' s c' : Str} {h : Head} {o : Bool} {c : SC} (ho : Tok cs!"(" o') (hs : GoodC cfg h o s c)
    (hc : Tok cs!")" c') : GoodB cfg h.paren (decide (h.paren = .whole)) false (o' ++ (s ++ c')) (.sc c) := by
  have hl : ∀ u, NoLetter (skip true (o' ++ u)) := fun u => tok_noLetter ho (by decide) (by decide)
  have hnx : ∀ u, next (o' ++ u) = some '(' := fun u => tok_next ho rfl (by decide)
  have hex : ∀ u, matchLit true cs!"EXISTS" (skip true (o' ++ u)) = none := fun u => matchLit_noLetter' (by decide) (hl u)
  have hsc : ∀ r, parse cfg sc true (s ++ (c' ++ r)) = .ok c (c' ++ r) :=
    fun r => hs.run _ (close_fEnd hc) (close_log hc)
  have hclose : ∀ r, next (c' ++ r) = some ')' := fun r => tok_next hc rfl (by decide)
  -- what is found when the text is read as an expression
  have hhead : ∀ r, ExprEnd r → HeadRes cfg h.paren (o' ++ (s ++ (c' ++ r))) r := by
    intro r hr
    have key := hs.head _ (close_fEnd (r := r) hc)
    have whole : ∀ x, (∀ r, parse cfg ve true (s ++ (c' ++ r)) = .ok x (c' ++ r)) →
        ∃ v, parse cfg venb true (o' ++ (s ++ (c' ++ r))) = .ok v r := by
      intro x hx
      have := (prim_expr (good_subG ho hc hx)).run r hr
      simp only [List.append_assoc] at this
      exact ⟨_, this⟩
    cases h with
    | stops =>
      obtain ⟨v, ρ, h1, h2⟩ := key
      have hve : parse cfg ve true (s ++ (c' ++ r)) = .ok (.nb v) ρ := by
        rw [ve, parse_nt]; exact alt_left (map_ok h1)
      refine venb_paren_fail ho ?_ ?_ ?_
      · intro x ρ' e; rw [hve] at e; cases e; exact h2
      · rw [hve]; intro e; cases e
      · intro e; rw [hve]; intro e; cases e
    | none =>
      refine whole (.sc c) fun r => ?_
      rw [ve, parse_nt]
      have := hs.head _ (close_fEnd (r := r) hc)
      exact (alt_right (map_fail this)).trans (map_ok (hsc r))
    | whole =>
      obtain ⟨v, h1⟩ := key
      have hve : parse cfg ve true (s ++ (c' ++ r)) = .ok (.nb v) (c' ++ r) := by
        rw [ve, parse_nt]; exact alt_left (map_ok h1)
      have hp : parse cfg valueSubexpression true ('(' :: (s ++ (c' ++ r))) = .ok (.sub (.nb v)) r :=
        map_ok (seqR_ok (r := s ++ (c' ++ r)) (a := cs!"(") (sym_ok1 (s := cs!"(") (by decide) tok_nil)
          (seqL_ok hve (sym_ok1 (by decide) hc)))
      obtain ⟨b, hb, rfl⟩ := ho
      refine ⟨.mk (.mk [] (.vep (.mk (.sub (.nb v)) []))) [], ?_⟩
      rw [List.append_assoc, venb_blanks hb]
      show parse cfg venb true ('(' :: (s ++ (c' ++ r))) = _
      rw [venb, parse_nt]
      have hf : parse cfg factor true ('(' :: (s ++ (c' ++ r))) = .ok (.mk [] (.vep (.mk (.sub (.nb v)) []))) r := by
        refine map_ok (f := fun x : Str × NumPrim => Factor.mk x.1 x.2) (seq_ok (optD_none (sign_fail ?_ ?_)) ?_)
        · rw [next_bare (by decide)]; decide
        · rw [next_bare (by decide)]; decide
        · refine (alt_right (map_fail (nvf_char (by decide)))).trans (map_ok (map_ok
            (f := fun x : Prim × List VE => VEP.mk x.1 x.2) (seq_ok (primary_paren.trans hp) (star_nil (seqR_fail (sym_fail hr.1.2))))))
      exact map_ok (f := fun x : Factor × List Term => VENB.mk x.1 x.2) (seq_ok hf (star_nil
        (map_fail (seq_fail (binop_fail hr.2)))))
  refine ⟨fun r hr => ?_, fun r hr _ => ?_, fun r hr => ?_, fun r hr => ?_, fun _ r hr => ?_, fun r hr => ?_⟩ <;> simp only [List.append_assoc]
  · exact ⟨[], leadV_open ho, fun _ => rfl⟩
  · have hp : parse cfg predicate true (o' ++ (s ++ (c' ++ r))) = .fail := by
      have key := hhead r hr.1
      have hne : h.paren ≠ .stops := by cases h <;> decide
      revert key hr hne
      cases h.paren with
      | stops => intro _ _ hne; exact absurd rfl hne
      | none => intro hr key _; exact preds_fail key (hex _)
      | whole => intro hr ⟨v, h1⟩ _; exact preds_bare h1 (hr.2 rfl) (hex _)
    rw [booleanPrimary, alt_right (map_fail hp)]
    exact alt_left (map_ok (seqR_ok (sym_ok1 (by decide) ho) (seqL_ok (hsc r) (sym_ok1 (by decide) hc))))
  · exact hhead r hr.1
  · exact apart_noLetter (by decide) (hl _)
  · exact matchLit_noLetter' (by decide) (hl _)
  · refine ⟨geometry_fail (geomPred_fail (apart_noLetter (by decide) (hl _)) (apart_noLetter (by decide) (hl _))) ?_,
      seqR_fail2 (sym_ok1 (by decide) ho) (seqL_fail (hs.geo _ (close_fEnd hc)).1)⟩
    intro x b z hx _ e
    have : next (o' ++ (s ++ (c' ++ r))) = some x := by show (skip true _).head? = _; rw [e]; rfl
    rw [hnx] at this
    cases this
    rcases hx with hx | hx <;> cases hx

theorem good_fplain {h : Head} {o g : Bool} {s : Str} {p : BP} (hp : GoodB cfg h o g s p)
    (hn : cfg.residue = true → prefixCI cs!"NOT" (firstBP p) = false) : GoodBF cfg h o g s (.mk [] p) := by
  refine ⟨hp.lead, fun r hr hl => ?_, hp.head, hp.geo⟩
  refine map_ok (f := fun x : Str × BP => BF.mk x.1 x.2) (seq_ok (a := []) (r := s ++ r) ?_ (hp.run r hr hl))
  rw [factorNot, alt_right (word_fail (hp.notWord r hr.1.1.1.1))]
  split
  · rename_i hres
    have hn := hp.noNot (hn hres) r hr.1.1.1.1
    rw [alt_right]
    · rfl
    · have e : parse cfg (.lexeme (kw cs!"NOT")) true (s ++ r) = .fail := by
        simp only [parse, run_lexeme]
        exact kw_none (bare_skip _) hn
      simp only [parse, step] at e ⊢
      rw [e]
  · rfl

theorem good_fnot {k n : Str} {h : Head} {o g : Bool} {s : Str} {p : BP} (hk : Kw cs!"NOT" k n) (hb : BlankFirst s)
    (hp : GoodB cfg h o g s p) : GoodBF cfg .none o g (k ++ s) (.mk n p) := by
  have hs : ∀ r, ∃ b, Blanks b ∧ k ++ (s ++ r) = b ++ (n ++ (s ++ r)) ∧ KwStart cs!"NOT" n (s ++ r) :=
    fun r => kw_split hk (by decide) (blankFirst_notContinued' hb)
  refine ⟨fun r hr => ?_, fun r hr hl => ?_, fun r hr => ?_, fun r hr => ?_⟩ <;> rw [List.append_assoc]
  · exact ⟨[], leadV_kw hk (by decide) (blankFirst_notContinued' hb), fun _ => rfl⟩
  · exact map_ok (f := fun x : Str × BP => BF.mk x.1 x.2) (seq_ok (alt_left (word_ok hk (by decide) (blankFirst_append hb)))
      (hp.run r hr hl))
  · obtain ⟨b, hb, e, hk⟩ := hs r
    rw [e]
    exact (venb_blanks hb).trans (venb_fail_kw hk (by decide +kernel))
  · obtain ⟨b, hb, e, hk⟩ := hs r
    rw [e]
    exact noGeo_kw hb hk (by decide)

theorem good_factorC {h : Head} {o g : Bool} {s : Str} {f : BF} (hf : GoodBF cfg h o g s f) : GoodC cfg h o s (.factor f) := by
  refine ⟨hf.lead, fun r hr hl => ?_, hf.head, hf.geo⟩
  rw [sc, parse_nt]
  have h1 := hf.run r hr fun _ => hl
  exact (alt_right (map_fail (seq_fail2 h1 (seq_fail (logicalOp_fail hl))))).trans (map_ok h1)

theorem log_end {k op t r : Str} (hk : WordIn [cs!"AND", cs!"OR"] k op) (hb : BlankFirst t) :
    Ends [cs!"AND", cs!"OR"] (k ++ (t ++ r)) := by
  obtain ⟨w, hw, hk⟩ := hk
  exact .inr ⟨w, k, op, t ++ r, hw, hk, blankFirst_notContinued' hb, rfl⟩

theorem good_term {h h' : Head} {o o' : Bool} {s k op t : Str} {f : BF} {c : SC} (hf : GoodBF cfg h o false s f)
    (hk : WordIn [cs!"AND", cs!"OR"] k op) (hb : BlankFirst t) (hc : GoodC cfg h' o' t c) :
    GoodC cfg h.more o' (s ++ (k ++ t)) (.term f op c) := by
  have he : ∀ r, FEnd o (k ++ (t ++ r)) := fun r =>
    ⟨ends_expr (by decide) (log_end hk hb), fun _ => ends_bare (by decide) (by decide) (log_end hk hb)⟩
  refine ⟨fun r hr => ?_, fun r hr hl => ?_, fun r hr => ?_, fun r hr => ?_⟩ <;> simp only [List.append_assoc]
  · obtain ⟨f, h1, h2⟩ := hf.lead _ (he r).1.1.1.1
    exact ⟨f, h1, fun e => h2 (by cases h <;> first | rfl | cases e)⟩
  · rw [sc, parse_nt]
    exact alt_left (map_ok (f := fun x : BF × Str × SC => SC.term x.1 x.2.1 x.2.2)
      (seq_ok (hf.run _ (he r) nofun) (seq_ok (logicalOp_ok hk (blankFirst_append hb)) (hc.run r hr hl))))
  · have key := hf.head _ (he r)
    cases h with
    | stops => exact key
    | none => exact key
    | whole =>
      obtain ⟨v, h1⟩ := key
      refine ⟨v, _, h1, ?_⟩
      obtain ⟨w, hw, hk⟩ := hk
      have hw : wordShape w = true := by
        have : ([cs!"AND", cs!"OR"].all wordShape) = true := by decide
        exact all_mem this hw
      obtain ⟨e, h2⟩ := word_start hk hw (blankFirst_notContinued' (r := r) hb)
      obtain ⟨c, h3, h4⟩ := kwStart_next h2 e
      rw [h3]; rintro ⟨⟩; exact absurd h4 (by decide)
  · exact hf.geo _ (he r)

/-- A condition that does not start like an expression is a value. -/
theorem GoodC.val {o : Bool} {s : Str} {c : SC} (h : GoodC cfg .none o s c) : GoodV cfg o true s (.sc c) := by
  refine ⟨fun r hr => ?_, fun r hr hl => ?_⟩
  · obtain ⟨f, hf, e⟩ := h.lead r hr
    rw [e rfl] at hf
    exact hf
  rw [ve, parse_nt]
  exact (alt_right (map_fail (h.head r hr))).trans (map_ok (h.run r hr (hl rfl)))

/-- No condition starts here. -/
theorem sc_fail {u : Str} (hv : parse cfg venb true u = .fail) (h1 : matchLit true cs!"NOT" (skip true u) = none)
    (h2 : matchLit true cs!"EXISTS" (skip true u) = none) (h3 : next u ≠ some '(') : parse cfg sc true u = .fail := by
  have hf : parse cfg (booleanFactor cfg.residue) true u = .fail := by
    refine map_fail (seq_fail2 (a := []) (r := u) ?_ (alt_fail (map_fail (preds_fail hv h2))
      (alt_fail (map_fail (seqR_fail (sym_fail h3))) (map_fail hv))))
    rw [factorNot, alt_right (word_fail (apart_none h1))]
    split
    · rw [alt_right]
      · rfl
      · have e : parse cfg (.lexeme (kw cs!"NOT")) true u = .fail := by
          simp only [parse, run_lexeme]
          exact kw_none (bare_skip _) h1
        simp only [parse, step] at e ⊢
        rw [e]
    · rfl
  rw [sc, parse_nt]
  exact alt_fail (map_fail (seq_fail hf)) (map_fail hf)

end Adql.Fwd
