import Verif.Model.AcceptPrim

/-!
# Running the grammar forward: operators
-/

namespace Adql.Fwd

open P Spec

variable {cfg : Config} {sk : Bool}

/-- The text spells the indices `idx`. -/
structure GoodI (cfg : Config) (s : Str) (idx : List VE) : Prop where
  stop : ∀ r, AtomEnd r → PrimEnd (s ++ r)
  stop' : ∀ r, NotContinued r → NotContinued (s ++ r)
  stopC : ∀ r, (idx = [] → NoComment r) → NoComment (s ++ r)
  run : ∀ r, AtomEnd r → parse cfg (.star arrayIndex) true (s ++ r) = .ok idx r

theorem good_idx_nil : GoodI cfg [] [] :=
  ⟨fun _ h => h.1, fun _ h => h, fun _ h => h rfl, fun _ h => star_nil (seqR_fail (sym_fail h.2))⟩

theorem good_idx_cons {o s c t : Str} {p g : Bool} {v : VE} {idx : List VE} (ho : Tok cs!"[" o) (hs : GoodV cfg p g s v)
    (hc : Tok cs!"]" c) (ht : GoodI cfg t idx) : GoodI cfg (o ++ (s ++ (c ++ t))) (v :: idx) := by
  refine ⟨fun r h => ?_, fun r h => ?_, fun r h => ?_, fun r h => ?_⟩ <;> rw [List.append_assoc]
  · exact primEnd_tok ho (by decide)
  · exact notContinued_tok ho (by decide)
  · exact noComment_of (by rw [tok_next ho rfl (by decide)]; decide)
  · simp only [List.append_assoc]
    exact star_cons rfl (seqR_ok (sym_ok1 (by decide) ho) (seqL_ok (hs.ve (bracket_v hc)) (sym_ok1 (by decide) hc)))
      (ht.run r h)

theorem good_prim {s t : Str} {p : Prim} {idx : List VE} (hs : GoodPrim cfg s p) (ht : GoodI cfg t idx) :
    GoodA cfg (s ++ t) (.vep (.mk p idx)) := by
  refine ⟨fun r h => ?_, fun r h hq => ?_⟩ <;> rw [List.append_assoc]
  · exact hs.lead _ (ht.stop' r h)
  · rw [numericPrimary, alt_right (map_fail (hs.noFn _ (ht.stop r h)))]
    exact map_ok (map_ok (f := fun x : Prim × List VE => VEP.mk x.1 x.2) (seq_ok
      (hs.run _ (ht.stop r h) fun e => ht.stopC r fun e' => hq (by subst e'; exact e)) (ht.run r h)))

theorem good_fn {s : Str} {f : NumFn} (hs : GoodF cfg s f) : GoodA cfg s (.nvf f) :=
  ⟨hs.lead, fun r h _ => alt_left (map_ok (hs.run r h.1))⟩

theorem sign_fail {s : Str} (h : next s ≠ some '+') (h' : next s ≠ some '-') : parse cfg sign true s = .fail := by
  rw [sign]
  simp only [parse, run_lexeme]
  have hu := bare_skip s
  have hn : (skip true s).head? = next s := rfl
  cases hs : skip true s with
  | nil => simp [chS, step, skip]
  | cons c t =>
    have h1 : next s = some c := by rw [← hn, hs]; rfl
    rw [h1] at h h'
    have hp : (c == '+' || c == '-') = false := by
      simp only [Bool.or_eq_false_iff, beq_eq_false_iff_ne]
      exact ⟨fun e => h (by rw [e]), fun e => h' (by rw [e])⟩
    simp [chS, step, skip, hp]

theorem good_plain {s : Str} {p : NumPrim} (hs : GoodA cfg s p) : GoodS cfg s (.mk [] p) := by
  refine ⟨fun r h => (hs.lead r h).mono (by decide), fun r h hq => ?_⟩
  have hl := hs.lead r h.1.1
  exact map_ok (f := fun x : Str × NumPrim => Factor.mk x.1 x.2)
    (seq_ok (optD_none (sign_fail (hl.ne (by decide)) (hl.ne (by decide)))) (hs.run r h hq))

theorem good_signed {o : Str} {c : Char} {s : Str} {p : NumPrim} (hc : c = '+' ∨ c = '-') (ho : Tok [c] o)
    (hs : GoodA cfg s p) : GoodS cfg (o ++ s) (.mk [c] p) := by
  have hsp : isSpace c = false := by rcases hc with rfl | rfl <;> decide
  refine ⟨fun r h => ?_, fun r h hq => ?_⟩
  · obtain ⟨b, hb, rfl⟩ := ho
    simp only [List.append_assoc]
    refine LeadIn.blanks hb (lead_chr hsp ?_ rfl)
    rcases hc with rfl | rfl <;> decide
  · rw [List.append_assoc]
    have h1 : parse cfg sign true (o ++ (s ++ r)) = .ok [c] (s ++ r) := by
      obtain ⟨b, hb, rfl⟩ := ho
      rw [List.append_assoc, parse_blanks (by simp) (by simp) hb]
      rw [List.singleton_append, sign, lexeme_bare (bare_cons hsp)]
      have hp : (c == '+' || c == '-') = true := by rcases hc with rfl | rfl <;> decide
      simp [chS, parse, step, skip, hp]
    exact map_ok (f := fun x : Str × NumPrim => Factor.mk x.1 x.2) (seq_ok (optD_ok h1) (hs.run r h hq))

/-! ### Operators -/

theorem binop_ok {op o r : Str} (hm : op ∈ binOps) (ho : Tok op o) :
    parse cfg binaryOperators true (o ++ r) = .ok op r := by
  obtain ⟨b, hb, rfl⟩ := ho
  rw [List.append_assoc, parse_blanks (by simp) (by simp) hb]
  simp only [binOps, List.mem_cons, List.not_mem_nil, or_false] at hm
  have hu : Bare (op ++ r) := by rcases hm with rfl | rfl | rfl | rfl | rfl <;> exact bare_cons (by decide)
  rw [binaryOperators, lexeme_bare hu]
  rcases hm with rfl | rfl | rfl | rfl | rfl <;> simp [parse, step, sym, skip, matchLit]

theorem binop_fail {r : Str} (h : next r ∉ [some '*', some '/', some '+', some '-', some '|']) :
    parse cfg binaryOperators true r = .fail := by
  rw [binaryOperators]
  simp only [parse, run_lexeme]
  have hn : (skip true r).head? = next r := rfl
  rw [← hn] at h
  simp only [List.mem_cons, List.not_mem_nil, or_false, not_or] at h
  cases hs : skip true r with
  | nil => simp [step, sym, skip, matchLit]
  | cons c t =>
    rw [hs] at h
    simp only [List.head?_cons, Option.some.injEq] at h
    obtain ⟨h1, h2, h3, h4, h5⟩ := h
    have e : ∀ {d : Char}, ¬ c = d → ¬ d = c := fun h e => h e.symm
    simp [step, sym, skip, matchLit, e h1, e h2, e h3, e h4, e h5]

/-- The text spells the operators and operands `ts`; `q` says whether a string is before them. -/
structure GoodT (cfg : Config) (q : Bool) (s : Str) (ts : List Term) : Prop where
  stop : ∀ r, ExprEnd r → AtomEnd (s ++ r)
  stop' : ∀ r, NotContinued r → NotContinued (s ++ r)
  stopC : ∀ r, ExprEnd r → q = true → NoComment (s ++ r)
  run : ∀ r, ExprEnd r → parse cfg (.star venbTerm) true (s ++ r) = .ok ts r

theorem good_nil {q : Bool} : GoodT cfg q [] [] :=
  ⟨fun _ h => h.1, fun _ h => h, fun _ h _ => exprEnd_noComment h, fun _ h => star_nil (map_fail (seq_fail (binop_fail h.2)))⟩

theorem blanks_notContinued {b : Str} (hb : Blanks b) (h0 : b ≠ []) (r : Str) : NotContinued (b ++ r) := by
  rw [notContinued_iff]
  intro d v e
  cases b with
  | nil => exact absurd rfl h0
  | cons c b =>
    simp only [List.cons_append, List.cons.injEq] at e
    rw [← e.1]
    have hc := hb c (by simp)
    cases hd : isIdChar c with
    | false => rfl
    | true => rw [isSpace_iff] at hc; rw [isIdChar_toNat] at hd; omega

theorem op_end {op o r : Str} (hm : op ∈ binOps) (ho : Tok op o) : AtomEnd (o ++ r) := by
  have hm' := hm
  simp only [binOps, List.mem_cons, List.not_mem_nil, or_false] at hm'
  rcases hm' with rfl | rfl | rfl | rfl | rfl <;>
    exact ⟨primEnd_tok ho (by decide), by rw [tok_next ho rfl (by decide)]; decide⟩

theorem op_noComment {op o r : Str} (hm : op ∈ binOps) (ho : Tok op o)
    (hd : op = cs!"-" → NotHead '-' r) : NoComment (o ++ r) := by
  have hm' := hm
  simp only [binOps, List.mem_cons, List.not_mem_nil, or_false] at hm'
  rcases hm' with rfl | rfl | rfl | rfl | rfl
  · exact noComment_of (by rw [tok_next ho rfl (by decide)]; decide)
  · exact noComment_of (by rw [tok_next ho rfl (by decide)]; decide)
  · exact noComment_of (by rw [tok_next ho rfl (by decide)]; decide)
  · rintro ⟨t, ht⟩
    rw [tok_drop ho rfl (by decide)] at ht
    simp only [List.cons_append, List.nil_append, List.cons.injEq, true_and] at ht
    exact hd rfl t ht
  · exact noComment_of (by rw [tok_next ho rfl (by decide)]; decide)

theorem good_cons {q : Bool} {o op s t : Str} {f : Factor} {ts : List Term} (hm : op ∈ binOps) (ho : Tok op o)
    (hs : GoodS cfg s f) (hd : q = true → op = cs!"-" → NotHead '-' s) (ht : GoodT cfg (strFactor f) t ts) :
    GoodT cfg q (o ++ (s ++ t)) (.mk op f :: ts) := by
  have hne : s ≠ [] := by
    rintro rfl
    obtain ⟨c, h1, -⟩ := (hs.lead [] (by intro c t e; cases e)).next_mem
    cases h1
  refine ⟨fun r h => ?_, fun r h => ?_, fun r h hq => ?_, fun r h => ?_⟩
  · rw [List.append_assoc]
    exact op_end hm ho
  · rw [List.append_assoc]
    have hp : (binOps.all fun w => match w with | [] => false | c :: _ => !isIdChar c) = true := by decide
    have hp := all_mem hp hm
    cases op with
    | nil => cases hp
    | cons c w => exact notContinued_tok ho (by simpa using hp)
  · simp only [List.append_assoc]
    apply op_noComment hm ho
    intro e t' h'
    cases s with
    | nil => exact hne rfl
    | cons c s =>
      simp only [List.cons_append, List.cons.injEq] at h'
      exact hd hq e s (by rw [h'.1])
  · simp only [List.append_assoc]
    exact star_cons rfl (map_ok (f := fun x : Str × Factor => Term.mk x.1 x.2)
      (seq_ok (binop_ok hm ho) (hs.run _ (ht.stop r h) (ht.stopC r h)))) (ht.run r h)

theorem good_expr {s t : Str} {f : Factor} {ts : List Term} (hs : GoodS cfg s f) (ht : GoodT cfg (strFactor f) t ts) :
    GoodE cfg (s ++ t) (.mk f ts) := by
  refine ⟨fun r h => ?_, fun r h => ?_⟩ <;> rw [List.append_assoc]
  · exact hs.lead _ (ht.stop' r h)
  · rw [venb, parse_nt]
    exact map_ok (f := fun x : Factor × List Term => VENB.mk x.1 x.2) (seq_ok (hs.run _ (ht.stop r h) (ht.stopC r h)) (ht.run r h))

end Adql.Fwd
