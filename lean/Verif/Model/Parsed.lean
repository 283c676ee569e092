import Verif.Peg.Post
import Verif.Model.Query
import Verif.Spec.Tree
import Verif.Model.LexString
import Verif.Props.Identifiers

/-!
# What a parsed tree looks like

One lemma per rule of the grammar: if the recursive rules yield trees all of whose nodes satisfy
`L` (the documented ranges, no geometry in subqueries, nothing that counts as empty), so does the
rule.
-/

namespace Adql

open Spec P

theorem Spec.all_iff {K : Node → Prop} {n : Node} :
    All K n ↔ K n ∧ ∀ m, Node.child n m → All K m := by
  constructor
  · intro h; exact ⟨h n (.refl n), fun c hc m hm => h m (.step hc hm)⟩
  · rintro ⟨h, h'⟩ m hm
    cases hm with
    | refl => exact h
    | step hc hm => exact h' _ hc m hm

theorem Spec.All.mono {K K' : Node → Prop} (h : ∀ n, K n → K' n) {n : Node} (ha : All K n) :
    All K' n := fun m hm => h m (ha m hm)

/-- What is shown of every node. -/
def L (M : Str → Prop) (n : Node) : Prop :=
  Ranges M n ∧ NoGeometry n ∧ ((∀ y, M y → y ≠ []) → n.isEmpty = false)

/-- The invariant of the recursive rules. -/
def Inv (M : Str → Prop) : (n : Rule) → Bool → Str → Attr n → Str → Prop
  | .ve, _, _, a, _ => All (L M) (.ve a)
  | .venb, _, _, a, _ => All (L M) (.venb a)
  | .sc, _, _, a, _ => All (L M) (.sc a)
  | .subq, _, _, a, _ => All (L M) (.subq a)
  | .jt, _, _, a, _ => All (L M) (.jt a)
  | .tr, _, _, a, _ => All (L M) (.tr a)
  | .tap, _, _, a, _ => M a

variable {I : (n : Rule) → Bool → Str → Attr n → Str → Prop}

/-! ### Words and names -/

theorem ap_kw (w : Str) : AP I (kw w) (fun a => SameCI a w) :=
  (AP.lit true w).imp fun a h => by simpa [LitOK, SameCI] using h

theorem ap_sym (w : Str) : AP I (sym w) (fun a => a = w) :=
  (AP.lit false w).imp fun a h => by simpa [LitOK] using h

theorem ap_anyKw : ∀ ws : List Str, AP I (anyKw ws) (OneOf ws)
  | [] => by
    rintro sk t a r ⟨c, -, b, -, -, h⟩; simp at h
  | w :: ws => .alt ((ap_kw w).imp fun a h => ⟨w, by simp, h⟩)
      ((ap_anyKw ws).imp fun a ⟨k, hk, h⟩ => ⟨k, by simp [hk], h⟩)

theorem ap_word (w : Str) : AP I (word w) (fun a => SameCI a w) := .lexeme (.seqL (ap_kw w))
theorem ap_wordX (w : Str) : AP I (wordX w) (fun a => SameCI a w) := .lexeme (.seqL (ap_kw w))

theorem ap_chS (f : Char → Bool) : AP I (chS f) (fun a => ∃ c, a = [c] ∧ f c = true) :=
  .map ((AP.chr f).imp fun c h => ⟨c, rfl, h⟩)

theorem ap_cat {p q : G Str} {Q R : Str → Prop} (h : AP I p Q) (h' : AP I q R) :
    AP I (cat p q) (fun a => ∃ x y, a = x ++ y ∧ Q x ∧ R y) :=
  .map ((AP.seq h h').imp fun x hx => ⟨x.1, x.2, rfl, hx⟩)

theorem ap_manyS_chS (f : Char → Bool) : AP I (manyS (chS f)) (fun a => ∀ c ∈ a, f c = true) :=
  .map ((AP.star (ap_chS f)).imp fun l h c hc => by
    obtain ⟨x, hx, hc⟩ := List.mem_flatten.1 hc
    obtain ⟨d, rfl, hd⟩ := h x hx
    simp at hc; exact hc ▸ hd)

theorem ap_plusS_chS (f : Char → Bool) :
    AP I (plusS (chS f)) (fun a => a ≠ [] ∧ ∀ c ∈ a, f c = true) :=
  (ap_cat (ap_chS f) (ap_manyS_chS f)).imp fun a ⟨x, y, e, ⟨c, hx, hc⟩, hy⟩ => by
    subst e; subst hx; simp [hc]; exact hy

theorem ap_optS {p : G Str} {Q : Str → Prop} (h : AP I p Q) :
    AP I (optS p) (fun a => a = [] ∨ Q a) := .optD h

theorem ap_allIdentifiers : AP I allIdentifiers IdentShape :=
  .lexeme ((ap_cat (ap_chS isLetter) (ap_manyS_chS isIdChar)).imp
    fun a ⟨x, y, e, ⟨c, hx, hc⟩, hy⟩ => ⟨c, y, by simp [e, hx], isLetter_iff.1 hc,
      fun d hd => isIdChar_iff.1 (hy d hd)⟩)

theorem ap_regular : AP I regularIdentifier IdentShape := .lexeme (.diff ap_allIdentifiers)

theorem ap_pq : AP I pqIdentifier PQName :=
  .lexeme ((ap_cat (ap_chS isLetter) (ap_manyS_chS isPQIdChar)).imp
    fun a ⟨x, y, e, ⟨c, hx, hc⟩, hy⟩ => ⟨c, y, by simp [e, hx], isLetter_iff.1 hc,
      fun d hd => by
        have := hy d hd
        simp only [isPQIdChar, Bool.or_eq_true, beq_iff_eq, isIdChar_iff] at this
        exact this⟩)

theorem ap_qpart (q : Char) : AP I (qpart q) (fun a => (∃ c, a = [c] ∧ c ≠ q) ∨ a = [q, q]) :=
  .lexeme (.alt ((ap_chS _).imp fun a ⟨c, h, hc⟩ => .inl ⟨c, h, by simpa using hc⟩)
    ((ap_sym _).imp fun a h => .inr h))

theorem qbody_cons_part {q : Char} {x b : Str} (h : (∃ c, x = [c] ∧ c ≠ q) ∨ x = [q, q])
    (hb : QBody q b) : QBody q (x ++ b) := by
  rcases h with ⟨c, rfl, hc⟩ | rfl
  · exact .chr hc hb
  · exact .dbl hb

theorem ap_many_qpart (q : Char) : AP I (manyS (qpart q)) (QBody q) :=
  .map ((AP.star (ap_qpart q)).imp fun l h => by
    induction l with
    | nil => exact .nil
    | cons x l ih =>
      exact qbody_cons_part (h x (by simp)) (ih fun a ha => h a (by simp [ha])))

theorem ap_plus_qpart (q : Char) : AP I (plusS (qpart q)) (fun b => b ≠ [] ∧ QBody q b) :=
  (ap_cat (ap_qpart q) (ap_many_qpart q)).imp fun a ⟨x, y, e, hx, hy⟩ => by
    subst e
    refine ⟨?_, qbody_cons_part hx hy⟩
    rcases hx with ⟨c, rfl, -⟩ | rfl <;> simp

theorem ap_delimited : AP I delimitedIdentifier Delimited :=
  .lexeme ((ap_cat (ap_chS _) (ap_cat (delimitedPart_eq ▸ ap_plus_qpart '"') (ap_chS _))).imp
    fun a ⟨x, y, e, ⟨c, hx, hc⟩, u, v, hy, hu, d, hv, hd⟩ => by
      subst e hx hy hv
      simp only [beq_iff_eq] at hc hd
      subst hc hd
      exact ⟨u, by simp, hu⟩)

theorem ap_kept : AP I regularIdentifier (fun a => IdentShape a ∧ Nameable a) := by
  intro sk t a r h
  refine ⟨ap_regular sk t a r h, fun hr => ?_⟩
  obtain ⟨b, t', rfl, hb, h1, rec, hs⟩ := h
  have h2 : step rec regularIdentifier false (t' ++ r) = .ok a r := hs
  have h3 : parse ⟨fun _ => none, false⟩ regularIdentifier false (t' ++ r) = .ok a r := by
    rw [parse, run_regularIdentifier]
    rw [run_regularIdentifier] at h2
    exact h2
  obtain ⟨_, _, _, _, _, h4⟩ := (C04_regular_identifier _ _ _ _ _).1 h3
  exact (h4 hr).imp_right fun h => h.1

theorem ap_identifier : AP I identifier Name :=
  .lexeme (.alt (ap_kept.imp fun _ => .inl) (ap_delimited.imp fun _ => .inr))

theorem ap_period : AP I period (fun a => a = cs!".") :=
  .lexeme ((ap_chS _).imp fun a ⟨c, h, hc⟩ => by simp at hc; rw [h, hc])

theorem ap_tableName {M : Str → Prop} (hM : ∀ sk t a r, I .tap sk t a r → M a) :
    AP I tableName (TableName M) :=
  .lexeme (.alt (fun sk t a r h => .mapped (hM sk t a r h))
    (.alt ((ap_cat ap_identifier (ap_cat ap_period (ap_cat ap_identifier
        (ap_cat ap_period ap_identifier)))).imp
          fun a ⟨x, y, e, hx, u, v, e2, hu, z, w, e3, hz, s, o, e4, hs, ho⟩ => by
            subst e e2 e3 e4 hu hs; exact .three hx hz ho)
      (.alt ((ap_cat ap_identifier (ap_cat ap_period ap_identifier)).imp
          fun a ⟨x, y, e, hx, u, v, e2, hu, hv⟩ => by subst e e2 hu; exact .two hx hv)
        (ap_identifier.imp fun _ => .one))))

/-! ### Numbers and strings -/

theorem ap_unsignedInteger : AP I unsignedInteger Digits :=
  .lexeme ((ap_plusS_chS isDigit).imp fun a h => ⟨h.1, fun c hc => isDigit_iff.1 (h.2 c hc)⟩)

theorem ap_sign : AP I sign (fun a => a = cs!"+" ∨ a = cs!"-") :=
  .lexeme ((ap_chS _).imp fun a ⟨c, h, hc⟩ => by
    simp at hc; subst h; rcases hc with rfl | rfl <;> simp)

theorem ap_exactNumeric : AP I exactNumeric Mantissa :=
  .lexeme (.alt
    ((ap_cat ap_unsignedInteger (ap_optS (ap_cat ap_period ap_unsignedInteger))).imp
      fun a ⟨x, y, e, hx, hy⟩ => by
        rcases hy with rfl | ⟨u, v, rfl, rfl, hv⟩
        · subst e; simpa using .int hx
        · subst e; exact .dec hx hv)
    ((ap_cat ap_period ap_unsignedInteger).imp fun a ⟨x, y, e, hx, hy⟩ => by
      subst e hx; exact .frac hy))

theorem ap_approxNumeric : AP I approxNumeric NumLit :=
  .lexeme ((ap_cat ap_exactNumeric (ap_cat (ap_chS _)
    (.lexeme (ap_cat (ap_optS ap_sign) ap_unsignedInteger)))).imp
      fun a ⟨m, y, e, hm, u, v, e2, ⟨c, hu, hc⟩, g, d, e3, hg, hd⟩ => by
        simp at hc
        subst e e2 e3 hu
        refine .approx hm ?_
        rcases hg with rfl | rfl | rfl
        · exact .mk hc hd
        · exact .signed hc (.inl rfl) hd
        · exact .signed hc (.inr rfl) hd)

theorem ap_unsignedNumeric : AP I unsignedNumeric NumLit :=
  .lexeme (.alt ap_approxNumeric (ap_exactNumeric.imp fun _ => .exact))

theorem ap_quote : AP I quote (fun a => a = cs!"'") :=
  .lexeme ((ap_chS _).imp fun a ⟨c, h, hc⟩ => by simp at hc; rw [h, hc])

theorem ap_strPart : AP I (cat quote (cat (manyS charRep) quote)) StrPart :=
  (ap_cat ap_quote (ap_cat (charRep_eq ▸ ap_many_qpart '\'') ap_quote)).imp
    fun a ⟨x, y, e, hx, u, v, e2, hu, hv⟩ => by subst e hx e2 hv; exact ⟨u, by simp, hu⟩

theorem ap_comment : AP I comment Sep :=
  .lexeme ((ap_cat (ap_cat (ap_chS _) (ap_plusS_chS _)) (ap_cat (ap_manyS_chS _) (ap_chS _))).imp
    fun a ⟨x, y, e, ⟨x1, x2, ex, ⟨c, h1, hc⟩, h2, h3⟩, y1, y2, ey, h4, d, h5, hd⟩ => by
      simp at hc hd
      subst e ex ey h1 h5 hc hd
      cases x2 with
      | nil => simp at h2
      | cons c t =>
        have hc := h3 c (by simp)
        simp at hc; subst hc
        have : Sep ('-' :: '-' :: (t ++ y1) ++ ['\n']) := .comment (by
          simp only [List.mem_append, not_or]
          exact ⟨fun h => by have := h3 _ (List.mem_cons_of_mem _ h); simp at this,
            fun h => by have := h4 _ h; simp at this⟩)
        simpa using this)

theorem ap_separator : AP I separator Sep :=
  .lexeme (.alt ap_comment (.alt
    ((ap_chS _).imp fun a ⟨c, h, hc⟩ => by simp at hc; subst h hc; exact .blank)
    ((ap_chS _).imp fun a ⟨c, h, hc⟩ => by simp at hc; subst h hc; exact .newline)))

theorem ap_manyS {p : G Str} {Q : Str → Prop} (h : AP I p Q) :
    AP I (manyS p) (fun a => ∃ l : List Str, a = l.flatten ∧ ∀ x ∈ l, Q x) :=
  .map ((AP.star h).imp fun l hl => ⟨l, rfl, hl⟩)

theorem ap_seps : AP I (plusS separator) Seps :=
  (ap_cat ap_separator (ap_manyS ap_separator)).imp fun a h => by
    obtain ⟨x, y, rfl, hx, l, rfl, hl⟩ := h
    induction l generalizing x with
    | nil => simpa using Seps.one hx
    | cons z l ih => exact .cons hx (ih z (hl z (by simp)) fun a ha => hl a (by simp [ha]))

theorem ap_charString : AP I charString StrLit :=
  .lexeme ((ap_cat ap_strPart (ap_manyS (ap_cat ap_seps ap_strPart))).imp
    fun a h => by
      obtain ⟨x, y, rfl, hx, l, rfl, hl⟩ := h
      refine ⟨x, _, rfl, hx, ?_⟩
      clear hx
      induction l with
      | nil => exact .nil
      | cons z l ih =>
        obtain ⟨u, v, rfl, hu, hv⟩ := hl z (by simp)
        simp only [List.flatten_cons, List.append_assoc]
        exact .cons hu hv (ih fun a ha => hl a (by simp [ha])))

theorem ap_booleanLiteral : AP I booleanLiteral (OneOf [cs!"TRUE", cs!"FALSE"]) :=
  .lexeme (.alt ((ap_kw _).imp fun _ h => ⟨cs!"TRUE", by simp, h⟩)
    ((ap_kw _).imp fun _ h => ⟨cs!"FALSE", by simp, h⟩))

theorem OneOf.mono {ws ws' : List Str} {x : Str} (h : OneOf ws x) (hs : ∀ w ∈ ws, w ∈ ws') :
    OneOf ws' x := let ⟨w, hw, hx⟩ := h; ⟨w, hs w hw, hx⟩

theorem ap_unsignedLiteral : AP I unsignedLiteral (fun s => NumLit s ∨ StrLit s ∨
    OneOf [cs!"TRUE", cs!"FALSE"] s) :=
  .lexeme (.alt (ap_unsignedNumeric.imp fun _ => .inl)
    (.lexeme (.alt (ap_charString.imp fun _ h => .inr (.inl h))
      (ap_booleanLiteral.imp fun _ h => .inr (.inr h)))))

/-! ### No recognised text is empty -/

theorem sameCI_length {x w : Str} (h : SameCI x w) : x.length = w.length := by
  have := congrArg List.length h; simpa using this

theorem sameCI_ne {x w : Str} (h : SameCI x w) (hw : w ≠ []) : x.isEmpty = false := by
  have := sameCI_length h
  cases x with
  | nil => cases w <;> simp_all
  | cons => rfl

theorem oneOf_ne {ws : List Str} {x : Str} (h : OneOf ws x) (hw : (ws.all fun w => !w.isEmpty) = true) :
    x.isEmpty = false := by
  obtain ⟨w, hm, hx⟩ := h
  have := List.all_eq_true.1 hw w hm
  exact sameCI_ne hx (by intro h; simp [h] at this)

theorem identShape_ne {x : Str} (h : IdentShape x) : x.isEmpty = false := by
  obtain ⟨c, t, rfl, -⟩ := h; rfl

theorem name_ne {x : Str} (h : Name x) : x.isEmpty = false := by
  rcases h with h | ⟨b, rfl, -⟩
  · exact identShape_ne h.1
  · rfl

theorem tableName_ne {M : Str → Prop} (hM : ∀ y, M y → y ≠ []) {x : Str} (h : TableName M x) :
    x.isEmpty = false := by
  cases h with
  | mapped h => have := hM _ h; cases x <;> simp_all
  | one h => exact name_ne h
  | two h _ => have := name_ne h; simp at this; simp
  | three h _ _ => have := name_ne h; simp at this; simp

theorem numLit_ne {x : Str} (h : NumLit x) : x.isEmpty = false := by
  have hm : ∀ {m}, Mantissa m → m ≠ [] := by
    intro m h
    cases h with
    | int h => exact h.1
    | dec h _ => simp
    | frac _ => simp
  cases h with
  | exact h => have := hm h; simpa using this
  | approx h _ => have := hm h; simp [this]

theorem strLit_ne {x : Str} (h : StrLit x) : x.isEmpty = false := by
  obtain ⟨p, u, rfl, ⟨b, rfl, -⟩, -⟩ := h; rfl

/-! ### The rules -/

section
variable {M : Str → Prop}

local notation "J" => Inv M

theorem Spec.All.ne {n : Node} (h : All (L M) n) (hM : ∀ y, M y → y ≠ []) : n.isEmpty = false :=
  (h n (.refl n)).2.2 hM

theorem good {n : Node} (hr : Ranges M n) (hg : NoGeometry n)
    (hn : (∀ y, M y → y ≠ []) → n.isEmpty = false)
    (hc : ∀ m, Node.child n m → All (L M) m) : All (L M) n := all_iff.2 ⟨⟨hr, hg, hn⟩, hc⟩

theorem ap_ve : AP J ve (fun a => All (L M) (.ve a)) := fun _ _ _ _ h => h
theorem ap_venb : AP J venb (fun a => All (L M) (.venb a)) := fun _ _ _ _ h => h
theorem ap_sc : AP J sc (fun a => All (L M) (.sc a)) := fun _ _ _ _ h => h
theorem ap_subq : AP J subq (fun a => All (L M) (.subq a)) := fun _ _ _ _ h => h
theorem ap_jt : AP J jt (fun a => All (L M) (.jt a)) := fun _ _ _ _ h => h
theorem ap_tr : AP J tr (fun a => All (L M) (.tr a)) := fun _ _ _ _ h => h
theorem ap_tap : AP J tap M := fun _ _ _ _ h => h

theorem ap_columnReference : AP J columnReference (fun a => All (L M) (.colRef a)) :=
  .alt (.map ((AP.seq ap_identifier (.seq (.seqR ap_identifier) (.seq (.seqR ap_identifier)
      (.seqR ap_identifier)))).imp fun _ h => good h trivial (fun _ => name_ne h.2.2.2)
        (fun _ h => h.elim)))
    (.alt (.map ((AP.seq ap_identifier (.seq (.seqR ap_identifier) (.seqR ap_identifier))).imp
        fun _ h => good h trivial (fun _ => name_ne h.2.2) (fun _ h => h.elim)))
      (.alt (.map ((AP.seq (.alt (ap_tap.imp fun _ => Or.inr) (ap_identifier.imp fun _ => Or.inl))
          (.seqR ap_identifier)).imp
            fun _ h => good (M := M) h trivial (fun _ => name_ne h.2) (fun _ h => h.elim)))
        (.map (ap_identifier.imp fun _ h =>
          good h trivial (fun _ => name_ne h) (fun _ h => h.elim)))))

theorem ap_arithOp : AP J arithOp (fun c => c = '+' ∨ c = '-' ∨ c = '*' ∨ c = '/') :=
  .lexeme ((AP.chr _).imp fun c h => by simpa [or_assoc] using h)

theorem ap_coordExpr : AP J coordExpr (fun a => All (L M) (.coordExpr a)) :=
  .alt (.map ((AP.seq (.trivial _) (.seq ap_arithOp (.trivial _))).imp fun _ h =>
      good h.2.1 trivial (fun _ => rfl) (fun _ h => h.elim)))
    (.alt (.map (ap_columnReference.imp fun _ h =>
        good trivial trivial (fun _ => rfl) (fun _ e => e ▸ h)))
      (.map ((AP.trivial _).imp fun _ _ =>
        good trivial trivial (fun _ => rfl) (fun _ h => h.elim))))

theorem coordExpr_isEmpty (c : CoordExpr) : c.isEmpty = false := by cases c <;> rfl

theorem ap_coord : AP J coord (fun a => All (L M) (.coord a)) :=
  .map ((AP.seq ap_coordExpr (.seqR ap_coordExpr)).imp fun _ h =>
    good trivial trivial (fun _ => coordExpr_isEmpty _)
      (fun _ e => e.elim (fun e => e ▸ h.1) (fun e => e ▸ h.2)))

theorem ap_xCoordExpr : AP J xCoordExpr (fun a => All (L M) (.coordExpr a)) :=
  .seqR (.expect ap_coordExpr)

theorem ap_point : AP J point (fun a => All (L M) (.point a)) :=
  .map ((AP.seq (.trivial _) (.seqL (.expect ap_coord))).imp fun _ h =>
    good trivial trivial (fun _ => coordExpr_isEmpty _) (fun _ e => e ▸ h.2))

theorem ap_shape : AP J shape (fun a => All (L M) (.shape a)) := by
  refine .alt (.map (ap_point.imp fun _ h =>
      good trivial trivial (fun _ => coordExpr_isEmpty _) (fun _ e => e ▸ h)))
    (.alt (.map ((AP.seq (.trivial _) (.seq (.expect ap_coord) (.seqL ap_xCoordExpr))).imp
        fun x h => good trivial trivial (fun _ => coordExpr_isEmpty _) ?_))
      (.alt (.map ((AP.seq (.trivial _) (.seq (.expect ap_coord) (.seq ap_xCoordExpr
          (.seqL ap_xCoordExpr)))).imp
          fun x h => good trivial trivial (fun _ => coordExpr_isEmpty _) ?_))
        (.alt (.map ((AP.seq (.trivial _) (.seq (.expect ap_coord) (.seq ap_xCoordExpr
            (.seq ap_xCoordExpr (.seqL ap_xCoordExpr))))).imp
            fun x h => good trivial trivial (fun _ => coordExpr_isEmpty _) ?_))
          (.map ((AP.seq (.trivial _) (.seqL (.expect (.sepBy ap_coord)))).imp
            fun x h => good h.2.1 trivial (fun _ => by simpa [Node.isEmpty, Shape.isEmpty] using h.2.1) ?_)))))
  · rintro m (rfl | rfl) <;> simp only [h]
  · rintro m (rfl | rfl | rfl) <;> simp only [h]
  · rintro m (rfl | rfl | rfl | rfl) <;> simp only [h]
  · rintro m ⟨c, hc, rfl⟩; exact h.2.2 c hc

theorem ap_pointOrColumn : AP J pointOrColumn (fun a => All (L M) (.pointOrCol a)) :=
  .alt (.map (ap_point.imp fun _ h => good trivial trivial (fun _ => rfl) (fun _ e => e ▸ h)))
    (.map (ap_columnReference.imp fun _ h =>
      good trivial trivial (fun _ => rfl) (fun _ e => e ▸ h)))

theorem ap_shapeOrColumn : AP J shapeOrColumn (fun a => All (L M) (.shapeOrCol a)) :=
  .alt (.map (ap_shape.imp fun _ h => good trivial trivial h.ne (fun _ e => e ▸ h)))
    (.map (ap_columnReference.imp fun _ h => good trivial trivial h.ne (fun _ e => e ▸ h)))

theorem ap_geomPred : AP J geomPred (fun a => All (L M) (.gpred a)) := by
  refine .alt (.map (.seqR ((AP.seq (.expect ap_shapeOrColumn)
      (.seqR (.seqL (.expect ap_shapeOrColumn)))).imp fun x h => good trivial trivial ?_ ?_)))
    (.map (.seqR ((AP.seq (.expect ap_ve)
      (.seqR (.seqL (.expect ap_shapeOrColumn)))).imp fun x h => good trivial trivial h.1.ne ?_)))
  · intro hM
    have h1 := h.1.ne hM
    have h2 := h.2.ne hM
    simp only [Node.isEmpty, GPred.isEmpty] at h1 h2 ⊢
    rw [h1, h2]; rfl
  · rintro m (rfl | rfl) <;> simp only [h]
  · rintro m (rfl | rfl) <;> simp only [h]

theorem ap_charFlag : AP J charFlag (fun c => c = '0' ∨ c = '1') :=
  .lexeme ((AP.chr _).imp fun c h => by simpa using h)

theorem ap_geometry : AP J geometry (fun a => All (L M) (.geom a)) :=
  .alt (.map ((AP.seq (.seqL ap_charFlag) ap_geomPred).imp fun _ h =>
      good h.1 trivial h.2.ne (fun _ e => e ▸ h.2)))
    (.map ((AP.seq ap_geomPred (.alt (.seqR (.expect ap_charFlag))
      ((AP.pure '1').imp fun _ h => .inr h))).imp fun _ h =>
        good h.2 trivial h.1.ne (fun _ e => e ▸ h.1)))

theorem ap_fnHead {p : G Str} {Q : Str → Prop} (h : AP I p Q) : AP I (fnHead p) Q :=
  .seqL (.lexeme (.seqL h))

/-- a node without children -/
local macro "leaf" : term => `(fun _ h => h.elim)
/-- a node with one child -/
local macro "only" h:term : term => `(fun _ e => e ▸ $h)

theorem ap_trigFunction : AP J trigFunction (fun a => All (L M) (.numFn a)) := by
  refine .alt (.map ((AP.seq (ap_fnHead (.lexeme (ap_anyKw _))) (.seqL (.expect ap_ve))).imp
      fun _ h => good h.1 trivial (fun _ => oneOf_ne h.1 (by decide)) (only h.2)))
    (.map ((AP.seq (ap_fnHead (ap_kw _)) (.seq (.expect ap_ve) (.seqR (.seqL (.expect ap_ve))))).imp
      fun _ h => good ⟨_, by simp, h.1⟩ trivial (fun _ => sameCI_ne h.1 (by simp)) ?_))
  rintro m (rfl | rfl) <;> simp only [h]

theorem ap_mathFunction : AP J mathFunction (fun a => All (L M) (.numFn a)) := by
  refine .alt (.map ((AP.seqL (.seqL (.lexeme (ap_anyKw _)))).imp fun _ h =>
      good h trivial (fun _ => oneOf_ne h (by decide)) leaf))
    (.alt (.map ((AP.seq (.seqL (.lexeme (ap_anyKw _))) (.seqL ap_ve)).imp fun _ h =>
        good h.1 trivial (fun _ => oneOf_ne h.1 (by decide)) (only h.2)))
      (.map ((AP.seq (.seqL (.lexeme (ap_anyKw _))) (.seq ap_ve (.seqR (.seqL ap_ve)))).imp
        fun _ h => good h.1 trivial (fun _ => oneOf_ne h.1 (by decide)) ?_)))
  rintro m (rfl | rfl) <;> simp only [h]

theorem ap_geoFunction : AP J geoFunction (fun a => All (L M) (.numFn a)) := by
  refine .alt (.map ((AP.seq (ap_fnHead (.lexeme (ap_anyKw _)))
      (.seqL (.expect ap_pointOrColumn))).imp
      fun _ h => good h.1 trivial (fun _ => oneOf_ne h.1 (by decide)) (only h.2)))
    (.map ((AP.seq (ap_fnHead (.lexeme (ap_kw _))) (.seq (.expect ap_pointOrColumn)
      (.seqR (.seqL (.expect ap_pointOrColumn))))).imp
      fun _ h => good ⟨_, by simp, h.1⟩ trivial (fun _ => sameCI_ne h.1 (by simp)) ?_))
  rintro m (rfl | rfl) <;> simp only [h]

theorem ap_castFunction : AP J castFunction (fun a => All (L M) (.numFn a)) :=
  .map (.seqR ((AP.seq (.seqL ap_ve) (.seq (.lexeme (ap_anyKw _))
    (.seqL (ap_optS (.seqR (.seqL (.expect ap_unsignedInteger))))))).imp fun _ h =>
      good h.2 trivial (fun _ => oneOf_ne h.2.1 (by decide)) (only h.1)))

theorem identShape_of_sameCI {x w : Str} (h : SameCI x w) (hw : (w.all isLetter) = true)
    (hn : w ≠ []) : IdentShape x := by
  have hl : ∀ c, isLetter (lowerC c) = isLetter c := by
    intro c
    rw [Bool.eq_iff_iff, isLetter_toNat, isLetter_toNat, lowerC_toNat]
    split <;> omega
  have hx : ∀ c ∈ x, isLetter c = true := by
    intro c hc
    have h1 : lowerC c ∈ w.map lowerC := by rw [← h]; exact List.mem_map_of_mem hc
    obtain ⟨d, hd, e⟩ := List.mem_map.1 h1
    rw [← hl, ← e, hl]
    exact List.all_eq_true.1 hw d hd
  cases x with
  | nil => have := sameCI_length h; cases w <;> simp_all
  | cons c t =>
    exact ⟨c, t, rfl, isLetter_iff.1 (hx c (by simp)), fun d hd =>
      isIdChar_iff.1 (isLetter_isIdChar (hx d (by simp [hd])))⟩

theorem identShape_of_oneOf {ws : List Str} {x : Str} (h : OneOf ws x)
    (hw : (ws.all fun w => !w.isEmpty && w.all isLetter) = true) : IdentShape x := by
  obtain ⟨w, hm, hx⟩ := h
  have := List.all_eq_true.1 hw w hm
  simp only [Bool.and_eq_true] at this
  exact identShape_of_sameCI hx this.2 (by intro h; simp [h] at this)

theorem ap_udfName : AP I udfName (fun fn => (IdentShape fn ∧ Nameable fn) ∨
    OneOf [cs!"RIGHT", cs!"LEFT", cs!"UPPER", cs!"LOWER", cs!"DISTINCT", cs!"TRIM"] fn) :=
  .lexeme (.alt (ap_kept.imp fun _ => .inl) ((ap_anyKw _).imp fun _ => .inr))

theorem udfName_ident {x : Str} (h : (IdentShape x ∧ Nameable x) ∨
    OneOf [cs!"RIGHT", cs!"LEFT", cs!"UPPER", cs!"LOWER", cs!"DISTINCT", cs!"TRIM"] x) : IdentShape x :=
  h.elim And.left fun h => identShape_of_oneOf h (by decide)

theorem ap_veList : AP J (sepBy ve (sym cs!",")) (fun l => l ≠ [] ∧ ∀ a ∈ l, All (L M) (.ve a)) :=
  .sepBy ap_ve

theorem ap_userDefinedFunction : AP J userDefinedFunction (fun a => All (L M) (.numFn a)) := by
  refine .map ((AP.seq (.seqL ap_udfName) (.seqL (.optD ap_veList))).imp
    fun x h => good h.1 trivial (fun _ => identShape_ne (udfName_ident h.1)) ?_)
  rintro m ⟨a, ha, rfl⟩
  rcases h.2 with h2 | h2
  · rw [h2] at ha; simp at ha
  · exact h2.2 a ha

theorem ap_numericValueFunction : AP J numericValueFunction (fun a => All (L M) (.numFn a)) :=
  .alt ap_trigFunction (.alt ap_mathFunction (.alt ap_castFunction (.alt ap_geoFunction
    (.alt ap_userDefinedFunction (.map (.lexeme ((ap_kw _).imp fun _ h =>
      good h trivial (fun _ => sameCI_ne h (by simp)) leaf)))))))

theorem ap_setQuantifier : AP I setQuantifier (OneOf [cs!"DISTINCT", cs!"ALL"]) :=
  .lexeme (.lexeme (.seqL (.alt ((ap_kw _).imp fun _ h => ⟨_, by simp, h⟩)
    ((ap_kw _).imp fun _ h => ⟨_, by simp, h⟩))))

theorem sameCI_append {a b c d : Str} (h : SameCI a b) (h' : SameCI c d) :
    SameCI (a ++ c) (b ++ d) := by simp only [SameCI, List.map_append] at *; rw [h, h']

theorem ap_countStar : AP I countStar (fun a => SameCI a cs!"COUNT(*)") :=
  (ap_cat (ap_kw _) (ap_cat (ap_chS _) (ap_cat (ap_chS _) (.expect (ap_chS _))))).imp fun a h => by
    obtain ⟨x, y, rfl, hx, u, v, rfl, ⟨c, rfl, hc⟩, z, w, rfl, ⟨d, rfl, hd⟩, e, rfl, he⟩ := h
    simp at hc hd he
    subst hc hd he
    exact sameCI_append hx (d := cs!"(*)") rfl

theorem ap_generalSetFunction : AP J generalSetFunction (fun a => All (L M) (.prim a)) :=
  .map ((AP.seq (.seqL (.lexeme (ap_anyKw _))) (.seqL (.expect (.seq (ap_optS ap_setQuantifier)
    ap_ve)))).imp fun _ h => good ⟨h.1, h.2.1⟩ trivial (fun _ => oneOf_ne h.1 (by decide))
      (only h.2.2))

theorem ap_caseResult : AP J caseResult (fun a => All (L M) (.result a)) :=
  .alt (.map (ap_ve.imp fun _ h => good trivial trivial h.ne (only h)))
    (.map (.lexeme ((ap_kw _).imp fun _ h =>
      good h trivial (fun _ => sameCI_ne h (by simp)) leaf)))

theorem ap_simpleWhen : AP J simpleWhen (fun a => All (L M) (.simpleWhen a)) := by
  refine .map (.seqR ((AP.seq (.expect (.seqL ap_ve)) (.seqR (.expect ap_caseResult))).imp
    fun _ h => good trivial trivial (fun _ => rfl) ?_))
  rintro m (rfl | rfl) <;> simp only [h]

theorem ap_searchedWhen : AP J searchedWhen (fun a => All (L M) (.searchedWhen a)) := by
  refine .map (.seqR ((AP.seq (.seqL ap_sc) ap_caseResult).imp
    fun _ h => good trivial trivial (fun _ => rfl) ?_))
  rintro m (rfl | rfl) <;> simp only [h]

theorem ap_elseClause : AP J elseClause (fun a => All (L M) (.result a)) := .seqR ap_caseResult

theorem ap_caseSpecification : AP J caseSpecification (fun a => All (L M) (.caseE a)) := by
  refine .seqR (.expect (.alt (.map (.seqL ((AP.seq ap_ve (.seq (.plus ap_simpleWhen)
      (.optD ap_elseClause))).imp fun _ h => good h.2.1.1 trivial h.1.ne ?_)))
    (.map ((AP.seq (.plus ap_searchedWhen) (.seqL (.optD ap_elseClause))).imp
      fun _ h => good h.1.1 trivial (fun _ => by
        simpa [Node.isEmpty, CaseE.isEmpty] using h.1.1) ?_))))
  · rintro m (rfl | ⟨w, hw, rfl⟩ | ⟨he, rfl⟩)
    · exact h.1
    · exact h.2.1.2 w hw
    · exact h.2.2.resolve_left he
  · rintro m (⟨w, hw, rfl⟩ | ⟨he, rfl⟩)
    · exact h.1.2 w hw
    · exact h.2.resolve_left he

theorem ap_caseExpression : AP J caseExpression (fun a => All (L M) (.caseE a)) := by
  refine .alt (.alt (.map (.seqR ((AP.seq ap_ve (.seqR (.seqL ap_ve))).imp
      fun _ h => good trivial trivial h.1.ne ?_)))
    (.map (.seqR (.seqL (ap_veList.imp fun _ h => good h.1 trivial (fun _ => by
      simpa [Node.isEmpty, CaseE.isEmpty] using h.1) ?_))))) ap_caseSpecification
  · rintro m (rfl | rfl) <;> simp only [h]
  · rintro m ⟨a, ha, rfl⟩; exact h.2 a ha

theorem ap_primary : AP J primary (fun a => All (L M) (.prim a)) := by
  refine .alt (.map (.seqL (.seqR (ap_veList.imp fun _ h => good h.1 trivial (fun _ => by
      simpa [Node.isEmpty, Prim.isEmpty] using h.1) ?_))))
    (.alt (.map (ap_unsignedLiteral.imp fun _ h => good ?_ trivial (fun _ => ?_) leaf))
    (.alt (.map (ap_columnReference.imp fun _ h => good trivial trivial h.ne (only h)))
    (.alt (.alt (.map (ap_countStar.imp fun _ h =>
        good h trivial (fun _ => sameCI_ne h (by simp)) leaf)) ap_generalSetFunction)
    (.alt (.map (ap_caseExpression.imp fun _ h => good trivial trivial h.ne (only h)))
    (.alt (.map (.seqR (.seqL (.expect (ap_ve.imp fun _ h =>
        good trivial trivial h.ne (only h))))))
    (.alt (.map (.lexeme ((ap_anyKw _).imp fun _ h =>
        good (.inr (.inr (OneOf.mono h (by simp)))) trivial (fun _ => oneOf_ne h (by decide)) leaf)))
    (.alt (.map (.lexeme ((ap_kw _).imp fun _ h =>
        good (.inr (.inr ⟨_, by simp, h⟩)) trivial (fun _ => sameCI_ne h (by simp)) leaf)))
      (.map (.seqR (.seqL (ap_ve.imp fun _ h => good trivial trivial h.ne (only h)))))))))))) 
  · rintro m ⟨a, ha, rfl⟩; exact h.2 a ha
  · rcases h with h | h | h
    · exact .inl h
    · exact .inr (.inl h)
    · exact .inr (.inr (OneOf.mono h (by simp)))
  · rcases h with h | h | h
    · exact numLit_ne h
    · exact strLit_ne h
    · exact oneOf_ne h (by decide)

theorem ap_valueExpressionPrimary : AP J valueExpressionPrimary (fun a => All (L M) (.vep a)) := by
  refine .map ((AP.seq ap_primary (.star (.seqR (.seqL ap_ve)))).imp
    fun _ h => good trivial trivial h.1.ne ?_)
  rintro m (rfl | ⟨i, hi, rfl⟩)
  · exact h.1
  · exact h.2 i hi

theorem ap_numericPrimary : AP J numericPrimary (fun a => All (L M) (.numPrim a)) :=
  .alt (.map (ap_numericValueFunction.imp fun _ h => good trivial trivial h.ne (only h)))
    (.map (ap_valueExpressionPrimary.imp fun _ h => good trivial trivial h.ne (only h)))

theorem ap_factor : AP J factor (fun a => All (L M) (.factor a)) :=
  .map ((AP.seq (ap_optS ap_sign) ap_numericPrimary).imp fun _ h =>
    good (by simpa [Ranges] using h.1) trivial h.2.ne (only h.2))

theorem ap_binaryOperators : AP I binaryOperators
    (fun a => a ∈ [cs!"*", cs!"/", cs!"+", cs!"-", cs!"||"]) :=
  .lexeme (.alt ((ap_sym _).imp fun _ h => by simp [h]) (.alt ((ap_sym _).imp fun _ h => by simp [h])
    (.alt ((ap_sym _).imp fun _ h => by simp [h]) (.alt ((ap_sym _).imp fun _ h => by simp [h])
      ((ap_sym _).imp fun _ h => by simp [h])))))

theorem ap_venbTerm : AP J venbTerm (fun a => All (L M) (.term a)) :=
  .map ((AP.seq ap_binaryOperators ap_factor).imp fun _ h =>
    good h.1 trivial (fun _ => rfl) (only h.2))

theorem ap_venbBody : AP J venbBody (fun a => All (L M) (.venb a)) := by
  refine .map ((AP.seq ap_factor (.star ap_venbTerm)).imp
    fun _ h => good trivial trivial h.1.ne ?_)
  rintro m (rfl | ⟨i, hi, rfl⟩)
  · exact h.1
  · exact h.2 i hi

theorem ap_veBody : AP J veBody (fun a => All (L M) (.ve a)) :=
  .alt (.map (ap_venb.imp fun _ h => good trivial trivial h.ne (only h)))
    (.map (ap_sc.imp fun _ h => good trivial trivial h.ne (only h)))

theorem ap_compOp : AP I compOp
    (fun a => a ∈ [cs!"=", cs!"!=", cs!"<>", cs!"<=", cs!">=", cs!"<", cs!">"]) :=
  .alt ((ap_sym _).imp fun _ h => by simp [h]) (.alt ((ap_sym _).imp fun _ h => by simp [h])
    (.alt ((ap_sym _).imp fun _ h => by simp [h]) (.alt ((ap_sym _).imp fun _ h => by simp [h])
      (.alt ((ap_sym _).imp fun _ h => by simp [h]) (.alt ((ap_sym _).imp fun _ h => by simp [h])
        ((ap_sym _).imp fun _ h => by simp [h]))))))

theorem ap_inNot : AP I inNot (fun n => n = [] ∨
    ∃ w c, n = w ++ [c] ∧ SameCI w cs!"NOT" ∧ isSpace c = true) :=
  ap_optS (.lexeme ((ap_cat (ap_kw _) (.expect (ap_chS _))).imp fun a h => by
    obtain ⟨x, y, rfl, hx, c, rfl, hc⟩ := h
    exact ⟨x, c, rfl, hx, hc⟩))

theorem ap_predicate : AP J predicate (fun a => All (L M) (.pred a)) := by
  refine .alt (.map ((AP.seq ap_venb (.seq ap_compOp ap_ve)).imp
      fun _ h => good h.2.1 trivial (fun _ => ?_) ?_))
    (.alt (.map ((AP.seq ap_venb (.seq (ap_optS (ap_wordX _)) (.seqR (.seq ap_ve
        (.seqR ap_ve))))).imp fun _ h => good h.2.1 trivial h.1.ne ?_))
    (.alt (.map ((AP.seq ap_venb (.seq ap_inNot (.seqR (Q := fun x => match x with
        | .inl q => All (L M) (.subq q)
        | .inr l => l ≠ [] ∧ ∀ a ∈ l, All (L M) (.ve a))
        (.alt (.map ap_subq) (.map (.seqR (.seqL ap_veList))))))).imp ?_))
    (.alt (.map ((AP.seq ap_venb (.seqR (.seqL (ap_optS (ap_wordX _))))).imp
      fun _ h => good h.2 trivial h.1.ne (only h.1)))
    (.alt (.map ((AP.seq ap_venb (.seq (ap_optS (ap_word _)) (.seqR ap_venb))).imp
      fun _ h => good h.2.1 trivial h.1.ne ?_))
      (.map (.seqR (ap_subq.imp fun _ h => good trivial trivial h.ne (only h))))))))
  · have := h.2.1
    simp only [Node.isEmpty, Pred.isEmpty]
    revert this
    simp only [List.mem_cons, List.not_mem_nil, or_false]
    rintro (h | h | h | h | h | h | h) <;> rw [h] <;> rfl
  · rintro m (rfl | rfl) <;> simp only [h]
  · rintro m (rfl | rfl | rfl) <;> simp only [h]
  · rintro ⟨v, n, q | l⟩ ⟨hv, hn, h⟩
    · refine good hn trivial hv.ne ?_
      rintro m (rfl | rfl)
      · exact hv
      · exact h
    · refine good ⟨hn, h.1⟩ trivial hv.ne ?_
      rintro m (rfl | ⟨e, he, rfl⟩)
      · exact hv
      · exact h.2 e he
  · rintro m (rfl | rfl)
    · exact h.1
    · exact good trivial trivial h.2.2.ne (only h.2.2)

theorem ap_booleanPrimary : AP J booleanPrimary (fun a => All (L M) (.bp a)) :=
  .alt (.map (ap_predicate.imp fun _ h => good trivial trivial h.ne (only h)))
    (.alt (.map (.seqR (.seqL (ap_sc.imp fun _ h => good trivial trivial h.ne (only h)))))
      (.map (ap_venb.imp fun _ h => good trivial trivial h.ne (only h))))

theorem ap_factorNot (b : Bool) : AP I (factorNot b) (fun n => n = [] ∨ SameCI n cs!"NOT") := by
  refine .alt ((ap_word _).imp fun _ => .inr) ?_
  cases b
  · exact (AP.pure _).imp fun _ => .inl
  · exact .alt (.andP (.lexeme ((ap_kw _).imp fun _ => .inr))) ((AP.pure _).imp fun _ => .inl)

theorem ap_booleanFactor (b : Bool) : AP J (booleanFactor b) (fun a => All (L M) (.bf a)) :=
  .map ((AP.seq (ap_factorNot b) ap_booleanPrimary).imp fun _ h =>
    good h.1 trivial h.2.ne (only h.2))

theorem ap_scBody (b : Bool) : AP J (scBody b) (fun a => All (L M) (.sc a)) := by
  refine .alt (.map ((AP.seq (ap_booleanFactor b) (.seq (.lexeme (.seqL (Q := OneOf [cs!"AND", cs!"OR"])
      (.alt ((ap_kw _).imp fun _ h => ⟨_, by simp, h⟩) ((ap_kw _).imp fun _ h => ⟨_, by simp, h⟩))))
        ap_sc)).imp
        fun _ h => good h.2.1 trivial (fun _ => oneOf_ne h.2.1 (by decide)) ?_))
    (.map ((ap_booleanFactor b).imp fun _ h => good trivial trivial h.ne (only h)))
  rintro m (rfl | rfl) <;> simp only [h]

theorem ap_tableCorrelation : AP J tableCorrelation (fun a => All (L M) (.tcorr a)) :=
  .map ((AP.seq (ap_tableName fun _ _ _ _ h => h) (ap_optS (.seqR ap_identifier))).imp fun _ h =>
    good h trivial (fun hM => tableName_ne hM h.1) leaf)

theorem ap_joinType : AP I (optD (.str []) joinType) (fun ty => match ty with
    | .str s => s = [] ∨ SameCI s cs!"INNER"
    | .outer t _ => OneOf [cs!"LEFT", cs!"RIGHT", cs!"FULL"] t) :=
  .alt (.alt (.map ((ap_word _).imp fun _ => .inr))
    (.map ((AP.seq (.lexeme (.seqL (Q := OneOf [cs!"LEFT", cs!"RIGHT", cs!"FULL"])
      (.alt ((ap_kw _).imp fun _ h => ⟨_, by simp, h⟩)
        (.alt ((ap_kw _).imp fun _ h => ⟨_, by simp, h⟩)
          ((ap_kw _).imp fun _ h => ⟨_, by simp, h⟩))))) (.trivial _)).imp fun _ h => h.1)))
    ((AP.pure _).imp fun _ h => by subst h; exact .inl rfl)

theorem ap_joinSpecification : AP J joinSpecification (fun a => All (L M) (.spec a)) :=
  .alt (.map (.seqR (ap_sc.imp fun _ h => good trivial trivial h.ne (only h))))
    (.map (.seqR (.seqL (.expect ((AP.sepBy ap_identifier).imp fun _ h =>
      good h trivial (fun _ => by simpa [Node.isEmpty, JoinSpec.isEmpty] using h.1) leaf)))))

theorem ap_joinSuffix : AP J joinSuffix (fun a => All (L M) (.suffix a)) := by
  refine .map ((AP.seq (.trivial _) (.seq (.seqL ap_joinType) (.expect (.seq ap_tr
    (.optD ap_joinSpecification))))).imp fun x h => good ?_ trivial (fun _ => rfl) ?_)
  · exact h.2.1
  · rintro m (rfl | ⟨hs, rfl⟩)
    · exact h.2.2.1
    · exact h.2.2.2.resolve_left hs

theorem ap_parenJoined : AP J parenJoined (fun a => All (L M) (.jt a)) := .seqR (.seqL ap_jt)

theorem ap_joinHead : AP J (.alt (.map (fun j => .jt (.wrap j)) parenJoined)
    (.map .tc tableCorrelation)) (fun a => All (L M) (.head a)) :=
  .alt (.map (ap_parenJoined.imp fun _ h => good trivial trivial h.ne
      (only (good trivial trivial h.ne (only h)))))
    (.map (ap_tableCorrelation.imp fun _ h => good trivial trivial h.ne (only h)))

theorem ap_qualifiedJoin : AP J qualifiedJoin (fun a => All (L M) (.qj a)) := by
  refine .map ((AP.seq ap_joinHead (.plus ap_joinSuffix)).imp fun _ h => good h.2.1 trivial h.1.ne ?_)
  rintro m (rfl | ⟨s, hs, rfl⟩)
  · exact h.1
  · exact h.2.2 s hs

theorem ap_jtBody : AP J jtBody (fun a => All (L M) (.jt a)) :=
  .alt (.map (ap_qualifiedJoin.imp fun _ h => good trivial trivial h.ne (only h)))
    (.map (ap_parenJoined.imp fun _ h => good trivial trivial h.ne (only h)))

theorem ap_trBody : AP J trBody (fun a => All (L M) (.tr a)) :=
  .alt (.map (ap_jt.imp fun _ h => good trivial trivial (fun _ => rfl) (only h)))
    (.alt (.map (ap_tableCorrelation.imp fun _ h =>
        good trivial trivial (fun _ => rfl) (only h)))
      (.alt (.map ((AP.seq ap_subq (.seqR ap_identifier)).imp fun _ h =>
          good h.2 trivial (fun _ => rfl) (only h.1)))
        (.map ((AP.seq (.lexeme (.seqR (.seqL ap_pq)))
            (.seqL (.seqL (.optD (.sepBy ap_pq))))).imp fun _ h =>
          good ⟨h.1, fun a ha => by
            rcases h.2 with h2 | h2
            · rw [h2] at ha; simp at ha
            · exact h2.2 a ha⟩ trivial (fun _ => rfl) leaf))))

theorem ap_fromClause : AP J fromClause (fun l => l ≠ [] ∧ ∀ a ∈ l, All (L M) (.tr a)) :=
  .seqR (.expect (.sepBy ap_tr))

theorem ap_selectItem : AP J selectItem (fun a => All (L M) (.item a)) :=
  .alt (.map ((AP.seq (.seqL ap_ve) (.expect ap_identifier)).imp fun _ h =>
      good h.2 trivial (fun _ => rfl) (only h.1)))
    (.alt (.map (.lexeme ((ap_cat (ap_tableName fun _ _ _ _ h => h) (ap_sym _)).imp fun a h => by
        obtain ⟨x, y, rfl, hx, rfl⟩ := h
        exact good ⟨x, rfl, hx⟩ trivial (fun _ => rfl) leaf)))
      (.map (ap_ve.imp fun _ h => good trivial trivial (fun _ => rfl) (only h))))

theorem ap_columns : AP J columns (fun a => All (L M) (.columns a)) := by
  refine .alt (.map ((ap_sym _).imp fun _ h => good h trivial (fun _ => rfl) leaf))
    (.map ((AP.sepBy ap_selectItem).imp fun _ h => good h.1 trivial (fun _ => rfl) ?_))
  rintro m ⟨i, hi, rfl⟩; exact h.2 i hi

theorem ap_topClause : AP I topClause (fun n => n ≤ topMax) :=
  (AP.optD (.seqR (.expect (.lexeme (.seqL (AP.act (.trivial _))))))).imp fun a h => by
    rcases h with rfl | ⟨s, hs, -⟩
    · exact Nat.le_refl _
    · split at hs
      · simp at hs; omega
      · simp at hs

theorem ap_select : AP J select (fun a => All (L M) (.select a)) :=
  .map (.seqR ((AP.seq (ap_optS ap_setQuantifier) (.seq ap_topClause (.expect ap_columns))).imp
    fun _ h => good ⟨h.1, h.2.1⟩ trivial (fun _ => rfl) (only h.2.2)))

/-- what is shown of a WHERE clause: it is present, and its parts are absent or well formed -/
theorem ap_whereClause : AP J whereClause (fun a => All (L M) (.where_ a)) := by
  refine .seqR (.expect (.alt (.map ((AP.seq ap_geometry (.optD (.seqR (.expect ap_sc)))).imp
      fun _ h => good trivial trivial ?_ ?_))
    (.alt (.map (.seqR (.seqL (ap_geometry.imp fun _ h => good trivial trivial ?_ ?_))))
      (.map (ap_sc.imp fun _ h => good trivial trivial ?_ ?_)))))
  · intro hM
    have h1 := h.1.ne hM
    simp only [Node.isEmpty, Where.isEmpty] at h1 ⊢
    rw [h1]; rfl
  · rintro m (⟨-, rfl⟩ | ⟨hs, rfl⟩)
    · exact h.1
    · exact h.2.resolve_left hs
  · intro hM
    have h1 := h.ne hM
    simp only [Node.isEmpty, Where.isEmpty] at h1 ⊢
    rw [h1]; rfl
  · rintro m (⟨-, rfl⟩ | ⟨hs, rfl⟩)
    · exact h
    · exact absurd rfl hs
  · intro hM
    have h1 := h.ne hM
    simp only [Node.isEmpty, Where.isEmpty] at h1 ⊢
    rw [h1]; simp
  · rintro m (⟨hs, rfl⟩ | ⟨-, rfl⟩)
    · exact absurd rfl hs
    · exact h

theorem ap_whereNoGeometry : AP J whereNoGeometry
    (fun a => All (L M) (.where_ a) ∧ ∃ s, a = .mk Geom.dflt s) := by
  refine .map (.seqR (ap_sc.imp fun s h => ⟨good trivial trivial ?_ ?_, s, rfl⟩))
  · intro hM
    have h1 := h.ne hM
    simp only [Node.isEmpty, Where.isEmpty] at h1 ⊢
    rw [h1]; simp
  · rintro m (⟨hs, rfl⟩ | ⟨-, rfl⟩)
    · exact absurd rfl hs
    · exact h

theorem ap_sfwWith {w : G Where} {Q : Where → Prop}
    (hw : AP J w (fun a => All (L M) (.where_ a) ∧ Q a)) (hd : Q Where.dflt) :
    AP J (sfwWith w) (fun a => All (L M) (.sfw a) ∧ ∀ s ts w, a = .mk s ts w → Q w) := by
  refine .map ((AP.seq ap_select (.expect (.seq ap_fromClause (.optD hw)))).imp
    fun x h => ⟨good h.2.1.1 trivial (fun _ => ?_) ?_, ?_⟩)
  · simpa [Node.isEmpty, SFW.isEmpty] using h.2.1.1
  · rintro m (rfl | ⟨t, ht, rfl⟩ | ⟨hn, rfl⟩)
    · exact h.1
    · exact h.2.1.2 t ht
    · exact (h.2.2.resolve_left hn).1
  · intro s ts w e
    simp only [SFW.mk.injEq] at e
    rw [← e.2.2]
    rcases h.2.2 with h | h
    · rw [h]; exact hd
    · exact h.2

theorem ap_unionOp : AP I unionOp (OneOf [cs!"UNION", cs!"UNION ALL", cs!"UNION DISTINCT"]) :=
  .lexeme (.seqL (.alt ((ap_kw _).imp fun _ h => ⟨_, by simp, h⟩)
    (.alt ((ap_kw _).imp fun _ h => ⟨_, by simp, h⟩) ((ap_kw _).imp fun _ h => ⟨_, by simp, h⟩))))

theorem ap_addon {w : G Where} {Q : Where → Prop}
    (hw : AP J w (fun a => All (L M) (.where_ a) ∧ Q a)) (hd : Q Where.dflt) :
    AP J (.map (fun x => Addon.mk x.1 x.2) (.seq unionOp (sfwWith w)))
      (fun a => All (L M) (.addon a) ∧ ∀ op s ts w, a = Addon.mk op (.mk s ts w) → Q w) := by
  refine .map ((AP.seq ap_unionOp (ap_sfwWith hw hd)).imp fun x h =>
    ⟨good h.1 trivial (fun _ => rfl) (only h.2.1), ?_⟩)
  intro op s ts w e
  simp only [Addon.mk.injEq] at e
  exact h.2.2 _ _ _ e.2

theorem ap_sfwList {w : G Where} {Q : Where → Prop}
    (hw : AP J w (fun a => All (L M) (.where_ a) ∧ Q a)) (hd : Q Where.dflt) :
    AP J (sfwList w) (fun a => All (L M) (.sfwList a) ∧ ∀ i as, a = .mk i as →
      (∀ s ts w, i = .mk s ts w → Q w) ∧ ∀ op s ts w, Addon.mk op (.mk s ts w) ∈ as → Q w) := by
  refine .map ((AP.seq (ap_sfwWith hw hd) (.star (ap_addon hw hd))).imp
    fun x h => ⟨good trivial trivial h.1.1.ne ?_, ?_⟩)
  · rintro m (rfl | ⟨a, ha, rfl⟩)
    · exact h.1.1
    · exact (h.2 a ha).1
  · intro i as e
    simp only [SFWList.mk.injEq] at e
    obtain ⟨rfl, rfl⟩ := e
    exact ⟨h.1.2, fun op s ts w ha => (h.2 _ ha).2 _ _ _ _ rfl⟩

theorem ap_groupByTerm : AP J groupByTerm (fun a => All (L M) (.group a)) :=
  .alt (.map (ap_ve.imp fun _ h => good trivial trivial (fun _ => rfl) (only h)))
    (.map (ap_columnReference.imp fun _ h => good trivial trivial (fun _ => rfl) (only h)))

theorem ap_groupBy : AP J groupBy (fun l => l ≠ [] ∧ ∀ a ∈ l, All (L M) (.group a)) :=
  .seqR (.seqR (.expect (.sepBy ap_groupByTerm)))

theorem ap_having : AP J having (fun a => All (L M) (.sc a)) := .seqR (.expect ap_sc)

theorem ap_sortSpecification : AP J sortSpecification (fun a => All (L M) (.sort a)) := by
  refine .map ((AP.seq (Q := fun k => match k with
      | .inl d => Digits d
      | .inr c => All (L M) (.colRef c))
    (.alt (.map ap_columnReference) (.map ap_unsignedInteger))
    (ap_optS (.lexeme (Q := OneOf [cs!"ASC", cs!"DESC"])
      (.alt ((ap_kw _).imp fun _ h => ⟨_, by simp, h⟩)
        ((ap_kw _).imp fun _ h => ⟨_, by simp, h⟩))))).imp ?_)
  rintro ⟨d | c, o⟩ ⟨h1, h2⟩
  · refine good ⟨h2, ?_⟩ trivial (fun _ => rfl) leaf
    rintro d' e; simp only [Sum.inl.injEq] at e; exact e ▸ h1
  · refine good ⟨h2, ?_⟩ trivial (fun _ => rfl) (only h1)
    rintro d' e; simp at e

theorem ap_orderBy : AP J orderBy (fun l => l ≠ [] ∧ ∀ a ∈ l, All (L M) (.sort a)) :=
  .seqR (.seqR (.sepBy ap_sortSpecification))

theorem ap_withClause : AP J withClause (fun a => All (L M) (.with_ a)) := by
  refine .map (.seqR ((AP.seq (.expect ap_identifier) (.seq (.expect (.seqL (.optD (.seqR (.seqL
    (.sepBy ap_identifier)))))) (.expect ap_subq))).imp
    fun x h => good ⟨h.1, ?_⟩ trivial (fun _ => ?_) (only h.2.2)))
  · intro c hc
    rcases h.2.1 with h2 | h2
    · rw [h2] at hc; simp at hc
    · exact h2.2 c hc
  · have := name_ne h.1
    simp only [Node.isEmpty, With.isEmpty]
    rw [this]; rfl

theorem ap_queryWith {w : G Where} {Q : Where → Prop}
    (hw : AP J w (fun a => All (L M) (.where_ a) ∧ Q a)) (hd : Q Where.dflt) :
    AP J (queryWith w) (fun a => All (L M) (.query a) ∧ ∀ wi i as g h o, a = .mk wi (.mk i as) g h o →
      (∀ s ts w, i = .mk s ts w → Q w) ∧ ∀ op s ts w, Addon.mk op (.mk s ts w) ∈ as → Q w) := by
  refine .map ((AP.seq (.optD ap_withClause) (.seq (ap_sfwList hw hd) (.seq (.optD ap_groupBy)
    (.seq (.optD ap_having) (.optD ap_orderBy))))).imp
    fun x h => ⟨good trivial trivial h.2.1.1.ne ?_, ?_⟩)
  · rintro m (⟨hn, rfl⟩ | rfl | ⟨g, hg, rfl⟩ | ⟨hn, rfl⟩ | ⟨o, ho, rfl⟩)
    · exact h.1.resolve_left hn
    · exact h.2.1.1
    · rcases h.2.2.1 with h2 | h2
      · rw [h2] at hg; simp at hg
      · exact h2.2 g hg
    · exact h.2.2.2.1.resolve_left hn
    · rcases h.2.2.2.2 with h2 | h2
      · rw [h2] at ho; simp at ho
      · exact h2.2 o ho
  · intro wi i as g h' o e
    simp only [QuerySpec.mk.injEq] at e
    exact h.2.1.2 i as e.2.1

theorem ap_query : AP J query (fun a => All (L M) (.query a)) :=
  (ap_queryWith (Q := fun _ => True) (ap_whereClause.imp fun _ h => ⟨h, trivial⟩) trivial).imp
    fun _ h => h.1

theorem ap_subqBody : AP J subqBody (fun a => All (L M) (.subq a)) := by
  refine .seqR (.seqL (.alt (.map ((ap_queryWith (Q := fun a => ∃ s, a = .mk Geom.dflt s)
      ap_whereNoGeometry ⟨_, rfl⟩).imp ?_))
    (.map (ap_jt.imp fun _ h => good trivial trivial h.ne (only h)))))
  rintro ⟨wi, ⟨i, as⟩, g, h, o⟩ ⟨h1, h2⟩
  obtain ⟨h3, h4⟩ := h2 _ _ _ _ _ _ rfl
  refine good trivial ⟨?_, ?_⟩ h1.ne (only h1)
  · obtain ⟨s, ts, w⟩ := i
    obtain ⟨c, rfl⟩ := h3 _ _ _ rfl
    exact rfl
  · rintro op ⟨s, ts, w⟩ ha
    obtain ⟨c, rfl⟩ := h4 _ _ _ _ ha
    exact rfl

end

/-- The trees of all rules satisfy the invariant. -/
theorem inv_rules (cfg : Config) (n : Rule) (sk : Bool) (t : Str) (a : Attr n) (r : Str)
    (h : sem (Inv fun y => ∃ x, cfg.mapping x = some y) (grammar cfg n) sk t a r) :
    Inv (fun y => ∃ x, cfg.mapping x = some y) n sk t a r := by
  cases n with
  | ve => exact ap_veBody _ _ _ _ h
  | venb => exact ap_venbBody _ _ _ _ h
  | sc => exact ap_scBody _ _ _ _ _ h
  | subq => exact ap_subqBody _ _ _ _ h
  | jt => exact ap_jtBody _ _ _ _ h
  | tr => exact ap_trBody _ _ _ _ h
  | tap =>
    have : AP (Inv fun y => ∃ x, cfg.mapping x = some y) (tapUpload cfg)
        (fun y => ∃ x, cfg.mapping x = some y) :=
      .lexeme (.seqR (.expect (.lexeme ((AP.act (.trivial _)).imp fun y hy => by
        obtain ⟨x, hx, -⟩ := hy
        split at hx
        · rename_i t ht; simp at hx; exact ⟨x, hx ▸ ht⟩
        · simp at hx))))
    exact this _ _ _ _ h

end Adql
