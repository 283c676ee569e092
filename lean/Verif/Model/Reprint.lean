import Verif.Model.AcceptAll
import Verif.Model.Parsed
import Verif.Model.FoldRules
import Verif.Spec.Same

/-!
# What a core query is formatted to

The text to which a tree of the (strict) core language is formatted is again a text of the core language.
It spells a tree that is formatted to the same text and is the same up to spelling (`Spec/Same.lean`): the connectives
become upper case, `NOT` in predicates is normalised, and so on.
-/

namespace Adql.Fwd

open Spec

variable {fmt : Str → Str} {S : Mode}

/-- The language leaves out negated operands after a minus sign, and its uploaded tables stand for names of tables. -/
class Prints (S : Mode) : Prop where
  strict : S.strict = true
  up : ∀ x y, S.up x = some y → TabName y

instance : Prints .core := ⟨rfl, nofun⟩
instance : Prints S.out := ⟨rfl, nofun⟩

/-! ### Pieces -/

theorem bl1 : Blanks [' '] := by unfold Blanks; decide
theorem blanks_app {a b : Str} (ha : Blanks a) (hb : Blanks b) : Blanks (a ++ b) := by
  intro c hc
  rcases List.mem_append.1 hc with h | h
  · exact ha c h
  · exact hb c h
theorem tok_re {b : Str} (w : Str) (hb : Blanks b) : Tok w (b ++ w) := ⟨b, hb, rfl⟩
theorem tok_re0 (w : Str) : Tok w w := ⟨[], nofun, rfl⟩
theorem kw_re {b w s t : Str} (hb : Blanks b) (h : Spec.Kw w s t) : Spec.Kw w (b ++ t) t := by
  obtain ⟨-, -, -, h⟩ := h
  exact ⟨b, hb, rfl, h⟩
theorem kwIn_re {b s t : Str} {ws : List Str} (hb : Blanks b) (h : KwIn ws s t) : KwIn ws (b ++ t) t := by
  obtain ⟨w, hw, h⟩ := h
  exact ⟨w, hw, kw_re hb h⟩
theorem kw_lit {b : Str} (w : Str) (hb : Blanks b) : Spec.Kw w (b ++ w) w := ⟨b, hb, rfl, rfl⟩
theorem blankFirst_re {b : Str} (s : Str) (hb : Blanks b) : BlankFirst (b ++ ' ' :: s) := by
  cases b with
  | nil => exact ⟨' ', s, rfl, rfl⟩
  | cons c b => exact ⟨c, b ++ ' ' :: s, rfl, hb c (by simp)⟩
theorem blankFirst_ne {b : Str} (s : Str) (hb : Blanks b) (hn : b ≠ []) : BlankFirst (b ++ s) := by
  cases b with
  | nil => exact absurd rfl hn
  | cons c b => exact ⟨c, b ++ s, rfl, hb c (by simp)⟩
theorem word_re {b w t : Str} (hb : Blanks b) (h : SameCI t w) : Word w (b ++ ' ' :: t) t :=
  ⟨⟨b ++ [' '], blanks_app hb bl1, by simp, h⟩, blankFirst_re t hb⟩
theorem word_ne {b w t : Str} (hb : Blanks b) (hn : b ≠ []) (h : SameCI t w) : Word w (b ++ t) t :=
  ⟨⟨b, hb, rfl, h⟩, blankFirst_ne t hb hn⟩
theorem word_ci {w s t : Str} (h : Word w s t) : SameCI t w := by
  obtain ⟨⟨-, -, -, h⟩, -⟩ := h
  exact h
theorem sameCI_upper {t w : Str} (h : SameCI t w) : SameCI (upper t) w := by
  unfold SameCI
  rw [map_lower_upper]
  exact h
theorem upper_upper (t : Str) : upper (upper t) = upper t := by
  refine upper_sameCI ?_
  exact map_lower_upper t

/-! ### Nothing is empty -/

theorem kw_ne {w s t : Str} (h : Spec.Kw w s t) (hw : w ≠ []) : t.isEmpty = false := by
  obtain ⟨-, -, -, h⟩ := h
  exact sameCI_ne h hw
theorem kwIn_ne {ws : List Str} {s t : Str} (h : KwIn ws s t) (hw : [] ∉ ws) : t.isEmpty = false := by
  obtain ⟨w, hm, h⟩ := h
  exact kw_ne h fun e => hw (e ▸ hm)
theorem partT_ne {x : Str} (h : Part x) : x.isEmpty = false := by
  rcases h with ⟨⟨c, t, rfl, -⟩, -⟩ | ⟨b, rfl, -⟩ <;> rfl
theorem nameT_ne {x : Str} (h : NameT x) : x.isEmpty = false := by
  rcases h with ⟨⟨c, t, rfl, -⟩, -⟩ | ⟨b, rfl, -⟩ <;> rfl
theorem colT_ne {s : Str} {c : ColRef} (h : ColT S s c) : c.isEmpty = false := by
  cases h with
  | col _ h => exact nameT_ne h
  | qc _ _ _ _ h => exact partT_ne h
  | sqc _ _ _ _ _ _ _ h => exact partT_ne h
  | csqc _ _ _ _ _ _ _ _ _ _ h => exact partT_ne h
  | up _ _ _ _ h => exact partT_ne h
theorem fromName_ne {n : Str} (h : FromName n) : n.isEmpty = false := by
  cases h with
  | one h => exact partT_ne h.1
  | two h _ =>
    have := partT_ne h.1
    simp only [List.isEmpty_eq_false_iff, ne_eq, List.append_eq_nil_iff] at this ⊢
    exact fun e => this e.1
  | three h _ _ =>
    have := partT_ne h.1
    simp only [List.isEmpty_eq_false_iff, ne_eq, List.append_eq_nil_iff] at this ⊢
    exact fun e => this e.1
theorem tcT_ne [Prints S] {s : Str} {t : TableCorr} (h : TcT S s t) : t.isEmpty = false := by
  cases h with
  | mk _ h _ => exact fromName_ne h
  | up _ h _ => exact fromName_ne (tabName_from (Prints.up _ _ h.2))

section
variable [Prints S]

mutual

theorem exprT_ne : ∀ {s v}, ExprT S s v → v.isEmpty = false
  | _, _, .mk h _ => factorT_ne h

theorem valT_ne : ∀ {o g s v}, ValT S o g s v → v.isEmpty = false
  | _, _, _, _, .expr h => exprT_ne h
  | _, _, _, _, .cond h => condT_ne h

theorem factorT_ne : ∀ {s v}, FactorT S s v → v.isEmpty = false
  | _, _, .plain h => atomT_ne h
  | _, _, .signed _ _ h => atomT_ne h

theorem atomT_ne : ∀ {s v}, AtomT S s v → v.isEmpty = false
  | _, _, .prim h _ => primT_ne h
  | _, _, .fn h => fnT_ne h

theorem primT_ne : ∀ {s v}, PrimT S s v → v.isEmpty = false
  | _, _, .bool h => kwIn_ne h (by decide)
  | _, _, .num _ h => numLit_ne h
  | _, _, .str _ h => strLit_ne h
  | _, _, .col h => colT_ne h
  | _, _, .countStar h _ _ _ => by simp [Prim.isEmpty]
  | _, _, .setFn h _ _ _ => kwIn_ne h (by decide)
  | _, _, .setFnQ h _ _ _ _ _ => kwIn_ne h (by decide)
  | _, _, .sub _ h _ => valT_ne h
  | _, _, .arr _ _ h _ => argsT_ne h
  | _, _, .null h => kw_ne h (by decide)
  | _, _, .nullif _ _ h _ _ _ => valT_ne h
  | _, _, .coalesce _ _ h _ => argsT_ne h
  | _, _, .caseOf _ _ h _ _ _ => valT_ne h
  | _, _, .caseWhen _ h _ _ => condsT_ne h
  | _, _, .any _ _ h _ => valT_ne h
  | _, _, .nullCast h => kwIn_ne h (by decide)

theorem condsT_ne : ∀ {s} {l : List SearchedWhen}, CondsT S s l → l.isEmpty = false
  | _, _, .one _ _ _ _ _ _ => rfl
  | _, _, .cons _ _ _ _ _ _ _ => rfl

theorem fnT_ne : ∀ {s v}, FnT S s v → v.isEmpty = false
  | _, _, .trig1 h _ _ _ => kwIn_ne h (by decide)
  | _, _, .trig2 h _ _ _ _ _ => kw_ne h (by decide)
  | _, _, .math0 h _ _ => kwIn_ne h (by decide)
  | _, _, .math1 h _ _ _ => kwIn_ne h (by decide)
  | _, _, .math2 h _ _ _ _ _ => kwIn_ne h (by decide)
  | _, _, .udf0 _ h _ _ => partT_ne (.inl ⟨h.1, h.2.1⟩)
  | _, _, .udf _ h _ _ _ => partT_ne (.inl ⟨h.1, h.2.1⟩)
  | _, _, .udfKw0 h _ _ => kwIn_ne h (by decide)
  | _, _, .udfKw h _ _ _ => kwIn_ne h (by decide)
  | _, _, .cast _ _ _ _ h _ _ _ => kwIn_ne h (by decide)
  | _, _, .coord h _ _ _ => kwIn_ne h (by decide)
  | _, _, .distance h _ _ _ _ _ => kw_ne h (by decide)
  | _, _, .now h => kw_ne h (by decide)

theorem argsT_ne : ∀ {s} {v : List VE}, ArgsT S s v → v.isEmpty = false
  | _, _, .one _ => rfl
  | _, _, .cons _ _ _ => rfl

theorem condT_ne : ∀ {h o s c}, CondT S h o s c → c.isEmpty = false
  | _, _, _, _, .factor h => bfactT_ne h
  | _, _, _, _, .term _ ⟨w, hw, hk, _⟩ _ _ => kw_ne hk fun e => by subst e; revert hw; decide

theorem bfactT_ne : ∀ {h o g s c}, BFactT S h o g s c → c.isEmpty = false
  | _, _, _, _, _, .plain h _ => bprimT_ne h
  | _, _, _, _, _, .not _ _ h => bprimT_ne h

theorem bprimT_ne : ∀ {h o g s c}, BPrimT S h o g s c → c.isEmpty = false
  | _, _, _, _, _, .pred h => predT_ne h
  | _, _, _, _, _, .paren _ h _ => condT_ne h
  | _, _, _, _, _, .bare h _ _ => exprT_ne h

theorem predT_ne : ∀ {h o g s c}, PredT S h o g s c → c.isEmpty = false
  | _, _, _, _, _, .cmp (op := op) _ hop _ _ => by
    have : ∀ op ∈ compOps, op.isEmpty = false := by decide
    exact this op hop
  | _, _, _, _, _, .between h _ _ _ _ _ _ _ => exprT_ne h
  | _, _, _, _, _, .inList h _ _ _ _ _ _ _ => exprT_ne h
  | _, _, _, _, _, .inSub h _ _ _ => exprT_ne h
  | _, _, _, _, _, .null h _ _ _ => exprT_ne h
  | _, _, _, _, _, .like h _ _ _ _ => exprT_ne h
  | _, _, _, _, _, .exist _ _ h => subqT_ne h

theorem subqT_ne : ∀ {s q}, SubqT S s q → q.isEmpty = false
  | _, _, .mk _ h _ => queryT_ne h
  | _, _, .join _ h _ _ _ => joinT_ne h

theorem queryT_ne : ∀ {G s q}, QueryT S G s q → q.isEmpty = false
  | _, _, _, .mk h _ _ _ => sfwsT_ne h
  | _, _, _, .with _ _ _ _ _ _ _ _ h _ _ _ => sfwsT_ne h

theorem sfwsT_ne : ∀ {G s q}, SfwsT S G s q → q.isEmpty = false
  | _, _, _, .mk h _ => sfwT_ne h

theorem sfwT_ne : ∀ {G s q}, SfwT S G s q → q.isEmpty = false
  | _, _, _, .mk _ _ _ _ _ _ _ h _ => tabsT_ne h

theorem tabsT_ne : ∀ {s} {l : List TR}, TabsT S s l → l.isEmpty = false
  | _, _, .one _ => rfl
  | _, _, .cons _ _ _ => rfl

theorem joinT_ne : ∀ {k s j}, JoinT S k s j → j.isEmpty = false
  | _, _, _, .mk h _ => headT_ne h
  | _, _, _, .paren _ h _ => by rw [JT.isEmpty]; exact joinT_ne h

theorem headT_ne : ∀ {s h}, HeadT S s h → h.isEmpty = false
  | _, _, .tc h => tcT_ne h
  | _, _, .paren _ h _ => by rw [QJHead.isEmpty, JT.isEmpty]; exact joinT_ne h

end

end

/-! ### Expressions -/

/-- The text of `x` is text of the language, up to blanks at its end, with any blanks in front; it spells something that
has the same text and is the same up to spelling. -/
def Re {α γ : Type} (T : Str → α → Prop) (pr : α → Str) (nm : α → γ) (x : α) : Prop :=
  ∀ b, Blanks b → ∃ x' s e, pr x = s ++ e ∧ Blanks e ∧ T (b ++ s) x' ∧ (pr x' = pr x ∧ nm x' = nm x)

/-- The same for optional parts. -/
def ReO {α γ : Type} (T : Str → α → Prop) (pr : α → Str) (nm : α → γ) (x : α) : Prop :=
  ∀ b, Blanks b → ∃ x' s e, b ++ pr x = s ++ e ∧ Blanks e ∧ T s x' ∧ (pr x' = pr x ∧ nm x' = nm x)

/-- The same without blanks at the end. -/
def Re0 {α γ : Type} (T : Str → α → Prop) (pr : α → Str) (nm : α → γ) (x : α) : Prop :=
  ∀ b, Blanks b → ∃ x', T (b ++ pr x) x' ∧ (pr x' = pr x ∧ nm x' = nm x)

theorem Re0.re {α γ : Type} {T : Str → α → Prop} {pr : α → Str} {nm : α → γ} {x : α} (h : Re0 T pr nm x) : Re T pr nm x := by
  intro b hb
  obtain ⟨x', h1, h2⟩ := h b hb
  exact ⟨x', pr x, [], by simp, nofun, h1, h2⟩

theorem Re0.of {α γ : Type} {T : Str → α → Prop} {pr : α → Str} {nm : α → γ} {x : α} (h : ∀ b, Blanks b → T (b ++ pr x) x) :
    Re0 T pr nm x := fun b hb => ⟨x, h b hb, rfl, rfl⟩

/-- The same, and `f` is kept. -/
def ReF {α β γ : Type} (T : Str → α → Prop) (pr : α → Str) (nm : α → γ) (f : α → β) (x : α) : Prop :=
  ∀ b, Blanks b → ∃ x', T (b ++ pr x) x' ∧ (pr x' = pr x ∧ nm x' = nm x) ∧ f x' = f x

theorem ReF.of {α β γ : Type} {T : Str → α → Prop} {pr : α → Str} {nm : α → γ} {f : α → β} {x : α}
    (h : ∀ b, Blanks b → T (b ++ pr x) x) : ReF T pr nm f x := fun b hb => ⟨x, h b hb, ⟨rfl, rfl⟩, rfl⟩

theorem ReF.re0 {α β γ : Type} {T : Str → α → Prop} {pr : α → Str} {nm : α → γ} {f : α → β} {x : α} (h : ReF T pr nm f x) :
    Re0 T pr nm x := by
  intro b hb
  obtain ⟨x', h1, h2, -⟩ := h b hb
  exact ⟨x', h1, h2⟩

section
variable (fmt : Str → Str)
theorem sortNorm_inl (k o) : SortSpec.norm ⟨.inl k, o⟩ = ⟨.inl k, o⟩ := rfl
theorem sortNorm_inr (c o) : SortSpec.norm ⟨.inr c, o⟩ = ⟨.inr c.norm, o⟩ := rfl
theorem coordNorm_bae (x o y) : (CoordExpr.bae x o y).norm fmt = .bae (fmt x) o (fmt y) := rfl
theorem coordNorm_col (c) : (CoordExpr.col c).norm fmt = .col c.norm := rfl
theorem coordNorm_num (x) : (CoordExpr.num x).norm fmt = if writtenAsWord (fmt x) then .col (.col (fmt x)) else .num (fmt x) := rfl
theorem pairNorm (x y) : Coord.norm fmt ⟨x, y⟩ = ⟨x.norm fmt, y.norm fmt⟩ := rfl
theorem pointNorm (s x) : Point.norm fmt ⟨s, x⟩ = ⟨s, x.norm fmt⟩ := rfl
theorem shapeNorm_point (p) : (Shape.point p).norm fmt = .point (p.norm fmt) := rfl
theorem shapeNorm_circle (s c r) : (Shape.circle s c r).norm fmt = .circle s (c.norm fmt) (r.norm fmt) := rfl
theorem shapeNorm_box (s c w h) : (Shape.box s c w h).norm fmt = .box s (c.norm fmt) (w.norm fmt) (h.norm fmt) := rfl
theorem shapeNorm_ellipse (s c a b r) :
    (Shape.ellipse s c a b r).norm fmt = .ellipse s (c.norm fmt) (a.norm fmt) (b.norm fmt) (r.norm fmt) := rfl
theorem shapeNorm_polygon (s l) : (Shape.polygon s l).norm fmt = .polygon s (l.map (Coord.norm fmt)) := rfl
theorem pointColNorm_point (p) : (PointOrCol.point p).norm fmt = .point (p.norm fmt) := rfl
theorem pointColNorm_col (c) : (PointOrCol.col c).norm fmt = .col c.norm := rfl
theorem shapeColNorm_shape (x) : (ShapeOrCol.shape x).norm fmt = .shape (x.norm fmt) := rfl
theorem shapeColNorm_col (c) : (ShapeOrCol.col c).norm fmt = .col c.norm := rfl
end

attribute [local simp] sortNorm_inl sortNorm_inr coordNorm_bae coordNorm_col coordNorm_num pairNorm pointNorm shapeNorm_point
  shapeNorm_circle shapeNorm_box shapeNorm_ellipse shapeNorm_polygon pointColNorm_point pointColNorm_col shapeColNorm_shape
  shapeColNorm_col VE.norm VENB.norm normTerms Term.norm Factor.norm NumPrim.norm NumFn.norm normVEs VEP.norm Prim.norm CaseE.norm normWhens
  normConds CaseResult.norm SC.norm BF.norm BP.norm Pred.norm Subquery.norm JT.norm QJ.norm QJHead.norm normSuffixes
  JoinSuffix.norm JoinSpec.norm TR.norm GPred.norm Geom.norm Where.norm Item.norm normItems Columns.norm Select.norm normTRs
  SFW.norm Addon.norm normAddons SFWList.norm GroupTerm.norm normGroup With.norm QuerySpec.norm

/-- Whether a name begins with one of the words for which the code looks where an expression may start. -/
def leadMarks (x : Str) : Bool × Bool × Bool × Bool :=
  (prefixCI cs!"NOT" x, prefixCI cs!"EXISTS" x, prefixCI cs!"WITH" x, prefixCI cs!"SELECT" x)

theorem leadMarks_dot (x y : Str) : leadMarks (x ++ '.' :: y) = leadMarks x := by
  have key : ∀ w : Str, (w.map lowerC).all (fun c => decide (c ≠ '.')) = true → prefixCI w (x ++ '.' :: y) = prefixCI w x := by
    intro w hw
    unfold prefixCI
    rw [List.map_append, List.map_cons, show lowerC '.' = '.' from by decide]
    exact prefix_dot _ _ _ hw
  unfold leadMarks
  rw [key _ (by decide), key _ (by decide), key _ (by decide), key _ (by decide)]

theorem colT_print [Prints S] {s : Str} {c : ColRef} (h : ColT S s c) : ReF (ColT S.out) ColRef.print ColRef.norm (fun c => leadMarks (firstCol c)) c := by
  intro b hb
  cases h with
  | col _ h => exact ⟨_, .col (tok_re _ hb) h, ⟨rfl, rfl⟩, rfl⟩
  | qc _ h _ _ h' =>
    have := ColT.qc (S := S.out) (tok_re _ hb) h (tok_re0 cs!".") (tok_re0 _) h'
    exact ⟨_, by simpa [ColRef.print] using this, ⟨rfl, rfl⟩, rfl⟩
  | sqc _ h _ _ h' _ _ h'' =>
    have := ColT.sqc (S := S.out) (tok_re _ hb) h (tok_re0 cs!".") (tok_re0 _) h' (tok_re0 cs!".") (tok_re0 _) h''
    exact ⟨_, by simpa [ColRef.print] using this, ⟨rfl, rfl⟩, rfl⟩
  | csqc _ h _ _ h' _ _ h'' _ _ h3 =>
    have := ColT.csqc (S := S.out) (tok_re _ hb) h (tok_re0 cs!".") (tok_re0 _) h' (tok_re0 cs!".") (tok_re0 _) h'' (tok_re0 cs!".") (tok_re0 _) h3
    exact ⟨_, by simpa [ColRef.print] using this, ⟨rfl, rfl⟩, rfl⟩
  | @up _ x n _ _ z _ hu _ _ hz =>
    cases Prints.up _ _ hu.2 with
    | one h =>
      have := ColT.qc (S := S.out) (tok_re _ hb) h (tok_re0 cs!".") (tok_re0 _) hz
      exact ⟨_, by simpa [ColRef.print] using this, ⟨rfl, rfl⟩, rfl⟩
    | two h h' =>
      have := ColT.sqc (S := S.out) (tok_re _ hb) h (tok_re0 cs!".") (tok_re0 _) h' (tok_re0 cs!".") (tok_re0 _) hz
      exact ⟨_, by simpa [ColRef.print] using this, by simp [ColRef.norm, ColRef.print], (leadMarks_dot _ _).symm⟩
    | three h h' h'' =>
      have := ColT.csqc (S := S.out) (tok_re _ hb) h (tok_re0 cs!".") (tok_re0 _) h' (tok_re0 cs!".") (tok_re0 _) h'' (tok_re0 cs!".") (tok_re0 _) hz
      exact ⟨_, by simpa [ColRef.print] using this, by simp [ColRef.norm, ColRef.print], (leadMarks_dot _ _).symm⟩

theorem next_cons {c : Char} {t : Str} (hc : isSpace c = false) : Spec.next (c :: t) = some c := by
  unfold Spec.next
  rw [List.dropWhile_cons, if_neg (by simp [hc])]
  rfl

theorem factorT_notMinus {s : Str} {f : Factor} (h : FactorT S s f) (hf : ∀ p, f ≠ .mk cs!"-" p) : NotHead '-' s := by
  cases h with
  | plain h =>
    rintro t rfl
    haveI : Fits S ⟨S.up, false⟩ := ⟨fun _ _ h => h, fun _ => rfl⟩
    have := (atomT_good (cfg := ⟨S.up, false⟩) h).lead [] nofun
    rw [List.append_nil] at this
    exact this.ne (d := '-') (by decide +kernel) (next_cons (by decide))
  | signed hc ho h =>
    rintro t e
    obtain ⟨b, hb, rfl⟩ := ho
    cases b with
    | nil =>
      rw [List.nil_append, List.cons_append] at e
      injection e with e1 _
      subst e1
      exact hf _ rfl
    | cons c b =>
      rw [List.cons_append, List.cons_append] at e
      injection e with e1 _
      subst e1
      have := hb '-' (by simp)
      exact absurd this (by decide)

/-! ### Where an expression starts -/

/-- The operand is an expression in parentheses. -/
def isSub : Prim → Bool
  | .sub _ => true
  | _ => false
/-- Whether the operand is in parentheses, whether it is a string, and how it begins. -/
def primInfo (p : Prim) : Bool × Bool × Bool × Bool × Bool × Bool := (isSub p, strPrim p, leadMarks (firstPrim p))
/-- The same for operands with indices. -/
def atomInfo : NumPrim → Bool × Bool × Bool × Bool × Bool × Bool
  | .vep (.mk p i) => (isSub p, strPrim p && i.isEmpty, leadMarks (firstPrim p))
  | .nvf f => (false, false, leadMarks (firstFn f))
/-- The sign of an operand, and the same. -/
def factorInfo : Factor → Str × Bool × Bool × Bool × Bool × Bool × Bool
  | .mk s p => (s, atomInfo p)

/-- The expression starts with an operand in parentheses. -/
def parenFirst : VENB → Bool
  | .mk f _ => (factorInfo f).1.isEmpty && (factorInfo f).2.1

theorem factorInfo_str (f : Factor) : strFactor f = (factorInfo f).2.2.1 := by
  obtain ⟨s, p⟩ := f
  cases p with
  | nvf => rfl
  | vep v =>
    obtain ⟨p, i⟩ := v
    cases i with
    | nil => exact (Bool.and_true _).symm
    | cons => exact (Bool.and_false _).symm

theorem factorInfo_first (f : Factor) : leadMarks (firstFactor f) = if (factorInfo f).1.isEmpty then (factorInfo f).2.2.2 else leadMarks [] := by
  obtain ⟨s, p⟩ := f
  cases s with
  | cons => rfl
  | nil =>
    cases p with
    | nvf => rfl
    | vep v => obtain ⟨p, i⟩ := v; rfl

/-- Where the expression starts. -/
def exprInfo (v : VENB) : Bool × Bool × Bool × Bool × Bool := (parenFirst v, leadMarks (firstExpr v))

theorem next_app {s t : Str} {c : Char} (h : Spec.next s = some c) : Spec.next (s ++ t) = some c := by
  induction s with
  | nil => cases h
  | cons d s ih =>
    unfold Spec.next at *
    rw [List.cons_append, List.dropWhile_cons]
    rw [List.dropWhile_cons] at h
    split
    · next hd => rw [if_pos hd] at h; exact ih h
    · next hd => rw [if_neg hd] at h; exact h

/-- The text starts with something else than an opening parenthesis. -/
def NoParen (s : Str) : Prop := ∃ c, Spec.next s = some c ∧ c ≠ '('

theorem NoParen.app {s t : Str} (h : NoParen s) : NoParen (s ++ t) := by
  obtain ⟨c, h1, h2⟩ := h
  exact ⟨c, next_app h1, h2⟩

theorem noParen_tok {s w : Str} (h : Tok w s) {c : Char} {t : Str} (e : w = c :: t) (hc : isSpace c = false) (hn : c ≠ '(') :
    NoParen s := by
  obtain ⟨b, hb, rfl⟩ := h
  subst e
  exact ⟨c, by rw [next_blanks hb]; exact next_cons hc, hn⟩

theorem noParen_ident {s x : Str} (h : Tok x s) (hx : IdentShape x) : NoParen s := by
  obtain ⟨c, t, rfl, hc, -⟩ := hx
  have hc' : isIdChar c = true := isIdChar_iff.2 (.inl hc)
  refine noParen_tok h rfl ((Bool.eq_false_iff).2 fun e => ?_) ?_
  · have := idChar_bare (v := []) hc' c [] rfl
    rw [this] at e; cases e
  · rintro rfl
    revert hc'; decide

theorem noParen_kw {w s t : Str} (h : Spec.Kw w s t) (hw : wordShape w = true) : NoParen s := by
  obtain ⟨b, hb, e, hk⟩ := kw_split (y := []) h hw nofun
  rw [List.append_nil, List.append_nil] at e
  exact noParen_ident ⟨b, hb, e⟩ hk.ident

theorem noParen_kwIn {ws : List Str} {s t : Str} (h : KwIn ws s t) (hw : (ws.all wordShape) = true) : NoParen s := by
  obtain ⟨w, hm, h⟩ := h
  exact noParen_kw h (List.all_eq_true.1 hw w hm)

theorem noParen_name {s x : Str} (h : Tok x s) (hx : NameT x) : NoParen s := by
  rcases hx with hx | ⟨b, rfl, -⟩
  · exact noParen_ident h hx.1
  · exact noParen_tok h rfl (by decide) (by decide)

theorem noParen_col {s : Str} {c : ColRef} (h : ColT S s c) : NoParen s := by
  cases h with
  | col h h' => exact noParen_name h h'
  | qc h h' _ _ _ => exact (noParen_name h h').app
  | sqc h h' _ _ _ _ _ _ => exact (noParen_name h h').app
  | csqc h h' _ _ _ _ _ _ _ _ _ => exact (noParen_name h h').app
  | up h => exact (noParen_tok h rfl (by decide) (by decide)).app

theorem noParen_nullCast {s t : Str} (h : KwIn nullCasts s t) : NoParen s := by
  obtain ⟨w, hw, b, hb, rfl, hk⟩ := h
  have : ∀ w ∈ nullCasts, ∃ u, w.map lowerC = 'n' :: u := by
    intro w hw
    simp only [nullCasts, List.mem_cons, List.not_mem_nil, or_false] at hw
    rcases hw with rfl | rfl | rfl <;> exact ⟨_, rfl⟩
  obtain ⟨u, hu⟩ := this w hw
  unfold SameCI at hk
  rw [hu] at hk
  cases t with
  | nil => cases hk
  | cons c t =>
    have hc : lowerC c = 'n' := (List.cons.inj hk).1
    refine noParen_tok (w := c :: t) ⟨b, hb, rfl⟩ rfl ?_ ?_
    · cases hs : isSpace c with
      | false => rfl
      | true => have := space_sameCI (c := c) (d := 'n') (hc.trans (by decide)); rw [this] at hs; revert hs; decide
    · rintro rfl
      revert hc; decide

theorem noParen_prim {s : Str} {p : Prim} (h : PrimT S s p) (hp : ∀ e, p ≠ .sub e) : NoParen s := by
  cases h with
  | bool h => exact noParen_kwIn h (by decide)
  | num h h' =>
    obtain ⟨c, u, e, hc⟩ := numLit_start h'
    refine noParen_tok h e ?_ ?_
    · rcases hc with hc | rfl
      · have hc' : isIdChar c = true := isIdChar_iff.2 (.inr (.inl hc))
        exact idChar_bare (v := []) hc' c [] rfl
      · decide
    · rintro rfl
      rcases hc with hc | hc
      · exact absurd hc (by unfold Digit; decide)
      · cases hc
  | str h h' =>
    obtain ⟨t, e⟩ := strLit_start h'
    exact noParen_tok h e (by decide) (by decide)
  | col h => exact noParen_col h
  | countStar h => exact (noParen_kw h (by decide)).app
  | setFn h => exact (noParen_kwIn h (by decide)).app
  | setFnQ h => exact (noParen_kwIn h (by decide)).app
  | sub => exact absurd rfl (hp _)
  | arr h => exact (noParen_kw h (by decide)).app
  | null h => exact noParen_kw h (by decide)
  | nullif h => exact (noParen_kw h (by decide)).app
  | coalesce h => exact (noParen_kw h (by decide)).app
  | caseOf h => exact (noParen_kw h (by decide)).app
  | caseWhen h => exact (noParen_kw h (by decide)).app
  | any h => exact (noParen_kw h (by decide)).app
  | nullCast h => exact noParen_nullCast h

theorem noParen_fn {s : Str} {f : NumFn} (h : FnT S s f) : NoParen s := by
  cases h with
  | trig1 h => exact (noParen_kwIn h (by decide)).app
  | trig2 h => exact (noParen_kw h (by decide)).app
  | math0 h => exact (noParen_kwIn h (by decide)).app
  | math1 h => exact (noParen_kwIn h (by decide)).app
  | math2 h => exact (noParen_kwIn h (by decide)).app
  | udf0 h h' => exact (noParen_ident h h'.1).app
  | udf h h' => exact (noParen_ident h h'.1).app
  | udfKw0 h => exact (noParen_kwIn h (by decide)).app
  | udfKw h => exact (noParen_kwIn h (by decide)).app
  | cast h => exact (noParen_kw h (by decide)).app
  | coord h => exact (noParen_kwIn h (by decide)).app
  | distance h => exact (noParen_kw h (by decide)).app
  | now h => exact noParen_kw h (by decide)

theorem exprT_next {s : Str} {v : VENB} (h : ExprT S s v) : Spec.next s = some '(' ↔ parenFirst v = true := by
  have key : NoParen s → parenFirst v = false → (Spec.next s = some '(' ↔ parenFirst v = true) := by
    rintro ⟨c, h1, h2⟩ h3
    rw [h1, h3]
    simp [h2]
  cases h with
  | mk hf _ =>
    cases hf with
    | signed hc ho _ =>
      refine key (NoParen.app (NoParen.app (noParen_tok ho rfl ?_ ?_))) rfl <;> rcases hc with rfl | rfl <;> decide
    | plain ha =>
      cases ha with
      | fn hf => exact key (noParen_fn hf).app rfl
      | @prim s p t idx hp _ =>
        by_cases hs : ∃ e, p = .sub e
        · obtain ⟨e, rfl⟩ := hs
          cases hp with
          | sub ho _ _ =>
            obtain ⟨b, hb, rfl⟩ := ho
            simp only [List.append_assoc, next_blanks hb]
            exact iff_of_true (next_cons (by decide)) rfl
        · refine key (NoParen.app (NoParen.app (noParen_prim hp fun e he => hs ⟨e, he⟩))) ?_
          cases p with
          | sub e => exact absurd ⟨e, rfl⟩ hs
          | _ => rfl

/-! ### Conditions, tables and queries -/

/-- `HAVING` clause -/
def prHaving (fmt : Str → Str) (h : SC) : Str := if h.isEmpty then [] else cs!" HAVING " ++ h.print fmt
/-- `GROUP BY` clause -/
def prGroup (fmt : Str → Str) (g : List GroupTerm) : Str :=
  if g.isEmpty then [] else cs!" GROUP BY " ++ joinSep cs!"," (printGroup fmt g)
/-- `ORDER BY` clause -/
def prOrder (o : List SortSpec) : Str := if o.isEmpty then [] else cs!" ORDER BY " ++ joinSep cs!"," (o.map SortSpec.print)
/-- `WHERE` clause -/
def prWhere (fmt : Str → Str) (w : Where) : Str := if w.isEmpty then [] else cs!" WHERE " ++ w.print fmt
/-- join specification -/
def prSpec (fmt : Str → Str) (sp : JoinSpec) : Str := if sp.isEmpty then [] else cs!" " ++ sp.print fmt
/-- `ELSE` clause -/
def prElse (fmt : Str → Str) (x : CaseResult) : Str := if x.isEmpty then [] else cs!"ELSE " ++ x.print fmt ++ cs!" "
/-- list of tables -/
def prTabs (fmt : Str → Str) (ts : List TR) : Str := joinSep cs!", " (printTRs fmt ts)

theorem namesT_print {s : Str} {l : List Str} (h : NamesT s l) {m : Str} (hm : Tok cs!"," m) {e : Str} (he : Blanks e) :
    ∀ b, Blanks b → NamesT (b ++ joinSep (m ++ e) l) l := by
  induction h with
  | one _ h => intro b hb; exact .one (tok_re _ hb) h
  | cons _ h _ ht ih =>
    intro b hb
    have := NamesT.cons (tok_re _ hb) h hm (ih e he)
    cases ht <;> simpa [joinSep] using this

theorem newName_print {t x : Str} (h : NewNameT t x) : NewNameT (' ' :: x) x ∧ x.isEmpty = false := by
  have : Part x := by cases h with
    | name _ _ h => exact h
    | as _ _ _ h => exact h
  exact ⟨.name (tok_re _ bl1) ⟨' ', _, rfl, rfl⟩ this, partT_ne this⟩

theorem tcT_print [Prints S] {s : Str} {t : TableCorr} (h : TcT S s t) {b : Str} (hb : Blanks b) : TcT S.out (b ++ t.print) t := by
  cases h with
  | up _ hu ha =>
    have hn := tabName_from (Prints.up _ _ hu.2)
    cases ha with
    | none =>
      have := TcT.mk (S := S.out) (tok_re _ hb) hn .none
      simpa [TableCorr.print] using this
    | some h =>
      obtain ⟨h1, h2⟩ := newName_print h
      have := TcT.mk (S := S.out) (tok_re _ hb) hn (.some h1)
      simp only [TableCorr.print, h2]
      simpa using this
  | mk hs hn ha =>
    cases ha with
    | none =>
      have := TcT.mk (S := S.out) (tok_re _ hb) hn .none
      simpa [TableCorr.print] using this
    | some h =>
      obtain ⟨h1, h2⟩ := newName_print h
      have := TcT.mk (S := S.out) (tok_re _ hb) hn (.some h1)
      simp only [TableCorr.print, h2]
      simpa using this

theorem fnArgsT_print {s : Str} {l : List Str} (h : FnArgsT s l) :
    ∃ t, joinSep cs!"," (l.map fun a => cs!"'" ++ a ++ cs!"'") = cs!"'" ++ (t ++ cs!"'") ∧ FnArgsT t l := by
  induction h with
  | @one s x hs hx => exact ⟨x, by simp [joinSep], .one (tok_re0 _) hx⟩
  | @cons s x m u l hs hx hm hu ih =>
    obtain ⟨t, h1, h2⟩ := ih
    refine ⟨_, ?_, .cons (tok_re0 _) hx (tok_re0 cs!"','") h2⟩
    have : ∀ a : Str, joinSep cs!"," (a :: l.map fun a => cs!"'" ++ a ++ cs!"'") =
        a ++ cs!"," ++ joinSep cs!"," (l.map fun a => cs!"'" ++ a ++ cs!"'") := by
      intro a; cases hu <;> rfl
    rw [List.map_cons, this, h1]
    simp

theorem notT_print {k n : Str} (h : NotT k n) {b : Str} (hb : Blanks b) (hn : b ≠ []) :
    ∃ k' e, b ++ (n ++ if n.isEmpty then [] else cs!" ") = k' ++ e ∧ Blanks e ∧ e ≠ [] ∧ NotT k' n := by
  cases h with
  | none => exact ⟨[], b, by simp, hb, hn, .none⟩
  | some h =>
    have h2 : n.isEmpty = false := kw_ne h.1 (by decide)
    exact ⟨b ++ n, [' '], by simp [h2], bl1, by simp, .some (word_ne hb hn (word_ci h))⟩

/-- `NOT` printed as such -/
theorem notT_print' {k n : Str} (h : NotT k n) {b : Str} (hb : Blanks b) (hn : b ≠ []) :
    ∃ n' k' e, b ++ (if n.isEmpty then [] else cs!"NOT ") = k' ++ e ∧ Blanks e ∧ e ≠ [] ∧ NotT k' n' ∧ n'.isEmpty = n.isEmpty := by
  cases h with
  | none => exact ⟨[], [], b, by simp, hb, hn, .none, rfl⟩
  | some h =>
    have h2 : n.isEmpty = false := kw_ne h.1 (by decide)
    exact ⟨cs!"NOT", b ++ cs!"NOT", [' '], by simp [h2], bl1, by simp, .some (word_ne hb hn rfl), by rw [h2]; rfl⟩

theorem inT_print {k n : Str} (h : InT k n) :
    ∃ n' k', cs!" " ++ (if n.isEmpty then [] else cs!"NOT ") ++ cs!"IN" = k' ∧ InT k' n' ∧ n'.isEmpty = n.isEmpty := by
  cases h with
  | plain h => exact ⟨[], _, rfl, .plain (word_re (b := []) nofun rfl), rfl⟩
  | not h hc hi =>
    refine ⟨cs!"NOT ", _, rfl, ?_, by simp⟩
    have := InT.not (word_re (b := []) nofun (t := cs!"NOT") rfl) (c := ' ') (by decide) (kw_lit (b := []) cs!"IN" nofun)
    simpa using this


theorem bf1 (s : Str) : BlankFirst ([' '] ++ s) := ⟨' ', s, rfl, rfl⟩

theorem natT_print {n : Str} {f : Bool} (h : NatT n f) {b : Str} (hb : Blanks b) (hn : b ≠ []) :
    ∃ k e, b ++ (if f then cs!"NATURAL " else []) = k ++ e ∧ Blanks e ∧ e ≠ [] ∧ NatT k f := by
  cases h with
  | none => exact ⟨[], b, by simp, hb, hn, .none⟩
  | some h => exact ⟨b ++ cs!"NATURAL", [' '], by simp, bl1, by simp, .some (word_ne hb hn rfl)⟩

theorem jtypeT_print {i : Bool} {s : Str} {ty : JoinType} (h : JTypeT i s ty) {b : Str} (hb : Blanks b) (hn : b ≠ []) :
    ∃ k e, b ++ ty.print = k ++ e ∧ Blanks e ∧ JTypeT i k ty := by
  cases h with
  | none => exact ⟨[], b, by simp [JoinType.print], hb, .none⟩
  | inner h => exact ⟨b ++ _, [], by simp [JoinType.print], nofun, .inner (word_ne hb hn (word_ci h))⟩
  | outer h ho =>
    obtain ⟨w, hw, h⟩ := h
    have h' := word_ne hb hn (word_ci h)
    cases ho with
    | none => exact ⟨_, [], by simp [JoinType.print], nofun, .outer ⟨w, hw, h'⟩ .none⟩
    | some ho =>
      refine ⟨_, [], ?_, nofun, .outer ⟨w, hw, h'⟩ (.some (word_re (b := []) nofun (t := cs!"OUTER") rfl))⟩
      simp [JoinType.print]

theorem sortT_print [Prints S] {s : Str} {x : SortSpec} (h : SortT S s x) : Re0 (SortT S.out) SortSpec.print SortSpec.norm x := by
  intro b hb
  have hd : ∀ {k t : Str}, DirT k t → DirT (if t.isEmpty then [] else cs!" " ++ t) t := by
    intro k t h
    cases h with
    | none => exact .none
    | some h =>
      obtain ⟨w, hw, h⟩ := h
      have h2 : t.isEmpty = false := kw_ne h.1 fun e => by subst e; revert hw; decide
      simp only [h2]
      exact .some ⟨w, hw, word_re (b := []) nofun (word_ci h)⟩
  cases h with
  | col hc h =>
    obtain ⟨c', h1, h2⟩ := (colT_print hc).re0 b hb
    have := SortT.col h1 (hd h)
    exact ⟨_, by simpa [SortSpec.print] using this, by simp [SortSpec.print, h2]⟩
  | num hc h' h =>
    have := SortT.num (S := S.out) (tok_re _ hb) h' (hd h)
    exact ⟨_, by simpa [SortSpec.print] using this, rfl, rfl⟩

theorem sortsT_print [Prints S] {s : Str} {l : List SortSpec} (h : SortsT S s l) :
    ∀ b, Blanks b → ∃ l', SortsT S.out (b ++ joinSep cs!"," (l.map SortSpec.print)) l' ∧ (l'.map SortSpec.print = l.map SortSpec.print ∧ l'.map SortSpec.norm = l.map SortSpec.norm) := by
  induction h with
  | one h =>
    intro b hb
    obtain ⟨x', h1, h2⟩ := sortT_print h b hb
    exact ⟨_, by simpa [joinSep] using SortsT.one h1, by simp [h2]⟩
  | cons h _ ht ih =>
    intro b hb
    obtain ⟨x', h1, h2⟩ := sortT_print h b hb
    obtain ⟨l', h3, h4⟩ := ih [] nofun
    have := SortsT.cons h1 (tok_re0 cs!",") h3
    exact ⟨_, by cases ht <;> simpa [joinSep] using this, by simp [h2, h4]⟩

theorem orderT_print [Prints S] {s : Str} {l : List SortSpec} (h : OrderT S s l) : ReO (OrderT S.out) prOrder (List.map SortSpec.norm) l := by
  intro b hb
  cases h with
  | none => exact ⟨[], [], b, by simp [prOrder], hb, .none, rfl, rfl⟩
  | some _ _ _ h =>
    have hn : l.isEmpty = false := by cases h <;> rfl
    obtain ⟨l', h1, h2⟩ := sortsT_print h [' '] bl1
    have hn' : l'.isEmpty = false := by
      cases l' with
      | nil => cases l with
        | nil => cases hn
        | cons => cases h2.1
      | cons => rfl
    have := OrderT.some (word_re hb (t := cs!"ORDER") rfl) (word_re (b := []) nofun (t := cs!"BY") rfl) (bf1 _) h1
    exact ⟨l', _, [], by simp [prOrder, hn], nofun, this, by simp [prOrder, hn, hn', h2]⟩

theorem gargsT_ne {s : Str} {l : List GroupTerm} (h : GArgsT S s l) : l.isEmpty = false := by cases h <;> rfl

theorem lenT_print {l n : Str} (h : LenT l n) : LenT (if n.isEmpty then [] else cs!"(" ++ n ++ cs!")") n := by
  cases h with
  | none => exact .none
  | some _ _ h _ =>
    have hn : n.isEmpty = false := by cases n <;> first | rfl | exact absurd rfl h.1
    simp only [hn]
    have := LenT.some (tok_re0 cs!"(") (tok_re0 n) h (tok_re0 cs!")")
    simpa using this

theorem quantT_print {q t : Str} (h : QuantT q t) {b : Str} (hb : Blanks b) (hn : b ≠ []) :
    ∃ k e, b ++ (t ++ if t.isEmpty then [] else cs!" ") = k ++ e ∧ Blanks e ∧ e ≠ [] ∧ QuantT k t := by
  cases h with
  | none => exact ⟨[], b, by simp, hb, hn, .none⟩
  | some h =>
    obtain ⟨w, hw, h⟩ := h
    have h2 : t.isEmpty = false := kw_ne h.1 fun e => by subst e; revert hw; decide
    exact ⟨b ++ t, [' '], by simp [h2], bl1, by simp, .some ⟨w, hw, word_ne hb hn (word_ci h)⟩⟩

theorem topT_print {p : Str} {n : Nat} (h : TopT p n) {b : Str} (hb : Blanks b) (hn : b ≠ []) :
    ∃ k e, b ++ (if n ≠ topMax then cs!"TOP " ++ decDigits n ++ cs!" " else []) = k ++ e ∧ Blanks e ∧ e ≠ [] ∧ TopT k n := by
  by_cases hm : n = topMax
  · subst hm
    exact ⟨[], b, by simp, hb, hn, .none⟩
  · have hlt : n < 2 ^ 64 := by
      cases h with
      | none => omega
      | some _ _ _ _ h => exact h
    obtain ⟨h1, h2, -⟩ := C19_decimal n
    have := TopT.some (word_ne hb hn (t := cs!"TOP") rfl) (tok_re (decDigits n) bl1) (bf1 _) h1 (by rw [h2]; exact hlt)
    rw [h2] at this
    exact ⟨_, [' '], by simp [hm], bl1, by simp, this⟩

/-! ### Coordinates and shapes -/

variable [Prints S] (hfmt : FmtNum fmt)

theorem infName {x w : Str} (h : SameCI x w) (hw : (wordShape w && !(words.any fun k => w.map lowerC == k.map lowerC) &&
    greedyWords.all (fun k => !prefixCI k w) && openWords.all (fun k => !(w.map lowerC == k.map lowerC)) &&
    !(w.map lowerC == cs!"tap_upload")) = true) : NameT x := by
  simp only [Bool.and_eq_true, Bool.not_eq_true', beq_eq_false_iff_ne, List.any_eq_false, List.all_eq_true, beq_iff_eq] at hw
  obtain ⟨⟨⟨⟨h1, h2⟩, h3⟩, h4⟩, h6⟩ := hw
  have h' : x.map lowerC = w.map lowerC := h
  refine .inl ⟨wordShape_iff.1 ((wordShape_sameCI h).trans h1), ?_, ⟨fun k hk => ?_, fun k hk e => h4 k hk ?_⟩, fun e => h6 ?_⟩
  · rintro ⟨k, hk, e⟩
    exact absurd (h'.symm.trans e) (h2 k hk)
  · rw [sameCI_prefixCI h]; exact h3 k hk
  · exact h'.symm.trans e
  · rw [← h', e]; rfl

/-- A number that starts with a letter is a name. -/
theorem plainNum_name {x : Str} (h : PlainNum x) {c : Char} {t : Str} (e : x = c :: t) (hc : Letter c) : NameT x := by
  obtain ⟨g, m, hg, hm, rfl⟩ := h
  simp only [List.mem_cons, List.not_mem_nil, or_false] at hg
  rcases hg with rfl | rfl | rfl
  · rw [List.nil_append]
    cases hm with
    | num hm _ =>
      obtain ⟨d, u, rfl, hd⟩ := unsigned_head hm
      cases e
      have hc := isLetter_iff.2 hc
      rcases hd with hd | rfl
      · have hd := isDigit_iff.2 hd
        rw [isLetter_toNat] at hc
        simp only [isDigit, Bool.and_eq_true, decide_eq_true_eq] at hd
        omega
      · exact absurd hc (by decide)
    | inf hm => exact infName hm (by decide +kernel)
    | infinity hm => exact infName hm (by decide +kernel)
    | nan hm => exact infName hm (by decide +kernel)
  · cases e; exact absurd (isLetter_iff.2 hc) (by decide)
  · cases e; exact absurd (isLetter_iff.2 hc) (by decide)

theorem plainNum_coord {x : Str} (h : PlainNum x) : CoordNum x := by
  obtain ⟨g, m, hg, hm, e⟩ := h
  exact ⟨g, m, hg, .plain hm, e⟩

include hfmt

theorem coordT_print {s : Str} {x : CoordExpr} (h : CoordT S s x) : Re0 (CoordT S.out) (CoordExpr.print fmt) (CoordExpr.norm fmt) x := by
  intro b hb
  cases h with
  | col h =>
    obtain ⟨c', h1, h2⟩ := (colT_print h).re0 b hb
    exact ⟨.col c', .col h1, by simp [CoordExpr.print, h2]⟩
  | @num s x _ hx _ =>
    obtain ⟨h1, h2⟩ := hfmt x hx
    by_cases hl : ∃ c t, fmt x = c :: t ∧ Letter c
    · obtain ⟨c, t, e, hc⟩ := hl
      refine ⟨.col (.col (fmt x)), .col (.col (tok_re _ hb) (plainNum_name h1 e hc)), rfl, ?_⟩
      have hw : writtenAsWord (fmt x) := by rw [e]; exact hc
      simp [hw, ColRef.norm, ColRef.print]
    · exact ⟨.num (fmt x), .num (tok_re _ hb) (plainNum_coord h1) (fun c t e hc => hl ⟨c, t, e, hc⟩), h2, by simp [h2]⟩
  | @op s x o c t y _ hx hc _ _ hy =>
    obtain ⟨h1, h2⟩ := hfmt x hx
    obtain ⟨h3, h4⟩ := hfmt y hy
    have := CoordT.op (S := S.out) (tok_re _ hb) (plainNum_coord h1) hc (tok_re0 [c]) (tok_re0 _) (plainNum_coord h3)
    exact ⟨_, by simpa [CoordExpr.print] using this, by simp [CoordExpr.print, h2, h4]⟩

theorem pairT_print {s : Str} {x : Coord} (h : PairT S s x) : Re0 (PairT S.out) (Coord.print fmt) (Coord.norm fmt) x := by
  intro b hb
  cases h with
  | mk hx _ hy =>
    obtain ⟨x', h1, h2⟩ := coordT_print hfmt hx b hb
    obtain ⟨y', h3, h4⟩ := coordT_print hfmt hy [] nofun
    have := PairT.mk h1 (tok_re0 cs!",") h3
    exact ⟨_, by simpa [Coord.print] using this, by simp [Coord.print, h2, h4]⟩

theorem pairsT_print {s : Str} {l : List Coord} (h : PairsT S s l) :
    ∀ b, Blanks b → ∃ l' t, printPolyCoords fmt l = cs!"," ++ t ∧ PairsT S.out (b ++ t) l' ∧
      (printPolyCoords fmt l' = printPolyCoords fmt l ∧ l'.map (Coord.norm fmt) = l.map (Coord.norm fmt)) := by
  induction h with
  | one h =>
    intro b hb
    obtain ⟨x', h1, h2⟩ := pairT_print hfmt h b hb
    exact ⟨_, _, by simp [printPolyCoords], .one h1, by simp [printPolyCoords, h2]⟩
  | cons h _ ht ih =>
    intro b hb
    obtain ⟨x', h1, h2⟩ := pairT_print hfmt h b hb
    obtain ⟨l', t, h3, h4, h5⟩ := ih [] nofun
    have := PairsT.cons h1 (tok_re0 cs!",") h4
    rw [List.append_assoc] at this
    refine ⟨_, _, ?_, this, by simp [printPolyCoords, h2, h5]⟩
    simp [printPolyCoords, h3]

theorem moreT_print {s : Str} {x : CoordExpr} (h : MoreT S s x) :
    ∃ x', MoreT S.out (cs!"," ++ x.print fmt) x' ∧ (x'.print fmt = x.print fmt ∧ x'.norm fmt = x.norm fmt) := by
  cases h with
  | mk _ h =>
    obtain ⟨x', h1, h2⟩ := coordT_print hfmt h [] nofun
    exact ⟨x', .mk (tok_re0 cs!",") h1, h2⟩

omit hfmt in
theorem shapeHead_print {w h : Str} {c : CoordSys} (_ : ShapeHead w h c) {b : Str} (hb : Blanks b) :
    ShapeHead w (b ++ (w ++ (cs!"('" ++ (c.print ++ cs!"',")))) c := by
  have hs : Spec.SysText ('\'' :: (c.print ++ ['\''])) c := by
    obtain ⟨f, p⟩ := c
    have hf : Spec.FrameText f.print f := by
      cases f with
      | j2000 => exact .j2000 rfl
      | icrs => exact .icrs rfl
      | galactic => exact .galactic rfl
    have hp : Spec.PosText p.print p := by
      cases p with
      | geocenter => exact .geocenter rfl
    have := Spec.SysText.mk (b₁ := []) (b₂ := [' ']) (b₃ := []) nofun hf bl1 hp nofun
    simpa [CoordSys.print] using this
  have := ShapeHead.mk (kw_lit w hb) (tok_re0 cs!"(") (SysT.some (b := []) nofun hs (tok_re0 cs!","))
  simpa using this

theorem pointT_print {s : Str} {x : Point} (h : PointT S s x) : Re0 (PointT S.out) (Point.print fmt) (Point.norm fmt) x := by
  intro b hb
  cases h with
  | mk hh hx _ =>
    obtain ⟨x', h1, h2⟩ := pairT_print hfmt hx [] nofun
    have := PointT.mk (shapeHead_print hh hb) h1 (tok_re0 cs!")")
    exact ⟨_, by simpa [Point.print] using this, by simp [Point.print, h2]⟩

theorem shapeT_print {s : Str} {x : Shape} (h : ShapeT S s x) : Re0 (ShapeT S.out) (Shape.print fmt) (Shape.norm fmt) x := by
  intro b hb
  cases h with
  | point h =>
    obtain ⟨x', h1, h2⟩ := pointT_print hfmt h b hb
    exact ⟨.point x', .point h1, h2.1, by simp [h2]⟩
  | circle hh hx hy _ =>
    obtain ⟨x', h1, h2⟩ := pairT_print hfmt hx [] nofun
    obtain ⟨y', h3, h4⟩ := moreT_print hfmt hy
    have := ShapeT.circle (shapeHead_print hh hb) h1 h3 (tok_re0 cs!")")
    exact ⟨_, by simpa [Shape.print] using this, by simp [Shape.print, h2, h4]⟩
  | box hh hx hy hz _ =>
    obtain ⟨x', h1, h2⟩ := pairT_print hfmt hx [] nofun
    obtain ⟨y', h3, h4⟩ := moreT_print hfmt hy
    obtain ⟨z', h5, h6⟩ := moreT_print hfmt hz
    have := ShapeT.box (shapeHead_print hh hb) h1 h3 h5 (tok_re0 cs!")")
    exact ⟨_, by simpa [Shape.print] using this, by simp [Shape.print, h2, h4, h6]⟩
  | ellipse hh hx hy hz ha _ =>
    obtain ⟨x', h1, h2⟩ := pairT_print hfmt hx [] nofun
    obtain ⟨y', h3, h4⟩ := moreT_print hfmt hy
    obtain ⟨z', h5, h6⟩ := moreT_print hfmt hz
    obtain ⟨a', h7, h8⟩ := moreT_print hfmt ha
    have := ShapeT.ellipse (shapeHead_print hh hb) h1 h3 h5 h7 (tok_re0 cs!")")
    exact ⟨_, by simpa [Shape.print] using this, by simp [Shape.print, h2, h4, h6, h8]⟩
  | polygon hh hx _ =>
    obtain ⟨l', t, h1, h2, h3⟩ := pairsT_print hfmt hx [] nofun
    have := ShapeT.polygon (shapeHead_print hh hb) h2 (tok_re0 cs!")")
    exact ⟨_, by simpa [Shape.print, h1] using this, by simp [Shape.print, h3]⟩

theorem pointColT_print {s : Str} {x : PointOrCol} (h : PointColT S s x) : Re0 (PointColT S.out) (PointOrCol.print fmt) (PointOrCol.norm fmt) x := by
  intro b hb
  cases h with
  | point h =>
    obtain ⟨x', h1, h2⟩ := pointT_print hfmt h b hb
    exact ⟨.point x', .point h1, h2.1, by simp [h2]⟩
  | col h =>
    obtain ⟨c', h1, h2⟩ := (colT_print h).re0 b hb
    exact ⟨.col c', .col h1, h2.1, by simp [h2]⟩

theorem shapeColT_print {s : Str} {x : ShapeOrCol} (h : ShapeColT S s x) : Re0 (ShapeColT S.out) (ShapeOrCol.print fmt) (ShapeOrCol.norm fmt) x := by
  intro b hb
  cases h with
  | shape h =>
    obtain ⟨x', h1, h2⟩ := shapeT_print hfmt h b hb
    exact ⟨.shape x', .shape h1, h2.1, by simp [h2]⟩
  | col h =>
    obtain ⟨c', h1, h2⟩ := (colT_print h).re0 b hb
    exact ⟨.col c', .col h1, h2.1, by simp [h2]⟩

omit [Prints S] hfmt in
theorem shapeColT_ne {s : Str} {x : ShapeOrCol} (h : ShapeColT S s x) : x.isEmpty = false := by
  cases h with
  | col h => exact colT_ne h
  | shape h =>
    have hc : ∀ x : Coord, x.isEmpty = false := by
      intro ⟨x, y⟩; cases x <;> rfl
    cases h with
    | point _ => exact hc _
    | circle => exact hc _
    | box => exact hc _
    | ellipse => exact hc _
    | polygon _ h _ => cases h <;> rfl

omit hfmt in
theorem gpredT_ne {s : Str} {p : GPred} (h : GPredT S s p) : p.isEmpty = false := by
  cases h with
  | contains _ _ h _ h' _ => simp [GPred.isEmpty, shapeColT_ne h, shapeColT_ne h']
  | intersects _ _ h _ _ _ => exact valT_ne h

omit hfmt in
theorem geomT_ne {s : Str} {g : Geom} (h : GeomT S s g) : g.isEmpty = false := by
  cases h with
  | left _ _ _ h => exact gpredT_ne h
  | right h _ _ _ => exact gpredT_ne h
  | bare h => exact gpredT_ne h

mutual

theorem exprT_print : ∀ {s v}, ExprT S s v → ReF (ExprT S.out) (VENB.print fmt) (VENB.norm fmt) exprInfo v
  | _, _, .mk (f := f) h ht => by
    intro b hb
    obtain ⟨f', h1, h2, h3⟩ := factorT_print h b hb
    obtain ⟨ts', h4, h5⟩ := termsT_print ht
    have hq : strFactor f = strFactor f' := by rw [factorInfo_str, factorInfo_str, h3]
    exact ⟨.mk f' ts', by simpa [VENB.print] using ExprT.mk h1 (hq ▸ h4), by simp [VENB.print, h2, h5],
      by simp [exprInfo, firstExpr, factorInfo_first, parenFirst, h3]⟩

theorem valT_print : ∀ {o g s v}, ValT S o g s v → ReF (ValT S.out o g) (VE.print fmt) (VE.norm fmt) (fun v => leadMarks (firstVal v)) v
  | _, _, _, _, .expr h => by
    intro b hb
    obtain ⟨v', h1, h2, h3⟩ := exprT_print h b hb
    exact ⟨.nb v', by simpa [VE.print] using ValT.expr h1, by simp [VE.print, h2], by exact congrArg Prod.snd h3⟩
  | _, _, _, _, .cond h => by
    intro b hb
    obtain ⟨c', h1, h2⟩ := condT_print h b hb
    exact ⟨.sc c', by simpa [VE.print] using ValT.cond h1, by simp [VE.print, h2], rfl⟩

theorem termsT_print : ∀ {q s v}, TermsT S q s v → ∃ v', TermsT S.out q (printTerms fmt v) v' ∧
    (printTerms fmt v' = printTerms fmt v ∧ normTerms fmt v' = normTerms fmt v)
  | _, _, _, .nil => ⟨[], by simpa [printTerms] using TermsT.nil, rfl, rfl⟩
  | _, _, _, .cons (q := q) (op := op) (f := f) hop _ hf hm ht => by
    obtain ⟨f', h1, h2, h3⟩ := factorT_print hf [] nofun
    obtain ⟨ts', h4, h5⟩ := termsT_print ht
    have hs : q = true → op = cs!"-" → ∀ p, f' ≠ .mk cs!"-" p := by
      rintro e0 e p rfl
      obtain ⟨s, a⟩ := f
      have : cs!"-" = s := congrArg Prod.fst h3
      exact (hm e0 e).2 Prints.strict a (by rw [this])
    have hq : strFactor f = strFactor f' := by rw [factorInfo_str, factorInfo_str, h3]
    have := TermsT.cons hop (tok_re0 _) h1 (fun e0 e => ⟨factorT_notMinus h1 (hs e0 e), fun _ => hs e0 e⟩) (hq ▸ h4)
    exact ⟨_, by simpa [printTerms, Term.print] using this, by simp [printTerms, Term.print, h2, h5]⟩

theorem factorT_print : ∀ {s v}, FactorT S s v → ReF (FactorT S.out) (Factor.print fmt) (Factor.norm fmt) factorInfo v
  | _, _, .plain h => by
    intro b hb
    obtain ⟨p', h1, h2, h3⟩ := atomT_print h b hb
    exact ⟨_, by simpa [Factor.print] using FactorT.plain h1, by simp [Factor.print, h2], by simp [factorInfo, h3]⟩
  | _, _, .signed hc _ h => by
    intro b hb
    obtain ⟨p', h1, h2, h3⟩ := atomT_print h [] nofun
    have := FactorT.signed hc (tok_re _ hb) h1
    exact ⟨_, by simpa [Factor.print] using this, by simp [Factor.print, h2], by simp [factorInfo, h3]⟩

theorem atomT_print : ∀ {s v}, AtomT S s v → ReF (AtomT S.out) (NumPrim.print fmt) (NumPrim.norm fmt) atomInfo v
  | _, _, .prim h ht => by
    intro b hb
    obtain ⟨p', h1, h2, h3⟩ := primT_print h b hb
    obtain ⟨i', h4, h5, h6⟩ := idxT_print ht
    have := AtomT.prim h1 h4
    have h7 : isSub p' = _ ∧ strPrim p' = _ ∧ leadMarks (firstPrim p') = _ :=
      ⟨congrArg Prod.fst h3, congrArg (fun x => x.2.1) h3, congrArg (fun x => x.2.2) h3⟩
    exact ⟨_, by simpa [NumPrim.print, VEP.print] using this, by simp [NumPrim.print, VEP.print, h2, h5],
      by simp only [atomInfo, h6, h7.1, h7.2.1, h7.2.2]; rfl⟩
  | _, _, .fn h => by
    intro b hb
    obtain ⟨f', h1, h2, h3⟩ := fnT_print h b hb
    exact ⟨_, by simpa [NumPrim.print] using AtomT.fn h1, by simp [NumPrim.print, h2], by exact congrArg (fun m => (false, false, m)) h3⟩

theorem idxT_print : ∀ {s v}, IdxT S s v → ∃ v', IdxT S.out (printIdx fmt v) v' ∧
    (printIdx fmt v' = printIdx fmt v ∧ normVEs fmt v' = normVEs fmt v) ∧
    v'.isEmpty = v.isEmpty
  | _, _, .nil => ⟨[], by simpa [printIdx] using IdxT.nil, ⟨rfl, rfl⟩, rfl⟩
  | _, _, .cons _ h _ ht => by
    obtain ⟨e', h1, h2⟩ := (valT_print h).re0 [] nofun
    obtain ⟨i', h4, h5, -⟩ := idxT_print ht
    have := IdxT.cons (tok_re0 cs!"[") h1 (tok_re0 cs!"]") h4
    exact ⟨e' :: i', by simpa [printIdx] using this, by simp [printIdx, h2, h5], rfl⟩

theorem primT_print : ∀ {s v}, PrimT S s v → ReF (PrimT S.out) (Prim.print fmt) (Prim.norm fmt) primInfo v
  | _, _, .bool h => ReF.of fun b hb => by simpa [Prim.print] using PrimT.bool (kwIn_re hb h)
  | _, _, .num _ h => ReF.of fun b hb => by simpa [Prim.print] using PrimT.num (tok_re _ hb) h
  | _, _, .str _ h => ReF.of fun b hb => by simpa [Prim.print] using PrimT.str (tok_re _ hb) h
  | _, _, .col h => by
    intro b hb
    obtain ⟨c', h1, h2, h3⟩ := colT_print h b hb
    exact ⟨_, by simpa [Prim.print] using PrimT.col h1, by simp [Prim.print, h2],
      by exact congrArg (fun m => (false, false, m)) h3⟩
  | _, _, .countStar h _ _ _ => ReF.of fun b hb => by
    have := PrimT.countStar (S := S.out) (kw_re hb h) (tok_re0 cs!"(") (tok_re0 cs!"*") (tok_re0 cs!")")
    simpa [Prim.print] using this
  | _, _, .setFn h _ he _ => by
    intro b hb
    obtain ⟨e', h1, h2⟩ := (valT_print he).re0 [] nofun
    have := PrimT.setFn (kwIn_re hb h) (tok_re0 cs!"(") h1 (tok_re0 cs!")")
    exact ⟨_, by simpa [Prim.print] using this, by simp [Prim.print, h2], by rfl⟩
  | _, _, .setFnQ (q := q) (fn := fn) h _ hq _ he _ => by
    intro b hb
    obtain ⟨e', h1, h2⟩ := (valT_print he).re0 [' '] bl1
    have := PrimT.setFnQ (kwIn_re hb h) (tok_re0 cs!"(") (kwIn_re (b := []) nofun hq) (bf1 _) h1 (tok_re0 cs!")")
    have hn : q.isEmpty = false := kwIn_ne hq (by decide)
    refine ⟨.setFn fn q e', ?_, ?_, rfl⟩
    rotate_left
    · simp [Prim.print, h2]
    · simp only [Prim.print, hn]
      simpa using this
  | _, _, .sub _ h _ => by
    intro b hb
    obtain ⟨e', h1, h2⟩ := (valT_print h).re0 [] nofun
    have := PrimT.sub (tok_re cs!"(" hb) h1 (tok_re0 cs!")")
    exact ⟨_, by simpa [Prim.print] using this, by simp [Prim.print, h2], by rfl⟩
  | _, _, .arr _ _ h _ => by
    intro b hb
    obtain ⟨v', h1, h2, -⟩ := argsT_print h [] nofun cs!"," (tok_re0 _) [] nofun
    have := PrimT.arr (kw_lit cs!"ARRAY" hb) (tok_re0 cs!"[") h1 (tok_re0 cs!"]")
    exact ⟨_, by simpa [Prim.print] using this, by simp [Prim.print, h2], by rfl⟩
  | _, _, .null h => ReF.of fun b hb => by simpa [Prim.print] using PrimT.null (kw_re hb h)
  | _, _, .nullif _ _ h _ h' _ => by
    intro b hb
    obtain ⟨v', h1, h2⟩ := (valT_print h).re0 [] nofun
    obtain ⟨w', h3, h4⟩ := (valT_print h').re0 [] nofun
    have := PrimT.nullif (kw_lit cs!"NULLIF" hb) (tok_re0 cs!"(") h1 (tok_re0 cs!",") h3 (tok_re0 cs!")")
    exact ⟨_, by simpa [Prim.print, CaseE.print] using this, by simp [Prim.print, CaseE.print, h2, h4], by rfl⟩
  | _, _, .coalesce _ _ h _ => by
    intro b hb
    obtain ⟨v', h1, h2, -⟩ := argsT_print h [] nofun cs!"," (tok_re0 _) [] nofun
    have := PrimT.coalesce (kw_lit cs!"COALESCE" hb) (tok_re0 cs!"(") h1 (tok_re0 cs!")")
    exact ⟨_, by simpa [Prim.print, CaseE.print] using this, by simp [Prim.print, CaseE.print, h2], by rfl⟩
  | _, _, .caseOf (v := v) (ws := ws) (x := x) _ _ h hw he _ => by
    intro b hb
    obtain ⟨v', h1, h2⟩ := (valT_print h).re0 [' '] bl1
    obtain ⟨ws', s3, h3, h4, h5⟩ := whensT_print hw
    obtain ⟨x', s6, h6, h7, h8⟩ := elseT_print he
    have := PrimT.caseOf (kw_lit cs!"CASE" hb) (bf1 _) h1 h4 h7 (word_re (b := []) nofun (t := cs!"END") rfl)
    refine ⟨.case (.simple v' ws' x'), ?_, ?_, rfl⟩
    rotate_left
    · refine ⟨?_, by simp [h2, h5, h8]⟩
      show cs!"CASE " ++ v'.print fmt ++ cs!" " ++ printSimpleWhens fmt ws' ++ prElse fmt x' ++ cs!"END" =
        cs!"CASE " ++ v.print fmt ++ cs!" " ++ printSimpleWhens fmt ws ++ prElse fmt x ++ cs!"END"
      rw [h2.1, h5.1, h8.1]
    · have e : b ++ (cs!"CASE " ++ v.print fmt ++ cs!" " ++ printSimpleWhens fmt ws ++ prElse fmt x ++ cs!"END") =
          b ++ (cs!"CASE " ++ (v.print fmt ++ ((cs!" " ++ printSimpleWhens fmt ws) ++ (prElse fmt x ++ cs!"END")))) := by
        simp only [List.append_assoc]
      have e2 : [' '] ++ (prElse fmt x ++ cs!"END") = ([' '] ++ prElse fmt x) ++ cs!"END" := by simp
      show PrimT S.out (b ++ (cs!"CASE " ++ v.print fmt ++ cs!" " ++ printSimpleWhens fmt ws ++ prElse fmt x ++ cs!"END")) _
      rw [e, h3, List.append_assoc s3, e2, h6]
      simpa using this
  | _, _, .caseWhen (ws := ws) (x := x) _ hw he _ => by
    intro b hb
    obtain ⟨ws', s3, h3, h4, h5⟩ := condsT_print hw
    obtain ⟨x', s6, h6, h7, h8⟩ := elseT_print he
    have := PrimT.caseWhen (kw_lit cs!"CASE" hb) h4 h7 (word_re (b := []) nofun (t := cs!"END") rfl)
    refine ⟨.case (.searched ws' x'), ?_, ?_, rfl⟩
    rotate_left
    · refine ⟨?_, by simp [h5, h8]⟩
      show cs!"CASE " ++ printSearchedWhens fmt ws' ++ prElse fmt x' ++ cs!"END" =
        cs!"CASE " ++ printSearchedWhens fmt ws ++ prElse fmt x ++ cs!"END"
      rw [h5.1, h8.1]
    · have e : b ++ (cs!"CASE " ++ printSearchedWhens fmt ws ++ prElse fmt x ++ cs!"END") =
          b ++ (cs!"CASE" ++ ((cs!" " ++ printSearchedWhens fmt ws) ++ (prElse fmt x ++ cs!"END"))) := by
        simp
      have e2 : [' '] ++ (prElse fmt x ++ cs!"END") = ([' '] ++ prElse fmt x) ++ cs!"END" := by simp
      show PrimT S.out (b ++ (cs!"CASE " ++ printSearchedWhens fmt ws ++ prElse fmt x ++ cs!"END")) _
      rw [e, h3, List.append_assoc s3, e2, h6]
      simpa using this
  | _, _, .any _ _ h _ => by
    intro b hb
    obtain ⟨e', h1, h2⟩ := (valT_print h).re0 [] nofun
    have := PrimT.any (kw_lit cs!"ANY" hb) (tok_re0 cs!"(") h1 (tok_re0 cs!")")
    exact ⟨_, by simpa [Prim.print] using this, by simp [Prim.print, h2], by rfl⟩
  | _, _, .nullCast h => ReF.of fun b hb => by simpa [Prim.print] using PrimT.nullCast (kwIn_re hb h)

theorem whensT_print : ∀ {s l}, WhensT S s l → ∃ l' s', cs!" " ++ printSimpleWhens fmt l = s' ++ [' '] ∧ WhensT S.out s' l' ∧
    (printSimpleWhens fmt l' = printSimpleWhens fmt l ∧ normWhens fmt l' = normWhens fmt l)
  | _, _, .one _ _ h _ _ h' => by
    obtain ⟨v', h1, h2⟩ := (valT_print h).re0 [' '] bl1
    obtain ⟨w', h3, h4⟩ := (valT_print h').re0 [' '] bl1
    have := WhensT.one (word_re (b := []) nofun (t := cs!"WHEN") rfl) (bf1 _) h1 (word_re (b := []) nofun (t := cs!"THEN") rfl) (bf1 _) h3
    exact ⟨_, _, by simp [printSimpleWhens, SimpleWhen.print, CaseResult.print], this,
      by simp [printSimpleWhens, SimpleWhen.print, CaseResult.print, h2, h4]⟩
  | _, _, .cons _ _ h _ _ h' ht => by
    obtain ⟨v', h1, h2⟩ := (valT_print h).re0 [' '] bl1
    obtain ⟨w', h3, h4⟩ := (valT_print h').re0 [' '] bl1
    obtain ⟨l', s', h5, h6, h7⟩ := whensT_print ht
    have := WhensT.cons (word_re (b := []) nofun (t := cs!"WHEN") rfl) (bf1 _) h1 (word_re (b := []) nofun (t := cs!"THEN") rfl) (bf1 _) h3 h6
    refine ⟨_, _, ?_, this, by simp [printSimpleWhens, SimpleWhen.print, CaseResult.print, h2, h4, h7]⟩
    simp only [printSimpleWhens, SimpleWhen.print, CaseResult.print, List.append_assoc]
    rw [h5]
    simp

theorem condsT_print : ∀ {s l}, CondsT S s l → ∃ l' s', cs!" " ++ printSearchedWhens fmt l = s' ++ [' '] ∧ CondsT S.out s' l' ∧
    (printSearchedWhens fmt l' = printSearchedWhens fmt l ∧ normConds fmt l' = normConds fmt l)
  | _, _, .one _ _ h _ _ h' => by
    obtain ⟨v', h1, h2⟩ := condT_print h [' '] bl1
    obtain ⟨w', h3, h4⟩ := (valT_print h').re0 [' '] bl1
    have := CondsT.one (word_re (b := []) nofun (t := cs!"WHEN") rfl) (bf1 _) h1 (word_re (b := []) nofun (t := cs!"THEN") rfl) (bf1 _) h3
    exact ⟨_, _, by simp [printSearchedWhens, SearchedWhen.print, CaseResult.print], this,
      by simp [printSearchedWhens, SearchedWhen.print, CaseResult.print, h2, h4]⟩
  | _, _, .cons _ _ h _ _ h' ht => by
    obtain ⟨v', h1, h2⟩ := condT_print h [' '] bl1
    obtain ⟨w', h3, h4⟩ := (valT_print h').re0 [' '] bl1
    obtain ⟨l', s', h5, h6, h7⟩ := condsT_print ht
    have := CondsT.cons (word_re (b := []) nofun (t := cs!"WHEN") rfl) (bf1 _) h1 (word_re (b := []) nofun (t := cs!"THEN") rfl) (bf1 _) h3 h6
    refine ⟨_, _, ?_, this, by simp [printSearchedWhens, SearchedWhen.print, CaseResult.print, h2, h4, h7]⟩
    simp only [printSearchedWhens, SearchedWhen.print, CaseResult.print, List.append_assoc]
    rw [h5]
    simp

theorem elseT_print : ∀ {s x}, ElseT S s x → ∃ x' s', cs!" " ++ prElse fmt x = s' ++ [' '] ∧ ElseT S.out s' x' ∧
    (prElse fmt x' = prElse fmt x ∧ x'.norm fmt = x.norm fmt)
  | _, _, .none => ⟨CaseResult.dflt, [], by simp [prElse, CaseResult.dflt, CaseResult.isEmpty], .none, rfl, rfl⟩
  | _, _, .some (y := y) _ _ h => by
    obtain ⟨v', h1, h2⟩ := (valT_print h).re0 [' '] bl1
    have := ElseT.some (word_re (b := []) nofun (t := cs!"ELSE") rfl) (bf1 _) h1
    exact ⟨.ve v', _, by simp [prElse, CaseResult.isEmpty, CaseResult.print, valT_ne h], this,
      by simp [prElse, CaseResult.isEmpty, CaseResult.print, valT_ne h, valT_ne h1, h2]⟩

theorem fnT_print : ∀ {s v}, FnT S s v → ReF (FnT S.out) (NumFn.print fmt) (NumFn.norm fmt) (fun f => leadMarks (firstFn f)) v
  | _, _, .trig1 h _ he _ => by
    intro b hb
    obtain ⟨e', h1, h2⟩ := (valT_print he).re0 [] nofun
    have := FnT.trig1 (kwIn_re hb h) (tok_re0 cs!"(") h1 (tok_re0 cs!")")
    exact ⟨_, by simpa [NumFn.print] using this, by simp [NumFn.print, h2], by rfl⟩
  | _, _, .trig2 h _ he _ he' _ => by
    intro b hb
    obtain ⟨e', h1, h2⟩ := (valT_print he).re0 [] nofun
    obtain ⟨e'', h3, h4⟩ := (valT_print he').re0 [] nofun
    have := FnT.trig2 (kw_re hb h) (tok_re0 cs!"(") h1 (tok_re0 cs!",") h3 (tok_re0 cs!")")
    exact ⟨_, by simpa [NumFn.print] using this, by simp [NumFn.print, h2, h4], by rfl⟩
  | _, _, .math0 h _ _ => ReF.of fun b hb => by
    have := FnT.math0 (S := S.out) (kwIn_re hb h) (tok_re0 cs!"(") (tok_re0 cs!")")
    simpa [NumFn.print] using this
  | _, _, .math1 h _ he _ => by
    intro b hb
    obtain ⟨e', h1, h2⟩ := (valT_print he).re0 [] nofun
    have := FnT.math1 (kwIn_re hb h) (tok_re0 cs!"(") h1 (tok_re0 cs!")")
    exact ⟨_, by simpa [NumFn.print] using this, by simp [NumFn.print, h2], by rfl⟩
  | _, _, .math2 h _ he _ he' _ => by
    intro b hb
    obtain ⟨e', h1, h2⟩ := (valT_print he).re0 [] nofun
    obtain ⟨e'', h3, h4⟩ := (valT_print he').re0 [] nofun
    have := FnT.math2 (kwIn_re hb h) (tok_re0 cs!"(") h1 (tok_re0 cs!",") h3 (tok_re0 cs!")")
    exact ⟨_, by simpa [NumFn.print] using this, by simp [NumFn.print, h2, h4], by rfl⟩
  | _, _, .udf0 _ h _ _ => ReF.of fun b hb => by
    have := FnT.udf0 (S := S.out) (tok_re _ hb) h (tok_re0 cs!"(") (tok_re0 cs!")")
    simpa [NumFn.print, printVEs, joinSep] using this
  | _, _, .udf _ h _ he _ => by
    intro b hb
    obtain ⟨v', h1, h2, -⟩ := argsT_print he [] nofun cs!"," (tok_re0 _) [] nofun
    have := FnT.udf (tok_re _ hb) h (tok_re0 cs!"(") h1 (tok_re0 cs!")")
    exact ⟨_, by simpa [NumFn.print] using this, by simp [NumFn.print, h2], by rfl⟩
  | _, _, .udfKw0 h _ _ => ReF.of fun b hb => by
    have := FnT.udfKw0 (S := S.out) (kwIn_re hb h) (tok_re0 cs!"(") (tok_re0 cs!")")
    simpa [NumFn.print, printVEs, joinSep] using this
  | _, _, .udfKw h _ he _ => by
    intro b hb
    obtain ⟨v', h1, h2, -⟩ := argsT_print he [] nofun cs!"," (tok_re0 _) [] nofun
    have := FnT.udfKw (kwIn_re hb h) (tok_re0 cs!"(") h1 (tok_re0 cs!")")
    exact ⟨_, by simpa [NumFn.print] using this, by simp [NumFn.print, h2], by rfl⟩
  | _, _, .cast (ty := ty) _ _ he _ hk _ hl _ => by
    intro b hb
    obtain ⟨e', h1, h2⟩ := (valT_print he).re0 [] nofun
    have := FnT.cast (kw_lit cs!"CAST" hb) (tok_re0 cs!"(") h1 (word_re (b := []) nofun (t := cs!"AS") rfl) (kwIn_re bl1 hk) (bf1 _)
      (lenT_print hl) (tok_re0 cs!")")
    exact ⟨_, by simpa [NumFn.print, printCast] using this, by simp [NumFn.print, h2], by rfl⟩
  | _, _, .coord (fn := fn) h _ hx _ => by
    intro b hb
    obtain ⟨x', h1, h2⟩ := pointColT_print hfmt hx [] nofun
    have := FnT.coord (S := S.out) (kwIn_re hb h) (tok_re0 cs!"(") h1 (tok_re0 cs!")")
    have hn : fn.isEmpty = false := kwIn_ne h (by decide)
    refine ⟨.geo1 fn x', ?_, by simp [NumFn.print, h2], by rfl⟩
    simp only [NumFn.print, hn]
    simpa using this
  | _, _, .distance (fn := fn) h _ hx _ hx' _ => by
    intro b hb
    obtain ⟨x', h1, h2⟩ := pointColT_print hfmt hx [] nofun
    obtain ⟨y', h3, h4⟩ := pointColT_print hfmt hx' [] nofun
    have := FnT.distance (S := S.out) (kw_re hb h) (tok_re0 cs!"(") h1 (tok_re0 cs!",") h3 (tok_re0 cs!")")
    have hn : fn.isEmpty = false := kw_ne h (by decide)
    refine ⟨.geo2 fn x' y', ?_, by simp [NumFn.print, h2, h4], by rfl⟩
    simp only [NumFn.print, hn]
    simpa using this
  | _, _, .now h => ReF.of fun b hb => by simpa [NumFn.print] using FnT.now (kw_re hb h)

theorem argsT_print : ∀ {s v}, ArgsT S s v → ∀ b, Blanks b → ∀ m, Tok cs!"," m → ∀ e, Blanks e →
    ∃ v', ArgsT S.out (b ++ joinSep (m ++ e) (printVEs fmt v)) v' ∧ (printVEs fmt v' = printVEs fmt v ∧ normVEs fmt v' = normVEs fmt v) ∧
      leadMarks (firstArgs v') = leadMarks (firstArgs v)
  | _, _, .one h, b, hb, m, _, e, _ => by
    obtain ⟨e', h1, h2, h3⟩ := valT_print h b hb
    exact ⟨_, by simpa [printVEs, joinSep] using ArgsT.one h1, by simp [printVEs, h2], by exact h3⟩
  | _, _, .cons h _ ht, b, hb, m, hm, e, he => by
    obtain ⟨e', h1, h2, h5⟩ := valT_print h b hb
    obtain ⟨l', h3, h4, -⟩ := argsT_print ht e he m hm e he
    have := ArgsT.cons h1 hm h3
    exact ⟨_, by cases ht <;> simpa [printVEs, joinSep] using this, by simp [printVEs, h2, h4], by exact h5⟩

theorem gargsT_print : ∀ {s} {l : List GroupTerm}, GArgsT S s l → ∀ b, Blanks b →
    ∃ l', GArgsT S.out (b ++ joinSep cs!"," (printGroup fmt l)) l' ∧
      (printGroup fmt l' = printGroup fmt l ∧ normGroup fmt l' = normGroup fmt l)
  | _, _, .one h, b, hb => by
    obtain ⟨e', h1, h2⟩ := (valT_print h).re0 b hb
    exact ⟨_, by simpa [printGroup, GroupTerm.print, joinSep] using GArgsT.one h1,
      by simp [printGroup, GroupTerm.print, h2]⟩
  | _, _, .cons h _ ht, b, hb => by
    obtain ⟨e', h1, h2⟩ := (valT_print h).re0 b hb
    obtain ⟨l', h3, h4⟩ := gargsT_print ht [] nofun
    have := GArgsT.cons h1 (tok_re0 cs!",") h3
    exact ⟨_, by cases ht <;> simpa [printGroup, GroupTerm.print, joinSep] using this,
      by simp [printGroup, GroupTerm.print, h2, h4]⟩

theorem groupT_print : ∀ {s} {l : List GroupTerm}, GroupT S s l → ReO (GroupT S.out) (prGroup fmt) (normGroup fmt) l
  | _, _, .none => by
    intro b hb
    exact ⟨[], [], b, by simp [prGroup], hb, .none, rfl, rfl⟩
  | _, _, .some (l := l) _ _ _ h => by
    intro b hb
    obtain ⟨l', h1, h2⟩ := gargsT_print h [' '] bl1
    have hn := gargsT_ne h
    have hn' := gargsT_ne h1
    have := GroupT.some (word_re hb (t := cs!"GROUP") rfl) (word_re (b := []) nofun (t := cs!"BY") rfl) (bf1 _) h1
    exact ⟨l', _, [], by simp [prGroup, hn], nofun, this, by simp [prGroup, hn, hn', h2]⟩

theorem itemT_print : ∀ {s i}, ItemT S s i → Re0 (ItemT S.out) (Item.print fmt) (Item.norm fmt) i
  | _, _, .as h _ _ _ hx => by
    intro b hb
    obtain ⟨e', h1, h2⟩ := (valT_print h).re0 b hb
    have := ItemT.as h1 (word_re (b := []) nofun (t := cs!"AS") rfl) (tok_re _ bl1) (bf1 _) hx
    exact ⟨_, by simpa [Item.print] using this, by simp [Item.print, h2]⟩
  | _, _, .all _ h => Re0.of fun b hb => by
    have := ItemT.all (S := S.out) (tok_re _ hb) h
    simpa [Item.print] using this
  | _, _, .upAll _ h => Re0.of fun b hb => by
    have := ItemT.all (S := S.out) (tok_re _ hb) (Prints.up _ _ h.2)
    simpa [Item.print] using this
  | _, _, .expr h => by
    intro b hb
    obtain ⟨e', h1, h2⟩ := (valT_print h).re0 b hb
    exact ⟨_, by simpa [Item.print] using ItemT.expr h1, by simp [Item.print, h2]⟩

theorem itemsT_print : ∀ {s} {l : List Item}, ItemsT S s l → ∀ b, Blanks b →
    ∃ l', ItemsT S.out (b ++ joinSep cs!", " (printItems fmt l)) l' ∧
      (printItems fmt l' = printItems fmt l ∧ normItems fmt l' = normItems fmt l)
  | _, _, .one h, b, hb => by
    obtain ⟨e', h1, h2⟩ := itemT_print h b hb
    exact ⟨_, by simpa [printItems, joinSep] using ItemsT.one h1, by simp [printItems, h2]⟩
  | _, _, .cons h _ ht, b, hb => by
    obtain ⟨e', h1, h2⟩ := itemT_print h b hb
    obtain ⟨l', h3, h4⟩ := itemsT_print ht [' '] bl1
    have := ItemsT.cons h1 (tok_re0 cs!",") h3
    exact ⟨_, by cases ht <;> simpa [printItems, joinSep] using this, by simp [printItems, h2, h4]⟩

theorem columnsT_print : ∀ {s c}, ColumnsT S s c → Re0 (ColumnsT S.out) (Columns.print fmt) (Columns.norm fmt) c
  | _, _, .star _ => Re0.of fun b hb => by simpa [Columns.print] using ColumnsT.star (S := S.out) (tok_re cs!"*" hb)
  | _, _, .items h => by
    intro b hb
    obtain ⟨l', h1, h2⟩ := itemsT_print h b hb
    exact ⟨_, by simpa [Columns.print] using ColumnsT.items h1, by simp [Columns.print, h2]⟩

theorem condT_print : ∀ {h o s c}, CondT S h o s c → Re0 (CondT S.out h o) (SC.print fmt) (SC.norm fmt) c
  | _, _, _, .factor f, .factor hf => by
    intro b hb
    obtain ⟨f', h1, h2⟩ := bfactT_print hf b hb
    have e1 : (SC.factor f).isEmpty = false := bfactT_ne hf
    have e2 : (SC.factor f').isEmpty = false := bfactT_ne h1
    refine ⟨.factor f', ?_, ?_⟩
    · simp only [SC.print, e1]; exact .factor h1
    · simp [SC.print, e1, e2, h2]
  | _, _, _, .term f op c, .term hf hk _ hc => by
    intro b hb
    obtain ⟨f', h1, h2⟩ := bfactT_print hf b hb
    obtain ⟨c', h3, h4⟩ := condT_print hc [' '] bl1
    obtain ⟨w, hw, hk⟩ := hk
    have hw' : w ≠ [] := fun e => by subst e; revert hw; decide
    have e1 : op.isEmpty = false := kw_ne hk.1 hw'
    have hu := sameCI_upper (word_ci hk)
    have e2 : (upper op).isEmpty = false := sameCI_ne hu hw'
    have := CondT.term h1 ⟨w, hw, word_re (b := []) nofun hu⟩ (bf1 _) h3
    refine ⟨.term f' (upper op) c', ?_, ?_⟩
    · simp only [SC.print, SC.isEmpty, e1]; simpa using this
    · simp [SC.print, SC.isEmpty, e1, e2, h2, h4, upper_upper]

theorem bfactT_print : ∀ {h o g s c}, BFactT S h o g s c → Re0 (BFactT S.out h o g) (BF.print fmt) (BF.norm fmt) c
  | _, _, _, _, _, .plain hp hn => by
    intro b hb
    obtain ⟨p', h1, h2, h3⟩ := bprimT_print hp b hb
    exact ⟨.mk [] p', by simpa [BF.print] using BFactT.plain h1 fun e => (congrArg Prod.fst h3).trans (hn e), by simp [BF.print, h2]⟩
  | _, _, _, _, _, .not (n := n) hk _ hp => by
    intro b hb
    obtain ⟨p', h1, h2, -⟩ := bprimT_print hp [' '] bl1
    have e1 : n.isEmpty = false := kw_ne hk (by decide)
    have := BFactT.not (kw_re hb hk) (bf1 _) h1
    refine ⟨.mk n p', ?_, ?_⟩
    · simp only [BF.print, e1]; simpa using this
    · simp [BF.print, h2]

theorem bprimT_print : ∀ {h o g s c}, BPrimT S h o g s c → ReF (BPrimT S.out h o g) (BP.print fmt) (BP.norm fmt) (fun p => leadMarks (firstBP p)) c
  | _, _, _, _, _, .pred hp => by
    intro b hb
    obtain ⟨p', h1, h2, h3⟩ := predT_print hp b hb
    exact ⟨.pred p', by simpa [BP.print] using BPrimT.pred h1, by simp [BP.print, h2], h3⟩
  | _, _, _, _, _, .paren _ hc _ => by
    intro b hb
    obtain ⟨p', h1, h2⟩ := condT_print hc [] nofun
    have := BPrimT.paren (tok_re cs!"(" hb) h1 (tok_re0 cs!")")
    exact ⟨.sc p', by simpa [BP.print] using this, by simp [BP.print, h2], rfl⟩
  | _, _, _, _, _, .bare (v := v) h hn he => by
    intro b hb
    obtain ⟨v', h1, h2, h3⟩ := exprT_print h b hb
    refine ⟨.ve v', .bare h1 ?_ ((congrArg (fun x => x.2.2.1) h3).trans he), by simp [BP.print, h2], by exact congrArg Prod.snd h3⟩
    intro hp
    exact hn ((exprT_next h).2 ((congrArg Prod.fst h3).symm.trans ((exprT_next h1).1 hp)))

theorem predT_print : ∀ {h o g s c}, PredT S h o g s c → ReF (PredT S.out h o g) (Pred.print fmt) (Pred.norm fmt) (fun p => leadMarks (firstBP (.pred p))) c
  | _, _, _, _, _, .cmp h1 hop _ h2 => by
    intro b hb
    obtain ⟨v', t1, q1, m1⟩ := exprT_print h1 b hb
    obtain ⟨w', t2, q2⟩ := (valT_print h2).re0 [' '] bl1
    have := PredT.cmp t1 hop (tok_re _ bl1) t2
    exact ⟨_, by simpa [Pred.print] using this, by simp [Pred.print, q1, q2], by exact congrArg Prod.snd m1⟩
  | _, _, _, _, _, .between (v := v) (n := n) (lo := lo) (hi := hi) h1 hk _ _ h2 _ _ h3 => by
    intro b hb
    obtain ⟨k', e, hk1, he, hne, hk2⟩ := notT_print hk bl1 (by simp)
    obtain ⟨v', t1, q1, m1⟩ := exprT_print h1 b hb
    obtain ⟨lo', t2, q2, -⟩ := exprT_print h2 [' '] bl1
    obtain ⟨hi', t3, q3⟩ := (valT_print h3).re0 [' '] bl1
    have := PredT.between t1 hk2 (word_ne he hne (t := cs!"BETWEEN") rfl) (bf1 _)
      t2 (word_re (b := []) nofun (t := cs!"AND") rfl) (bf1 _) t3
    refine ⟨.between v' n (.nb lo') hi', ?_, ?_, by exact congrArg Prod.snd m1⟩
    rotate_left
    · simp [Pred.print, VE.print, q1, q2, q3]
    · have e' := congrArg (fun x => b ++ (v.print fmt ++ (x ++ (cs!"BETWEEN" ++ (cs!" " ++ (lo.print fmt ++ (cs!" AND" ++ (cs!" " ++ hi.print fmt)))))))) hk1
      simp only [List.append_assoc, List.cons_append, List.nil_append] at e' this
      simp only [Pred.print, VE.print, List.append_assoc, List.cons_append, List.nil_append]
      rw [e']
      exact this
  | _, _, _, _, _, .inList h1 hk _ _ hu hw hs _ => by
    intro b hb
    obtain ⟨n', k', e1, hk', e2⟩ := inT_print hk
    obtain ⟨v', t1, q1, m1⟩ := exprT_print h1 b hb
    obtain ⟨l', t2, q2, m2⟩ := argsT_print hu [] nofun cs!"," (tok_re0 _) [' '] bl1
    have := PredT.inList t1 hk' (bf1 _) (tok_re cs!"(" bl1) t2 ((congrArg (fun x => x.2.2.1) m2).trans hw)
      ((congrArg (fun x => x.2.2.2) m2).trans hs) (tok_re0 cs!")")
    rw [← e1] at this
    exact ⟨.inList v' n' l', by simpa [Pred.print] using this, by simp [Pred.print, normNot, e2, q1, q2], by exact congrArg Prod.snd m1⟩
  | _, _, _, _, _, .inSub h1 hk _ hq => by
    intro b hb
    obtain ⟨n', k', e1, hk', e2⟩ := inT_print hk
    obtain ⟨v', t1, q1, m1⟩ := exprT_print h1 b hb
    obtain ⟨q', ⟨h2, -⟩, h3⟩ := subqT_print hq [' '] bl1
    have := PredT.inSub t1 hk' (bf1 _) h2
    rw [← e1] at this
    exact ⟨.inSub v' n' q', by simpa [Pred.print] using this, by simp [Pred.print, normNot, e2, h3, q1], by exact congrArg Prod.snd m1⟩
  | _, _, _, _, _, .null (v := v) (n := n) h1 _ hk _ => by
    intro b hb
    obtain ⟨n', k', e, e1, he, hne, hk', e2⟩ := notT_print' hk bl1 (by simp)
    obtain ⟨v', t1, q1, m1⟩ := exprT_print h1 b hb
    have := PredT.null t1 (word_re (b := []) nofun (t := cs!"IS") rfl) hk' (word_ne he hne (t := cs!"NULL") rfl)
    refine ⟨.null v' n', ?_, by simp [Pred.print, normNot, e2, q1], by exact congrArg Prod.snd m1⟩
    have e' := congrArg (fun x => b ++ (v.print fmt ++ (cs!" IS" ++ (x ++ cs!"NULL")))) e1
    simp only [List.append_assoc, List.cons_append, List.nil_append] at e' this
    simp only [Pred.print, List.append_assoc, List.cons_append, List.nil_append]
    rw [e']
    exact this
  | _, _, _, _, _, .like (v := v) (n := n) (w := w) h1 hk _ _ h2 => by
    intro b hb
    obtain ⟨n', k', e, e1, he, hne, hk', e2⟩ := notT_print' hk bl1 (by simp)
    obtain ⟨v', t1, q1, m1⟩ := exprT_print h1 b hb
    obtain ⟨w', t2, q2, -⟩ := exprT_print h2 [' '] bl1
    have := PredT.like t1 hk' (word_ne he hne (t := cs!"LIKE") rfl) (bf1 _) t2
    refine ⟨.like v' n' (.nb w'), ?_, by simp [Pred.print, VE.print, normNot, e2, q1, q2], by exact congrArg Prod.snd m1⟩
    have e' := congrArg (fun x => b ++ (v.print fmt ++ (x ++ (cs!"LIKE" ++ (cs!" " ++ w.print fmt))))) e1
    have e3 : (if n.isEmpty then cs!" " else cs!" NOT ") = cs!" " ++ (if n.isEmpty then [] else cs!"NOT ") := by split <;> rfl
    simp only [Pred.print, VE.print, e3]
    simp only [List.append_assoc, List.cons_append, List.nil_append] at e' this ⊢
    rw [e']
    exact this
  | _, _, _, _, _, .exist _ _ hq => by
    intro b hb
    obtain ⟨q', ⟨h2, -⟩, h3⟩ := subqT_print hq [' '] bl1
    have := PredT.exist (kw_lit cs!"EXISTS" hb) (bf1 _) h2
    exact ⟨.exist q', by simpa [Pred.print] using this, by simp [Pred.print, h3], rfl⟩

theorem subqT_print : ∀ {s q}, SubqT S s q → Re0 (fun s x => SubqT S.out s x ∧ ∀ y, q = .qs y → ∃ z, x = .qs z) (Subquery.print fmt) (Subquery.norm fmt) q
  | _, _, .mk _ hq _ => by
    intro b hb
    obtain ⟨q', s, e, h1, he, h2, h3⟩ := queryT_print hq [] nofun
    have := SubqT.mk (tok_re cs!"(" hb) h2 (tok_re cs!")" he)
    refine ⟨.qs q', ⟨?_, fun _ _ => ⟨_, rfl⟩⟩, by simp [Subquery.print, h3]⟩
    simp only [Subquery.print, h1]
    simpa using this
  | _, _, .join _ hj w1 w2 _ => by
    intro b hb
    obtain ⟨j', s, e, h1, he, ⟨h2, hf⟩, h3⟩ := joinT_print hj [] nofun
    have := SubqT.join (tok_re cs!"(" hb) h2 (hf ▸ w1) (hf ▸ w2) (tok_re cs!")" he)
    refine ⟨.jt j', ⟨?_, fun _ e => by cases e⟩, by simp [Subquery.print, h3]⟩
    simp only [Subquery.print, h1]
    simpa using this

theorem queryT_print : ∀ {G s q}, QueryT S G s q → Re (QueryT S.out G) (QuerySpec.print fmt) (QuerySpec.norm fmt) q
  | _, _, _, .mk (l := l) (gs := gs) (c := c) (os := os) hl hg hh ho => by
    intro b hb
    obtain ⟨l', s1, e1, p1, b1, t1, q1⟩ := sfwsT_print hl b hb
    obtain ⟨g', s2, e2, p2, b2, t2, q2⟩ := groupT_print hg e1 b1
    obtain ⟨h', s3, e3, p3, b3, t3, q3⟩ := havingT_print hh e2 b2
    obtain ⟨o', s4, e4, p4, b4, t4, q4⟩ := orderT_print ho e3 b3
    have ew : With.dflt.isEmpty = true := rfl
    refine ⟨.mk With.dflt l' g' h' o', s1 ++ (s2 ++ (s3 ++ s4)), e4, ?_, b4, ?_, ?_⟩
    · show (if With.dflt.isEmpty then [] else _) ++ l.print fmt ++ prGroup fmt gs ++ prHaving fmt c ++ prOrder os = _
      rw [ew, p1]
      simp only [if_true, List.nil_append, List.append_assoc]
      rw [← List.append_assoc e1, p2, List.append_assoc, ← List.append_assoc e2, p3, List.append_assoc, p4]
    · have := QueryT.mk t1 t2 t3 t4
      simpa using this
    · refine ⟨?_, by simp [q1, q2, q3, q4]⟩
      show _ ++ l'.print fmt ++ prGroup fmt g' ++ prHaving fmt h' ++ prOrder o' =
        _ ++ l.print fmt ++ prGroup fmt gs ++ prHaving fmt c ++ prOrder os
      rw [q1.1, q2.1, q3.1, q4.1]
  | _, _, _, .with (x := x) (cs := cs) (q := q) (l' := l) (gs := gs) (c := c) (os := os) _ _ _ hx hcs _ _ hq hl hg hh ho => by
    intro b hb
    obtain ⟨q', ⟨tq, -⟩, qq⟩ := subqT_print hq [' '] bl1
    obtain ⟨l', s1, e1, p1, b1, t1, q1⟩ := sfwsT_print hl [' '] bl1
    obtain ⟨g', s2, e2, p2, b2, t2, q2⟩ := groupT_print hg e1 b1
    obtain ⟨h', s3, e3, p3, b3, t3, q3⟩ := havingT_print hh e2 b2
    obtain ⟨o', s4, e4, p4, b4, t4, q4⟩ := orderT_print ho e3 b3
    have ew : ∀ q, (With.mk x cs q).isEmpty = false := by
      intro q; simp [With.isEmpty, partT_ne hx]
    have hc : WColsT (if cs.isEmpty then [] else cs!" (" ++ joinSep cs!"," cs ++ cs!")") cs := by
      cases hcs with
      | none => exact .none
      | some _ h _ =>
        have hn : cs.isEmpty = false := by cases h <;> rfl
        have := WColsT.some (tok_re cs!"(" bl1) (namesT_print h (tok_re0 cs!",") (e := []) nofun [] nofun) (tok_re0 cs!")")
        simp only [hn]
        simpa using this
    have := QueryT.with (kw_lit cs!"WITH" hb) (tok_re x bl1) (bf1 _) hx hc (word_re (b := []) nofun (t := cs!"AS") rfl)
      (bf1 _) tq t1 t2 t3 t4
    rw [List.append_assoc b] at this
    refine ⟨.mk (.mk x cs q') l' g' h' o', _, e4, ?_, b4, this, ?_⟩
    rotate_left
    · refine ⟨?_, by simp [q1, q2, q3, q4, qq]⟩
      show (if (With.mk x cs q').isEmpty then [] else printWith x cs (q'.print fmt) ++ cs!" ") ++ l'.print fmt ++ prGroup fmt g' ++ prHaving fmt h' ++ prOrder o' =
        (if (With.mk x cs q).isEmpty then [] else printWith x cs (q.print fmt) ++ cs!" ") ++ l.print fmt ++ prGroup fmt gs ++ prHaving fmt c ++ prOrder os
      rw [q1.1, q2.1, q3.1, q4.1, qq.1, ew, ew]
    · show (if (With.mk x cs q).isEmpty then [] else printWith x cs (q.print fmt) ++ cs!" ") ++ l.print fmt ++ prGroup fmt gs ++ prHaving fmt c ++ prOrder os = _
      rw [ew, p1]
      simp only [printWith, Bool.false_eq_true, if_false, List.nil_append, List.append_assoc, List.cons_append]
      rw [← List.append_assoc e1, p2, List.append_assoc, ← List.append_assoc e2, p3, List.append_assoc, p4]

theorem havingT_print : ∀ {s c}, HavingT S s c → ReO (HavingT S.out) (prHaving fmt) (SC.norm fmt) c
  | _, _, .none => by
    intro b hb
    exact ⟨SC.dflt, [], b, by simp [prHaving, SC.dflt, SC.isEmpty, BF.isEmpty, BP.isEmpty, Pred.isEmpty], hb, .none, rfl, rfl⟩
  | _, c, .some _ _ h => by
    intro b hb
    obtain ⟨c', h1, h2⟩ := condT_print h [' '] bl1
    have := HavingT.some (word_re hb (t := cs!"HAVING") rfl) (bf1 _) h1
    exact ⟨c', _, [], by simp [prHaving, condT_ne h], nofun, this, by simp [prHaving, condT_ne h, condT_ne h1, h2]⟩

theorem sfwsT_print : ∀ {G s l}, SfwsT S G s l → Re (SfwsT S.out G) (SFWList.print fmt) (SFWList.norm fmt) l
  | _, _, _, .mk hx hl => by
    intro b hb
    obtain ⟨x', s1, e1, p1, b1, t1, q1⟩ := sfwT_print hx b hb
    obtain ⟨l', s2, e2, p2, b2, t2, q2⟩ := addonsT_print hl e1 b1
    have := SfwsT.mk t1 t2
    rw [List.append_assoc] at this
    refine ⟨.mk x' l', _, e2, ?_, b2, this, by simp [SFWList.print, q1, q2]⟩
    rw [SFWList.print, p1, List.append_assoc, p2, List.append_assoc]

theorem addonsT_print : ∀ {G s l}, AddonsT S G s l → ReO (AddonsT S.out G) (printAddons fmt) (normAddons fmt) l
  | _, _, _, .nil => by
    intro b hb
    exact ⟨[], [], b, by simp [printAddons], hb, .nil, rfl, rfl⟩
  | _, _, _, .cons (op := op) (l := l) hu _ hx hl => by
    intro b hb
    obtain ⟨w, hw, hu⟩ := hu
    obtain ⟨x', s1, e1, p1, b1, t1, q1⟩ := sfwT_print hx [' '] bl1
    obtain ⟨l', s2, e2, p2, b2, t2, q2⟩ := addonsT_print hl e1 b1
    have := AddonsT.cons ⟨w, hw, word_re hb (sameCI_upper (word_ci hu))⟩ (bf1 _) t1 t2
    refine ⟨_, _, e2, ?_, b2, this, by simp [printAddons, Addon.print, q1, q2, upper_upper]⟩
    simp only [printAddons, Addon.print, p1, List.append_assoc, List.cons_append, List.nil_append]
    rw [p2]

theorem sfwT_print : ∀ {G s x}, SfwT S G s x → Re (SfwT S.out G) (SFW.print fmt) (SFW.norm fmt) x
  | _, _, _, .mk (qt := qt) (n := n) (cs := cs) (ts := ts) (wh := wh) _ hq hp _ hc _ _ ht hw => by
    intro b hb
    obtain ⟨k1, e1, p1, b1, n1, t1⟩ := quantT_print hq bl1 (by simp)
    obtain ⟨k2, e2, p2, b2, n2, t2⟩ := topT_print hp b1 n1
    obtain ⟨cs', tc, qc⟩ := columnsT_print hc e2 b2
    obtain ⟨ts', s3, e3, p3, b3, t3, q3⟩ := tabsT_print ht [' '] bl1
    obtain ⟨wh', s4, e4, p4, b4, t4, q4⟩ := whereT_print hw e3 b3
    have := SfwT.mk (kw_lit cs!"SELECT" hb) t1 t2 (blankFirst_ne _ b2 n2) tc
      (word_re (b := []) nofun (t := cs!"FROM") rfl) (bf1 _) t3 t4
    rw [List.append_assoc b] at this
    refine ⟨_, _, e4, ?_, b4, this, ?_⟩
    · show printSelect qt n (cs.print fmt) ++ cs!" FROM " ++ prTabs fmt ts ++ prWhere fmt wh = _
      rw [p3]
      have r1 : printSelect qt n (cs.print fmt) = cs!"SELECT" ++ (k1 ++ (k2 ++ (e2 ++ cs.print fmt))) := by
        have : printSelect qt n (cs.print fmt) = cs!"SELECT" ++ (cs!" " ++ (qt ++ if qt.isEmpty then [] else cs!" ") ++
          (if n ≠ topMax then cs!"TOP " ++ decDigits n ++ cs!" " else []) ++ cs.print fmt) := by simp [printSelect]
        rw [this, p1, List.append_assoc k1, p2]
        simp
      rw [r1]
      simp only [List.append_assoc, List.cons_append, List.nil_append]
      rw [p4]
    · refine ⟨?_, by simp [q3, q4, qc]⟩
      show printSelect qt n (cs'.print fmt) ++ cs!" FROM " ++ prTabs fmt ts' ++ prWhere fmt wh' =
        printSelect qt n (cs.print fmt) ++ cs!" FROM " ++ prTabs fmt ts ++ prWhere fmt wh
      rw [q3.1, q4.1, qc.1]

theorem whereT_print : ∀ {G s x}, WhereT S G s x → ReO (WhereT S.out G) (prWhere fmt) (Where.norm fmt) x
  | _, _, _, .none => by
    intro b hb
    exact ⟨Where.dflt, [], b, by simp [prWhere, show Where.dflt.isEmpty = true from rfl], hb, .none, rfl, rfl⟩
  | G, _, _, .some (c := c) _ _ h => by
    intro b hb
    obtain ⟨c', h1, h2⟩ := condT_print h [' '] bl1
    have := WhereT.some (G := G) (word_re hb (t := cs!"WHERE") rfl) (bf1 _) h1
    have eg : Geom.dflt.isEmpty = true := rfl
    exact ⟨_, _, [], by simp [prWhere, Where.isEmpty, Where.print, eg, condT_ne h], nofun, this,
      by simp [prWhere, Where.isEmpty, Where.print, eg, condT_ne h, condT_ne h1, h2]⟩
  | _, _, _, .geom _ _ h => by
    intro b hb
    obtain ⟨g', h1, h2⟩ := geomT_print h [' '] bl1
    have := WhereT.geom (word_re hb (t := cs!"WHERE") rfl) (bf1 _) h1
    have ec : SC.dflt.isEmpty = true := rfl
    exact ⟨_, _, [], by simp [prWhere, Where.isEmpty, Where.print, ec, geomT_ne h], nofun, this,
      by simp [prWhere, Where.isEmpty, Where.print, ec, geomT_ne h, geomT_ne h1, h2]⟩
  | _, _, _, .geomAnd _ _ h _ _ hc => by
    intro b hb
    obtain ⟨g', h1, h2⟩ := geomT_print h [' '] bl1
    obtain ⟨c', h3, h4⟩ := condT_print hc [' '] bl1
    have := WhereT.geomAnd (word_re hb (t := cs!"WHERE") rfl) (bf1 _) h1 (word_re (b := []) nofun (t := cs!"AND") rfl) (bf1 _) h3
    exact ⟨_, _, [], by simp [prWhere, Where.isEmpty, Where.print, condT_ne hc, geomT_ne h], nofun, this,
      by simp [prWhere, Where.isEmpty, Where.print, condT_ne hc, condT_ne h3, geomT_ne h, geomT_ne h1, h2, h4]⟩
  | _, _, _, .geomParen _ _ _ h _ => by
    intro b hb
    obtain ⟨g', h1, h2⟩ := geomT_print h [' '] bl1
    have := WhereT.geom (word_re hb (t := cs!"WHERE") rfl) (bf1 _) h1
    have ec : SC.dflt.isEmpty = true := rfl
    exact ⟨_, _, [], by simp [prWhere, Where.isEmpty, Where.print, ec, geomT_ne h], nofun, this,
      by simp [prWhere, Where.isEmpty, Where.print, ec, geomT_ne h, geomT_ne h1, h2]⟩

theorem gpredT_print : ∀ {s p}, GPredT S s p → Re0 (GPredT S.out) (GPred.print fmt) (GPred.norm fmt) p
  | _, _, .contains _ _ h _ h' _ => by
    intro b hb
    obtain ⟨x', h1, h2⟩ := shapeColT_print hfmt h [] nofun
    obtain ⟨y', h3, h4⟩ := shapeColT_print hfmt h' [] nofun
    have := GPredT.contains (S := S.out) (kw_lit cs!"CONTAINS" hb) (tok_re0 cs!"(") h1 (tok_re0 cs!",") h3 (tok_re0 cs!")")
    exact ⟨_, by simpa [GPred.print] using this, by simp [GPred.print, h2, h4]⟩
  | _, _, .intersects _ _ h _ h' _ => by
    intro b hb
    obtain ⟨x', h1, h2⟩ := (valT_print h).re0 [] nofun
    obtain ⟨y', h3, h4⟩ := shapeColT_print hfmt h' [] nofun
    have := GPredT.intersects (kw_lit cs!"INTERSECTS" hb) (tok_re0 cs!"(") h1 (tok_re0 cs!",") h3 (tok_re0 cs!")")
    exact ⟨_, by simpa [GPred.print] using this, by simp [GPred.print, h2, h4]⟩

theorem geomT_print : ∀ {s g}, GeomT S s g → Re0 (GeomT S.out) (Geom.print fmt) (Geom.norm fmt) g
  | _, _, .left (x := x) (p := p) hx _ _ h => by
    intro b hb
    obtain ⟨p', h1, h2⟩ := gpredT_print h b hb
    have := GeomT.right h1 (tok_re0 cs!"=") hx (tok_re0 [x])
    refine ⟨.right p' x, ?_, ?_⟩
    · simp only [Geom.print, Geom.isEmpty, gpredT_ne h]; simpa using this
    · simp [Geom.print, Geom.isEmpty, gpredT_ne h, gpredT_ne h1, h2]
  | _, _, .right (x := x) (p := p) h _ hx _ => by
    intro b hb
    obtain ⟨p', h1, h2⟩ := gpredT_print h b hb
    have := GeomT.right h1 (tok_re0 cs!"=") hx (tok_re0 [x])
    refine ⟨.right p' x, ?_, ?_⟩
    · simp only [Geom.print, Geom.isEmpty, gpredT_ne h]; simpa using this
    · simp [Geom.print, Geom.isEmpty, gpredT_ne h, gpredT_ne h1, h2]
  | _, _, .bare (p := p) h => by
    intro b hb
    obtain ⟨p', h1, h2⟩ := gpredT_print h b hb
    have := GeomT.right h1 (tok_re0 cs!"=") (x := '1') (by decide) (tok_re0 ['1'])
    refine ⟨.right p' '1', ?_, ?_⟩
    · simp only [Geom.print, Geom.isEmpty, gpredT_ne h]; simpa using this
    · simp [Geom.print, Geom.isEmpty, gpredT_ne h, gpredT_ne h1, h2]

theorem tabsT_print : ∀ {s l}, TabsT S s l → Re (TabsT S.out) (prTabs fmt) (normTRs fmt) l
  | _, _, .one h => by
    intro b hb
    obtain ⟨x', s1, e1, p1, b1, ⟨t1, -⟩, q1⟩ := tabT_print h b hb
    exact ⟨[x'], s1, e1, by simp [prTabs, printTRs, joinSep, p1], b1, .one t1, by simp [prTabs, printTRs, joinSep, q1]⟩
  | _, _, .cons (t := t) (l := l) h _ ht => by
    intro b hb
    obtain ⟨x', s1, e1, p1, b1, ⟨t1, -⟩, q1⟩ := tabT_print h b hb
    obtain ⟨l', s2, e2, p2, b2, t2, q2⟩ := tabsT_print ht [' '] bl1
    have := TabsT.cons t1 (tok_re cs!"," b1) t2
    rw [List.append_assoc] at this
    have r : ∀ {M : Mode} {s} {x : TR} {l}, TabsT M s l → prTabs fmt (x :: l) = x.print fmt ++ cs!", " ++ prTabs fmt l := by
      intro M s x l h; cases h <;> rfl
    refine ⟨_, _, e2, ?_, b2, this, ?_⟩
    · rw [r ht, p1, p2]; simp
    · exact ⟨by rw [r ht, r t2, q1.1, q2.1], by simp [q1, q2]⟩

theorem tabT_print : ∀ {k s t}, TabT S k s t → Re (fun s x => TabT S.out k s x ∧ takesJoin x = takesJoin t) (TR.print fmt) (TR.norm fmt) t
  | _, _, _, .tc h => Re0.re (Re0.of fun b hb => ⟨by simpa [TR.print] using TabT.tc (S := S.out) (tcT_print h hb), rfl⟩)
  | _, _, _, .join h => by
    intro b hb
    obtain ⟨x', s1, e1, p1, b1, ⟨t1, -⟩, q1⟩ := joinT_print h b hb
    exact ⟨.jt x', s1, e1, by simpa [TR.print] using p1, b1, ⟨.join t1, rfl⟩, by simp [TR.print, q1]⟩
  | _, _, _, .derived (q := q) (x := x) h ha => by
    intro b hb
    obtain ⟨q', ⟨h1, hz⟩, h2⟩ := subqT_print h b hb
    obtain ⟨z, rfl⟩ := hz q rfl
    obtain ⟨h3, h4⟩ := newName_print ha
    have := TabT.derived h1 h3
    exact ⟨.derived (.qs z) x, (Subquery.qs q).print fmt ++ ' ' :: x, [], by simp [TR.print, h4], nofun, ⟨by simpa using this, rfl⟩,
      by simp [TR.print, h2.1], by simp only [TR.norm, h2.2]⟩
  | _, _, _, .fn (n := n) (l := l) _ hn hl _ _ => by
    intro b hb
    obtain ⟨t, h1, h2⟩ := fnArgsT_print hl
    have := TabT.fn (S := S.out) (kw_lit cs!"table(" hb) hn h2 (tok_re0 cs!"')") (tok_re0 cs!")")
    refine ⟨.tvf n l, printTVF n l, [], by simp [TR.print], nofun, ⟨?_, rfl⟩, rfl, rfl⟩
    simp only [printTVF, h1]
    simpa using this

theorem joinT_print : ∀ {k s j}, JoinT S k s j → Re (fun s x => JoinT S.out k s x ∧ firstJT x = firstJT j) (JT.print fmt) (JT.norm fmt) j
  | _, _, _, .mk (hd := hd) (l := l) h ht => by
    intro b hb
    obtain ⟨h', ⟨t1, f1⟩, q1⟩ := headT_print h b hb
    obtain ⟨l', s2, e2, p2, b2, t2, q2⟩ := sufsT_print ht [' '] bl1 (by simp)
    have := JoinT.mk t1 t2
    rw [List.append_assoc] at this
    refine ⟨_, _, e2, ?_, b2, ⟨this, f1 l' l⟩, by simp [JT.print, QJ.print, q1, q2]⟩
    simp only [JT.print, QJ.print, List.append_assoc]
    rw [p2]
  | _, _, _, .paren _ h _ => by
    intro b hb
    obtain ⟨x', s1, e1, p1, b1, ⟨t1, -⟩, q1⟩ := joinT_print h [] nofun
    have := JoinT.paren (tok_re cs!"(" hb) t1 (tok_re cs!")" b1)
    exact ⟨.wrap x', cs!"(" ++ (s1 ++ (e1 ++ cs!")")), [], by simp [JT.print, p1], nofun, ⟨by simpa using this, rfl⟩, by simp [JT.print, q1]⟩

theorem headT_print : ∀ {s h}, HeadT S s h →
    Re0 (fun s x => HeadT S.out s x ∧ ∀ l l', firstJT (.qj (.mk x l)) = firstJT (.qj (.mk h l'))) (QJHead.print fmt) (QJHead.norm fmt) h
  | _, _, .tc h => Re0.of fun b hb => ⟨by simpa [QJHead.print] using HeadT.tc (S := S.out) (tcT_print h hb), fun _ _ => rfl⟩
  | _, _, .paren _ h _ => by
    intro b hb
    obtain ⟨x', s1, e1, p1, b1, ⟨t1, -⟩, q1⟩ := joinT_print h [] nofun
    have := HeadT.paren (tok_re cs!"(" hb) t1 (tok_re cs!")" b1)
    exact ⟨_, ⟨by simpa [QJHead.print, JT.print, p1] using this, fun _ _ => rfl⟩, by simp [QJHead.print, JT.print, q1]⟩

theorem sufsT_print : ∀ {i k s l}, SufsT S i k s l → ∀ b, Blanks b → b ≠ [] →
    ∃ l' s e, b ++ printSuffixes fmt l = s ++ e ∧ Blanks e ∧ SufsT S.out i k s l' ∧
      (printSuffixes fmt l' = printSuffixes fmt l ∧ normSuffixes fmt l' = normSuffixes fmt l)
  | _, _, _, _, .one h => by
    intro b hb hn
    obtain ⟨x', s1, e1, p1, b1, t1, q1⟩ := sufT_print h b hb hn
    refine ⟨[x'], s1, e1 ++ [' '], ?_, blanks_app b1 bl1, .one t1, by simp [printSuffixes, q1]⟩
    simp only [printSuffixes, List.append_nil]
    rw [← List.append_assoc, p1, List.append_assoc]
  | _, _, _, _, .cons (x := x) (l := l) h ht ho => by
    intro b hb hn
    obtain ⟨x', s1, e1, p1, b1, t1, q1⟩ := sufT_print h b hb hn
    obtain ⟨l', s2, e2, p2, b2, t2, q2⟩ := sufsT_print ht (e1 ++ [' ']) (blanks_app b1 bl1) (by simp)
    refine ⟨x' :: l', s1 ++ s2, e2, ?_, b2, .cons t1 t2 ho, by simp [printSuffixes, q1, q2]⟩
    have e := congrArg (fun y => y ++ (cs!" " ++ printSuffixes fmt l)) p1
    have e' := congrArg (fun y => s1 ++ y) p2
    simp only [List.append_assoc] at e e'
    simp only [printSuffixes, List.append_assoc]
    rw [e, e']
  | _, _, _, _, .bare (b := f) (ty := ty) (x := x) (l := l) hn hy _ _ ht hx hu => by
    intro b hb hb'
    obtain ⟨k1, e1, p1, b1, n1, t1⟩ := natT_print hn hb hb'
    obtain ⟨k2, e2, p2, b2, t2⟩ := jtypeT_print hy b1 n1
    obtain ⟨x', s3, e3, p3, b3, ⟨t3, hx'⟩, q3⟩ := tabT_print ht [' '] bl1
    obtain ⟨l', s4, e4, p4, b4, t4, q4⟩ := sufsT_print hu (e3 ++ [' ']) (blanks_app b3 bl1) (by simp)
    have := SufsT.bare t1 t2 (word_re b2 (t := cs!"JOIN") rfl) (bf1 _) t3 (hx'.trans hx) t4
    refine ⟨_, _, e4, ?_, b4, this, ?_⟩
    · have r1 := congrArg (fun y => y ++ (ty.print ++ (cs!" JOIN " ++ (x.print fmt ++ (cs!" " ++ printSuffixes fmt l))))) p1
      have r2 := congrArg (fun y => k1 ++ (y ++ (cs!" JOIN " ++ (x.print fmt ++ (cs!" " ++ printSuffixes fmt l))))) p2
      have r3 := congrArg (fun y => y ++ (cs!" " ++ printSuffixes fmt l)) p3
      simp only [List.append_assoc, List.cons_append, List.nil_append] at r1 r2 r3 p4
      simp only [printSuffixes, JoinSuffix.print, show JoinSpec.dflt.isEmpty = true from rfl, List.append_assoc, if_true,
        List.nil_append, List.cons_append]
      rw [r1, r2, r3, p4]
    · simp [printSuffixes, JoinSuffix.print, q3, q4]

theorem sufT_print : ∀ {i k o s x}, SufT S i k o s x → ∀ b, Blanks b → b ≠ [] →
    ∃ x' s e, b ++ JoinSuffix.print fmt x = s ++ e ∧ Blanks e ∧ SufT S.out i k o s x' ∧
      (x'.print fmt = x.print fmt ∧ x'.norm fmt = x.norm fmt)
  | _, _, _, _, _, .mk (b := f) (ty := ty) (x := x) (sp := sp) hn hy _ _ ht hp hk => by
    intro b hb hb'
    obtain ⟨k1, e1, p1, b1, n1, t1⟩ := natT_print hn hb hb'
    obtain ⟨k2, e2, p2, b2, t2⟩ := jtypeT_print hy b1 n1
    obtain ⟨x', s3, e3, p3, b3, ⟨t3, -⟩, q3⟩ := tabT_print ht [' '] bl1
    obtain ⟨sp', s4, e4, p4, b4, t4, q4⟩ := specT_print hp e3 b3
    have := SufT.mk t1 t2 (word_re b2 (t := cs!"JOIN") rfl) (bf1 _) t3 t4 hk
    refine ⟨_, _, e4, ?_, b4, this, ?_⟩
    · show b ++ ((if f then cs!"NATURAL " else []) ++ ty.print ++ cs!" JOIN " ++ x.print fmt ++ prSpec fmt sp) = _
      have r1 := congrArg (fun y => y ++ (ty.print ++ (cs!" JOIN " ++ (x.print fmt ++ prSpec fmt sp)))) p1
      have r2 := congrArg (fun y => k1 ++ (y ++ (cs!" JOIN " ++ (x.print fmt ++ prSpec fmt sp)))) p2
      simp only [List.append_assoc] at r1 r2
      simp only [List.append_assoc]
      rw [r1, r2, p3]
      simp only [List.append_assoc, List.cons_append, List.nil_append]
      rw [p4]
    · refine ⟨?_, by simp [q3, q4]⟩
      show (if f then cs!"NATURAL " else []) ++ ty.print ++ cs!" JOIN " ++ x'.print fmt ++ prSpec fmt sp' =
        (if f then cs!"NATURAL " else []) ++ ty.print ++ cs!" JOIN " ++ x.print fmt ++ prSpec fmt sp
      rw [q3.1, q4.1]

theorem specT_print : ∀ {k o s x}, SpecT S k o s x → ReO (SpecT S.out k o) (prSpec fmt) (JoinSpec.norm fmt) x
  | _, _, _, _, .none => by
    intro b hb
    exact ⟨JoinSpec.dflt, [], b, by simp [prSpec, show JoinSpec.dflt.isEmpty = true from rfl], hb, .none, rfl, rfl⟩
  | _, _, _, _, .on _ _ h => by
    intro b hb
    obtain ⟨c', h1, h2⟩ := condT_print h [' '] bl1
    have := SpecT.on (word_re hb (t := cs!"ON") rfl) (bf1 _) h1
    exact ⟨.on c', _, [], by simp [prSpec, JoinSpec.isEmpty, JoinSpec.print, condT_ne h], nofun, this,
      by simp [prSpec, JoinSpec.isEmpty, JoinSpec.print, condT_ne h, condT_ne h1, h2]⟩
  | _, _, _, _, .using (l := l) _ _ _ h _ => by
    intro b hb
    have hn : l.isEmpty = false := by cases h <;> rfl
    have := SpecT.using (S := S.out) (word_re hb (t := cs!"USING") rfl) (bf1 _) (tok_re cs!"(" bl1)
      (namesT_print h (tok_re0 cs!",") bl1 [] nofun) (tok_re0 cs!")")
    exact ⟨.named l, _, [], by simp [prSpec, JoinSpec.isEmpty, JoinSpec.print, hn], nofun, this, rfl, rfl⟩

end

end Adql.Fwd
