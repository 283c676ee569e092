import Verif.Peg.Fold
import Verif.Model.FaithfulQuery

/-!
# The rules of the grammar on texts that differ only in letter case
-/

namespace Adql

open Spec P

/-! ### Character classes that do not look at letter case -/

/-- `f` does not distinguish the two cases of a letter. -/
def CaseFree (f : Char → Bool) : Prop := ∀ c d, lowerC c = lowerC d → f c = f d

theorem CaseFree.of {f : Char → Bool} (h : ∀ c, f (lowerC c) = f c) : CaseFree f := by
  intro c d e; rw [← h c, ← h d, e]

/-- neither letter case applies to `x` -/
def plainC (x : Char) : Bool := !isLetter x

theorem plainC_eq {x d : Char} (hx : plainC x = true) (h : lowerC d = lowerC x) : d = x := by
  have hx' : ¬ (65 ≤ x.toNat ∧ x.toNat ≤ 90) ∧ ¬ (97 ≤ x.toNat ∧ x.toNat ≤ 122) := by
    simp only [plainC, isLetter, Bool.not_eq_true', Bool.or_eq_false_iff, Bool.and_eq_false_iff,
      decide_eq_false_iff_not] at hx
    omega
  have e := congrArg Char.toNat h
  rw [lowerC_toNat, lowerC_toNat, if_neg hx'.1] at e
  split at e
  · omega
  · exact Char.toNat_inj.1 e

theorem caseFree_eq {x : Char} (hx : plainC x = true) : CaseFree (· == x) := by
  intro c d h
  rw [Bool.eq_iff_iff, beq_iff_eq, beq_iff_eq]
  constructor
  · rintro rfl; exact plainC_eq hx h.symm
  · rintro rfl; exact plainC_eq hx h

theorem caseFree_ne {x : Char} (hx : plainC x = true) : CaseFree (· != x) := by
  intro c d h
  exact congrArg (!·) (caseFree_eq hx c d h)

theorem CaseFree.or {f g : Char → Bool} (h : CaseFree f) (h' : CaseFree g) :
    CaseFree (fun c => f c || g c) := fun c d e => by simp only [h c d e, h' c d e]

theorem CaseFree.and {f g : Char → Bool} (h : CaseFree f) (h' : CaseFree g) :
    CaseFree (fun c => f c && g c) := fun c d e => by simp only [h c d e, h' c d e]

theorem CaseFree.not {f : Char → Bool} (h : CaseFree f) : CaseFree (fun c => !f c) :=
  fun c d e => by simp only [h c d e]

theorem caseFree_digit : CaseFree isDigit := .of fun c => by
  simp only [isDigit, lowerC_toNat]; split
  · rw [Bool.eq_iff_iff]; simp; omega
  · rfl

theorem caseFree_letter : CaseFree isLetter := .of fun c => by
  simp only [isLetter, lowerC_toNat]; split
  · rw [Bool.eq_iff_iff]; simp; omega
  · rfl

theorem caseFree_idChar : CaseFree isIdChar :=
  (caseFree_digit.or caseFree_letter).or (caseFree_eq (by decide))

theorem caseFree_pqIdChar : CaseFree isPQIdChar := caseFree_idChar.or (caseFree_eq (by decide))

theorem caseFree_space : CaseFree isSpace := fun _ _ => space_sameCI

theorem caseFree_e : CaseFree (fun c => c == 'E' || c == 'e') := .of fun c => by
  have h1 : ∀ d : Char, (d == 'E') = true ↔ d.toNat = 69 := fun d => by
    rw [beq_iff_eq, ← Char.toNat_inj]; rfl
  have h2 : ∀ d : Char, (d == 'e') = true ↔ d.toNat = 101 := fun d => by
    rw [beq_iff_eq, ← Char.toNat_inj]; rfl
  rw [Bool.eq_iff_iff, Bool.or_eq_true, Bool.or_eq_true, h1, h1, h2, h2, lowerC_toNat]
  split <;> omega

/-! ### Relations between attributes -/

/-- The printed texts differ only in letter case, and both objects are empty or neither is. -/
def Alike {α : Type} (f : α → Str) (e : α → Bool) (a b : α) : Prop := SameCI (f a) (f b) ∧ e a = e b

/-- `Alike` for strings -/
abbrev AlikeS : Str → Str → Prop := Alike id List.isEmpty

theorem alikeS {a b : Str} (h : SameCI a b) : AlikeS a b := by
  refine ⟨h, ?_⟩
  have := len_sameCI h
  cases a <;> cases b <;> simp_all

theorem map_lower_upper (a : Str) : (upper a).map lowerC = a.map lowerC := by
  have e : ∀ c, lowerC (upperC c) = lowerC c := by
    intro c
    by_cases h : 97 ≤ c.toNat ∧ c.toNat ≤ 122
    · have h1 : (upperC c).toNat = c.toNat - 32 := by
        have hv : (c.toNat - 32).isValidChar := .inl (by omega)
        simp only [upperC, h, decide_true, Bool.and_self, if_true, Char.ofNat, dif_pos hv]
        rfl
      apply Char.toNat_inj.1
      rw [lowerC_toNat, lowerC_toNat, h1, if_pos (by omega), if_neg (by omega)]; omega
    · have : upperC c = c := by
        unfold upperC; rw [if_neg]; simpa using h
      rw [this]
  simp [upper, e]

theorem ListRel.isEmpty {α : Type} {R : α → α → Prop} {l m : List α} (h : ListRel R l m) :
    l.isEmpty = m.isEmpty := by cases h <;> rfl

theorem ListRel.flat {α : Type} {R : α → α → Prop} {f : α → Str} (hR : ∀ a b, R a b → SameCI (f a) (f b))
    {l m : List α} (h : ListRel R l m) : SameCI (l.map f).flatten (m.map f).flatten := by
  induction h with
  | nil => rfl
  | cons h _ ih => exact sameCI_append (hR _ _ h) ih

theorem ListRel.join {α : Type} {R : α → α → Prop} {f : α → Str} (hR : ∀ a b, R a b → SameCI (f a) (f b))
    (sep : Str) {l m : List α} (h : ListRel R l m) :
    SameCI (joinSep sep (l.map f)) (joinSep sep (m.map f)) := by
  induction h with
  | nil => rfl
  | cons h t ih =>
    cases t with
    | nil => exact hR _ _ h
    | cons h' t =>
      simp only [List.map_cons, joinSep] at ih ⊢
      exact sameCI_append (sameCI_append (hR _ _ h) rfl) ih

/-- What is assumed of the recursive rules. -/
def FoldI (fmt : Str → Str) : (n : Rule) → Attr n → Attr n → Prop
  | .ve => Alike (VE.print fmt) VE.isEmpty
  | .venb => Alike (VENB.print fmt) VENB.isEmpty
  | .sc => Alike (SC.print fmt) SC.isEmpty
  | .subq => Alike (Subquery.print fmt) Subquery.isEmpty
  | .jt => Alike (JT.print fmt) JT.isEmpty
  | .tr => Alike (TR.print fmt) (fun _ => false)
  | .tap => fun _ _ => False

/-- texts that do not use TAP_UPLOAD -/
def NoTap (s : Str) : Prop := ¬ cs!"TAP_UPLOAD." <:+: s

theorem noTap_suffix (s t : Str) (h : t <:+ s) (hs : NoTap s) : NoTap t :=
  fun h' => hs (h'.trans h.isInfix)

section
variable {fmt : Str → Str} {α β : Type}

/-- `Fold` for the grammar -/
abbrev FoldG (fmt : Str → Str) (p : G α) (R : α → α → Prop) : Prop := Fold NoTap (FoldI fmt) p R

theorem FoldG.seq' {p : G α} {q : G β} {R : α → α → Prop} {S : β → β → Prop} (h : FoldG fmt p R)
    (h' : FoldG fmt q S) : FoldG fmt (.seq p q) (fun x y => R x.1 y.1 ∧ S x.2 y.2) :=
  Fold.seq noTap_suffix h h'
theorem FoldG.seqL' {p : G α} {q : G β} {R : α → α → Prop} {S : β → β → Prop} (h : FoldG fmt p R)
    (h' : FoldG fmt q S) : FoldG fmt (seqL p q) R := Fold.seqL noTap_suffix h h'
theorem FoldG.seqR' {p : G α} {q : G β} {R : α → α → Prop} {S : β → β → Prop} (h : FoldG fmt p R)
    (h' : FoldG fmt q S) : FoldG fmt (seqR p q) S := Fold.seqR noTap_suffix h h'
theorem FoldG.lexeme' {p : G α} {R : α → α → Prop} (h : FoldG fmt p R) : FoldG fmt (.lexeme p) R :=
  Fold.lexeme noTap_suffix h
theorem FoldG.star' {p : G α} {R : α → α → Prop} (h : FoldG fmt p R) :
    FoldG fmt (.star p) (ListRel R) := Fold.star noTap_suffix h
theorem FoldG.plus' {p : G α} {R : α → α → Prop} (h : FoldG fmt p R) :
    FoldG fmt (plus p) (ListRel R) := Fold.plus noTap_suffix h
theorem FoldG.sepBy' {p : G α} {q : G β} {R : α → α → Prop} {S : β → β → Prop} (h : FoldG fmt p R)
    (h' : FoldG fmt q S) : FoldG fmt (sepBy p q) (ListRel R) := Fold.sepBy noTap_suffix h h'

open FoldG Fold

/-! ### Helpers -/

theorem fd_kw (w : Str) : FoldG fmt (kw w) AlikeS := (Fold.lit (.inl rfl)).imp fun _ _ => alikeS

theorem fd_sym {w : Str} (hw : w.all plainC = true) : FoldG fmt (sym w) AlikeS :=
  (Fold.lit (.inr fun c hc _ h => plainC_eq (List.all_eq_true.1 hw c hc) h)).imp fun _ _ => alikeS

theorem fd_chS {f : Char → Bool} (hf : CaseFree f) : FoldG fmt (chS f) AlikeS :=
  map (chr hf) fun a b h => alikeS (by simp [SameCI, h.1])

theorem fd_cat {p q : G Str} (hp : FoldG fmt p AlikeS) (hq : FoldG fmt q AlikeS) :
    FoldG fmt (cat p q) AlikeS := map (seq' hp hq) fun _ _ h => alikeS (sameCI_append h.1.1 h.2.1)

theorem fd_manyS {p : G Str} (hp : FoldG fmt p AlikeS) : FoldG fmt (manyS p) AlikeS :=
  map (star' hp) fun l m h => alikeS (by
    have := h.flat (f := id) fun _ _ h => h.1
    rwa [List.map_id, List.map_id] at this)

theorem fd_plusS {p : G Str} (hp : FoldG fmt p AlikeS) : FoldG fmt (plusS p) AlikeS :=
  fd_cat hp (fd_manyS hp)

theorem fd_optS {p : G Str} (hp : FoldG fmt p AlikeS) : FoldG fmt (optS p) AlikeS :=
  optD hp (alikeS rfl)

theorem fd_anyKw : ∀ l : List Str, FoldG fmt (anyKw l) AlikeS
  | [] => map (chr fun _ _ _ => rfl) fun a b h => alikeS (by simp [SameCI, h.1])
  | w :: l => alt (fd_kw w) (fd_anyKw l)

theorem fd_andSpace : FoldG fmt andSpace (fun _ _ => True) :=
  map (andP (chr caseFree_space)) fun _ _ _ => trivial

theorem fd_andNsSpace : FoldG fmt andNsSpace (fun _ _ => True) :=
  map (andP (noskip (chr caseFree_space))) fun _ _ _ => trivial

theorem fd_andNonId : FoldG fmt andNonId (fun _ _ => True) :=
  map (andP (chr caseFree_idChar.not)) fun _ _ _ => trivial

theorem fd_word (w : Str) : FoldG fmt (word w) AlikeS := lexeme' (seqL' (fd_kw w) fd_andSpace)
theorem fd_wordX (w : Str) : FoldG fmt (wordX w) AlikeS :=
  lexeme' (seqL' (fd_kw w) (expect fd_andSpace))

theorem fd_ve : FoldG fmt ve (Alike (VE.print fmt) VE.isEmpty) := nt (I := FoldI fmt) Rule.ve
theorem fd_venb : FoldG fmt venb (Alike (VENB.print fmt) VENB.isEmpty) := nt (I := FoldI fmt) Rule.venb
theorem fd_sc : FoldG fmt sc (Alike (SC.print fmt) SC.isEmpty) := nt (I := FoldI fmt) Rule.sc
theorem fd_subq : FoldG fmt subq (Alike (Subquery.print fmt) Subquery.isEmpty) :=
  nt (I := FoldI fmt) Rule.subq
theorem fd_jt : FoldG fmt jt (Alike (JT.print fmt) JT.isEmpty) := nt (I := FoldI fmt) Rule.jt
theorem fd_tr : FoldG fmt tr (Alike (TR.print fmt) (fun _ => false)) := nt (I := FoldI fmt) Rule.tr
theorem fd_tap {R : Str → Str → Prop} : FoldG fmt tap R :=
  (nt (I := FoldI fmt) Rule.tap).imp fun _ _ h => h.elim

/-! ### Identifiers and literals -/

theorem fd_keyword : FoldG fmt keyword AlikeS :=
  lexeme' (seqL' (alt (fd_anyKw _) (fd_anyKw _)) (notP (chr caseFree_idChar)))

theorem fd_allIdentifiers : FoldG fmt allIdentifiers AlikeS :=
  lexeme' (fd_cat (fd_chS caseFree_letter) (fd_manyS (fd_chS caseFree_idChar)))

theorem fd_regularIdentifier : FoldG fmt regularIdentifier AlikeS :=
  lexeme' (Fold.diff noTap_suffix fd_allIdentifiers fd_keyword)

theorem fd_pqIdentifier : FoldG fmt pqIdentifier AlikeS :=
  lexeme' (fd_cat (fd_chS caseFree_letter) (fd_manyS (fd_chS caseFree_pqIdChar)))

theorem fd_delimitedPart : FoldG fmt delimitedPart AlikeS :=
  lexeme' (alt (fd_chS (caseFree_ne (by decide))) (fd_sym (by decide)))

theorem fd_delimitedIdentifier : FoldG fmt delimitedIdentifier AlikeS :=
  lexeme' (fd_cat (fd_chS (caseFree_eq (by decide)))
    (fd_cat (fd_plusS fd_delimitedPart) (fd_chS (caseFree_eq (by decide)))))

theorem fd_identifier : FoldG fmt identifier AlikeS :=
  lexeme' (alt fd_regularIdentifier fd_delimitedIdentifier)

theorem fd_period : FoldG fmt period AlikeS := lexeme' (fd_chS (caseFree_eq (by decide)))

theorem fd_tableName : FoldG fmt tableName AlikeS :=
  lexeme' (alt fd_tap (alt (fd_cat fd_identifier (fd_cat fd_period
    (fd_cat fd_identifier (fd_cat fd_period fd_identifier))))
    (alt (fd_cat fd_identifier (fd_cat fd_period fd_identifier)) fd_identifier)))

theorem fd_dot : FoldG fmt (seqR (sym cs!".") identifier) AlikeS :=
  seqR' (fd_sym (by decide)) fd_identifier

theorem fd_columnReference : FoldG fmt columnReference (Alike ColRef.print ColRef.isEmpty) := by
  refine alt (map (seq' fd_identifier (seq' fd_dot (seq' fd_dot fd_dot))) ?_)
    (alt (map (seq' fd_identifier (seq' fd_dot fd_dot)) ?_)
      (alt (map (seq' (alt fd_tap fd_identifier) fd_dot) ?_) (map fd_identifier ?_)))
  all_goals
    intro a b h
    simp_all [Alike, SameCI, ColRef.print, ColRef.isEmpty]

theorem fd_unsignedInteger : FoldG fmt unsignedInteger AlikeS :=
  lexeme' (fd_plusS (fd_chS caseFree_digit))

theorem fd_exactNumeric : FoldG fmt exactNumeric AlikeS :=
  lexeme' (alt (fd_cat fd_unsignedInteger (fd_optS (fd_cat fd_period fd_unsignedInteger)))
    (fd_cat fd_period fd_unsignedInteger))

theorem caseFree_sign : CaseFree (fun c => c == '+' || c == '-') :=
  (caseFree_eq (by decide)).or (caseFree_eq (by decide))

theorem fd_sign : FoldG fmt sign AlikeS := lexeme' (fd_chS caseFree_sign)

theorem fd_signedInteger : FoldG fmt signedInteger AlikeS :=
  lexeme' (fd_cat (fd_optS fd_sign) fd_unsignedInteger)

theorem fd_approxNumeric : FoldG fmt approxNumeric AlikeS :=
  lexeme' (fd_cat fd_exactNumeric (fd_cat (fd_chS caseFree_e) fd_signedInteger))

theorem fd_unsignedNumeric : FoldG fmt unsignedNumeric AlikeS :=
  lexeme' (alt fd_approxNumeric fd_exactNumeric)

theorem fd_charRep : FoldG fmt charRep AlikeS :=
  lexeme' (alt (fd_chS (caseFree_ne (by decide))) (fd_sym (by decide)))

theorem fd_quote : FoldG fmt quote AlikeS := lexeme' (fd_chS (caseFree_eq (by decide)))

theorem fd_comment : FoldG fmt comment AlikeS :=
  lexeme' (fd_cat (fd_cat (fd_chS (caseFree_eq (by decide)))
    (fd_plusS (fd_chS (caseFree_eq (by decide)))))
    (fd_cat (fd_manyS (fd_chS (caseFree_ne (by decide)))) (fd_chS (caseFree_eq (by decide)))))

theorem fd_separator : FoldG fmt separator AlikeS :=
  lexeme' (alt fd_comment (alt (fd_chS (caseFree_eq (by decide))) (fd_chS (caseFree_eq (by decide)))))

theorem fd_charString : FoldG fmt charString AlikeS :=
  lexeme' (fd_cat (fd_cat fd_quote (fd_cat (fd_manyS fd_charRep) fd_quote))
    (fd_manyS (fd_cat (fd_plusS fd_separator)
      (fd_cat fd_quote (fd_cat (fd_manyS fd_charRep) fd_quote)))))

theorem fd_booleanLiteral : FoldG fmt booleanLiteral AlikeS := lexeme' (alt (fd_kw _) (fd_kw _))

theorem fd_generalLiteral : FoldG fmt generalLiteral AlikeS :=
  lexeme' (alt fd_charString fd_booleanLiteral)

theorem fd_unsignedLiteral : FoldG fmt unsignedLiteral AlikeS :=
  lexeme' (alt fd_unsignedNumeric fd_generalLiteral)

theorem fd_double : FoldG fmt double AlikeS := by
  have dg : FoldG fmt (chS isDigit) AlikeS := fd_chS caseFree_digit
  have dot : FoldG fmt (chS (· == '.')) AlikeS := fd_chS (caseFree_eq (by decide))
  have sg : FoldG fmt (chS fun c => c == '+' || c == '-') AlikeS := fd_chS caseFree_sign
  exact lexeme' (fd_cat (fd_optS sg)
    (alt (fd_cat (alt (fd_cat (fd_plusS dg) (fd_optS (fd_cat dot (fd_manyS dg))))
        (fd_cat dot (fd_plusS dg)))
        (fd_optS (fd_cat (fd_chS caseFree_e) (fd_cat (fd_optS sg) (fd_plusS dg)))))
      (alt (fd_cat (fd_kw _) (fd_optS (fd_cat (fd_chS (caseFree_eq (by decide)))
          (fd_cat (fd_manyS (fd_chS (caseFree_ne (by decide)))) (fd_chS (caseFree_eq (by decide)))))))
        (fd_cat (fd_kw _) (fd_optS (fd_kw _))))))


/-! ### Geometry -/

section
variable (hfmt : ∀ x y, SameCI x y → SameCI (fmt x) (fmt y))

theorem fd_referenceFrame : FoldG fmt referenceFrame Eq :=
  alt (map (fd_kw _) fun _ _ _ => rfl) (alt (map (fd_kw _) fun _ _ _ => rfl)
    (map (fd_kw _) fun _ _ _ => rfl))

theorem fd_referencePosition : FoldG fmt referencePosition Eq := map (fd_kw _) fun _ _ _ => rfl

theorem fd_coordSys : FoldG fmt coordSys Eq :=
  map (seqR' (fd_sym (by decide)) (seqL' (seq' (optD fd_referenceFrame rfl)
    (optD fd_referencePosition rfl)) (fd_sym (by decide)))) fun a b h => by rw [h.1, h.2]

theorem fd_optCoordSys : FoldG fmt optCoordSys Eq :=
  optD (seqL' fd_coordSys (expect (fd_sym (by decide)))) rfl

/-- A character that is not a letter is the same in both texts. -/
theorem fd_plainChr {f : Char → Bool} (hf : CaseFree f) (hp : ∀ c, f c = true → plainC c = true) :
    FoldG fmt (.chr f) Eq := (chr hf).imp fun c d h => plainC_eq (hp d h.2.2) h.1

theorem fd_arithOp : FoldG fmt arithOp Eq :=
  lexeme' (fd_plainChr ((((caseFree_eq (by decide)).or (caseFree_eq (by decide))).or
    (caseFree_eq (by decide))).or (caseFree_eq (by decide))) fun c h => by
      simp only [Bool.or_eq_true, beq_iff_eq] at h
      rcases h with ((rfl | rfl) | rfl) | rfl <;> rfl)

theorem fd_charFlag : FoldG fmt charFlag Eq :=
  lexeme' (fd_plainChr ((caseFree_eq (by decide)).or (caseFree_eq (by decide))) fun c h => by
      simp only [Bool.or_eq_true, beq_iff_eq] at h
      rcases h with rfl | rfl <;> rfl)

include hfmt

theorem fd_coordExpr : FoldG fmt coordExpr (Alike (CoordExpr.print fmt) CoordExpr.isEmpty) := by
  refine alt (map (seq' fd_double (seq' fd_arithOp fd_double)) ?_)
    (alt (map fd_columnReference ?_) (map fd_double ?_))
  · rintro ⟨a, o, b⟩ ⟨a', o', b'⟩ ⟨h1, h2, h3⟩
    refine ⟨sameCI_append (sameCI_append (hfmt _ _ h1.1) ?_) (hfmt _ _ h3.1), rfl⟩
    simp only [SameCI]; rw [show o = o' from h2]
  · intro a b h; exact ⟨h.1, rfl⟩
  · intro a b h; exact ⟨hfmt _ _ h.1, rfl⟩

theorem fd_coord : FoldG fmt coord (Alike (Coord.print fmt) Coord.isEmpty) :=
  map (seq' (fd_coordExpr hfmt) (seqR' (fd_sym (by decide)) (fd_coordExpr hfmt))) fun a b h => by
    simp_all [Alike, SameCI, Coord.print, Coord.isEmpty]

theorem fd_xCoordExpr : FoldG fmt xCoordExpr (Alike (CoordExpr.print fmt) CoordExpr.isEmpty) :=
  seqR' (expect (fd_sym (by decide))) (expect (fd_coordExpr hfmt))

omit hfmt in
theorem fd_shapeHead (w : Str) : FoldG fmt (shapeHead w) Eq :=
  seqR' (fd_kw w) (seqR' (fd_sym (by decide)) fd_optCoordSys)

omit hfmt in
theorem fd_xClose : FoldG fmt xClose AlikeS := expect (fd_sym (by decide))

theorem fd_point : FoldG fmt point (Alike (Point.print fmt) Point.isEmpty) :=
  map (seq' (fd_shapeHead _) (seqL' (expect (fd_coord hfmt)) fd_xClose)) fun a b h => by
    simp_all [Alike, SameCI, Point.print, Point.isEmpty]

theorem fd_circle : FoldG fmt circle (Alike (Shape.print fmt) Shape.isEmpty) :=
  map (seq' (fd_shapeHead _) (seq' (expect (fd_coord hfmt)) (seqL' (fd_xCoordExpr hfmt) fd_xClose)))
    fun a b h => by simp_all [Alike, SameCI, Shape.print, Shape.isEmpty]

theorem fd_ellipse : FoldG fmt ellipse (Alike (Shape.print fmt) Shape.isEmpty) :=
  map (seq' (fd_shapeHead _) (seq' (expect (fd_coord hfmt)) (seq' (fd_xCoordExpr hfmt)
    (seq' (fd_xCoordExpr hfmt) (seqL' (fd_xCoordExpr hfmt) fd_xClose)))))
    fun a b h => by simp_all [Alike, SameCI, Shape.print, Shape.isEmpty]

theorem fd_box : FoldG fmt box (Alike (Shape.print fmt) Shape.isEmpty) :=
  map (seq' (fd_shapeHead _) (seq' (expect (fd_coord hfmt)) (seq' (fd_xCoordExpr hfmt)
    (seqL' (fd_xCoordExpr hfmt) fd_xClose))))
    fun a b h => by simp_all [Alike, SameCI, Shape.print, Shape.isEmpty]

omit hfmt in
theorem printPolyCoords_flat (l : List Coord) :
    printPolyCoords fmt l = (l.map fun c => cs!"," ++ c.print fmt).flatten := by
  induction l with
  | nil => rfl
  | cons c l ih => simp [printPolyCoords, ih]

theorem fd_polygon : FoldG fmt polygon (Alike (Shape.print fmt) Shape.isEmpty) :=
  map (seq' (fd_shapeHead _) (seqL' (expect (sepBy' (fd_coord hfmt) (fd_sym (by decide)))) fd_xClose))
    fun a b h => by
      refine ⟨?_, ListRel.isEmpty h.2⟩
      have h2 := ListRel.flat (f := fun c => cs!"," ++ c.print fmt)
        (fun _ _ h => sameCI_append rfl h.1) h.2
      simp only [Shape.print, printPolyCoords_flat]
      rw [show a.1 = b.1 from h.1]
      exact sameCI_append (sameCI_append rfl h2) rfl

theorem fd_shape : FoldG fmt shape (Alike (Shape.print fmt) Shape.isEmpty) :=
  alt (map (fd_point hfmt) fun _ _ h => h) (alt (fd_circle hfmt) (alt (fd_box hfmt)
    (alt (fd_ellipse hfmt) (fd_polygon hfmt))))

theorem fd_pointOrColumn : FoldG fmt pointOrColumn (Alike (PointOrCol.print fmt) (fun _ => false)) :=
  alt (map (fd_point hfmt) fun _ _ h => ⟨h.1, rfl⟩) (map fd_columnReference fun _ _ h => ⟨h.1, rfl⟩)

theorem fd_shapeOrColumn : FoldG fmt shapeOrColumn (Alike (ShapeOrCol.print fmt) ShapeOrCol.isEmpty) :=
  alt (map (fd_shape hfmt) fun _ _ h => h) (map fd_columnReference fun _ _ h => h)

theorem fd_xShapeTail : FoldG fmt xShapeTail (Alike (ShapeOrCol.print fmt) ShapeOrCol.isEmpty) :=
  seqR' (expect (fd_sym (by decide))) (seqL' (expect (fd_shapeOrColumn hfmt)) fd_xClose)

theorem fd_contains : FoldG fmt contains (Alike (GPred.print fmt) GPred.isEmpty) :=
  map (seqR' (seqR' (fd_kw _) (fd_sym (by decide))) (seq' (expect (fd_shapeOrColumn hfmt))
    (fd_xShapeTail hfmt))) fun a b h => by simp_all [Alike, SameCI, GPred.print, GPred.isEmpty]

theorem fd_intersects : FoldG fmt intersects (Alike (GPred.print fmt) GPred.isEmpty) :=
  map (seqR' (seqR' (fd_kw _) (fd_sym (by decide))) (seq' (expect fd_ve)
    (fd_xShapeTail hfmt))) fun a b h => by simp_all [Alike, SameCI, GPred.print, GPred.isEmpty]

theorem fd_geometry : FoldG fmt geometry (Alike (Geom.print fmt) Geom.isEmpty) := by
  have gp : FoldG fmt geomPred (Alike (GPred.print fmt) GPred.isEmpty) :=
    alt (fd_contains hfmt) (fd_intersects hfmt)
  refine alt (map (seq' (seqL' fd_charFlag (fd_sym (by decide))) gp) ?_)
    (map (seq' gp (alt (seqR' (fd_sym (by decide)) (expect fd_charFlag)) (pure rfl))) ?_)
  · rintro ⟨a, b⟩ ⟨c, d⟩ ⟨h, h1, h2⟩
    obtain rfl : a = c := h
    simp only at h1 h2
    refine ⟨?_, h2⟩
    rcases Bool.eq_false_or_eq_true d.isEmpty with hd | hd <;>
      simp_all [Geom.print, Geom.isEmpty, SameCI]
  · rintro ⟨b, a⟩ ⟨d, c⟩ ⟨⟨h1, h2⟩, h⟩
    obtain rfl : a = c := h
    simp only at h1 h2
    refine ⟨?_, h2⟩
    rcases Bool.eq_false_or_eq_true d.isEmpty with hd | hd <;>
      simp_all [Geom.print, Geom.isEmpty, SameCI]

/-! ### Functions -/

omit hfmt in
theorem fd_xOpen : FoldG fmt xOpen AlikeS := expect (fd_sym (by decide))
omit hfmt in
theorem fd_xComma : FoldG fmt xComma AlikeS := expect (fd_sym (by decide))
omit hfmt in
theorem fd_xVe : FoldG fmt xVe (Alike (VE.print fmt) VE.isEmpty) := expect fd_ve
omit hfmt in
theorem fd_fnHead {p : G Str} (h : FoldG fmt p AlikeS) : FoldG fmt (fnHead p) AlikeS :=
  seqL' (lexeme' (seqL' h fd_andNonId)) fd_xOpen

omit hfmt in
theorem fd_trigFunction : FoldG fmt trigFunction (Alike (NumFn.print fmt) NumFn.isEmpty) := by
  refine alt (map (seq' (fd_fnHead (lexeme' (fd_anyKw _))) (seqL' fd_xVe fd_xClose)) ?_)
    (map (seq' (fd_fnHead (fd_kw _)) (seq' fd_xVe (seqR' fd_xComma (seqL' fd_xVe fd_xClose)))) ?_)
  all_goals
    intro a b h
    simp_all [Alike, SameCI, NumFn.print, NumFn.isEmpty]

omit hfmt in
theorem fd_mathFunction : FoldG fmt mathFunction (Alike (NumFn.print fmt) NumFn.isEmpty) := by
  refine alt (map (seqL' (seqL' (lexeme' (fd_anyKw _)) (fd_sym (by decide))) (fd_sym (by decide))) ?_)
    (alt (map (seq' (seqL' (lexeme' (fd_anyKw _)) (fd_sym (by decide))) (seqL' fd_ve (fd_sym (by decide)))) ?_)
      (map (seq' (seqL' (lexeme' (fd_anyKw _)) (fd_sym (by decide)))
        (seq' fd_ve (seqR' (fd_sym (by decide)) (seqL' fd_ve (fd_sym (by decide)))))) ?_))
  all_goals
    intro a b h
    simp_all [Alike, SameCI, NumFn.print, NumFn.isEmpty]

theorem fd_geoFunction : FoldG fmt geoFunction (Alike (NumFn.print fmt) NumFn.isEmpty) := by
  refine alt (map (seq' (fd_fnHead (lexeme' (fd_anyKw _)))
      (seqL' (expect (fd_pointOrColumn hfmt)) fd_xClose)) ?_)
    (map (seq' (fd_fnHead (lexeme' (fd_kw _))) (seq' (expect (fd_pointOrColumn hfmt))
      (seqR' fd_xComma (seqL' (expect (fd_pointOrColumn hfmt)) fd_xClose)))) ?_)
  all_goals
    rintro a b ⟨⟨h1, h2⟩, h3⟩
    simp only [Alike, NumFn.print, NumFn.isEmpty, h2]
    refine ⟨?_, trivial⟩
    split
    · rfl
    · simp_all [Alike, SameCI]

omit hfmt in
theorem fd_castFunction : FoldG fmt castFunction (Alike (NumFn.print fmt) NumFn.isEmpty) := by
  refine map (seqR' (seqR' (fd_kw _) (fd_sym (by decide)))
    (seq' (seqL' fd_ve (seq' fd_andNsSpace (seq' (fd_kw _) fd_andNsSpace)))
      (seq' (lexeme' (fd_anyKw _)) (seqL' (fd_optS (seqR' (fd_sym (by decide))
        (seqL' (expect fd_unsignedInteger) fd_xClose))) (fd_sym (by decide)))))) ?_
  rintro a b ⟨⟨h1, h2⟩, ⟨h3, h4⟩, h5, h6⟩
  simp only [Alike, NumFn.print, NumFn.isEmpty, printCast, h6]
  refine ⟨?_, h4⟩
  split <;> simp_all [SameCI]

omit hfmt in
theorem fd_udfName : FoldG fmt udfName AlikeS := lexeme' (alt fd_regularIdentifier (fd_anyKw _))

omit hfmt in
theorem sameCI_ves {sep : Str} {l m : List VE} (h : ListRel (Alike (VE.print fmt) VE.isEmpty) l m) :
    SameCI (joinSep sep (printVEs fmt l)) (joinSep sep (printVEs fmt m)) := by
  rw [printVEs_eq, printVEs_eq]; exact h.join (fun _ _ h => h.1) sep

omit hfmt in
theorem fd_userDefinedFunction : FoldG fmt userDefinedFunction (Alike (NumFn.print fmt) NumFn.isEmpty) :=
  map (seq' (seqL' fd_udfName (fd_sym (by decide)))
    (seqL' (optD (sepBy' fd_ve (fd_sym (by decide))) .nil) (fd_sym (by decide)))) fun a b h => by
      refine ⟨sameCI_append (sameCI_append (sameCI_append h.1.1 rfl) (sameCI_ves h.2)) rfl, h.1.2⟩

theorem fd_numericValueFunction :
    FoldG fmt numericValueFunction (Alike (NumFn.print fmt) NumFn.isEmpty) :=
  alt fd_trigFunction (alt fd_mathFunction (alt fd_castFunction (alt (fd_geoFunction hfmt)
    (alt fd_userDefinedFunction (map (lexeme' (fd_kw _)) fun _ _ h => h)))))

/-! ### Factors and value expressions -/

omit hfmt

theorem fd_setQuantifier : FoldG fmt setQuantifier AlikeS :=
  lexeme' (lexeme' (seqL' (alt (fd_kw _) (fd_kw _)) fd_andSpace))

theorem fd_countStar : FoldG fmt countStar AlikeS :=
  fd_cat (fd_kw _) (fd_cat (fd_chS (caseFree_eq (by decide))) (fd_cat (fd_chS (caseFree_eq (by decide)))
    (expect (fd_chS (caseFree_eq (by decide))))))

theorem fd_generalSetFunction : FoldG fmt generalSetFunction (Alike (Prim.print fmt) Prim.isEmpty) :=
  map (seq' (seqL' (lexeme' (fd_anyKw _)) (fd_sym (by decide)))
    (seqL' (expect (seq' (fd_optS fd_setQuantifier) fd_ve)) fd_xClose)) fun a b h => by
      obtain ⟨⟨h1, h2⟩, ⟨h3, h4⟩, h5, h6⟩ := h
      simp only [Alike, Prim.print, Prim.isEmpty, h4]
      refine ⟨?_, h2⟩
      split <;> simp_all [SameCI]

theorem fd_nullLiteral : FoldG fmt nullLiteral AlikeS := lexeme' (fd_kw _)

theorem fd_caseResult : FoldG fmt caseResult (Alike (CaseResult.print fmt) CaseResult.isEmpty) := by
  refine alt (map fd_ve ?_) (map fd_nullLiteral ?_)
  all_goals
    intro a b h
    simp_all [Alike, SameCI, CaseResult.print, CaseResult.isEmpty]

theorem fd_simpleWhen : FoldG fmt simpleWhen (Alike (SimpleWhen.print fmt) (fun _ => false)) :=
  map (seqR' (seq' (fd_kw _) fd_andNsSpace) (seq' (expect (seqL' fd_ve (fd_kw _)))
    (seqR' (expect fd_andNsSpace) (expect fd_caseResult)))) fun a b h => by
      simp_all [Alike, SameCI, SimpleWhen.print]

theorem fd_searchedWhen : FoldG fmt searchedWhen (Alike (SearchedWhen.print fmt) (fun _ => false)) :=
  map (seqR' (seq' (fd_kw _) fd_andNsSpace) (seq' (seqL' fd_sc (seq' (fd_kw _) fd_andNsSpace))
    fd_caseResult)) fun a b h => by
      simp_all [Alike, SameCI, SearchedWhen.print]

theorem fd_elseClause : FoldG fmt elseClause (Alike (CaseResult.print fmt) CaseResult.isEmpty) :=
  seqR' (seq' (fd_kw _) fd_andNsSpace) fd_caseResult

theorem printSimpleWhens_flat (l : List SimpleWhen) :
    printSimpleWhens fmt l = (l.map fun w => w.print fmt ++ cs!" ").flatten := by
  induction l with
  | nil => simp [printSimpleWhens]
  | cons c l ih => simp [printSimpleWhens, ih]

theorem printSearchedWhens_flat (l : List SearchedWhen) :
    printSearchedWhens fmt l = (l.map fun w => w.print fmt ++ cs!" ").flatten := by
  induction l with
  | nil => simp [printSearchedWhens]
  | cons c l ih => simp [printSearchedWhens, ih]

theorem fd_simpleCase : FoldG fmt simpleCase (Alike (CaseE.print fmt) CaseE.isEmpty) :=
  map (seqL' (seq' fd_ve (seq' (plus' fd_simpleWhen) (optD fd_elseClause ⟨rfl, rfl⟩)))
    (expect (fd_kw _))) fun a b h => by
      obtain ⟨⟨h1, h2⟩, h3, h4, h5⟩ := h
      have h3 := ListRel.flat (f := fun w => w.print fmt ++ cs!" ") (fun _ _ h => sameCI_append h.1 rfl) h3
      simp only [Alike, CaseE.print, CaseE.isEmpty, printSimpleWhens_flat, h5]
      refine ⟨?_, h2⟩
      split <;> simp_all [SameCI]

theorem fd_searchedCase : FoldG fmt searchedCase (Alike (CaseE.print fmt) CaseE.isEmpty) :=
  map (seq' (plus' fd_searchedWhen) (seqL' (optD fd_elseClause ⟨rfl, rfl⟩)
    (seq' fd_andNsSpace (fd_kw _)))) fun a b h => by
      obtain ⟨h3, h4, h5⟩ := h
      have h6 := ListRel.isEmpty h3
      have h3 := ListRel.flat (f := fun w => w.print fmt ++ cs!" ") (fun _ _ h => sameCI_append h.1 rfl) h3
      simp only [Alike, CaseE.print, CaseE.isEmpty, printSearchedWhens_flat, h5]
      refine ⟨?_, h6⟩
      split <;> simp_all [SameCI]

theorem fd_nullif : FoldG fmt nullif (Alike (CaseE.print fmt) CaseE.isEmpty) :=
  map (seqR' (seq' (fd_kw _) (fd_sym (by decide))) (seq' fd_ve (seqR' (fd_sym (by decide))
    (seqL' fd_ve (fd_sym (by decide)))))) fun a b h => by
      simp_all [Alike, SameCI, CaseE.print, CaseE.isEmpty]

theorem fd_coalesce : FoldG fmt coalesce (Alike (CaseE.print fmt) CaseE.isEmpty) :=
  map (seqR' (seq' (fd_kw _) (fd_sym (by decide))) (seqL' (sepBy' fd_ve (fd_sym (by decide)))
    (fd_sym (by decide)))) fun a b h =>
      ⟨sameCI_append (sameCI_append rfl (sameCI_ves h)) rfl, ListRel.isEmpty h⟩

theorem fd_caseExpression : FoldG fmt caseExpression (Alike (CaseE.print fmt) CaseE.isEmpty) :=
  alt (alt fd_nullif fd_coalesce) (seqR' (seq' (fd_kw _) fd_andNsSpace)
    (expect (alt fd_simpleCase fd_searchedCase)))

theorem fd_anyExpression : FoldG fmt anyExpression (Alike (Prim.print fmt) Prim.isEmpty) :=
  map (seqR' (seq' (fd_kw _) (fd_sym (by decide))) (seqL' fd_xVe fd_xClose)) fun a b h => by
    simp_all [Alike, SameCI, Prim.print, Prim.isEmpty]

theorem fd_valueSubexpression : FoldG fmt valueSubexpression (Alike (Prim.print fmt) Prim.isEmpty) :=
  map (seqR' (fd_sym (by decide)) (seqL' fd_ve (fd_sym (by decide)))) fun a b h => by
    simp_all [Alike, SameCI, Prim.print, Prim.isEmpty]

theorem fd_arrayConstructor : FoldG fmt arrayConstructor (Alike (Prim.print fmt) Prim.isEmpty) :=
  map (seqL' (seqR' (seq' (fd_kw _) (fd_sym (by decide))) (sepBy' fd_ve (fd_sym (by decide))))
    (expect (fd_sym (by decide)))) fun a b h =>
      ⟨sameCI_append (sameCI_append rfl (sameCI_ves h)) rfl, ListRel.isEmpty h⟩

theorem fd_primary : FoldG fmt primary (Alike (Prim.print fmt) Prim.isEmpty) :=
  alt fd_arrayConstructor (alt (map fd_unsignedLiteral fun _ _ h => h)
    (alt (map fd_columnReference fun _ _ h => h)
      (alt (alt (map fd_countStar fun _ _ h => h) fd_generalSetFunction)
        (alt (map fd_caseExpression fun _ _ h => h) (alt fd_anyExpression
          (alt (map (lexeme' (fd_anyKw _)) fun _ _ h => h) (alt (map fd_nullLiteral fun _ _ h => h)
            fd_valueSubexpression)))))))

theorem printIdx_flat (l : List VE) :
    printIdx fmt l = (l.map fun e => cs!"[" ++ e.print fmt ++ cs!"]").flatten := by
  induction l with
  | nil => simp [printIdx]
  | cons c l ih => simp [printIdx, ih]

theorem fd_valueExpressionPrimary :
    FoldG fmt valueExpressionPrimary (Alike (VEP.print fmt) VEP.isEmpty) :=
  map (seq' fd_primary (star' (seqR' (fd_sym (by decide)) (seqL' fd_ve (fd_sym (by decide)))))) fun a b h => by
    have h3 := ListRel.flat (f := fun e => cs!"[" ++ e.print fmt ++ cs!"]")
      (fun _ _ h => sameCI_append (sameCI_append rfl h.1) rfl) h.2
    simp only [Alike, VEP.print, VEP.isEmpty, printIdx_flat]
    exact ⟨sameCI_append h.1.1 h3, h.1.2⟩

include hfmt in
theorem fd_numericPrimary : FoldG fmt numericPrimary (Alike (NumPrim.print fmt) NumPrim.isEmpty) :=
  alt (map (fd_numericValueFunction hfmt) fun _ _ h => h) (map fd_valueExpressionPrimary fun _ _ h => h)

include hfmt in
theorem fd_factor : FoldG fmt factor (Alike (Factor.print fmt) Factor.isEmpty) :=
  map (seq' (fd_optS fd_sign) (fd_numericPrimary hfmt)) fun a b h => by
    simp_all [Alike, SameCI, Factor.print, Factor.isEmpty]

theorem fd_binaryOperators : FoldG fmt binaryOperators AlikeS :=
  lexeme' (alt (fd_sym (by decide)) (alt (fd_sym (by decide)) (alt (fd_sym (by decide))
    (alt (fd_sym (by decide)) (fd_sym (by decide))))))

theorem printTerms_flat (l : List Term) : printTerms fmt l = (l.map (Term.print fmt)).flatten := by
  induction l with
  | nil => simp [printTerms]
  | cons c l ih => simp [printTerms, ih]

include hfmt in
theorem fd_venbBody : FoldG fmt venbBody (Alike (VENB.print fmt) VENB.isEmpty) :=
  map (seq' (fd_factor hfmt) (star' (map (S := Alike (Term.print fmt) (fun _ => false))
    (seq' fd_binaryOperators (fd_factor hfmt)) fun a b h => by
      simp_all [Alike, SameCI, Term.print]))) fun a b h => by
    have h3 := ListRel.flat (f := Term.print fmt) (fun _ _ h => h.1) h.2
    simp only [Alike, VENB.print, VENB.isEmpty, printTerms_flat]
    exact ⟨sameCI_append h.1.1 h3, h.1.2⟩

theorem fd_veBody : FoldG fmt veBody (Alike (VE.print fmt) VE.isEmpty) :=
  alt (map fd_venb fun _ _ h => by simpa [Alike, VE.print, VE.isEmpty] using h)
    (map fd_sc fun _ _ h => by simpa [Alike, VE.print, VE.isEmpty] using h)

/-! ### Predicates and search conditions -/

theorem fd_compOp : FoldG fmt compOp AlikeS :=
  alt (fd_sym (by decide)) (alt (fd_sym (by decide)) (alt (fd_sym (by decide)) (alt (fd_sym (by decide))
    (alt (fd_sym (by decide)) (alt (fd_sym (by decide)) (fd_sym (by decide)))))))

theorem fd_comparisonPredicate : FoldG fmt comparisonPredicate (Alike (Pred.print fmt) Pred.isEmpty) :=
  map (seq' fd_venb (seq' fd_compOp fd_ve)) fun a b h => by
    simp_all [Alike, SameCI, Pred.print, Pred.isEmpty]

theorem fd_betweenPredicate : FoldG fmt betweenPredicate (Alike (Pred.print fmt) Pred.isEmpty) :=
  map (seq' fd_venb (seq' (fd_optS (fd_wordX _)) (seqR' (fd_wordX _) (seq' fd_ve
    (seqR' (fd_wordX _) fd_ve))))) fun a b h => by
      obtain ⟨⟨h1, h2⟩, ⟨h3, h4⟩, ⟨h5, h6⟩, h7, h8⟩ := h
      simp only [Alike, Pred.print, Pred.isEmpty, h4]
      refine ⟨?_, h2⟩
      split <;> simp_all [SameCI]

theorem fd_inNot : FoldG fmt inNot AlikeS :=
  fd_optS (lexeme' (fd_cat (fd_kw _) (expect (fd_chS caseFree_space))))

/-- the right side of IN -/
def inRel (fmt : Str → Str) : Subquery ⊕ List VE → Subquery ⊕ List VE → Prop
  | .inl q, .inl q' => Alike (Subquery.print fmt) Subquery.isEmpty q q'
  | .inr l, .inr l' => ListRel (Alike (VE.print fmt) VE.isEmpty) l l'
  | _, _ => False

theorem fd_inPredicate : FoldG fmt inPredicate (Alike (Pred.print fmt) Pred.isEmpty) :=
  map (seq' fd_venb (seq' fd_inNot (seqR' (fd_wordX _) (alt (R := inRel fmt)
    (map fd_subq fun _ _ h => h)
    (map (seqR' (fd_sym (by decide)) (seqL' (sepBy' fd_ve (fd_sym (by decide))) (fd_sym (by decide))))
      fun _ _ h => h))))) (by
      rintro ⟨v, n, x⟩ ⟨v', n', x'⟩ ⟨⟨h1, h2⟩, ⟨h3, h4⟩, h⟩
      cases x with
      | inl q =>
        cases x' with
        | inl q' =>
          obtain ⟨h5, h6⟩ := h
          simp only [Alike, Pred.print, Pred.isEmpty, h4]
          refine ⟨?_, h2⟩
          split <;> simp_all [SameCI]
        | inr => exact h.elim
      | inr l =>
        cases x' with
        | inl => exact h.elim
        | inr l' =>
          have h5 := sameCI_ves (sep := cs!", ") h
          simp only [Alike, Pred.print, Pred.isEmpty, h4]
          refine ⟨?_, h2⟩
          split <;> simp_all [SameCI])

theorem fd_nullPredicate : FoldG fmt nullPredicate (Alike (Pred.print fmt) Pred.isEmpty) :=
  map (seq' fd_venb (seqR' (fd_wordX _) (seqL' (fd_optS (fd_wordX _)) (fd_kw _)))) fun a b h => by
      obtain ⟨⟨h1, h2⟩, h3, h4⟩ := h
      simp only [Alike, Pred.print, Pred.isEmpty, h4]
      refine ⟨?_, h2⟩
      split <;> simp_all [SameCI]

theorem fd_likePredicate : FoldG fmt likePredicate (Alike (Pred.print fmt) Pred.isEmpty) :=
  map (seq' fd_venb (seq' (fd_optS (fd_word _)) (seqR' (fd_word _) fd_venb))) fun a b h => by
      obtain ⟨⟨h1, h2⟩, ⟨h3, h4⟩, h5, h6⟩ := h
      simp only [Alike, Pred.print, Pred.isEmpty, h4, VE.print]
      refine ⟨?_, h2⟩
      split <;> simp_all [SameCI]

theorem fd_existsPredicate : FoldG fmt existsPredicate (Alike (Pred.print fmt) Pred.isEmpty) :=
  map (seqR' (fd_wordX _) fd_subq) fun a b h => by
    simp_all [Alike, SameCI, Pred.print, Pred.isEmpty]

theorem fd_predicate : FoldG fmt predicate (Alike (Pred.print fmt) Pred.isEmpty) :=
  alt fd_comparisonPredicate (alt fd_betweenPredicate (alt fd_inPredicate (alt fd_nullPredicate
    (alt fd_likePredicate fd_existsPredicate))))

theorem fd_booleanPrimary : FoldG fmt booleanPrimary (Alike (BP.print fmt) BP.isEmpty) := by
  refine alt (map fd_predicate ?_) (alt (map (seqR' (fd_sym (by decide)) (seqL' fd_sc (fd_sym (by decide)))) ?_)
    (map fd_venb ?_))
  all_goals
    intro a b h
    simp_all [Alike, SameCI, BP.print, BP.isEmpty]

theorem fd_factorNot (residue : Bool) : FoldG fmt (factorNot residue) AlikeS := by
  refine alt (fd_word _) ?_
  split
  · exact alt (andP (lexeme' (fd_kw _))) (pure (alikeS rfl))
  · exact pure (alikeS rfl)

theorem fd_booleanFactor (residue : Bool) :
    FoldG fmt (booleanFactor residue) (Alike (BF.print fmt) BF.isEmpty) :=
  map (seq' (fd_factorNot residue) fd_booleanPrimary) fun a b h => by
      obtain ⟨⟨h1, h2⟩, h3, h4⟩ := h
      simp only [Alike, BF.print, BF.isEmpty, h2]
      refine ⟨?_, h4⟩
      split <;> simp_all [SameCI]

theorem fd_logicalOp : FoldG fmt logicalOp AlikeS :=
  lexeme' (seqL' (alt (fd_kw _) (fd_kw _)) fd_andSpace)

theorem fd_scBody (residue : Bool) : FoldG fmt (scBody residue) (Alike (SC.print fmt) SC.isEmpty) := by
  refine alt (map (seq' (fd_booleanFactor residue) (seq' fd_logicalOp fd_sc)) ?_)
    (map (fd_booleanFactor residue) ?_)
  · rintro a b ⟨⟨h1, h2⟩, ⟨h3, h4⟩, h5, h6⟩
    simp only [Alike, SC.print, SC.isEmpty, h4]
    refine ⟨?_, trivial⟩
    split <;> simp_all [SameCI, map_lower_upper]
  · rintro a b ⟨h1, h2⟩
    simp only [Alike, SC.print, SC.isEmpty, h2]
    refine ⟨?_, trivial⟩
    split <;> simp_all [SameCI]

/-! ### Tables and joins -/

theorem fd_correlationSpecification : FoldG fmt correlationSpecification AlikeS :=
  seqR' (fd_optS (fd_word _)) fd_identifier

theorem fd_tableCorrelation : FoldG fmt tableCorrelation (Alike TableCorr.print TableCorr.isEmpty) :=
  map (seq' fd_tableName (fd_optS fd_correlationSpecification)) fun a b h => by
      obtain ⟨⟨h1, h2⟩, h3, h4⟩ := h
      simp only [Alike, TableCorr.print, TableCorr.isEmpty, h4]
      refine ⟨?_, h2⟩
      split <;> simp_all [SameCI]

theorem fd_flag (w : Str) : FoldG fmt (optD false (.map (fun _ => true) (word w))) Eq :=
  optD (map (fd_word w) fun _ _ _ => rfl) rfl

theorem fd_joinType : FoldG fmt joinType (Alike JoinType.print (fun _ => false)) := by
  refine alt (map (fd_word _) ?_) (map (seq' (lexeme' (seqL' (alt (fd_kw _) (alt (fd_kw _) (fd_kw _)))
    fd_andSpace)) (fd_flag _)) ?_)
  · intro a b h; exact ⟨h.1, rfl⟩
  · rintro ⟨a, x⟩ ⟨b, y⟩ ⟨⟨h1, h2⟩, h⟩
    obtain rfl : x = y := h
    exact ⟨sameCI_append h1 rfl, rfl⟩

theorem fd_joinSpecification : FoldG fmt joinSpecification (Alike (JoinSpec.print fmt) JoinSpec.isEmpty) := by
  refine alt (map (seqR' (fd_word _) fd_sc) ?_) (map (seqR' (seq' (fd_word _) (fd_sym (by decide)))
    (seqL' (expect (sepBy' fd_identifier (fd_sym (by decide)))) fd_xClose)) ?_)
  · intro a b h; simp_all [Alike, SameCI, JoinSpec.print, JoinSpec.isEmpty]
  · intro a b h
    have h1 := ListRel.join (f := id) (fun _ _ h => h.1) cs!", " h
    simp only [List.map_id] at h1
    simp only [Alike, JoinSpec.print, JoinSpec.isEmpty]
    exact ⟨sameCI_append (sameCI_append rfl h1) rfl, ListRel.isEmpty h⟩

theorem fd_joinSuffix : FoldG fmt joinSuffix (Alike (JoinSuffix.print fmt) (fun _ => false)) :=
  map (seq' (fd_flag _) (seq' (seqL' (optD fd_joinType ⟨rfl, rfl⟩) (fd_word _))
    (expect (seq' fd_tr (optD fd_joinSpecification ⟨rfl, rfl⟩))))) (by
      rintro ⟨n, t, x, s⟩ ⟨n', t', x', s'⟩ ⟨h1, ⟨h2, -⟩, ⟨h3, -⟩, h4, h5⟩
      obtain rfl : n = n' := h1
      simp only at h2 h3 h4 h5
      simp only [Alike, JoinSuffix.print, h5]
      refine ⟨sameCI_append (sameCI_append (sameCI_append (sameCI_append rfl h2) rfl) h3) ?_, trivial⟩
      split
      · rfl
      · exact sameCI_append rfl h4)

theorem fd_parenJoined : FoldG fmt parenJoined (Alike (JT.print fmt) JT.isEmpty) :=
  seqR' (fd_sym (by decide)) (seqL' fd_jt (fd_sym (by decide)))

theorem printSuffixes_flat (l : List JoinSuffix) :
    printSuffixes fmt l = (l.map fun s => s.print fmt ++ cs!" ").flatten := by
  induction l with
  | nil => simp [printSuffixes]
  | cons c l ih => simp [printSuffixes, ih]

theorem fd_qualifiedJoin : FoldG fmt qualifiedJoin (Alike (QJ.print fmt) QJ.isEmpty) :=
  map (seq' (alt (R := Alike (QJHead.print fmt) QJHead.isEmpty) (map fd_parenJoined fun _ _ h => by
      simp_all [Alike, SameCI, QJHead.print, QJHead.isEmpty, JT.print, JT.isEmpty])
    (map fd_tableCorrelation fun _ _ h => by
      simp_all [Alike, SameCI, QJHead.print, QJHead.isEmpty])) (plus' fd_joinSuffix)) fun a b h => by
    have h3 := ListRel.flat (f := fun s => s.print fmt ++ cs!" ") (fun _ _ h => sameCI_append h.1 rfl) h.2
    simp only [Alike, QJ.print, QJ.isEmpty, printSuffixes_flat]
    exact ⟨sameCI_append (sameCI_append h.1.1 rfl) h3, h.1.2⟩

theorem fd_jtBody : FoldG fmt jtBody (Alike (JT.print fmt) JT.isEmpty) := by
  refine alt (map fd_qualifiedJoin ?_) (map fd_parenJoined ?_)
  all_goals
    intro a b h
    simp_all [Alike, SameCI, JT.print, JT.isEmpty]

theorem fd_derivedCorrelation : FoldG fmt derivedCorrelation (Alike (TR.print fmt) (fun _ => false)) :=
  map (seq' fd_subq fd_correlationSpecification) fun a b h => by
      obtain ⟨⟨h1, h2⟩, h3, h4⟩ := h
      simp only [Alike, TR.print, h4]
      refine ⟨?_, trivial⟩
      split <;> simp_all [SameCI]

theorem fd_tableValuedFunction : FoldG fmt tableValuedFunction (Alike (TR.print fmt) (fun _ => false)) :=
  map (seq' (lexeme' (seqR' (fd_kw _) (seqL' fd_pqIdentifier (fd_sym (by decide)))))
    (seqL' (seqL' (optD (sepBy' fd_pqIdentifier (fd_sym (by decide))) .nil) (fd_sym (by decide)))
      (fd_sym (by decide)))) fun a b h => by
      have h1 := ListRel.join (f := fun a => cs!"'" ++ a ++ cs!"'")
        (fun _ _ h => sameCI_append (sameCI_append rfl h.1) rfl) cs!"," h.2
      simp only [Alike, TR.print, printTVF]
      exact ⟨sameCI_append (sameCI_append (sameCI_append (sameCI_append rfl h.1.1) rfl) h1) rfl, trivial⟩

theorem fd_trBody : FoldG fmt trBody (Alike (TR.print fmt) (fun _ => false)) :=
  alt (map fd_jt fun _ _ h => ⟨by simpa [TR.print] using h.1, rfl⟩)
    (alt (map fd_tableCorrelation fun _ _ h => ⟨by simpa [TR.print] using h.1, rfl⟩)
      (alt fd_derivedCorrelation fd_tableValuedFunction))

theorem fd_fromClause : FoldG fmt fromClause (ListRel (Alike (TR.print fmt) (fun _ => false))) :=
  seqR' (fd_wordX _) (expect (sepBy' fd_tr (fd_sym (by decide))))

/-! ### Queries -/

theorem fd_asItem : FoldG fmt asItem (Alike (Item.print fmt) (fun _ => false)) :=
  map (seq' (seqL' fd_ve (fd_word _)) (expect fd_identifier)) fun a b h => by
    simp_all [Alike, SameCI, Item.print]

theorem fd_qualifierStar : FoldG fmt qualifierStar AlikeS :=
  lexeme' (fd_cat fd_tableName (fd_sym (by decide)))

theorem fd_selectItem : FoldG fmt selectItem (Alike (Item.print fmt) (fun _ => false)) :=
  alt fd_asItem (alt (map fd_qualifierStar fun _ _ h => ⟨by simpa [Item.print] using h.1, rfl⟩)
    (map fd_ve fun _ _ h => ⟨by simpa [Item.print] using h.1, rfl⟩))

theorem fd_columns : FoldG fmt columns (Alike (Columns.print fmt) (fun _ => false)) :=
  alt (map (fd_sym (by decide)) fun _ _ h => ⟨by simpa [Columns.print] using h.1, rfl⟩)
    (map (sepBy' fd_selectItem (fd_sym (by decide))) fun a b h => by
      simp only [Alike, Columns.print, printItems_eq]
      exact ⟨ListRel.join (fun _ _ h => h.1) _ h, trivial⟩)

theorem plainC_digit {c : Char} (h : isDigit c = true) : plainC c = true := by
  simp only [isDigit, Bool.and_eq_true, decide_eq_true_eq] at h
  simp only [plainC, isLetter, Bool.not_eq_true', Bool.or_eq_false_iff, Bool.and_eq_false_iff,
    decide_eq_false_iff_not]
  omega

theorem fd_ulongLong : FoldG fmt ulongLong Eq := by
  have d1 : FoldG fmt (chS isDigit) Eq :=
    map (fd_plainChr caseFree_digit fun _ => plainC_digit) fun a b h => by rw [h]
  have d2 : FoldG fmt (manyS (chS isDigit)) Eq := map (star' d1) fun l m h => by
    congr 1
    induction h with
    | nil => rfl
    | cons h _ ih => rw [h, ih]
  have d3 : FoldG fmt (plusS (chS isDigit)) Eq := map (seq' d1 d2) fun a b h => by
    rw [show a.1 = b.1 from h.1, show a.2 = b.2 from h.2]
  refine act (lexeme' d3) ?_
  rintro a b rfl
  by_cases h : digitsVal a ≤ topMax
  · exact .inl ⟨_, _, if_pos h, if_pos h, rfl⟩
  · exact .inr ⟨if_neg h, if_neg h⟩

theorem fd_topClause : FoldG fmt topClause Eq :=
  optD (seqR' (fd_word _) (expect (lexeme' (seqL' fd_ulongLong (expect fd_andSpace))))) rfl

theorem fd_select : FoldG fmt select (Alike (Select.print fmt) (fun _ => false)) :=
  map (seqR' (fd_wordX _) (seq' (fd_optS fd_setQuantifier) (seq' fd_topClause (expect fd_columns)))) (by
    rintro ⟨q, t, c⟩ ⟨q', t', c'⟩ ⟨⟨h1, h2⟩, h3, h4, -⟩
    obtain rfl : t = t' := h3
    simp only at h2
    simp only [Alike, Select.print, printSelect, h2]
    refine ⟨?_, trivial⟩
    exact sameCI_append (sameCI_append (sameCI_append (sameCI_append rfl h1) rfl) rfl) h4)

include hfmt in
theorem fd_whereClause : FoldG fmt whereClause (Alike (Where.print fmt) Where.isEmpty) := by
  refine seqR' (fd_wordX _) (expect (alt (map (seq' (fd_geometry hfmt)
      (optD (R := Alike (SC.print fmt) SC.isEmpty) (seqR' (fd_kw _) (expect fd_sc)) ⟨rfl, rfl⟩)) ?_)
    (alt (map (seqR' (fd_sym (by decide)) (seqL' (fd_geometry hfmt) fd_xClose)) ?_) (map fd_sc ?_))))
  · rintro a b ⟨⟨h1, h2⟩, h3, h4⟩
    simp only [Alike, Where.print, Where.isEmpty, h2, h4]
    refine ⟨?_, trivial⟩
    split
    · refine sameCI_append h1 ?_
      split
      · exact sameCI_append rfl h3
      · rfl
    · split
      · exact h3
      · rfl
  · rintro a b ⟨h1, h2⟩
    simp only [Alike, Where.print, Where.isEmpty, h2]
    refine ⟨?_, trivial⟩
    split
    · exact sameCI_append h1 rfl
    · rfl
  · rintro a b ⟨h3, h4⟩
    simp only [Alike, Where.print, Where.isEmpty, h4]
    refine ⟨?_, trivial⟩
    split
    · refine sameCI_append rfl ?_
      split
      · exact sameCI_append rfl h3
      · rfl
    · split
      · exact h3
      · rfl

theorem fd_whereNoGeometry : FoldG fmt whereNoGeometry (Alike (Where.print fmt) Where.isEmpty) := by
  refine map (seqR' (fd_word _) fd_sc) ?_
  rintro a b ⟨h3, h4⟩
  simp only [Alike, Where.print, Where.isEmpty, h4]
  refine ⟨?_, trivial⟩
  split
  · refine sameCI_append rfl ?_
    split
    · exact sameCI_append rfl h3
    · rfl
  · split
    · exact h3
    · rfl

theorem fd_sfwWith {w : G Where} (hw : FoldG fmt w (Alike (Where.print fmt) Where.isEmpty)) :
    FoldG fmt (sfwWith w) (Alike (SFW.print fmt) SFW.isEmpty) :=
  map (seq' fd_select (expect (seq' fd_fromClause (optD hw ⟨rfl, rfl⟩)))) (by
    rintro ⟨s, t, w⟩ ⟨s', t', w'⟩ ⟨⟨h1, -⟩, h2, h3, h4⟩
    have h5 := ListRel.join (f := TR.print fmt) (fun _ _ h => h.1) cs!", " h2
    simp only at h4
    simp only [Alike, SFW.print, SFW.isEmpty, printTRs_eq, h4]
    refine ⟨sameCI_append (sameCI_append (sameCI_append h1 rfl) h5) ?_, ListRel.isEmpty h2⟩
    split
    · rfl
    · exact sameCI_append rfl h3)

theorem fd_unionOp : FoldG fmt unionOp AlikeS :=
  lexeme' (seqL' (alt (fd_kw _) (alt (fd_kw _) (fd_kw _))) fd_andSpace)

theorem printAddons_flat (l : List Addon) : printAddons fmt l = (l.map (Addon.print fmt)).flatten := by
  induction l with
  | nil => simp [printAddons]
  | cons c l ih => simp [printAddons, ih]

theorem fd_sfwList {w : G Where} (hw : FoldG fmt w (Alike (Where.print fmt) Where.isEmpty)) :
    FoldG fmt (sfwList w) (Alike (SFWList.print fmt) SFWList.isEmpty) :=
  map (seq' (fd_sfwWith hw) (star' (map (S := Alike (Addon.print fmt) (fun _ => false))
    (seq' fd_unionOp (fd_sfwWith hw)) fun a b h => by
      simp_all [Alike, SameCI, Addon.print, map_lower_upper]))) fun a b h => by
    have h3 := ListRel.flat (f := Addon.print fmt) (fun _ _ h => h.1) h.2
    simp only [Alike, SFWList.print, SFWList.isEmpty, printAddons_flat]
    exact ⟨sameCI_append h.1.1 h3, h.1.2⟩

theorem fd_groupByTerm : FoldG fmt groupByTerm (Alike (GroupTerm.print fmt) (fun _ => false)) :=
  alt (map fd_ve fun _ _ h => ⟨by simpa [GroupTerm.print] using h.1, rfl⟩)
    (map fd_columnReference fun _ _ h => ⟨by simpa [GroupTerm.print] using h.1, rfl⟩)

theorem fd_groupBy : FoldG fmt groupBy (ListRel (Alike (GroupTerm.print fmt) (fun _ => false))) :=
  seqR' (fd_wordX _) (seqR' (expect (fd_wordX _)) (expect (sepBy' fd_groupByTerm (fd_sym (by decide)))))

theorem fd_having : FoldG fmt having (Alike (SC.print fmt) SC.isEmpty) :=
  seqR' (fd_wordX _) (expect fd_sc)

/-- printed sort key -/
def keyPrint : Str ⊕ ColRef → Str
  | .inl k => k
  | .inr c => c.print

theorem fd_sortSpecification : FoldG fmt sortSpecification (Alike SortSpec.print (fun _ => false)) :=
  map (seq' (alt (R := Alike keyPrint (fun _ => false)) (map fd_columnReference fun _ _ h => ⟨h.1, rfl⟩)
    (map fd_unsignedInteger fun _ _ h => ⟨h.1, rfl⟩))
    (fd_optS (lexeme' (alt (fd_kw _) (fd_kw _))))) (by
      rintro ⟨k, o⟩ ⟨k', o'⟩ ⟨⟨h1, -⟩, h2, h3⟩
      have e : ∀ k o, SortSpec.print ⟨k, o⟩ = keyPrint k ++ (if o.isEmpty then [] else cs!" " ++ o) := by
        intro k o; cases k <;> rfl
      simp only at h3
      simp only [Alike, e, h3]
      refine ⟨sameCI_append h1 ?_, trivial⟩
      split
      · rfl
      · exact sameCI_append rfl h2)

theorem fd_orderBy : FoldG fmt orderBy (ListRel (Alike SortSpec.print (fun _ => false))) :=
  seqR' (fd_wordX _) (seqR' (fd_wordX _) (sepBy' fd_sortSpecification (fd_sym (by decide))))

theorem fd_withClause : FoldG fmt withClause (Alike (With.print fmt) With.isEmpty) :=
  map (seqR' (fd_wordX _) (seq' (expect fd_identifier) (seq' (expect
    (seqL' (optD (seqR' (fd_sym (by decide)) (seqL' (sepBy' fd_identifier (fd_sym (by decide))) fd_xClose)) .nil)
      (fd_optS (fd_wordX _)))) (expect fd_subq)))) (by
      rintro ⟨n, l, q⟩ ⟨n', l', q'⟩ ⟨⟨h1, h2⟩, h3, h4, h5⟩
      have h6 := ListRel.join (f := id) (fun _ _ h => h.1) cs!"," h3
      have h7 := ListRel.isEmpty h3
      simp only [List.map_id] at h6
      simp only at h2 h5 h7
      simp only [Alike, With.print, With.isEmpty, printWith, h2, h5, h7]
      refine ⟨?_, trivial⟩
      refine sameCI_append (sameCI_append (sameCI_append (sameCI_append rfl h1) ?_) rfl) h4
      split
      · rfl
      · exact sameCI_append (sameCI_append rfl h6) rfl)

theorem fd_queryWith {w : G Where} (hw : FoldG fmt w (Alike (Where.print fmt) Where.isEmpty)) :
    FoldG fmt (queryWith w) (Alike (QuerySpec.print fmt) QuerySpec.isEmpty) :=
  map (seq' (optD fd_withClause ⟨rfl, rfl⟩) (seq' (fd_sfwList hw) (seq' (optD fd_groupBy .nil)
    (seq' (optD (R := Alike (SC.print fmt) SC.isEmpty) fd_having ⟨rfl, rfl⟩) (optD fd_orderBy .nil))))) (by
      rintro ⟨w, l, g, h, o⟩ ⟨w', l', g', h', o'⟩ ⟨⟨h1, h2⟩, ⟨h3, h4⟩, h5, ⟨h6, h7⟩, h8⟩
      have h5' := ListRel.isEmpty h5
      have h8' := ListRel.isEmpty h8
      have h5 := ListRel.join (f := GroupTerm.print fmt) (fun _ _ h => h.1) cs!"," h5
      have h8 := ListRel.join (f := SortSpec.print) (fun _ _ h => h.1) cs!"," h8
      simp only at h2 h4 h5' h7 h8'
      simp only [Alike, QuerySpec.print, QuerySpec.isEmpty, printGroup_eq, h2, h5', h7, h8']
      refine ⟨?_, h4⟩
      refine sameCI_append (sameCI_append (sameCI_append (sameCI_append ?_ h3) ?_) ?_) ?_ <;> split
      · rfl
      · exact sameCI_append h1 rfl
      · rfl
      · exact sameCI_append rfl h5
      · rfl
      · exact sameCI_append rfl h6
      · rfl
      · exact sameCI_append rfl h8)

include hfmt in
theorem fd_query : FoldG fmt query (Alike (QuerySpec.print fmt) QuerySpec.isEmpty) :=
  fd_queryWith (fd_whereClause hfmt)

theorem fd_subqBody : FoldG fmt subqBody (Alike (Subquery.print fmt) Subquery.isEmpty) :=
  seqR' (fd_sym (by decide)) (seqL' (alt (map (fd_queryWith fd_whereNoGeometry) fun _ _ h => by
      simp_all [Alike, SameCI, Subquery.print, Subquery.isEmpty])
    (map fd_jt fun _ _ h => by
      simp_all [Alike, SameCI, Subquery.print, Subquery.isEmpty])) (fd_sym (by decide)))

/-- Without `TAP_UPLOAD.` the rule `tap_upload` fails. -/
theorem fd_tapUpload (cfg : Config) : FoldG fmt (tapUpload cfg) (fun _ _ => False) := by
  intro rec _ _ sk s t hp
  have key : ∀ s, NoTap s → step rec (tapUpload cfg) sk s = .fail := by
    intro s hs
    simp only [tapUpload, P.seqR, sym, step, skip, Bool.false_eq_true, if_false]
    cases hm : matchLit false cs!"TAP_UPLOAD." (if sk = true then s.dropWhile isSpace else s) with
    | none => rfl
    | some x =>
      obtain ⟨u, r⟩ := x
      obtain ⟨e, h⟩ := matchLit_iff.1 hm
      rw [litOK_cs] at h
      subst h
      refine absurd ?_ hs
      have h1 : (if sk = true then s.dropWhile isSpace else s) <:+ s := skip_suffix sk s
      exact (List.IsPrefix.isInfix ⟨r, e.symm⟩).trans h1.isInfix
  rw [key s hp.1, key t hp.2.1]; trivial

include hfmt in
/-- All rules. -/
theorem fd_grammar (cfg : Config) : ∀ n, FoldG fmt (grammar cfg n) (FoldI fmt n)
  | .ve => fd_veBody
  | .venb => fd_venbBody hfmt
  | .sc => fd_scBody _
  | .subq => fd_subqBody
  | .jt => fd_jtBody
  | .tr => fd_trBody
  | .tap => fd_tapUpload cfg

include hfmt in
/-- Parsing two texts that differ only in letter case. -/
theorem fd_parseQuery (cfg : Config) {s t : Str} (h : SameCI s t) (hs : NoTap s) (ht : NoTap t) :
    ResRel (Alike (QuerySpec.print fmt) QuerySpec.isEmpty) (parseQuery cfg s) (parseQuery cfg t) := by
  unfold parseQuery fuelFor
  rw [len_sameCI h]
  exact fd_query hfmt _ (run_suffix _ _) (Fold.run (fd_grammar hfmt cfg) _) true s t ⟨hs, ht, h⟩

end

end

end Adql
