import Verif.Model.Seal
import Verif.Model.Reading

/-!
# What the rules of the grammar read is sealed

`Eff p o o'`: a text that the parser `p` reads leads from the state `o` of a reader of quotes and brackets to the state
`o'`.  There is one lemma for each combinator; the rules of the grammar are neutral.
-/

namespace Adql.Closes

open Spec Seal P

variable [Extra]

/-- the states of a reader of quotes -/
def real : Option Char → Bool
  | none => true
  | some c => c == '\'' || c == '"'

/-- a text without an argument of a not-a-number leads from one state to the other -/
def Lead (o : Opened) (t : Str) (o' : Opened) : Prop := NoNan t → Step o t o'

theorem noNan_left {x y : Str} (h : NoNan (x ++ y)) : NoNan x := fun z hz => h z (hz.trans ⟨[], y, by simp⟩)
theorem noNan_right {x y : Str} (h : NoNan (x ++ y)) : NoNan y := fun z hz => h z (hz.trans ⟨x, [], by simp⟩)

theorem Lead.app {o o' o'' : Opened} {x y : Str} (h : Lead o x o') (h' : Lead o' y o'') : Lead o (x ++ y) o'' :=
  fun hn => (h (noNan_left hn)).app (h' (noNan_right hn))

theorem Lead.nil {o : Opened} : Lead o [] o := fun _ => .nil
theorem Lead.good {x : Str} (h : Good x) {l : List Char} : Lead ⟨l, none⟩ x ⟨l, none⟩ := fun _ => h l

theorem next_calm {q : Option Char} {c : Char} (hq : real q = true) (h : flat c = true) (l : List Char) :
    Opened.next ⟨l, q⟩ c = some ⟨l, q⟩ := by
  cases q with
  | none => exact next_flat h l
  | some q =>
    have : c ≠ q := by
      rintro rfl
      simp only [real, Bool.or_eq_true, beq_iff_eq] at hq
      rcases hq with rfl | rfl <;> exact absurd h (by decide)
    simp [Opened.next, this]

theorem flat_space {c : Char} (h : isSpace c = true) : flat c = true := by
  simp [flat, usual, h]

theorem after_calm {q : Option Char} (hq : real q = true) {l : List Char} : ∀ {x : Str}, (∀ c ∈ x, flat c = true) →
    Opened.after ⟨l, q⟩ x = some ⟨l, q⟩
  | [], _ => rfl
  | c :: x, h => by
    simp only [Opened.after, next_calm hq (h c (by simp)), Option.bind_some]
    exact after_calm hq fun d hd => h d (by simp [hd])

theorem Lead.blank {o : Opened} {sk : Bool} {b : Str} (hq : real o.quote = true) (h : Blank sk b) : Lead o b o :=
  fun _ => .inr (after_calm hq fun c hc => flat_space (h.1 c hc))

/-- characters that differ in case only are the same to the reader -/
theorem next_ci {o : Opened} (hq : real o.quote = true) {c d : Char} (h : lowerC c = lowerC d) : o.next c = o.next d := by
  by_cases hi : isIdChar c = true
  · have hd : isIdChar d = true := by rw [← isIdChar_lowerC, ← h, isIdChar_lowerC]; exact hi
    obtain ⟨l, q⟩ := o
    rw [next_calm hq (flat_id (isIdChar_iff.1 hi)), next_calm hq (flat_id (isIdChar_iff.1 hd))]
  · have hd : ¬ isIdChar d = true := by rw [← isIdChar_lowerC, ← h, isIdChar_lowerC]; exact hi
    have low : ∀ e, ¬ isIdChar e = true → lowerC e = e := by
      intro e he
      unfold lowerC
      split
      · next h' =>
        refine absurd ?_ he
        simp only [Bool.and_eq_true, decide_eq_true_eq] at h'
        simp [isIdChar, isLetter, h']
      · rfl
    rw [low c hi, low d hd] at h
    rw [h]

theorem real_next {o o' : Opened} {c : Char} (hq : real o.quote = true) (h : o.next c = some o') : real o'.quote = true := by
  rw [next_quote h]
  cases ho : o.quote with
  | none => simp only [quoteStep]; split <;> simp_all [real]
  | some q => simp only [quoteStep]; split <;> simp_all [real]

theorem after_ci : ∀ {x w : Str} {o : Opened}, real o.quote = true → SameCI x w → o.after x = o.after w
  | [], [], _, _, _ => rfl
  | [], _ :: _, _, _, h => by simp [SameCI] at h
  | _ :: _, [], _, _, h => by simp [SameCI] at h
  | c :: x, d :: w, o, hq, h => by
    simp only [SameCI, List.map_cons, List.cons.injEq] at h
    simp only [Opened.after, next_ci hq h.1]
    cases hn : o.next d with
    | none => rfl
    | some o' => exact after_ci (real_next hq hn) h.2

/-- what is shown of the recursive rules: they are neutral -/
def Calls : (n : Rule) → Bool → Str → Attr n → Str → Prop := fun _ _ t _ _ => ∀ l, Lead ⟨l, none⟩ t ⟨l, none⟩

/-- what `p` reads leads from `o` to `o'` -/
def Eff {α : Type} (p : G α) (o o' : Opened) : Prop := ∀ sk t x r, sem Calls p sk t x r → Lead o t o'

namespace Eff
variable {α β : Type} {o o' o'' : Opened}

theorem pure {a : α} : Eff (.pure a) o o := by rintro sk t x r ⟨rfl, -⟩; exact .nil
theorem chr {f : Char → Bool} (hq : real o.quote = true) (h : ∀ c, f c = true → o.next c = some o') : Eff (.chr f) o o' := by
  rintro sk t x r ⟨b, rfl, hb, hx⟩
  refine (Lead.blank hq hb).app fun _ => .inr ?_
  simp [Opened.after, h x hx]
theorem chrEq {c : Char} (hq : real o.quote = true) (h : o.next c = some o') : Eff (.chr (· == c)) o o' :=
  chr hq fun d hd => by rw [beq_iff_eq] at hd; rw [hd]; exact h
theorem lit {ci : Bool} {w : Str} (hq : real o.quote = true) (h : o.after w = some o') : Eff (.lit ci w) o o' := by
  rintro sk t x r ⟨b, rfl, hb, hx⟩
  refine (Lead.blank hq hb).app fun _ => .inr ?_
  cases ci with
  | false => obtain rfl : x = w := by simpa [LitOK] using hx
             exact h
  | true => rw [after_ci hq (w := w) (by simpa [LitOK, SameCI] using hx)]; exact h
theorem seq {p : G α} {q : G β} (h : Eff p o o') (h' : Eff q o' o'') : Eff (.seq p q) o o'' := by
  rintro sk t x r ⟨t₁, t₂, rfl, h1, h2⟩; exact (h _ _ _ _ h1).app (h' _ _ _ _ h2)
theorem alt {p q : G α} (h : Eff p o o') (h' : Eff q o o') : Eff (.alt p q) o o' := by
  rintro sk t x r (h1 | h1)
  · exact h _ _ _ _ h1
  · exact h' _ _ _ _ h1
theorem star {p : G α} (h : Eff p o o) : Eff (.star p) o o := by
  intro sk t x r hs
  simp only [sem] at hs
  induction hs with
  | nil => exact .nil
  | cons h1 _ ih => exact (h _ _ _ _ h1).app ih
theorem notP {p : G α} : Eff (.notP p) o o := by rintro sk t x r h; obtain rfl : t = [] := h; exact .nil
theorem andP {p : G α} : Eff (.andP p) o o := by rintro sk t x r ⟨rfl, -⟩; exact .nil
theorem expect {p : G α} {w : String} (h : Eff p o o') : Eff (.expect w p) o o' := h
theorem map {p : G α} {f : α → β} (h : Eff p o o') : Eff (.map f p) o o' := by
  rintro sk t x r ⟨a, -, h1⟩; exact h _ _ _ _ h1
theorem act {p : G α} {f : α → Out β} (h : Eff p o o') : Eff (.act f p) o o' := by
  rintro sk t x r ⟨a, -, h1⟩; exact h _ _ _ _ h1
theorem lexeme {p : G α} (hq : real o.quote = true) (h : Eff p o o') : Eff (.lexeme p) o o' := by
  rintro sk t x r ⟨b, t', rfl, hb, h1, -⟩; exact (Lead.blank hq hb).app (h _ _ _ _ h1)
theorem noskip {p : G α} (h : Eff p o o') : Eff (.noskip p) o o' := fun _ _ _ _ h1 => h _ _ _ _ h1
theorem call (n : Rule) {l : List Char} : Eff (.nt n : G (Attr n)) ⟨l, none⟩ ⟨l, none⟩ := fun _ _ _ _ h => h l

end Eff

/-- what `p` reads is sealed -/
class Neutral {α : Type} (p : G α) : Prop where
  eff : ∀ l, Eff p ⟨l, none⟩ ⟨l, none⟩

theorem leaf {p : G Str} {Q : Str → Prop} (h1 : L1 Calls p) (h2 : AP Calls p Q) (hg : ∀ x, Q x → NoNan x → Good x) : Neutral p := by
  refine ⟨fun l sk t x r h => ?_⟩
  obtain ⟨b, hb, rfl⟩ := h1 _ _ _ _ h
  exact (Lead.blank rfl hb).app fun hn => hg x (h2 _ _ _ _ h) hn l

theorem good_unsigned {x : Str} (h : Unsigned x) : Good x := by
  cases h with
  | int h => exact good_digits h
  | dot h => exact (good_digits h).app fun _ => .lit rfl
  | dec h h' => exact (good_digits h).app (good_dot (good_digits h'))
  | frac h => exact good_dot (good_digits h)

theorem good_magnitude {x : Str} (h : Magnitude x) (hn : NoNan x) : Good x := by
  cases h with
  | plain h => exact good_unsigned h
  | expo h h' => exact (good_unsigned h).app (good_expo h')
  | inf h => exact good_oneOf h (by decide)
  | nan h => exact good_ci h (by decide)
  | @nanArg x u h _ =>
    refine absurd ?_ (hn (x ++ cs!"(") ⟨[], u ++ [')'], by simp⟩)
    show SameCI _ (cs!"nan" ++ cs!"(")
    unfold SameCI at h ⊢
    rw [List.map_append, List.map_append, h]

theorem good_number {x : Str} (h : Number x) (hn : NoNan x) : Good x := by
  cases h with
  | plain h => exact good_magnitude h hn
  | plus h => exact Good.app (x := cs!"+") (fun _ => .lit rfl) (good_magnitude h (noNan_right (x := cs!"+") hn))
  | minus h => exact Good.app (x := cs!"-") (fun _ => .lit rfl) (good_magnitude h (noNan_right (x := cs!"-") hn))

instance : Neutral ve := ⟨fun _ => .call _⟩
instance : Neutral venb := ⟨fun _ => .call _⟩
instance : Neutral sc := ⟨fun _ => .call _⟩
instance : Neutral subq := ⟨fun _ => .call _⟩
instance : Neutral jt := ⟨fun _ => .call _⟩
instance : Neutral tr := ⟨fun _ => .call _⟩
instance : Neutral tap := ⟨fun _ => .call _⟩

instance : Neutral identifier := leaf l1_identifier ap_identifier fun _ h _ => good_name h
instance : Neutral regularIdentifier := leaf l1_regular ap_regular fun _ h _ => good_ident h
instance : Neutral pqIdentifier := leaf l1_pq ap_pq fun _ h _ => good_pq h
instance : Neutral unsignedInteger := leaf l1_unsignedInteger ap_unsignedInteger fun _ h _ => good_digits h
instance : Neutral unsignedNumeric := leaf l1_unsignedNumeric ap_unsignedNumeric fun _ h _ => good_num h
instance : Neutral charString := leaf l1_charString ap_charString fun _ h _ => good_str h
instance : Neutral double := leaf l1_double ap_double fun _ h hn => good_number h hn

theorem flat_digit {c : Char} (h : isDigit c = true) : flat c = true := flat_id (isIdChar_iff.1 (by simp [isIdChar, h]))

instance : Neutral (chS isSpace) := ⟨fun l => .map (.chr rfl fun _ h => next_flat (flat_space h) l)⟩
instance : Neutral (chS isDigit) := ⟨fun l => .map (.chr rfl fun _ h => next_flat (flat_digit h) l)⟩
instance : Neutral sign := ⟨fun l => .lexeme rfl (.map (.chr rfl fun c h => next_flat (by
  rcases Bool.or_eq_true _ _ ▸ h with h | h <;> rw [eq_of_beq h] <;> rfl) l))⟩
instance : Neutral charFlag := ⟨fun l => .lexeme rfl (.chr rfl fun c h => next_flat (by
  rcases Bool.or_eq_true _ _ ▸ h with h | h <;> rw [eq_of_beq h] <;> rfl) l)⟩
instance : Neutral arithOp := ⟨fun l => .lexeme rfl (.chr rfl fun c h => next_flat (by
  simp only [Bool.or_eq_true, beq_iff_eq] at h
  rcases h with ((rfl | rfl) | rfl) | rfl <;> rfl) l)⟩
instance : Neutral andSpace := ⟨fun _ => .map .andP⟩
instance : Neutral andNsSpace := ⟨fun _ => .map .andP⟩
instance : Neutral andNonId := ⟨fun _ => .map .andP⟩

theorem anyKw_eff {l : List Char} : ∀ (ws : List Str), ws.all (fun w => w.all flat) = true → Eff (anyKw ws) ⟨l, none⟩ ⟨l, none⟩
  | [], _ => .map (.chr rfl nofun)
  | w :: ws, h => by
    simp only [List.all_cons, Bool.and_eq_true] at h
    exact .alt (.lit rfl (after_flat (List.all_eq_true.1 h.1) l)) (anyKw_eff ws h.2)

/-- an identifier inside the quotes of an argument of a table function -/
theorem pq_quoted {l : List Char} : Eff pqIdentifier ⟨l, some '\''⟩ ⟨l, some '\''⟩ := by
  intro sk t x r h
  obtain ⟨b, hb, rfl⟩ := l1_pq _ _ _ _ h
  refine (Lead.blank rfl hb).app fun _ => .inr (after_calm rfl ?_)
  obtain ⟨c, t, rfl, hc, ht⟩ := ap_pq _ _ _ _ h
  intro d hd
  rcases List.mem_cons.1 hd with rfl | hd
  · exact flat_id (.inl hc)
  · rcases ht d hd with h | rfl
    · exact flat_id h
    · rfl

syntax "eff_run" : tactic
macro_rules
  | `(tactic| eff_run) => `(tactic| repeat' first
    | exact Neutral.eff _
    | apply Eff.expect
    | exact pq_quoted
    | exact anyKw_eff _ (by decide)
    | apply Eff.map
    | apply Eff.seq
    | apply Eff.alt
    | exact Eff.lit rfl rfl
    | exact Eff.pure
    | apply Eff.lexeme rfl
    | apply Eff.star
    | exact Eff.andP
    | exact Eff.notP
    | exact Eff.chrEq rfl rfl
    | apply Eff.act)

instance : Neutral period := ⟨fun _ => by unfold period; eff_run⟩
instance (cfg : Config) : Neutral (tapUpload cfg) := ⟨fun _ => by unfold tapUpload tapUploadIdentifier; eff_run⟩
instance : Neutral tableName := ⟨fun _ => by unfold tableName; eff_run⟩
instance : Neutral columnReference := ⟨fun _ => by unfold columnReference; eff_run⟩
instance : Neutral booleanLiteral := ⟨fun _ => by unfold booleanLiteral; eff_run⟩
instance : Neutral generalLiteral := ⟨fun _ => by unfold generalLiteral; eff_run⟩
instance : Neutral unsignedLiteral := ⟨fun _ => by unfold unsignedLiteral; eff_run⟩
instance : Neutral referenceFrame := ⟨fun _ => by unfold referenceFrame; eff_run⟩
instance : Neutral referencePosition := ⟨fun _ => by unfold referencePosition; eff_run⟩
instance : Neutral coordSys := ⟨fun _ => by unfold coordSys; eff_run⟩
instance : Neutral optCoordSys := ⟨fun _ => by unfold optCoordSys; eff_run⟩
instance : Neutral coordExpr := ⟨fun _ => by unfold coordExpr; eff_run⟩
instance : Neutral coord := ⟨fun _ => by unfold coord; eff_run⟩
instance : Neutral xCoordExpr := ⟨fun _ => by unfold xCoordExpr; eff_run⟩
instance : Neutral point := ⟨fun _ => by unfold point; eff_run⟩
instance : Neutral circle := ⟨fun _ => by unfold circle; eff_run⟩
instance : Neutral ellipse := ⟨fun _ => by unfold ellipse; eff_run⟩
instance : Neutral box := ⟨fun _ => by unfold box; eff_run⟩
instance : Neutral polygon := ⟨fun _ => by unfold polygon; eff_run⟩
instance : Neutral shape := ⟨fun _ => by unfold shape; eff_run⟩
instance : Neutral pointOrColumn := ⟨fun _ => by unfold pointOrColumn; eff_run⟩
instance : Neutral shapeOrColumn := ⟨fun _ => by unfold shapeOrColumn; eff_run⟩
instance : Neutral contains := ⟨fun _ => by unfold contains; eff_run⟩
instance : Neutral intersects := ⟨fun _ => by unfold intersects; eff_run⟩
instance : Neutral geomPred := ⟨fun _ => by unfold geomPred; eff_run⟩
instance : Neutral geometry := ⟨fun _ => by unfold geometry; eff_run⟩
instance : Neutral trigNames := ⟨fun _ => by unfold trigNames; eff_run⟩
instance : Neutral trigFunction := ⟨fun _ => by unfold trigFunction; eff_run⟩
instance : Neutral math0Names := ⟨fun _ => by unfold math0Names; eff_run⟩
instance : Neutral math1Names := ⟨fun _ => by unfold math1Names; eff_run⟩
instance : Neutral math2Names := ⟨fun _ => by unfold math2Names; eff_run⟩
instance : Neutral mathFunction := ⟨fun _ => by unfold mathFunction; eff_run⟩
instance : Neutral geoFunction := ⟨fun _ => by unfold geoFunction; eff_run⟩
instance : Neutral castAs := ⟨fun _ => by unfold castAs; eff_run⟩
instance : Neutral castFunction := ⟨fun _ => by unfold castFunction; eff_run⟩
instance : Neutral udfName := ⟨fun _ => by unfold udfName; eff_run⟩
instance : Neutral userDefinedFunction := ⟨fun _ => by unfold userDefinedFunction; eff_run⟩
instance : Neutral sqlNoArgFunction := ⟨fun _ => by unfold sqlNoArgFunction; eff_run⟩
instance : Neutral numericValueFunction := ⟨fun _ => by unfold numericValueFunction; eff_run⟩
instance : Neutral setFunctionType := ⟨fun _ => by unfold setFunctionType; eff_run⟩
instance : Neutral setQuantifier := ⟨fun _ => by unfold setQuantifier; eff_run⟩
instance : Neutral countStar := ⟨fun _ => by unfold countStar; eff_run⟩
instance : Neutral generalSetFunction := ⟨fun _ => by unfold generalSetFunction; eff_run⟩
instance : Neutral nullLiteral := ⟨fun _ => by unfold nullLiteral; eff_run⟩
instance : Neutral caseResult := ⟨fun _ => by unfold caseResult; eff_run⟩
instance : Neutral simpleWhen := ⟨fun _ => by unfold simpleWhen; eff_run⟩
instance : Neutral elseClause := ⟨fun _ => by unfold elseClause; eff_run⟩
instance : Neutral simpleCase := ⟨fun _ => by unfold simpleCase; eff_run⟩
instance : Neutral searchedWhen := ⟨fun _ => by unfold searchedWhen; eff_run⟩
instance : Neutral searchedCase := ⟨fun _ => by unfold searchedCase; eff_run⟩
instance : Neutral caseSpecification := ⟨fun _ => by unfold caseSpecification; eff_run⟩
instance : Neutral nullif := ⟨fun _ => by unfold nullif; eff_run⟩
instance : Neutral coalesce := ⟨fun _ => by unfold coalesce; eff_run⟩
instance : Neutral caseExpression := ⟨fun _ => by unfold caseExpression; eff_run⟩
instance : Neutral anyExpression := ⟨fun _ => by unfold anyExpression; eff_run⟩
instance : Neutral valueSubexpression := ⟨fun _ => by unfold valueSubexpression; eff_run⟩
instance : Neutral arrayIndex := ⟨fun _ => by unfold arrayIndex; eff_run⟩
instance : Neutral nullCast := ⟨fun _ => by unfold nullCast; eff_run⟩
instance : Neutral arrayConstructor := ⟨fun _ => by unfold arrayConstructor; eff_run⟩
instance : Neutral primary := ⟨fun _ => by unfold primary; eff_run⟩
instance : Neutral valueExpressionPrimary := ⟨fun _ => by unfold valueExpressionPrimary; eff_run⟩
instance : Neutral numericPrimary := ⟨fun _ => by unfold numericPrimary; eff_run⟩
instance : Neutral factor := ⟨fun _ => by unfold factor; eff_run⟩
instance : Neutral binaryOperators := ⟨fun _ => by unfold binaryOperators; eff_run⟩
instance : Neutral venbTerm := ⟨fun _ => by unfold venbTerm; eff_run⟩
instance : Neutral venbBody := ⟨fun _ => by unfold venbBody; eff_run⟩
instance : Neutral veBody := ⟨fun _ => by unfold veBody; eff_run⟩
instance : Neutral compOp := ⟨fun _ => by unfold compOp; eff_run⟩
instance : Neutral comparisonPredicate := ⟨fun _ => by unfold comparisonPredicate; eff_run⟩
instance : Neutral betweenPredicate := ⟨fun _ => by unfold betweenPredicate; eff_run⟩
instance : Neutral inNot := ⟨fun _ => by unfold inNot; eff_run⟩
instance : Neutral inPredicate := ⟨fun _ => by unfold inPredicate; eff_run⟩
instance : Neutral nullPredicate := ⟨fun _ => by unfold nullPredicate; eff_run⟩
instance : Neutral likePredicate := ⟨fun _ => by unfold likePredicate; eff_run⟩
instance : Neutral existsPredicate := ⟨fun _ => by unfold existsPredicate; eff_run⟩
instance : Neutral predicate := ⟨fun _ => by unfold predicate; eff_run⟩
instance : Neutral booleanPrimary := ⟨fun _ => by unfold booleanPrimary; eff_run⟩
instance (b : Bool) : Neutral (factorNot b) := ⟨fun _ => by cases b <;> (unfold factorNot; simp only [if_true, Bool.false_eq_true, if_false]; eff_run)⟩
instance (b : Bool) : Neutral (booleanFactor b) := ⟨fun _ => by unfold booleanFactor; eff_run⟩
instance : Neutral logicalOp := ⟨fun _ => by unfold logicalOp; eff_run⟩
instance (b : Bool) : Neutral (scBody b) := ⟨fun _ => by unfold scBody; eff_run⟩
instance : Neutral correlationSpecification := ⟨fun _ => by unfold correlationSpecification; eff_run⟩
instance : Neutral tableCorrelation := ⟨fun _ => by unfold tableCorrelation; eff_run⟩
instance : Neutral joinType := ⟨fun _ => by unfold joinType; eff_run⟩
instance : Neutral joinSpecification := ⟨fun _ => by unfold joinSpecification; eff_run⟩
instance : Neutral joinSuffix := ⟨fun _ => by unfold joinSuffix; eff_run⟩
instance : Neutral parenJoined := ⟨fun _ => by unfold parenJoined; eff_run⟩
instance : Neutral qualifiedJoin := ⟨fun _ => by unfold qualifiedJoin; eff_run⟩
instance : Neutral jtBody := ⟨fun _ => by unfold jtBody; eff_run⟩
instance : Neutral derivedCorrelation := ⟨fun _ => by unfold derivedCorrelation; eff_run⟩
instance : Neutral tableValuedFunction := ⟨fun _ => by unfold tableValuedFunction; eff_run⟩
instance : Neutral trBody := ⟨fun _ => by unfold trBody; eff_run⟩
instance : Neutral fromClause := ⟨fun _ => by unfold fromClause; eff_run⟩
instance : Neutral asItem := ⟨fun _ => by unfold asItem; eff_run⟩
instance : Neutral qualifierStar := ⟨fun _ => by unfold qualifierStar; eff_run⟩
instance : Neutral selectItem := ⟨fun _ => by unfold selectItem; eff_run⟩
instance : Neutral columns := ⟨fun _ => by unfold columns; eff_run⟩
instance : Neutral topClause := ⟨fun _ => by unfold topClause; eff_run⟩
instance : Neutral select := ⟨fun _ => by unfold select; eff_run⟩
instance : Neutral whereClause := ⟨fun _ => by unfold whereClause; eff_run⟩
instance : Neutral whereNoGeometry := ⟨fun _ => by unfold whereNoGeometry; eff_run⟩
instance (w : G Where) [Neutral w] : Neutral (sfwWith w) := ⟨fun _ => by unfold sfwWith; eff_run⟩
instance : Neutral unionOp := ⟨fun _ => by unfold unionOp; eff_run⟩
instance (w : G Where) [Neutral w] : Neutral (sfwList w) := ⟨fun _ => by unfold sfwList; eff_run⟩
instance : Neutral groupByTerm := ⟨fun _ => by unfold groupByTerm; eff_run⟩
instance : Neutral groupBy := ⟨fun _ => by unfold groupBy; eff_run⟩
instance : Neutral having := ⟨fun _ => by unfold having; eff_run⟩
instance : Neutral sortSpecification := ⟨fun _ => by unfold sortSpecification; eff_run⟩
instance : Neutral orderBy := ⟨fun _ => by unfold orderBy; eff_run⟩
instance : Neutral withClause := ⟨fun _ => by unfold withClause; eff_run⟩
instance (w : G Where) [Neutral w] : Neutral (queryWith w) := ⟨fun _ => by unfold queryWith; eff_run⟩
instance : Neutral query := ⟨fun _ => by unfold query; eff_run⟩
instance : Neutral queryNoGeometry := ⟨fun _ => by unfold queryNoGeometry; eff_run⟩
instance : Neutral subqBody := ⟨fun _ => by unfold subqBody; eff_run⟩

/-- the rules are neutral if their calls are -/
theorem rules (cfg : Config) : ∀ n sk t a r, sem Calls (grammar cfg n) sk t a r → Calls n sk t a r := by
  intro n sk t a r h l
  cases n with
  | ve => exact (inferInstance : Neutral veBody).eff l _ _ _ _ h
  | venb => exact (inferInstance : Neutral venbBody).eff l _ _ _ _ h
  | sc => exact (inferInstance : Neutral (scBody cfg.residue)).eff l _ _ _ _ h
  | subq => exact (inferInstance : Neutral subqBody).eff l _ _ _ _ h
  | jt => exact (inferInstance : Neutral jtBody).eff l _ _ _ _ h
  | tr => exact (inferInstance : Neutral trBody).eff l _ _ _ _ h
  | tap => exact (inferInstance : Neutral (tapUpload cfg)).eff l _ _ _ _ h

/-- what a neutral parser reads is sealed, unless it has a comment -/
theorem parsed {cfg : Config} {α : Type} {p : G α} [hp : Neutral p] {sk : Bool} {s r : Str} {x : α}
    (h : parse cfg p sk s = .ok x r) : ∃ t, s = t ++ r ∧ (NoNan t → Good t) := by
  obtain ⟨t, e, hs⟩ := step_sem (fun n sk s a r h => den_sem (rules cfg) n sk s a r h) p sk s x r h
  exact ⟨t, e, fun hn l => hp.eff l _ _ _ _ hs hn⟩

end Adql.Closes
