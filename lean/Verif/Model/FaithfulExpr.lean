import Verif.Model.FaithfulGeom

/-!
# Expressions, read side by side with `operator<<`
-/

namespace Adql

open Spec P

/-! ### Texts that end loosely -/

theorem lastLoose_append {a b : Str} (ha : lastLoose a = true) (hb : lastLoose b = true) :
    lastLoose (a ++ b) = true := by
  rcases List.eq_nil_or_concat b with rfl | ⟨b', c, rfl⟩
  · simpa using ha
  · rw [List.concat_eq_append] at hb ⊢
    rw [lastLoose_snoc] at hb
    rw [← List.append_assoc, lastLoose_snoc, hb]

theorem upperC_toNat (c : Char) : (upperC c).toNat = if 97 ≤ c.toNat ∧ c.toNat ≤ 122 then c.toNat - 32 else c.toNat := by
  unfold upperC
  by_cases h : 97 ≤ c.toNat ∧ c.toNat ≤ 122
  · rw [if_pos (by simpa using h), if_pos h]
    exact toNat_ofNat (by omega)
  · rw [if_neg (by simpa using h), if_neg h]

theorem upperC_eq {c d : Char} (h : lowerC c = lowerC d) : upperC c = upperC d := by
  have h' := congrArg Char.toNat h
  apply Char.toNat_inj.1
  rw [lowerC_toNat, lowerC_toNat] at h'
  rw [upperC_toNat, upperC_toNat]
  split at h' <;> split at h' <;> split <;> split <;> omega

theorem upper_sameCI : ∀ {x w : Str}, SameCI x w → upper x = upper w
  | [], [], _ => rfl
  | [], _ :: _, h => by simp [SameCI] at h
  | _ :: _, [], h => by simp [SameCI] at h
  | c :: x, d :: w, h => by
    simp only [SameCI, List.map_cons, List.cons.injEq] at h
    simp only [upper, List.map_cons, upperC_eq h.1, List.cons.injEq, true_and]
    exact upper_sameCI h.2

section
variable {cfg : Config} {fmt : Str → Str} {α β γ : Type}

local notation "K" => KInv cfg fmt
local notation "ε" => env cfg fmt

/-! ### Function calls -/

section
variable {I : (n : Rule) → Bool → Str → Attr n → Str → Prop} {e : Env}

theorem SP.seqExpect {R : List Str → List Str → Prop} {p : G α} {q : G β} {f : α × β → Str} {w : String}
    (h : SP I R (.seq p q) f) : SP I R (.seq (.expect w p) q) f := h

/-- a name, an opening parenthesis and the rest of a call -/
theorem se_call {p : G Str} {q : G β} {g : β → Str} (h1 : L1 I p) (ht : AP I p IdentShape)
    (hq : SE I e q g) : SE I e (.seq (seqL p (sym cs!"(")) q) (fun x => x.1 ++ (cs!"(" ++ g x.2)) :=
  SP.assoc (se_tokThen h1 (ht.imp fun _ => .word) (SE.seqR se_open hq fun _ => apart_last rfl)
    (hl_seqR (hl_sym rfl)) fun _ => rfl)

theorem se_callX {p : G Str} {q : G β} {g : β → Str} (h1 : L0 I p) (ht : AP I p IdentShape)
    (hq : SE I e q g) : SE I e (.seq (fnHead p) q) (fun x => x.1 ++ (cs!"(" ++ g x.2)) :=
  SP.assoc (se_tokThen (L0.lexeme (l0_seqL h1 z0_andNonId)) (.lexeme (.seqL (ht.imp fun _ => .word)))
    (SE.seqR (p := xOpen) (SP.expect se_open) hq fun _ => apart_last rfl)
    (hl_seqR (hl_expect (hl_sym rfl))) fun _ => rfl)

theorem se_xClose : SE I e xClose (fun _ => cs!")") := SP.expect se_close
theorem se_xComma : SE I e xComma (fun _ => cs!",") := SP.expect se_comma

/-- something and a closing parenthesis -/
theorem se_argX {p : G α} {f : α → Str} (h : SE I e p f) :
    SE I e (seqL p xClose) (fun a => f a ++ cs!")") := SE.seqL h se_xClose fun _ => apL rfl _ _
theorem se_arg {p : G α} {f : α → Str} (h : SE I e p f) :
    SE I e (seqL p (sym cs!")")) (fun a => f a ++ cs!")") := SE.seqL h se_close fun _ => apL rfl _ _
theorem se_args2X {p : G α} {q : G β} {f : α → Str} {g : β → Str} (h : SE I e p f) (h' : SE I e q g) :
    SE I e (.seq p (seqR xComma (seqL q xClose)))
      (fun x => f x.1 ++ (cs!"," ++ (g x.2 ++ cs!")"))) :=
  SE.seq h (SE.seqR se_xComma (se_argX h') fun _ => apart_last rfl) fun _ _ => apL rfl _ _
theorem se_args2 {p : G α} {q : G β} {f : α → Str} {g : β → Str} (h : SE I e p f) (h' : SE I e q g) :
    SE I e (.seq p (seqR (sym cs!",") (seqL q (sym cs!")"))))
      (fun x => f x.1 ++ (cs!"," ++ (g x.2 ++ cs!")"))) :=
  SE.seq h (SE.seqR se_comma (se_arg h') fun _ => apart_last rfl) fun _ _ => apL rfl _ _

theorem edit_then3 {l l' : List Str} (h : Then (Edit e) (Then (Edit e) (Edit e)) l l') : Edit e l l' := by
  obtain ⟨_, _, _, _, rfl, rfl, h1, h2⟩ := h
  exact .append h1 (edit_then h2)

/-- a list with commas -/
theorem se_list {p : G α} {f : α → Str} (h : SE I e p f) :
    SE I e (sepBy p (sym cs!",")) (fun l => joinSep cs!"," (l.map f)) :=
  sp_sepBy h se_comma rfl rfl (by simp) fun _ _ => edit_then3
theorem se_listB {p : G α} {f : α → Str} (h : SE I e p f) :
    SE I e (sepBy p (sym cs!",")) (fun l => joinSep cs!", " (l.map f)) :=
  sp_sepBy h se_commaB rfl rfl (by simp) fun _ _ => edit_then3

theorem ap_anyWord {ws : List Str} (h : ws.all wordB = true) : AP I (.lexeme (anyKw ws)) IdentShape :=
  .lexeme ((ap_anyKw ws).imp fun _ hx => oneOf_word hx h)
theorem l1_anyWord {ws : List Str} : L1 I (.lexeme (anyKw ws)) := L0.lexeme (l1_anyKw ws).to0

end

theorem printVEs_eq : ∀ l : List VE, printVEs fmt l = l.map (VE.print fmt)
  | [] => rfl
  | e :: l => by rw [printVEs, printVEs_eq l]; rfl

theorem se_xVe : SE K ε xVe (VE.print fmt) := se_ve

theorem se_trigFunction : SE K ε trigFunction (NumFn.print fmt) :=
  .alt ((se_callX l1_anyWord.to0 (ap_anyWord rfl) (se_argX se_xVe)).map
      fun x => by simp [NumFn.print])
    ((se_callX (l1_lit _ _).to0 ((ap_kw _).imp fun _ h => sameCI_word h rfl)
      (se_args2X se_xVe se_xVe)).map fun x => by simp [NumFn.print])

theorem se_mathFunction : SE K ε mathFunction (NumFn.print fmt) :=
  .alt (((se_call l1_anyWord (ap_anyWord rfl) se_close).map
      (f' := fun a => a ++ (cs!"(" ++ cs!")")) fun x => rfl).map fun x => by simp [NumFn.print])
    (.alt ((se_call l1_anyWord (ap_anyWord rfl) (se_arg se_ve)).map fun x => by simp [NumFn.print])
      ((se_call l1_anyWord (ap_anyWord rfl) (se_args2 se_ve se_ve)).map
        fun x => by simp [NumFn.print]))

theorem se_geoFunction : SE K ε geoFunction (NumFn.print fmt) := by
  refine .alt (SP.map (f := fun x => (NumFn.geo1 x.1 x.2).print fmt) ?_ fun _ => rfl)
    (SP.map (f := fun x => (NumFn.geo2 x.1 x.2.1 x.2.2).print fmt) ?_ fun _ => rfl)
  · have h := se_callX (I := K) (e := ε) l1_anyWord.to0 (ap_anyWord (ws := [cs!"COORD1", cs!"COORD2"]) rfl)
      (se_argX (p := .expect "point or column" pointOrColumn) se_pointOrColumn)
    refine h.congr (Q := fun x => x.1.isEmpty = false) ((AP.seq (ap_fnHead (ap_anyWord rfl))
      (.trivial _)).imp fun _ h => identShape_ne h.1) fun x hx => ?_
    simp only [NumFn.print, hx]; simp
  · have hw : AP K (.lexeme (kw cs!"DISTANCE")) IdentShape :=
      .lexeme ((ap_kw _).imp fun _ h => sameCI_word h rfl)
    have h := se_callX (I := K) (e := ε) (L0.lexeme (l1_lit _ _).to0).to0 hw
      (se_args2X (p := .expect "point or column" pointOrColumn)
        (q := .expect "point or column" pointOrColumn) se_pointOrColumn se_pointOrColumn)
    refine h.congr (Q := fun x => x.1.isEmpty = false) ((AP.seq (ap_fnHead hw)
      (.trivial _)).imp fun _ h => identShape_ne h.1) fun x hx => ?_
    simp only [NumFn.print, hx]; simp

theorem se_castFunction : SE K ε castFunction (NumFn.print fmt) := by
  have h1 : SE K ε (seqR (kw cs!"CAST") (sym cs!"(")) (fun _ => cs!"CAST" ++ cs!"(") :=
    (se_kwSym _ '(' rfl rfl rfl rfl).map fun _ => rfl
  have h2 : SE K ε (seqL ve (.seq andNsSpace (.seq (kw cs!"AS") andNsSpace)))
      (fun a => a.print fmt ++ cs!" AS ") :=
    SE.seqL se_ve ((SE.seq se_andNsSpace (se_kwNs cs!"AS" cs!" AS " rfl rfl rfl)
      fun _ _ => nil_apart _).eq fun _ => rfl) fun _ => apL rfl _ _
  have h3 : SE K ε (optS (seqR (sym cs!"(") (seqL (.expect "unsigned_integer" unsignedInteger) xClose)))
      (fun a => if a.isEmpty then [] else cs!"(" ++ a ++ cs!")") :=
    SE.optIf (Q := Digits) (SE.seqR se_open (se_argX (p := .expect "unsigned_integer" unsignedInteger)
      se_unsignedInteger) fun _ => apart_last rfl) (.seqR (.seqL ap_unsignedInteger))
      (fun a h => by
        have : a.isEmpty = false := by simpa using h.1
        simp [this]) rfl
  have h4 := SE.seqL h3 (se_close (e := ε)) fun _ => apL rfl _ _
  have h5 := se_tokThen (I := K) (p := castAs) l1_anyWord ((ap_anyWord rfl).imp fun _ => .word) h4
    (hl_optL (hl_seqR (hl_sym rfl)) (hl_sym rfl)) fun b => by split <;> rfl
  exact (SE.seqR h1 (SE.seq h2 h5 fun a b => apart_snoc (x := a.print fmt ++ cs!" AS") rfl |> fun h => by
    simpa using h) fun _ => apart_last rfl).map fun x => by simp [NumFn.print, printCast]

theorem l1_udfName {I : (n : Rule) → Bool → Str → Attr n → Str → Prop} : L1 I udfName :=
  L0.lexeme (l0_alt l1_regular.to0 (l1_anyKw _).to0)

theorem se_veList : SE K ε (sepBy ve (sym cs!",")) (fun l => joinSep cs!"," (printVEs fmt l)) :=
  (se_list se_ve).eq fun l => by rw [printVEs_eq]

theorem se_userDefinedFunction : SE K ε userDefinedFunction (NumFn.print fmt) :=
  (se_call l1_udfName (ap_udfName.imp fun _ => udfName_ident) (se_arg (SE.optD se_veList rfl))).map
    fun x => by simp [NumFn.print]

theorem se_sqlNoArgFunction {I : (n : Rule) → Bool → Str → Attr n → Str → Prop} {e : Env} :
    SE I e sqlNoArgFunction (fun a => a) :=
  (sp_split (L0.lexeme (l1_lit _ _).to0) (.lexeme (ap_kw _)) fun _ h =>
    ⟨.word (sameCI_word h rfl), .inr (.inr (.inr ⟨_, by simp, h⟩))⟩).imp fun _ _ => edit_same

theorem se_numericValueFunction : SE K ε numericValueFunction (NumFn.print fmt) :=
  .alt se_trigFunction (.alt se_mathFunction (.alt se_castFunction (.alt se_geoFunction
    (.alt se_userDefinedFunction (se_sqlNoArgFunction.map fun _ => by simp [NumFn.print])))))

/-! ### Set functions, CASE and the other primaries -/

section
variable {I : (n : Rule) → Bool → Str → Attr n → Str → Prop} {e : Env}

theorem ap_quantWord : AP I (.alt (kw cs!"DISTINCT") (kw cs!"ALL")) IdentShape :=
  .alt ((ap_kw _).imp fun _ h => sameCI_word h rfl) ((ap_kw _).imp fun _ h => sameCI_word h rfl)

theorem se_setQuantifier : SE I e setQuantifier (fun a => a) :=
  .lexeme (se_wordKeep (l0_alt (l1_lit _ _).to0 (l1_lit _ _).to0) ap_quantWord)

/-- the quantifier with the blank after it -/
theorem se_optQuantifier : SE I e (optS setQuantifier)
    (fun q => q ++ (if q.isEmpty then [] else cs!" ")) :=
  SE.optIf (Q := IdentShape) (se_setQuantifier.padR (b := cs!" ") rfl)
    (.lexeme (.lexeme (.seqL ap_quantWord))) (fun a h => by simp [identShape_ne h]) rfl

theorem lastLoose_quant (q : Str) : lastLoose (q ++ (if q.isEmpty then [] else cs!" ")) = true := by
  cases q with
  | nil => rfl
  | cons c q => simp only [List.isEmpty_cons, Bool.false_eq_true, if_false]; rw [lastLoose_snoc]; rfl

theorem sp_chMark {f : Char → Bool} {c : Char} (hf : ∀ d, f d = true → d = c)
    (hm : marks.contains [c] = true) (hl : loose c = true) : SP I (Mark [c]) (chS f) (fun a => a) :=
  sp_tok (l1_chS f) ((ap_chS f).imp fun a ⟨d, h, hd⟩ => by
      rw [h, hf d hd]; exact ⟨.mark (by simpa using hm), rfl⟩)
    fun sk t a r h => .inl (by
      obtain ⟨d, ha, hd⟩ := ap_chS f _ _ _ _ h
      rw [ha, hf d hd]; exact apart_last hl)

theorem ap_chMark {f : Char → Bool} {c : Char} (hf : ∀ d, f d = true → d = c) :
    AP I (chS f) (fun a => a = [c]) := (ap_chS f).imp fun a ⟨d, h, hd⟩ => by rw [h, hf d hd]

theorem se_countStar : SE I e countStar (fun a => a) := by
  have m1 : ∀ d : Char, (d == '(') = true → d = '(' := fun d h => by simpa using h
  have m2 : ∀ d : Char, (d == '*') = true → d = '*' := fun d h => by simpa using h
  have m3 : ∀ d : Char, (d == ')') = true → d = ')' := fun d h => by simpa using h
  have h23 := SP.cat (I := I) (sp_chMark m2 rfl rfl) (sp_chMark m3 rfl rfl)
    (ap_chMark m2) (.trivial _) fun a b h _ => by rw [h]; exact apart_last rfl
  have h123 := SP.cat (I := I) (sp_chMark m1 rfl rfl) h23 (ap_chMark m1) (.trivial _)
    fun a b h _ => by rw [h]; exact apart_last rfl
  have hw : AP I (kw cs!"COUNT") (fun a => Token a ∧ True) :=
    (ap_kw cs!"COUNT").imp fun _ h => ⟨.word (sameCI_word h rfl), trivial⟩
  have h := sp_tokThenOf (I := I) (p := kw cs!"COUNT") (l1_lit true cs!"COUNT") hw h123
      (hl_cat (hl_chS fun c hc => by rw [m1 c hc]; rfl))
      ((ap_cat (ap_chMark m1) (.trivial _)).imp (R := fun b => headLoose b = true)
        fun b ⟨x, y, hb, hx, _⟩ => by rw [hb, hx]; rfl)
      fun a b h => apart_head h
  refine SP.map (f := fun x => x.1 ++ x.2) (h.imp fun l l' h => ?_) fun _ => rfl
  obtain ⟨_, _, _, _, rfl, rfl, h1, _, _, _, _, rfl, rfl, h2, _, _, _, _, rfl, rfl, h3, h4⟩ := h
  exact .append (edit_same h1) (.append (edit_same h2) (.append (edit_same h3) (edit_same h4)))

theorem se_nullLiteral : SE I e nullLiteral (fun a => a) :=
  (sp_split (L0.lexeme (l1_lit _ _).to0) (.lexeme (ap_kw _)) fun _ h =>
    ⟨.word (sameCI_word h rfl), .inr (.inr (.inr ⟨_, by simp, h⟩))⟩).imp fun _ _ => edit_same

theorem se_nullCast : SE I e nullCast (fun a => a) :=
  (sp_split l1_anyWord (.lexeme (ap_anyKw _)) fun _ h =>
    ⟨.nullCast h, .inr (.inr (.inl h))⟩).imp fun _ _ => edit_same

end

theorem se_generalSetFunction : SE K ε generalSetFunction (Prim.print fmt) :=
  (se_call l1_anyWord (ap_anyWord rfl) (se_argX (p := .expect "general_set_args" _)
    (SE.seq se_optQuantifier se_ve fun q _ => apart_last (lastLoose_quant q)))).map fun x => by
      simp [Prim.print]
      split <;> simp_all

theorem se_caseResult : SE K ε caseResult (CaseResult.print fmt) :=
  .alt (se_ve.map fun _ => by simp [CaseResult.print])
    (se_nullLiteral.map fun _ => by simp [CaseResult.print])

theorem se_when {I : (n : Rule) → Bool → Str → Attr n → Str → Prop} {e : Env} :
    SE I e (.seq (kw cs!"WHEN") andNsSpace) (fun _ => cs!"WHEN ") := se_kwNs _ _ rfl rfl rfl

theorem se_simpleWhen : SE K ε simpleWhen (SimpleWhen.print fmt) := by
  have h1 := SE.seqR (p := .expect "space" andNsSpace) (q := .expect "result" caseResult)
    (se_andNsSpace (I := K) (e := ε)) se_caseResult fun _ => nil_apart _
  have h2 := se_kwThen cs!"THEN" cs!" THEN " rfl rfl rfl h1 (hl_seqR hl_andNsSpace)
    fun _ => apart_last rfl
  have h3 : SE K ε (.seq (.expect "value_expression" (seqL ve (kw cs!"THEN")))
      (seqR (.expect "space" andNsSpace) (.expect "result" caseResult)))
      (fun x => x.1.print fmt ++ (cs!" THEN " ++ ([] ++ x.2.print fmt))) :=
    SP.seqExpect (SP.assoc (SE.seq se_ve (SP.seqR' (g := fun b => cs!" THEN " ++ ([] ++ b.print fmt)) h2
      fun _ => rfl) fun _ _ => apL rfl _ _))
  exact (SE.seqR se_when h3 fun _ => apart_last rfl).map fun x => by simp [SimpleWhen.print]

theorem se_searchedWhen : SE K ε searchedWhen (SearchedWhen.print fmt) :=
  (SE.seqR se_when (SE.seq (SE.seqL se_sc (se_kwNs cs!"THEN" cs!" THEN " rfl rfl rfl)
    fun _ => apL rfl _ _) se_caseResult fun a _ => apart_last (by
      rw [show (cs!" THEN " : Str) = cs!" THEN" ++ [' '] from rfl, ← List.append_assoc, lastLoose_snoc]; rfl))
    fun _ => apart_last rfl).map fun x => by simp [SearchedWhen.print]

/-- what `operator<<` prints for an ELSE clause -/
def printElse (fmt : Str → Str) (els : CaseResult) : Str :=
  if els.isEmpty then [] else cs!"ELSE " ++ els.print fmt ++ cs!" "

theorem lastLoose_else (r : CaseResult) : lastLoose (printElse fmt r) = true := by
  unfold printElse; split
  · rfl
  · rw [lastLoose_snoc]; rfl

theorem lastLoose_simpleWhens : ∀ l, lastLoose (printSimpleWhens fmt l) = true
  | [] => rfl
  | w :: l => by
    rw [printSimpleWhens]
    exact lastLoose_append (by rw [lastLoose_snoc]; rfl) (lastLoose_simpleWhens l)

theorem lastLoose_searchedWhens : ∀ l, lastLoose (printSearchedWhens fmt l) = true
  | [] => rfl
  | w :: l => by
    rw [printSearchedWhens]
    exact lastLoose_append (by rw [lastLoose_snoc]; rfl) (lastLoose_searchedWhens l)

/-- what `operator<<` prints after CASE -/
def caseTail (fmt : Str → Str) : CaseE → Str
  | .simple o ws els => o.print fmt ++ cs!" " ++ printSimpleWhens fmt ws ++ printElse fmt els ++ cs!"END"
  | .searched ws els => printSearchedWhens fmt ws ++ printElse fmt els ++ cs!"END"
  | _ => []

variable (hM : ∀ y, cfg.Mapped y → y ≠ [])

include hM in
theorem se_else : SE K ε (optD CaseResult.dflt elseClause) (printElse fmt) :=
  SE.optIf (Q := fun a => a.isEmpty = false)
    ((SE.seqR (se_kwNs cs!"ELSE" cs!"ELSE " rfl rfl rfl) se_caseResult fun _ => apart_last rfl).padR
      (b := cs!" ") rfl)
    (AP.up (ap_elseClause.imp fun _ h => h.ne hM))
    (fun a h => by simp [printElse, h]) rfl

theorem se_end {I : (n : Rule) → Bool → Str → Attr n → Str → Prop} {e : Env} :
    SE I e (kw cs!"END") (fun _ => cs!"END") :=
  se_kwSplit _ _ rfl rfl rfl fun x h => .inr (.inr (.inr ⟨_, by simp, h⟩))

include hM in
theorem se_simpleCase : SE K ε simpleCase (caseTail fmt) := by
  have hw : SE K ε (plus simpleWhen) (printSimpleWhens fmt) :=
    SE.plus (se_simpleWhen.padR (b := cs!" ") rfl) (by simp [printSimpleWhens])
      (fun a l => by simp [printSimpleWhens]) fun a u => apart_snoc rfl
  have h1 := SE.seq hw (se_else hM) fun l _ => apart_last (lastLoose_simpleWhens l)
  have h2 := SE.seq (se_ve.padR (b := cs!" ") rfl) h1 fun a _ => apart_snoc rfl
  have h3 := SE.seqL (q := .expect "END" (kw cs!"END")) h2 (se_end (I := K)) fun x => apart_last (by
    refine lastLoose_append ?_ (lastLoose_append (lastLoose_simpleWhens _) (lastLoose_else _))
    rw [lastLoose_snoc]; rfl)
  exact h3.map fun x => by simp [caseTail]

include hM in
theorem se_searchedCase : SE K ε searchedCase (caseTail fmt) := by
  have hw : SE K ε (plus searchedWhen) (printSearchedWhens fmt) :=
    SE.plus (se_searchedWhen.padR (b := cs!" ") rfl) (by simp [printSearchedWhens])
      (fun a l => by simp [printSearchedWhens]) fun a u => apart_snoc rfl
  have he := (SE.seq (se_andNsSpace (I := K) (e := ε)) se_end fun _ _ => nil_apart _).eq
    (g := fun _ => cs!"END") fun _ => rfl
  have h1 := SE.seqL (se_else hM) he fun l => apart_last (lastLoose_else l)
  have h2 := SE.seq hw h1 fun l _ => apart_last (lastLoose_searchedWhens l)
  exact h2.map fun x => by simp [caseTail]

include hM in
theorem se_caseSpecification : SE K ε caseSpecification (CaseE.print fmt) := by
  have h := SE.seqR (q := .expect "case" (.alt simpleCase searchedCase))
    (se_kwNs (I := K) (e := ε) cs!"CASE" cs!"CASE " rfl rfl rfl)
    (SP.alt (se_simpleCase hM) (se_searchedCase hM)) fun _ => apart_last rfl
  refine SP.congr (Q := fun c => cs!"CASE " ++ caseTail fmt c = c.print fmt) h
    (.seqR (.expect (.alt (.map (.seqL ((AP.trivial _).imp fun x _ => ?_)))
      (.map ((AP.trivial _).imp fun x _ => ?_))))) fun c h => h
  · simp [caseTail, CaseE.print, printElse]
  · simp [caseTail, CaseE.print, printElse]

include hM in
theorem se_caseExpression : SE K ε caseExpression (CaseE.print fmt) :=
  .alt (.alt ((SE.seqR (se_kwSym cs!"NULLIF" '(' rfl rfl rfl rfl) (se_args2 se_ve se_ve)
      fun _ => apart_last rfl).map fun x => by simp [CaseE.print])
    ((SE.seqR (se_kwSym cs!"COALESCE" '(' rfl rfl rfl rfl) (se_arg se_veList)
      fun _ => apart_last rfl).map fun x => by simp [CaseE.print]))
    (se_caseSpecification hM)

theorem se_openB {I : (n : Rule) → Bool → Str → Attr n → Str → Prop} {e : Env} :
    SE I e (sym cs!"[") (fun _ => cs!"[") := se_sym _ _ rfl rfl rfl
theorem se_closeB {I : (n : Rule) → Bool → Str → Attr n → Str → Prop} {e : Env} :
    SE I e (sym cs!"]") (fun _ => cs!"]") := se_sym _ _ rfl rfl rfl

theorem se_arrayConstructor : SE K ε arrayConstructor (Prim.print fmt) :=
  (SE.seqL (SE.seqR (se_kwSym cs!"ARRAY" '[' rfl rfl rfl rfl) se_veList fun _ => apart_last rfl)
    (SP.expect se_closeB) fun _ => apL rfl _ _).map fun x => by simp [Prim.print]

include hM in
theorem se_primary : SE K ε primary (Prim.print fmt) :=
  .alt se_arrayConstructor (.alt (se_unsignedLiteral.map fun _ => by simp [Prim.print])
    (.alt (se_columnReference.map fun _ => by simp [Prim.print])
    (.alt (.alt (se_countStar.map fun _ => by simp [Prim.print]) se_generalSetFunction)
    (.alt ((se_caseExpression hM).map fun _ => by simp [Prim.print])
    (.alt ((SE.seqR (se_kwSym cs!"ANY" '(' rfl rfl rfl rfl) (se_argX se_xVe)
      fun _ => apart_last rfl).map fun x => by simp [Prim.print])
    (.alt (se_nullCast.map fun _ => by simp [Prim.print])
    (.alt (se_nullLiteral.map fun _ => by simp [Prim.print])
    ((SE.seqR se_open (se_arg se_ve) fun _ => apart_last rfl).map fun x => by
      simp [Prim.print]))))))))

include hM in
theorem se_valueExpressionPrimary : SE K ε valueExpressionPrimary (VEP.print fmt) := by
  have hi : SE K ε arrayIndex (fun a => cs!"[" ++ (a.print fmt ++ cs!"]")) :=
    SE.seqR se_openB (SE.seqL se_ve se_closeB fun _ => apL rfl _ _) fun _ => apart_last rfl
  have hs : SE K ε (.star arrayIndex) (printIdx fmt) :=
    SE.star hi (.trivial _) (by simp [printIdx]) (fun a l => by simp [printIdx])
      fun a b l _ _ => by simp only [printIdx]; exact apL rfl _ _
  refine (SE.seq (se_primary hM) hs fun a l => ?_).map fun x => by simp [VEP.print]
  cases l with
  | nil => simp only [printIdx]; exact apart_nil _
  | cons b l => simp only [printIdx]; exact apL rfl _ _

include hM in
theorem se_numericPrimary : SE K ε numericPrimary (NumPrim.print fmt) :=
  .alt (se_numericValueFunction.map fun _ => by simp [NumPrim.print])
    ((se_valueExpressionPrimary hM).map fun _ => by simp [NumPrim.print])

section
variable {I : (n : Rule) → Bool → Str → Attr n → Str → Prop} {e : Env}

theorem se_marks {p : G Str} {ws : List Str} (h1 : L1 I p) (h : AP I p (fun a => a ∈ ws))
    (hw : (ws.all fun w => marks.contains w && lastLoose w) = true) : SE I e p (fun a => a) :=
  (sp_tok h1 (h.imp (R := fun a => Token a ∧ True) fun a ha => by
      have := List.all_eq_true.1 hw a ha
      simp only [Bool.and_eq_true] at this
      exact ⟨.mark (by simpa using this.1), trivial⟩) fun sk t a r hs => .inl (by
      have := List.all_eq_true.1 hw a (h _ _ _ _ hs)
      simp only [Bool.and_eq_true] at this
      exact apart_last this.2)).imp fun _ _ => edit_same

theorem se_sign : SE I e sign (fun a => a) :=
  se_marks (ws := [cs!"+", cs!"-"]) l1_sign (ap_sign.imp fun a h => by simpa using h) rfl

theorem l1_binaryOperators : L1 I binaryOperators :=
  L0.lexeme (l0_alt (l1_lit _ _).to0 (l0_alt (l1_lit _ _).to0 (l0_alt (l1_lit _ _).to0
    (l0_alt (l1_lit _ _).to0 (l1_lit _ _).to0))))

theorem se_binaryOperators : SE I e binaryOperators (fun a => a) :=
  se_marks l1_binaryOperators ap_binaryOperators rfl

theorem l1_compOp : L1 I compOp :=
  l1_alt (l1_lit _ _) (l1_alt (l1_lit _ _) (l1_alt (l1_lit _ _) (l1_alt (l1_lit _ _)
    (l1_alt (l1_lit _ _) (l1_alt (l1_lit _ _) (l1_lit _ _))))))

theorem se_compOp : SE I e compOp (fun a => a) := se_marks l1_compOp ap_compOp rfl

end

include hM in
theorem se_factor : SE K ε factor (Factor.print fmt) :=
  (SE.seqOf (SE.optD se_sign rfl) (se_numericPrimary hM)
    ((ap_optS ap_sign).imp (R := fun a => lastLoose a = true) fun a h => by
      rcases h with rfl | rfl | rfl <;> rfl) (.trivial _)
    fun a _ h _ => apart_last h).map fun x => by simp [Factor.print]

/-- the operator of a term stands apart -/
def LooseTerm (t : Term) : Prop := ∃ c o f, t = .mk (c :: o) f ∧ loose c = true

theorem ap_looseTerm : AP K venbTerm LooseTerm :=
  .map ((AP.seq ap_binaryOperators (.trivial _)).imp fun x h => by
    have := h.1
    simp only [List.mem_cons, List.not_mem_nil, or_false] at this
    rcases this with h | h | h | h | h <;> exact ⟨_, _, _, by rw [h], rfl⟩)

include hM in
theorem se_venbTerm : SE K ε venbTerm (Term.print fmt) :=
  (SE.seqOf se_binaryOperators (se_factor hM)
    (ap_binaryOperators.imp (R := fun a => lastLoose a = true) fun a h => by
      simp only [List.mem_cons, List.not_mem_nil, or_false] at h
      rcases h with rfl | rfl | rfl | rfl | rfl <;> rfl) (.trivial _)
    fun a _ h _ => apart_last h).map fun x => by simp [Term.print]

theorem apart_terms {u : Str} {l : List Term} (h : ∀ t ∈ l, LooseTerm t) :
    Apart u (printTerms fmt l) := by
  cases l with
  | nil => simp only [printTerms]; exact apart_nil _
  | cons t l =>
    obtain ⟨c, o, f, rfl, hc⟩ := h t (by simp)
    simp only [printTerms, Term.print, List.cons_append]
    exact apL hc _ _

include hM in
theorem se_venbBody : SE K ε venbBody (VENB.print fmt) := by
  have hs : SE K ε (.star venbTerm) (printTerms fmt) :=
    SE.star (se_venbTerm hM) ap_looseTerm (by simp [printTerms]) (fun a l => by simp [printTerms])
      fun a b l _ hb => by
        obtain ⟨c, o, f, rfl, hc⟩ := hb
        simp only [printTerms, Term.print, List.cons_append]
        exact apL hc _ _
  exact (SE.seqOf (se_factor hM) hs (.trivial _) (.star ap_looseTerm)
    fun a l _ hl => apart_terms hl).map fun x => by simp [VENB.print]

theorem se_veBody : SE K ε veBody (VE.print fmt) :=
  .alt (se_venb.map fun _ => by simp [VE.print]) (se_sc.map fun _ => by simp [VE.print])

end

end Adql
