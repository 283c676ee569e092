import Verif.Model.FaithfulExpr

/-!
# Predicates and search conditions, read side by side with `operator<<`
-/

namespace Adql

open Spec P

section
variable {I : (n : Rule) → Bool → Str → Attr n → Str → Prop} {e : Env} {α β γ : Type}

/-- a word followed by a blank, formatted by `g` -/
theorem sp_wordMap {p : G Str} {q : G Unit} {W : Str → Str → Prop} {g : Str → Str} (hz : Z0 I q)
    (hh : ∀ t x r, sem I q false t x r → headLoose (t ++ r) = true) (h1 : L0 I p)
    (hp : AP I p (fun a => Token a ∧ W a (g a))) :
    SP I (One W) (.lexeme (seqL p q)) g := by
  rintro sk t a r ⟨b, t', rfl, hb, ⟨x, rfl, t₁, t₂, rfl, hp', hs⟩, -⟩
  have h0 := hz _ _ _ hs
  have h1 := h1 _ _ _ hp'
  have h2 := hh _ _ _ hs
  have h3 := hp _ _ _ _ hp'
  subst h0
  rw [h1]
  simp only [List.append_nil, List.nil_append] at h2 ⊢
  exact ShowsBy.tok hb.1 h3.1 (.inl (apart_loose h2)) h3.2

/-- a blank -/
theorem se_blank : SE I e (chS isSpace) (fun _ => []) := by
  rintro sk t x r ⟨c, rfl, b, rfl, hb, hc⟩
  refine ⟨[], [], .nil ?_, .nil, .nil blanks_nil⟩
  intro d hd
  rcases List.mem_append.1 hd with hd | hd
  · exact hb.1 d hd
  · simp at hd; rw [hd]; exact hc

/-- what `operator<<` prints for a NOT that is formatted in upper case -/
def printNot (n : Str) : Str := if n.isEmpty then [] else cs!"NOT "

theorem lastLoose_printNot (n : Str) : lastLoose (printNot n) = true := by
  unfold printNot; split <;> rfl

theorem se_notWordX : SE I e (optS (wordX cs!"NOT")) printNot :=
  SE.optIf (Q := fun a => a.isEmpty = false) (se_wordX cs!"NOT" cs!"NOT " rfl rfl rfl)
    ((ap_wordX _).imp fun _ h => sameCI_ne h (by simp)) (fun a h => by simp [printNot, h]) rfl

theorem se_notWord : SE I e (optS (word cs!"NOT")) printNot :=
  SE.optIf (Q := fun a => a.isEmpty = false) (se_word cs!"NOT" cs!"NOT " rfl rfl rfl)
    ((ap_word _).imp fun _ h => sameCI_ne h (by simp)) (fun a h => by simp [printNot, h]) rfl

theorem se_notKeep : SE I e (optS (wordX cs!"NOT")) (fun n => n ++ (if n.isEmpty then [] else cs!" ")) :=
  SE.optIf (Q := fun a => a.isEmpty = false)
    (((sp_wordKeep (q := .expect "space" andSpace) z0_andSpace (fun _ _ _ => hl_andSpace)
      (l1_lit true cs!"NOT").to0 ((ap_kw _).imp (R := fun a => Token a ∧ True)
        fun _ h => ⟨.word (sameCI_word h rfl), trivial⟩)).imp fun _ _ => edit_same).padR (b := cs!" ") rfl)
    ((ap_wordX _).imp fun _ h => sameCI_ne h (by simp)) (fun a h => by simp [h]) rfl

theorem se_inNot : SE I e inNot printNot := by
  have h2 : SE I e (.lexeme (cat (kw cs!"NOT") (.expect "space" (chS isSpace)))) (fun _ => cs!"NOT ") :=
    SP.lexeme (SP.map (f := fun _ => cs!"NOT ") ((se_kwThen (I := I) (e := e)
      (q := .expect "space" (chS isSpace)) cs!"NOT" cs!"NOT " rfl rfl rfl se_blank
      (hl_chS fun c hc => loose_space hc) fun _ => apart_nil _).eq fun _ => rfl) fun _ => rfl)
  exact SE.optIf (Q := fun a => a.isEmpty = false) h2
    (.lexeme ((ap_cat (ap_kw _) (.trivial _)).imp fun a ⟨x, y, h, hx, _⟩ => by
      have := sameCI_ne hx (by simp)
      rw [h]; simp at this ⊢; simp [this])) (fun a h => by simp [printNot, h]) rfl

end

section
variable {cfg : Config} {fmt : Str → Str} {α β γ : Type}

local notation "K" => KInv cfg fmt
local notation "ε" => env cfg fmt

theorem se_venbB : SE K ε venb (fun v => v.print fmt ++ cs!" ") := se_venb.padR rfl

theorem se_comparisonPredicate : SE K ε comparisonPredicate (Pred.print fmt) :=
  (SE.seq se_venbB (SE.seq (se_compOp.padR (b := cs!" ") rfl) se_ve fun _ _ => apart_snoc rfl)
    fun _ _ => apart_snoc rfl).map fun x => by simp [Pred.print]

theorem se_betweenPredicate : SE K ε betweenPredicate (Pred.print fmt) :=
  (SE.seq se_venbB (SE.seq se_notKeep (SE.seqR (se_wordX cs!"BETWEEN" cs!"BETWEEN " rfl rfl rfl)
    (SE.seq se_ve (SE.seqR (se_wordX cs!"AND" cs!" AND " rfl rfl rfl) se_ve fun _ => apart_last rfl)
      fun _ _ => apL rfl _ _) fun _ => apart_last rfl) fun n _ => apart_last (lastLoose_quant n))
    fun _ _ => apart_snoc rfl).map fun x => by simp [Pred.print]

/-- the two kinds of right hand sides of IN -/
def printIn (fmt : Str → Str) : Subquery ⊕ List VE → Str
  | .inl q => q.print fmt
  | .inr l => cs!"(" ++ (joinSep cs!", " (printVEs fmt l) ++ cs!")")

theorem se_inPredicate : SE K ε inPredicate (Pred.print fmt) := by
  have hl : SE K ε (sepBy ve (sym cs!",")) (fun l => joinSep cs!", " (printVEs fmt l)) :=
    (se_listB se_ve).eq fun l => by rw [printVEs_eq]
  have h : SE K ε (.alt (.map Sum.inl subq)
      (.map Sum.inr (seqR (sym cs!"(") (seqL (sepBy ve (sym cs!",")) (sym cs!")"))))) (printIn fmt) :=
    .alt (se_subq.map fun _ => rfl) ((SE.seqR se_open (se_arg hl) fun _ => apart_last rfl).map
      fun _ => rfl)
  refine (SE.seq se_venbB (SE.seq se_inNot (SE.seqR (se_wordX cs!"IN" cs!"IN " rfl rfl rfl) h
    fun _ => apart_last rfl) fun n _ => apart_last (lastLoose_printNot n))
      fun _ _ => apart_snoc rfl).map ?_
  rintro ⟨v, n, q | l⟩ <;> simp [Pred.print, printIn, printNot]

theorem se_null {I : (n : Rule) → Bool → Str → Attr n → Str → Prop} {e : Env} :
    SE I e (kw cs!"NULL") (fun _ => cs!"NULL") :=
  se_kwSplit _ _ rfl rfl rfl fun x h => .inr (.inr (.inr ⟨_, by simp, h⟩))

theorem se_nullPredicate : SE K ε nullPredicate (Pred.print fmt) :=
  (SE.seq se_venb (SE.seqR (se_wordX cs!"IS" cs!" IS " rfl rfl rfl) (SE.seqL se_notWordX se_null
    fun n => apart_last (lastLoose_printNot n)) fun _ => apart_last rfl)
    fun _ _ => apL rfl _ _).map fun x => by simp [Pred.print, printNot]

theorem se_likePredicate : SE K ε likePredicate (Pred.print fmt) :=
  (SE.seq se_venbB (SE.seq se_notWord (SE.seqR (se_word cs!"LIKE" cs!"LIKE " rfl rfl rfl)
    se_venb fun _ => apart_last rfl) fun n _ => apart_last (lastLoose_printNot n))
    fun _ _ => apart_snoc rfl).map fun x => by
      simp only [Pred.print, printNot, VE.print]; split <;> simp

theorem se_existsPredicate : SE K ε existsPredicate (Pred.print fmt) :=
  (SE.seqR (se_wordX cs!"EXISTS" cs!"EXISTS " rfl rfl rfl) se_subq fun _ => apart_last rfl).map
    fun x => by simp [Pred.print]

theorem se_predicate : SE K ε predicate (Pred.print fmt) :=
  .alt se_comparisonPredicate (.alt se_betweenPredicate (.alt se_inPredicate (.alt se_nullPredicate
    (.alt se_likePredicate se_existsPredicate))))

theorem se_booleanPrimary : SE K ε booleanPrimary (BP.print fmt) :=
  .alt (se_predicate.map fun _ => by simp [BP.print])
    (.alt ((SE.seqR se_open (se_arg se_sc) fun _ => apart_last rfl).map fun x => by simp [BP.print])
      (se_venb.map fun _ => by simp [BP.print]))

/-- the NOT of a factor, with what is left behind by one that was refused -/
theorem se_factorNot : SE K ε (factorNot cfg.residue)
    (fun n => n ++ (if n.isEmpty then [] else cs!" ")) := by
  have hkeep : ∀ x : Str, SameCI x cs!"NOT" → x ++ cs!" " = x ++ (if x.isEmpty then [] else cs!" ") :=
    fun x h => by simp [sameCI_ne h (by simp)]
  have h1 : SE K ε (word cs!"NOT") (fun n => n ++ (if n.isEmpty then [] else cs!" ")) :=
    SP.congr ((se_wordKeep (l1_lit true cs!"NOT").to0 ((ap_kw _).imp
      fun _ h => sameCI_word h rfl)).padR (b := cs!" ") rfl) (ap_word _) hkeep
  have h3 : SE K ε (.pure []) (fun n : Str => n ++ (if n.isEmpty then [] else cs!" ")) :=
    SE.pure rfl
  refine .alt h1 ?_
  cases hr : cfg.residue with
  | false => exact h3
  | true =>
    refine .alt ?_ h3
    rintro sk t n r ⟨rfl, t', r', rfl, h⟩
    have hn : SameCI n cs!"NOT" := AP.lexeme (ap_kw _) _ _ _ _ h
    show ShowsBy _ _ (n ++ (if n.isEmpty then [] else cs!" ")) _
    rw [← hkeep n hn]
    refine ⟨[], [n], .nil blanks_nil, .negate (by simp [env, hr]) hn, ?_⟩
    have := (Laid.tok n).append (.nil (b := cs!" ") (by simp [Blanks, isSpace])) (apart_head rfl)
    exact this

theorem se_booleanFactor : SE K ε (booleanFactor cfg.residue) (BF.print fmt) :=
  (SE.seq se_factorNot se_booleanPrimary fun n _ => apart_last (lastLoose_quant n)).map
    fun x => by simp [BF.print]

/-- a word of a list, formatted in upper case -/
def UpperR (ws : List Str) (x y : Str) : Prop := ∃ w ∈ ws, Kw w x y

theorem se_logicalOp {I : (n : Rule) → Bool → Str → Attr n → Str → Prop} {e : Env} :
    SE I e logicalOp upper := by
  have h : SP I (One (UpperR [cs!"AND", cs!"OR"])) logicalOp upper :=
    sp_wordMap z0_andSpace (fun _ _ _ => hl_andSpace) (l0_alt (l1_lit _ _).to0 (l1_lit _ _).to0)
      (.alt ((ap_kw _).imp fun x h => ⟨.word (sameCI_word h rfl), cs!"AND", by simp, upper_sameCI h, h⟩)
        ((ap_kw _).imp fun x h => ⟨.word (sameCI_word h rfl), cs!"OR", by simp, upper_sameCI h, h⟩))
  refine h.imp ?_
  rintro l l' ⟨x, y, rfl, rfl, w, hw, rfl, hx⟩
  refine .case ?_ hx
  revert hw
  simp only [List.mem_cons, List.not_mem_nil, or_false]
  rintro (rfl | rfl) <;> simp [keywords]

theorem ap_logicalOp {I : (n : Rule) → Bool → Str → Attr n → Str → Prop} :
    AP I logicalOp (OneOf [cs!"AND", cs!"OR"]) :=
  .lexeme (.seqL (.alt ((ap_kw _).imp fun _ h => ⟨_, by simp, h⟩)
    ((ap_kw _).imp fun _ h => ⟨_, by simp, h⟩)))

theorem se_scBody (hM : ∀ y, cfg.Mapped y → y ≠ []) : SE K ε (scBody cfg.residue) (SC.print fmt) := by
  refine .alt ?_ ?_
  · have h := SE.seq se_booleanFactor (SE.seq ((se_logicalOp (I := K) (e := ε)).pad (b := cs!" ")
      (b' := cs!" ") rfl rfl) se_sc fun a _ => by
        rw [← List.append_assoc]; exact apart_snoc rfl) fun _ _ => apL rfl _ _
    have ha : AP K (.seq (booleanFactor cfg.residue) (.seq logicalOp sc))
        (fun x => x.2.1.isEmpty = false) :=
      (AP.seq (.trivial _) (.seq ap_logicalOp (.trivial _))).imp fun x h =>
        oneOf_ne h.2.1 (by decide)
    exact SP.map (f := fun x => (SC.term x.1 x.2.1 x.2.2).print fmt) (h.congr ha fun x hx => by
      simp [SC.print, SC.isEmpty, hx]) fun _ => rfl
  · exact SP.map (f := fun x => (SC.factor x).print fmt) (se_booleanFactor.congr
      (AP.up ((ap_booleanFactor cfg.residue).imp fun x h => h.ne hM)) fun x hx => by
        have : (SC.factor x).isEmpty = false := by rw [SC.isEmpty]; exact hx
        simp [SC.print, this]) fun _ => rfl

end

end Adql
