import Verif.Model.FaithfulPred

/-!
# Tables and joins, read side by side with `operator<<`
-/

namespace Adql

open Spec P

section
variable {I : (n : Rule) → Bool → Str → Attr n → Str → Prop} {e : Env} {α β γ : Type}
  {R S : List Str → List Str → Prop}

/-- `R` on the left is dropped from the formatted text -/
def DropL (R S : List Str → List Str → Prop) (l l' : List Str) : Prop :=
  ∃ a a' b, l = a ++ b ∧ R a a' ∧ S b l'
/-- `S` on the right is dropped from the formatted text -/
def DropR (R S : List Str → List Str → Prop) (l l' : List Str) : Prop :=
  ∃ a b b', l = a ++ b ∧ R a l' ∧ S b b'

theorem SP.dropL {p : G α} {q : G β} {f : α → Str} {g : β → Str} (h : SP I R p f) (h' : SP I S q g) :
    SP I (DropL R S) (P.seqR p q) g := by
  rintro sk t b r ⟨⟨a, b'⟩, rfl, t1, t2, rfl, h1, h2⟩
  obtain ⟨l, l', k1, k2, -⟩ := h _ _ _ _ h1
  obtain ⟨m, m', j1, j2, j3⟩ := h' _ _ _ _ h2
  exact ⟨l ++ m, m', k1.append j1, ⟨l, l', m, rfl, k2, j2⟩, j3⟩

theorem SP.dropR {p : G α} {q : G β} {f : α → Str} {g : β → Str} (h : SP I R p f) (h' : SP I S q g) :
    SP I (DropR R S) (P.seqL p q) f := by
  rintro sk t b r ⟨⟨b', a⟩, rfl, t1, t2, rfl, h1, h2⟩
  obtain ⟨l, l', k1, k2, k3⟩ := h _ _ _ _ h1
  obtain ⟨m, m', j1, j2, -⟩ := h' _ _ _ _ h2
  exact ⟨l ++ m, l', k1.append j1, ⟨l, m, m', rfl, k2, j2⟩, k3⟩

/-- an optional AS that is dropped -/
def AsOpt (l l' : List Str) : Prop := l' = [] ∧ (l = [] ∨ ∃ a, SameCI a cs!"AS" ∧ l = [a])

theorem sp_asOpt : SP I AsOpt (optS (word cs!"AS")) (fun _ => []) := by
  rintro sk t a r (h | ⟨rfl, -⟩)
  · obtain ⟨l, l', h1, ⟨x, y, rfl, rfl, -, hx⟩, -⟩ := sp_word cs!"AS" cs!"AS" rfl rfl _ _ _ _ h
    exact ⟨[x], [], h1, ⟨rfl, .inr ⟨x, hx, rfl⟩⟩, .nil blanks_nil⟩
  · exact ⟨[], [], .nil blanks_nil, ⟨rfl, .inl rfl⟩, .nil blanks_nil⟩

theorem se_correlationSpecification : SE I e correlationSpecification (fun a => a) := by
  refine (SP.dropL sp_asOpt sp_identifier).imp ?_
  rintro l l' ⟨a, a', b, rfl, ⟨-, rfl | ⟨x, hx, rfl⟩⟩, ⟨n, _, rfl, rfl, rfl, hn⟩⟩
  · exact .keep
  · exact .dropAs hx hn

theorem ap_correlationSpecification : AP I correlationSpecification Name := .seqR ap_identifier

/-- a name with a blank in front of it, or nothing -/
def printAs (a : Str) : Str := if a.isEmpty then [] else cs!" " ++ a

theorem headLoose_printAs (a : Str) : headLoose (printAs a) = true := by
  unfold printAs; split <;> rfl

theorem se_corr : SE I e (optS correlationSpecification) printAs :=
  SE.optIf (se_correlationSpecification.padL (b := cs!" ") rfl) ap_correlationSpecification
    (fun a h => by simp [printAs, name_ne h]) rfl

end

section
variable {cfg : Config} {fmt : Str → Str} {α β γ : Type}

local notation "K" => KInv cfg fmt
local notation "ε" => env cfg fmt

theorem se_tableCorrelation : SE K ε tableCorrelation TableCorr.print :=
  (SE.seq se_tableName se_corr fun _ b => apart_head (headLoose_printAs b)).map
    fun x => by simp [TableCorr.print, printAs]

section
variable {I : (n : Rule) → Bool → Str → Attr n → Str → Prop} {e : Env}

theorem ap_kwWord {w : Str} (hw : wordB w = true) : AP I (kw w) IdentShape :=
  (ap_kw w).imp fun _ h => sameCI_word h hw

theorem se_flag (w c : Str) (hw : wordB w = true) (hk : keywords.contains w = true)
    (hc : padded c w = true) : SE I e (optD false (.map (fun _ => true) (word w)))
      (fun b => if b then c else []) :=
  SE.optD (SP.map (f := fun _ => c) (se_word w c hw hk hc) fun _ => rfl) rfl

theorem se_joinType : SE I e (optD (.str []) joinType) JoinType.print := by
  refine SE.optD (.alt ((se_wordKeep (l1_lit _ _).to0 (ap_kwWord rfl)).map fun _ => rfl) ?_) rfl
  refine (SE.seq (se_wordKeep (l0_alt (l1_lit _ _).to0 (l0_alt (l1_lit _ _).to0 (l1_lit _ _).to0))
    (.alt (ap_kwWord rfl) (.alt (ap_kwWord rfl) (ap_kwWord rfl))))
    (se_flag cs!"OUTER" cs!" OUTER" rfl rfl rfl) fun _ b => apart_head ?_).map fun x => rfl
  split <;> rfl

end

theorem se_joinSpecification : SE K ε joinSpecification (JoinSpec.print fmt) := by
  refine .alt ((SE.seqR (se_word cs!"ON" cs!"ON " rfl rfl rfl) se_sc fun _ => apart_last rfl).map
    fun x => by simp [JoinSpec.print]) ?_
  have h1 : SE K ε (.seq (word cs!"USING") (sym cs!"(")) (fun _ => cs!"USING " ++ cs!"(") :=
    SE.seq (se_word cs!"USING" cs!"USING " rfl rfl rfl) se_open fun _ _ => apart_last rfl
  have h2 := se_argX (I := K) (e := ε) (p := .expect "join column list" (sepBy identifier (sym cs!",")))
    (se_listB se_identifier)
  exact (SE.seqR h1 h2 fun _ => apart_last rfl).map fun x => by simp [JoinSpec.print]

variable (hM : ∀ y, cfg.Mapped y → y ≠ [])

include hM in
theorem se_joinSuffix : SE K ε joinSuffix (JoinSuffix.print fmt) := by
  have h1 : SE K ε (optD JoinSpec.dflt joinSpecification)
      (fun sp => if sp.isEmpty then [] else cs!" " ++ sp.print fmt) :=
    SE.optIf (Q := fun a => a.isEmpty = false) (se_joinSpecification.padL (b := cs!" ") rfl)
      (AP.up (ap_joinSpecification.imp fun _ h => h.ne hM)) (fun a h => by simp [h]) rfl
  have h2 := SE.seq se_tr h1 fun _ _ => apart_head (by split <;> rfl)
  have h3 := SE.seqL (se_joinType (I := K) (e := ε)) (se_word cs!"JOIN" cs!" JOIN " rfl rfl rfl)
    fun _ => apL rfl _ _
  have h4 := SE.seq h3 (SP.expect (w := "table reference") h2) fun a _ => apart_last (by
      rw [show (cs!" JOIN " : Str) = cs!" JOIN" ++ [' '] from rfl, ← List.append_assoc, lastLoose_snoc]; rfl)
  have h5 := SE.seq (se_flag (I := K) (e := ε) cs!"NATURAL" cs!"NATURAL " rfl rfl rfl) h4
    fun a _ => apart_last (by split <;> rfl)
  exact h5.map fun x => by simp [JoinSuffix.print]

theorem se_parenJoined : SE K ε parenJoined (fun j => cs!"(" ++ (j.print fmt ++ cs!")")) :=
  SE.seqR se_open (se_arg se_jt) fun _ => apart_last rfl

include hM in
theorem se_qualifiedJoin : SE K ε qualifiedJoin (QJ.print fmt) := by
  have h1 : SE K ε (.alt (.map (fun j => .jt (.wrap j)) parenJoined) (.map .tc tableCorrelation))
      (QJHead.print fmt) :=
    .alt (se_parenJoined.map fun x => by simp [QJHead.print, JT.print])
      (se_tableCorrelation.map fun x => by simp [QJHead.print])
  have h2 : SE K ε (plus joinSuffix) (printSuffixes fmt) :=
    SE.plus ((se_joinSuffix hM).padR (b := cs!" ") rfl) (by simp [printSuffixes])
      (fun a l => by simp [printSuffixes]) fun a u => apart_snoc rfl
  exact (SE.seq (h1.padR (b := cs!" ") rfl) h2 fun _ _ => apart_snoc rfl).map
    fun x => by simp [QJ.print]

include hM in
theorem se_jtBody : SE K ε jtBody (JT.print fmt) :=
  .alt ((se_qualifiedJoin hM).map fun x => by simp [JT.print])
    (se_parenJoined.map fun x => by simp [JT.print])

theorem se_derivedCorrelation : SE K ε derivedCorrelation (TR.print fmt) := by
  have h : SE K ε correlationSpecification printAs :=
    SP.congr (se_correlationSpecification.padL (b := cs!" ") rfl) ap_correlationSpecification
      fun a h => by simp [printAs, name_ne h]
  exact (SE.seq se_subq h fun _ b => apart_head (headLoose_printAs b)).map
    fun x => by simp [TR.print, printAs]

/-! ### Table functions -/

section
variable {I : (n : Rule) → Bool → Str → Attr n → Str → Prop} {e : Env}

theorem pq_quote {a : Str} (h : PQName a) : '\'' ∉ a := by
  obtain ⟨c, t, rfl, hc, ht⟩ := h
  have hi : ¬ IdChar '\'' := by rw [← isIdChar_iff]; decide
  intro hm
  rcases List.mem_cons.1 hm with rfl | hm
  · exact hi (.inl hc)
  · rcases ht _ hm with h | h
    · exact hi h
    · revert h; decide

theorem strLit_plain {b : Str} (h : '\'' ∉ b) : StrLit ('\'' :: (b ++ ['\''])) :=
  ⟨'\'' :: (b ++ ['\'']), [], by simp, ⟨_, rfl, qbody_plain h⟩, .nil⟩

theorem strLit_arg {b a b' : Str} (hb : Blanks b) (ha : PQName a) (hb' : Blanks b') :
    StrLit ('\'' :: (b ++ (a ++ (b' ++ ['\''])))) := by
  have := strLit_plain (b := b ++ (a ++ b')) (by
    simp only [List.mem_append, not_or]
    exact ⟨not_mem_blanks hb rfl, pq_quote ha, not_mem_blanks hb' rfl⟩)
  simpa using this

theorem reads_mark {w t r : Str} {l : List Str} (hw : marks.contains w = true) (hl : lastLoose w = true)
    (h : Reads t l r) : Reads (w ++ t) (w :: l) r := by
  have := Reads.cons (b := []) blanks_nil (.mark (by simpa using hw)) (.inl (apart_last hl)) h
  simpa using this

/-- the quoted arguments, formatted -/
def quoteArg (a : Str) : Str := cs!"'" ++ a ++ cs!"'"

/-- The arguments of a table function, from the first one to the closing quote. -/
theorem args_read {sk : Bool} {u : Str} {as : List Str} {r : Str}
    (h : SemStar (sem I (seqR (sym cs!"','") pqIdentifier) sk) u as r) :
    ∀ b a b' r', Blanks b → PQName a → Blanks b' → headLoose r' = true →
      ∃ L L', Reads ('\'' :: (b ++ (a ++ (u ++ (b' ++ ['\'']))))) L r' ∧ ArgsEdit L L' ∧
        Laid (quoteArg a ++ sepRest cs!"," quoteArg as) L' := by
  induction h with
  | nil =>
    intro b a b' r' hb ha hb' hr
    refine ⟨_, _, ?_, .one hb ha hb', ?_⟩
    · have := Reads.cons (b := []) (t := []) (r := r') blanks_nil (.str (strLit_arg hb ha hb'))
        (.inl (apart_head hr)) (.nil blanks_nil)
      simpa using this
    · simpa [sepRest, quoteArg] using Laid.tok ('\'' :: (a ++ ['\'']))
  | @cons t a2 u as r h1 h2 ih =>
    intro b a b' r' hb ha hb' hr
    obtain ⟨⟨q, _⟩, rfl, t1, t2, rfl, k1, k2⟩ := h1
    have hq : q = cs!"','" := ap_sym _ _ _ _ _ k1
    obtain ⟨bq, hbq, rfl⟩ := l1_lit _ _ _ _ _ _ k1
    subst hq
    have ha2 : PQName a2 := ap_pq _ _ _ _ k2
    obtain ⟨b2, hb2, rfl⟩ := l1_pq _ _ _ _ k2
    obtain ⟨L, L', g1, g2, g3⟩ := ih b2 a2 b' r' hb2.1 ha2 hb' hr
    refine ⟨_, _, ?_, .cons hb ha hbq.1 g2, ?_⟩
    · have r2 := reads_mark (w := cs!",") rfl rfl g1
      have := Reads.cons (b := []) blanks_nil (.str (strLit_arg hb ha hbq.1))
        (.inl (apart_head rfl)) r2
      simpa using this
    · have l2 := (Laid.tok cs!",").append g3 (apart_last rfl)
      have := (Laid.tok ('\'' :: (a ++ ['\'']))).append l2 (apart_head rfl)
      simpa [sepRest, quoteArg] using this

/-- the word `table` and its parenthesis -/
theorem table_split {x : Str} (h : SameCI x cs!"table(") : ∃ w, x = w ++ cs!"(" ∧ SameCI w cs!"table" := by
  obtain ⟨w, c, rfl⟩ : ∃ w c, x = w ++ [c] := by
    rcases List.eq_nil_or_concat x with rfl | ⟨w, c, rfl⟩
    · simp [SameCI] at h
    · exact ⟨w, c, List.concat_eq_append⟩
  have h' : w.map lowerC ++ [lowerC c] = cs!"table".map lowerC ++ [lowerC '('] := by
    simpa [SameCI] using h
  obtain ⟨h1, h2⟩ := List.append_inj' h' rfl
  simp at h2
  have hc : c = '(' := by
    have := congrArg Char.toNat h2
    rw [lowerC_toNat, lowerC_toNat] at this
    apply Char.toNat_inj.1
    revert this
    show _ = 40 → _ = 40
    split <;> omega
  exact ⟨w, by rw [hc], h1⟩

theorem se_tableValuedFunction : SE I e tableValuedFunction (TR.print fmt) := by
  rintro sk t a r ⟨⟨n, args⟩, rfl, t1, t2, rfl, ⟨b, t', rfl, hb, ⟨⟨x, _⟩, rfl, u1, u2, rfl, h1,
    ⟨n', q⟩, rfl, u3, u4, rfl, h2, h3⟩, -⟩, ⟨⟨_, y⟩, rfl, v1, v2, rfl, ⟨⟨_, z⟩, rfl, v3, v4, rfl, h4, h5⟩, h6⟩⟩
  have hx : SameCI x cs!"table(" := ap_kw _ _ _ _ _ h1
  have e1 := (l1_lit true cs!"table(").to0 _ _ _ h1
  have hn : PQName n := ap_pq _ _ _ _ h2
  have e2 := l1_pq.to0 _ _ _ h2
  have hq : q = cs!"('" := ap_sym _ _ _ _ _ h3
  have e3 := (l1_lit false cs!"('").to0 _ _ _ h3
  have hz : z = cs!"')" := ap_sym _ _ _ _ _ h5
  obtain ⟨b5, hb5, rfl⟩ := l1_lit _ _ _ _ _ _ h5
  have hy : y = cs!")" := ap_sym _ _ _ _ _ h6
  obtain ⟨b6, hb6, rfl⟩ := l1_lit _ _ _ _ _ _ h6
  subst e1 e2 e3 hq hz hy
  obtain ⟨w, rfl, hw⟩ := table_split hx
  have last : Reads (cs!")" ++ (b6 ++ cs!")")) [cs!")", cs!")"] r := by
    have := Reads.cons (t := []) (r := r) (x := cs!")") hb6.1 (.mark (by simp [marks]))
      (.inl (apart_last rfl)) (.nil blanks_nil)
    exact reads_mark rfl rfl (by simpa using this)
  have first : ∀ {s : Str} {l : List Str}, Reads ('\'' :: s) l r →
      Reads (b ++ (w ++ (cs!"(" ++ (u3 ++ (cs!"(" ++ '\'' :: s))))) (w :: cs!"(" :: u3 :: cs!"(" :: l) r := by
    intro s l h
    have r1 := reads_mark (w := cs!"(") rfl rfl h
    have r2 := Reads.cons (b := []) blanks_nil (.pq hn) (.inl (apart_head rfl)) r1
    have r3 := reads_mark (w := cs!"(") rfl rfl r2
    exact Reads.cons hb.1 (.word (sameCI_word hw rfl)) (.inl (apart_head rfl)) r3
  have lay : ∀ {s : Str} {l : List Str}, Laid (s ++ cs!"))") l →
      Laid (cs!"table" ++ (cs!"(" ++ (u3 ++ (cs!"(" ++ (s ++ cs!"))"))))) (cs!"table" :: cs!"(" :: u3 :: cs!"(" :: l) := by
    intro s l h
    have l1 := (Laid.tok cs!"(").append h (apart_last rfl)
    have l2 := (Laid.tok u3).append l1 (apart_head rfl)
    have l3 := (Laid.tok cs!"(").append l2 (apart_last rfl)
    exact (Laid.tok cs!"table").append l3 (apart_head rfl)
  have lend : Laid cs!"))" [cs!")", cs!")"] :=
    (Laid.tok cs!")").append (Laid.tok cs!")") (apart_last rfl)
  rcases h4 with ⟨⟨a1, as⟩, rfl, s1, s2, rfl, k1, k2⟩ | ⟨rfl, rfl⟩
  · have ha1 : PQName a1 := ap_pq _ _ _ _ k1
    obtain ⟨b1, hb1, rfl⟩ := l1_pq _ _ _ _ k1
    simp only [sem] at k2
    obtain ⟨L, L', g1, g2, g3⟩ := args_read k2 b1 a1 b5 (cs!")" ++ (b6 ++ cs!")") ++ r) hb1.1 ha1 hb5.1 rfl
    have r1 := g1.append last
    refine ⟨_, _, ?_, .table hw hn g2, ?_⟩
    · simpa using first (by simpa using r1)
    · have l1 := g3.append lend (apart_head rfl)
      have := lay l1
      rw [← joinSep_cons, show quoteArg = (fun a => cs!"'" ++ a ++ cs!"'") from rfl] at this
      simpa [TR.print, printTVF] using this
  · refine ⟨_, _, ?_, .table0 hw hn hb5.1, ?_⟩
    · have r1 := Reads.cons (b := []) blanks_nil (.str (strLit_plain (not_mem_blanks hb5.1 rfl)))
        (.inl (apart_head rfl)) last
      simpa using first (by simpa using r1)
    · have := lay (s := []) lend
      simpa [TR.print, printTVF, joinSep] using this

end

theorem se_trBody : SE K ε trBody (TR.print fmt) :=
  .alt (se_jt.map fun x => by simp [TR.print]) (.alt (se_tableCorrelation.map fun x => by simp [TR.print])
    (.alt se_derivedCorrelation se_tableValuedFunction))

end

end Adql
