import Verif.Model.FaithfulTable

/-!
# Queries, read side by side with `operator<<`
-/

namespace Adql

open Spec P

section
variable {I : (n : Rule) → Bool → Str → Attr n → Str → Prop} {e : Env} {α β γ : Type}
  {R S : List Str → List Str → Prop}

/-! ### TOP -/

/-- what `operator<<` prints for a TOP clause -/
def printTop (n : Nat) : Str := if n ≠ topMax then cs!"TOP " ++ decDigits n ++ cs!" " else []

theorem lastLoose_top (n : Nat) : lastLoose (printTop n) = true := by
  unfold printTop; split
  · rw [lastLoose_snoc]; rfl
  · rfl

/-- the differences in front of which there is SELECT with an optional quantifier -/
def AfterSelect (e : Env) (l l' : List Str) : Prop :=
  ∀ k m, SameCI k cs!"SELECT" → Quantifier m → Edit e (k :: (m ++ l)) (cs!"SELECT" :: (m ++ l'))

theorem edit_quant {e : Env} {m : List Str} (h : Quantifier m) : Edit e m m := by
  rcases h with rfl | ⟨q, -, rfl⟩
  · exact .nil
  · exact .keep

theorem afterSelect {e : Env} {l l' : List Str} (h : Edit e l l') : AfterSelect e l l' := fun k _ hk hm =>
  .append (l := [k]) (l' := [cs!"SELECT"]) (.case (by simp [keywords]) hk) ((edit_quant hm).append h)

theorem sp_optQuantifier : SP I (fun l l' => l' = l ∧ Quantifier l) (optS setQuantifier)
    (fun q => q ++ (if q.isEmpty then [] else cs!" ")) := by
  have hq : SP I (One (Same (OneOf [cs!"DISTINCT", cs!"ALL"]))) setQuantifier (fun a => a) :=
    SP.lexeme (sp_wordKeep z0_andSpace (fun _ _ _ => hl_andSpace) (l0_alt (l1_lit _ _).to0 (l1_lit _ _).to0)
      (.alt ((ap_kw _).imp fun _ h => ⟨.word (sameCI_word h rfl), _, by simp, h⟩)
        ((ap_kw _).imp fun _ h => ⟨.word (sameCI_word h rfl), _, by simp, h⟩)))
  refine SP.alt (((hq.padR (b := cs!" ") rfl).congr (.lexeme (.lexeme (.seqL ap_quantWord))) fun a h => by simp [identShape_ne h]).imp ?_)
    ((SP.pure rfl).imp ?_)
  · rintro l l' ⟨x, y, rfl, rfl, rfl, h⟩
    exact ⟨rfl, .inr ⟨_, h, rfl⟩⟩
  · rintro l l' ⟨rfl, rfl⟩
    exact ⟨rfl, .inl rfl⟩

theorem sp_topClause : SP I (AfterSelect e) topClause printTop := by
  rintro sk t n r (⟨⟨w, _⟩, rfl, t1, t2, rfl, h1, h2⟩ | ⟨rfl, rfl⟩)
  · obtain ⟨l, l', k1, ⟨x, y, rfl, rfl, -, hx⟩, -⟩ := sp_word cs!"TOP" cs!"TOP" rfl rfl _ _ _ _ h1
    obtain ⟨b, t', rfl, hb, ⟨⟨m, _⟩, rfl, u1, u2, rfl, ⟨d, hd, h3⟩, h4⟩, -⟩ := h2
    have e4 := z0_andSpace _ _ _ h4
    subst e4
    have l1 : L1 I (.lexeme (plusS (chS isDigit))) := L0.lexeme (l0_plusS (l1_chS _).to0)
    have e3 := l1.to0 _ _ _ h3
    have hdig : Digits d := (AP.lexeme ((ap_plusS_chS isDigit).imp fun a h =>
      ⟨h.1, fun c hc => isDigit_iff.1 (h.2 c hc)⟩)) _ _ _ _ h3
    subst e3
    have hv : value u1 = n ∧ n ≤ topMax := by
      by_cases hle : digitsVal u1 ≤ topMax
      · simp only [hle, if_true, Out.ok.injEq] at hd
        rw [← digitsVal_value, hd]; exact ⟨rfl, hd ▸ hle⟩
      · simp [hle] at hd
    have r1 : Reads (b ++ (u1 ++ [])) [u1] r := .cons hb.1 (.num (digits_numLit hdig))
      (.inr (.inl (digits_numLit hdig))) (.nil blanks_nil)
    have r2 := k1.append r1
    by_cases hm : n = topMax
    · refine ⟨_, [], r2, fun k m hk hq => ?_, ?_⟩
      · have := Edit.noTop (e := e) hk hq hx hdig (by rw [hv.1, hm]; rfl)
        simpa using this
      simp only [printTop, hm, ne_eq, not_true, if_false]
      exact .nil blanks_nil
    · obtain ⟨d1, d2, d3⟩ := C19_decimal n
      have hlt : value u1 < 2 ^ 64 - 1 := by
        have h := hv.2
        simp only [topMax] at h hm
        rw [hv.1]; omega
      refine ⟨_, _, r2, afterSelect (.top hx hdig d1 (by rw [d2, hv.1]) (fun t ht => (d3 t ht).1) hlt), ?_⟩
      simp only [printTop, ne_eq, hm, not_false_eq_true, if_true]
      have b1 : Blanks cs!" " := by simp [Blanks, isSpace]
      have l1 := (Laid.tok (decDigits n)).append (.nil b1) (apart_head rfl)
      have l2 := (Laid.tok cs!"TOP").append (l1.blanks b1) (apart_head rfl)
      simpa using l2
  · exact (ShowsBy.nothing (by simp [printTop, Blanks])).imp fun _ _ h => afterSelect (edit_nothing h)

/-! ### UNION -/

theorem sameCI_cons_iff {c d : Char} {x w : Str} : SameCI (c :: x) (d :: w) ↔ lowerC c = lowerC d ∧ SameCI x w := by
  simp [SameCI]

/-- A text that is the same as two words with a blank between them. -/
theorem two_words : ∀ {x u v : Str}, SameCI x (u ++ ' ' :: v) →
    ∃ a b, x = a ++ ' ' :: b ∧ SameCI a u ∧ SameCI b v
  | [], u, v, h => by cases u <;> simp [SameCI] at h
  | c :: x, [], v, h => by
    obtain ⟨h1, h2⟩ := sameCI_cons_iff.1 h
    have hc : c = ' ' := by
      have := congrArg Char.toNat h1
      rw [lowerC_toNat, lowerC_toNat] at this
      apply Char.toNat_inj.1
      revert this
      show _ = 32 → _ = 32
      split <;> omega
    exact ⟨[], x, by rw [hc]; rfl, rfl, h2⟩
  | c :: x, d :: u, v, h => by
    obtain ⟨h1, h2⟩ := sameCI_cons_iff.1 h
    obtain ⟨a, b, rfl, ha, hb⟩ := two_words h2
    exact ⟨c :: a, b, rfl, sameCI_cons_iff.2 ⟨h1, ha⟩, hb⟩

theorem upper_append (a b : Str) : upper (a ++ b) = upper a ++ upper b := by simp [upper]

theorem ShowsBy.two {u v x r : Str} (hx : SameCI x (u ++ ' ' :: v)) (hu : wordB u = true)
    (hv : wordB v = true) (ku : keywords.contains u = true) (kv : keywords.contains v = true)
    (uu : upper u = u) (uv : upper v = v) (hr : headLoose r = true) :
    ShowsBy (Edit e) x (upper x) r := by
  obtain ⟨a, b, rfl, ha, hb⟩ := two_words hx
  have b1 : Blanks cs!" " := by simp [Blanks, isSpace]
  refine ⟨[a, b], [u, v], ?_, .append (l := [a]) (l' := [u]) (.case (by simpa using ku) ha)
    (.case (by simpa using kv) hb), ?_⟩
  · have r2 : Reads (cs!" " ++ (b ++ [])) [b] r :=
      .cons b1 (.word (sameCI_word hb hv)) (.inl (apart_head (by simpa using hr))) (.nil blanks_nil)
    have := Reads.cons (b := []) blanks_nil (.word (sameCI_word ha hu)) (.inl (apart_head rfl)) r2
    simpa using this
  · rw [upper_append, upper_sameCI ha, uu, show (' ' :: b : Str) = cs!" " ++ b from rfl, upper_append,
      upper_sameCI hb, uv]
    exact (Laid.tok u).append ((Laid.tok v).blanks b1) (apart_head rfl)

theorem se_unionOp : SE I e unionOp upper := by
  rintro sk t x r ⟨b, t', rfl, hb, ⟨⟨_, z⟩, rfl, u1, u2, rfl, h1, h2⟩, -⟩
  have hl : L0 I (.alt (kw cs!"UNION DISTINCT") (.alt (kw cs!"UNION ALL") (kw cs!"UNION"))) :=
    l0_alt (l1_lit _ _).to0 (l0_alt (l1_lit _ _).to0 (l1_lit _ _).to0)
  have e1 := hl _ _ _ h1
  have e2 := z0_andSpace _ _ _ h2
  have hr := hl_andSpace h2
  subst e1 e2
  refine ShowsBy.blanks hb.1 ?_
  simp only [List.append_nil, List.nil_append] at hr ⊢
  rcases h1 with h1 | h1 | h1
  · exact ShowsBy.two (u := cs!"UNION") (v := cs!"DISTINCT") (ap_kw _ _ _ _ _ h1) rfl rfl rfl rfl
      rfl rfl hr
  · exact ShowsBy.two (u := cs!"UNION") (v := cs!"ALL") (ap_kw _ _ _ _ _ h1) rfl rfl rfl rfl
      rfl rfl hr
  · have hx : SameCI u1 cs!"UNION" := ap_kw _ _ _ _ _ h1
    have := ShowsBy.tok (b := []) (r := r) blanks_nil (.word (sameCI_word hx rfl)) (.inl (apart_head hr))
      (K := Kw cs!"UNION") (y := upper u1) ⟨upper_sameCI hx, hx⟩
    exact this.imp fun _ _ => edit_kw rfl

/-! ### The flags of geometric constraints -/

theorem charFlag_text {sk : Bool} {t r : Str} {c : Char} (h : sem I charFlag sk t c r) :
    ∃ b, t = b ++ [c] ∧ Blanks b ∧ Flag [c] := by
  obtain ⟨b, t', rfl, hb, ⟨b', rfl, hb', hc⟩, -⟩ := h
  rw [blank_false] at hb'; subst hb'
  refine ⟨b, rfl, hb.1, ?_⟩
  simp only [Bool.or_eq_true, beq_iff_eq] at hc
  rcases hc with rfl | rfl <;> simp [Flag]

theorem flag_digits {f : Str} (h : Flag f) : Digits f := by
  rcases h with rfl | rfl <;> refine ⟨by simp, ?_⟩ <;> intro c hc <;> simp at hc <;> subst hc <;>
    exact isDigit_iff.1 rfl

theorem reads_flag {b : Str} {c : Char} {r : Str} (hb : Blanks b) (h : Flag [c]) :
    Reads (b ++ [c]) [[c]] r := by
  have := Reads.cons (t := []) (r := r) hb (.num (digits_numLit (flag_digits h)))
    (.inr (.inl (digits_numLit (flag_digits h)))) (.nil blanks_nil)
  simpa using this

theorem laid_flag {u : Str} {l : List Str} (c : Char) (h : Laid u l) :
    Laid (u ++ (cs!"=" ++ [c])) (l ++ [cs!"=", [c]]) :=
  h.append ((Laid.tok cs!"=").append (Laid.tok [c]) (apart_last rfl)) (apart_head rfl)

end

section
variable {cfg : Config} {fmt : Str → Str} {α β γ : Type}

local notation "K" => KInv cfg fmt
local notation "ε" => env cfg fmt

/-! ### SELECT -/

theorem se_qualifierStar : SE K ε qualifierStar (fun a => a) := by
  have hs : SE K ε (sym cs!".*") (fun a => a) := by
    intro sk t a r h
    have ha : a = cs!".*" := ap_sym _ _ _ _ _ h
    obtain ⟨b, hb, rfl⟩ := l1_lit _ _ _ _ _ _ h
    subst ha
    refine ShowsBy.blanks hb.1 ⟨[cs!".", cs!"*"], [cs!".", cs!"*"], ?_, edit_refl _, ?_⟩
    · have := reads_mark (w := cs!".") rfl rfl (reads_mark (w := cs!"*") (r := r) rfl rfl
        (.nil blanks_nil))
      exact this
    · exact (Laid.tok cs!".").append (Laid.tok cs!"*") (apart_last rfl)
  exact .lexeme ((SP.cat se_tableName hs (.trivial _) (ap_sym _) fun a b _ h => by
    rw [h]; exact apart_head rfl).imp fun _ _ => edit_then)

theorem se_asItem : SE K ε asItem (Item.print fmt) :=
  (SE.seq (SE.seqL se_ve (se_word cs!"AS" cs!" AS " rfl rfl rfl) fun _ => apL rfl _ _)
    (q := .expect "column_name" identifier) se_identifier fun a _ => apart_last (by
      rw [show (cs!" AS " : Str) = cs!" AS" ++ [' '] from rfl, ← List.append_assoc, lastLoose_snoc]; rfl)).map
    fun x => by simp [Item.print]

theorem se_selectItem : SE K ε selectItem (Item.print fmt) :=
  .alt se_asItem (.alt (se_qualifierStar.map fun x => by simp [Item.print])
    (se_ve.map fun x => by simp [Item.print]))

theorem printItems_eq : ∀ l : List Item, printItems fmt l = l.map (Item.print fmt)
  | [] => rfl
  | e :: l => by rw [printItems, printItems_eq l]; rfl
theorem printTRs_eq : ∀ l : List TR, printTRs fmt l = l.map (TR.print fmt)
  | [] => rfl
  | e :: l => by rw [printTRs, printTRs_eq l]; rfl
theorem printGroup_eq : ∀ l : List GroupTerm, printGroup fmt l = l.map (GroupTerm.print fmt)
  | [] => rfl
  | e :: l => by rw [printGroup, printGroup_eq l]; rfl

theorem se_columns : SE K ε columns (Columns.print fmt) := by
  refine .alt ?_ ((se_listB se_selectItem).map fun l => by simp [Columns.print, printItems_eq])
  exact SP.map (f := fun a => a) ((se_sym cs!"*" cs!"*" rfl rfl rfl).congr (ap_sym _)
    fun a h => h.symm) fun _ => by simp [Columns.print]

theorem se_select : SE K ε select (Select.print fmt) :=
  ((SP.seqR (sp_wordX cs!"SELECT" cs!"SELECT " rfl rfl) (SP.seq sp_optQuantifier
    (SP.seq sp_topClause (q := .expect "columns" columns) se_columns
      fun n _ => apart_last (lastLoose_top n)) fun q _ => apart_last (lastLoose_quant q))
        fun _ => apart_last rfl).imp fun _ _ => by
    rintro ⟨_, _, _, _, rfl, rfl, ⟨k, _, rfl, rfl, rfl, hk⟩, _, _, m, _, rfl, rfl, ⟨rfl, hm⟩, l, c, l', c', rfl, rfl, hl, hc⟩
    have := (hl k m hk hm).append hc
    simpa using this).map fun x => by simp [Select.print, printSelect, printTop]

theorem se_fromClause : SE K ε fromClause (fun l => cs!" FROM " ++ joinSep cs!", " (printTRs fmt l)) :=
  (SE.seqR (se_wordX cs!"FROM" cs!" FROM " rfl rfl rfl)
    (q := .expect "table reference list" (sepBy tr (sym cs!","))) (se_listB se_tr)
      fun _ => apart_last rfl).eq fun l => by rw [printTRs_eq]

/-! ### WHERE -/

/-- the differences in front of which there is the word WHERE -/
def AfterWhere (e : Env) (l l' : List Str) : Prop :=
  ∀ w, SameCI w cs!"WHERE" → Edit e (w :: l) (cs!"WHERE" :: l')

theorem afterWhere {e : Env} {l l' : List Str} (h : Edit e l l') : AfterWhere e l l' := fun w hw =>
  .append (l := [w]) (l' := [cs!"WHERE"]) (.case (by simp [keywords]) hw) h

/-- a call of CONTAINS or INTERSECTS -/
def CallR (e : Env) (l l' : List Str) : Prop := Call l ∧ Edit e l l'

theorem sp_shapeTail : SP K (Then (Mark cs!",") (Then (Edit ε) (Mark cs!")"))) xShapeTail
    (fun a => cs!"," ++ (a.print fmt ++ cs!")")) :=
  SP.seqR (p := .expect "','" (sym cs!",")) (sp_comma (I := K))
    (SP.seqL (p := .expect "shape_or_column" shapeOrColumn) se_shapeOrColumn sp_xClose
      fun _ => apL rfl _ _) fun _ => apart_last rfl

theorem sp_callOf {w : Str} (hw : wordB w = true) (hc : padded w w = true)
    (hm : w ∈ [cs!"CONTAINS", cs!"INTERSECTS"]) {p : G α} {f : α → Str} (h : SE K ε p f) :
    SP K (CallR ε) (seqR (seqR (kw w) (sym cs!"(")) (.seq p xShapeTail))
      (fun x => w ++ cs!"(" ++ (f x.1 ++ (cs!"," ++ (x.2.print fmt ++ cs!")")))) := by
  have h1 : SP K (Then (One (Kw w)) (Mark cs!"(")) (seqR (kw w) (sym cs!"(")) (fun _ => w ++ cs!"(") :=
    (sp_kwThen w w hw hc sp_open (hl_sym rfl) fun _ => apL rfl _ _).map fun _ => rfl
  have hk : w ∈ keywords := by
    have h' := hm
    simp only [List.mem_cons, List.not_mem_nil, or_false] at h'
    rcases h' with h' | h' <;> rw [h'] <;> simp [keywords]
  refine (SP.seqR h1 (SP.seq h sp_shapeTail fun _ _ => apL rfl _ _) fun _ => apart_snoc rfl).imp ?_
  rintro l l' ⟨_, _, _, _, rfl, rfl, ⟨_, _, _, _, rfl, rfl, ⟨x, _, rfl, rfl, rfl, hx⟩, m1⟩,
    ⟨a, _, a', _, rfl, rfl, h2, ⟨_, _, _, _, rfl, rfl, m2, ⟨c, _, c', _, rfl, rfl, h3, m3⟩⟩⟩⟩
  obtain ⟨rfl, rfl⟩ := mark_eq m1
  obtain ⟨rfl, rfl⟩ := mark_eq m2
  obtain ⟨rfl, rfl⟩ := mark_eq m3
  refine ⟨⟨x, a ++ cs!"," :: c, by simp, _, hm, hx⟩, ?_⟩
  exact .append (.append (.case hk hx) .keep) (.append h2 (.append (l := [_]) (l' := [_]) .keep
    (.append h3 .keep)))

theorem sp_geomPred : SP K (CallR ε) geomPred (GPred.print fmt) :=
  .alt ((sp_callOf (w := cs!"CONTAINS") (p := .expect "shape_or_column" shapeOrColumn) rfl rfl
      (by simp) se_shapeOrColumn).map fun x => by simp [GPred.print])
    ((sp_callOf (w := cs!"INTERSECTS") (p := .expect "value_expression" ve) rfl rfl
      (by simp) se_ve).map fun x => by simp [GPred.print])

/-- a geometric constraint after WHERE -/
def GeomR (e : Env) (l l' : List Str) : Prop := Geometric l ∧ AfterWhere e l l'

variable (hM : ∀ y, cfg.Mapped y → y ≠ [])

include hM in
theorem sp_geometry : SP K (GeomR ε) geometry (Geom.print fmt) := by
  have hne : AP K geomPred (fun p => p.isEmpty = false) := AP.up (ap_geomPred.imp fun _ h => h.ne hM)
  refine .alt ?_ ?_
  · rintro sk t g r ⟨⟨c, p⟩, rfl, t1, t2, rfl, ⟨⟨c', q⟩, rfl, u1, u2, rfl, h1, h2⟩, h3⟩
    obtain ⟨b, rfl, hb, hf⟩ := charFlag_text h1
    have hq : q = cs!"=" := ap_sym _ _ _ _ _ h2
    obtain ⟨b2, hb2, rfl⟩ := l1_lit _ _ _ _ _ _ h2
    subst hq
    obtain ⟨l, l', k1, ⟨k2, k3⟩, k4⟩ := sp_geomPred _ _ _ _ h3
    have hp := hne _ _ _ _ h3
    refine ⟨[c] :: cs!"=" :: l, l' ++ [cs!"=", [c]], ?_, ⟨⟨l, k2, .inr ⟨_, hf, .inl rfl⟩⟩,
      fun w hw => .flagLeft hw hf k2 k3⟩, ?_⟩
    · have r2 := Reads.blanks hb2.1 (reads_mark (w := cs!"=") rfl rfl k1)
      have := (reads_flag (r := b2 ++ (cs!"=" ++ t2) ++ r) hb hf).append r2
      simpa using this
    · have : (Geom.left c p).isEmpty = false := by rw [Geom.isEmpty]; exact hp
      simp only [Geom.print, this]
      simpa using laid_flag c k4
  · rintro sk t g r ⟨⟨p, c⟩, rfl, t1, t2, rfl, h1, h2⟩
    obtain ⟨l, l', k1, ⟨k2, k3⟩, k4⟩ := sp_geomPred _ _ _ _ h1
    have hp := hne _ _ _ _ h1
    have he : (Geom.right p c).isEmpty = false := by rw [Geom.isEmpty]; exact hp
    have hl : Laid ((Geom.right p c).print fmt) (l' ++ [cs!"=", [c]]) := by
      simp only [Geom.print, he]
      simpa using laid_flag c k4
    rcases h2 with ⟨⟨q, c'⟩, rfl, u1, u2, rfl, h2, h3⟩ | ⟨rfl, rfl⟩
    · have hq : q = cs!"=" := ap_sym _ _ _ _ _ h2
      obtain ⟨b2, hb2, rfl⟩ := l1_lit _ _ _ _ _ _ h2
      subst hq
      obtain ⟨b, rfl, hb, hf⟩ := charFlag_text h3
      refine ⟨l ++ [cs!"=", [c]], _, ?_, ⟨⟨l, k2, .inr ⟨_, hf, .inr rfl⟩⟩,
        afterWhere (.append k3 (edit_refl _))⟩, hl⟩
      have r2 := Reads.blanks hb2.1 (reads_mark (w := cs!"=") rfl rfl (reads_flag (r := r) hb hf))
      have := (show Reads t1 l ((b2 ++ (cs!"=" ++ (b ++ [c]))) ++ r) by simpa using k1).append r2
      simpa using this
    · exact ⟨l, _, by simpa using k1, ⟨⟨l, k2, .inl rfl⟩, fun w hw => .flagNone hw k2 k3⟩, hl⟩

theorem geom_dflt : Geom.dflt.isEmpty = true := rfl
theorem sc_dflt : SC.dflt.isEmpty = true := rfl

include hM in
theorem ne_sc : AP K sc (fun s => s.isEmpty = false) := AP.up (ap_sc.imp fun _ h => h.ne hM)

include hM in
theorem ne_geometry : AP K geometry (fun g => g.isEmpty = false) :=
  AP.up (ap_geometry.imp fun _ h => h.ne hM)

include hM in
theorem se_whereClause : SE K ε whereClause (fun w => cs!" WHERE " ++ w.print fmt) := by
  have h1 : SE K ε (optD SC.dflt (seqR (kw cs!"AND") (.expect "search condition" sc)))
      (fun s => if s.isEmpty then [] else cs!" AND " ++ s.print fmt) :=
    SE.optIf (Q := fun s => s.isEmpty = false) (SE.seqR (se_kwSplit cs!"AND" cs!" AND " rfl rfl rfl
      fun x h => .inr (.inr (.inr ⟨_, by simp, h⟩))) (q := .expect "search condition" sc) se_sc
        fun _ => apart_last rfl)
      (.seqR (.expect (ne_sc hM))) (fun a h => by simp [h]) rfl
  have a1 : SP K (AfterWhere ε) (.map (fun x => Where.mk x.1 x.2) (.seq geometry
      (optD SC.dflt (seqR (kw cs!"AND") (.expect "search condition" sc))))) (Where.print fmt) := by
    have h := (SP.seq (sp_geometry hM) h1 fun _ _ => apart_head (by split <;> rfl)).imp
      (S := AfterWhere ε) (by
        rintro l l' ⟨a, b, a', b', rfl, rfl, k1, k2⟩ w hw
        exact .append (k1.2 w hw) k2)
    refine SP.map (f := fun x => (Where.mk x.1 x.2).print fmt) (h.congr (AP.seq (ne_geometry hM)
      (.trivial _)) fun x hx => ?_) fun _ => rfl
    have := hx.1
    simp only [Where.print, this]
    cases x.2.isEmpty <;> simp
  have a2 : SP K (AfterWhere ε) (.map (fun g => Where.mk g SC.dflt)
      (seqR (sym cs!"(") (seqL geometry xClose))) (Where.print fmt) := by
    have h := (SP.dropL (sp_open (I := K)) (SP.dropR (sp_geometry hM) sp_xClose)).imp
      (S := AfterWhere ε) (by
        rintro l l' ⟨a, a', b, rfl, m1, ⟨c, d, d', rfl, k1, m2⟩⟩ w hw
        obtain ⟨rfl, -⟩ := mark_eq m1
        obtain ⟨rfl, -⟩ := mark_eq m2
        exact .geomParen hw k1.1 (k1.2 w hw))
    refine SP.map (f := fun g => (Where.mk g SC.dflt).print fmt) (h.congr
      (.seqR (.seqL (ne_geometry hM))) fun x hx => ?_) fun _ => rfl
    simp [Where.print, hx, sc_dflt]
  have a3 : SP K (AfterWhere ε) (.map (fun s => Where.mk Geom.dflt s) sc) (Where.print fmt) := by
    have h : SP K (AfterWhere ε) sc (SC.print fmt) := se_sc.imp fun _ _ => afterWhere
    refine SP.map (f := fun s => (Where.mk Geom.dflt s).print fmt) (h.congr
      (ne_sc hM) fun x hx => ?_) fun _ => rfl
    simp [Where.print, hx, geom_dflt]
  refine (SP.seqR (sp_wordX cs!"WHERE" cs!" WHERE " rfl rfl) (SP.expect (SP.alt a1 (SP.alt a2 a3)))
    fun _ => apart_last rfl).imp ?_
  rintro l l' ⟨_, b, _, b', rfl, rfl, ⟨x, _, rfl, rfl, rfl, hx⟩, h⟩
  exact h x hx

include hM in
theorem se_whereNoGeometry : SE K ε whereNoGeometry (fun w => cs!" WHERE " ++ w.print fmt) := by
  have h := SE.seqR (se_word (I := K) (e := ε) cs!"WHERE" cs!" WHERE " rfl rfl rfl) se_sc
    fun _ => apart_last rfl
  refine SP.map (f := fun s => cs!" WHERE " ++ (Where.mk Geom.dflt s).print fmt) (h.congr
    (.seqR (ne_sc hM)) fun x hx => ?_) fun _ => rfl
  simp [Where.print, hx, geom_dflt]

/-! ### Queries -/

section
variable {w : G Where} (hw : SE (KInv cfg fmt) (env cfg fmt) w (fun a => cs!" WHERE " ++ a.print fmt))
  (hn : AP (KInv cfg fmt) w (fun a => a.isEmpty = false))

include hw hn in
theorem se_sfwWith : SE K ε (sfwWith w) (SFW.print fmt) := by
  have h1 : SE K ε (optD Where.dflt w) (fun a => if a.isEmpty then [] else cs!" WHERE " ++ a.print fmt) :=
    SE.optIf (Q := fun s => s.isEmpty = false) hw hn (fun a h => by simp [h]) rfl
  have h2 := SE.seq se_fromClause h1 fun _ _ => apart_head (by split <;> rfl)
  exact (SE.seq se_select (SP.expect (w := "from") h2) fun _ _ => apL rfl _ _).map
    fun x => by simp [SFW.print]

include hw hn in
theorem se_sfwList : SE K ε (sfwList w) (SFWList.print fmt) := by
  have h1 : SE K ε (.map (fun x => Addon.mk x.1 x.2) (.seq unionOp (sfwWith w))) (Addon.print fmt) :=
    (SE.seq ((se_unionOp (I := K) (e := ε)).pad (b := cs!" ") (b' := cs!" ") rfl rfl)
      (se_sfwWith hw hn) fun a _ => by rw [← List.append_assoc]; exact apart_snoc rfl).map
      fun x => by simp [Addon.print]
  have hh : ∀ as, headLoose (printAddons fmt as) = true := by
    intro as; cases as with
    | nil => rfl
    | cons a as => obtain ⟨op, s⟩ := a; simp only [printAddons, Addon.print]; rfl
  have h2 : SE K ε (.star (.map (fun x => Addon.mk x.1 x.2) (.seq unionOp (sfwWith w))))
      (printAddons fmt) :=
    SE.star h1 (.trivial _) rfl (fun a l => rfl) fun a b l _ _ => apart_head (hh _)
  exact (SE.seq (se_sfwWith hw hn) h2 fun _ as => apart_head (hh as)).map
    fun x => by simp [SFWList.print]

end

theorem se_groupByTerm : SE K ε groupByTerm (GroupTerm.print fmt) :=
  .alt (se_ve.map fun x => by simp [GroupTerm.print])
    (se_columnReference.map fun x => by simp [GroupTerm.print])

theorem se_by {I : (n : Rule) → Bool → Str → Attr n → Str → Prop} {e : Env} :
    SE I e (wordX cs!"BY") (fun _ => cs!"BY ") := se_wordX _ _ rfl rfl rfl

/-- what `operator<<` prints for GROUP BY -/
def printGroupBy (fmt : Str → Str) (g : List GroupTerm) : Str :=
  if g.isEmpty then [] else cs!" GROUP BY " ++ joinSep cs!"," (printGroup fmt g)
/-- what `operator<<` prints for HAVING -/
def printHaving (fmt : Str → Str) (h : SC) : Str :=
  if h.isEmpty then [] else cs!" HAVING " ++ h.print fmt
/-- what `operator<<` prints for ORDER BY -/
def printOrder (o : List SortSpec) : Str :=
  if o.isEmpty then [] else cs!" ORDER BY " ++ joinSep cs!"," (o.map SortSpec.print)

theorem headLoose_order (o : List SortSpec) : headLoose (printOrder o) = true := by
  unfold printOrder; split <;> rfl
theorem headLoose_having (h : SC) (o : List SortSpec) :
    headLoose (printHaving fmt h ++ printOrder o) = true := by
  unfold printHaving; split
  · exact headLoose_order o
  · rfl
theorem headLoose_group (g : List GroupTerm) (h : SC) (o : List SortSpec) :
    headLoose (printGroupBy fmt g ++ (printHaving fmt h ++ printOrder o)) = true := by
  unfold printGroupBy; split
  · exact headLoose_having h o
  · rfl

theorem se_groupBy : SE K ε (optD [] groupBy) (printGroupBy fmt) :=
  SE.optIf (Q := fun l => l ≠ []) (SE.seqR (se_wordX cs!"GROUP" cs!" GROUP " rfl rfl rfl)
    (SE.seqR (p := .expect "BY" (wordX cs!"BY")) se_by
      (q := .expect "group by terms" (sepBy groupByTerm (sym cs!","))) (se_list se_groupByTerm)
        fun _ => apart_last rfl) fun _ => apart_last rfl)
    (.seqR (.seqR (.expect ((AP.sepBy (.trivial _)).imp fun _ h => h.1))))
    (fun a h => by simp [printGroupBy, h, printGroup_eq]) rfl

include hM in
theorem se_having : SE K ε (optD SC.dflt having) (printHaving fmt) :=
  SE.optIf (Q := fun s => s.isEmpty = false) (SE.seqR (se_wordX cs!"HAVING" cs!" HAVING " rfl rfl rfl)
    (q := .expect "search condition" sc) se_sc fun _ => apart_last rfl)
    (.seqR (.expect (ne_sc hM))) (fun a h => by simp [printHaving, h]) rfl

theorem se_sortSpecification : SE K ε sortSpecification SortSpec.print := by
  have h1 : SE K ε (.alt (.map .inr columnReference) (.map .inl unsignedInteger))
      (fun k : Str ⊕ ColRef => match k with | .inl k => k | .inr c => c.print) :=
    .alt (SP.map (f := ColRef.print) se_columnReference fun _ => rfl)
      (SP.map (f := fun a => a) se_unsignedInteger fun _ => rfl)
  have hq : AP K (.lexeme (.alt (kw cs!"ASC") (kw cs!"DESC"))) (OneOf [cs!"ASC", cs!"DESC"]) :=
    .lexeme (.alt ((ap_kw _).imp fun _ h => ⟨_, by simp, h⟩) ((ap_kw _).imp fun _ h => ⟨_, by simp, h⟩))
  have h2 : SE K ε (.lexeme (.alt (kw cs!"ASC") (kw cs!"DESC"))) (fun a => a) :=
    (sp_split (L0.lexeme (l0_alt (l1_lit _ _).to0 (l1_lit _ _).to0)) hq fun _ h =>
      ⟨.word (oneOf_word h (by decide)), .inr (.inr (.inr (OneOf.mono h (by simp))))⟩).imp
      fun _ _ => edit_same
  have h3 : SE K ε (optS (.lexeme (.alt (kw cs!"ASC") (kw cs!"DESC")))) printAs :=
    SE.optIf (h2.padL (b := cs!" ") rfl) hq (fun a h => by
      have : a.isEmpty = false := oneOf_ne h (by decide)
      simp [printAs, this]) rfl
  exact (SE.seq h1 h3 fun _ b => apart_head (headLoose_printAs b)).map fun x => by
    obtain ⟨k | k, o⟩ := x <;> simp only [SortSpec.print, printAs]

theorem se_orderBy : SE K ε (optD [] orderBy) printOrder :=
  SE.optIf (Q := fun l => l ≠ []) (SE.seqR (se_wordX cs!"ORDER" cs!" ORDER " rfl rfl rfl)
    (SE.seqR se_by (se_list se_sortSpecification) fun _ => apart_last rfl) fun _ => apart_last rfl)
    (.seqR (.seqR ((AP.sepBy (.trivial _)).imp fun _ h => h.1)))
    (fun a h => by simp [printOrder, h]) rfl

/-! ### WITH -/

/-- an optional list of names in parentheses -/
def ColsR (l l' : List Str) : Prop := l' = l ∧ (l = [] ∨ ∃ m, NameList m ∧ l = cs!"(" :: (m ++ [cs!")"]))
/-- an optional AS that is always formatted -/
def AsR (l l' : List Str) : Prop := l' = [cs!"AS"] ∧ (l = [] ∨ ∃ a, SameCI a cs!"AS" ∧ l = [a])
/-- names with commas -/
def NamesR (l l' : List Str) : Prop := l' = l ∧ NameList l

theorem nameList_append {a b : List Str} (ha : NameList a) (hb : NameList b) :
    NameList (a ++ cs!"," :: b) := by
  induction ha with
  | one h => exact .cons h hb
  | cons h _ ih => exact .cons h ih

section
variable {I : (n : Rule) → Bool → Str → Attr n → Str → Prop} {e : Env}

theorem sp_names : SP I NamesR (sepBy identifier (sym cs!",")) (fun l => joinSep cs!"," l) := by
  have h : SP I NamesR identifier (fun a => a) := sp_identifier.imp fun l l' h => by
    obtain ⟨x, y, rfl, rfl, rfl, hx⟩ := h; exact ⟨rfl, .one hx⟩
  refine (sp_sepBy h sp_comma rfl rfl (by simp) fun l l' h => ?_).eq fun l => by simp
  obtain ⟨_, _, _, _, rfl, rfl, ⟨rfl, h1⟩, _, _, _, _, rfl, rfl, h2, ⟨rfl, h3⟩⟩ := h
  obtain ⟨rfl, rfl⟩ := mark_eq h2
  exact ⟨rfl, nameList_append h1 h3⟩

/-- what `operator<<` prints for the columns of a WITH clause -/
def printCols (cols : List Str) : Str :=
  if cols.isEmpty then [] else cs!" (" ++ joinSep cs!"," cols ++ cs!")"

theorem sp_cols : SP I ColsR (optD [] (seqR (sym cs!"(") (seqL (sepBy identifier (sym cs!",")) xClose)))
    printCols := by
  refine .alt ?_ ((SP.pure rfl).imp fun l l' h => ⟨by rw [h.1, h.2], .inl h.1⟩)
  have h := (SP.seqR (sp_sym (I := I) cs!"(" cs!" (" rfl rfl rfl) (SP.seqL sp_names sp_xClose
    fun _ => apL rfl _ _) fun _ => apart_last rfl).imp (S := ColsR) (by
      rintro l l' ⟨_, _, _, _, rfl, rfl, h1, ⟨m, _, m', _, rfl, rfl, ⟨rfl, h2⟩, h3⟩⟩
      obtain ⟨rfl, rfl⟩ := mark_eq h1
      obtain ⟨rfl, rfl⟩ := mark_eq h3
      exact ⟨rfl, .inr ⟨_, h2, rfl⟩⟩)
  exact h.congr (Q := fun l => l ≠ []) (.seqR (.seqL ((AP.sepBy (.trivial _)).imp fun _ h => h.1)))
    fun a h => by simp [printCols, h]

theorem sp_withAs : SP I AsR (optS (wordX cs!"AS")) (fun _ => cs!" AS ") := by
  rintro sk t a r (h | ⟨rfl, -⟩)
  · obtain ⟨l, l', h1, ⟨x, y, rfl, rfl, rfl, hx⟩, h3⟩ := sp_wordX cs!"AS" cs!" AS " rfl rfl _ _ _ _ h
    exact ⟨[x], _, h1, ⟨rfl, .inr ⟨x, hx, rfl⟩⟩, h3⟩
  · refine ⟨[], _, .nil blanks_nil, ⟨rfl, .inl rfl⟩, ?_⟩
    have b1 : Blanks cs!" " := by simp [Blanks, isSpace]
    have := ((Laid.tok cs!"AS").append (.nil b1) (apart_head rfl)).blanks b1
    exact this

theorem headLoose_cols (c : List Str) (u : Str) : headLoose (printCols c ++ (cs!" AS " ++ u)) = true := by
  unfold printCols; split <;> rfl

end

theorem se_withClause : SE K ε withClause (With.print fmt) := by
  have h1 := SP.seq (SP.expect (w := "with columns") (SP.seqL (sp_cols (I := K)) sp_withAs
    fun _ => apL rfl _ _)) (SP.expect (w := "subquery") se_subq) fun a _ => apart_last (by
      rw [show (cs!" AS " : Str) = cs!" AS" ++ [' '] from rfl, ← List.append_assoc, lastLoose_snoc]; rfl)
  have h2 := SP.seq (SP.expect (w := "with_table_name") (sp_identifier (I := K))) h1
    fun _ x => apart_head (by
      have := headLoose_cols x.1 (x.2.print fmt)
      simpa using this)
  have h3 := SP.seqR (sp_wordX (I := K) cs!"WITH" cs!"WITH " rfl rfl) h2 fun _ => apart_last rfl
  refine (h3.imp fun l l' h => ?_).map fun x => by simp [With.print, printWith, printCols]
  obtain ⟨_, _, _, _, rfl, rfl, ⟨w, _, rfl, rfl, rfl, hw⟩, ⟨_, _, _, _, rfl, rfl,
    ⟨n, _, rfl, rfl, rfl, hn⟩, ⟨_, q, _, q', rfl, rfl, ⟨c, _, _, _, rfl, rfl, ⟨rfl, hc⟩, ⟨rfl, ha⟩⟩, hq⟩⟩⟩ := h
  rcases ha with rfl | ⟨a, ha, rfl⟩
  · rcases hc with rfl | ⟨m, hm, rfl⟩
    · exact .append (l := [w, _]) (l' := [_, _, _]) (.addAs hw hn) hq
    · have := Edit.append (Edit.addAsCols (e := ε) hw hn hm) hq
      simpa using this
  · have ha' : Edit ε [a] [cs!"AS"] := .case (by simp [keywords]) ha
    have hw' : Edit ε [w] [cs!"WITH"] := .case (by simp [keywords]) hw
    exact .append hw' (.append (l := [_]) (l' := [_]) .keep (.append (.append (edit_refl _) ha') hq))

include hM in
theorem se_queryWith {w : G Where} (hw : SE K ε w (fun a => cs!" WHERE " ++ a.print fmt))
    (hn : AP K w (fun a => a.isEmpty = false)) : SE K ε (queryWith w) (QuerySpec.print fmt) := by
  have h1 : SE K ε (optD With.dflt withClause)
      (fun w => if w.isEmpty then [] else w.print fmt ++ cs!" ") :=
    SE.optIf (Q := fun w => w.isEmpty = false) (se_withClause.padR (b := cs!" ") rfl)
      (AP.up (ap_withClause.imp fun _ h => h.ne hM)) (fun a h => by simp [h]) rfl
  have h2 := SE.seq (se_having hM) (se_orderBy (cfg := cfg) (fmt := fmt))
    fun _ o => apart_head (headLoose_order o)
  have h3 := SE.seq se_groupBy h2 fun _ x => apart_head (headLoose_having x.1 x.2)
  have h4 := SE.seq (se_sfwList hw hn) h3 fun _ x => apart_head (headLoose_group x.1 x.2.1 x.2.2)
  have h5 := SE.seq h1 h4 fun a _ => apart_last (by
    split
    · rfl
    · rw [lastLoose_snoc]; rfl)
  exact h5.map fun x => by
    simp [QuerySpec.print, printGroupBy, printHaving, printOrder]

include hM in
theorem se_query : SE K ε query (QuerySpec.print fmt) :=
  se_queryWith hM (se_whereClause hM) (AP.up (ap_whereClause.imp fun _ h => h.ne hM))

include hM in
theorem se_subqBody : SE K ε subqBody (Subquery.print fmt) := by
  have h1 := se_queryWith (fmt := fmt) hM (se_whereNoGeometry hM)
    (AP.up (ap_whereNoGeometry.imp fun _ h => h.1.ne hM))
  have h2 : SE K ε (.alt (.map Subquery.qs queryNoGeometry) (.map Subquery.jt jt))
      (fun q => match q with | .qs q => q.print fmt | .jt j => j.print fmt) :=
    .alt (SP.map (f := QuerySpec.print fmt) h1 fun _ => rfl)
      (SP.map (f := JT.print fmt) se_jt fun _ => rfl)
  refine (SE.seqR se_open (se_arg h2) fun _ => apart_last rfl).eq fun q => ?_
  cases q <;> simp [Subquery.print]

/-! ### The rules -/

include hM in
/-- Every rule keeps the invariant. -/
theorem kinv_rules (n : Rule) (sk : Bool) (t : Str) (a : Attr n) (r : Str)
    (h : sem K (grammar cfg n) sk t a r) : K n sk t a r := by
  have hi : Inv cfg.Mapped n sk t a r := inv_rules cfg n sk t a r (sem_mono kinv_inv _ _ _ _ _ h)
  cases n with
  | ve => exact ⟨hi, se_veBody _ _ _ _ h⟩
  | venb => exact ⟨hi, se_venbBody hM _ _ _ _ h⟩
  | sc => exact ⟨hi, se_scBody hM _ _ _ _ h⟩
  | subq => exact ⟨hi, se_subqBody hM _ _ _ _ h⟩
  | jt => exact ⟨hi, se_jtBody hM _ _ _ _ h⟩
  | tr => exact ⟨hi, se_trBody _ _ _ _ h⟩
  | tap => exact ⟨hi, sp_tapUpload _ _ _ _ h⟩

include hM in
/-- Whatever a parser of the grammar consumes. -/
theorem parse_shows {R : List Str → List Str → Prop} {p : G α} {f : α → Str} (hp : SP K R p f)
    {sk : Bool} {s : Str} {a : α} {r : Str} (h : parse cfg p sk s = .ok a r) :
    ∃ t, s = t ++ r ∧ ShowsBy R t (f a) r := by
  obtain ⟨t, ht, hs⟩ := step_sem (I := K)
    (fun n sk s a r h => den_sem (kinv_rules hM) n sk s a r h) p sk s a r h
  exact ⟨t, ht, hp _ _ _ _ hs⟩

end

end Adql
