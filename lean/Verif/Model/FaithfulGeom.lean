import Verif.Model.Faithful
import Verif.Props.Tree

/-!
# Columns, tables and shapes, read side by side with `operator<<`
-/

namespace Adql

open Spec P

/-- The parameters of formatting, for a parser configuration. -/
def env (cfg : Config) (fmt : Str → Str) : Env := ⟨fun x y => cfg.mapping x = some y, fmt, cfg.residue⟩

/-- The name of an uploaded table is replaced. -/
def UploadR (e : Env) (l l' : List Str) : Prop :=
  ∃ x y, e.mapped x y ∧ l = [cs!"TAP_UPLOAD", cs!".", x] ∧ l' = [y]

/-- The invariant of the recursive rules: the tree is well formed and its formatted text says the
same as the text it was parsed from. -/
def KInv (cfg : Config) (fmt : Str → Str) : (n : Rule) → Bool → Str → Attr n → Str → Prop
  | .ve, sk, t, a, r => Inv cfg.Mapped .ve sk t a r ∧ ShowsBy (Edit (env cfg fmt)) t (a.print fmt) r
  | .venb, sk, t, a, r =>
    Inv cfg.Mapped .venb sk t a r ∧ ShowsBy (Edit (env cfg fmt)) t (a.print fmt) r
  | .sc, sk, t, a, r => Inv cfg.Mapped .sc sk t a r ∧ ShowsBy (Edit (env cfg fmt)) t (a.print fmt) r
  | .subq, sk, t, a, r =>
    Inv cfg.Mapped .subq sk t a r ∧ ShowsBy (Edit (env cfg fmt)) t (a.print fmt) r
  | .jt, sk, t, a, r => Inv cfg.Mapped .jt sk t a r ∧ ShowsBy (Edit (env cfg fmt)) t (a.print fmt) r
  | .tr, sk, t, a, r => Inv cfg.Mapped .tr sk t a r ∧ ShowsBy (Edit (env cfg fmt)) t (a.print fmt) r
  | .tap, sk, t, a, r => Inv cfg.Mapped .tap sk t a r ∧ ShowsBy (UploadR (env cfg fmt)) t a r

theorem kinv_inv {cfg : Config} {fmt : Str → Str} : ∀ n sk t a r, KInv cfg fmt n sk t a r →
    Inv cfg.Mapped n sk t a r := by
  intro n sk t a r h
  cases n <;> exact h.1

section
variable {cfg : Config} {fmt : Str → Str} {α β γ : Type}

local notation "K" => KInv cfg fmt
local notation "ε" => env cfg fmt

/-- what is known of the trees -/
theorem AP.up {p : G α} {Q : α → Prop} (h : AP (Inv cfg.Mapped) p Q) : AP K p Q :=
  fun sk t a r hs => h sk t a r (sem_mono kinv_inv p _ _ _ _ hs)

theorem se_ve : SE K ε ve (VE.print fmt) := fun _ _ _ _ h => h.2
theorem se_venb : SE K ε venb (VENB.print fmt) := fun _ _ _ _ h => h.2
theorem se_sc : SE K ε sc (SC.print fmt) := fun _ _ _ _ h => h.2
theorem se_subq : SE K ε subq (Subquery.print fmt) := fun _ _ _ _ h => h.2
theorem se_jt : SE K ε jt (JT.print fmt) := fun _ _ _ _ h => h.2
theorem se_tr : SE K ε tr (TR.print fmt) := fun _ _ _ _ h => h.2
theorem sp_tap : SP K (UploadR ε) tap (fun a => a) := fun _ _ _ _ h => h.2

/-! ### Marks -/

/-- the mark `w` -/
abbrev Mark (w : Str) : List Str → List Str → Prop := One (Same (fun x => x = w))

theorem mark_eq {w : Str} {l l' : List Str} (h : Mark w l l') : l = [w] ∧ l' = [w] := by
  obtain ⟨x, y, rfl, rfl, rfl, rfl⟩ := h; exact ⟨rfl, rfl⟩

theorem sp_period {I : (n : Rule) → Bool → Str → Attr n → Str → Prop} :
    SP I (Mark cs!".") period (fun _ => cs!".") := by
  intro sk t a r h
  have ha := ap_period _ _ _ _ h
  obtain ⟨b, hb, rfl⟩ := l1_period _ _ _ _ h
  subst ha
  exact ShowsBy.tok hb.1 (.mark (by simp [marks])) (.inl (apart_last rfl)) ⟨rfl, rfl⟩

/-! ### `tap_upload` -/

theorem sp_tapUpload : SP K (UploadR ε) (tapUpload cfg) (fun a => a) := by
  rintro sk t a r ⟨b, t', rfl, hb, ⟨⟨u, y⟩, rfl, t₁, t₂, rfl, h1, h2⟩, -⟩
  have hu : u = cs!"TAP_UPLOAD." := ap_sym _ _ _ _ _ h1
  have h1' := (l1_lit false cs!"TAP_UPLOAD.").to0 _ _ _ h1
  subst h1'; subst hu
  obtain ⟨b', t', rfl, hb', ⟨x, hx, h3⟩, -⟩ := h2
  rw [blank_false] at hb'; subst hb'
  have hy : cfg.mapping x = some a := by
    cases hz : cfg.mapping x with
    | none => simp [hz] at hx
    | some z => simpa [hz] using hx
  have ht := l1_identifier.to0 _ _ _ h3
  subst ht
  refine ⟨[cs!"TAP_UPLOAD", cs!".", t'], [a], ?_, ⟨t', a, hy, rfl, rfl⟩, .tok a⟩
  have r3 : Reads t' [t'] r := by
    have := Reads.cons (b := []) (t := []) (r := r) blanks_nil (token_name (ap_identifier _ _ _ _ h3))
      (.inl (by simpa using apart_identAt (identifier_at h3))) (.nil blanks_nil)
    simpa using this
  have r2 : Reads (cs!"." ++ t') [cs!".", t'] r := by
    have := Reads.cons (b := []) (x := cs!".") blanks_nil (.mark (by simp [marks]))
      (.inl (apart_last rfl)) r3
    simpa using this
  have r1 := Reads.cons (x := cs!"TAP_UPLOAD") hb.1 (.word (identShape_iff.2 (by decide)))
    (.inl (apart_head rfl)) r2
  simpa using r1

/-! ### Columns and table names -/

/-- names with dots, unchanged -/
def DotsR (l l' : List Str) : Prop := l' = l ∧ Dotted l
/-- the same after a dot -/
def DotNames (l l' : List Str) : Prop := ∃ d, l = cs!"." :: d ∧ l' = l ∧ Dotted d

theorem dotted_append {a b : List Str} (ha : Dotted a) (hb : Dotted b) :
    Dotted (a ++ cs!"." :: b) := by
  induction ha with
  | one h => exact .cons h hb
  | cons h _ ih => exact .cons h ih

theorem dotNames_then {l l' : List Str} (h : Then DotNames DotNames l l') : DotNames l l' := by
  obtain ⟨_, _, _, _, rfl, rfl, ⟨d, rfl, rfl, hd⟩, ⟨f, rfl, rfl, hf⟩⟩ := h
  exact ⟨d ++ cs!"." :: f, by simp, rfl, dotted_append hd hf⟩

theorem dots_then {l l' : List Str} (h : Then (One (Same Name)) DotNames l l') : DotsR l l' := by
  obtain ⟨_, _, _, _, rfl, rfl, ⟨x, y, rfl, rfl, rfl, hx⟩, ⟨f, rfl, rfl, hf⟩⟩ := h
  exact ⟨rfl, .cons hx hf⟩

theorem dots_one {l l' : List Str} (h : One (Same Name) l l') : DotsR l l' := by
  obtain ⟨x, y, rfl, rfl, rfl, hx⟩ := h; exact ⟨rfl, .one hx⟩

theorem dot_name {l l' : List Str} (h : Then (Mark cs!".") (One (Same Name)) l l') :
    DotNames l l' := by
  obtain ⟨_, _, _, _, rfl, rfl, h1, ⟨x, y, rfl, rfl, rfl, hx⟩⟩ := h
  obtain ⟨rfl, rfl⟩ := mark_eq h1
  exact ⟨[_], rfl, rfl, .one hx⟩

theorem edit_dots {e : Env} {l l' : List Str} (h : DotsR l l') : Edit e l l' := by
  obtain ⟨rfl, -⟩ := h; exact edit_refl _

section
variable {I : (n : Rule) → Bool → Str → Attr n → Str → Prop}

theorem sp_dotName : SP I DotNames (seqR (sym cs!".") identifier) (fun a => cs!"." ++ a) :=
  (SP.seqR (sp_sym cs!"." cs!"." rfl rfl rfl) sp_identifier fun _ => apart_last rfl).imp
    fun _ _ => dot_name

/-- `period` then an identifier, inside a lexeme -/
theorem sp_catDot {p : G Str} {R : List Str → List Str → Prop} (h : SP I R p (fun a => a)) :
    SP I (Then (Mark cs!".") R) (cat period p) (fun a => a) :=
  SP.cat (sp_period.congr ap_period fun _ h => h.symm) h ap_period (.trivial _)
    fun _ _ h _ => by rw [h]; exact apart_last rfl

theorem ap_catDot {p : G Str} : AP I (cat period p) (fun a => headLoose a = true) :=
  (ap_cat ap_period (.trivial p)).imp fun a ⟨x, y, h, hx, _⟩ => by rw [h, hx]; rfl

end

/-- the qualifier of a column: an uploaded table or a name -/
def QualR (e : Env) (l l' : List Str) : Prop := UploadR e l l' ∨ One (Same Name) l l'

theorem sp_columnReference : SP K (ColEdit ε) columnReference ColRef.print := by
  have hd : ∀ a b : Str, Apart a (cs!"." ++ b) := fun _ _ => apart_head rfl
  refine .alt ?_ (.alt ?_ (.alt ?_ ?_))
  · have := (SP.seq sp_identifier ((SP.seq (I := K) sp_dotName ((SP.seq sp_dotName sp_dotName
      fun _ _ => hd _ _).imp fun _ _ => dotNames_then) fun _ _ => apart_head rfl).imp
        fun _ _ => dotNames_then) fun _ _ => apart_head rfl).imp fun _ _ => dots_then
    exact (this.imp fun l l' h => by obtain ⟨rfl, h⟩ := h; exact .keep h).map
      fun x => by simp [ColRef.print]
  · have := (SP.seq sp_identifier ((SP.seq (I := K) sp_dotName sp_dotName
      fun _ _ => hd _ _).imp fun _ _ => dotNames_then) fun _ _ => apart_head rfl).imp
        fun _ _ => dots_then
    exact (this.imp fun l l' h => by obtain ⟨rfl, h⟩ := h; exact .keep h).map
      fun x => by simp [ColRef.print]
  · have h1 : SP K (QualR ε) (.alt tap identifier) (fun a => a) :=
      .alt (sp_tap.imp fun _ _ => .inl) (sp_identifier.imp fun _ _ => .inr)
    refine ((SP.seq h1 sp_dotName fun _ _ => hd _ _).imp ?_).map fun x => by simp [ColRef.print]
    rintro l l' ⟨a, _, a', _, rfl, rfl, h | h, ⟨f, rfl, rfl, hf⟩⟩
    · obtain ⟨x, y, hxy, rfl, rfl⟩ := h
      exact .upload hxy hf
    · obtain ⟨x, y, rfl, rfl, rfl, hx⟩ := h
      exact .keep (.cons hx hf)
  · exact (sp_identifier.imp fun l l' h => by
      obtain ⟨rfl, h⟩ := dots_one h; exact .keep h).map fun x => by simp [ColRef.print]

theorem edit_col {e : Env} {l l' : List Str} (h : ColEdit e l l') : Edit e l l' := by
  cases h with
  | keep _ => exact edit_refl _
  | upload h _ => exact .append (.upload h) (edit_refl (_ :: _))

theorem se_columnReference : SE K ε columnReference ColRef.print :=
  sp_columnReference.imp fun _ _ => edit_col

theorem se_tableName : SE K ε tableName (fun a => a) := by
  have ha : ∀ a b : Str, True → headLoose b = true → Apart a b := fun _ _ _ h => apart_head h
  have hn : SP K (Then (Mark cs!".") (One (Same Name))) (cat period identifier) (fun a => a) :=
    sp_catDot sp_identifier
  refine .lexeme (.alt (sp_tap.imp fun l l' h => ?_) (.alt ?_ (.alt ?_ se_identifier)))
  · obtain ⟨x, y, h, rfl, rfl⟩ := h; exact .upload h
  · refine (SP.cat sp_identifier (sp_catDot (SP.cat sp_identifier (sp_catDot sp_identifier)
      (.trivial _) ap_catDot ha)) (.trivial _) ap_catDot ha).imp ?_
    rintro l l' ⟨_, _, _, _, rfl, rfl, h1, _, _, _, _, rfl, rfl, h2, _, _, _, _, rfl, rfl, h3, h4⟩
    exact .append (edit_same h1) (.append (edit_same h2) (.append (edit_same h3)
      (by obtain ⟨d, rfl, rfl, hd⟩ := dot_name h4; exact edit_refl (_ :: _))))
  · refine (SP.cat sp_identifier hn (.trivial _) ap_catDot ha).imp ?_
    rintro l l' ⟨_, _, _, _, rfl, rfl, h1, _, _, _, _, rfl, rfl, h2, h3⟩
    exact .append (edit_same h1) (.append (edit_same h2) (edit_same h3))

/-! ### Numerals and coordinates -/

theorem ap_double {I : (n : Rule) → Bool → Str → Attr n → Str → Prop} : AP I double Number := by
  have hd : AP I (plusS (chS isDigit)) Digits :=
    (ap_plusS_chS isDigit).imp fun a h => ⟨h.1, fun c hc => isDigit_iff.1 (h.2 c hc)⟩
  have hf : AP I (manyS (chS isDigit)) (fun a => a = [] ∨ Digits a) :=
    (ap_manyS_chS isDigit).imp fun a h => by
      by_cases h0 : a = []
      · exact .inl h0
      · exact .inr ⟨h0, fun c hc => isDigit_iff.1 (h c hc)⟩
  have hs : AP I (optS (chS fun c => c == '+' || c == '-')) (fun a => a = [] ∨ a = ['+'] ∨ a = ['-']) :=
    (ap_optS (ap_chS _)).imp fun a h => by
      rcases h with h | ⟨c, rfl, hc⟩
      · exact .inl h
      · simp at hc; rcases hc with rfl | rfl <;> simp
  have hu : AP I (.alt (cat (plusS (chS isDigit)) (optS (cat (chS (· == '.')) (manyS (chS isDigit)))))
      (cat (chS (· == '.')) (plusS (chS isDigit)))) Unsigned :=
    .alt ((ap_cat hd (ap_optS (ap_cat (ap_chS _) hf))).imp fun a h => by
        obtain ⟨x, y, rfl, hx, rfl | ⟨u, v, rfl, ⟨c, rfl, hc⟩, hv⟩⟩ := h
        · simpa using Unsigned.int hx
        · simp at hc; subst hc
          rcases hv with rfl | hv
          · exact .dot hx
          · exact .dec hx hv)
      ((ap_cat (ap_chS _) hd).imp fun a h => by
        obtain ⟨x, y, rfl, ⟨c, rfl, hc⟩, hy⟩ := h
        simp at hc; subst hc; exact .frac hy)
  have hm : AP I (.alt (cat (.alt (cat (plusS (chS isDigit))
                  (optS (cat (chS (· == '.')) (manyS (chS isDigit)))))
                (cat (chS (· == '.')) (plusS (chS isDigit))))
            (optS (cat (chS fun c => c == 'E' || c == 'e')
              (cat (optS (chS fun c => c == '+' || c == '-')) (plusS (chS isDigit))))))
      (.alt (cat (kw cs!"nan") (optS (cat (chS (· == '('))
              (cat (manyS (chS (· != ')'))) (chS (· == ')'))))))
        (cat (kw cs!"inf") (optS (kw cs!"inity"))))) Magnitude := by
    refine .alt ((ap_cat hu (ap_optS (ap_cat (ap_chS _) (ap_cat hs hd)))).imp fun a h => ?_)
      (.alt ((ap_cat (ap_kw _) (ap_optS (ap_cat (ap_chS _) (ap_cat (ap_manyS_chS _)
        (ap_chS _))))).imp fun a h => ?_)
          ((ap_cat (ap_kw _) (ap_optS (ap_kw _))).imp fun a h => ?_))
    · obtain ⟨x, y, rfl, hx, rfl | ⟨u, v, rfl, ⟨c, rfl, hc⟩, g, d, rfl, hg, hd⟩⟩ := h
      · simpa using Magnitude.plain hx
      · simp at hc
        refine .expo hx ?_
        rcases hg with rfl | rfl | rfl
        · exact .mk hc hd
        · exact .signed hc (.inl rfl) hd
        · exact .signed hc (.inr rfl) hd
    · obtain ⟨x, y, rfl, hx, rfl | ⟨u, v, rfl, ⟨c, rfl, hc⟩, g, d, rfl, hg, e, rfl, he⟩⟩ := h
      · simpa using Magnitude.nan hx
      · simp at hc he; subst hc he
        refine .nanArg hx ?_
        intro hm
        have := hg _ hm
        simp at this
    · obtain ⟨x, y, rfl, hx, rfl | hy⟩ := h
      · exact .inf ⟨cs!"inf", by simp, by simpa using hx⟩
      · exact .inf ⟨cs!"infinity", by simp, sameCI_append hx hy⟩
  refine .lexeme ((ap_cat hs hm).imp fun a h => ?_)
  obtain ⟨x, y, rfl, rfl | rfl | rfl, hy⟩ := h
  · exact .plain hy
  · exact .plus hy
  · exact .minus hy

/-- a numeral is formatted by `fmt` -/
def NumR (e : Env) : List Str → List Str → Prop := One (fun x y => Number x ∧ y = e.fmt x)

theorem sp_double (e : Env) {I : (n : Rule) → Bool → Str → Attr n → Str → Prop} :
    SP I (NumR e) double e.fmt := by
  intro sk t a r h
  obtain ⟨b, hb, rfl⟩ := l1_double _ _ _ _ h
  have := ap_double _ _ _ _ h
  exact .tok hb.1 (.number this) (.inr (.inr (.inl this))) ⟨this, rfl⟩

/-- an operator in a coordinate -/
def OpR : List Str → List Str → Prop := One (Same (fun x => x ∈ [cs!"+", cs!"-", cs!"*", cs!"/"]))

theorem sp_arithOp {I : (n : Rule) → Bool → Str → Attr n → Str → Prop} :
    SP I OpR arithOp (fun c => [c]) := by
  rintro sk t c r ⟨b, t', rfl, hb, ⟨b', rfl, hb', hc⟩, -⟩
  rw [blank_false] at hb'; subst hb'
  simp only [Bool.or_eq_true, beq_iff_eq] at hc
  have hm : [c] ∈ [cs!"+", cs!"-", cs!"*", cs!"/"] := by
    rcases hc with ((rfl | rfl) | rfl) | rfl <;> simp
  refine ShowsBy.tok hb.1 (.mark ?_) (.inl (apart_last ?_)) ⟨rfl, hm⟩
  · rcases hc with ((rfl | rfl) | rfl) | rfl <;> simp [marks]
  · rcases hc with ((rfl | rfl) | rfl) | rfl <;> rfl

theorem arithOp_loose : AP K arithOp (fun c => loose c = true) :=
  AP.up (ap_arithOp.imp fun c h => by rcases h with rfl | rfl | rfl | rfl <;> rfl)

theorem sp_coordExpr : SP K (CoordEdit ε) coordExpr (CoordExpr.print fmt) := by
  refine .alt ?_ (.alt ((sp_columnReference.imp fun _ _ => .col).map fun _ => rfl)
    (((sp_double ε).imp fun l l' h => ?_).map fun _ => rfl))
  · refine ((SP.seqOf (sp_double ε) (SP.seqOf sp_arithOp (sp_double ε) arithOp_loose (.trivial _)
      fun c _ h _ => apart_last h) (.trivial _) (.seq arithOp_loose (.trivial _))
        fun _ c _ h => apart_head h.1).imp fun l l' h => ?_).map fun x => by
          simp [CoordExpr.print, env]
    obtain ⟨_, _, _, _, rfl, rfl, ⟨x, _, rfl, rfl, hx, rfl⟩, _, _, _, _, rfl, rfl,
      ⟨o, _, rfl, rfl, rfl, ho⟩, ⟨y, _, rfl, rfl, hy, rfl⟩⟩ := h
    exact .op hx hy ho
  · obtain ⟨x, _, rfl, rfl, hx, rfl⟩ := h
    exact .num hx

/-- coordinates, each with a comma in front -/
inductive CommaCoords (e : Env) : List Str → List Str → Prop
  | nil : CommaCoords e [] []
  | cons {l l' m m'} : CoordEdit e l l' → CommaCoords e m m' →
      CommaCoords e (cs!"," :: (l ++ m)) (cs!"," :: (l' ++ m'))

theorem coordsEdit_append {e : Env} {l l' m m' : List Str} (h : CoordsEdit e l l')
    (hm : CoordsEdit e m m') : CoordsEdit e (l ++ cs!"," :: m) (l' ++ cs!"," :: m') := by
  induction h with
  | one h => exact .cons h hm
  | cons h _ ih => simpa using CoordsEdit.cons h ih

/-- the same, with the relation `Then` -/
theorem coords_then {e : Env} {l l' : List Str}
    (h : Then (CoordsEdit e) (Then (Mark cs!",") (CoordsEdit e)) l l') : CoordsEdit e l l' := by
  obtain ⟨_, _, _, _, rfl, rfl, h1, _, _, _, _, rfl, rfl, h2, h3⟩ := h
  obtain ⟨rfl, rfl⟩ := mark_eq h2
  exact coordsEdit_append h1 h3

section
variable {I : (n : Rule) → Bool → Str → Attr n → Str → Prop}

theorem sp_comma : SP I (Mark cs!",") (sym cs!",") (fun _ => cs!",") := sp_sym _ _ rfl rfl rfl
theorem sp_open : SP I (Mark cs!"(") (sym cs!"(") (fun _ => cs!"(") := sp_sym _ _ rfl rfl rfl
theorem sp_close : SP I (Mark cs!")") (sym cs!")") (fun _ => cs!")") := sp_sym _ _ rfl rfl rfl
theorem se_comma {e : Env} : SE I e (sym cs!",") (fun _ => cs!",") := se_sym _ _ rfl rfl rfl
theorem se_commaB {e : Env} : SE I e (sym cs!",") (fun _ => cs!", ") := se_sym _ _ rfl rfl rfl
theorem se_open {e : Env} : SE I e (sym cs!"(") (fun _ => cs!"(") := se_sym _ _ rfl rfl rfl
theorem se_close {e : Env} : SE I e (sym cs!")") (fun _ => cs!")") := se_sym _ _ rfl rfl rfl

theorem apL {c : Char} (h : loose c = true) (u v : Str) : Apart u (c :: v) := apart_head h

end

/-- a comma and a coordinate -/
def CommaOne (e : Env) : List Str → List Str → Prop := Then (Mark cs!",") (CoordsEdit e)

theorem commaOne_then {e : Env} {l l' : List Str} (h : Then (CommaOne e) (CommaOne e) l l') :
    CommaOne e l l' := by
  obtain ⟨_, _, _, _, rfl, rfl, ⟨_, a, _, a', rfl, rfl, h1, h2⟩, ⟨_, b, _, b', rfl, rfl, h3, h4⟩⟩ := h
  obtain ⟨rfl, rfl⟩ := mark_eq h1
  obtain ⟨rfl, rfl⟩ := mark_eq h3
  exact ⟨[_], _, [_], _, by simp, by simp, h1, coordsEdit_append h2 h4⟩

theorem sp_coord : SP K (CoordsEdit ε) coord (Coord.print fmt) :=
  ((SP.seq (sp_coordExpr.imp fun _ _ => .one) (SP.seqR sp_comma (sp_coordExpr.imp fun _ _ => .one)
    fun _ => apart_last rfl) fun _ _ => apL rfl _ _).imp fun _ _ => coords_then).map
      fun x => by simp [Coord.print]

theorem sp_xCoordExpr : SP K (CommaOne ε) xCoordExpr (fun a => cs!"," ++ a.print fmt) :=
  SP.seqR (sp_comma (I := K)) (sp_coordExpr.imp fun _ _ => .one) fun _ => apart_last rfl

theorem sp_polyCoords : SP K (CoordsEdit ε) (sepBy coord (sym cs!","))
    (fun l => joinSep cs!"," (l.map (Coord.print fmt))) :=
  sp_sepBy sp_coord sp_comma rfl rfl (by simp) fun _ _ => coords_then

theorem printPolyCoords_eq : ∀ (l : List Coord), l ≠ [] →
    printPolyCoords fmt l = cs!"," ++ joinSep cs!"," (l.map (Coord.print fmt))
  | [], h => absurd rfl h
  | [a], _ => by simp [printPolyCoords, joinSep]
  | a :: b :: l, _ => by
    rw [printPolyCoords, printPolyCoords_eq (b :: l) (by simp)]
    simp [joinSep]

/-! ### Coordinate systems -/

theorem not_mem_sameCI {x w : Str} {c : Char} (h : SameCI x w) (hc : lowerC c ∉ w.map lowerC) :
    c ∉ x := by
  intro hx
  rw [← show x.map lowerC = w.map lowerC from h] at hc
  exact hc (List.mem_map_of_mem hx)

theorem not_mem_blanks {b : Str} {c : Char} (h : Blanks b) (hc : isSpace c = false) : c ∉ b := by
  intro hm; have := h c hm; simp [hc] at this

theorem qbody_plain {q : Char} : ∀ {b : Str}, q ∉ b → QBody q b
  | [], _ => .nil
  | c :: b, h => .chr (by rintro rfl; simp at h) (qbody_plain (by simp at h; exact h.2))

/-- the frames -/
def FrameText (y : Str) (f : Frame) : Prop := ∃ w, SameCI y w ∧
  (w = cs!"icrs" ∧ f = .icrs ∨ w = cs!"j2000" ∧ f = .j2000 ∨ w = cs!"galactic" ∧ f = .galactic)

section
variable {I : (n : Rule) → Bool → Str → Attr n → Str → Prop}

theorem referenceFrame_text {sk : Bool} {t r : Str} {f : Frame} (h : sem I referenceFrame sk t f r) :
    ∃ b y, t = b ++ y ∧ Blanks b ∧ FrameText y f := by
  rcases h with ⟨y, rfl, h⟩ | ⟨y, rfl, h⟩ | ⟨y, rfl, h⟩ <;>
    obtain ⟨b, hb, rfl⟩ := l1_lit _ _ _ _ _ _ h
  · exact ⟨b, y, rfl, hb.1, _, ap_kw _ _ _ _ _ h, .inl ⟨rfl, rfl⟩⟩
  · exact ⟨b, y, rfl, hb.1, _, ap_kw _ _ _ _ _ h, .inr (.inl ⟨rfl, rfl⟩)⟩
  · exact ⟨b, y, rfl, hb.1, _, ap_kw _ _ _ _ _ h, .inr (.inr ⟨rfl, rfl⟩)⟩

theorem coordSys_text {sk : Bool} {t r : Str} {c : CoordSys} (h : sem I coordSys sk t c r) :
    ∃ b x, t = b ++ x ∧ Blanks b ∧ SysQuoted x c.frame.print ∧ StrLit x := by
  obtain ⟨⟨f, p⟩, rfl, ⟨q1, _⟩, rfl, t1, t2, rfl, h1, ⟨_, q2⟩, rfl, t3, t4, rfl,
    ⟨t5, t6, rfl, h2, h3⟩, h4⟩ := h
  have e1 : q1 = cs!"'" := ap_sym _ _ _ _ _ h1
  have e4 : q2 = cs!"'" := ap_sym _ _ _ _ _ h4
  obtain ⟨b, hb, rfl⟩ := l1_lit _ _ _ _ _ _ h1
  obtain ⟨b3, hb3, rfl⟩ := l1_lit _ _ _ _ _ _ h4
  subst e1 e4
  have k2 : ∃ b1 y, t5 = b1 ++ y ∧ Blanks b1 ∧ '\'' ∉ y ∧
      (f.print ∈ [cs!"ICRS", cs!"J2000", cs!"GALACTIC"] ∧ SameCI y f.print ∨ y = [] ∧ f.print = cs!"ICRS") := by
    rcases h2 with h2 | ⟨rfl, rfl⟩
    · obtain ⟨b1, y, rfl, hb1, w, hy, hw⟩ := referenceFrame_text h2
      refine ⟨b1, y, rfl, hb1, not_mem_sameCI hy ?_, .inl ?_⟩
      · rcases hw with ⟨rfl, -⟩ | ⟨rfl, -⟩ | ⟨rfl, -⟩ <;> decide
      · rcases hw with ⟨rfl, rfl⟩ | ⟨rfl, rfl⟩ | ⟨rfl, rfl⟩ <;> exact ⟨by simp [Frame.print], hy⟩
    · exact ⟨[], [], rfl, blanks_nil, by simp, .inr ⟨rfl, rfl⟩⟩
  have k3 : ∃ b2 z, t6 = b2 ++ z ∧ Blanks b2 ∧ '\'' ∉ z ∧ (z = [] ∨ SameCI z cs!"GEOCENTER") := by
    rcases h3 with ⟨z, -, h3⟩ | ⟨rfl, -⟩
    · obtain ⟨b2, hb2, rfl⟩ := l1_lit _ _ _ _ _ _ h3
      have hz : SameCI z cs!"geocenter" := ap_kw _ _ _ _ _ h3
      exact ⟨b2, z, rfl, hb2.1, not_mem_sameCI hz (by decide), .inr hz⟩
    · exact ⟨[], [], rfl, blanks_nil, by simp, .inl rfl⟩
  obtain ⟨b1, y, rfl, hb1, hy, hf⟩ := k2
  obtain ⟨b2, z, rfl, hb2, hz, hp⟩ := k3
  refine ⟨b, '\'' :: (b1 ++ (y ++ (b2 ++ (z ++ (b3 ++ ['\'']))))), by simp, hb.1,
    ⟨b1, y, b2, z, b3, rfl, hb1, hb2, hb3.1, hp, hf⟩, ?_⟩
  refine ⟨'\'' :: (b1 ++ (y ++ (b2 ++ (z ++ b3))) ++ ['\'']), [], by simp, ⟨_, rfl, qbody_plain ?_⟩, .nil⟩
  simp only [List.mem_append, not_or]
  have hs : isSpace '\'' = false := rfl
  exact ⟨not_mem_blanks hb1 hs, hy, not_mem_blanks hb2 hs, hz, not_mem_blanks hb3.1 hs⟩

theorem sp_optCoordSys : SP I SysEdit optCoordSys (fun c => cs!"'" ++ (c.print ++ cs!"',")) := by
  have hl : ∀ x : Str, Laid (x ++ cs!",") [x, cs!","] := fun x => by
    have := (Laid.tok x).append (Laid.tok cs!",") (apart_head rfl)
    exact this
  rintro sk t c r (⟨⟨c', x⟩, rfl, t1, t2, rfl, h1, h2⟩ | ⟨rfl, rfl⟩)
  · replace h2 : sem I (sym cs!",") sk t2 x r := h2
    have hc := hl_sym (I := I) (c := ',') (w := []) rfl sk t2 x r h2
    obtain ⟨b, y, rfl, hb, hq, hs⟩ := coordSys_text h1
    have e2 : x = cs!"," := ap_sym _ _ _ _ _ h2
    obtain ⟨b', hb', rfl⟩ := l1_lit _ _ _ _ _ _ h2
    subst e2
    refine ⟨_, _, ?_, .some hq, ?_⟩
    · have r2 : Reads (b' ++ cs!",") [cs!","] r := by
        have := Reads.cons (t := []) (r := r) (x := cs!",") hb'.1 (.mark (by simp [marks]))
          (.inl (apart_last rfl)) (.nil blanks_nil)
        simpa using this
      simpa using Reads.cons hb (.str hs) (.inl (apart_loose hc)) r2
    · have := hl ('\'' :: (c.frame.print ++ cs!" GEOCENTER'"))
      simpa [CoordSys.print, Pos.print] using this
  · exact ⟨_, _, .nil blanks_nil, .none, hl cs!"'ICRS GEOCENTER'"⟩

end

theorem coords_close {e : Env} {l l' : List Str}
    (h : Then (CoordsEdit e) (Then (CommaOne e) (Mark cs!")")) l l') :
    Then (CoordsEdit e) (Mark cs!")") l l' := by
  obtain ⟨_, _, _, _, rfl, rfl, h1, _, c, _, c', rfl, rfl, h2, h3⟩ := h
  exact ⟨_, c, _, c', (List.append_assoc _ _ _).symm, (List.append_assoc _ _ _).symm,
    coords_then ⟨_, _, _, _, rfl, rfl, h1, h2⟩, h3⟩

theorem comma_close {e : Env} {l l' : List Str}
    (h : Then (CommaOne e) (Then (CommaOne e) (Mark cs!")")) l l') :
    Then (CommaOne e) (Mark cs!")") l l' := by
  obtain ⟨_, _, _, _, rfl, rfl, h1, _, c, _, c', rfl, rfl, h2, h3⟩ := h
  exact ⟨_, c, _, c', (List.append_assoc _ _ _).symm, (List.append_assoc _ _ _).symm,
    commaOne_then ⟨_, _, _, _, rfl, rfl, h1, h2⟩, h3⟩

theorem sp_xClose {I : (n : Rule) → Bool → Str → Attr n → Str → Prop} :
    SP I (Mark cs!")") xClose (fun _ => cs!")") := SP.expect sp_close

theorem se_shapeOf {w : Str} (hw : wordB w = true) (hc : padded w w = true)
    (hm : w ∈ [cs!"POINT", cs!"CIRCLE", cs!"BOX", cs!"ELLIPSE", cs!"POLYGON"])
    {p : G α} {f : α → Str} (h : SP K (Then (CoordsEdit ε) (Mark cs!")")) p f) :
    SE K ε (.seq (shapeHead w) p)
      (fun x => w ++ (cs!"(" ++ (cs!"'" ++ (x.1.print ++ cs!"',")) ++ f x.2)) := by
  have h0 : SP K (Then (One (Kw w)) (Then (Mark cs!"(") SysEdit)) (shapeHead w)
      (fun c => w ++ (cs!"(" ++ (cs!"'" ++ (c.print ++ cs!"',")))) :=
    (sp_kwThen w w hw hc (SP.seqR sp_open sp_optCoordSys fun _ => apart_last rfl)
      (hl_seqR (hl_sym rfl)) fun _ => apL rfl _ _).map fun _ => rfl
  refine ((SP.seq h0 h fun c _ => ?_).imp fun l l' h => ?_).eq fun x => by simp
  · have : w ++ (cs!"(" ++ (cs!"'" ++ (c.print ++ cs!"',"))) = (w ++ (cs!"('" ++ (c.print ++ cs!"'"))) ++ cs!"," := by
      simp
    rw [this]; exact apart_snoc rfl
  · obtain ⟨_, _, _, _, rfl, rfl, ⟨_, _, _, _, rfl, rfl, ⟨x, _, rfl, rfl, rfl, hx⟩,
      ⟨_, y, _, y', rfl, rfl, k1, k2⟩⟩, ⟨m, _, m', _, rfl, rfl, k3, k4⟩⟩ := h
    obtain ⟨rfl, rfl⟩ := mark_eq k1
    obtain ⟨rfl, rfl⟩ := mark_eq k4
    have := Edit.shape (e := ε) hm hx k2 k3
    simpa using this

theorem sp_coordClose : SP K (Then (CoordsEdit ε) (Mark cs!")"))
    (seqL (.expect "coordinate" coord) xClose) (fun a => a.print fmt ++ cs!")") :=
  SP.seqL sp_coord sp_xClose fun _ => apL rfl _ _

theorem sp_lastCoord : SP K (Then (CommaOne ε) (Mark cs!")")) (seqL xCoordExpr xClose)
    (fun a => (cs!"," ++ a.print fmt) ++ cs!")") :=
  SP.seqL sp_xCoordExpr sp_xClose fun _ => apL rfl _ _

theorem se_point : SE K ε point (Point.print fmt) :=
  (se_shapeOf (w := cs!"POINT") rfl rfl (by simp) sp_coordClose).map fun x => by
    simp [Point.print]

theorem se_circle : SE K ε circle (Shape.print fmt) :=
  (se_shapeOf (w := cs!"CIRCLE") rfl rfl (by simp) ((SP.seq (p := .expect "coordinate" coord) sp_coord
    sp_lastCoord fun _ _ => apL rfl _ _).imp fun _ _ => coords_close)).map fun x => by
      simp [Shape.print]

theorem se_box : SE K ε box (Shape.print fmt) :=
  (se_shapeOf (w := cs!"BOX") rfl rfl (by simp) ((SP.seq (p := .expect "coordinate" coord) sp_coord
    ((SP.seq sp_xCoordExpr sp_lastCoord fun _ _ => apL rfl _ _).imp fun _ _ => comma_close)
      fun _ _ => apL rfl _ _).imp fun _ _ => coords_close)).map fun x => by
        simp [Shape.print]

theorem se_ellipse : SE K ε ellipse (Shape.print fmt) :=
  (se_shapeOf (w := cs!"ELLIPSE") rfl rfl (by simp) ((SP.seq (p := .expect "coordinate" coord) sp_coord
    ((SP.seq sp_xCoordExpr ((SP.seq sp_xCoordExpr sp_lastCoord fun _ _ => apL rfl _ _).imp
      fun _ _ => comma_close) fun _ _ => apL rfl _ _).imp fun _ _ => comma_close)
        fun _ _ => apL rfl _ _).imp fun _ _ => coords_close)).map fun x => by
          simp [Shape.print]

theorem se_polygon : SE K ε polygon (Shape.print fmt) := by
  have h : SP K (Then (CoordsEdit ε) (Mark cs!")"))
      (seqL (.expect "coordinate list" (sepBy coord (sym cs!","))) xClose)
      (fun l => joinSep cs!"," (l.map (Coord.print fmt)) ++ cs!")") :=
    SP.seqL sp_polyCoords sp_xClose fun _ => apL rfl _ _
  have ha : AP K (.seq (shapeHead cs!"POLYGON")
      (seqL (.expect "coordinate list" (sepBy coord (sym cs!","))) xClose)) (fun x => x.2 ≠ []) :=
    (AP.seq (.trivial _) (.seqL (.expect (.sepBy (.trivial _))))).imp fun x h => h.2.1
  have h2 := se_shapeOf (w := cs!"POLYGON") rfl rfl (by simp) h
  have h3 := SP.congr (g := fun x => (Shape.polygon x.1 x.2).print fmt) h2 ha fun x hx => by
    simp [Shape.print, printPolyCoords_eq _ hx]
  exact SP.map h3 fun x => rfl

theorem se_shape : SE K ε shape (Shape.print fmt) :=
  .alt (se_point.map fun _ => rfl) (.alt se_circle (.alt se_box (.alt se_ellipse se_polygon)))

theorem se_pointOrColumn : SE K ε pointOrColumn (PointOrCol.print fmt) :=
  .alt (se_point.map fun _ => rfl) (se_columnReference.map fun _ => rfl)

theorem se_shapeOrColumn : SE K ε shapeOrColumn (ShapeOrCol.print fmt) :=
  .alt (se_shape.map fun _ => rfl) (se_columnReference.map fun _ => rfl)

end

end Adql
