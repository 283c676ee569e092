import Verif.Spec.Sealed
import Verif.Model.Origin
import Verif.Model.FaithfulExpr
import Verif.Model.FaithfulGeom
import Verif.Props.Comment
import Verif.Model.Spell
import Verif.Model.Reach
import Verif.Props.Clauses

/-!
# The formatted text of every node is sealed, unless it has a comment
-/

set_option linter.unusedSectionVars false

namespace Adql.Seal

open Spec

variable [Extra]

theorem after_append (x y : Str) : ∀ o : Opened, o.after (x ++ y) = (o.after x).bind fun o' => o'.after y := by
  induction x with
  | nil => intro o; rfl
  | cons c x ih =>
    intro o
    simp only [List.cons_append, Opened.after]
    cases o.next c with
    | none => rfl
    | some o' => exact ih o'

theorem next_quote {o o' : Opened} {c : Char} (h : o.next c = some o') : o'.quote = quoteStep o.quote c := by
  obtain ⟨l, q⟩ := o
  cases q with
  | some q =>
    simp only [Opened.next, Option.some.injEq] at h
    subst h
    simp only [quoteStep]
    split <;> rfl
  | none =>
    simp only [Opened.next] at h
    simp only [quoteStep]
    split at h
    · next hc => cases h; simp [hc]
    · next hc =>
      rw [if_neg hc]
      repeat' split at h
      all_goals first | (cases h; rfl) | cases h

theorem after_quote : ∀ (s : Str) {o o' : Opened}, o.after s = some o' → o'.quote = s.foldl quoteStep o.quote := by
  intro s
  induction s with
  | nil => intro o o' h; cases h; rfl
  | cons c s ih =>
    intro o o' h
    simp only [Opened.after, Option.bind_eq_some_iff] at h
    obtain ⟨o1, h1, h2⟩ := h
    rw [ih h2, next_quote h1, List.foldl_cons]

/-- a comment starts in the text, when the quote is open in front of it -/
def CommentFrom (q : Option Char) (s : Str) : Prop := ∃ x y, s = x ++ '-' :: '-' :: y ∧ x.foldl quoteStep q = none

/-- a comment starts, or the text leads from one state to the other -/
def Step (o : Opened) (s : Str) (o' : Opened) : Prop := CommentFrom o.quote s ∨ o.after s = some o'

theorem Step.app {o o' o'' : Opened} {x y : Str} (h : Step o x o') (h' : Step o' y o'') : Step o (x ++ y) o'' := by
  rcases h with ⟨u, v, rfl, e⟩ | h
  · exact .inl ⟨u, v ++ y, by simp, e⟩
  rcases h' with ⟨u, v, rfl, e⟩ | h'
  · refine .inl ⟨x ++ u, v, by simp, ?_⟩
    rw [List.foldl_append, ← after_quote x h, e]
  · exact .inr (by rw [after_append, h]; exact h')

theorem Step.nil {o : Opened} : Step o [] o := .inr rfl
theorem Step.lit {o o' : Opened} {x : Str} (h : o.after x = some o') : Step o x o' := .inr h
theorem Step.ite {o o' : Opened} {x y : Str} {c : Prop} [Decidable c] (h : c → Step o x o') (h' : ¬ c → Step o y o') :
    Step o (if c then x else y) o' := by
  split
  · next hc => exact h hc
  · next hc => exact h' hc

/-- outside quotes, a comment starts or the text leaves open what was open -/
def Good (s : Str) : Prop := ∀ l, Step ⟨l, none⟩ s ⟨l, none⟩

theorem Good.at {s : Str} {l : List Char} (h : Good s) : Step ⟨l, none⟩ s ⟨l, none⟩ := h l
theorem Good.of {s : Str} (h : ∀ l, Step ⟨l, none⟩ s ⟨l, none⟩) : Good s := h
theorem Good.nil : Good [] := fun _ => .nil
theorem Good.app {x y : Str} (h : Good x) (h' : Good y) : Good (x ++ y) := fun l => (h l).app (h' l)

theorem Step.sys {l : List Char} (s : CoordSys) : Step ⟨l, some '\''⟩ s.print ⟨l, some '\''⟩ := by
  obtain ⟨f, p⟩ := s
  cases f <;> cases p <;> exact .lit rfl

syntax "seal_run" : tactic
macro_rules
  | `(tactic| seal_run) => `(tactic| repeat' first
    | exact Step.nil
    | (refine Good.at ?_; assumption)
    | exact Step.sys _
    | apply Step.app
    | exact Step.lit rfl
    | (apply Step.ite <;> intro _))

/-! ### Words -/

/-- a character that neither opens nor closes anything -/
abbrev flat (c : Char) : Bool := usual c

theorem flat_ne {c d : Char} (h : flat c = true) (hd : flat d = false) : c ≠ d := by
  rintro rfl
  rw [h] at hd
  cases hd

theorem next_flat {c : Char} (h : flat c = true) (l : List Char) : Opened.next ⟨l, none⟩ c = some ⟨l, none⟩ := by
  have hn : ∀ d, flat d = false → c ≠ d := fun d => flat_ne h
  simp [Opened.next, hn '\'' rfl, hn '"' rfl, hn '(' rfl, hn ')' rfl, hn '[' rfl, hn ']' rfl, show usual c = true from h]

theorem after_flat : ∀ {x : Str}, (∀ c ∈ x, flat c = true) → ∀ l, Opened.after ⟨l, none⟩ x = some ⟨l, none⟩
  | [], _, _ => rfl
  | c :: x, h, l => by
    simp only [Opened.after, next_flat (h c (by simp)), Option.bind_some]
    exact after_flat (fun d hd => h d (by simp [hd])) l

theorem good_flat {x : Str} (h : ∀ c ∈ x, flat c = true) : Good x := fun l => .inr (after_flat h l)

theorem flat_id {c : Char} (h : IdChar c) : flat c = true := by
  have h := isIdChar_iff.2 h
  simp only [isIdChar, isDigit, isLetter, Bool.or_eq_true, Bool.and_eq_true, decide_eq_true_eq, beq_iff_eq] at h
  simp only [flat, usual, Bool.or_eq_true, Bool.and_eq_true, decide_eq_true_eq, ge_iff_le]
  rcases h with (h | h | h) | rfl <;> simp_all

theorem flat_ci {x w : Str} (h : SameCI x w) (hw : w.all isIdChar = true) : ∀ c ∈ x, flat c = true := by
  intro c hc
  refine flat_id (isIdChar_iff.1 ?_)
  rw [← isIdChar_lowerC]
  have : lowerC c ∈ w.map lowerC := h ▸ List.mem_map.2 ⟨c, hc, rfl⟩
  obtain ⟨d, hd, e⟩ := List.mem_map.1 this
  rw [← e, isIdChar_lowerC]
  exact List.all_eq_true.1 hw d hd

theorem good_ci {x w : Str} (h : SameCI x w) (hw : w.all isIdChar = true) : Good x := good_flat (flat_ci h hw)

theorem good_oneOf {ws : List Str} {x : Str} (h : OneOf ws x) (hw : ws.all (fun w => w.all isIdChar) = true) : Good x := by
  obtain ⟨w, hm, hx⟩ := h
  exact good_ci hx (List.all_eq_true.1 hw w hm)

theorem good_mem {ws : List Str} {x : Str} (h : x ∈ ws) (hw : ws.all (fun w => w.all flat) = true) : Good x :=
  good_flat (List.all_eq_true.1 (List.all_eq_true.1 hw x h))

theorem good_upper {ws : List Str} {x : Str} (h : OneOf ws x) (hw : ws.all (fun w => (upper w).all flat) = true) : Good (upper x) := by
  obtain ⟨w, hm, hx⟩ := h
  rw [upper_sameCI hx]
  exact good_flat (List.all_eq_true.1 (List.all_eq_true.1 hw w hm))

theorem good_ident {x : Str} (h : IdentShape x) : Good x := by
  obtain ⟨c, t, rfl, hc, ht⟩ := h
  refine good_flat fun d hd => flat_id ?_
  rcases List.mem_cons.1 hd with rfl | hd
  · exact .inl hc
  · exact ht d hd

theorem good_pq {x : Str} (h : PQName x) : Good x := by
  obtain ⟨c, t, rfl, hc, ht⟩ := h
  refine good_flat fun d hd => ?_
  rcases List.mem_cons.1 hd with rfl | hd
  · exact flat_id (.inl hc)
  · rcases ht d hd with h | rfl
    · exact flat_id h
    · rfl

theorem flat_digits {x : Str} (h : Digits x) : ∀ c ∈ x, flat c = true := fun c hc => flat_id (.inr (.inl (h.2 c hc)))
theorem good_digits {x : Str} (h : Digits x) : Good x := good_flat (flat_digits h)

theorem after_body {q : Char} (hq : q = '\'' ∨ q = '"') {b : Str} (h : QBody q b) (l : List Char) :
    Opened.after ⟨l, some q⟩ (b ++ [q]) = some ⟨l, none⟩ := by
  induction h with
  | nil => simp [Opened.after, Opened.next]
  | chr hc _ ih => simpa [Opened.after, Opened.next, hc] using ih
  | dbl _ ih => simpa [Opened.after, Opened.next, hq] using ih

theorem good_quoted {q : Char} (hq : q = '\'' ∨ q = '"') {b : Str} (h : QBody q b) : Good (q :: b ++ [q]) := by
  intro l
  refine .inr ?_
  have : Opened.next ⟨l, none⟩ q = some ⟨l, some q⟩ := by simp [Opened.next, hq]
  simp only [List.cons_append, Opened.after, this, Option.bind_some]
  exact after_body hq h l

theorem good_name {x : Str} (h : Name x) : Good x := by
  rcases h with ⟨h, -⟩ | ⟨b, rfl, -, h⟩
  · exact good_ident h
  · exact good_quoted (.inr rfl) h

theorem good_expo {x : Str} (h : Expo x) : Good x := by
  refine good_flat fun c hc => ?_
  cases h with
  | mk he hd =>
    rcases List.mem_cons.1 hc with rfl | hc
    · rcases he with rfl | rfl <;> rfl
    · exact flat_digits hd c hc
  | signed he hg hd =>
    rcases List.mem_cons.1 hc with rfl | hc
    · rcases he with rfl | rfl <;> rfl
    · rcases List.mem_cons.1 hc with rfl | hc
      · rcases hg with rfl | rfl <;> rfl
      · exact flat_digits hd c hc

theorem good_dot {x : Str} (h : Good x) : Good ('.' :: x) := Good.app (x := cs!".") (fun _ => .lit rfl) h

theorem good_mantissa {x : Str} (h : Mantissa x) : Good x := by
  cases h with
  | int h => exact good_digits h
  | dec h h' => exact (good_digits h).app (good_dot (good_digits h'))
  | frac h => exact good_dot (good_digits h)

theorem good_num {x : Str} (h : NumLit x) : Good x := by
  cases h with
  | exact h => exact good_mantissa h
  | approx h h' => exact (good_mantissa h).app (good_expo h')

theorem good_sep {x : Str} (h : Sep x) : Good x := by
  cases h with
  | blank => exact fun _ => .lit rfl
  | newline => exact fun _ => .lit rfl
  | comment _ => exact fun _ => .inl ⟨[], _, rfl, rfl⟩

theorem good_seps {x : Str} (h : Seps x) : Good x := by
  induction h with
  | one h => exact good_sep h
  | cons h _ ih => exact (good_sep h).app ih

theorem good_part {x : Str} (h : StrPart x) : Good x := by
  obtain ⟨b, rfl, h⟩ := h
  exact good_quoted (.inl rfl) h

theorem good_strTail {x : Str} (h : StrTail x) : Good x := by
  induction h with
  | nil => exact .nil
  | cons h h' _ ih => exact (good_seps h).app ((good_part h').app ih)

theorem good_str {x : Str} (h : StrLit x) : Good x := by
  obtain ⟨p, u, rfl, h, h'⟩ := h
  exact (good_part h).app (good_strTail h')

theorem good_join {sep : Str} (hs : Good sep) : ∀ {l : List Str}, (∀ x ∈ l, Good x) → Good (joinSep sep l)
  | [], _ => .nil
  | [x], h => h x (by simp)
  | x :: y :: l, h => by
    simp only [joinSep]
    exact ((h x (by simp)).app hs).app (good_join hs fun z hz => h z (List.mem_cons_of_mem _ hz))

/-- what was closed is closed inside anything -/
theorem after_frame : ∀ (s : Str) {a b : List Char} {q q' : Option Char} (l : List Char),
    Opened.after ⟨a, q⟩ s = some ⟨b, q'⟩ → Opened.after ⟨a ++ l, q⟩ s = some ⟨b ++ l, q'⟩ := by
  intro s
  induction s with
  | nil => intro a b q q' l h; cases h; rfl
  | cons c s ih =>
    intro a b q q' l h
    simp only [Opened.after, Option.bind_eq_some_iff] at h ⊢
    obtain ⟨⟨a', q1⟩, h1, h2⟩ := h
    refine ⟨⟨a' ++ l, q1⟩, ?_, ih l h2⟩
    cases q with
    | some q =>
      simp only [Opened.next, Option.some.injEq] at h1 ⊢
      split at h1
      · next hc => cases h1; simp [hc]
      · next hc => cases h1; simp [hc]
    | none =>
      simp only [Opened.next] at h1 ⊢
      split at h1
      · next hc => cases h1; simp [hc]
      · next hc =>
        rw [if_neg hc]
        split at h1
        · next hc => cases h1; simp [hc]
        · next hc =>
          rw [if_neg hc]
          split at h1
          · next hc => cases h1; simp [hc]
          · next hc =>
            rw [if_neg hc]
            split at h1
            · next hc =>
              rw [if_pos hc]
              cases a with
              | nil => simp at h1
              | cons d a =>
                simp only [List.head?_cons, Option.some.injEq, List.tail_cons, List.cons_append] at h1 ⊢
                split at h1
                · next hd => cases h1; simp [hd]
                · cases h1
            · next hc =>
              rw [if_neg hc]
              split at h1
              · next hc => cases h1; rw [if_pos hc]
              · cases h1

theorem good_sealed {s : Str} (h : Sealed s) : Good s := fun l => .inr (after_frame s (a := []) (b := []) l h)

theorem star_parens {y : Str} (h : SameCI y cs!"(*)") : y = cs!"(*)" := by
  match y, h with
  | [], h => cases h
  | [_], h => simp [SameCI] at h
  | [_, _], h => simp [SameCI] at h
  | _ :: _ :: _ :: _ :: _, h => simp [SameCI] at h
  | [a, b, c], h =>
    simp only [SameCI, List.map_cons, List.map_nil, List.cons.injEq, and_true] at h
    have mark : ∀ {c d : Char}, lowerC c = lowerC d → d.toNat < 65 → c = d := by
      intro c d e hd
      have h1 := congrArg Char.toNat e
      rw [lowerC_toNat, lowerC_toNat] at h1
      apply Char.toNat_inj.1
      revert h1
      split <;> split <;> omega
    rw [mark h.1 (by decide), mark h.2.1 (by decide), mark h.2.2 (by decide)]

/-! ### The nodes -/

/-- the numerals of coordinates -/
def Nums : Node → Prop
  | .coordExpr (.num x) => Number x
  | .coordExpr (.bae x _ y) => Number x ∧ Number y
  | _ => True

/-- what is known of a node -/
def Known (M : Str → Prop) (n : Node) : Prop := Ranges M n ∧ Nums n

section
variable {M : Str → Prop} {fmt : Str → Str}

theorem opt {α : Type} {pr : α → Str} {d x : α} (hd : Good (pr d)) (h : x ≠ d → Good (pr x)) : Good (pr x) := by
  by_cases e : x = d
  · exact e ▸ hd
  · exact h e

theorem dflt_sc : Good (SC.dflt.print fmt) := by
  have : SC.dflt.print fmt = [] := by simp [SC.dflt, SC.print, SC.isEmpty, BF.isEmpty, BP.isEmpty, Pred.isEmpty]
  rw [this]; exact .nil
theorem dflt_result : Good (CaseResult.dflt.print fmt) := by
  have : CaseResult.dflt.print fmt = [] := by simp [CaseResult.dflt, CaseResult.print]
  rw [this]; exact .nil
theorem dflt_spec : Good (JoinSpec.dflt.print fmt) := by
  have : JoinSpec.dflt.print fmt = cs!"USING ()" := by simp [JoinSpec.dflt, JoinSpec.print, joinSep]
  rw [this]; exact fun _ => .lit rfl
theorem dflt_geom : Good (Geom.dflt.print fmt) := by
  have : Geom.dflt.print fmt = [] := by
    simp [Geom.dflt, Geom.print, Geom.isEmpty, GPred.isEmpty, VE.dflt, VENB.dflt, VEP.dflt, VE.isEmpty, VENB.isEmpty,
      Factor.isEmpty, NumPrim.isEmpty, VEP.isEmpty, Prim.isEmpty]
  rw [this]; exact .nil
theorem where_print {g : Geom} {s : SC} (h : Good (g.print fmt)) (h' : Good (s.print fmt)) : Good ((Where.mk g s).print fmt) := by
  intro l
  simp only [Where.print]
  seal_run
theorem dflt_where : Good (Where.dflt.print fmt) := where_print dflt_geom dflt_sc
theorem dflt_with : Good (With.dflt.print fmt) := by
  have : With.dflt.print fmt = cs!"WITH  AS ( )" := by
    simp [With.dflt, With.print, printWith, Subquery.dflt, Subquery.print, JT.print, QJ.print, QJHead.print, TableCorr.print, printSuffixes]
  rw [this]; exact fun _ => .lit rfl

variable (hM : ∀ y, M y → Sealed y) (hf : ∀ x, Number x → Sealed (fmt x))

section
include hM

theorem tableName {x : Str} (h : TableName M x) : Good x := by
  cases h with
  | mapped h => exact good_sealed (hM _ h)
  | one h => exact good_name h
  | two h h' => exact (good_name h).app (good_dot (good_name h'))
  | three h h' h'' => exact (good_name h).app (good_dot ((good_name h').app (good_dot (good_name h''))))

theorem colRef (x : ColRef) (h : All (Known M) (.colRef x)) : Good x.print := by
  have h := h.here.1
  intro l
  cases x with
  | csqc a b c d =>
    have h1 := good_name h.1
    have h2 := good_name h.2.1
    have h3 := good_name h.2.2.1
    have h4 := good_name h.2.2.2
    simp only [ColRef.print]
    seal_run
  | sqc a b c =>
    have h1 := good_name h.1
    have h2 := good_name h.2.1
    have h3 := good_name h.2.2
    simp only [ColRef.print]
    seal_run
  | qc a b =>
    have h1 : Good a := h.1.elim good_name fun h => good_sealed (hM _ h)
    have h2 := good_name h.2
    simp only [ColRef.print]
    seal_run
  | col a => exact good_name h l

theorem sort (x : SortSpec) (h : All (Known M) (.sort x)) : Good x.print := by
  have h0 := h.here.1
  obtain ⟨k, o⟩ := x
  have ho : Good o := h0.1.elim (· ▸ .nil) fun h => good_oneOf h (by decide)
  intro l
  cases k with
  | inl k =>
    have hk := good_digits (h0.2 k rfl)
    simp only [SortSpec.print]
    seal_run
  | inr c =>
    have hc := colRef hM c (h.sub rfl)
    simp only [SortSpec.print]
    seal_run

theorem tcorr (x : TableCorr) (h : All (Known M) (.tcorr x)) : Good x.print := by
  have h := h.here.1
  obtain ⟨n, a⟩ := x
  have h1 := tableName hM h.1
  have h2 : Good a := h.2.elim (· ▸ .nil) good_name
  intro l
  simp only [TableCorr.print]
  seal_run

include hf

theorem coordExpr (x : CoordExpr) (h : All (Known M) (.coordExpr x)) : Good (x.print fmt) := by
  have h0 := h.here
  intro l
  cases x with
  | bae a o b =>
    have h1 := good_sealed (hf _ h0.2.1)
    have h2 := good_sealed (hf _ h0.2.2)
    have h3 : Good [o] := by
      have : [o] ∈ [cs!"+", cs!"-", cs!"*", cs!"/"] := by
        rcases h0.1 with rfl | rfl | rfl | rfl <;> simp
      exact good_mem this (by decide)
    simp only [CoordExpr.print]
    seal_run
  | col c => exact colRef hM c (h.sub rfl) l
  | num n => exact good_sealed (hf _ h0.2) l

theorem coord (x : Coord) (h : All (Known M) (.coord x)) : Good (x.print fmt) := by
  have h1 := coordExpr hM hf x.ra (h.sub (.inl rfl))
  have h2 := coordExpr hM hf x.dec (h.sub (.inr rfl))
  intro l
  simp only [Coord.print]
  seal_run

theorem point (x : Point) (h : All (Known M) (.point x)) : Good (x.print fmt) := by
  have h1 := coord hM hf x.coord (h.sub rfl)
  intro l
  simp only [Point.print]
  seal_run

theorem polyCoords : ∀ (x : List Coord), (∀ c ∈ x, All (Known M) (.coord c)) → Good (printPolyCoords fmt x)
  | [], _ => .nil
  | c :: x, h => by
    have h1 := coord hM hf c (h c (by simp))
    have h2 := polyCoords x fun c hc => h c (by simp [hc])
    intro l
    simp only [printPolyCoords]
    seal_run

theorem shape (x : Shape) (h : All (Known M) (.shape x)) : Good (x.print fmt) := by
  intro l
  cases x with
  | point p => exact point hM hf p (h.sub rfl) l
  | circle s c r =>
    have h1 := coord hM hf c (h.sub (.inl rfl))
    have h2 := coordExpr hM hf r (h.sub (.inr rfl))
    simp only [Shape.print]
    seal_run
  | box s c w t =>
    have h1 := coord hM hf c (h.sub (.inl rfl))
    have h2 := coordExpr hM hf w (h.sub (.inr (.inl rfl)))
    have h3 := coordExpr hM hf t (h.sub (.inr (.inr rfl)))
    simp only [Shape.print]
    seal_run
  | ellipse s c a b g =>
    have h1 := coord hM hf c (h.sub (.inl rfl))
    have h2 := coordExpr hM hf a (h.sub (.inr (.inl rfl)))
    have h3 := coordExpr hM hf b (h.sub (.inr (.inr (.inl rfl))))
    have h4 := coordExpr hM hf g (h.sub (.inr (.inr (.inr rfl))))
    simp only [Shape.print]
    seal_run
  | polygon s cs =>
    have h1 := polyCoords hM hf cs fun c hc => h.sub ⟨c, hc, rfl⟩
    simp only [Shape.print]
    seal_run

theorem pointOrCol (x : PointOrCol) (h : All (Known M) (.pointOrCol x)) : Good (x.print fmt) := by
  cases x with
  | point p => exact point hM hf p (h.sub rfl)
  | col c => exact colRef hM c (h.sub rfl)

theorem shapeOrCol (x : ShapeOrCol) (h : All (Known M) (.shapeOrCol x)) : Good (x.print fmt) := by
  cases x with
  | shape p => exact shape hM hf p (h.sub rfl)
  | col c => exact colRef hM c (h.sub rfl)

end

theorem noquote_body {q : Char} : ∀ {a : Str}, q ∉ a → QBody q a
  | [], _ => .nil
  | _ :: _, h => .chr (fun e => h (by simp [e])) (noquote_body fun hm => h (by simp [hm]))

theorem tvf {n : Str} {as : List Str} (hn : PQName n) (ha : ∀ a ∈ as, PQName a) : Good (printTVF n as) := by
  have h1 := good_pq hn
  have h2 : Good (joinSep cs!"," (as.map fun a => cs!"'" ++ a ++ cs!"'")) := by
    refine good_join (fun _ => .lit rfl) fun x hx => ?_
    obtain ⟨a, hm, rfl⟩ := List.mem_map.1 hx
    exact good_quoted (.inl rfl) (noquote_body (pq_noquote (ha a hm)))
  intro l
  simp only [printTVF]
  seal_run

theorem joinType {t : JoinType} (h : match t with
    | .str s => s = [] ∨ SameCI s cs!"INNER"
    | .outer t _ => OneOf [cs!"LEFT", cs!"RIGHT", cs!"FULL"] t) : Good t.print := by
  cases t with
  | str s => exact h.elim (· ▸ .nil) fun h => good_ci h (by decide)
  | outer t o =>
    have h1 := good_oneOf h (by decide)
    intro l
    simp only [JoinType.print]
    seal_run

theorem not_good {n : Str} (h : n = [] ∨ SameCI n cs!"NOT") : Good n := h.elim (· ▸ .nil) fun h => good_ci h (by decide)

include hM hf

mutual

theorem ve : (x : VE) → All (Known M) (.ve x) → Good (x.print fmt)
  | .nb v, h => by simp only [VE.print]; exact venb v (h.sub rfl)
  | .sc s, h => by simp only [VE.print]; exact sc s (h.sub rfl)

theorem venb : (x : VENB) → All (Known M) (.venb x) → Good (x.print fmt)
  | .mk f ts, h => by
    simp only [VENB.print]
    exact (factor f (h.sub (.inl rfl))).app (terms ts fun t ht => h.sub (.inr ⟨t, ht, rfl⟩))

theorem terms : (l : List Term) → (∀ t ∈ l, All (Known M) (.term t)) → Good (printTerms fmt l)
  | [], _ => by simp only [printTerms]; exact .nil
  | t :: ts, h => by
    simp only [printTerms]
    exact (term t (h t (by simp))).app (terms ts fun t ht => h t (by simp [ht]))

theorem term : (x : Term) → All (Known M) (.term x) → Good (x.print fmt)
  | .mk op f, h => by
    simp only [Term.print]
    exact (good_mem h.here.1 (by decide)).app (factor f (h.sub rfl))

theorem factor : (x : Factor) → All (Known M) (.factor x) → Good (x.print fmt)
  | .mk s p, h => by
    simp only [Factor.print]
    exact (good_mem h.here.1 (by decide)).app (numPrim p (h.sub rfl))

theorem numPrim : (x : NumPrim) → All (Known M) (.numPrim x) → Good (x.print fmt)
  | .vep v, h => by simp only [NumPrim.print]; exact vep v (h.sub rfl)
  | .nvf f, h => by simp only [NumPrim.print]; exact numFn f (h.sub rfl)

theorem numFn : (x : NumFn) → All (Known M) (.numFn x) → Good (x.print fmt)
  | .trig1 fn a, h => by
    have h1 : Good fn := good_oneOf h.here.1 (by decide)
    have h2 := ve a (h.sub rfl)
    intro l; simp only [NumFn.print]; seal_run
  | .trig2 fn a b, h => by
    have h1 : Good fn := good_oneOf h.here.1 (by decide)
    have h2 := ve a (h.sub (.inl rfl))
    have h3 := ve b (h.sub (.inr rfl))
    intro l; simp only [NumFn.print]; seal_run
  | .math0 fn, h => by
    have h1 : Good fn := good_oneOf h.here.1 (by decide)
    intro l; simp only [NumFn.print]; seal_run
  | .math1 fn a, h => by
    have h1 : Good fn := good_oneOf h.here.1 (by decide)
    have h2 := ve a (h.sub rfl)
    intro l; simp only [NumFn.print]; seal_run
  | .math2 fn a b, h => by
    have h1 : Good fn := good_oneOf h.here.1 (by decide)
    have h2 := ve a (h.sub (.inl rfl))
    have h3 := ve b (h.sub (.inr rfl))
    intro l; simp only [NumFn.print]; seal_run
  | .cast e as len, h => by
    have h1 : Good as := good_oneOf h.here.1.1 (by decide)
    have h2 : Good len := h.here.1.2.elim (· ▸ .nil) good_digits
    have h3 := ve e (h.sub rfl)
    intro l; simp only [NumFn.print, printCast]; seal_run
  | .geo1 fn a, h => by
    have h1 : Good fn := good_oneOf h.here.1 (by decide)
    have h2 := pointOrCol hM hf a (h.sub rfl)
    intro l; simp only [NumFn.print]; seal_run
  | .geo2 fn a b, h => by
    have h1 : Good fn := good_oneOf h.here.1 (by decide)
    have h2 := pointOrCol hM hf a (h.sub (.inl rfl))
    have h3 := pointOrCol hM hf b (h.sub (.inr rfl))
    intro l; simp only [NumFn.print]; seal_run
  | .udf fn as, h => by
    have h1 : Good fn := h.here.1.elim (fun h => good_ident h.1) fun h => good_oneOf h (by decide)
    have h2 := good_join (sep := cs!",") (fun _ => .lit rfl) (ves as fun a ha => h.sub ⟨a, ha, rfl⟩)
    intro l; simp only [NumFn.print]; seal_run
  | .str s, h => by
    simp only [NumFn.print]
    exact good_ci h.here.1 (by decide)

theorem ves : (l : List VE) → (∀ e ∈ l, All (Known M) (.ve e)) → ∀ x ∈ printVEs fmt l, Good x
  | [], _ => by simp only [printVEs]; nofun
  | e :: es, h => by
    simp only [printVEs]
    exact List.forall_mem_cons.2 ⟨ve e (h e (by simp)), ves es fun t ht => h t (by simp [ht])⟩

theorem vep : (x : VEP) → All (Known M) (.vep x) → Good (x.print fmt)
  | .mk v is, h => by
    simp only [VEP.print]
    exact (prim v (h.sub (.inl rfl))).app (idx is fun t ht => h.sub (.inr ⟨t, ht, rfl⟩))

theorem idx : (l : List VE) → (∀ e ∈ l, All (Known M) (.ve e)) → Good (printIdx fmt l)
  | [], _ => by simp only [printIdx]; exact .nil
  | e :: es, h => by
    have h1 := ve e (h e (by simp))
    have h2 := idx es fun t ht => h t (by simp [ht])
    intro l; simp only [printIdx]; seal_run

theorem prim : (x : Prim) → All (Known M) (.prim x) → Good (x.print fmt)
  | .arr vs, h => by
    have h1 := good_join (sep := cs!",") (fun _ => .lit rfl) (ves vs fun a ha => h.sub ⟨a, ha, rfl⟩)
    intro l; simp only [Prim.print]; seal_run
  | .str s, h => by
    simp only [Prim.print]
    rcases h.here.1 with h | h | ⟨w, hw, h⟩
    · exact good_num h
    · exact good_str h
    · refine good_flat fun c hc => ?_
      have : lowerC c ∈ w.map lowerC := h ▸ List.mem_map.2 ⟨c, hc, rfl⟩
      obtain ⟨d, hd, e⟩ := List.mem_map.1 this
      have hall : ([cs!"TRUE", cs!"FALSE", cs!"NULL", cs!"NULL::char", cs!"NULL::int", cs!"NULL::float"].all
        fun w => w.all fun c => isIdChar c || c == ':') = true := by decide
      have hd := List.all_eq_true.1 (List.all_eq_true.1 hall w hw) d hd
      rcases Bool.or_eq_true _ _ ▸ hd with hd | hd
      · refine flat_id (isIdChar_iff.1 ?_)
        rw [← isIdChar_lowerC, ← e, isIdChar_lowerC]
        exact hd
      · obtain rfl : d = ':' := by simpa using hd
        obtain rfl : c = ':' := by
          have h1 := congrArg Char.toNat e
          rw [lowerC_toNat, lowerC_toNat] at h1
          apply Char.toNat_inj.1
          revert h1
          have : (':' : Char).toNat = 58 := rfl
          rw [this]
          split <;> split <;> omega
        rfl
  | .col c, h => by simp only [Prim.print]; exact colRef hM c (h.sub rfl)
  | .countStar s, h => by
    simp only [Prim.print]
    obtain ⟨x, y, rfl, hx, hy⟩ := Fwd.sameCI_split (a := cs!"COUNT") (b := cs!"(*)") h.here.1
    obtain rfl := star_parens hy
    exact (good_ci hx (by decide)).app fun _ => .lit rfl
  | .setFn fn q e, h => by
    have h1 : Good fn := good_oneOf h.here.1.1 (by decide)
    have h2 : Good q := h.here.1.2.elim (· ▸ .nil) fun h => good_oneOf h (by decide)
    have h3 := ve e (h.sub rfl)
    intro l; simp only [Prim.print]; seal_run
  | .case c, h => by simp only [Prim.print]; exact caseE c (h.sub rfl)
  | .any e, h => by
    have h3 := ve e (h.sub rfl)
    intro l; simp only [Prim.print]; seal_run
  | .sub e, h => by
    have h3 := ve e (h.sub rfl)
    intro l; simp only [Prim.print]; seal_run

theorem caseE : (x : CaseE) → All (Known M) (.caseE x) → Good (x.print fmt)
  | .nullif a b, h => by
    have h2 := ve a (h.sub (.inl rfl))
    have h3 := ve b (h.sub (.inr rfl))
    intro l; simp only [CaseE.print]; seal_run
  | .coalesce as, h => by
    have h1 := good_join (sep := cs!",") (fun _ => .lit rfl) (ves as fun a ha => h.sub ⟨a, ha, rfl⟩)
    intro l; simp only [CaseE.print]; seal_run
  | .simple o ws e, h => by
    have h1 := ve o (h.sub (.inl rfl))
    have h2 := whens ws fun w hw => h.sub (.inr (.inl ⟨w, hw, rfl⟩))
    have h3 := opt (pr := fun x => CaseResult.print fmt x) dflt_result fun hd => result e (h.sub (.inr (.inr ⟨hd, rfl⟩)))
    intro l; simp only [CaseE.print]; seal_run
  | .searched ws e, h => by
    have h2 := conds ws fun w hw => h.sub (.inl ⟨w, hw, rfl⟩)
    have h3 := opt (pr := fun x => CaseResult.print fmt x) dflt_result fun hd => result e (h.sub (.inr ⟨hd, rfl⟩))
    intro l; simp only [CaseE.print]; seal_run

theorem whens : (l : List SimpleWhen) → (∀ e ∈ l, All (Known M) (.simpleWhen e)) → Good (printSimpleWhens fmt l)
  | [], _ => by simp only [printSimpleWhens]; exact .nil
  | .mk e r :: ws, h => by
    have h0 := h _ (List.mem_cons_self)
    have h1 := ve e (h0.sub (.inl rfl))
    have h2 := result r (h0.sub (.inr rfl))
    have h3 := whens ws fun t ht => h t (by simp [ht])
    intro l; simp only [printSimpleWhens, SimpleWhen.print]; seal_run

theorem conds : (l : List SearchedWhen) → (∀ e ∈ l, All (Known M) (.searchedWhen e)) → Good (printSearchedWhens fmt l)
  | [], _ => by simp only [printSearchedWhens]; exact .nil
  | .mk c r :: ws, h => by
    have h0 := h _ (List.mem_cons_self)
    have h1 := sc c (h0.sub (.inl rfl))
    have h2 := result r (h0.sub (.inr rfl))
    have h3 := conds ws fun t ht => h t (by simp [ht])
    intro l; simp only [printSearchedWhens, SearchedWhen.print]; seal_run

theorem result : (x : CaseResult) → All (Known M) (.result x) → Good (x.print fmt)
  | .str s, h => by simp only [CaseResult.print]; exact good_ci h.here.1 (by decide)
  | .ve e, h => by simp only [CaseResult.print]; exact ve e (h.sub rfl)

theorem sc : (x : SC) → All (Known M) (.sc x) → Good (x.print fmt)
  | .factor b, h => by
    have h1 := bf b (h.sub rfl)
    intro l; simp only [SC.print]; seal_run
  | .term b op s, h => by
    have h1 := bf b (h.sub (.inl rfl))
    have h2 : Good (upper op) := good_upper h.here.1 (by decide)
    have h3 := sc s (h.sub (.inr rfl))
    intro l; simp only [SC.print]; seal_run

theorem bf : (x : BF) → All (Known M) (.bf x) → Good (x.print fmt)
  | .mk n p, h => by
    have h1 := not_good h.here.1
    have h2 := bp p (h.sub rfl)
    intro l; simp only [BF.print]; seal_run

theorem bp : (x : BP) → All (Known M) (.bp x) → Good (x.print fmt)
  | .pred p, h => by simp only [BP.print]; exact pred p (h.sub rfl)
  | .sc s, h => by
    have h1 := sc s (h.sub rfl)
    intro l; simp only [BP.print]; seal_run
  | .ve v, h => by simp only [BP.print]; exact venb v (h.sub rfl)

theorem pred : (x : Pred) → All (Known M) (.pred x) → Good (x.print fmt)
  | .cmp v op r, h => by
    have h1 := venb v (h.sub (.inl rfl))
    have h2 : Good op := good_mem h.here.1 (by decide)
    have h3 := ve r (h.sub (.inr rfl))
    intro l; simp only [Pred.print]; seal_run
  | .between v n lo hi, h => by
    have h1 := venb v (h.sub (.inl rfl))
    have h2 := not_good h.here.1
    have h3 := ve lo (h.sub (.inr (.inl rfl)))
    have h4 := ve hi (h.sub (.inr (.inr rfl)))
    intro l; simp only [Pred.print]; seal_run
  | .inSub v n q, h => by
    have h1 := venb v (h.sub (.inl rfl))
    have h3 := subq q (h.sub (.inr rfl))
    intro l; simp only [Pred.print]; seal_run
  | .inList v n vs, h => by
    have h1 := venb v (h.sub (.inl rfl))
    have h3 := good_join (sep := cs!", ") (fun _ => .lit rfl) (ves vs fun a ha => h.sub (.inr ⟨a, ha, rfl⟩))
    intro l; simp only [Pred.print]; seal_run
  | .null v n, h => by
    have h1 := venb v (h.sub rfl)
    intro l; simp only [Pred.print]; seal_run
  | .like v n p, h => by
    have h1 := venb v (h.sub (.inl rfl))
    have h3 := ve p (h.sub (.inr rfl))
    intro l; simp only [Pred.print]; seal_run
  | .exist q, h => by
    have h1 := subq q (h.sub rfl)
    intro l; simp only [Pred.print]; seal_run

theorem subq : (x : Subquery) → All (Known M) (.subq x) → Good (x.print fmt)
  | .jt j, h => by
    have h1 := jt j (h.sub rfl)
    intro l; simp only [Subquery.print]; seal_run
  | .qs q, h => by
    have h1 := query q (h.sub rfl)
    intro l; simp only [Subquery.print]; seal_run

theorem jt : (x : JT) → All (Known M) (.jt x) → Good (x.print fmt)
  | .qj q, h => by simp only [JT.print]; exact qj q (h.sub rfl)
  | .wrap j, h => by
    have h1 := jt j (h.sub rfl)
    intro l; simp only [JT.print]; seal_run

theorem qj : (x : QJ) → All (Known M) (.qj x) → Good (x.print fmt)
  | .mk hd ss, h => by
    have h1 := head hd (h.sub (.inl rfl))
    have h2 := suffixes ss fun s hs => h.sub (.inr ⟨s, hs, rfl⟩)
    intro l; simp only [QJ.print]; seal_run

theorem head : (x : QJHead) → All (Known M) (.head x) → Good (x.print fmt)
  | .tc t, h => by simp only [QJHead.print]; exact tcorr hM t (h.sub rfl)
  | .jt j, h => by simp only [QJHead.print]; exact jt j (h.sub rfl)

theorem suffixes : (l : List JoinSuffix) → (∀ e ∈ l, All (Known M) (.suffix e)) → Good (printSuffixes fmt l)
  | [], _ => by simp only [printSuffixes]; exact .nil
  | s :: ss, h => by
    have h1 := suffix s (h s (by simp))
    have h2 := suffixes ss fun t ht => h t (by simp [ht])
    intro l; simp only [printSuffixes]; seal_run

theorem suffix : (x : JoinSuffix) → All (Known M) (.suffix x) → Good (x.print fmt)
  | .mk nat ty t sp, h => by
    have h1 := joinType h.here.1
    have h2 := tr t (h.sub (.inl rfl))
    have h3 := opt (pr := fun x => JoinSpec.print fmt x) dflt_spec fun hd => spec sp (h.sub (.inr ⟨hd, rfl⟩))
    intro l; simp only [JoinSuffix.print]; seal_run

theorem spec : (x : JoinSpec) → All (Known M) (.spec x) → Good (x.print fmt)
  | .named cs, h => by
    have h1 := good_join (sep := cs!", ") (fun _ => .lit rfl) fun c hc => good_name (h.here.1.2 c hc)
    intro l; simp only [JoinSpec.print]; seal_run
  | .on s, h => by
    have h1 := sc s (h.sub rfl)
    intro l; simp only [JoinSpec.print]; seal_run

theorem tr : (x : TR) → All (Known M) (.tr x) → Good (x.print fmt)
  | .tc t, h => by simp only [TR.print]; exact tcorr hM t (h.sub rfl)
  | .jt j, h => by simp only [TR.print]; exact jt j (h.sub rfl)
  | .derived q a, h => by
    have h1 := subq q (h.sub rfl)
    have h2 : Good a := good_name h.here.1
    intro l; simp only [TR.print]; seal_run
  | .tvf n as, h => by simp only [TR.print]; exact tvf h.here.1.1 h.here.1.2

theorem gpred : (x : GPred) → All (Known M) (.gpred x) → Good (x.print fmt)
  | .intersects e s, h => by
    have h1 := ve e (h.sub (.inl rfl))
    have h2 := shapeOrCol hM hf s (h.sub (.inr rfl))
    intro l; simp only [GPred.print]; seal_run
  | .contains a b, h => by
    have h1 := shapeOrCol hM hf a (h.sub (.inl rfl))
    have h2 := shapeOrCol hM hf b (h.sub (.inr rfl))
    intro l; simp only [GPred.print]; seal_run

theorem geom : (x : Geom) → All (Known M) (.geom x) → Good (x.print fmt)
  | .left f p, h => by
    have h1 := gpred p (h.sub rfl)
    have h2 : Good [f] := by rcases h.here.1 with rfl | rfl <;> exact fun _ => .lit rfl
    intro l; simp only [Geom.print]; seal_run
  | .right p f, h => by
    have h1 := gpred p (h.sub rfl)
    have h2 : Good [f] := by rcases h.here.1 with rfl | rfl <;> exact fun _ => .lit rfl
    intro l; simp only [Geom.print]; seal_run

theorem wher : (x : Where) → All (Known M) (.where_ x) → Good (x.print fmt)
  | .mk g s, h =>
    where_print (opt (pr := fun x => Geom.print fmt x) dflt_geom fun hd => geom g (h.sub (.inl ⟨hd, rfl⟩)))
      (opt (pr := fun x => SC.print fmt x) dflt_sc fun hd => sc s (h.sub (.inr ⟨hd, rfl⟩)))

theorem item : (x : Item) → All (Known M) (.item x) → Good (x.print fmt)
  | .as e a, h => by
    have h1 := ve e (h.sub rfl)
    have h2 : Good a := good_name h.here.1
    intro l; simp only [Item.print]; seal_run
  | .nonAsStr s, h => by
    simp only [Item.print]
    obtain ⟨t, rfl, ht⟩ := h.here.1
    exact (tableName hM ht).app fun _ => .lit rfl
  | .nonAsVE e, h => by simp only [Item.print]; exact ve e (h.sub rfl)

theorem items : (l : List Item) → (∀ e ∈ l, All (Known M) (.item e)) → ∀ x ∈ printItems fmt l, Good x
  | [], _ => by simp only [printItems]; nofun
  | e :: es, h => by
    simp only [printItems]
    exact List.forall_mem_cons.2 ⟨item e (h e (by simp)), items es fun t ht => h t (by simp [ht])⟩

theorem columns : (x : Columns) → All (Known M) (.columns x) → Good (x.print fmt)
  | .star s, h => by
    simp only [Columns.print]
    obtain rfl : s = cs!"*" := h.here.1
    exact fun _ => .lit rfl
  | .items is, h => by
    simp only [Columns.print]
    exact good_join (fun _ => .lit rfl) (items is fun i hi => h.sub ⟨i, hi, rfl⟩)

theorem select : (x : Select) → All (Known M) (.select x) → Good (x.print fmt)
  | .mk q t c, h => by
    have h1 : Good q := h.here.1.1.elim (· ▸ .nil) fun h => good_oneOf h (by decide)
    have h2 := good_digits (C19_decimal t).1
    have h3 := columns c (h.sub rfl)
    intro l; simp only [Select.print, printSelect]; seal_run

theorem trs : (l : List TR) → (∀ e ∈ l, All (Known M) (.tr e)) → ∀ x ∈ printTRs fmt l, Good x
  | [], _ => by simp only [printTRs]; nofun
  | e :: es, h => by
    simp only [printTRs]
    exact List.forall_mem_cons.2 ⟨tr e (h e (by simp)), trs es fun t ht => h t (by simp [ht])⟩

theorem sfw : (x : SFW) → All (Known M) (.sfw x) → Good (x.print fmt)
  | .mk s ts w, h => by
    have h1 := select s (h.sub (.inl rfl))
    have h2 := good_join (sep := cs!", ") (fun _ => .lit rfl) (trs ts fun t ht => h.sub (.inr (.inl ⟨t, ht, rfl⟩)))
    have h3 := opt (pr := fun x => Where.print fmt x) dflt_where fun hd => wher w (h.sub (.inr (.inr ⟨hd, rfl⟩)))
    intro l; simp only [SFW.print]; seal_run

theorem addons : (l : List Addon) → (∀ e ∈ l, All (Known M) (.addon e)) → Good (printAddons fmt l)
  | [], _ => by simp only [printAddons]; exact .nil
  | .mk op s :: as, h => by
    have h0 := h _ List.mem_cons_self
    have h1 : Good (upper op) := good_upper h0.here.1 (by decide)
    have h2 := sfw s (h0.sub rfl)
    have h3 := addons as fun t ht => h t (by simp [ht])
    intro l; simp only [printAddons, Addon.print]; seal_run

theorem sfwList : (x : SFWList) → All (Known M) (.sfwList x) → Good (x.print fmt)
  | .mk i as, h => by
    simp only [SFWList.print]
    exact (sfw i (h.sub (.inl rfl))).app (addons as fun a ha => h.sub (.inr ⟨a, ha, rfl⟩))

theorem group : (x : GroupTerm) → All (Known M) (.group x) → Good (x.print fmt)
  | .col c, h => by simp only [GroupTerm.print]; exact colRef hM c (h.sub rfl)
  | .ve e, h => by simp only [GroupTerm.print]; exact ve e (h.sub rfl)

theorem groups : (l : List GroupTerm) → (∀ e ∈ l, All (Known M) (.group e)) → ∀ x ∈ printGroup fmt l, Good x
  | [], _ => by simp only [printGroup]; nofun
  | e :: es, h => by
    simp only [printGroup]
    exact List.forall_mem_cons.2 ⟨group e (h e (by simp)), groups es fun t ht => h t (by simp [ht])⟩

theorem with_ : (x : With) → All (Known M) (.with_ x) → Good (x.print fmt)
  | .mk n cs q, h => by
    have h1 := good_name h.here.1.1
    have h2 := good_join (sep := cs!",") (fun _ => .lit rfl) fun c hc => good_name (h.here.1.2 c hc)
    have h3 := subq q (h.sub rfl)
    intro l; simp only [With.print, printWith]; seal_run

theorem query : (x : QuerySpec) → All (Known M) (.query x) → Good (x.print fmt)
  | .mk w sl g hv o, h => by
    have h1 := opt (pr := fun x => With.print fmt x) dflt_with fun hd => with_ w (h.sub (.inl ⟨hd, rfl⟩))
    have h2 := sfwList sl (h.sub (.inr (.inl rfl)))
    have h3 := good_join (sep := cs!",") (fun _ => .lit rfl) (groups g fun t ht => h.sub (.inr (.inr (.inl ⟨t, ht, rfl⟩))))
    have h4 := opt (pr := fun x => SC.print fmt x) dflt_sc fun hd => sc hv (h.sub (.inr (.inr (.inr (.inl ⟨hd, rfl⟩)))))
    have h5 : Good (joinSep cs!"," (o.map SortSpec.print)) := by
      refine good_join (fun _ => .lit rfl) fun x hx => ?_
      obtain ⟨s, hs, rfl⟩ := List.mem_map.1 hx
      exact sort hM s (h.sub (.inr (.inr (.inr (.inr ⟨s, hs, rfl⟩)))))
    intro l; simp only [QuerySpec.print]; seal_run

end

/-- any node -/
theorem node (n : Node) (h : All (Known M) n) : Good (n.print fmt) := by
  cases n with
  | ve x => exact ve hM hf x h
  | venb x => exact venb hM hf x h
  | term x => exact term hM hf x h
  | factor x => exact factor hM hf x h
  | numPrim x => exact numPrim hM hf x h
  | numFn x => exact numFn hM hf x h
  | vep x => exact vep hM hf x h
  | prim x => exact prim hM hf x h
  | caseE x => exact caseE hM hf x h
  | simpleWhen x =>
    obtain ⟨e, r⟩ := x
    have h1 := ve hM hf e (h.sub (.inl rfl))
    have h2 := result hM hf r (h.sub (.inr rfl))
    intro l; simp only [Node.print, SimpleWhen.print]; seal_run
  | searchedWhen x =>
    obtain ⟨e, r⟩ := x
    have h1 := sc hM hf e (h.sub (.inl rfl))
    have h2 := result hM hf r (h.sub (.inr rfl))
    intro l; simp only [Node.print, SearchedWhen.print]; seal_run
  | result x => exact result hM hf x h
  | sc x => exact sc hM hf x h
  | bf x => exact bf hM hf x h
  | bp x => exact bp hM hf x h
  | pred x => exact pred hM hf x h
  | subq x => exact subq hM hf x h
  | jt x => exact jt hM hf x h
  | qj x => exact qj hM hf x h
  | head x => exact head hM hf x h
  | suffix x => exact suffix hM hf x h
  | spec x => exact spec hM hf x h
  | tr x => exact tr hM hf x h
  | gpred x => exact gpred hM hf x h
  | geom x => exact geom hM hf x h
  | where_ x => exact wher hM hf x h
  | item x => exact item hM hf x h
  | columns x => exact columns hM hf x h
  | select x => exact select hM hf x h
  | sfw x => exact sfw hM hf x h
  | addon x =>
    obtain ⟨op, s⟩ := x
    have h1 : Good (upper op) := good_upper h.here.1 (by decide)
    have h2 := sfw hM hf s (h.sub rfl)
    intro l; simp only [Node.print, Addon.print]; seal_run
  | sfwList x => exact sfwList hM hf x h
  | group x => exact group hM hf x h
  | with_ x => exact with_ hM hf x h
  | query x => exact query hM hf x h
  | sort x => exact sort hM x h
  | tcorr x => exact tcorr hM x h
  | colRef x => exact colRef hM x h
  | coordExpr x => exact coordExpr hM hf x h
  | coord x => exact coord hM hf x h
  | point x => exact point hM hf x h
  | shape x => exact shape hM hf x h
  | pointOrCol x => exact pointOrCol hM hf x h
  | shapeOrCol x => exact shapeOrCol hM hf x h

end

open Reach in
/-- the numerals of the tree are numerals -/
theorem nums_of {cfg : Config} {n : Node} (h : Came cfg n) : Nums n := by
  cases n with
  | coordExpr x =>
    cases x with
    | col c => trivial
    | num x =>
      obtain ⟨s, r, h⟩ := h
      rcases parse_alt_ok.1 h with h | ⟨-, h⟩
      · obtain ⟨_, -, e⟩ := parse_map_ok.1 h
        cases e
      rcases parse_alt_ok.1 h with h | ⟨h0, h⟩
      · obtain ⟨_, -, e⟩ := parse_map_ok.1 h
        cases e
      obtain ⟨y, h1, e⟩ := parse_map_ok.1 h
      cases e
      exact (Reach.double_number h1).1
    | bae x o y =>
      obtain ⟨s, r, h⟩ := h
      rcases parse_alt_ok.1 h with h | ⟨-, h⟩
      · obtain ⟨⟨_, _, _⟩, h', e⟩ := parse_map_ok.1 h
        cases e
        obtain ⟨t, h1, h2⟩ := parse_seq_ok.1 h'
        obtain ⟨t', -, h3⟩ := parse_seq_ok.1 h2
        exact ⟨(Reach.double_number h1).1, (Reach.double_number h3).1⟩
      rcases parse_alt_ok.1 h with h | ⟨h0, h⟩
      · obtain ⟨_, -, e⟩ := parse_map_ok.1 h
        cases e
      · obtain ⟨_, -, e⟩ := parse_map_ok.1 h
        cases e
  | _ => trivial

end Adql.Seal
