import Verif.Spec.Mapped
import Verif.Model.Exchange

/-!
# The formatted text of a query with exchanged names is a pattern with gaps for the names
-/

namespace Adql

open Spec

set_option linter.unusedSimpArgs false
set_option linter.unusedVariables false
set_option linter.unusedSectionVars false

section
variable {ι : Type} {v : ι → Str → Str}

theorem fillIn_append (f : Str → Str) : ∀ l l' : List (Str ⊕ Str), fillIn f (l ++ l') = fillIn f l ++ fillIn f l'
  | [], l' => rfl
  | .inl s :: l, l' => by simp only [List.cons_append, fillIn, fillIn_append f l l', List.append_assoc]
  | .inr n :: l, l' => by simp only [List.cons_append, fillIn, fillIn_append f l l', List.append_assoc]

/-- The texts `f i` are one pattern, filled in with the names `v i`. -/
def Pattern (v : ι → Str → Str) (f : ι → Str) : Prop := ∃ ps, ∀ i, f i = fillIn (v i) ps

/-- the same for lists of texts -/
def Patterns (v : ι → Str → Str) (f : ι → List Str) : Prop := ∃ pss : List (List (Str ⊕ Str)), ∀ i, f i = pss.map (fillIn (v i))

/-- the same for all `i` -/
def Fixed (c : ι → Bool) : Prop := ∀ i j, c i = c j

theorem Pattern.const (s : Str) : Pattern v (fun _ => s) := ⟨[.inl s], fun _ => by simp [fillIn]⟩

theorem Pattern.name (n : Str) : Pattern v (fun i => v i n) := ⟨[.inr n], fun _ => by simp [fillIn]⟩

theorem Pattern.app {f g : ι → Str} : Pattern v f → Pattern v g → Pattern v (fun i => f i ++ g i)
  | ⟨p, h⟩, ⟨q, h'⟩ => ⟨p ++ q, fun i => by simp only [fillIn_append, h, h']⟩

theorem Pattern.ite {c : ι → Bool} {f g : ι → Str} (hc : Fixed c) (h : Pattern v f) (h' : Pattern v g) :
    Pattern v (fun i => if c i then f i else g i) := by
  by_cases hi : Nonempty ι
  · obtain ⟨i⟩ := hi
    cases e : c i with
    | true =>
      obtain ⟨p, h⟩ := h
      exact ⟨p, fun j => by simp only [← h j, hc j i, e]; rfl⟩
    | false =>
      obtain ⟨p, h⟩ := h'
      exact ⟨p, fun j => by simp only [← h j, hc j i, e]; rfl⟩
  · exact ⟨[], fun i => absurd ⟨i⟩ hi⟩

theorem Patterns.nil : Patterns v (fun _ => []) := ⟨[], fun _ => rfl⟩

theorem Patterns.cons {f : ι → Str} {g : ι → List Str} : Pattern v f → Patterns v g → Patterns v (fun i => f i :: g i)
  | ⟨p, h⟩, ⟨q, h'⟩ => ⟨p :: q, fun i => by simp only [List.map_cons, h, h']⟩

theorem joinSep_pattern (sep : Str) : ∀ pss : List (List (Str ⊕ Str)), Pattern v (fun i => joinSep sep (pss.map (fillIn (v i))))
  | [] => .const []
  | [p] => ⟨p, fun _ => rfl⟩
  | p :: q :: l => .app (.app ⟨p, fun _ => rfl⟩ (.const sep)) (joinSep_pattern sep (q :: l))

theorem Pattern.join {f : ι → List Str} (sep : Str) : Patterns v f → Pattern v (fun i => joinSep sep (f i))
  | ⟨pss, h⟩ => by
    simp only [h]
    exact joinSep_pattern sep pss

theorem Fixed.const (b : Bool) : Fixed (fun _ : ι => b) := fun _ _ => rfl

theorem Fixed.not {c : ι → Bool} (h : Fixed c) : Fixed (fun i => !c i) := fun i j => congrArg _ (h i j)

theorem Fixed.and {c d : ι → Bool} (h : Fixed c) (h' : Fixed d) : Fixed (fun i => c i && d i) := fun i j => by
  show (c i && d i) = (c j && d j)
  rw [h i j, h' i j]

theorem Fixed.or {c d : ι → Bool} (h : Fixed c) (h' : Fixed d) : Fixed (fun i => c i || d i) := fun i j => by
  show (c i || d i) = (c j || d j)
  rw [h i j, h' i j]

/-- Exchanges that put other names into the gaps of the same patterns. -/
structure Gaps (X : ι → Exchange) (v : ι → Str → Str) : Prop where
  tab : ∀ t : TableCorr, Pattern v (fun i => (t.exch (X i)).print)
  col : ∀ c : ColRef, Pattern v (fun i => ((X i).col c).print)
  star : ∀ s : Str, Pattern v (fun i => (X i).star s)
  noTab : ∀ t : TableCorr, Fixed (fun i => (t.exch (X i)).isEmpty)
  noCol : ∀ c : ColRef, Fixed (fun i => ((X i).col c).isEmpty)

/-- closes goals about patterns -/
macro "fill_gaps" : tactic => `(tactic| (repeat' (first
    | assumption
    | exact Pattern.const _
    | exact Fixed.const _
    | exact Patterns.nil
    | apply Fixed.not
    | apply Fixed.and
    | apply Fixed.or
    | apply Pattern.join
    | apply Patterns.cons
    | apply Pattern.app
    | apply Pattern.ite)))

variable {X : ι → Exchange} {fmt : Str → Str}
variable (hf : Gaps X v)
include hf

theorem CoordExpr.fixed (c : CoordExpr) : Fixed (fun i => (c.exch (X i)).isEmpty) := by
  cases c <;> exact fun _ _ => rfl

theorem Coord.fixed (c : Coord) : Fixed (fun i => (c.exch (X i)).isEmpty) := CoordExpr.fixed hf c.ra

theorem Shape.fixed (s : Shape) : Fixed (fun i => (s.exch (X i)).isEmpty) := by
  cases s with
  | point p => exact Coord.fixed hf p.coord
  | circle s c r => exact Coord.fixed hf c
  | box s c w h => exact Coord.fixed hf c
  | ellipse s c a b r => exact Coord.fixed hf c
  | polygon s cs => exact fun i j => by simp only [Shape.exch, Shape.isEmpty, List.isEmpty_map]

theorem ShapeOrCol.fixed (s : ShapeOrCol) : Fixed (fun i => (s.exch (X i)).isEmpty) := by
  cases s with
  | shape s => exact Shape.fixed hf s
  | col c => exact hf.noCol c

theorem CoordExpr.pattern (c : CoordExpr) : Pattern v (fun i => (c.exch (X i)).print fmt) := by
  cases c with
  | bae a op b => exact .const _
  | col c => exact hf.col c
  | num n => exact .const _

theorem Coord.pattern (c : Coord) : Pattern v (fun i => (c.exch (X i)).print fmt) :=
  .app (.app (CoordExpr.pattern hf c.ra) (.const _)) (CoordExpr.pattern hf c.dec)

theorem coords_pattern : ∀ l : List Coord, Pattern v (fun i => printPolyCoords fmt (l.map (Coord.exch (X i))))
  | [] => .const _
  | c :: l => .app (.app (.const _) (Coord.pattern hf c)) (coords_pattern l)

theorem Point.pattern (p : Point) : Pattern v (fun i => (p.exch (X i)).print fmt) := by
  have h := Coord.pattern hf (fmt := fmt) p.coord
  simp only [Point.exch, Point.print]
  fill_gaps

theorem Shape.pattern (s : Shape) : Pattern v (fun i => (s.exch (X i)).print fmt) := by
  cases s with
  | point p => exact Point.pattern hf p
  | circle s c r =>
    have h1 := Coord.pattern hf (fmt := fmt) c
    have h2 := CoordExpr.pattern hf (fmt := fmt) r
    simp only [Shape.exch, Shape.print]
    fill_gaps
  | box s c w h =>
    have h1 := Coord.pattern hf (fmt := fmt) c
    have h2 := CoordExpr.pattern hf (fmt := fmt) w
    have h3 := CoordExpr.pattern hf (fmt := fmt) h
    simp only [Shape.exch, Shape.print]
    fill_gaps
  | ellipse s c a b r =>
    have h1 := Coord.pattern hf (fmt := fmt) c
    have h2 := CoordExpr.pattern hf (fmt := fmt) a
    have h3 := CoordExpr.pattern hf (fmt := fmt) b
    have h4 := CoordExpr.pattern hf (fmt := fmt) r
    simp only [Shape.exch, Shape.print]
    fill_gaps
  | polygon s cs =>
    have h1 := coords_pattern hf (fmt := fmt) cs
    simp only [Shape.exch, Shape.print]
    fill_gaps

theorem PointOrCol.pattern (s : PointOrCol) : Pattern v (fun i => (s.exch (X i)).print fmt) := by
  cases s with
  | point s => exact Point.pattern hf s
  | col c => exact hf.col c

theorem ShapeOrCol.pattern (s : ShapeOrCol) : Pattern v (fun i => (s.exch (X i)).print fmt) := by
  cases s with
  | shape s => exact Shape.pattern hf s
  | col c => exact hf.col c

theorem SortSpec.pattern (s : SortSpec) : Pattern v (fun i => (s.exch (X i)).print) := by
  obtain ⟨d | c, o⟩ := s
  · simp only [SortSpec.exch, SortSpec.print]
    fill_gaps
  · have h := hf.col c
    simp only [SortSpec.exch, SortSpec.print]
    fill_gaps

theorem sorts_pattern : ∀ l : List SortSpec, Patterns v (fun i => (l.map (SortSpec.exch (X i))).map SortSpec.print)
  | [] => .nil
  | s :: l => .cons (SortSpec.pattern hf s) (sorts_pattern l)

mutual

theorem VE.fixed : ∀ w : VE, Fixed (fun i => (w.exch (X i)).isEmpty)
  | .nb a => by
    have e0 := a.fixed
    simp only [VE.exch, VE.isEmpty]
    fill_gaps
  | .sc a => by
    have e0 := a.fixed
    simp only [VE.exch, VE.isEmpty]
    fill_gaps

theorem VENB.fixed : ∀ w : VENB, Fixed (fun i => (w.exch (X i)).isEmpty)
  | .mk a b => by
    have e0 := a.fixed
    have e1 : Fixed (fun i => (exchTerms (X i) b).isEmpty) := by intro i j; simp only [exchTerms_eq, List.isEmpty_map]
    simp only [VENB.exch, VENB.isEmpty]
    fill_gaps

theorem Factor.fixed : ∀ w : Factor, Fixed (fun i => (w.exch (X i)).isEmpty)
  | .mk a b => by
    have e1 := b.fixed
    simp only [Factor.exch, Factor.isEmpty]
    fill_gaps

theorem NumPrim.fixed : ∀ w : NumPrim, Fixed (fun i => (w.exch (X i)).isEmpty)
  | .vep a => by
    have e0 := a.fixed
    simp only [NumPrim.exch, NumPrim.isEmpty]
    fill_gaps
  | .nvf a => by
    have e0 := a.fixed
    simp only [NumPrim.exch, NumPrim.isEmpty]
    fill_gaps

theorem NumFn.fixed : ∀ w : NumFn, Fixed (fun i => (w.exch (X i)).isEmpty)
  | .trig1 a b => by
    have e1 := b.fixed
    simp only [NumFn.exch, NumFn.isEmpty]
    fill_gaps
  | .trig2 a b c => by
    have e1 := b.fixed
    have e2 := c.fixed
    simp only [NumFn.exch, NumFn.isEmpty]
    fill_gaps
  | .math0 a => by
    simp only [NumFn.exch, NumFn.isEmpty]
    fill_gaps
  | .math1 a b => by
    have e1 := b.fixed
    simp only [NumFn.exch, NumFn.isEmpty]
    fill_gaps
  | .math2 a b c => by
    have e1 := b.fixed
    have e2 := c.fixed
    simp only [NumFn.exch, NumFn.isEmpty]
    fill_gaps
  | .cast a b c => by
    have e0 := a.fixed
    simp only [NumFn.exch, NumFn.isEmpty]
    fill_gaps
  | .geo1 a b => by
    simp only [NumFn.exch, NumFn.isEmpty]
    fill_gaps
  | .geo2 a b c => by
    simp only [NumFn.exch, NumFn.isEmpty]
    fill_gaps
  | .udf a b => by
    have e1 : Fixed (fun i => (exchVEs (X i) b).isEmpty) := by intro i j; simp only [exchVEs_eq, List.isEmpty_map]
    simp only [NumFn.exch, NumFn.isEmpty]
    fill_gaps
  | .str a => by
    simp only [NumFn.exch, NumFn.isEmpty]
    fill_gaps

theorem VEP.fixed : ∀ w : VEP, Fixed (fun i => (w.exch (X i)).isEmpty)
  | .mk a b => by
    have e0 := a.fixed
    have e1 : Fixed (fun i => (exchVEs (X i) b).isEmpty) := by intro i j; simp only [exchVEs_eq, List.isEmpty_map]
    simp only [VEP.exch, VEP.isEmpty]
    fill_gaps

theorem Prim.fixed : ∀ w : Prim, Fixed (fun i => (w.exch (X i)).isEmpty)
  | .arr a => by
    have e0 : Fixed (fun i => (exchVEs (X i) a).isEmpty) := by intro i j; simp only [exchVEs_eq, List.isEmpty_map]
    simp only [Prim.exch, Prim.isEmpty]
    fill_gaps
  | .str a => by
    simp only [Prim.exch, Prim.isEmpty]
    fill_gaps
  | .col a => by
    have e0 := hf.noCol a
    simp only [Prim.exch, Prim.isEmpty]
    fill_gaps
  | .countStar a => by
    simp only [Prim.exch, Prim.isEmpty]
    fill_gaps
  | .setFn a b c => by
    have e2 := c.fixed
    simp only [Prim.exch, Prim.isEmpty]
    fill_gaps
  | .case a => by
    have e0 := a.fixed
    simp only [Prim.exch, Prim.isEmpty]
    fill_gaps
  | .any a => by
    have e0 := a.fixed
    simp only [Prim.exch, Prim.isEmpty]
    fill_gaps
  | .sub a => by
    have e0 := a.fixed
    simp only [Prim.exch, Prim.isEmpty]
    fill_gaps

theorem CaseE.fixed : ∀ w : CaseE, Fixed (fun i => (w.exch (X i)).isEmpty)
  | .nullif a b => by
    have e0 := a.fixed
    have e1 := b.fixed
    simp only [CaseE.exch, CaseE.isEmpty]
    fill_gaps
  | .coalesce a => by
    have e0 : Fixed (fun i => (exchVEs (X i) a).isEmpty) := by intro i j; simp only [exchVEs_eq, List.isEmpty_map]
    simp only [CaseE.exch, CaseE.isEmpty]
    fill_gaps
  | .simple a b c => by
    have e0 := a.fixed
    have e1 : Fixed (fun i => (exchWhens (X i) b).isEmpty) := by intro i j; simp only [exchWhens_eq, List.isEmpty_map]
    simp only [CaseE.exch, CaseE.isEmpty]
    fill_gaps
  | .searched a b => by
    have e0 : Fixed (fun i => (exchConds (X i) a).isEmpty) := by intro i j; simp only [exchConds_eq, List.isEmpty_map]
    simp only [CaseE.exch, CaseE.isEmpty]
    fill_gaps

theorem SC.fixed : ∀ w : SC, Fixed (fun i => (w.exch (X i)).isEmpty)
  | .factor a => by
    have e0 := a.fixed
    simp only [SC.exch, SC.isEmpty]
    fill_gaps
  | .term a b c => by
    have e0 := a.fixed
    have e2 := c.fixed
    simp only [SC.exch, SC.isEmpty]
    fill_gaps

theorem BF.fixed : ∀ w : BF, Fixed (fun i => (w.exch (X i)).isEmpty)
  | .mk a b => by
    have e1 := b.fixed
    simp only [BF.exch, BF.isEmpty]
    fill_gaps

theorem BP.fixed : ∀ w : BP, Fixed (fun i => (w.exch (X i)).isEmpty)
  | .pred a => by
    have e0 := a.fixed
    simp only [BP.exch, BP.isEmpty]
    fill_gaps
  | .sc a => by
    have e0 := a.fixed
    simp only [BP.exch, BP.isEmpty]
    fill_gaps
  | .ve a => by
    have e0 := a.fixed
    simp only [BP.exch, BP.isEmpty]
    fill_gaps

theorem Pred.fixed : ∀ w : Pred, Fixed (fun i => (w.exch (X i)).isEmpty)
  | .cmp a b c => by
    have e0 := a.fixed
    have e2 := c.fixed
    simp only [Pred.exch, Pred.isEmpty]
    fill_gaps
  | .between a b c d => by
    have e0 := a.fixed
    have e2 := c.fixed
    have e3 := d.fixed
    simp only [Pred.exch, Pred.isEmpty]
    fill_gaps
  | .inSub a b c => by
    have e0 := a.fixed
    have e2 := c.fixed
    simp only [Pred.exch, Pred.isEmpty]
    fill_gaps
  | .inList a b c => by
    have e0 := a.fixed
    have e2 : Fixed (fun i => (exchVEs (X i) c).isEmpty) := by intro i j; simp only [exchVEs_eq, List.isEmpty_map]
    simp only [Pred.exch, Pred.isEmpty]
    fill_gaps
  | .null a b => by
    have e0 := a.fixed
    simp only [Pred.exch, Pred.isEmpty]
    fill_gaps
  | .like a b c => by
    have e0 := a.fixed
    have e2 := c.fixed
    simp only [Pred.exch, Pred.isEmpty]
    fill_gaps
  | .exist a => by
    have e0 := a.fixed
    simp only [Pred.exch, Pred.isEmpty]
    fill_gaps

theorem Subquery.fixed : ∀ w : Subquery, Fixed (fun i => (w.exch (X i)).isEmpty)
  | .jt a => by
    have e0 := a.fixed
    simp only [Subquery.exch, Subquery.isEmpty]
    fill_gaps
  | .qs a => by
    have e0 := a.fixed
    simp only [Subquery.exch, Subquery.isEmpty]
    fill_gaps

theorem JT.fixed : ∀ w : JT, Fixed (fun i => (w.exch (X i)).isEmpty)
  | .qj a => by
    have e0 := a.fixed
    simp only [JT.exch, JT.isEmpty]
    fill_gaps
  | .wrap a => by
    have e0 := a.fixed
    simp only [JT.exch, JT.isEmpty]
    fill_gaps

theorem QJ.fixed : ∀ w : QJ, Fixed (fun i => (w.exch (X i)).isEmpty)
  | .mk a b => by
    have e0 := a.fixed
    have e1 : Fixed (fun i => (exchSuffixes (X i) b).isEmpty) := by intro i j; simp only [exchSuffixes_eq, List.isEmpty_map]
    simp only [QJ.exch, QJ.isEmpty]
    fill_gaps

theorem QJHead.fixed : ∀ w : QJHead, Fixed (fun i => (w.exch (X i)).isEmpty)
  | .tc a => by
    have e0 := hf.noTab a
    simp only [QJHead.exch, QJHead.isEmpty]
    fill_gaps
  | .jt a => by
    have e0 := a.fixed
    simp only [QJHead.exch, QJHead.isEmpty]
    fill_gaps

theorem QuerySpec.fixed : ∀ w : QuerySpec, Fixed (fun i => (w.exch (X i)).isEmpty)
  | .mk a b c d e => by
    have e1 := b.fixed
    have e2 : Fixed (fun i => (exchGroup (X i) c).isEmpty) := by intro i j; simp only [exchGroup_eq, List.isEmpty_map]
    have e3 := d.fixed
    simp only [QuerySpec.exch, QuerySpec.isEmpty]
    fill_gaps

theorem SFWList.fixed : ∀ w : SFWList, Fixed (fun i => (w.exch (X i)).isEmpty)
  | .mk a b => by
    have e0 := a.fixed
    have e1 : Fixed (fun i => (exchAddons (X i) b).isEmpty) := by intro i j; simp only [exchAddons_eq, List.isEmpty_map]
    simp only [SFWList.exch, SFWList.isEmpty]
    fill_gaps

theorem SFW.fixed : ∀ w : SFW, Fixed (fun i => (w.exch (X i)).isEmpty)
  | .mk a b c => by
    have e1 : Fixed (fun i => (exchTRs (X i) b).isEmpty) := by intro i j; simp only [exchTRs_eq, List.isEmpty_map]
    simp only [SFW.exch, SFW.isEmpty]
    fill_gaps

end

theorem CaseResult.fixed : ∀ w : CaseResult, Fixed (fun i => (w.exch (X i)).isEmpty)
  | .str a => by
    simp only [CaseResult.exch, CaseResult.isEmpty]
    fill_gaps
  | .ve a => by
    have e0 := VE.fixed hf a
    simp only [CaseResult.exch, CaseResult.isEmpty]
    fill_gaps

theorem JoinSpec.fixed : ∀ w : JoinSpec, Fixed (fun i => (w.exch (X i)).isEmpty)
  | .named a => by
    simp only [JoinSpec.exch, JoinSpec.isEmpty]
    fill_gaps
  | .on a => by
    have e0 := SC.fixed hf a
    simp only [JoinSpec.exch, JoinSpec.isEmpty]
    fill_gaps

theorem GPred.fixed : ∀ w : GPred, Fixed (fun i => (w.exch (X i)).isEmpty)
  | .intersects a b => by
    have e0 := VE.fixed hf a
    have e1 := ShapeOrCol.fixed hf b
    simp only [GPred.exch, GPred.isEmpty]
    fill_gaps
  | .contains a b => by
    have e0 := ShapeOrCol.fixed hf a
    have e1 := ShapeOrCol.fixed hf b
    simp only [GPred.exch, GPred.isEmpty]
    fill_gaps

theorem Geom.fixed : ∀ w : Geom, Fixed (fun i => (w.exch (X i)).isEmpty)
  | .left a b => by
    have e1 := GPred.fixed hf b
    simp only [Geom.exch, Geom.isEmpty]
    fill_gaps
  | .right a b => by
    have e0 := GPred.fixed hf a
    simp only [Geom.exch, Geom.isEmpty]
    fill_gaps

theorem Where.fixed : ∀ w : Where, Fixed (fun i => (w.exch (X i)).isEmpty)
  | .mk a b => by
    have e0 := Geom.fixed hf a
    have e1 := SC.fixed hf b
    simp only [Where.exch, Where.isEmpty]
    fill_gaps

theorem With.fixed : ∀ w : With, Fixed (fun i => (w.exch (X i)).isEmpty)
  | .mk a b c => by
    have e2 := Subquery.fixed hf c
    simp only [With.exch, With.isEmpty]
    fill_gaps

mutual

theorem VE.pattern : ∀ w : VE, Pattern v (fun i => (w.exch (X i)).print fmt)
  | .nb a => by
    have h0 := a.pattern
    have e0 := VENB.fixed hf a
    simp only [VE.exch, VE.print, printCast, printSelect, printWith]
    fill_gaps
  | .sc a => by
    have h0 := a.pattern
    have e0 := SC.fixed hf a
    simp only [VE.exch, VE.print, printCast, printSelect, printWith]
    fill_gaps

theorem VENB.pattern : ∀ w : VENB, Pattern v (fun i => (w.exch (X i)).print fmt)
  | .mk a b => by
    have h0 := a.pattern
    have e0 := Factor.fixed hf a
    have h1printTerms := printTerms_pattern b
    have e1 : Fixed (fun i => (exchTerms (X i) b).isEmpty) := by intro i j; simp only [exchTerms_eq, List.isEmpty_map]
    simp only [VENB.exch, VENB.print, printCast, printSelect, printWith]
    fill_gaps

theorem printTerms_pattern : ∀ l : List Term, Pattern v (fun i => printTerms fmt (exchTerms (X i) l))
  | [] => by
    simp only [exchTerms, printTerms]
    fill_gaps
  | a :: l => by
    have h0 := a.pattern
    have h1 := printTerms_pattern l
    simp only [exchTerms, printTerms]
    fill_gaps

theorem Term.pattern : ∀ w : Term, Pattern v (fun i => (w.exch (X i)).print fmt)
  | .mk a b => by
    have h1 := b.pattern
    have e1 := Factor.fixed hf b
    simp only [Term.exch, Term.print, printCast, printSelect, printWith]
    fill_gaps

theorem Factor.pattern : ∀ w : Factor, Pattern v (fun i => (w.exch (X i)).print fmt)
  | .mk a b => by
    have h1 := b.pattern
    have e1 := NumPrim.fixed hf b
    simp only [Factor.exch, Factor.print, printCast, printSelect, printWith]
    fill_gaps

theorem NumPrim.pattern : ∀ w : NumPrim, Pattern v (fun i => (w.exch (X i)).print fmt)
  | .vep a => by
    have h0 := a.pattern
    have e0 := VEP.fixed hf a
    simp only [NumPrim.exch, NumPrim.print, printCast, printSelect, printWith]
    fill_gaps
  | .nvf a => by
    have h0 := a.pattern
    have e0 := NumFn.fixed hf a
    simp only [NumPrim.exch, NumPrim.print, printCast, printSelect, printWith]
    fill_gaps

theorem NumFn.pattern : ∀ w : NumFn, Pattern v (fun i => (w.exch (X i)).print fmt)
  | .trig1 a b => by
    have h1 := b.pattern
    have e1 := VE.fixed hf b
    simp only [NumFn.exch, NumFn.print, printCast, printSelect, printWith]
    fill_gaps
  | .trig2 a b c => by
    have h1 := b.pattern
    have e1 := VE.fixed hf b
    have h2 := c.pattern
    have e2 := VE.fixed hf c
    simp only [NumFn.exch, NumFn.print, printCast, printSelect, printWith]
    fill_gaps
  | .math0 a => by
    simp only [NumFn.exch, NumFn.print, printCast, printSelect, printWith]
    fill_gaps
  | .math1 a b => by
    have h1 := b.pattern
    have e1 := VE.fixed hf b
    simp only [NumFn.exch, NumFn.print, printCast, printSelect, printWith]
    fill_gaps
  | .math2 a b c => by
    have h1 := b.pattern
    have e1 := VE.fixed hf b
    have h2 := c.pattern
    have e2 := VE.fixed hf c
    simp only [NumFn.exch, NumFn.print, printCast, printSelect, printWith]
    fill_gaps
  | .cast a b c => by
    have h0 := a.pattern
    have e0 := VE.fixed hf a
    simp only [NumFn.exch, NumFn.print, printCast, printSelect, printWith]
    fill_gaps
  | .geo1 a b => by
    have h1 := PointOrCol.pattern hf (fmt := fmt) b
    simp only [NumFn.exch, NumFn.print, printCast, printSelect, printWith]
    fill_gaps
  | .geo2 a b c => by
    have h1 := PointOrCol.pattern hf (fmt := fmt) b
    have h2 := PointOrCol.pattern hf (fmt := fmt) c
    simp only [NumFn.exch, NumFn.print, printCast, printSelect, printWith]
    fill_gaps
  | .udf a b => by
    have h1printVEs := printVEs_pattern b
    have h1printIdx := printIdx_pattern b
    have e1 : Fixed (fun i => (exchVEs (X i) b).isEmpty) := by intro i j; simp only [exchVEs_eq, List.isEmpty_map]
    simp only [NumFn.exch, NumFn.print, printCast, printSelect, printWith]
    fill_gaps
  | .str a => by
    simp only [NumFn.exch, NumFn.print, printCast, printSelect, printWith]
    fill_gaps

theorem printVEs_pattern : ∀ l : List VE, Patterns v (fun i => printVEs fmt (exchVEs (X i) l))
  | [] => by
    simp only [exchVEs, printVEs]
    fill_gaps
  | a :: l => by
    have h0 := a.pattern
    have h1 := printVEs_pattern l
    simp only [exchVEs, printVEs]
    fill_gaps

theorem printIdx_pattern : ∀ l : List VE, Pattern v (fun i => printIdx fmt (exchVEs (X i) l))
  | [] => by
    simp only [exchVEs, printIdx]
    fill_gaps
  | a :: l => by
    have h0 := a.pattern
    have h1 := printIdx_pattern l
    simp only [exchVEs, printIdx]
    fill_gaps

theorem VEP.pattern : ∀ w : VEP, Pattern v (fun i => (w.exch (X i)).print fmt)
  | .mk a b => by
    have h0 := a.pattern
    have e0 := Prim.fixed hf a
    have h1printVEs := printVEs_pattern b
    have h1printIdx := printIdx_pattern b
    have e1 : Fixed (fun i => (exchVEs (X i) b).isEmpty) := by intro i j; simp only [exchVEs_eq, List.isEmpty_map]
    simp only [VEP.exch, VEP.print, printCast, printSelect, printWith]
    fill_gaps

theorem Prim.pattern : ∀ w : Prim, Pattern v (fun i => (w.exch (X i)).print fmt)
  | .arr a => by
    have h0printVEs := printVEs_pattern a
    have h0printIdx := printIdx_pattern a
    have e0 : Fixed (fun i => (exchVEs (X i) a).isEmpty) := by intro i j; simp only [exchVEs_eq, List.isEmpty_map]
    simp only [Prim.exch, Prim.print, printCast, printSelect, printWith]
    fill_gaps
  | .str a => by
    simp only [Prim.exch, Prim.print, printCast, printSelect, printWith]
    fill_gaps
  | .col a => by
    have h0 := hf.col a
    simp only [Prim.exch, Prim.print, printCast, printSelect, printWith]
    fill_gaps
  | .countStar a => by
    simp only [Prim.exch, Prim.print, printCast, printSelect, printWith]
    fill_gaps
  | .setFn a b c => by
    have h2 := c.pattern
    have e2 := VE.fixed hf c
    simp only [Prim.exch, Prim.print, printCast, printSelect, printWith]
    fill_gaps
  | .case a => by
    have h0 := a.pattern
    have e0 := CaseE.fixed hf a
    simp only [Prim.exch, Prim.print, printCast, printSelect, printWith]
    fill_gaps
  | .any a => by
    have h0 := a.pattern
    have e0 := VE.fixed hf a
    simp only [Prim.exch, Prim.print, printCast, printSelect, printWith]
    fill_gaps
  | .sub a => by
    have h0 := a.pattern
    have e0 := VE.fixed hf a
    simp only [Prim.exch, Prim.print, printCast, printSelect, printWith]
    fill_gaps

theorem CaseE.pattern : ∀ w : CaseE, Pattern v (fun i => (w.exch (X i)).print fmt)
  | .nullif a b => by
    have h0 := a.pattern
    have e0 := VE.fixed hf a
    have h1 := b.pattern
    have e1 := VE.fixed hf b
    simp only [CaseE.exch, CaseE.print, printCast, printSelect, printWith]
    fill_gaps
  | .coalesce a => by
    have h0printVEs := printVEs_pattern a
    have h0printIdx := printIdx_pattern a
    have e0 : Fixed (fun i => (exchVEs (X i) a).isEmpty) := by intro i j; simp only [exchVEs_eq, List.isEmpty_map]
    simp only [CaseE.exch, CaseE.print, printCast, printSelect, printWith]
    fill_gaps
  | .simple a b c => by
    have h0 := a.pattern
    have e0 := VE.fixed hf a
    have h1printSimpleWhens := printSimpleWhens_pattern b
    have e1 : Fixed (fun i => (exchWhens (X i) b).isEmpty) := by intro i j; simp only [exchWhens_eq, List.isEmpty_map]
    have h2 := c.pattern
    have e2 := CaseResult.fixed hf c
    simp only [CaseE.exch, CaseE.print, printCast, printSelect, printWith]
    fill_gaps
  | .searched a b => by
    have h0printSearchedWhens := printSearchedWhens_pattern a
    have e0 : Fixed (fun i => (exchConds (X i) a).isEmpty) := by intro i j; simp only [exchConds_eq, List.isEmpty_map]
    have h1 := b.pattern
    have e1 := CaseResult.fixed hf b
    simp only [CaseE.exch, CaseE.print, printCast, printSelect, printWith]
    fill_gaps

theorem SimpleWhen.pattern : ∀ w : SimpleWhen, Pattern v (fun i => (w.exch (X i)).print fmt)
  | .mk a b => by
    have h0 := a.pattern
    have e0 := VE.fixed hf a
    have h1 := b.pattern
    have e1 := CaseResult.fixed hf b
    simp only [SimpleWhen.exch, SimpleWhen.print, printCast, printSelect, printWith]
    fill_gaps

theorem printSimpleWhens_pattern : ∀ l : List SimpleWhen, Pattern v (fun i => printSimpleWhens fmt (exchWhens (X i) l))
  | [] => by
    simp only [exchWhens, printSimpleWhens]
    fill_gaps
  | a :: l => by
    have h0 := a.pattern
    have h1 := printSimpleWhens_pattern l
    simp only [exchWhens, printSimpleWhens]
    fill_gaps

theorem SearchedWhen.pattern : ∀ w : SearchedWhen, Pattern v (fun i => (w.exch (X i)).print fmt)
  | .mk a b => by
    have h0 := a.pattern
    have e0 := SC.fixed hf a
    have h1 := b.pattern
    have e1 := CaseResult.fixed hf b
    simp only [SearchedWhen.exch, SearchedWhen.print, printCast, printSelect, printWith]
    fill_gaps

theorem printSearchedWhens_pattern : ∀ l : List SearchedWhen, Pattern v (fun i => printSearchedWhens fmt (exchConds (X i) l))
  | [] => by
    simp only [exchConds, printSearchedWhens]
    fill_gaps
  | a :: l => by
    have h0 := a.pattern
    have h1 := printSearchedWhens_pattern l
    simp only [exchConds, printSearchedWhens]
    fill_gaps

theorem CaseResult.pattern : ∀ w : CaseResult, Pattern v (fun i => (w.exch (X i)).print fmt)
  | .str a => by
    simp only [CaseResult.exch, CaseResult.print, printCast, printSelect, printWith]
    fill_gaps
  | .ve a => by
    have h0 := a.pattern
    have e0 := VE.fixed hf a
    simp only [CaseResult.exch, CaseResult.print, printCast, printSelect, printWith]
    fill_gaps

theorem SC.pattern : ∀ w : SC, Pattern v (fun i => (w.exch (X i)).print fmt)
  | .factor a => by
    have h0 := a.pattern
    have e0 := BF.fixed hf a
    have e := SC.fixed hf (.factor a)
    simp only [SC.exch] at e
    simp only [SC.exch, SC.print, printCast, printSelect, printWith]
    fill_gaps
  | .term a b c => by
    have h0 := a.pattern
    have e0 := BF.fixed hf a
    have h2 := c.pattern
    have e2 := SC.fixed hf c
    have e := SC.fixed hf (.term a b c)
    simp only [SC.exch] at e
    simp only [SC.exch, SC.print, printCast, printSelect, printWith]
    fill_gaps

theorem BF.pattern : ∀ w : BF, Pattern v (fun i => (w.exch (X i)).print fmt)
  | .mk a b => by
    have h1 := b.pattern
    have e1 := BP.fixed hf b
    simp only [BF.exch, BF.print, printCast, printSelect, printWith]
    fill_gaps

theorem BP.pattern : ∀ w : BP, Pattern v (fun i => (w.exch (X i)).print fmt)
  | .pred a => by
    have h0 := a.pattern
    have e0 := Pred.fixed hf a
    simp only [BP.exch, BP.print, printCast, printSelect, printWith]
    fill_gaps
  | .sc a => by
    have h0 := a.pattern
    have e0 := SC.fixed hf a
    simp only [BP.exch, BP.print, printCast, printSelect, printWith]
    fill_gaps
  | .ve a => by
    have h0 := a.pattern
    have e0 := VENB.fixed hf a
    simp only [BP.exch, BP.print, printCast, printSelect, printWith]
    fill_gaps

theorem Pred.pattern : ∀ w : Pred, Pattern v (fun i => (w.exch (X i)).print fmt)
  | .cmp a b c => by
    have h0 := a.pattern
    have e0 := VENB.fixed hf a
    have h2 := c.pattern
    have e2 := VE.fixed hf c
    simp only [Pred.exch, Pred.print, printCast, printSelect, printWith]
    fill_gaps
  | .between a b c d => by
    have h0 := a.pattern
    have e0 := VENB.fixed hf a
    have h2 := c.pattern
    have e2 := VE.fixed hf c
    have h3 := d.pattern
    have e3 := VE.fixed hf d
    simp only [Pred.exch, Pred.print, printCast, printSelect, printWith]
    fill_gaps
  | .inSub a b c => by
    have h0 := a.pattern
    have e0 := VENB.fixed hf a
    have h2 := c.pattern
    have e2 := Subquery.fixed hf c
    simp only [Pred.exch, Pred.print, printCast, printSelect, printWith]
    fill_gaps
  | .inList a b c => by
    have h0 := a.pattern
    have e0 := VENB.fixed hf a
    have h2printVEs := printVEs_pattern c
    have h2printIdx := printIdx_pattern c
    have e2 : Fixed (fun i => (exchVEs (X i) c).isEmpty) := by intro i j; simp only [exchVEs_eq, List.isEmpty_map]
    simp only [Pred.exch, Pred.print, printCast, printSelect, printWith]
    fill_gaps
  | .null a b => by
    have h0 := a.pattern
    have e0 := VENB.fixed hf a
    simp only [Pred.exch, Pred.print, printCast, printSelect, printWith]
    fill_gaps
  | .like a b c => by
    have h0 := a.pattern
    have e0 := VENB.fixed hf a
    have h2 := c.pattern
    have e2 := VE.fixed hf c
    simp only [Pred.exch, Pred.print, printCast, printSelect, printWith]
    fill_gaps
  | .exist a => by
    have h0 := a.pattern
    have e0 := Subquery.fixed hf a
    simp only [Pred.exch, Pred.print, printCast, printSelect, printWith]
    fill_gaps

theorem Subquery.pattern : ∀ w : Subquery, Pattern v (fun i => (w.exch (X i)).print fmt)
  | .jt a => by
    have h0 := a.pattern
    have e0 := JT.fixed hf a
    simp only [Subquery.exch, Subquery.print, printCast, printSelect, printWith]
    fill_gaps
  | .qs a => by
    have h0 := a.pattern
    have e0 := QuerySpec.fixed hf a
    simp only [Subquery.exch, Subquery.print, printCast, printSelect, printWith]
    fill_gaps

theorem JT.pattern : ∀ w : JT, Pattern v (fun i => (w.exch (X i)).print fmt)
  | .qj a => by
    have h0 := a.pattern
    have e0 := QJ.fixed hf a
    simp only [JT.exch, JT.print, printCast, printSelect, printWith]
    fill_gaps
  | .wrap a => by
    have h0 := a.pattern
    have e0 := JT.fixed hf a
    simp only [JT.exch, JT.print, printCast, printSelect, printWith]
    fill_gaps

theorem QJ.pattern : ∀ w : QJ, Pattern v (fun i => (w.exch (X i)).print fmt)
  | .mk a b => by
    have h0 := a.pattern
    have e0 := QJHead.fixed hf a
    have h1printSuffixes := printSuffixes_pattern b
    have e1 : Fixed (fun i => (exchSuffixes (X i) b).isEmpty) := by intro i j; simp only [exchSuffixes_eq, List.isEmpty_map]
    simp only [QJ.exch, QJ.print, printCast, printSelect, printWith]
    fill_gaps

theorem QJHead.pattern : ∀ w : QJHead, Pattern v (fun i => (w.exch (X i)).print fmt)
  | .tc a => by
    have h0 := hf.tab a
    simp only [QJHead.exch, QJHead.print, printCast, printSelect, printWith]
    fill_gaps
  | .jt a => by
    have h0 := a.pattern
    have e0 := JT.fixed hf a
    simp only [QJHead.exch, QJHead.print, printCast, printSelect, printWith]
    fill_gaps

theorem printSuffixes_pattern : ∀ l : List JoinSuffix, Pattern v (fun i => printSuffixes fmt (exchSuffixes (X i) l))
  | [] => by
    simp only [exchSuffixes, printSuffixes]
    fill_gaps
  | a :: l => by
    have h0 := a.pattern
    have h1 := printSuffixes_pattern l
    simp only [exchSuffixes, printSuffixes]
    fill_gaps

theorem JoinSuffix.pattern : ∀ w : JoinSuffix, Pattern v (fun i => (w.exch (X i)).print fmt)
  | .mk a b c d => by
    have h2 := c.pattern
    have h3 := d.pattern
    have e3 := JoinSpec.fixed hf d
    simp only [JoinSuffix.exch, JoinSuffix.print, printCast, printSelect, printWith]
    fill_gaps

theorem JoinSpec.pattern : ∀ w : JoinSpec, Pattern v (fun i => (w.exch (X i)).print fmt)
  | .named a => by
    simp only [JoinSpec.exch, JoinSpec.print, printCast, printSelect, printWith]
    fill_gaps
  | .on a => by
    have h0 := a.pattern
    have e0 := SC.fixed hf a
    simp only [JoinSpec.exch, JoinSpec.print, printCast, printSelect, printWith]
    fill_gaps

theorem TR.pattern : ∀ w : TR, Pattern v (fun i => (w.exch (X i)).print fmt)
  | .tc a => by
    have h0 := hf.tab a
    simp only [TR.exch, TR.print, printCast, printSelect, printWith]
    fill_gaps
  | .jt a => by
    have h0 := a.pattern
    have e0 := JT.fixed hf a
    simp only [TR.exch, TR.print, printCast, printSelect, printWith]
    fill_gaps
  | .derived a b => by
    have h0 := a.pattern
    have e0 := Subquery.fixed hf a
    simp only [TR.exch, TR.print, printCast, printSelect, printWith]
    fill_gaps
  | .tvf a b => by
    simp only [TR.exch, TR.print, printCast, printSelect, printWith]
    fill_gaps

theorem GPred.pattern : ∀ w : GPred, Pattern v (fun i => (w.exch (X i)).print fmt)
  | .intersects a b => by
    have h0 := a.pattern
    have e0 := VE.fixed hf a
    have h1 := ShapeOrCol.pattern hf (fmt := fmt) b
    simp only [GPred.exch, GPred.print, printCast, printSelect, printWith]
    fill_gaps
  | .contains a b => by
    have h0 := ShapeOrCol.pattern hf (fmt := fmt) a
    have h1 := ShapeOrCol.pattern hf (fmt := fmt) b
    simp only [GPred.exch, GPred.print, printCast, printSelect, printWith]
    fill_gaps

theorem Geom.pattern : ∀ w : Geom, Pattern v (fun i => (w.exch (X i)).print fmt)
  | .left a b => by
    have h1 := b.pattern
    have e1 := GPred.fixed hf b
    have e := Geom.fixed hf (.left a b)
    simp only [Geom.exch] at e
    simp only [Geom.exch, Geom.print, printCast, printSelect, printWith]
    fill_gaps
  | .right a b => by
    have h0 := a.pattern
    have e0 := GPred.fixed hf a
    have e := Geom.fixed hf (.right a b)
    simp only [Geom.exch] at e
    simp only [Geom.exch, Geom.print, printCast, printSelect, printWith]
    fill_gaps

theorem Where.pattern : ∀ w : Where, Pattern v (fun i => (w.exch (X i)).print fmt)
  | .mk a b => by
    have h0 := a.pattern
    have e0 := Geom.fixed hf a
    have h1 := b.pattern
    have e1 := SC.fixed hf b
    simp only [Where.exch, Where.print, printCast, printSelect, printWith]
    fill_gaps

theorem Item.pattern : ∀ w : Item, Pattern v (fun i => (w.exch (X i)).print fmt)
  | .as a b => by
    have h0 := a.pattern
    have e0 := VE.fixed hf a
    simp only [Item.exch, Item.print, printCast, printSelect, printWith]
    fill_gaps
  | .nonAsStr a => by
    have h0 := hf.star a
    simp only [Item.exch, Item.print, printCast, printSelect, printWith]
    fill_gaps
  | .nonAsVE a => by
    have h0 := a.pattern
    have e0 := VE.fixed hf a
    simp only [Item.exch, Item.print, printCast, printSelect, printWith]
    fill_gaps

theorem printItems_pattern : ∀ l : List Item, Patterns v (fun i => printItems fmt (exchItems (X i) l))
  | [] => by
    simp only [exchItems, printItems]
    fill_gaps
  | a :: l => by
    have h0 := a.pattern
    have h1 := printItems_pattern l
    simp only [exchItems, printItems]
    fill_gaps

theorem Columns.pattern : ∀ w : Columns, Pattern v (fun i => (w.exch (X i)).print fmt)
  | .star a => by
    simp only [Columns.exch, Columns.print, printCast, printSelect, printWith]
    fill_gaps
  | .items a => by
    have h0printItems := printItems_pattern a
    have e0 : Fixed (fun i => (exchItems (X i) a).isEmpty) := by intro i j; simp only [exchItems_eq, List.isEmpty_map]
    simp only [Columns.exch, Columns.print, printCast, printSelect, printWith]
    fill_gaps

theorem Select.pattern : ∀ w : Select, Pattern v (fun i => (w.exch (X i)).print fmt)
  | .mk a b c => by
    have h2 := c.pattern
    simp only [Select.exch, Select.print, printCast, printSelect, printWith]
    fill_gaps

theorem printTRs_pattern : ∀ l : List TR, Patterns v (fun i => printTRs fmt (exchTRs (X i) l))
  | [] => by
    simp only [exchTRs, printTRs]
    fill_gaps
  | a :: l => by
    have h0 := a.pattern
    have h1 := printTRs_pattern l
    simp only [exchTRs, printTRs]
    fill_gaps

theorem SFW.pattern : ∀ w : SFW, Pattern v (fun i => (w.exch (X i)).print fmt)
  | .mk a b c => by
    have h0 := a.pattern
    have h1printTRs := printTRs_pattern b
    have e1 : Fixed (fun i => (exchTRs (X i) b).isEmpty) := by intro i j; simp only [exchTRs_eq, List.isEmpty_map]
    have h2 := c.pattern
    have e2 := Where.fixed hf c
    simp only [SFW.exch, SFW.print, printCast, printSelect, printWith]
    fill_gaps

theorem Addon.pattern : ∀ w : Addon, Pattern v (fun i => (w.exch (X i)).print fmt)
  | .mk a b => by
    have h1 := b.pattern
    have e1 := SFW.fixed hf b
    simp only [Addon.exch, Addon.print, printCast, printSelect, printWith]
    fill_gaps

theorem printAddons_pattern : ∀ l : List Addon, Pattern v (fun i => printAddons fmt (exchAddons (X i) l))
  | [] => by
    simp only [exchAddons, printAddons]
    fill_gaps
  | a :: l => by
    have h0 := a.pattern
    have h1 := printAddons_pattern l
    simp only [exchAddons, printAddons]
    fill_gaps

theorem SFWList.pattern : ∀ w : SFWList, Pattern v (fun i => (w.exch (X i)).print fmt)
  | .mk a b => by
    have h0 := a.pattern
    have e0 := SFW.fixed hf a
    have h1printAddons := printAddons_pattern b
    have e1 : Fixed (fun i => (exchAddons (X i) b).isEmpty) := by intro i j; simp only [exchAddons_eq, List.isEmpty_map]
    simp only [SFWList.exch, SFWList.print, printCast, printSelect, printWith]
    fill_gaps

theorem GroupTerm.pattern : ∀ w : GroupTerm, Pattern v (fun i => (w.exch (X i)).print fmt)
  | .col a => by
    have h0 := hf.col a
    simp only [GroupTerm.exch, GroupTerm.print, printCast, printSelect, printWith]
    fill_gaps
  | .ve a => by
    have h0 := a.pattern
    have e0 := VE.fixed hf a
    simp only [GroupTerm.exch, GroupTerm.print, printCast, printSelect, printWith]
    fill_gaps

theorem printGroup_pattern : ∀ l : List GroupTerm, Patterns v (fun i => printGroup fmt (exchGroup (X i) l))
  | [] => by
    simp only [exchGroup, printGroup]
    fill_gaps
  | a :: l => by
    have h0 := a.pattern
    have h1 := printGroup_pattern l
    simp only [exchGroup, printGroup]
    fill_gaps

theorem With.pattern : ∀ w : With, Pattern v (fun i => (w.exch (X i)).print fmt)
  | .mk a b c => by
    have h2 := c.pattern
    have e2 := Subquery.fixed hf c
    simp only [With.exch, With.print, printCast, printSelect, printWith]
    fill_gaps

theorem QuerySpec.pattern : ∀ w : QuerySpec, Pattern v (fun i => (w.exch (X i)).print fmt)
  | .mk a b c d e => by
    have h0 := a.pattern
    have e0 := With.fixed hf a
    have h1 := b.pattern
    have e1 := SFWList.fixed hf b
    have h2printGroup := printGroup_pattern c
    have e2 : Fixed (fun i => (exchGroup (X i) c).isEmpty) := by intro i j; simp only [exchGroup_eq, List.isEmpty_map]
    have h3 := d.pattern
    have e3 := SC.fixed hf d
    have h4 := sorts_pattern hf e
    have e4 : Fixed (fun i => (e.map (SortSpec.exch (X i))).isEmpty) := by intro i j; simp only [List.isEmpty_map]
    simp only [QuerySpec.exch, QuerySpec.print, printCast, printSelect, printWith]
    fill_gaps

end

end

end Adql
