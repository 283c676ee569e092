import Verif.Peg.Inv
import Verif.Model.Parsed

/-!
# Where the nodes of a parsed tree come from

`Came cfg n` says that the grammar rule of the node `n` yields it on some text.  All nodes of a parsed tree came from a
text in this sense (`came_query`), so what is shown of the result of one rule holds everywhere in the tree.
-/

namespace Adql

open Spec P

/-- The rule `p` yields `a` on some text. -/
def Made (cfg : Config) {α : Type} (p : G α) (a : α) : Prop := ∃ s r, parse cfg p true s = .ok a r

/-- The rule of the node yields it on some text; said for the nodes where it is used. -/
def Came (cfg : Config) : Node → Prop
  | .ve x => Made cfg ve x
  | .venb x => Made cfg venb x
  | .sc x => Made cfg sc x
  | .bf x => Made cfg (booleanFactor cfg.residue) x
  | .bp x => Made cfg booleanPrimary x
  | .pred x => Made cfg predicate x
  | .result x => Made cfg caseResult x
  | .group x => Made cfg groupByTerm x
  | .qj x => Made cfg qualifiedJoin x
  | .suffix x => Made cfg joinSuffix x
  | .numPrim x => Made cfg numericPrimary x
  | .subq x => Made cfg subq x
  | .tr x => Made cfg tr x
  | .coordExpr x => Made cfg coordExpr x
  | _ => True

/-- Every attribute of `p` satisfies `Q`. -/
def OP (rec : (n : Rule) → Bool → Str → Res (Attr n)) {α : Type} (p : G α) (Q : α → Prop) : Prop :=
  ∀ s a r, step rec p true s = .ok a r → Q a

namespace OP

variable {rec : (n : Rule) → Bool → Str → Res (Attr n)} {α β : Type}

theorem imp {p : G α} {Q R : α → Prop} (h : OP rec p Q) (hi : ∀ a, Q a → R a) : OP rec p R :=
  fun s a r hs => hi a (h s a r hs)

theorem and {p : G α} {Q R : α → Prop} (h : OP rec p Q) (h' : OP rec p R) : OP rec p (fun a => Q a ∧ R a) :=
  fun s a r hs => ⟨h s a r hs, h' s a r hs⟩

theorem any {p : G α} : OP rec p (fun _ => True) := fun _ _ _ _ => trivial

theorem seq {p : G α} {q : G β} {Q : α → Prop} {R : β → Prop} (h : OP rec p Q) (h' : OP rec q R) :
    OP rec (P.seq p q) (fun x => Q x.1 ∧ R x.2) := by
  rintro s ⟨a, b⟩ r hs
  rw [step_seq_ok] at hs
  obtain ⟨t, h1, h2⟩ := hs
  exact ⟨h _ _ _ h1, h' _ _ _ h2⟩

theorem alt {p q : G α} {Q : α → Prop} (h : OP rec p Q) (h' : OP rec q Q) : OP rec (P.alt p q) Q := by
  intro s a r hs
  rw [step_alt_ok] at hs
  rcases hs with hs | ⟨-, hs⟩
  · exact h _ _ _ hs
  · exact h' _ _ _ hs

theorem _root_.Adql.Iter.all {f : Str → Res α} {Q : α → Prop} (hf : ∀ s a r, f s = .ok a r → Q a) {s r : Str} {l : List α}
    (h : Iter f s l r) : ∀ a ∈ l, Q a := by
  induction h with
  | nil => nofun
  | cons h _ _ ih => exact List.forall_mem_cons.2 ⟨hf _ _ _ h, ih⟩

theorem star {p : G α} {Q : α → Prop} (h : OP rec p Q) : OP rec (P.star p) (fun l => ∀ a ∈ l, Q a) := by
  intro s l r hs
  rw [step_star_ok] at hs
  exact hs.all h

theorem expect {p : G α} {Q : α → Prop} {w : String} (h : OP rec p Q) : OP rec (P.expect w p) Q := by
  intro s a r hs
  rw [step_expect_ok] at hs
  exact h _ _ _ hs

theorem map {p : G α} {f : α → β} {Q : β → Prop} (h : OP rec p (fun a => Q (f a))) : OP rec (P.map f p) Q := by
  intro s b r hs
  rw [step_map_ok] at hs
  obtain ⟨a, h1, rfl⟩ := hs
  exact h _ _ _ h1

theorem seqL {p : G α} {q : G β} {Q : α → Prop} (h : OP rec p Q) : OP rec (P.seqL p q) Q :=
  map ((seq h any).imp fun _ h => h.1)

theorem seqR {p : G α} {q : G β} {Q : β → Prop} (h : OP rec q Q) : OP rec (P.seqR p q) Q :=
  map ((seq any h).imp fun _ h => h.2)

theorem optD {p : G α} {d : α} {Q : α → Prop} (h : OP rec p Q) : OP rec (P.optD d p) (fun a => a = d ∨ Q a) :=
  alt (h.imp fun _ => .inr) fun _ _ _ hs => .inl (step_pure_ok.1 hs).1

theorem plus {p : G α} {Q : α → Prop} (h : OP rec p Q) : OP rec (P.plus p) (fun l => ∀ a ∈ l, Q a) :=
  map ((seq h (star h)).imp fun x hx => by simp; exact hx)

theorem sepBy {p : G α} {q : G β} {Q : α → Prop} (h : OP rec p Q) : OP rec (P.sepBy p q) (fun l => ∀ a ∈ l, Q a) :=
  map ((seq h (star (seqR h))).imp fun x hx => by simp; exact hx)

end OP

namespace Origin

variable {cfg : Config} {f : Nat}

/-- the rules with bounded nesting of the calls -/
abbrev Rn (cfg : Config) (f : Nat) := run (grammar cfg) f

theorem made {α : Type} {p : G α} {Q : α → Prop} (h : OP (Rn cfg f) p Q) : OP (Rn cfg f) p (fun a => Made cfg p a ∧ Q a) := by
  intro s a r hs
  refine ⟨⟨s, r, ?_⟩, h s a r hs⟩
  rw [← hs]
  exact (step_run_eq_den (grammar_wf cfg) p (by rw [hs]; nofun)).symm

theorem made_nt {n : Rule} {a : Attr n} (h : Made cfg (grammar cfg n) a) : Made cfg (.nt n) a := by
  obtain ⟨s, r, e⟩ := h
  exact ⟨s, r, by rw [parse_nt]; exact e⟩

theorem made_nb {v : VENB} (h : Made cfg venb v) : Made cfg ve (.nb v) := by
  obtain ⟨s, r, h⟩ := h
  refine ⟨s, r, ?_⟩
  rw [ve, parse_nt]
  exact step_alt_ok.2 (.inl (step_map_ok.2 ⟨v, h, rfl⟩))

theorem node {n : Node} (h : Came cfg n) (hc : ∀ m, Node.child n m → All (Came cfg) m) : All (Came cfg) n := all_iff.2 ⟨h, hc⟩
theorem leaf {n : Node} (h : Came cfg n) (hc : ∀ m, ¬ Node.child n m) : All (Came cfg) n := node h fun m hm => absurd hm (hc m)
theorem nodeOP {α : Type} {p : G α} {k : α → Node} (hk : ∀ a, Made cfg p a → Came cfg (k a))
    (h : OP (Rn cfg f) p (fun a => ∀ m, Node.child (k a) m → All (Came cfg) m)) : OP (Rn cfg f) p (fun a => All (Came cfg) (k a)) :=
  (made h).imp fun a hx => node (hk a hx.1) hx.2
theorem one {K : Node → Prop} {c : Node} (h : All K c) : ∀ m, m = c → All K m := fun _ e => e ▸ h
theorem two {K : Node → Prop} {c d : Node} (h : All K c) (h' : All K d) : ∀ m, m = c ∨ m = d → All K m :=
  fun _ e => e.elim (· ▸ h) (· ▸ h')

/-- What is known of the called rules. -/
structure Rules (rec : (n : Rule) → Bool → Str → Res (Attr n)) (cfg : Config) : Prop where
  ve : OP rec ve (fun a => All (Came cfg) (.ve a))
  venb : OP rec venb (fun a => All (Came cfg) (.venb a))
  sc : OP rec sc (fun a => All (Came cfg) (.sc a))
  subq : OP rec subq (fun a => All (Came cfg) (.subq a))
  jt : OP rec jt (fun a => All (Came cfg) (.jt a))
  tr : OP rec tr (fun a => All (Came cfg) (.tr a))

variable (h : Rules (Rn cfg f) cfg)
include h

omit h in
theorem colRef {c : ColRef} : All (Came cfg) (.colRef c) := leaf trivial fun _ h => h
omit h in
theorem coordExpr : OP (Rn cfg f) coordExpr (fun a => All (Came cfg) (.coordExpr a)) :=
  nodeOP (fun _ h => h) (.alt (.map (OP.any.imp fun _ _ => by exact fun _ h => absurd h id))
    (.alt (.map (OP.any.imp fun _ _ => by exact one colRef)) (.map (OP.any.imp fun _ _ => by exact fun _ h => absurd h id))))
omit h in
theorem coord : OP (Rn cfg f) coord (fun a => All (Came cfg) (.coord a)) :=
  .map ((OP.seq coordExpr (.seqR coordExpr)).imp fun _ hx => by exact node trivial (two hx.1 hx.2))
omit h in
theorem xCoordExpr : OP (Rn cfg f) xCoordExpr (fun a => All (Came cfg) (.coordExpr a)) := .seqR (.expect coordExpr)
omit h in
theorem point : OP (Rn cfg f) point (fun a => All (Came cfg) (.point a)) :=
  .map ((OP.seq OP.any (.seqL (.expect coord))).imp fun _ hx => by exact node trivial (one hx.2))
omit h in
theorem shape : OP (Rn cfg f) shape (fun a => All (Came cfg) (.shape a)) := by
  refine .alt (.map (point.imp fun _ hx => by exact node trivial (one hx)))
    (.alt (.map ((OP.seq OP.any (.seq (.expect coord) (.seqL xCoordExpr))).imp fun _ hx => by exact node trivial (two hx.2.1 hx.2.2)))
    (.alt (.map ((OP.seq OP.any (.seq (.expect coord) (.seq xCoordExpr (.seqL xCoordExpr)))).imp fun _ hx => node (by exact trivial) ?_))
    (.alt (.map ((OP.seq OP.any (.seq (.expect coord) (.seq xCoordExpr (.seq xCoordExpr (.seqL xCoordExpr))))).imp fun _ hx =>
        node (by exact trivial) ?_))
      (.map ((OP.seq OP.any (.seqL (.expect (.sepBy coord)))).imp fun _ hx => node (by exact trivial) ?_)))))
  · rintro m (rfl | rfl | rfl)
    · exact hx.2.1
    · exact hx.2.2.1
    · exact hx.2.2.2
  · rintro m (rfl | rfl | rfl | rfl)
    · exact hx.2.1
    · exact hx.2.2.1
    · exact hx.2.2.2.1
    · exact hx.2.2.2.2
  · rintro m ⟨c, hc, rfl⟩
    exact hx.2 c hc
omit h in
theorem pointOrCol : OP (Rn cfg f) pointOrColumn (fun a => All (Came cfg) (.pointOrCol a)) :=
  .alt (.map (point.imp fun _ hx => by exact node trivial (one hx))) (.map (OP.any.imp fun _ _ => by exact node trivial (one colRef)))
omit h in
theorem shapeOrCol : OP (Rn cfg f) shapeOrColumn (fun a => All (Came cfg) (.shapeOrCol a)) :=
  .alt (.map (shape.imp fun _ hx => by exact node trivial (one hx))) (.map (OP.any.imp fun _ _ => by exact node trivial (one colRef)))
omit h in
theorem xShapeTail : OP (Rn cfg f) xShapeTail (fun a => All (Came cfg) (.shapeOrCol a)) := .seqR (.seqL (.expect shapeOrCol))

theorem gpred : OP (Rn cfg f) geomPred (fun a => All (Came cfg) (.gpred a)) :=
  .alt (.map (.seqR ((OP.seq (.expect shapeOrCol) xShapeTail).imp fun _ hx => by exact node trivial (two hx.1 hx.2))))
    (.map (.seqR ((OP.seq (.expect h.ve) xShapeTail).imp fun _ hx => by exact node trivial (two hx.1 hx.2))))

theorem geom : OP (Rn cfg f) geometry (fun a => All (Came cfg) (.geom a)) :=
  .alt (.map ((OP.seq OP.any (gpred h)).imp fun _ hx => by exact node trivial (one hx.2)))
    (.map ((OP.seq (gpred h) OP.any).imp fun _ hx => by exact node trivial (one hx.1)))

theorem numFn : OP (Rn cfg f) numericValueFunction (fun a => All (Came cfg) (.numFn a)) :=
  .alt (.alt (.map ((OP.seq OP.any (.seqL (.expect h.ve))).imp fun _ hx => by exact node trivial (one hx.2)))
      (.map ((OP.seq OP.any (.seq (.expect h.ve) (.seqR (.seqL (.expect h.ve))))).imp fun _ hx => by exact node trivial (two hx.2.1 hx.2.2))))
    (.alt (.alt (.map (OP.any.imp fun _ _ => by exact leaf trivial fun _ h => h))
        (.alt (.map ((OP.seq OP.any (.seqL h.ve)).imp fun _ hx => by exact node trivial (one hx.2)))
          (.map ((OP.seq OP.any (.seq h.ve (.seqR (.seqL h.ve)))).imp fun _ hx => by exact node trivial (two hx.2.1 hx.2.2)))))
    (.alt (.map (.seqR ((OP.seq (.seqL h.ve) OP.any).imp fun _ hx => by exact node trivial (one hx.1))))
    (.alt (.alt (.map ((OP.seq OP.any (.seqL (.expect pointOrCol))).imp fun _ hx => by exact node trivial (one hx.2)))
        (.map ((OP.seq OP.any (.seq (.expect pointOrCol) (.seqR (.seqL (.expect pointOrCol))))).imp fun _ hx => by exact node trivial (two hx.2.1 hx.2.2))))
    (.alt (.map ((OP.seq OP.any (.seqL (.optD (.sepBy h.ve)))).imp fun x hx => by exact node trivial (by
        rintro m ⟨a, ha, rfl⟩
        rcases hx.2 with e | hl
        · rw [e] at ha; cases ha
        · exact hl a ha)))
      (.map (OP.any.imp fun _ _ => by exact leaf trivial fun _ h => h))))))

theorem caseResult : OP (Rn cfg f) caseResult (fun a => All (Came cfg) (.result a)) :=
  nodeOP (fun _ h => h) (.alt (.map (h.ve.imp fun _ hx => by exact one hx)) (.map (OP.any.imp fun _ _ => by exact fun _ h => absurd h id)))

theorem caseE : OP (Rn cfg f) caseExpression (fun a => All (Came cfg) (.caseE a)) := by
  refine .alt (.alt (.map (.seqR ((OP.seq h.ve (.seqR (.seqL h.ve))).imp fun _ hx => by exact node trivial (two hx.1 hx.2))))
      (.map (.seqR (.seqL ((OP.sepBy h.ve).imp fun _ hx => by exact node trivial (by rintro m ⟨a, ha, rfl⟩; exact hx a ha))))))
    (.seqR (.expect (.alt (.map (.seqL ((OP.seq h.ve (.seq (.plus (Q := fun w => All (Came cfg) (.simpleWhen w)) ?_)
        (.optD (.seqR (caseResult h))))).imp fun _ hx => node (by exact trivial) ?_)))
      (.map ((OP.seq (.plus (Q := fun w => All (Came cfg) (.searchedWhen w)) ?_) (.seqL (.optD (.seqR (caseResult h))))).imp
        fun _ hx => node (by exact trivial) ?_)))))
  · exact .map (.seqR ((OP.seq (.expect (.seqL h.ve)) (.seqR (.expect (caseResult h)))).imp fun _ hx => by exact node trivial (two hx.1 hx.2)))
  · rintro m (rfl | ⟨w, hw, rfl⟩ | ⟨he, rfl⟩)
    · exact hx.1
    · exact hx.2.1 w hw
    · exact hx.2.2.resolve_left he
  · exact .map (.seqR ((OP.seq (.seqL h.sc) (caseResult h)).imp fun _ hx => by exact node trivial (two hx.1 hx.2)))
  · rintro m (⟨w, hw, rfl⟩ | ⟨he, rfl⟩)
    · exact hx.1 w hw
    · exact hx.2.resolve_left he

theorem prim : OP (Rn cfg f) primary (fun a => All (Came cfg) (.prim a)) :=
  .alt (.map (.seqL (.seqR ((OP.sepBy h.ve).imp fun _ hx => by exact node trivial (by rintro m ⟨a, ha, rfl⟩; exact hx a ha)))))
    (.alt (.map (OP.any.imp fun _ _ => by exact leaf trivial fun _ h => h))
    (.alt (.map (OP.any.imp fun _ _ => by exact node trivial (one colRef)))
    (.alt (.alt (.map (OP.any.imp fun _ _ => by exact leaf trivial fun _ h => h))
      (.map ((OP.seq OP.any (.seqL (.expect (.seq OP.any h.ve)))).imp fun _ hx => by exact node trivial (one hx.2.2))))
    (.alt (.map ((caseE h).imp fun _ hx => by exact node trivial (one hx)))
    (.alt (.map (.seqR (.seqL (.expect (h.ve.imp fun _ hx => by exact node trivial (one hx))))))
    (.alt (.map (OP.any.imp fun _ _ => by exact leaf trivial fun _ h => h))
    (.alt (.map (OP.any.imp fun _ _ => by exact leaf trivial fun _ h => h))
      (.map (.seqR (.seqL (h.ve.imp fun _ hx => by exact node trivial (one hx)))))))))))) 

theorem vep : OP (Rn cfg f) valueExpressionPrimary (fun a => All (Came cfg) (.vep a)) := by
  refine .map ((OP.seq (prim h) (.star (.seqR (.seqL h.ve)))).imp fun _ hx => node (by exact trivial) ?_)
  rintro m (rfl | ⟨i, hi, rfl⟩)
  · exact hx.1
  · exact hx.2 i hi

theorem numPrim : OP (Rn cfg f) numericPrimary (fun a => All (Came cfg) (.numPrim a)) :=
  nodeOP (fun _ h => h) (.alt (.map ((numFn h).imp fun _ hx => by exact one hx)) (.map ((vep h).imp fun _ hx => by exact one hx)))

theorem factor : OP (Rn cfg f) factor (fun a => All (Came cfg) (.factor a)) :=
  .map ((OP.seq OP.any (numPrim h)).imp fun _ hx => by exact node trivial (one hx.2))

theorem venbBody : OP (Rn cfg f) venbBody (fun a => All (Came cfg) (.venb a)) := by
  refine nodeOP (fun _ h => made_nt h) (.map ((OP.seq (factor h) (.star (.map (f := fun x : Str × Factor => Term.mk x.1 x.2) (Q := fun t => All (Came cfg) (.term t))
    ((OP.seq OP.any (factor h)).imp fun _ hx => by exact node trivial (one hx.2))))).imp fun x hx => ?_))
  · rintro m (rfl | ⟨t, ht, rfl⟩)
    · exact hx.1
    · exact hx.2 t ht

theorem veBody : OP (Rn cfg f) veBody (fun a => All (Came cfg) (.ve a)) := by
  refine nodeOP (fun _ h => made_nt h) (.alt (.map (h.venb.imp fun _ hx => by exact one hx)) (.map (h.sc.imp fun _ hx => by exact one hx)))

theorem pred : OP (Rn cfg f) predicate (fun a => All (Came cfg) (.pred a)) := by
  refine nodeOP (fun _ h => h) (.alt (.map ((OP.seq h.venb (.seq OP.any h.ve)).imp fun _ hx => by exact two hx.1 hx.2.2))
    (.alt (.map ((OP.seq h.venb (.seq OP.any (.seqR (.seq h.ve (.seqR h.ve))))).imp fun _ hx => ?_))
    (.alt (.map ((OP.seq h.venb (.seq OP.any (.seqR (.alt (.map (f := Sum.inl) (Q := fun z => Sum.elim (fun q => All (Came cfg) (.subq q))
          (fun l : List VE => ∀ a ∈ l, All (Came cfg) (.ve a)) z) h.subq)
        (.map (.seqR (.seqL (.sepBy h.ve)))))))).imp fun x hx => ?_))
    (.alt (.map ((OP.seq h.venb OP.any).imp fun _ hx => by exact one hx.1))
    (.alt (.map ((OP.seq (made h.venb) (.seq OP.any (.seqR (made h.venb)))).imp fun _ hx => by exact two hx.1.2 (node (made_nb hx.2.2.1) (one hx.2.2.2))))
      (.map (.seqR (h.subq.imp fun _ hx => by exact one hx))))))))
  · rintro m (rfl | rfl | rfl)
    · exact hx.1
    · exact hx.2.2.1
    · exact hx.2.2.2
  · obtain ⟨v, n, z⟩ := x
    cases z with
    | inl q => exact two hx.1 hx.2.2
    | inr l =>
      rintro m (rfl | ⟨a, ha, rfl⟩)
      · exact hx.1
      · exact hx.2.2 a ha

theorem bp : OP (Rn cfg f) booleanPrimary (fun a => All (Came cfg) (.bp a)) :=
  nodeOP (fun _ h => h) (.alt (.map ((pred h).imp fun _ hx => by exact one hx)) (.alt (.map (.seqR (.seqL (h.sc.imp fun _ hx => by exact one hx))))
    (.map (h.venb.imp fun _ hx => by exact one hx))))

theorem bf : OP (Rn cfg f) (booleanFactor cfg.residue) (fun a => All (Came cfg) (.bf a)) :=
  nodeOP (fun _ h => h) (.map ((OP.seq OP.any (bp h)).imp fun _ hx => by exact one hx.2))

theorem scBody : OP (Rn cfg f) (scBody cfg.residue) (fun a => All (Came cfg) (.sc a)) := by
  refine nodeOP (fun _ h => made_nt h) (.alt (.map ((OP.seq (bf h) (.seq OP.any h.sc)).imp fun _ hx => by exact two hx.1 hx.2.2))
    (.map ((bf h).imp fun _ hx => by exact one hx)))

omit h in
theorem tcorr (t : TableCorr) : All (Came cfg) (.tcorr t) := leaf trivial fun _ h => h

theorem spec : OP (Rn cfg f) joinSpecification (fun a => All (Came cfg) (.spec a)) :=
  .alt (.map (.seqR (h.sc.imp fun _ hx => by exact node trivial (one hx)))) (.map (OP.any.imp fun _ _ => by exact leaf trivial fun _ h => h))

theorem suffix : OP (Rn cfg f) joinSuffix (fun a => All (Came cfg) (.suffix a)) := by
  refine nodeOP (fun _ h => h) (.map ((OP.seq OP.any (.seq OP.any (.expect (.seq h.tr (.optD (spec h)))))).imp fun _ hx => ?_))
  rintro m (rfl | ⟨he, rfl⟩)
  · exact hx.2.2.1
  · exact hx.2.2.2.resolve_left he

theorem qj : OP (Rn cfg f) qualifiedJoin (fun a => All (Came cfg) (.qj a)) := by
  refine nodeOP (fun _ h => h) (.map ((OP.seq (.alt (.map (Q := fun x => All (Came cfg) (.head x)) (.seqR (.seqL (h.jt.imp fun _ hx => by
      exact node trivial (one (node trivial (one hx)))))))
    (.map (OP.any.imp fun _ _ => by exact node trivial (one (tcorr _))))) (.plus (suffix h))).imp fun _ hx => ?_))
  rintro m (rfl | ⟨s, hs, rfl⟩)
  · exact hx.1
  · exact hx.2 s hs

theorem jtBody : OP (Rn cfg f) jtBody (fun a => All (Came cfg) (.jt a)) :=
  .alt (.map ((qj h).imp fun _ hx => by exact node trivial (one hx))) (.map (.seqR (.seqL (h.jt.imp fun _ hx => by exact node trivial (one hx)))))

theorem trBody : OP (Rn cfg f) trBody (fun a => All (Came cfg) (.tr a)) := by
  refine nodeOP (fun _ h => made_nt h) (.alt (.map (h.jt.imp fun _ hx => by exact one hx)) (.alt (.map (OP.any.imp fun _ _ => by exact one (tcorr _)))
    (.alt (.map ((OP.seq h.subq OP.any).imp fun _ hx => by exact one hx.1)) (.map (OP.any.imp fun _ _ => by exact fun _ h => absurd h id)))))

theorem select : OP (Rn cfg f) select (fun a => All (Came cfg) (.select a)) := by
  refine .map (.seqR ((OP.seq OP.any (.seq OP.any (.expect (Q := fun c => All (Came cfg) (.columns c)) ?_))).imp
    fun _ hx => by exact node trivial (one hx.2.2)))
  refine .alt (.map (OP.any.imp fun _ _ => by exact leaf trivial fun _ h => h))
    (.map ((OP.sepBy (Q := fun i => All (Came cfg) (.item i)) ?_).imp fun _ hx => by exact node trivial (by rintro m ⟨a, ha, rfl⟩; exact hx a ha)))
  exact .alt (.map ((OP.seq (.seqL h.ve) OP.any).imp fun _ hx => by exact node trivial (one hx.1)))
    (.alt (.map (OP.any.imp fun _ _ => by exact leaf trivial fun _ h => h)) (.map (h.ve.imp fun _ hx => by exact node trivial (one hx))))

theorem whereNoGeometry : OP (Rn cfg f) whereNoGeometry (fun a => All (Came cfg) (.where_ a)) :=
  .map (.seqR (h.sc.imp fun _ hx => by exact node trivial (by
    rintro m (⟨he, -⟩ | ⟨-, rfl⟩)
    · exact absurd rfl he
    · exact hx)))

theorem whereClause : OP (Rn cfg f) whereClause (fun a => All (Came cfg) (.where_ a)) := by
  refine .seqR (.expect (.alt (.map ((OP.seq (geom h) (.optD (.seqR (.expect h.sc)))).imp fun _ hx => node (by exact trivial) ?_))
    (.alt (.map (.seqR (.seqL ((geom h).imp fun _ hx => node (by exact trivial) ?_)))) (.map (h.sc.imp fun _ hx => node (by exact trivial) ?_)))))
  · rintro m (⟨-, rfl⟩ | ⟨he, rfl⟩)
    · exact hx.1
    · exact hx.2.resolve_left he
  · rintro m (⟨-, rfl⟩ | ⟨he, -⟩)
    · exact hx
    · exact absurd rfl he
  · rintro m (⟨he, -⟩ | ⟨-, rfl⟩)
    · exact absurd rfl he
    · exact hx

theorem sfwWith {w : G Where} (hw : OP (Rn cfg f) w (fun a => All (Came cfg) (.where_ a))) : OP (Rn cfg f) (sfwWith w) (fun a => All (Came cfg) (.sfw a)) := by
  refine .map ((OP.seq (select h) (.expect (.seq (.seqR (.expect (.sepBy h.tr))) (.optD hw)))).imp fun _ hx => node (by exact trivial) ?_)
  rintro m (rfl | ⟨t, ht, rfl⟩ | ⟨he, rfl⟩)
  · exact hx.1
  · exact hx.2.1 t ht
  · exact hx.2.2.resolve_left he

theorem sfwList {w : G Where} (hw : OP (Rn cfg f) w (fun a => All (Came cfg) (.where_ a))) : OP (Rn cfg f) (sfwList w) (fun a => All (Came cfg) (.sfwList a)) := by
  refine .map ((OP.seq (sfwWith h hw) (.star (.map (f := fun x : Str × SFW => Addon.mk x.1 x.2) (Q := fun t => All (Came cfg) (.addon t))
    ((OP.seq OP.any (sfwWith h hw)).imp fun _ hx => by exact node trivial (one hx.2))))).imp fun _ hx => node (by exact trivial) ?_)
  rintro m (rfl | ⟨t, ht, rfl⟩)
  · exact hx.1
  · exact hx.2 t ht

theorem group : OP (Rn cfg f) groupByTerm (fun a => All (Came cfg) (.group a)) :=
  nodeOP (fun _ h => h) (.alt (.map (h.ve.imp fun _ hx => by exact one hx)) (.map (OP.any.imp fun _ _ => by exact one colRef)))

theorem queryWith {w : G Where} (hw : OP (Rn cfg f) w (fun a => All (Came cfg) (.where_ a))) :
    OP (Rn cfg f) (queryWith w) (fun a => All (Came cfg) (.query a)) := by
  refine .map ((OP.seq (.optD (Q := fun w => All (Came cfg) (.with_ w)) (.map (.seqR ((OP.seq OP.any (.seq OP.any (.expect h.subq))).imp
      fun _ hx => by exact node trivial (one hx.2.2)))))
    (.seq (sfwList h hw) (.seq (.optD (.seqR (.seqR (.expect (.sepBy (group h)))))) (.seq (.optD (.seqR (.expect h.sc))) OP.any)))).imp
      fun x hx => node (by exact trivial) ?_)
  rintro m (⟨he, rfl⟩ | rfl | ⟨a, ha, rfl⟩ | ⟨he, rfl⟩ | ⟨⟨k, o⟩, -, rfl⟩)
  · exact hx.1.resolve_left he
  · exact hx.2.1
  · rcases hx.2.2.1 with e | hl
    · rw [e] at ha; cases ha
    · exact hl a ha
  · exact hx.2.2.2.1.resolve_left he
  · cases k with
    | inl _ => exact leaf trivial fun _ h => h
    | inr c => exact node trivial (one colRef)

theorem subqBody : OP (Rn cfg f) subqBody (fun a => All (Came cfg) (.subq a)) := by
  refine nodeOP (fun _ h => made_nt h) (.seqR (.seqL (.alt (.map ((queryWith h (whereNoGeometry h)).imp fun _ hx => by exact one hx)) (.map (h.jt.imp fun _ hx => by exact one hx)))))

omit h in
theorem succ {n : Rule} {Q : Attr n → Prop} (hb : OP (Rn cfg f) (grammar cfg n) Q) : OP (Rn cfg (f + 1)) (.nt n) Q := hb

omit h in
theorem zero {n : Rule} {Q : Attr n → Prop} : OP (Rn cfg 0) (.nt n) Q := by
  intro s a r hs
  simp [step, run] at hs

omit h in
theorem rules (cfg : Config) (f : Nat) : Rules (Rn cfg f) cfg := by
  induction f with
  | zero => exact ⟨zero, zero, zero, zero, zero, zero⟩
  | succ f h => exact ⟨succ (n := .ve) (veBody h), succ (n := .venb) (venbBody h), succ (n := .sc) (scBody h), succ (n := .subq) (subqBody h),
      succ (n := .jt) (jtBody h), succ (n := .tr) (trBody h)⟩

end Origin

/-- Every node of a parsed tree came from a text. -/
theorem came_query {cfg : Config} {s r : Str} {q : QuerySpec} (h : parseQuery cfg s = .ok q r) : All (Came cfg) (.query q) :=
  Origin.queryWith (Origin.rules cfg _) (Origin.whereClause (Origin.rules cfg _)) s q r h

end Adql
