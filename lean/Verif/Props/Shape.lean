import Verif.Spec.Alternatives
import Verif.Spec.Regular
import Verif.Props.RoundTrip

/-!
# C51: the shapes that trees of accepted queries have
-/

namespace Adql

open Spec

/-! ### Which alternatives occur -/

/-- The children of a node, as a list; parts with their default value are left out. -/
def kids : Node → List Node
  | .ve (.nb v) => [.venb v]
  | .ve (.sc s) => [.sc s]
  | .venb (.mk f ts) => .factor f :: ts.map .term
  | .term (.mk _ f) => [.factor f]
  | .factor (.mk _ np) => [.numPrim np]
  | .numPrim (.vep v) => [.vep v]
  | .numPrim (.nvf f) => [.numFn f]
  | .numFn (.trig1 _ a) => [.ve a]
  | .numFn (.trig2 _ a b) => [.ve a, .ve b]
  | .numFn (.math1 _ a) => [.ve a]
  | .numFn (.math2 _ a b) => [.ve a, .ve b]
  | .numFn (.cast e _ _) => [.ve e]
  | .numFn (.geo1 _ a) => [.pointOrCol a]
  | .numFn (.geo2 _ a b) => [.pointOrCol a, .pointOrCol b]
  | .numFn (.udf _ as) => as.map .ve
  | .vep (.mk v is) => .prim v :: is.map .ve
  | .prim (.arr vs) => vs.map .ve
  | .prim (.col c) => [.colRef c]
  | .prim (.setFn _ _ e) => [.ve e]
  | .prim (.case c) => [.caseE c]
  | .prim (.any e) => [.ve e]
  | .prim (.sub e) => [.ve e]
  | .caseE (.nullif a b) => [.ve a, .ve b]
  | .caseE (.coalesce l) => l.map .ve
  | .caseE (.simple o ws _) => .ve o :: ws.map .simpleWhen
  | .caseE (.searched ws _) => ws.map .searchedWhen
  | .simpleWhen (.mk e r) => [.ve e, .result r]
  | .searchedWhen (.mk c r) => [.sc c, .result r]
  | .result (.ve e) => [.ve e]
  | .sc (.factor b) => [.bf b]
  | .sc (.term b _ s) => [.bf b, .sc s]
  | .bf (.mk _ p) => [.bp p]
  | .bp (.pred p) => [.pred p]
  | .bp (.sc s) => [.sc s]
  | .bp (.ve v) => [.venb v]
  | .pred (.cmp l _ r) => [.venb l, .ve r]
  | .pred (.between v _ lo hi) => [.venb v, .ve lo, .ve hi]
  | .pred (.inSub v _ q) => [.venb v, .subq q]
  | .pred (.inList v _ vs) => .venb v :: vs.map .ve
  | .pred (.null v _) => [.venb v]
  | .pred (.like v _ p) => [.venb v, .ve p]
  | .pred (.exist q) => [.subq q]
  | .subq (.jt j) => [.jt j]
  | .subq (.qs q) => [.query q]
  | .jt (.qj q) => [.qj q]
  | .jt (.wrap j) => [.jt j]
  | .qj (.mk h ss) => .head h :: ss.map .suffix
  | .head (.tc t) => [.tcorr t]
  | .head (.jt j) => [.jt j]
  | .suffix (.mk _ _ t (.named [])) => [.tr t]
  | .suffix (.mk _ _ t sp) => [.tr t, .spec sp]
  | .spec (.on s) => [.sc s]
  | .tr (.tc t) => [.tcorr t]
  | .tr (.jt j) => [.jt j]
  | .tr (.derived q _) => [.subq q]
  | .gpred (.intersects e s) => [.ve e, .shapeOrCol s]
  | .gpred (.contains l r) => [.shapeOrCol l, .shapeOrCol r]
  | .geom (.left _ p) => [.gpred p]
  | .geom (.right p _) => [.gpred p]
  | .where_ (.mk g s) => (if g.isEmpty then [] else [.geom g]) ++ if s.isEmpty then [] else [.sc s]
  | .item (.as e _) => [.ve e]
  | .item (.nonAsVE e) => [.ve e]
  | .columns (.items l) => l.map .item
  | .select (.mk _ _ c) => [.columns c]
  | .sfw (.mk s ts w) => .select s :: (ts.map .tr ++ if w.isEmpty then [] else [.where_ w])
  | .addon (.mk _ s) => [.sfw s]
  | .sfwList (.mk i as) => .sfw i :: as.map .addon
  | .group (.col c) => [.colRef c]
  | .group (.ve e) => [.ve e]
  | .with_ (.mk _ _ q) => [.subq q]
  | .query (.mk w l g h o) => (if w.isEmpty then [] else [.with_ w]) ++ .sfwList l :: (g.map .group ++
      ((if h.isEmpty then [] else [.sc h]) ++ o.map .sort))
  | .sort ⟨.inr c, _⟩ => [.colRef c]
  | .coordExpr (.col c) => [.colRef c]
  | .coord c => [.coordExpr c.ra, .coordExpr c.dec]
  | .point p => [.coord p.coord]
  | .shape (.point p) => [.point p]
  | .shape (.circle _ c r) => [.coord c, .coordExpr r]
  | .shape (.box _ c w h) => [.coord c, .coordExpr w, .coordExpr h]
  | .shape (.ellipse _ c a b g) => [.coord c, .coordExpr a, .coordExpr b, .coordExpr g]
  | .shape (.polygon _ cs) => cs.map .coord
  | .pointOrCol (.point p) => [.point p]
  | .pointOrCol (.col c) => [.colRef c]
  | .shapeOrCol (.shape s) => [.shape s]
  | .shapeOrCol (.col c) => [.colRef c]
  | _ => []

theorem kids_child {n m : Node} (h : m ∈ kids n) : Node.child n m := by
  cases n with
  | where_ x =>
    obtain ⟨g, s⟩ := x
    simp only [kids, List.mem_append] at h
    rcases h with h | h
    · split at h
      · cases h
      · rename_i hg
        refine .inl ⟨?_, List.mem_singleton.1 h⟩
        rintro rfl; exact hg rfl
    · split at h
      · cases h
      · rename_i hg
        refine .inr ⟨?_, List.mem_singleton.1 h⟩
        rintro rfl; exact hg rfl
  | sfw x =>
    obtain ⟨s, ts, w⟩ := x
    simp only [kids, List.mem_append, List.mem_cons, List.mem_map] at h
    rcases h with h | ⟨t, h1, rfl⟩ | h
    · exact .inl h
    · exact .inr (.inl ⟨t, h1, rfl⟩)
    · split at h
      · cases h
      · rename_i hg
        refine .inr (.inr ⟨?_, List.mem_singleton.1 h⟩)
        rintro rfl; exact hg rfl
  | query x =>
    obtain ⟨w, l, g, hv, o⟩ := x
    simp only [kids, List.mem_append, List.mem_cons, List.mem_map] at h
    rcases h with h | h | ⟨t, h1, rfl⟩ | h | ⟨t, h1, rfl⟩
    · split at h
      · cases h
      · rename_i hg
        refine .inl ⟨?_, List.mem_singleton.1 h⟩
        rintro rfl; exact hg rfl
    · exact .inr (.inl h)
    · exact .inr (.inr (.inl ⟨t, h1, rfl⟩))
    · split at h
      · cases h
      · rename_i hg
        refine .inr (.inr (.inr (.inl ⟨?_, List.mem_singleton.1 h⟩)))
        rintro rfl; exact hg rfl
    · exact .inr (.inr (.inr (.inr ⟨t, h1, rfl⟩)))
  | suffix x =>
    obtain ⟨n, ty, t, sp⟩ := x
    match sp, h with
    | .named [], h => exact .inl (List.mem_singleton.1 h)
    | .named (a :: l), h =>
      simp only [kids, List.mem_cons, List.not_mem_nil, or_false] at h
      exact h.imp id fun h => ⟨nofun, h⟩
    | .on c, h =>
      simp only [kids, List.mem_cons, List.not_mem_nil, or_false] at h
      exact h.imp id fun h => ⟨nofun, h⟩
  | sort x =>
    obtain ⟨k, o⟩ := x
    cases k with
    | inl => cases h
    | inr => exact List.mem_singleton.1 h
  | coord x => simpa [kids, Node.child] using h
  | point x => simpa [kids, Node.child] using h
  | tcorr x => cases h
  | _ x =>
    cases x <;> simp [kids, Node.child, eq_comm] at h ⊢ <;> try (first | exact h | exact .inl h | (rcases h with h | h <;> simp [h]))

/-- The alternatives used down to the given depth. -/
def used : Nat → Node → List Choice
  | 0, _ => []
  | k + 1, n => altsOf n ++ (kids n).flatMap (used k)

theorem used_sub : ∀ {k : Nat} {n : Node} {a : Choice}, a ∈ used k n → ∃ m, Sub m n ∧ a ∈ altsOf m
  | 0, _, _, h => absurd h (by simp [used])
  | k + 1, n, a, h => by
    rcases List.mem_append.1 h with h | h
    · exact ⟨n, .refl n, h⟩
    · obtain ⟨c, hc, h⟩ := List.mem_flatMap.1 h
      obtain ⟨m, h1, h2⟩ := used_sub h
      exact ⟨m, .step (kids_child hc) h1, h2⟩

/-- the alternatives in the tree of a text -/
def usedBy (cfg : Config) (s : Str) : List Choice :=
  match construct cfg s with
  | .ok q => used 200 (.query q)
  | .error _ => []

theorem usedBy_sub {cfg : Config} {s : Str} {a : Choice} (h : a ∈ usedBy cfg s) :
    ∃ q, construct cfg s = .ok q ∧ ∃ m, Sub m (.query q) ∧ a ∈ altsOf m := by
  unfold usedBy at h
  split at h
  · rename_i q hq
    exact ⟨q, hq, used_sub h⟩
  · cases h

/-- texts with all alternatives -/
def allTexts : List Str :=
  [cs!"SELECT NOT a, c.s.t.x, a.b FROM t WHERE EXISTS (a JOIN b) AND a IS NULL ORDER BY 1, a.b.c, d",
   cs!"SELECT sin(a), atan2(a,b), pi(), abs(a), mod(a,b), cast(a AS integer), f(a), coord1(POINT('J2000',1,2)), distance(p,POINT('J2000',a,b)), ARRAY[1], ANY(a), (a), NULLIF(a,b), COALESCE(a,b), CASE a WHEN 1 THEN 2 END, CASE WHEN a > 1 THEN NULL END, COUNT(*), AVG(a), CURRENT_TIMESTAMP FROM t",
   cs!"SELECT * FROM t WHERE CONTAINS(POINT('J2000',1+2,a),CIRCLE('J2000',1,2,3))=1",
   cs!"SELECT t.* FROM t LEFT JOIN u ON a=b, (t JOIN u USING (id)) JOIN v, table(f('a')) WHERE INTERSECTS(p,BOX('ICRS',1,2,3,4))=1",
   cs!"SELECT a FROM t WHERE CONTAINS(p,ELLIPSE('ICRS',1,2,3,4,5))=1",
   cs!"SELECT a AS b FROM t WHERE 1=CONTAINS(p,POLYGON('J2000',1,2,3,4,5,6)) AND a LIKE 'b' AND a BETWEEN 1 AND 2 AND a IN (1) AND a IN (SELECT a FROM (SELECT b FROM c) AS d) AND (b) AND c GROUP BY a"]

/-- the alternatives that no text reaches -/
def deadChoices : List Choice := [.reString, .gbColumn]

/-- the other ones -/
def liveChoices : List Choice := (allTexts.map (usedBy ⟨fun _ => none, false⟩)).flatten

theorem live_all : ∀ a : Choice, (deadChoices ++ liveChoices).contains a = true := by
  have h : ((List.range 83).all fun n => (deadChoices ++ liveChoices).contains (Choice.ofNat n)) = true := by kernel_rfl
  intro a
  rw [List.all_eq_true] at h
  have := h a.ctorIdx (by cases a <;> decide)
  rwa [Choice.ofNat_ctorIdx] at this

theorem choice_result {m : Node} (h : Choice.reString ∈ altsOf m) : ∃ x, m = .result (.str x) := by
  unfold altsOf at h
  split at h <;> first | exact ⟨_, rfl⟩ | simp at h

theorem choice_group {m : Node} (h : Choice.gbColumn ∈ altsOf m) : ∃ x, m = .group (.col x) := by
  unfold altsOf at h
  split at h <;> first | exact ⟨_, rfl⟩ | simp at h

/-- **C51**, alternatives: the classes of a query hold variants with 83 alternatives.  Every one of them is used in the
tree of an accepted text, except two: the string alternative of the result of a CASE (a `NULL` is read as an expression
first) and the column alternative of a GROUP BY term (a column is read as an expression first). -/
theorem C51_alternatives (a : Choice) :
    (∃ cfg s q m, construct cfg s = .ok q ∧ Sub m (.query q) ∧ a ∈ altsOf m) ↔ a ≠ .reString ∧ a ≠ .gbColumn := by
  constructor
  · rintro ⟨cfg, s, q, m, h, hs, ha⟩
    have hc := construct_came h m hs
    constructor
    · rintro rfl
      obtain ⟨x, rfl⟩ := choice_result ha
      exact Reach.made_result hc
    · rintro rfl
      obtain ⟨x, rfl⟩ := choice_group ha
      exact Reach.made_group hc
  · rintro ⟨h1, h2⟩
    have := live_all a
    rw [List.contains_iff_mem, List.mem_append] at this
    rcases this with h | h
    · simp [deadChoices, h1, h2] at h
    · obtain ⟨l, hl, ha⟩ := List.mem_flatten.1 h
      obtain ⟨s, -, rfl⟩ := List.mem_map.1 hl
      obtain ⟨q, hq, m, hm, ha⟩ := usedBy_sub ha
      exact ⟨_, s, q, m, hq, hm, ha⟩

/-- **C51**, non-trivial case: the result of this CASE is not the string alternative, although the text says NULL. -/
example : .reValue ∈ usedBy ⟨fun _ => none, false⟩ cs!"SELECT CASE WHEN a>1 THEN NULL END FROM t" ∧
    .reString ∉ usedBy ⟨fun _ => none, false⟩ cs!"SELECT CASE WHEN a>1 THEN NULL END FROM t" := by
  constructor
  · have : (usedBy ⟨fun _ => none, false⟩ cs!"SELECT CASE WHEN a>1 THEN NULL END FROM t").contains .reValue = true := by kernel_rfl
    exact List.contains_iff_mem.1 this
  · intro h
    obtain ⟨q, h1, m, h2, h3⟩ := usedBy_sub h
    exact ((C51_alternatives .reString).1 ⟨_, _, q, m, h1, h2, h3⟩).1 rfl

/-! ### How values, conditions and joins are attached -/

theorem came_attached {cfg : Config} {m : Node} (h : Came cfg m) : Attached m := by
  unfold Attached
  split
  · exact Reach.made_between h
  · exact Reach.made_like h
  · exact Reach.made_term h
  · exact Reach.made_row h
  · trivial

/-- **C51**, attachment: at every depth of the tree of an accepted text, the lower bound of a BETWEEN and the pattern
of a LIKE are expressions, what follows a condition as a value belongs to the value, a join that begins another join
is in parentheses, a specification belongs to the last join before it that has none, and no further join follows a
table that could have taken it. -/
theorem C51_attached (cfg : Config) (s : Str) (q : QuerySpec) (h : construct cfg s = .ok q) : All Attached (.query q) :=
  fun m hm => came_attached (construct_came h m hm)

/-- **C51**, attachment, for a parser that resets a failed optional: moreover a condition as a value does not begin
with an expression, and no INNER follows an expression that is a condition by itself. -/
theorem C51_attached_strict (cfg : Config) (hr : cfg.residue = false) (s : Str) (q : QuerySpec) (h : construct cfg s = .ok q) :
    All AttachedStrict (.query q) := by
  have hq : ∀ n, All (Reach.NoNot cfg) n := by
    intro n m _
    unfold Reach.NoNot
    split
    · intro h; rw [hr] at h; cases h
    · trivial
  intro m hm
  have hc := construct_came h m hm
  unfold AttachedStrict
  split
  · exact Reach.made_cond hc (hq _)
  · exact Reach.made_qj hc fun _ _ => hq _
  · exact came_attached hc

/-- **C51**, non-trivial case: the theorems apply to a text with most of the constructs. -/
example : ∃ q, construct oneMap richText = .ok q ∧ All Attached (.query q) ∧ All AttachedStrict (.query q) := by
  obtain ⟨q, hq⟩ := richText_accepted
  exact ⟨q, hq, C51_attached _ _ _ hq, C51_attached_strict _ rfl _ _ hq⟩

/-- `Attached` refuses trees that the classes can represent: `a JOIN b JOIN c` with both joins in one row. -/
example : ¬ Attached (.qj (.mk (.tc ⟨cs!"a", []⟩) [.mk false (.str []) (.tc ⟨cs!"b", []⟩) JoinSpec.dflt,
    .mk false (.str []) (.tc ⟨cs!"c", []⟩) JoinSpec.dflt])) := by
  rintro ⟨-, -, h, -⟩
  rcases h with h | h <;> cases h

/-- It accepts the row when the first table is a function. -/
example : Attached (.qj (.mk (.tc ⟨cs!"a", []⟩) [.mk false (.str []) (.tvf cs!"f" [cs!"x"]) JoinSpec.dflt,
    .mk false (.str []) (.tc ⟨cs!"c", []⟩) JoinSpec.dflt])) := ⟨nofun, nofun, .inr rfl, nofun⟩

/-- the condition `(NOT NOTa < 1)` -/
def oddCond : SC :=
  .factor (.mk [] (.sc (.factor (.mk cs!"NOT" (.pred (.cmp (.mk (.mk [] (.vep (.mk (.col (.col cs!"NOTa")) []))) []) cs!"<" (.nb (.mk (.mk [] (.vep (.mk (.str cs!"1") []))) []))))))))

/-- The hypothesis of `C51_attached_strict` is needed: with the residue of a failed optional the condition `NOTa < 1` is
negated, and the tree says that its text begins with an expression. -/
example : ∃ q m, construct ⟨fun _ => none, true⟩ cs!"SELECT (NOTa < 1) FROM t" = .ok q ∧ Sub m (.query q) ∧ ¬ AttachedStrict m := by
  refine ⟨.mk With.dflt (.mk (.mk (.mk [] (2 ^ 64 - 1) (.items [.nonAsVE (.sc oddCond)])) [.tc ⟨cs!"t", []⟩] Where.dflt) []) [] SC.dflt [],
    .ve (.sc oddCond), by kernel_rfl, ?_, ?_⟩
  · exact .step (.inr (.inl rfl)) (.step (.inl rfl) (.step (.inl rfl) (.step rfl (.step ⟨.nonAsVE (.sc oddCond), by simp, rfl⟩ (.step rfl (.refl _))))))
  · intro h; cases h

end Adql
