import Verif.Model.Reprint
import Verif.Spec.Regular

/-!
# Every regular tree is spelt by a text of the core language

For a tree with the documented contents (`Ranges`), without geometry in subqueries (`NoGeometry`) and
without the exceptions of `Regular`, a text of the core language with exactly this tree is put together, with
one blank before every token.
-/

namespace Adql.Fwd

open Spec

/-! ### Any name of a table as an uploaded table -/

/-- quotes doubled -/
def escQ : Str → Str
  | [] => []
  | c :: t => if c = '"' then '"' :: '"' :: escQ t else c :: escQ t

theorem escQ_body : ∀ y, QBody '"' (escQ y)
  | [] => .nil
  | c :: t => by
    unfold escQ
    split
    · exact .dbl (escQ_body t)
    · next h => exact .chr h (escQ_body t)

theorem escQ_inj : ∀ {x y}, escQ x = escQ y → x = y
  | [], [], _ => rfl
  | [], c :: t, h => by
    unfold escQ at h
    split at h <;> cases h
  | c :: t, [], h => by
    unfold escQ at h
    split at h <;> cases h
  | c :: t, d :: u, h => by
    unfold escQ at h
    split at h <;> split at h
    · next h1 h2 =>
      injection h with _ h
      injection h with _ h
      rw [h1, h2, escQ_inj h]
    · next h1 h2 =>
      injection h with h _
      exact absurd h.symm h2
    · next h1 h2 =>
      injection h with h _
      exact absurd h h1
    · injection h with h0 h
      rw [h0, escQ_inj h]

/-- a delimited name for every text -/
def upName (y : Str) : Str := '"' :: escQ y ++ ['"']

theorem upName_inj {x y : Str} (h : upName x = upName y) : x = y :=
  escQ_inj (List.append_cancel_right (List.tail_eq_of_cons_eq h))

theorem upName_part {y : Str} (h : y ≠ []) : Part (upName y) := by
  refine .inr ⟨escQ y, rfl, ?_, escQ_body y⟩
  cases y with
  | nil => exact absurd rfl h
  | cons c t =>
    unfold escQ
    split <;> simp

open Classical in
/-- The language in which every name of a table is also the name of an uploaded table. -/
noncomputable def anyUp (nots : Bool) : Mode := ⟨true, fun x => if h : ∃ y, TabName y ∧ x = upName y then some h.choose else none, nots⟩

variable {nt : Bool}

open Classical in
theorem anyUp_upName {y : Str} (h : TabName y) : (anyUp nt).up (upName y) = some y := by
  have hx : ∃ z, TabName z ∧ upName y = upName z := ⟨y, h, rfl⟩
  show dite _ _ _ = _
  rw [dif_pos hx]
  exact congrArg some (upName_inj hx.choose_spec.2).symm

instance : Prints (anyUp nt) := ⟨rfl, by
  intro x y h
  unfold anyUp at h
  simp only at h
  split at h
  · next hx => exact Option.some.inj h ▸ hx.choose_spec.1
  · cases h⟩

theorem tabName_ne {y : Str} (h : TabName y) : y ≠ [] := by
  cases h with
  | one h => intro e; subst e; exact absurd (nameT_ne h) (by simp)
  | two => simp
  | three => simp

/-! ### Pieces -/

/-- Some text that starts with a blank spells it. -/
def Sp {α : Type} (R : Str → α → Prop) (x : α) : Prop := ∃ s, BlankFirst s ∧ R s x

theorem bfc (s : Str) : BlankFirst (' ' :: s) := ⟨' ', s, rfl, rfl⟩
theorem tk (w : Str) : Tok w (' ' :: w) := ⟨[' '], bl1, rfl⟩
theorem kwb {w t : Str} (h : SameCI t w) : Spec.Kw w (' ' :: t) t := ⟨[' '], bl1, rfl, h⟩
theorem wdb {w t : Str} (h : SameCI t w) : Word w (' ' :: t) t := ⟨kwb h, bfc t⟩
theorem wd (w : Str) : Word w (' ' :: w) w := wdb rfl
theorem kwi {ws : List Str} {t : Str} (h : OneOf ws t) : KwIn ws (' ' :: t) t := by
  obtain ⟨w, hw, h⟩ := h
  exact ⟨w, hw, kwb h⟩
theorem wdi {ws : List Str} {t : Str} (h : OneOf ws t) : WordIn ws (' ' :: t) t := by
  obtain ⟨w, hw, h⟩ := h
  exact ⟨w, hw, wdb h⟩

/-- What is assumed of every node. -/
def Reg (nt : Bool) (M : Str → Prop) (n : Node) : Prop := Ranges M n ∧ NoGeometry n ∧ Regular nt n

variable {M : Str → Prop}

theorem _root_.Adql.Spec.All.here {K : Node → Prop} {n : Node} (h : All K n) : K n := h _ (.refl _)
theorem _root_.Adql.Spec.All.sub {K : Node → Prop} {n m : Node} (h : All K n) (hc : Node.child n m) : All K m := (all_iff.1 h).2 _ hc

theorem nameable_free {x : Str} (h : Nameable x) (ho : OtherName x) : Free x := fun hr => (h hr).resolve_right ho

theorem name_part {x : Str} (h : Name x) (ho : OtherName x) : Part x := h.imp_left fun h => ⟨h.1, nameable_free h.2 ho⟩

theorem name_first {x : Str} (h : Name x) (ho : FirstName x) : NameT x :=
  h.imp_left fun h => ⟨h.1, nameable_free h.2 ho.1, ho.2.1, ho.2.2⟩

theorem udf_name {x : Str} (h : (IdentShape x ∧ Nameable x) ∨
    OneOf [cs!"RIGHT", cs!"LEFT", cs!"UPPER", cs!"LOWER", cs!"DISTINCT", cs!"TRIM"] x) (ho : CallName x)
    (hd : ¬ SameCI x cs!"DISTINCT") : FnName x ∨ OneOf fnNames x := by
  rcases h with h | ⟨w, hw, h⟩
  · exact .inl ⟨h.1, nameable_free h.2 ho.1, ho.2.1, ho.2.2⟩
  · simp only [List.mem_cons, List.not_mem_nil, or_false] at hw
    rcases hw with rfl | rfl | rfl | rfl | rfl | rfl
    all_goals first | exact absurd h hd | exact .inr ⟨_, by simp [fnNames], h⟩

theorem sp_col {c : ColRef} (h : All (Reg nt M) (.colRef c)) : Sp (ColT (anyUp nt)) c := by
  obtain ⟨h0, -, h⟩ := All.here h
  cases c with
  | col a => exact ⟨_, bfc _, .col (tk a) (name_first h0 h)⟩
  | qc a b => exact ⟨_, bfc _, .up (tk (cs!"TAP_UPLOAD." ++ upName a)) ⟨upName_part (tabName_ne h.1), anyUp_upName h.1⟩ (tk cs!".") (tk b) (name_part h0.2 h.2)⟩
  | sqc a b c => exact ⟨_, bfc _, .sqc (tk a) (name_first h0.1 h.1) (tk cs!".") (tk b) (name_part h0.2.1 h.2.1) (tk cs!".") (tk c)
      (name_part h0.2.2 h.2.2)⟩
  | csqc a b c d => exact ⟨_, bfc _, .csqc (tk a) (name_first h0.1 h.1) (tk cs!".") (tk b) (name_part h0.2.1 h.2.1) (tk cs!".") (tk c)
      (name_part h0.2.2.1 h.2.2.1) (tk cs!".") (tk d) (name_part h0.2.2.2 h.2.2.2)⟩

theorem sp_coordExpr {x : CoordExpr} (h : All (Reg nt M) (.coordExpr x)) : Sp (CoordT (anyUp nt)) x := by
  cases x with
  | col c =>
    obtain ⟨s, h1, h2⟩ := sp_col (h.sub rfl)
    exact ⟨s, h1, .col h2⟩
  | num x =>
    obtain ⟨-, -, h⟩ := All.here h
    exact ⟨_, bfc _, .num (tk x) h.1 h.2⟩
  | bae x o y =>
    obtain ⟨h1, -, h⟩ := All.here h
    have ho : o ∈ ['+', '-', '*', '/'] := by
      rcases h1 with rfl | rfl | rfl | rfl <;> decide
    exact ⟨_, bfc _, .op (tk x) h.1 ho (tk [o]) (tk y) h.2⟩

theorem sp_coord {x : Coord} (h : All (Reg nt M) (.coord x)) : Sp (PairT (anyUp nt)) x := by
  obtain ⟨s, h1, h2⟩ := sp_coordExpr (h.sub (.inl rfl))
  obtain ⟨t, -, h4⟩ := sp_coordExpr (h.sub (.inr rfl))
  exact ⟨_, blankFirst_append h1, .mk h2 (tk cs!",") h4⟩

theorem sp_more {x : CoordExpr} (h : All (Reg nt M) (.coordExpr x)) : Sp (MoreT (anyUp nt)) x := by
  obtain ⟨s, -, h2⟩ := sp_coordExpr h
  exact ⟨_, blankFirst_append (bfc _), .mk (tk cs!",") h2⟩

theorem sp_pairs : ∀ {l : List Coord}, l ≠ [] → (∀ c ∈ l, All (Reg nt M) (.coord c)) → Sp (PairsT (anyUp nt)) l
  | [], h, _ => absurd rfl h
  | [x], _, h => by
    obtain ⟨s, h1, h2⟩ := sp_coord (h x (by simp))
    exact ⟨s, h1, .one h2⟩
  | x :: y :: l, _, h => by
    obtain ⟨s, h1, h2⟩ := sp_coord (h x (by simp))
    obtain ⟨t, -, h4⟩ := sp_pairs (l := y :: l) (by simp) fun c hc => h c (by simp [hc])
    exact ⟨_, blankFirst_append h1, .cons h2 (tk cs!",") h4⟩

theorem sp_head (w : Str) (c : CoordSys) : Sp (ShapeHead w) c := by
  have hs : Spec.SysText ('\'' :: (c.print ++ ['\''])) c := by
    obtain ⟨f, p⟩ := c
    have hf : Spec.FrameText f.print f := by
      cases f with
      | j2000 => exact .j2000 rfl
      | icrs => exact .icrs rfl
      | galactic => exact .galactic rfl
    have hp : Spec.PosText p.print p := by
      cases p with
      | geocenter => exact .geocenter rfl
    have := Spec.SysText.mk (b₁ := []) (b₂ := [' ']) (b₃ := []) nofun hf bl1 hp nofun
    simpa [CoordSys.print] using this
  exact ⟨_, blankFirst_append (bfc _), .mk (kwb rfl) (tk cs!"(") (.some (b := []) nofun hs (tk cs!","))⟩

theorem sp_point {x : Point} (h : All (Reg nt M) (.point x)) : Sp (PointT (anyUp nt)) x := by
  obtain ⟨s, h1, h2⟩ := sp_head cs!"POINT" x.sys
  obtain ⟨t, -, h4⟩ := sp_coord (h.sub rfl)
  exact ⟨_, blankFirst_append h1, .mk h2 h4 (tk cs!")")⟩

theorem sp_shape {x : Shape} (h : All (Reg nt M) (.shape x)) : Sp (ShapeT (anyUp nt)) x := by
  cases x with
  | point p =>
    obtain ⟨s, h1, h2⟩ := sp_point (h.sub rfl)
    exact ⟨_, h1, .point h2⟩
  | circle c x r =>
    obtain ⟨s, h1, h2⟩ := sp_head cs!"CIRCLE" c
    obtain ⟨t, -, h4⟩ := sp_coord (h.sub (.inl rfl))
    obtain ⟨u, -, h5⟩ := sp_more (h.sub (.inr rfl))
    exact ⟨_, blankFirst_append h1, .circle h2 h4 h5 (tk cs!")")⟩
  | box c x r r' =>
    obtain ⟨s, h1, h2⟩ := sp_head cs!"BOX" c
    obtain ⟨t, -, h4⟩ := sp_coord (h.sub (.inl rfl))
    obtain ⟨u, -, h5⟩ := sp_more (h.sub (.inr (.inl rfl)))
    obtain ⟨v, -, h6⟩ := sp_more (h.sub (.inr (.inr rfl)))
    exact ⟨_, blankFirst_append h1, .box h2 h4 h5 h6 (tk cs!")")⟩
  | ellipse c x r r' r'' =>
    obtain ⟨s, h1, h2⟩ := sp_head cs!"ELLIPSE" c
    obtain ⟨t, -, h4⟩ := sp_coord (h.sub (.inl rfl))
    obtain ⟨u, -, h5⟩ := sp_more (h.sub (.inr (.inl rfl)))
    obtain ⟨v, -, h6⟩ := sp_more (h.sub (.inr (.inr (.inl rfl))))
    obtain ⟨w, -, h7⟩ := sp_more (h.sub (.inr (.inr (.inr rfl))))
    exact ⟨_, blankFirst_append h1, .ellipse h2 h4 h5 h6 h7 (tk cs!")")⟩
  | polygon c l =>
    obtain ⟨s, h1, h2⟩ := sp_head cs!"POLYGON" c
    obtain ⟨t, -, h4⟩ := sp_pairs (M := M) (All.here h).1 fun c hc => h.sub ⟨c, hc, rfl⟩
    exact ⟨_, blankFirst_append h1, .polygon h2 h4 (tk cs!")")⟩

theorem sp_pointCol {x : PointOrCol} (h : All (Reg nt M) (.pointOrCol x)) : Sp (PointColT (anyUp nt)) x := by
  cases x with
  | point p =>
    obtain ⟨s, h1, h2⟩ := sp_point (h.sub rfl)
    exact ⟨_, h1, .point h2⟩
  | col c =>
    obtain ⟨s, h1, h2⟩ := sp_col (h.sub rfl)
    exact ⟨_, h1, .col h2⟩

theorem sp_shapeCol {x : ShapeOrCol} (h : All (Reg nt M) (.shapeOrCol x)) : Sp (ShapeColT (anyUp nt)) x := by
  cases x with
  | shape p =>
    obtain ⟨s, h1, h2⟩ := sp_shape (h.sub rfl)
    exact ⟨_, h1, .shape h2⟩
  | col c =>
    obtain ⟨s, h1, h2⟩ := sp_col (h.sub rfl)
    exact ⟨_, h1, .col h2⟩

theorem sp_names : ∀ {l : List Str}, l ≠ [] → (∀ c ∈ l, Part c) → Sp NamesT l
  | [], h, _ => absurd rfl h
  | [x], _, h => ⟨_, bfc _, .one (tk x) (h x (by simp))⟩
  | x :: y :: l, _, h => by
    obtain ⟨t, -, h4⟩ := sp_names (l := y :: l) (by simp) fun c hc => h c (by simp [hc])
    exact ⟨_, blankFirst_append (bfc _), .cons (tk x) (h x (by simp)) (tk cs!",") h4⟩

theorem sp_fnArgs : ∀ {l : List Str}, l ≠ [] → (∀ c ∈ l, PQName c) → Sp FnArgsT l
  | [], h, _ => absurd rfl h
  | [x], _, h => ⟨_, bfc _, .one (tk x) (h x (by simp))⟩
  | x :: y :: l, _, h => by
    obtain ⟨t, -, h4⟩ := sp_fnArgs (l := y :: l) (by simp) fun c hc => h c (by simp [hc])
    exact ⟨_, blankFirst_append (bfc _), .cons (tk x) (h x (by simp)) (tk cs!"','") h4⟩

theorem sp_not {n : Str} (h : n = [] ∨ SameCI n cs!"NOT") : ∃ k, NotT k n := by
  rcases h with rfl | h
  · exact ⟨_, .none⟩
  · exact ⟨_, .some (wdb h)⟩

theorem sp_in {n : Str} (h : n = [] ∨ ∃ w c, n = w ++ [c] ∧ SameCI w cs!"NOT" ∧ isSpace c = true) : ∃ k, InT k n := by
  rcases h with rfl | ⟨w, c, rfl, h, hc⟩
  · exact ⟨_, .plain (wd cs!"IN")⟩
  · exact ⟨_, .not (wdb h) hc (kwb (t := cs!"IN") rfl)⟩

theorem sp_alias {x : Str} (h : x = [] ∨ Part x) : ∃ a, AliasT a x := by
  rcases h with rfl | h
  · exact ⟨_, .none⟩
  · exact ⟨_, .some (.name (tk x) (bfc _) h)⟩

theorem sp_tcorr {t : TableCorr} (h : All (Reg nt M) (.tcorr t)) : Sp (TcT (anyUp nt)) t := by
  obtain ⟨h0, -, h⟩ := All.here h
  obtain ⟨a, ha⟩ := sp_alias (h0.2.imp_right fun h' => name_part h' h.2)
  exact ⟨_, blankFirst_append (bfc _), .mk (tk t.name) h.1 ha⟩

theorem sp_jtype {b : Bool} {ty : JoinType} {t : TR} {sp : JoinSpec} (h : Ranges M (.suffix (.mk b ty t sp))) :
    ∃ i y, JTypeT i y ty ∧ (i && !b) = startsInner (.mk b ty t sp) := by
  cases ty with
  | str s =>
    rcases h with rfl | h
    · exact ⟨_, _, .none, by cases b <;> rfl⟩
    · refine ⟨_, _, .inner (wdb h), ?_⟩
      cases s with
      | nil => cases h
      | cons c s => cases b <;> rfl
  | outer t o =>
    have ho : ∃ u, OuterT u o := by
      cases o with
      | false => exact ⟨_, .none⟩
      | true => exact ⟨_, .some (wd cs!"OUTER")⟩
    obtain ⟨u, ho⟩ := ho
    exact ⟨_, _, .outer (wdi h) ho, by cases b <;> rfl⟩

theorem sp_sort {x : SortSpec} (h : All (Reg nt M) (.sort x)) : Sp (SortT (anyUp nt)) x := by
  obtain ⟨k, o⟩ := x
  obtain ⟨⟨h1, h2⟩, -⟩ := All.here h
  have ho : ∃ k, DirT k o := by
    rcases h1 with rfl | h1
    · exact ⟨_, .none⟩
    · exact ⟨_, .some (wdi h1)⟩
  obtain ⟨k', ho⟩ := ho
  cases k with
  | inl d => exact ⟨_, blankFirst_append (bfc _), .num (tk d) (h2 d rfl) ho⟩
  | inr c =>
    obtain ⟨s, h1, h2⟩ := sp_col (h.sub rfl)
    exact ⟨_, blankFirst_append h1, .col h2 ho⟩

theorem sp_sorts : ∀ {l : List SortSpec}, l ≠ [] → (∀ c ∈ l, All (Reg nt M) (.sort c)) → Sp (SortsT (anyUp nt)) l
  | [], h, _ => absurd rfl h
  | [x], _, h => by
    obtain ⟨s, h1, h2⟩ := sp_sort (h x (by simp))
    exact ⟨s, h1, .one h2⟩
  | x :: y :: l, _, h => by
    obtain ⟨s, h1, h2⟩ := sp_sort (h x (by simp))
    obtain ⟨t, -, h4⟩ := sp_sorts (l := y :: l) (by simp) fun c hc => h c (by simp [hc])
    exact ⟨_, blankFirst_append h1, .cons h2 (tk cs!",") h4⟩

theorem sp_order {l : List SortSpec} (h : ∀ c ∈ l, All (Reg nt M) (.sort c)) : ∃ s, OrderT (anyUp nt) s l := by
  cases l with
  | nil => exact ⟨_, .none⟩
  | cons x l =>
    obtain ⟨s, h1, h2⟩ := sp_sorts (M := M) (l := x :: l) (by simp) h
    exact ⟨_, .some (wd cs!"ORDER") (wd cs!"BY") h1 h2⟩

theorem sp_quant {q : Str} (h : q = [] ∨ OneOf [cs!"DISTINCT", cs!"ALL"] q) : ∃ s, QuantT s q := by
  rcases h with rfl | h
  · exact ⟨_, .none⟩
  · exact ⟨_, .some (wdi h)⟩

theorem sp_top {n : Nat} (h : n ≤ topMax) : ∃ s, TopT s n := by
  obtain ⟨h1, h2, -⟩ := C19_decimal n
  have := TopT.some (wd cs!"TOP") (tk (decDigits n)) (bfc _) h1 (by rw [h2]; unfold topMax at h; omega)
  rw [h2] at this
  exact ⟨_, this⟩

theorem sp_len {n : Str} (h : n = [] ∨ Digits n) : ∃ s, LenT s n := by
  rcases h with rfl | h
  · exact ⟨_, .none⟩
  · exact ⟨_, .some (tk cs!"(") (tk n) h (tk cs!")")⟩

theorem sp_cols {l : List Str} (h : ∀ c ∈ l, Part c) : ∃ s, WColsT s l := by
  cases l with
  | nil => exact ⟨_, .none⟩
  | cons x l =>
    obtain ⟨s, -, h2⟩ := sp_names (l := x :: l) (by simp) h
    exact ⟨_, .some (tk cs!"(") h2 (tk cs!")")⟩

theorem lower_sym {c d : Char} (h : lowerC c = d) (hd : d.toNat < 65) : c = d := by
  have := congrArg Char.toNat h
  rw [lowerC_toNat] at this
  refine Char.ext (UInt32.toNat_inj.1 ?_)
  show c.toNat = d.toNat
  split at this <;> omega

theorem countStar_split {s : Str} (h : SameCI s cs!"COUNT(*)") : ∃ t, s = t ++ cs!"(*)" ∧ SameCI t cs!"COUNT" := by
  have h : s.map lowerC = cs!"count" ++ cs!"(*)" := h
  obtain ⟨t, u, rfl, h1, h2⟩ := List.map_eq_append_iff.1 h
  obtain ⟨x, u, rfl, hx, h2⟩ := List.map_eq_cons_iff.1 h2
  obtain ⟨y, u, rfl, hy, h2⟩ := List.map_eq_cons_iff.1 h2
  obtain ⟨z, u, rfl, hz, h2⟩ := List.map_eq_cons_iff.1 h2
  obtain rfl := List.map_eq_nil_iff.1 h2
  exact ⟨t, by rw [lower_sym hx (by decide), lower_sym hy (by decide), lower_sym hz (by decide)], h1⟩

theorem parenFirst_eq (v : VENB) : parenFirst v = startsParen v := by
  obtain ⟨⟨s, p⟩, ts⟩ := v
  cases s with
  | cons => rfl
  | nil =>
    cases p with
    | nvf => rfl
    | vep v =>
      obtain ⟨p, i⟩ := v
      cases p <;> rfl

/-! ### Expressions, conditions and queries -/

theorem case_dflt {x : CaseResult} (h : x ≠ CaseResult.dflt → ∃ y, x = .ve y ∧ Sp (ValT (anyUp nt) (bareVE y) (isCond y)) y) : ∃ s, ElseT (anyUp nt) s x := by
  by_cases e : x = CaseResult.dflt
  · exact ⟨_, e ▸ ElseT.none⟩
  · obtain ⟨y, rfl, s, h1, h2⟩ := h e
    exact ⟨_, .some (wd cs!"ELSE") h1 h2⟩

theorem group_of {l : List GroupTerm} (h : l ≠ [] → Sp (GArgsT (anyUp nt)) l) : ∃ s, GroupT (anyUp nt) s l := by
  by_cases e : l = []
  · exact ⟨_, e ▸ GroupT.none⟩
  · obtain ⟨s, h1, h2⟩ := h e
    exact ⟨_, .some (wd cs!"GROUP") (wd cs!"BY") h1 h2⟩

theorem having_of {c : SC} (h : c ≠ SC.dflt → Sp (CondT (anyUp nt) (headSC c) (bareSC c)) c) : ∃ s, HavingT (anyUp nt) s c := by
  by_cases e : c = SC.dflt
  · exact ⟨_, e ▸ HavingT.none⟩
  · obtain ⟨s, h1, h2⟩ := h e
    exact ⟨_, .some (wd cs!"HAVING") h1 h2⟩

theorem openJT_head (hd hd' : QJHead) (l : List JoinSuffix) : openJT (.qj (.mk hd l)) = openJT (.qj (.mk hd' l)) := rfl

theorem bareBF_not (n : Str) (p : BP) : bareBF (.mk n p) = bareBF (.mk [] p) ∧ condBF (.mk n p) = condBF (.mk [] p) := by
  cases p with
  | pred p => cases p <;> exact ⟨rfl, rfl⟩
  | sc => exact ⟨rfl, rfl⟩
  | ve => exact ⟨rfl, rfl⟩

/-- What precedes the first SELECT. -/
inductive WithT : Str → With → Prop
  | none : WithT [] With.dflt
  | some {k k' n n' l c a a' s q} : Spec.Kw cs!"WITH" k k' → BlankFirst k → Tok n n' → BlankFirst n' → Part n → WColsT l c → Word cs!"AS" a a' →
      BlankFirst s → SubqT (anyUp nt) s q → WithT (k ++ (n' ++ (l ++ (a ++ s)))) (.mk n c q)

mutual

theorem sp_ve : ∀ v : VE, All (Reg nt M) (.ve v) → Sp (ValT (anyUp nt) (bareVE v) (isCond v)) v
  | .nb v, h => by
    obtain ⟨s, h1, h2⟩ := sp_venb v (h.sub rfl)
    exact ⟨_, h1, .expr h2⟩
  | .sc c, h => by
    obtain ⟨s, h1, h2⟩ := sp_sc c (h.sub rfl)
    have hn : headSC c = .none := (All.here h).2.2
    exact ⟨_, h1, .cond (hn ▸ h2)⟩

theorem sp_venb : ∀ v : VENB, All (Reg nt M) (.venb v) → Sp (ExprT (anyUp nt)) v
  | .mk f ts, h => by
    obtain ⟨s, h1, h2⟩ := sp_factor f (h.sub (.inl rfl))
    obtain ⟨t, h4⟩ := sp_terms (strFactor f) ts (All.here h).2.2 fun t ht => h.sub (.inr ⟨t, ht, rfl⟩)
    exact ⟨_, blankFirst_append h1, .mk h2 h4⟩

theorem sp_terms : ∀ (q : Bool) (ts : List Term), minusOK q ts → (∀ t ∈ ts, All (Reg nt M) (.term t)) → ∃ s, TermsT (anyUp nt) q s ts
  | _, [], _, _ => ⟨_, .nil⟩
  | q, .mk op (.mk sg p) :: ts, hm, h => by
    have hh := h (.mk op (.mk sg p)) (by simp)
    obtain ⟨s, h1, h2⟩ := sp_factor (.mk sg p) (hh.sub rfl)
    obtain ⟨t, h4⟩ := sp_terms (strAtom p) ts hm.2 fun t ht => h t (by simp [ht])
    refine ⟨_, .cons (All.here hh).1 (tk op) h2 (fun e0 e => ⟨?_, fun _ p hp => ?_⟩) h4⟩
    · obtain ⟨c, u, rfl, hc⟩ := h1
      rintro t ⟨⟩
      exact absurd hc (by decide)
    · injection hp with hp _
      exact hm.1 e0 e hp

theorem sp_factor : ∀ f : Factor, All (Reg nt M) (.factor f) → Sp (FactorT (anyUp nt)) f
  | .mk sg p, h => by
    obtain ⟨s, h1, h2⟩ := sp_atom p (h.sub rfl)
    have hs := (All.here h).1
    simp only [Ranges, List.mem_cons, List.not_mem_nil, or_false] at hs
    rcases hs with rfl | rfl | rfl
    · exact ⟨_, h1, .plain h2⟩
    · exact ⟨_, blankFirst_append (bfc _), .signed (.inl rfl) (tk cs!"+") h2⟩
    · exact ⟨_, blankFirst_append (bfc _), .signed (.inr rfl) (tk cs!"-") h2⟩

theorem sp_atom : ∀ p : NumPrim, All (Reg nt M) (.numPrim p) → Sp (AtomT (anyUp nt)) p
  | .vep (.mk p is), h => by
    have hv := h.sub rfl
    obtain ⟨s, h1, h2⟩ := sp_prim p (hv.sub (.inl rfl))
    obtain ⟨t, h4⟩ := sp_idx is fun i hi => hv.sub (.inr ⟨i, hi, rfl⟩)
    exact ⟨_, blankFirst_append h1, .prim h2 h4⟩
  | .nvf f, h => by
    obtain ⟨s, h1, h2⟩ := sp_fn f (h.sub rfl)
    exact ⟨_, h1, .fn h2⟩

theorem sp_idx : ∀ l : List VE, (∀ t ∈ l, All (Reg nt M) (.ve t)) → ∃ s, IdxT (anyUp nt) s l
  | [], _ => ⟨_, .nil⟩
  | v :: l, h => by
    obtain ⟨s, h1, h2⟩ := sp_ve v (h v (by simp))
    obtain ⟨t, h4⟩ := sp_idx l fun t ht => h t (by simp [ht])
    exact ⟨_, .cons (tk cs!"[") h2 (tk cs!"]") h4⟩

theorem sp_args : ∀ l : List VE, l ≠ [] → (∀ t ∈ l, All (Reg nt M) (.ve t)) → Sp (ArgsT (anyUp nt)) l
  | [], hn, _ => absurd rfl hn
  | v :: l, _, h => by
    obtain ⟨s, h1, h2⟩ := sp_ve v (h v (by simp))
    by_cases hl : l = []
    · subst hl
      exact ⟨_, h1, .one h2⟩
    · obtain ⟨t, -, h4⟩ := sp_args l hl fun t ht => h t (by simp [ht])
      exact ⟨_, blankFirst_append h1, .cons h2 (tk cs!",") h4⟩

theorem sp_prim : ∀ p : Prim, All (Reg nt M) (.prim p) → Sp (PrimT (anyUp nt)) p
  | .arr vs, h => by
    obtain ⟨s, -, h2⟩ := sp_args vs (All.here h).1 fun v hv => h.sub ⟨v, hv, rfl⟩
    exact ⟨_, blankFirst_append (bfc _), .arr (kwb (t := cs!"ARRAY") rfl) (tk cs!"[") h2 (tk cs!"]")⟩
  | .str s, h => by
    rcases (All.here h).1 with h | h | ⟨w, hw, h⟩
    · exact ⟨_, bfc _, .num (tk s) h⟩
    · exact ⟨_, bfc _, .str (tk s) h⟩
    · simp only [List.mem_cons, List.not_mem_nil, or_false] at hw
      rcases hw with rfl | rfl | rfl | rfl | rfl | rfl
      · exact ⟨_, bfc _, .bool (kwi ⟨_, by simp, h⟩)⟩
      · exact ⟨_, bfc _, .bool (kwi ⟨_, by simp, h⟩)⟩
      · exact ⟨_, bfc _, .null (kwb h)⟩
      · exact ⟨_, bfc _, .nullCast (kwi ⟨_, by simp [nullCasts], h⟩)⟩
      · exact ⟨_, bfc _, .nullCast (kwi ⟨_, by simp [nullCasts], h⟩)⟩
      · exact ⟨_, bfc _, .nullCast (kwi ⟨_, by simp [nullCasts], h⟩)⟩
  | .col c, h => by
    obtain ⟨s, h1, h2⟩ := sp_col (h.sub rfl)
    exact ⟨_, h1, .col h2⟩
  | .countStar s, h => by
    obtain ⟨t, rfl, ht⟩ := countStar_split (All.here h).1
    exact ⟨_, blankFirst_append (bfc _), .countStar (kwb ht) (tk cs!"(") (tk cs!"*") (tk cs!")")⟩
  | .setFn fn q e, h => by
    obtain ⟨s, h1, h2⟩ := sp_ve e (h.sub rfl)
    obtain ⟨h3, h4⟩ := (All.here h).1
    rcases h4 with rfl | h4
    · exact ⟨_, blankFirst_append (bfc _), .setFn (kwi h3) (tk cs!"(") h2 (tk cs!")")⟩
    · exact ⟨_, blankFirst_append (bfc _), .setFnQ (kwi h3) (tk cs!"(") (kwi h4) h1 h2 (tk cs!")")⟩
  | .case (.nullif a b), h => by
    have h := h.sub rfl
    obtain ⟨s, -, h2⟩ := sp_ve a (h.sub (.inl rfl))
    obtain ⟨t, -, h4⟩ := sp_ve b (h.sub (.inr rfl))
    exact ⟨_, blankFirst_append (bfc _), .nullif (kwb (t := cs!"NULLIF") rfl) (tk cs!"(") h2 (tk cs!",") h4 (tk cs!")")⟩
  | .case (.coalesce l), h => by
    have h := h.sub rfl
    obtain ⟨s, -, h2⟩ := sp_args l (All.here h).1 fun v hv => h.sub ⟨v, hv, rfl⟩
    exact ⟨_, blankFirst_append (bfc _), .coalesce (kwb (t := cs!"COALESCE") rfl) (tk cs!"(") h2 (tk cs!")")⟩
  | .case (.simple o ws e), h => by
    have h := h.sub rfl
    obtain ⟨s, h1, h2⟩ := sp_ve o (h.sub (.inl rfl))
    obtain ⟨t, h4⟩ := sp_whens ws (All.here h).1 fun v hv => h.sub (.inr (.inl ⟨v, hv, rfl⟩))
    obtain ⟨u, h5⟩ := case_dflt fun hn => sp_result e (h.sub (.inr (.inr ⟨hn, rfl⟩)))
    exact ⟨_, blankFirst_append (bfc _), .caseOf (kwb (t := cs!"CASE") rfl) h1 h2 h4 h5 (wd cs!"END")⟩
  | .case (.searched ws e), h => by
    have h := h.sub rfl
    obtain ⟨t, h4⟩ := sp_conds ws (All.here h).1 fun v hv => h.sub (.inl ⟨v, hv, rfl⟩)
    obtain ⟨u, h5⟩ := case_dflt fun hn => sp_result e (h.sub (.inr ⟨hn, rfl⟩))
    exact ⟨_, blankFirst_append (bfc _), .caseWhen (kwb (t := cs!"CASE") rfl) h4 h5 (wd cs!"END")⟩
  | .any e, h => by
    obtain ⟨s, -, h2⟩ := sp_ve e (h.sub rfl)
    exact ⟨_, blankFirst_append (bfc _), .any (kwb (t := cs!"ANY") rfl) (tk cs!"(") h2 (tk cs!")")⟩
  | .sub e, h => by
    obtain ⟨s, -, h2⟩ := sp_ve e (h.sub rfl)
    exact ⟨_, blankFirst_append (bfc _), .sub (tk cs!"(") h2 (tk cs!")")⟩

theorem sp_result : ∀ x : CaseResult, All (Reg nt M) (.result x) → ∃ e, x = .ve e ∧ Sp (ValT (anyUp nt) (bareVE e) (isCond e)) e
  | .str _, h => (All.here h).2.2.elim
  | .ve v, h => ⟨v, rfl, sp_ve v (h.sub rfl)⟩

theorem sp_whens : ∀ l : List SimpleWhen, l ≠ [] → (∀ t ∈ l, All (Reg nt M) (.simpleWhen t)) → ∃ s, WhensT (anyUp nt) s l
  | [], hn, _ => absurd rfl hn
  | .mk v r :: l, _, h => by
    have hh := h (.mk v r) (by simp)
    obtain ⟨s, h1, h2⟩ := sp_ve v (hh.sub (.inl rfl))
    obtain ⟨e', rfl, s', h1', h2'⟩ := sp_result r (hh.sub (.inr rfl))
    by_cases hl : l = []
    · subst hl
      exact ⟨_, .one (wd cs!"WHEN") h1 h2 (wd cs!"THEN") h1' h2'⟩
    · obtain ⟨t, h4⟩ := sp_whens l hl fun t ht => h t (by simp [ht])
      exact ⟨_, .cons (wd cs!"WHEN") h1 h2 (wd cs!"THEN") h1' h2' h4⟩

theorem sp_conds : ∀ l : List SearchedWhen, l ≠ [] → (∀ t ∈ l, All (Reg nt M) (.searchedWhen t)) → ∃ s, CondsT (anyUp nt) s l
  | [], hn, _ => absurd rfl hn
  | .mk c r :: l, _, h => by
    have hh := h (.mk c r) (by simp)
    obtain ⟨s, h1, h2⟩ := sp_sc c (hh.sub (.inl rfl))
    obtain ⟨e', rfl, s', h1', h2'⟩ := sp_result r (hh.sub (.inr rfl))
    by_cases hl : l = []
    · subst hl
      exact ⟨_, .one (wd cs!"WHEN") h1 h2 (wd cs!"THEN") h1' h2'⟩
    · obtain ⟨t, h4⟩ := sp_conds l hl fun t ht => h t (by simp [ht])
      exact ⟨_, .cons (wd cs!"WHEN") h1 h2 (wd cs!"THEN") h1' h2' h4⟩

theorem sp_fn : ∀ f : NumFn, All (Reg nt M) (.numFn f) → Sp (FnT (anyUp nt)) f
  | .trig1 fn a, h => by
    obtain ⟨s, -, h2⟩ := sp_ve a (h.sub rfl)
    exact ⟨_, blankFirst_append (bfc _), .trig1 (kwi (All.here h).1) (tk cs!"(") h2 (tk cs!")")⟩
  | .trig2 fn a b, h => by
    obtain ⟨s, -, h2⟩ := sp_ve a (h.sub (.inl rfl))
    obtain ⟨t, -, h4⟩ := sp_ve b (h.sub (.inr rfl))
    obtain ⟨k, hk, h5⟩ := (All.here h).1
    simp only [List.mem_cons, List.not_mem_nil, or_false] at hk
    subst hk
    exact ⟨_, blankFirst_append (bfc _), .trig2 (kwb h5) (tk cs!"(") h2 (tk cs!",") h4 (tk cs!")")⟩
  | .math0 fn, h => ⟨_, blankFirst_append (bfc _), .math0 (kwi (All.here h).1) (tk cs!"(") (tk cs!")")⟩
  | .math1 fn a, h => by
    obtain ⟨s, -, h2⟩ := sp_ve a (h.sub rfl)
    exact ⟨_, blankFirst_append (bfc _), .math1 (kwi (All.here h).1) (tk cs!"(") h2 (tk cs!")")⟩
  | .math2 fn a b, h => by
    obtain ⟨s, -, h2⟩ := sp_ve a (h.sub (.inl rfl))
    obtain ⟨t, -, h4⟩ := sp_ve b (h.sub (.inr rfl))
    exact ⟨_, blankFirst_append (bfc _), .math2 (kwi (All.here h).1) (tk cs!"(") h2 (tk cs!",") h4 (tk cs!")")⟩
  | .cast e ty n, h => by
    obtain ⟨s, -, h2⟩ := sp_ve e (h.sub rfl)
    obtain ⟨h3, h4⟩ := (All.here h).1
    obtain ⟨l, h5⟩ := sp_len h4
    exact ⟨_, blankFirst_append (bfc _), .cast (kwb (t := cs!"CAST") rfl) (tk cs!"(") h2 (wd cs!"AS") (kwi h3) (bfc _) h5 (tk cs!")")⟩
  | .geo1 fn a, h => by
    obtain ⟨s, -, h2⟩ := sp_pointCol (h.sub rfl)
    exact ⟨_, blankFirst_append (bfc _), .coord (kwi (All.here h).1) (tk cs!"(") h2 (tk cs!")")⟩
  | .geo2 fn a b, h => by
    obtain ⟨s, -, h2⟩ := sp_pointCol (h.sub (.inl rfl))
    obtain ⟨t, -, h4⟩ := sp_pointCol (h.sub (.inr rfl))
    obtain ⟨k, hk, h5⟩ := (All.here h).1
    simp only [List.mem_cons, List.not_mem_nil, or_false] at hk
    subst hk
    exact ⟨_, blankFirst_append (bfc _), .distance (kwb h5) (tk cs!"(") h2 (tk cs!",") h4 (tk cs!")")⟩
  | .udf fn l, h => by
    by_cases hl : l = []
    · subst hl
      rcases udf_name (All.here h).1 (All.here h).2.2.1 (All.here h).2.2.2 with h1 | h1
      · exact ⟨_, blankFirst_append (bfc _), .udf0 (tk fn) h1 (tk cs!"(") (tk cs!")")⟩
      · exact ⟨_, blankFirst_append (bfc _), .udfKw0 (kwi h1) (tk cs!"(") (tk cs!")")⟩
    · obtain ⟨s, -, h2⟩ := sp_args l hl fun v hv => h.sub ⟨v, hv, rfl⟩
      rcases udf_name (All.here h).1 (All.here h).2.2.1 (All.here h).2.2.2 with h1 | h1
      · exact ⟨_, blankFirst_append (bfc _), .udf (tk fn) h1 (tk cs!"(") h2 (tk cs!")")⟩
      · exact ⟨_, blankFirst_append (bfc _), .udfKw (kwi h1) (tk cs!"(") h2 (tk cs!")")⟩
  | .str s, h => ⟨_, bfc _, .now (kwb (All.here h).1)⟩

theorem sp_sc : ∀ c : SC, All (Reg nt M) (.sc c) → Sp (CondT (anyUp nt) (headSC c) (bareSC c)) c
  | .factor b, h => by
    obtain ⟨s, h1, h2⟩ := sp_bf b (h.sub rfl)
    exact ⟨_, h1, .factor h2⟩
  | .term b op c, h => by
    obtain ⟨s, h1, h2⟩ := sp_bf b (h.sub (.inl rfl))
    obtain ⟨t, h3, h4⟩ := sp_sc c (h.sub (.inr rfl))
    have hg : condBF b = false := (All.here h).2.2
    exact ⟨_, blankFirst_append h1, .term (hg ▸ h2) (wdi (All.here h).1) h3 h4⟩

theorem sp_bf : ∀ b : BF, All (Reg nt M) (.bf b) → Sp (BFactT (anyUp nt) (headBF b) (bareBF b) (condBF b)) b
  | .mk n p, h => by
    obtain ⟨s, h1, h2⟩ := sp_bp p (h.sub rfl)
    rcases (All.here h).1 with rfl | hn
    · exact ⟨_, h1, .plain h2 (All.here h).2.2⟩
    · cases n with
      | nil => cases hn
      | cons c n =>
        have e := bareBF_not (c :: n) p
        rw [e.1, e.2]
        exact ⟨_, blankFirst_append (bfc _), .not (kwb hn) h1 h2⟩

theorem sp_bp : ∀ p : BP, All (Reg nt M) (.bp p) → Sp (BPrimT (anyUp nt) (headBP p) (bareBF (.mk [] p)) (condBF (.mk [] p))) p
  | .pred p, h => by
    obtain ⟨s, h1, h2⟩ := sp_pred p (h.sub rfl)
    exact ⟨_, h1, .pred h2⟩
  | .sc c, h => by
    obtain ⟨s, h1, h2⟩ := sp_sc c (h.sub rfl)
    exact ⟨_, blankFirst_append (bfc _), .paren (tk cs!"(") h2 (tk cs!")")⟩
  | .ve v, h => by
    obtain ⟨s, h1, h2⟩ := sp_venb v (h.sub rfl)
    refine ⟨_, h1, .bare h2 (fun e => ?_) (All.here h).2.2.2⟩
    have := (exprT_next h2).1 e
    rw [parenFirst_eq, (All.here h).2.2.1] at this
    cases this

theorem sp_pred : ∀ p : Pred, All (Reg nt M) (.pred p) → Sp (PredT (anyUp nt) (headBP (.pred p)) (bareBF (.mk [] (.pred p))) (condBF (.mk [] (.pred p)))) p
  | .cmp v op w, h => by
    obtain ⟨s, h1, h2⟩ := sp_venb v (h.sub (.inl rfl))
    obtain ⟨t, -, h4⟩ := sp_ve w (h.sub (.inr rfl))
    exact ⟨_, blankFirst_append h1, .cmp h2 (All.here h).1 (tk op) h4⟩
  | .between _ _ (.sc _) _, h => (All.here h).2.2.elim
  | .between v n (.nb lo) hi, h => by
    obtain ⟨s, h1, h2⟩ := sp_venb v (h.sub (.inl rfl))
    obtain ⟨t, h3, h4⟩ := sp_venb lo ((h.sub (m := .ve (.nb lo)) (.inr (.inl rfl))).sub rfl)
    obtain ⟨t', h3', h4'⟩ := sp_ve hi (h.sub (.inr (.inr rfl)))
    obtain ⟨k, hk⟩ := sp_not (All.here h).1
    exact ⟨_, blankFirst_append h1, .between h2 hk (wd cs!"BETWEEN") h3 h4 (wd cs!"AND") h3' h4'⟩
  | .inSub v n q, h => by
    obtain ⟨s, h1, h2⟩ := sp_venb v (h.sub (.inl rfl))
    obtain ⟨t, h3, h4⟩ := sp_subq q (h.sub (.inr rfl))
    obtain ⟨k, hk⟩ := sp_in (All.here h).1
    exact ⟨_, blankFirst_append h1, .inSub h2 hk h3 h4⟩
  | .inList v n vs, h => by
    obtain ⟨s, h1, h2⟩ := sp_venb v (h.sub (.inl rfl))
    obtain ⟨t, -, h4⟩ := sp_args vs (All.here h).1.2 fun v hv => h.sub (.inr ⟨v, hv, rfl⟩)
    obtain ⟨k, hk⟩ := sp_in (All.here h).1.1
    exact ⟨_, blankFirst_append h1, .inList h2 hk (bfc _) (tk cs!"(") h4 (All.here h).2.2.1 (All.here h).2.2.2 (tk cs!")")⟩
  | .null v n, h => by
    obtain ⟨s, h1, h2⟩ := sp_venb v (h.sub rfl)
    obtain ⟨k, hk⟩ := sp_not (All.here h).1
    exact ⟨_, blankFirst_append h1, .null h2 (wd cs!"IS") hk (wd cs!"NULL")⟩
  | .like _ _ (.sc _), h => (All.here h).2.2.elim
  | .like v n (.nb p), h => by
    obtain ⟨s, h1, h2⟩ := sp_venb v (h.sub (.inl rfl))
    obtain ⟨t, h3, h4⟩ := sp_venb p ((h.sub (m := .ve (.nb p)) (.inr rfl)).sub rfl)
    obtain ⟨k, hk⟩ := sp_not (All.here h).1
    exact ⟨_, blankFirst_append h1, .like h2 hk (wd cs!"LIKE") h3 h4⟩
  | .exist q, h => by
    obtain ⟨t, h3, h4⟩ := sp_subq q (h.sub rfl)
    exact ⟨_, blankFirst_append (bfc _), .exist (kwb (t := cs!"EXISTS") rfl) h3 h4⟩

theorem sp_subq : ∀ q : Subquery, All (Reg nt M) (.subq q) → Sp (SubqT (anyUp nt)) q
  | .jt j, h => by
    obtain ⟨s, h1, h2⟩ := sp_jt j (h.sub rfl)
    exact ⟨_, blankFirst_append (bfc _), .join (tk cs!"(") h2 (All.here h).2.2.1 (All.here h).2.2.2 (tk cs!")")⟩
  | .qs (.mk w l g c o), h => by
    have hq := h.sub rfl
    have hg := (All.here h).2.1
    obtain ⟨s, h1, h2⟩ := sp_sfws false l (hq.sub (.inr (.inl rfl))) fun _ => by cases l; exact ⟨_, _, rfl, hg⟩
    obtain ⟨s', h3⟩ := group_of fun hn => sp_gargs g hn fun x hx => hq.sub (.inr (.inr (.inl ⟨x, hx, rfl⟩)))
    obtain ⟨s'', h4⟩ := having_of fun hn => sp_sc c (hq.sub (.inr (.inr (.inr (.inl ⟨hn, rfl⟩)))))
    obtain ⟨u, h5⟩ := sp_order fun x hx => hq.sub (.inr (.inr (.inr (.inr ⟨x, hx, rfl⟩))))
    obtain ⟨v, h6⟩ := sp_with w fun hw => hq.sub (.inl ⟨hw, rfl⟩)
    cases h6 with
    | none => exact ⟨_, blankFirst_append (bfc _), .mk (tk cs!"(") (.mk h2 h3 h4 h5) (tk cs!")")⟩
    | some h7 _ h8 h9 h10 h11 h12 h13 h14 =>
      exact ⟨_, blankFirst_append (bfc _), .mk (tk cs!"(") (.with h7 h8 h9 h10 h11 h12 h13 h14 h2 h3 h4 h5) (tk cs!")")⟩

theorem sp_with : ∀ w : With, (w ≠ With.dflt → All (Reg nt M) (.with_ w)) → ∃ s, WithT (nt := nt) s w
  | .mk n cs q, h => by
    by_cases e : With.mk n cs q = With.dflt
    · exact ⟨_, e ▸ WithT.none⟩
    · have h := h e
      obtain ⟨t, h6, h7⟩ := sp_subq q (h.sub rfl)
      obtain ⟨t', h8⟩ := sp_cols fun c hc => name_part ((All.here h).1.2 c hc) ((All.here h).2.2.2 c hc)
      exact ⟨_, .some (kwb (t := cs!"WITH") rfl) (bfc _) (tk n) (bfc _) (name_part (All.here h).1.1 (All.here h).2.2.1) h8 (wd cs!"AS") h6 h7⟩

theorem sp_gargs : ∀ l : List GroupTerm, l ≠ [] → (∀ t ∈ l, All (Reg nt M) (.group t)) → Sp (GArgsT (anyUp nt)) l
  | [], hn, _ => absurd rfl hn
  | .col c :: _, _, h => (All.here (h (.col c) (by simp))).2.2.elim
  | .ve v :: l, _, h => by
    obtain ⟨s, h1, h2⟩ := sp_ve v ((h (.ve v) (by simp)).sub rfl)
    by_cases hl : l = []
    · subst hl
      exact ⟨_, h1, .one h2⟩
    · obtain ⟨t, -, h4⟩ := sp_gargs l hl fun t ht => h t (by simp [ht])
      exact ⟨_, blankFirst_append h1, .cons h2 (tk cs!",") h4⟩

theorem sp_sfws : ∀ (G : Bool) (l : SFWList), All (Reg nt M) (.sfwList l) →
    (G = false → ∃ i as, l = .mk i as ∧ NoGeomSFW i ∧ ∀ op s, Addon.mk op s ∈ as → NoGeomSFW s) → Sp (SfwsT (anyUp nt) G) l
  | G, .mk i as, h, hg => by
    have hg : G = false → NoGeomSFW i ∧ ∀ op s, Addon.mk op s ∈ as → NoGeomSFW s := fun e => by
      obtain ⟨_, _, ⟨⟩, h⟩ := hg e
      exact h
    obtain ⟨s, h1, h2⟩ := sp_sfw G i (h.sub (.inl rfl)) fun e => (hg e).1
    obtain ⟨t, h4⟩ := sp_addons G as (fun a ha => h.sub (.inr ⟨a, ha, rfl⟩)) fun e => (hg e).2
    exact ⟨_, blankFirst_append h1, .mk h2 h4⟩

theorem sp_addons : ∀ (G : Bool) (as : List Addon), (∀ a ∈ as, All (Reg nt M) (.addon a)) →
    (G = false → ∀ op s, Addon.mk op s ∈ as → NoGeomSFW s) → ∃ s, AddonsT (anyUp nt) G s as
  | _, [], _, _ => ⟨_, .nil⟩
  | G, .mk op x :: l, h, hg => by
    have hh := h (.mk op x) (by simp)
    obtain ⟨s, h1, h2⟩ := sp_sfw G x (hh.sub rfl) fun e => hg e op x (by simp)
    obtain ⟨t, h4⟩ := sp_addons G l (fun a ha => h a (by simp [ha])) fun e op s hs => hg e op s (by simp [hs])
    obtain ⟨w, hw, h5⟩ := (All.here hh).1
    refine ⟨_, .cons ⟨w, ?_, wdb h5⟩ h1 h2 h4⟩
    simp only [List.mem_cons, List.not_mem_nil, or_false] at hw ⊢
    rcases hw with rfl | rfl | rfl <;> simp

theorem sp_sfw : ∀ (G : Bool) (x : SFW), All (Reg nt M) (.sfw x) → (G = false → NoGeomSFW x) → Sp (SfwT (anyUp nt) G) x
  | G, .mk (.mk q n cs) ts w, h, hg => by
    have hs := h.sub (.inl rfl)
    obtain ⟨hq, ht⟩ := (All.here hs).1
    obtain ⟨s1, h1⟩ := sp_quant hq
    obtain ⟨s2, h2⟩ := sp_top ht
    obtain ⟨s3, h3, h3'⟩ := sp_columns cs (hs.sub rfl)
    obtain ⟨s4, h4, h4'⟩ := sp_tabs ts (All.here h).1 fun t ht => h.sub (.inr (.inl ⟨t, ht, rfl⟩))
    obtain ⟨s5, h5⟩ := sp_where G w (fun hn => h.sub (.inr (.inr ⟨hn, rfl⟩))) (by obtain ⟨g, c⟩ := w; rintro e _ _ ⟨⟩; exact hg e)
    exact ⟨_, blankFirst_append (bfc _), .mk (kwb (t := cs!"SELECT") rfl) h1 h2 h3 h3' (wd cs!"FROM") h4 h4' h5⟩

theorem sp_columns : ∀ c : Columns, All (Reg nt M) (.columns c) → Sp (ColumnsT (anyUp nt)) c
  | .star s, h => by
    obtain rfl : s = cs!"*" := (All.here h).1
    exact ⟨_, bfc _, .star (tk cs!"*")⟩
  | .items l, h => by
    obtain ⟨s, h1, h2⟩ := sp_items l (All.here h).1 fun i hi => h.sub ⟨i, hi, rfl⟩
    exact ⟨_, h1, .items h2⟩

theorem sp_items : ∀ l : List Item, l ≠ [] → (∀ t ∈ l, All (Reg nt M) (.item t)) → Sp (ItemsT (anyUp nt)) l
  | [], hn, _ => absurd rfl hn
  | i :: l, _, h => by
    obtain ⟨s, h1, h2⟩ := sp_item i (h i (by simp))
    by_cases hl : l = []
    · subst hl
      exact ⟨_, h1, .one h2⟩
    · obtain ⟨t, -, h4⟩ := sp_items l hl fun t ht => h t (by simp [ht])
      exact ⟨_, blankFirst_append h1, .cons h2 (tk cs!",") h4⟩

theorem sp_item : ∀ i : Item, All (Reg nt M) (.item i) → Sp (ItemT (anyUp nt)) i
  | .as v x, h => by
    obtain ⟨s, h1, h2⟩ := sp_ve v (h.sub rfl)
    exact ⟨_, blankFirst_append h1, .as h2 (wd cs!"AS") (tk x) (bfc _) (name_part (All.here h).1 (All.here h).2.2)⟩
  | .nonAsStr s, h => by
    obtain ⟨t, rfl, ht⟩ := (All.here h).2.2
    exact ⟨_, bfc _, .all (tk _) ht⟩
  | .nonAsVE v, h => by
    obtain ⟨s, h1, h2⟩ := sp_ve v (h.sub rfl)
    exact ⟨_, h1, .expr h2⟩

theorem sp_where : ∀ (G : Bool) (w : Where), (w ≠ Where.dflt → All (Reg nt M) (.where_ w)) →
    (G = false → ∀ g c, w = .mk g c → g = Geom.dflt) → ∃ s, WhereT (anyUp nt) G s w
  | G, .mk g c, h, hg => by
    by_cases e : Where.mk g c = Where.dflt
    · exact ⟨_, e ▸ WhereT.none⟩
    · have h := h e
      by_cases eg : g = Geom.dflt
      · subst eg
        have ec : c ≠ SC.dflt := fun x => e (by rw [x]; rfl)
        obtain ⟨s, h1, h2⟩ := sp_sc c (h.sub (.inr ⟨ec, rfl⟩))
        exact ⟨_, .some (wd cs!"WHERE") h1 h2⟩
      · obtain rfl : G = true := by
          cases G with
          | true => rfl
          | false => exact absurd (hg rfl g c rfl) eg
        obtain ⟨s, h1, h2⟩ := sp_geom g (h.sub (.inl ⟨eg, rfl⟩))
        by_cases ec : c = SC.dflt
        · subst ec
          exact ⟨_, .geom (wd cs!"WHERE") h1 h2⟩
        · obtain ⟨t, h3, h4⟩ := sp_sc c (h.sub (.inr ⟨ec, rfl⟩))
          exact ⟨_, .geomAnd (wd cs!"WHERE") h1 h2 (wd cs!"AND") h3 h4⟩

theorem sp_geom : ∀ g : Geom, All (Reg nt M) (.geom g) → Sp (GeomT (anyUp nt)) g
  | .left f p, h => by
    obtain ⟨s, h1, h2⟩ := sp_gpred p (h.sub rfl)
    exact ⟨_, blankFirst_append (bfc _), .left (by have := (All.here h).1; simpa [Ranges] using this) (tk [f]) (tk cs!"=") h2⟩
  | .right p f, h => by
    obtain ⟨s, h1, h2⟩ := sp_gpred p (h.sub rfl)
    exact ⟨_, blankFirst_append h1, .right h2 (tk cs!"=") (by have := (All.here h).1; simpa [Ranges] using this) (tk [f])⟩

theorem sp_gpred : ∀ p : GPred, All (Reg nt M) (.gpred p) → Sp (GPredT (anyUp nt)) p
  | .intersects v x, h => by
    obtain ⟨s, h1, h2⟩ := sp_ve v (h.sub (.inl rfl))
    obtain ⟨t, -, h4⟩ := sp_shapeCol (h.sub (.inr rfl))
    exact ⟨_, blankFirst_append (bfc _), .intersects (kwb (t := cs!"INTERSECTS") rfl) (tk cs!"(") h2 (tk cs!",") h4 (tk cs!")")⟩
  | .contains x y, h => by
    obtain ⟨s, -, h2⟩ := sp_shapeCol (h.sub (.inl rfl))
    obtain ⟨t, -, h4⟩ := sp_shapeCol (h.sub (.inr rfl))
    exact ⟨_, blankFirst_append (bfc _), .contains (kwb (t := cs!"CONTAINS") rfl) (tk cs!"(") h2 (tk cs!",") h4 (tk cs!")")⟩

theorem sp_tabs : ∀ l : List TR, l ≠ [] → (∀ t ∈ l, All (Reg nt M) (.tr t)) → Sp (TabsT (anyUp nt)) l
  | [], hn, _ => absurd rfl hn
  | i :: l, _, h => by
    obtain ⟨s, h1, h2⟩ := sp_tr i (h i (by simp))
    by_cases hl : l = []
    · subst hl
      exact ⟨_, h1, .one h2⟩
    · obtain ⟨t, -, h4⟩ := sp_tabs l hl fun t ht => h t (by simp [ht])
      exact ⟨_, blankFirst_append h1, .cons h2 (tk cs!",") h4⟩

theorem sp_tr : ∀ t : TR, All (Reg nt M) (.tr t) → Sp (TabT (anyUp nt) (openTR t)) t
  | .tc t, h => by
    obtain ⟨s, h1, h2⟩ := sp_tcorr (h.sub rfl)
    exact ⟨_, h1, .tc h2⟩
  | .jt j, h => by
    obtain ⟨s, h1, h2⟩ := sp_jt j (h.sub rfl)
    exact ⟨_, h1, .join h2⟩
  | .derived (.jt _) _, h => (All.here h).2.2.elim
  | .derived (.qs q) x, h => by
    obtain ⟨s, h1, h2⟩ := sp_subq (.qs q) (h.sub rfl)
    exact ⟨_, blankFirst_append h1, .derived h2 (.name (tk x) (bfc _) (name_part (All.here h).1 (All.here h).2.2))⟩
  | .tvf n l, h => by
    obtain ⟨h1, h2⟩ := (All.here h).1
    obtain ⟨s, -, h4⟩ := sp_fnArgs (All.here h).2.2 h2
    exact ⟨_, blankFirst_append (bfc _), .fn (kwb (t := cs!"table(") rfl) h1 h4 (tk cs!"')") (tk cs!")")⟩

theorem sp_jt : ∀ j : JT, All (Reg nt M) (.jt j) → Sp (JoinT (anyUp nt) (openJT j)) j
  | .qj (.mk hd ss), h => by
    have h := h.sub rfl
    obtain ⟨s, h1, h2⟩ := sp_qhead hd (h.sub (.inl rfl)) (All.here h).2.2.1
    obtain ⟨i, k, t, h4, h5, -⟩ := sp_sufs ss (All.here h).1 (All.here h).2.2.2 fun x hx => h.sub (.inr ⟨x, hx, rfl⟩)
    exact ⟨_, blankFirst_append h1, by rw [openJT_head hd _ ss, ← h5]; exact .mk h2 h4⟩
  | .wrap j, h => by
    obtain ⟨s, h1, h2⟩ := sp_jt j (h.sub rfl)
    exact ⟨_, blankFirst_append (bfc _), .paren (tk cs!"(") h2 (tk cs!")")⟩

theorem sp_qhead : ∀ x : QJHead, All (Reg nt M) (.head x) → (∀ q, x ≠ .jt (.qj q)) → Sp (HeadT (anyUp nt)) x
  | .tc t, h, _ => by
    obtain ⟨s, h1, h2⟩ := sp_tcorr (h.sub rfl)
    exact ⟨_, h1, .tc h2⟩
  | .jt (.qj q), _, hq => absurd rfl (hq q)
  | .jt (.wrap j), h, _ => by
    have h := h.sub rfl
    obtain ⟨s, h1, h2⟩ := sp_jt j (h.sub rfl)
    exact ⟨_, blankFirst_append (bfc _), .paren (tk cs!"(") h2 (tk cs!")")⟩

theorem sp_sufs : ∀ l : List JoinSuffix, l ≠ [] → sufsOK l → (∀ t ∈ l, All (Reg nt M) (.suffix t)) →
    ∃ i k s, SufsT (anyUp nt) i k s l ∧ k = openJT (.qj (.mk (.tc ⟨[], []⟩) l)) ∧ ∀ x l', l = x :: l' → i = startsInner x
  | [], hn, _, _ => absurd rfl hn
  | [x], _, ho, h => by
    obtain ⟨s, h1⟩ := sp_suf x ho (h x (by simp))
    refine ⟨_, _, s, .one h1, ?_, ?_⟩
    · obtain ⟨a, b, c, d⟩ := x
      cases d with
      | on => rfl
      | named l => cases l <;> rfl
    · rintro x' l' ⟨⟩; rfl
  | x :: y :: l, _, ho, h => by
    obtain ⟨h1, h2, h3, h4⟩ := ho
    obtain ⟨i, k, t, h6, h7, h8⟩ := sp_sufs (y :: l) (by simp) h4 fun t ht => h t (by simp [ht])
    cases hs : hasSpec x with
    | true =>
      obtain ⟨s, h5⟩ := sp_suf x h1 (h x (by simp))
      rw [hs] at h5
      refine ⟨_, _, _, .cons h5 h6 (fun e => by rw [h8 y l rfl]; exact h3 e), ?_, ?_⟩
      · rw [h7]
        simp [openJT]
      · rintro x' l' ⟨⟩; rfl
    | false =>
      have h2 := h2.resolve_left (by simp [hs])
      obtain ⟨n, ty, x, sp⟩ := x
      have hx := h (.mk n ty x sp) (by simp)
      obtain ⟨i', z, h9, h10⟩ := sp_jtype (All.here hx).1
      obtain ⟨s, h11, h12⟩ := sp_tr x (hx.sub (.inl rfl))
      have e : openTR x = false := by cases x <;> first | rfl | cases h2
      have e' : sp = JoinSpec.dflt := by
        cases sp with
        | on => cases hs
        | named l => cases l <;> first | rfl | cases hs
      subst e'
      rw [e] at h12
      have hn : ∃ u, NatT u n := by
        cases n with
        | false => exact ⟨_, .none⟩
        | true => exact ⟨_, .some (wd cs!"NATURAL")⟩
      obtain ⟨v, hn⟩ := hn
      refine ⟨_, _, _, .bare hn h9 (wd cs!"JOIN") h11 h12 h2 h6, ?_, ?_⟩
      · rw [h7]
        simp [openJT]
      · rintro x' l' ⟨⟩; exact h10

theorem sp_suf : ∀ x : JoinSuffix, sufOK x → All (Reg nt M) (.suffix x) → ∃ s, SufT (anyUp nt) (startsInner x) (!hasSpec x) (bareSuffix x) s x
  | .mk n ty t sp, ho, h => by
    obtain ⟨i, y, h1, h2⟩ := sp_jtype (All.here h).1
    obtain ⟨s, h3, h4⟩ := sp_tr t (h.sub (.inl rfl))
    obtain ⟨u, h5⟩ := sp_spec sp fun hn => h.sub (.inr ⟨hn, rfl⟩)
    have hn : ∃ u, NatT u n := by
      cases n with
      | false => exact ⟨_, .none⟩
      | true => exact ⟨_, .some (wd cs!"NATURAL")⟩
    obtain ⟨v, hn⟩ := hn
    rw [← h2]
    exact ⟨_, .mk hn h1 (wd cs!"JOIN") h3 h4 (h5 n ty t) fun e => ho (by simpa using e)⟩

theorem sp_spec : ∀ sp : JoinSpec, (sp ≠ JoinSpec.dflt → All (Reg nt M) (.spec sp)) →
    ∃ s, ∀ n ty t, SpecT (anyUp nt) (!hasSpec (.mk n ty t sp)) (bareSuffix (.mk n ty t sp)) s sp
  | .named [], _ => ⟨_, fun _ _ _ => .none⟩
  | .named (x :: l), h => by
    have h := h (fun e => by cases e)
    obtain ⟨s, -, h2⟩ := sp_names (l := x :: l) (by simp) fun c hc => name_part ((All.here h).1.2 c hc) ((All.here h).2.2 c hc)
    exact ⟨_, fun _ _ _ => .using (wd cs!"USING") (bfc _) (tk cs!"(") h2 (tk cs!")")⟩
  | .on c, h => by
    have h := h (fun e => by cases e)
    obtain ⟨s, h1, h2⟩ := sp_sc c (h.sub rfl)
    exact ⟨_, fun _ _ _ => .on (wd cs!"ON") h1 h2⟩

end

/-- Every regular tree is spelt by a text of the core language. -/
theorem sp_query {q : QuerySpec} (h : All (Reg nt M) (.query q)) : Sp (QueryT (anyUp nt) true) q := by
  obtain ⟨w, l, g, c, o⟩ := q
  obtain ⟨s, h1, h2⟩ := sp_sfws true l (h.sub (.inr (.inl rfl))) nofun
  obtain ⟨s', h3⟩ := group_of fun hn => sp_gargs g hn fun x hx => h.sub (.inr (.inr (.inl ⟨x, hx, rfl⟩)))
  obtain ⟨s'', h4⟩ := having_of fun hn => sp_sc c (h.sub (.inr (.inr (.inr (.inl ⟨hn, rfl⟩)))))
  obtain ⟨u, h5⟩ := sp_order fun x hx => h.sub (.inr (.inr (.inr (.inr ⟨x, hx, rfl⟩))))
  obtain ⟨v, h6⟩ := sp_with w fun hw => h.sub (.inl ⟨hw, rfl⟩)
  cases h6 with
  | none => exact ⟨_, blankFirst_append h1, .mk h2 h3 h4 h5⟩
  | some h7 hb h8 h9 h10 h11 h12 h13 h14 =>
    exact ⟨_, blankFirst_append hb, .with h7 h8 h9 h10 h11 h12 h13 h14 h2 h3 h4 h5⟩

end Adql.Fwd
