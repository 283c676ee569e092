import Verif.Props.Parens

/-!
# C27, C28, C29, C32: what the preprocessing does (Query.cxx L113-L134, L166-L174)
-/

namespace Adql

open Spec

/-- Some part of the text, from some position to its end, has the form that is rewritten. -/
def Matching (s : Str) : Prop := ∃ P v L G R T, s = P ++ v ∧ WhereForm v L G R T

/-- The search fails exactly when nothing has the form. -/
theorem search_none_iff (s : Str) : geomRegex.search [] s = none ↔ ¬ Matching s := by
  rw [Re.search_none]
  constructor
  · rintro h ⟨P, v, L, G, R, T, hs, hw⟩
    exact h P v [] _ hs (geomRegex_sem.2 ⟨rfl, L, G, R, T, hw, rfl⟩)
  · intro h u v s' c' hs hsem
    obtain ⟨-, L, G, R, T, hw, -⟩ := geomRegex_sem.1 hsem
    exact h ⟨u, v, L, G, R, T, hs, hw⟩

/-- A match and its groups; it is the leftmost one. -/
theorem search_some {s : Str} {m : Match} (h : geomRegex.search [] s = some m) :
    ∃ P v L G R T, s = P ++ v ∧ WhereForm v L G R T ∧ m = ⟨P, v, [], capsOf L G R T⟩ ∧
      ∀ P1 P2, P = P1 ++ P2 → P2 ≠ [] → ¬ ∃ L G R T, WhereForm (P2 ++ v) L G R T := by
  obtain ⟨u, v, h1, h2, h3, h4, h5⟩ := Re.search_sound h
  obtain ⟨hp, L, G, R, T, hw, hc⟩ := geomRegex_sem.1 h4
  rw [hp, List.append_nil] at h1 h5 hw
  refine ⟨u, v, L, G, R, T, h1, hw, ?_, ?_⟩
  · obtain ⟨pre, whole, post, caps⟩ := m
    simp only at h2 h3 hp hc
    simp [h2, h3, hp, hc]
  · rintro P1 P2 rfl hne ⟨L', G', R', T', hw'⟩
    exact h5 P1 P2 rfl hne [] _ (geomRegex_sem.2 ⟨rfl, L', G', R', T', hw', rfl⟩)

@[simp] theorem str_one {P v : Str} {L G : Str} {R : Option Str} {T : Str} :
    (Match.mk P v [] (capsOf L G R T)).str 1 = L := by
  cases R <;> simp [Match.str, capsOf, List.lookup]

@[simp] theorem str_two {P v : Str} {L G : Str} {R : Option Str} {T : Str} :
    (Match.mk P v [] (capsOf L G R T)).str 2 = G := by
  cases R <;> simp [Match.str, capsOf, List.lookup]

@[simp] theorem str_three {P v : Str} {L G : Str} {R : Option Str} {T : Str} :
    (Match.mk P v [] (capsOf L G R T)).str 3 = R.getD [] := by
  cases R <;> simp [Match.str, capsOf, List.lookup]

/-! ### C27 -/

/-- **C27.** The text is left as it is unless it has the form `… WHERE L AND G …`. -/
theorem C27_unchanged (s : Str) (h : ¬ Matching s) : preprocess s = .ok s := by
  unfold preprocess
  rw [(search_none_iff s).2 h]

/-- The pattern named in C27: `WHERE `, later `AND`, blanks, optional flag and a geometry word. -/
def HasGeometryAfterAnd (s : Str) : Prop :=
  ∃ P w x a b f k z, s = P ++ (w ++ (x ++ (a ++ (b ++ (f ++ (k ++ z)))))) ∧ SameCI w cs!"WHERE " ∧
    SameCI a cs!"AND" ∧ Bl b ∧
    (f = [] ∨ ∃ d b b', f = d :: (b ++ '=' :: b') ∧ (d = '0' ∨ d = '1') ∧ Bl b ∧ Bl b') ∧
    (SameCI k cs!"CONTAINS" ∨ SameCI k cs!"INTERSECTS")

/-- **C27**, the condition in terms of words. -/
theorem C27_no_geometry_after_and (s : Str) (h : ¬ HasGeometryAfterAnd s) : preprocess s = .ok s := by
  apply C27_unchanged
  rintro ⟨P, v, L, G, R, T, rfl, w, b1, a, b2, X, rfl, hw, hL, hb1, ha, hb2, ⟨f, k, m, rfl, hf, hk, hm⟩, -⟩
  exact h ⟨P, w, L ++ b1, a, b2, f, k, m ++ X, by simp, hw, ha, hb2, hf, hk⟩

/-- **C27**, texts without the words CONTAINS and INTERSECTS. -/
theorem C27_no_geometry_word (s : Str)
    (h : ∀ u k z, s = u ++ (k ++ z) → ¬ SameCI k cs!"CONTAINS" ∧ ¬ SameCI k cs!"INTERSECTS") :
    preprocess s = .ok s := by
  apply C27_no_geometry_after_and
  rintro ⟨P, w, x, a, b, f, k, z, hs, -, -, -, -, hk⟩
  have := h (P ++ w ++ x ++ a ++ b ++ f) k z (by rw [hs]; simp)
  rcases hk with hk | hk
  · exact this.1 hk
  · exact this.2 hk

/-- non-trivial case: a geometry that stands first is not moved -/
example : preprocess cs!"SELECT a FROM t WHERE CONTAINS(POINT('ICRS',1,2),CIRCLE('ICRS',1,2,3))=1 AND b=2" =
    .ok cs!"SELECT a FROM t WHERE CONTAINS(POINT('ICRS',1,2),CIRCLE('ICRS',1,2,3))=1 AND b=2" := by
  kernel_rfl

/-! ### C28 -/

/-- **C28.** What preprocessing returns: the text itself when nothing has the form; otherwise, for
the leftmost such part, the expansion of the replacement. -/
theorem C28_rewrite {s t : Str} (h : preprocess s = .ok t) :
    (¬ Matching s ∧ t = s) ∨
    ∃ P v L G R T L' G', s = P ++ v ∧ WhereForm v L G R T ∧
      (∀ P1 P2, P = P1 ++ P2 → P2 ≠ [] → ¬ ∃ L G R T, WhereForm (P2 ++ v) L G R T) ∧
      checkAndAdjustParens L G = .ok (L', G') ∧
      t = P ++ fmtExpand ⟨P, v, [], capsOf L G R T⟩ 5 (replacement L' G' (R.getD [])) := by
  unfold preprocess at h
  cases hm : geomRegex.search [] s with
  | none =>
    rw [hm] at h
    cases h
    exact .inl ⟨(search_none_iff s).1 hm, rfl⟩
  | some m =>
    rw [hm] at h
    obtain ⟨P, v, L, G, R, T, hs, hw, rfl, hleft⟩ := search_some hm
    simp only [tweakInputString, str_one, str_two, str_three] at h
    cases hc : checkAndAdjustParens L G with
    | error e => rw [hc] at h; cases h
    | ok x =>
      obtain ⟨L', G'⟩ := x
      rw [hc] at h
      cases h
      exact .inr ⟨P, v, L, G, R, T, L', G', hs, hw, hleft, hc, by simp⟩

/-- The pair after the check is the pair itself or the pair without one enclosing pair of
parentheses. -/
def Stripped (L G L' G' : Str) : Prop :=
  (L' = L ∧ G' = G) ∨ (L = '(' :: L' ∧ G = G' ++ [')'])

theorem scanGeom_last {w : Bool} : ∀ {t : Str} {d : Nat}, t ≠ [] →
    scanGeom w t d false = .ok true → ∃ n, t = n ++ [')']
  | [], d, h, _ => absurd rfl h
  | c :: t, d, _, h => by
    unfold scanGeom at h
    simp only [Bool.false_eq_true, if_false] at h
    have step : ∀ d', scanGeom w t d' false = .ok true → ∃ n, c :: t = n ++ [')'] := by
      intro d' h'
      cases t with
      | nil => cases h'
      | cons x t =>
        obtain ⟨n, hn⟩ := scanGeom_last (by simp) h'
        exact ⟨c :: n, by rw [hn]; rfl⟩
    split at h
    · exact step _ h
    · split at h
      · rename_i hc
        split at h
        · cases h
        · cases hx : (decide (d - 1 = 0) && w) with
          | false => rw [hx] at h; exact step _ h
          | true =>
            rw [hx] at h
            cases t with
            | nil => exact ⟨[], by rw [hc]; rfl⟩
            | cons x t => simp [scanGeom] at h
      · exact step _ h

theorem scanGeom_within : ∀ {t : Str} {d : Nat} {w : Bool},
    scanGeom w t d false = .ok true → w = true
  | [], d, w, h => by cases h
  | c :: t, d, w, h => by
    unfold scanGeom at h
    simp only [Bool.false_eq_true, if_false] at h
    split at h
    · exact scanGeom_within h
    · split at h
      · split at h
        · cases h
        · cases w with
          | true => rfl
          | false => simp only [Bool.and_false] at h; exact scanGeom_within h
      · exact scanGeom_within h

theorem scanLeft_within : ∀ {t : Str} {d e : Nat} {w : Bool},
    scanLeft t d w = .ok (e, true) → w = true
  | [], d, e, w, h => by cases h; rfl
  | c :: t, d, e, w, h => by
    unfold scanLeft at h
    split at h
    · exact scanLeft_within h
    · split at h
      · split at h
        · cases h
        · have := scanLeft_within h
          split at this
          · cases this
          · exact this
      · exact scanLeft_within h

/-- At most one enclosing pair of parentheses is removed (whatever the depth). -/
theorem check_stripped {L G L' G' : Str} (h : checkAndAdjustParens L G = .ok (L', G')) :
    Stripped L G L' G' := by
  unfold checkAndAdjustParens at h
  cases hs : scanLeft L 0 (L.head? == some '(') with
  | error e => rw [hs] at h; cases h
  | ok x =>
    obtain ⟨depth, within⟩ := x
    rw [hs] at h
    simp only at h
    split at h
    · cases h
    · cases hg : scanGeom within G depth false with
      | error e => rw [hg] at h; cases h
      | ok c =>
        rw [hg] at h
        cases c with
        | false => simp only [Bool.false_eq_true, if_false] at h; cases h; exact .inl ⟨rfl, rfl⟩
        | true =>
          simp only [if_true] at h
          cases h
          have hw := scanGeom_within hg
          subst hw
          have hhead := scanLeft_within hs
          have hG : G ≠ [] := by rintro rfl; cases hg
          obtain ⟨n, rfl⟩ := scanGeom_last hG hg
          cases L with
          | nil => cases hhead
          | cons c L =>
            simp only [List.head?_cons, beq_iff_eq, Option.some.injEq] at hhead
            subst hhead
            exact .inr ⟨rfl, by simp⟩

theorem mem_where {v L G T : Str} {R : Option Str} (h : WhereForm v L G R T) {c : Char} :
    (c ∈ L → c ∈ v) ∧ (c ∈ G → c ∈ v) ∧ (c ∈ R.getD [] → c ∈ v) ∧ (c ∈ T → c ∈ v) := by
  obtain ⟨w, b1, a, b2, X, rfl, -, -, -, -, -, -, -, hX, -⟩ := h
  cases R with
  | none => subst hX; simp +contextual
  | some R =>
    obtain ⟨b3, a', b4, rfl, -⟩ := hX
    simp +contextual

theorem replacement_dollar {L G L' G' R : Str} (hst : Stripped L G L' G') (hL : '$' ∉ L) (hG : '$' ∉ G)
    (hR : '$' ∉ R) : '$' ∉ replacement L' G' R := by
  have h1 : '$' ∉ L' := by
    rcases hst with ⟨rfl, -⟩ | ⟨rfl, -⟩
    · exact hL
    · exact fun h => hL (by simp [h])
  have h2 : '$' ∉ G' := by
    rcases hst with ⟨-, rfl⟩ | ⟨-, rfl⟩
    · exact hG
    · exact fun h => hG (by simp [h])
  unfold replacement
  split <;> simp [h1, h2, hR]

/-- **C28**, in closed form when the conditions contain no `$`. -/
theorem C28_closed {s t : Str} (h : preprocess s = .ok t) :
    (¬ Matching s ∧ t = s) ∨
    ∃ P v L G R T L' G', s = P ++ v ∧ WhereForm v L G R T ∧ Stripped L G L' G' ∧
      ('$' ∉ L → '$' ∉ G → '$' ∉ R.getD [] →
        t = P ++ (cs!"WHERE " ++ G' ++ cs!" AND " ++ L' ++
          (match R with | some R => cs!" AND " ++ R | none => []))) := by
  rcases C28_rewrite h with h | ⟨P, v, L, G, R, T, L', G', hs, hw, -, hc, rfl⟩
  · exact .inl h
  · refine .inr ⟨P, v, L, G, R, T, L', G', hs, hw, check_stripped hc, fun hL hG hR => ?_⟩
    rw [fmtExpand_plain _ _ _ (replacement_dollar (check_stripped hc) hL hG hR)]
    congr 1
    unfold replacement
    cases R with
    | none => rfl
    | some R =>
      obtain ⟨w, b1, a, b2, X, -, -, -, -, -, -, -, -, ⟨b3, a', b4, -, -, -, -, ⟨x, m, rfl, -⟩, -⟩, -⟩ := hw
      rfl

/-- non-trivial case -/
example : preprocess cs!"SELECT a FROM t WHERE (b=2 and 0 = Contains(p,q)) AND d>1" =
    .ok cs!"SELECT a FROM t WHERE 0 = Contains(p,q) AND b=2 AND d>1" := by kernel_rfl

/-! ### C32 -/

/-- **C32** for texts without `$`: every part reaches the parser verbatim. -/
theorem C32_no_dollar_partial {s t : Str} (h : preprocess s = .ok t) (hd : '$' ∉ s) :
    t = s ∨ ∃ P v L G R T L' G', s = P ++ v ∧ WhereForm v L G R T ∧ Stripped L G L' G' ∧
        t = P ++ (cs!"WHERE " ++ G' ++ cs!" AND " ++ L' ++
          (match R with | some R => cs!" AND " ++ R | none => [])) := by
  rcases C28_closed h with h | ⟨P, v, L, G, R, T, L', G', rfl, hw, hst, ht⟩
  · exact .inl h.2
  · have hv : '$' ∉ v := fun hv => hd (by simp [hv])
    exact .inr ⟨P, v, L, G, R, T, L', G', rfl, hw, hst, ht (fun x => hv ((mem_where hw).1 x))
      (fun x => hv ((mem_where hw).2.1 x)) (fun x => hv ((mem_where hw).2.2.1 x))⟩

theorem dig_iff (c : Char) : Dig c ↔ c.isDigit = true := by
  simp [Dig, Char.isDigit, Char.le_def]

/-- The expansion of the model is the one of the specification, for every match. -/
theorem fmtExpand_expands (m : Match) (size : Nat) : ∀ (n : Nat) (s : Str), s.length ≤ n →
    Expands m.pre m.whole m.post (fun n => if n < size then m.str n else []) s (fmtExpand m size s)
  | _, [], _ => .nil
  | 0, _ :: _, h => by simp at h
  | n + 1, c :: s, h => by
    have ih : ∀ r : Str, r.length ≤ s.length → _ := fun r hr => fmtExpand_expands m size n r (by simp at h; omega)
    unfold fmtExpand
    by_cases hc : c = '$'
    · subst hc
      simp only [bne_self_eq_false, Bool.false_eq_true, if_false]
      cases s with
      | nil => exact .last
      | cons d r =>
        simp only [beq_iff_eq]
        by_cases h1 : d = '$'
        · subst h1; simp only [if_true]; exact .dollar (ih r (by simp))
        by_cases h2 : d = '&'
        · subst h2; simp only [if_neg h1, if_true]; exact .whole (ih r (by simp))
        by_cases h3 : d = '`'
        · subst h3; simp only [if_neg h1, if_neg h2, if_true]; exact .pre (ih r (by simp))
        by_cases h4 : d = '\''
        · subst h4; simp only [if_neg h1, if_neg h2, if_neg h3, if_true]; exact .post (ih r (by simp))
        rw [if_neg h1, if_neg h2, if_neg h3, if_neg h4]
        by_cases h5 : d.isDigit = true
        · rw [if_pos h5]
          cases r with
          | nil =>
            have := Expands.one (pre := m.pre) (whole := m.whole) (post := m.post)
              (grp := fun n => if n < size then m.str n else []) ((dig_iff d).2 h5) (s := []) nofun .nil
            simpa using this
          | cons e r =>
            simp only
            split
            · next h6 =>
              have := Expands.two (pre := m.pre) (whole := m.whole) (post := m.post)
                (grp := fun n => if n < size then m.str n else []) ((dig_iff d).2 h5) ((dig_iff e).2 h6) (ih r (by simp; omega))
              rw [Nat.mul_comm 10] at this
              exact this
            · next h6 =>
              exact Expands.one ((dig_iff d).2 h5) (fun e' r' he => by
                cases he
                exact fun hd => h6 ((dig_iff _).1 hd)) (ih (e :: r) (by simp))
        · rw [if_neg h5]
          exact .other (by simp [h1, h2, h3, h4]) (fun hd => h5 ((dig_iff d).1 hd)) (ih (d :: r) (by simp))
    · have : (c != '$') = true := by simpa using hc
      rw [if_pos this]
      exact .char hc (ih s (Nat.le_refl _))

/-- A replacement text stands for one text only. -/
theorem expands_unique {pre whole post : Str} {grp : Nat → Str} {s u : Str} (h : Expands pre whole post grp s u) :
    ∀ {u'}, Expands pre whole post grp s u' → u = u' := by
  have d1 : ¬ Dig '$' := by rw [dig_iff]; decide
  have d2 : ¬ Dig '&' := by rw [dig_iff]; decide
  have d3 : ¬ Dig '`' := by rw [dig_iff]; decide
  have d4 : ¬ Dig '\'' := by rw [dig_iff]; decide
  induction h with
  | nil => intro u' h'; cases h'; rfl
  | char hc _ ih =>
    intro u' h'
    cases h' with
    | char _ h => rw [ih h]
    | _ => exact absurd rfl hc
  | dollar _ ih =>
    intro u' h'
    cases h' with
    | dollar h => rw [ih h]
    | char h _ => exact absurd rfl h
    | one h _ _ => exact absurd h d1
    | two h _ _ => exact absurd h d1
    | other h _ _ => simp at h
  | whole _ ih =>
    intro u' h'
    cases h' with
    | whole h => rw [ih h]
    | char h _ => exact absurd rfl h
    | one h _ _ => exact absurd h d2
    | two h _ _ => exact absurd h d2
    | other h _ _ => simp at h
  | pre _ ih =>
    intro u' h'
    cases h' with
    | pre h => rw [ih h]
    | char h _ => exact absurd rfl h
    | one h _ _ => exact absurd h d3
    | two h _ _ => exact absurd h d3
    | other h _ _ => simp at h
  | post _ ih =>
    intro u' h'
    cases h' with
    | post h => rw [ih h]
    | char h _ => exact absurd rfl h
    | one h _ _ => exact absurd h d4
    | two h _ _ => exact absurd h d4
    | other h _ _ => simp at h
  | one hd hs _ ih =>
    intro u' h'
    cases h' with
    | one _ _ h => rw [ih h]
    | two _ he _ => exact absurd he (hs _ _ rfl)
    | other _ h _ => exact absurd hd h
    | _ => contradiction
  | two hd he _ ih =>
    intro u' h'
    cases h' with
    | one _ h _ => exact absurd he (h _ _ rfl)
    | two _ _ h => rw [ih h]
    | other _ h _ => exact absurd hd h
    | _ => contradiction
  | last => intro u' h'; cases h' <;> first | rfl | contradiction
  | other hd hn _ ih =>
    intro u' h'
    cases h' with
    | other _ _ h => rw [ih h]
    | one h _ _ => exact absurd h hn
    | two h _ _ => exact absurd h hn
    | char h _ => exact absurd rfl h
    | _ => simp at hd

/-- **C32**, the exact statement: what becomes of the dollar signs.  When the text is rewritten, the parts
reach the parser as the expansion of the replacement text that they form. -/
theorem C32_exact {s t : Str} (h : preprocess s = .ok t) (hm : Matching s) :
    ∃ P v L G R T L' G' u, s = P ++ v ∧ WhereForm v L G R T ∧ Stripped L G L' G' ∧
      Expands P v [] (groups v L G R T)
        (cs!"WHERE " ++ G' ++ cs!" AND " ++ L' ++ (match R with | some R => cs!" AND " ++ R | none => [])) u ∧
      t = P ++ u := by
  rcases C28_rewrite h with h | ⟨P, v, L, G, R, T, L', G', hs, hw, -, hc, rfl⟩
  · exact absurd hm h.1
  · have he := fmtExpand_expands ⟨P, v, [], capsOf L G R T⟩ 5 _ (replacement L' G' (R.getD [])) (Nat.le_refl _)
    have hg : (fun n => if n < 5 then (Match.mk P v [] (capsOf L G R T)).str n else []) = groups v L G R T := by
      funext n
      match n with
      | 0 => rfl
      | 1 => simp [groups]
      | 2 => simp [groups]
      | 3 => simp [groups]
      | 4 => cases R <;> simp [groups, Match.str, capsOf]
      | n + 5 => exact if_neg (by omega)
    rw [hg] at he
    refine ⟨P, v, L, G, R, T, L', G', _, hs, hw, check_stripped hc, ?_, rfl⟩
    cases R with
    | none => exact he
    | some R =>
      obtain ⟨w, b1, a, b2, X, -, -, -, -, -, -, -, -, ⟨b3, a', b4, -, -, -, -, ⟨x, m, rfl, -⟩, -⟩, -⟩ := hw
      exact he

/-- non-trivial case: `$$` in a condition becomes `$` -/
example : preprocess cs!"SELECT a FROM t WHERE b='$$' AND CONTAINS(p,q)=1" =
    .ok cs!"SELECT a FROM t WHERE CONTAINS(p,q)=1 AND b='$'" := by kernel_rfl

/-- **C32 is violated**: a `$` in a string of the condition is expanded. -/
theorem C32_violated :
    preprocess cs!"SELECT a FROM t WHERE b='$1' AND CONTAINS(p,q)=1" =
      .ok cs!"SELECT a FROM t WHERE CONTAINS(p,q)=1 AND b='b='$1''" ∧
    preprocess cs!"SELECT a FROM t WHERE b='5$' AND CONTAINS(p,q)=1" =
      .ok cs!"SELECT a FROM t WHERE CONTAINS(p,q)=1 AND b='5" := by
  constructor <;> kernel_rfl

/-! ### C29 -/

/-- The end of a WHERE condition, as text: nothing but blanks follows. -/
def NothingFollows (T : Str) : Prop := Bl T

/-- **C29 is violated** for every rewritten text: the part after the condition has no influence on the
result, it is dropped. -/
theorem C29_tail_dropped {s t : Str} (h : preprocess s = .ok t) (hm : Matching s) (hd : '$' ∉ s) :
    ∃ P v L G R T L' G', s = P ++ v ∧ WhereForm v L G R T ∧ Stripped L G L' G' ∧
      t = P ++ (cs!"WHERE " ++ G' ++ cs!" AND " ++ L' ++
          (match R with | some R => cs!" AND " ++ R | none => [])) := by
  rcases C28_closed h with h | ⟨P, v, L, G, R, T, L', G', rfl, hw, hst, ht⟩
  · exact absurd hm h.1
  · have hv : '$' ∉ v := fun hv => hd (by simp [hv])
    exact ⟨P, v, L, G, R, T, L', G', rfl, hw, hst, ht (fun x => hv ((mem_where hw).1 x))
      (fun x => hv ((mem_where hw).2.1 x)) (fun x => hv ((mem_where hw).2.2.1 x))⟩

/-- **C29**, witnesses: ORDER BY, GROUP BY and HAVING disappear. -/
theorem C29_violated :
    preprocess cs!"SELECT a FROM t WHERE b=1 AND CONTAINS(p,q)=1 ORDER BY a" =
      .ok cs!"SELECT a FROM t WHERE CONTAINS(p,q)=1 AND b=1" ∧
    preprocess cs!"SELECT a FROM t WHERE b=1 AND CONTAINS(p,q)=1 AND d=2 GROUP BY a HAVING a>1" =
      .ok cs!"SELECT a FROM t WHERE CONTAINS(p,q)=1 AND b=1 AND d=2" := by
  constructor <;> kernel_rfl

end Adql
