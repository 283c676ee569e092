import Verif.Model.AcceptQuery

/-!
# Running the grammar forward: CASE, CAST and the other operands that start with a word
-/

namespace Adql.Fwd

open P Spec

variable {cfg : Config} {sk : Bool} {S : Mode} [Fits S cfg]

/-! ### Words inside operands -/

/-- An operand that starts with a keyword. -/
theorem good_kwG {w s t z : Str} {p : Prim} (hs : Kw w s t) (hz : ∀ r, NotContinued r → NotContinued (z ++ r))
    (hw : primKw w = true)
    (h : ∀ r, PrimEnd r → KwStart w t (z ++ r) → parse cfg primary2 true (t ++ (z ++ r)) = .ok p r) :
    GoodP cfg (s ++ z) p := by
  refine ⟨fun r hr => ?_, fun r hr => ?_, fun r hr => ?_⟩ <;> rw [List.append_assoc]
  · obtain ⟨b, hb, e, hk⟩ := kw_split hs (primKw_shape hw) (hz r hr)
    rw [e]; exact (lead_kwStart hk (primKw_start hw)).blanks hb
  · obtain ⟨b, hb, e, hk⟩ := kw_split hs (primKw_shape hw) (hz r hr.1)
    rw [e, nvf_blanks hb]; exact prim_noFn hk hw
  · obtain ⟨b, hb, e, hk⟩ := kw_split hs (primKw_shape hw) (hz r hr.1)
    rw [e, primary_blanks hb, prim_entry hk hw]; exact h r hr hk

theorem andNsSpace_ok {y : Str} (h : BlankFirst y) : parse cfg andNsSpace sk y = .ok () y := by
  obtain ⟨c, t, rfl, hc⟩ := h
  simp [andNsSpace, parse, step, skip, hc]

theorem plus_one {α : Type} {p : G α} {s r : Str} {a : α} (h : parse cfg p true s = .ok a r)
    (hr : parse cfg p true r = .fail) : parse cfg (plus p) true s = .ok [a] r :=
  map_ok (f := fun x : α × List α => x.1 :: x.2) (seq_ok h (star_nil hr))

theorem plus_star {α : Type} {p : G α} (hc : p.consumes = true) {s r : Str} {l : List α}
    (h : parse cfg (plus p) true s = .ok l r) : parse cfg (.star p) true s = .ok l r := by
  simp only [plus, parse, run_map, run_seq] at h
  cases h1 : step (D cfg) p true s with
  | ok a r' =>
    rw [h1] at h
    simp only [Res.bind_ok] at h
    cases h2 : step (D cfg) (.star p) true r' with
    | ok l' r'' =>
      rw [h2] at h
      cases h
      exact star_cons hc h1 h2
    | fail => rw [h2] at h; cases h
    | err e => rw [h2] at h; cases h
    | oof => rw [h2] at h; cases h
  | fail => rw [h1] at h; cases h
  | err e => rw [h1] at h; cases h
  | oof => rw [h1] at h; cases h

theorem plus_cons {α : Type} {p : G α} (hc : p.consumes = true) {s m r : Str} {a : α} {l : List α}
    (h : parse cfg p true s = .ok a m) (ht : parse cfg (plus p) true m = .ok l r) :
    parse cfg (plus p) true s = .ok (a :: l) r :=
  map_ok (f := fun x : α × List α => x.1 :: x.2) (seq_ok h (plus_star hc ht))

theorem word_ends {w k t z : Str} (h : Word w k t) {ws : List Str} (hw : w ∈ ws) (hz : NotContinued z) :
    Ends ws (k ++ z) := .inr ⟨w, k, t, z, hw, h, hz, rfl⟩

/-- a word and a blank after it -/
theorem kw_space {w k t y : Str} (h : Kw w k t) (hw : wordShape w = true) (hy : BlankFirst y) :
    parse cfg (.seq (kw w) andNsSpace) true (k ++ y) = .ok (t, ()) y :=
  seq_ok (kw_ok h hw (blankFirst_notContinued hy)) (andNsSpace_ok hy)

/-! ### CASE -/

/-- the words after the branches of a CASE -/
def elseWords : List Str := [cs!"ELSE", cs!"END"]
/-- the words after the value of a branch -/
def whenWords : List Str := [cs!"WHEN", cs!"ELSE", cs!"END"]

/-- The text spells the branches `ws`. -/
structure GoodWhens (cfg : Config) (s : Str) (ws : List SimpleWhen) : Prop where
  start : ∀ r, Ends [cs!"WHEN"] (s ++ r)
  run : ∀ r, Ends elseWords r → parse cfg (plus simpleWhen) true (s ++ r) = .ok ws r

/-- The text spells the branches `ws`. -/
structure GoodConds (cfg : Config) (s : Str) (ws : List SearchedWhen) : Prop where
  blank : BlankFirst s
  start : ∀ r, ∃ k k' y, Word cs!"WHEN" k k' ∧ BlankFirst y ∧ s ++ r = k ++ y
  run : ∀ r, Ends elseWords r → parse cfg (plus searchedWhen) true (s ++ r) = .ok ws r

/-- The text spells the optional ELSE. -/
structure GoodElse (cfg : Config) (s : Str) (x : CaseResult) : Prop where
  start : ∀ r, Ends [cs!"END"] r → Ends elseWords (s ++ r)
  run : ∀ r, Ends [cs!"END"] r → parse cfg (optD CaseResult.dflt elseClause) true (s ++ r) = .ok x r

theorem GoodV.result {p g : Bool} {s r : Str} {v : VE} (h : GoodV cfg p g s v) (hr : VEnd r) :
    parse cfg caseResult true (s ++ r) = .ok (.ve v) r := alt_left (map_ok (h.ve hr))

theorem simpleWhen_ok {k k' u t t' x r : Str} {p g p' g' : Bool} {v y : VE} (hk : Word cs!"WHEN" k k') (hbu : BlankFirst u)
    (hu : GoodV cfg p g u v) (ht : Word cs!"THEN" t t') (hbx : BlankFirst x) (hx : GoodV cfg p' g' x y) (hr : Ends whenWords r) :
    parse cfg simpleWhen true (k ++ (u ++ (t ++ (x ++ r)))) = .ok (.mk v (.ve y)) r := by
  have hn := blankFirst_notContinued' (r := r) hbx
  exact map_ok (f := fun x : VE × CaseResult => SimpleWhen.mk x.1 x.2)
    (seqR_ok (kw_space hk.1 (by decide) (blankFirst_append hbu))
      (seq_ok (expect_ok (seqL_ok (hu.ve (word_v ht (by decide) hn)) (kw_ok ht.1 (by decide) hn)))
        (seqR_ok (expect_ok (andNsSpace_ok (blankFirst_append hbx))) (expect_ok (hx.result (ends_v (by decide) hr))))))

theorem simpleWhen_fail {r : Str} (hr : Ends elseWords r) : parse cfg simpleWhen true r = .fail :=
  map_fail (seqR_fail (seq_fail (kw_fail (ends_none (by decide) hr (by decide)))))

theorem searchedWhen_ok {k k' u t t' x r : Str} {h : Head} {o : Bool} {c : SC} {p' g' : Bool} {y : VE} (hk : Word cs!"WHEN" k k')
    (hbu : BlankFirst u) (hu : GoodC cfg h o u c) (ht : Word cs!"THEN" t t') (hbx : BlankFirst x) (hx : GoodV cfg p' g' x y)
    (hr : Ends whenWords r) :
    parse cfg searchedWhen true (k ++ (u ++ (t ++ (x ++ r)))) = .ok (.mk c (.ve y)) r := by
  have he : Ends [cs!"THEN"] (t ++ (x ++ r)) := word_ends ht (by simp) (blankFirst_notContinued' hbx)
  exact map_ok (f := fun x : SC × CaseResult => SearchedWhen.mk x.1 x.2)
    (seqR_ok (kw_space hk.1 (by decide) (blankFirst_append hbu))
      (seq_ok (seqL_ok (hu.run _ ⟨ends_expr (by decide) he, fun _ => ends_bare (by decide) (by decide) he⟩
        (ends_log (by decide) (by decide) he)) (kw_space ht.1 (by decide) (blankFirst_append hbx)))
        (hx.result (ends_v (by decide) hr))))

theorem searchedWhen_fail {r : Str} (hr : Ends elseWords r) : parse cfg searchedWhen true r = .fail :=
  map_fail (seqR_fail (seq_fail (kw_fail (ends_none (by decide) hr (by decide)))))

theorem whenWords_else {r : Str} (h : Ends elseWords r) : Ends whenWords r := ends_mono (by decide) h

theorem good_whensOne {k k' u t t' x : Str} {p g p' g' : Bool} {v y : VE} (hk : Word cs!"WHEN" k k') (hbu : BlankFirst u)
    (hu : GoodV cfg p g u v) (ht : Word cs!"THEN" t t') (hbx : BlankFirst x) (hx : GoodV cfg p' g' x y) :
    GoodWhens cfg (k ++ (u ++ (t ++ x))) [.mk v (.ve y)] := by
  refine ⟨fun r => ?_, fun r hr => ?_⟩ <;> simp only [List.append_assoc]
  · exact word_ends hk (by simp) (blankFirst_notContinued' hbu)
  · exact plus_one (simpleWhen_ok hk hbu hu ht hbx hx (whenWords_else hr)) (simpleWhen_fail hr)

theorem good_whensCons {k k' u t t' x w : Str} {p g p' g' : Bool} {v y : VE} {ws : List SimpleWhen} (hk : Word cs!"WHEN" k k')
    (hbu : BlankFirst u) (hu : GoodV cfg p g u v) (ht : Word cs!"THEN" t t') (hbx : BlankFirst x) (hx : GoodV cfg p' g' x y)
    (hw : GoodWhens cfg w ws) :
    GoodWhens cfg (k ++ (u ++ (t ++ (x ++ w)))) (.mk v (.ve y) :: ws) := by
  refine ⟨fun r => ?_, fun r hr => ?_⟩ <;> simp only [List.append_assoc]
  · exact word_ends hk (by simp) (blankFirst_notContinued' hbu)
  · exact plus_cons rfl (simpleWhen_ok hk hbu hu ht hbx hx (ends_mono (by decide) (hw.start r))) (hw.run r hr)

theorem good_condsOne {k k' u t t' x : Str} {h : Head} {o : Bool} {c : SC} {p' g' : Bool} {y : VE} (hk : Word cs!"WHEN" k k')
    (hbu : BlankFirst u) (hu : GoodC cfg h o u c) (ht : Word cs!"THEN" t t') (hbx : BlankFirst x) (hx : GoodV cfg p' g' x y) :
    GoodConds cfg (k ++ (u ++ (t ++ x))) [.mk c (.ve y)] := by
  refine ⟨blankFirst_append hk.2, fun r => ⟨k, k', u ++ (t ++ (x ++ r)), hk, blankFirst_append hbu, by simp⟩, fun r hr => ?_⟩
  simp only [List.append_assoc]
  exact plus_one (searchedWhen_ok hk hbu hu ht hbx hx (whenWords_else hr)) (searchedWhen_fail hr)

theorem good_condsCons {k k' u t t' x w : Str} {h : Head} {o : Bool} {c : SC} {p' g' : Bool} {y : VE} {ws : List SearchedWhen}
    (hk : Word cs!"WHEN" k k') (hbu : BlankFirst u) (hu : GoodC cfg h o u c) (ht : Word cs!"THEN" t t')
    (hbx : BlankFirst x) (hx : GoodV cfg p' g' x y) (hw : GoodConds cfg w ws) :
    GoodConds cfg (k ++ (u ++ (t ++ (x ++ w)))) (.mk c (.ve y) :: ws) := by
  refine ⟨blankFirst_append hk.2, fun r => ⟨k, k', u ++ (t ++ (x ++ (w ++ r))), hk, blankFirst_append hbu, by simp⟩, fun r hr => ?_⟩
  simp only [List.append_assoc]
  refine plus_cons rfl (searchedWhen_ok hk hbu hu ht hbx hx ?_) (hw.run r hr)
  obtain ⟨k, k', y, h1, h2, e⟩ := hw.start r
  rw [e]
  exact word_ends h1 (by decide) (blankFirst_notContinued h2)

theorem good_elseNone : GoodElse cfg [] CaseResult.dflt :=
  ⟨fun _ hr => ends_mono (by decide) hr,
    fun _ hr => optD_none (seqR_fail (seq_fail (kw_fail (ends_none (by decide) hr (by decide)))))⟩

theorem good_elseSome {k k' x : Str} {p' g' : Bool} {y : VE} (hk : Word cs!"ELSE" k k') (hbx : BlankFirst x) (hx : GoodV cfg p' g' x y) :
    GoodElse cfg (k ++ x) (.ve y) := by
  refine ⟨fun r _ => ?_, fun r hr => ?_⟩ <;> rw [List.append_assoc]
  · exact word_ends hk (by decide) (blankFirst_notContinued' hbx)
  · exact optD_ok (seqR_ok (kw_space hk.1 (by decide) (blankFirst_append hbx)) (hx.result (ends_v (by decide) hr)))

theorem case_entry {t y : Str} {x : CaseE} {r : Str} (hk : KwStart cs!"CASE" t y) (hb : BlankFirst y)
    (h : parse cfg (.alt simpleCase searchedCase) true y = .ok x r) :
    parse cfg primary2 true (t ++ y) = .ok (.case x) r := by
  rw [nullif_entry hk (by decide +kernel)]
  refine alt_left (map_ok ?_)
  have h1 : parse cfg nullif true (t ++ y) = .fail :=
    map_fail (seqR_fail (stuck_seq_fail (stuck_kw hk.bare (hk.apart (ws := [cs!"NULLIF"]) (by decide) _ (by simp)))
      fun _ _ hc => sym_idChar hc (by decide)))
  have h2 : parse cfg coalesce true (t ++ y) = .fail :=
    map_fail (seqR_fail (stuck_seq_fail (stuck_kw hk.bare (hk.apart (ws := [cs!"COALESCE"]) (by decide) _ (by simp)))
      fun _ _ hc => sym_idChar hc (by decide)))
  exact (alt_right (alt_fail h1 h2)).trans (seqR_ok (seq_ok (kw_start hk) (andNsSpace_ok hb)) (expect_ok h))

theorem good_caseOf {s t u w e k k' : Str} {p g : Bool} {v : VE} {ws : List SimpleWhen} {x : CaseResult} (hs : Kw cs!"CASE" s t)
    (hb : BlankFirst u) (hu : GoodV cfg p g u v) (hw : GoodWhens cfg w ws) (he : GoodElse cfg e x)
    (hk : Word cs!"END" k k') : GoodP cfg (s ++ (u ++ (w ++ (e ++ k)))) (.case (.simple v ws x)) := by
  refine good_kwG hs (fun r _ => by rw [List.append_assoc]; exact blankFirst_notContinued' hb) (by decide +kernel)
    fun r hr hc => ?_
  simp only [List.append_assoc] at hc ⊢
  have hE : Ends [cs!"END"] (k ++ r) := word_ends hk (by simp) hr.1
  exact case_entry hc (blankFirst_append hb) (alt_left (map_ok (f := fun x : VE × List SimpleWhen × CaseResult =>
      CaseE.simple x.1 x.2.1 x.2.2)
    (seqL_ok (seq_ok (hu.ve (ends_v (by decide) (hw.start _))) (seq_ok (hw.run _ (he.start _ hE)) (he.run _ hE)))
      (expect_ok (kw_ok hk.1 (by decide) hr.1)))))

theorem good_caseWhen {s t w e k k' : Str} {ws : List SearchedWhen} {x : CaseResult} (hs : Kw cs!"CASE" s t)
    (hw : GoodConds cfg w ws) (he : GoodElse cfg e x) (hk : Word cs!"END" k k') :
    GoodP cfg (s ++ (w ++ (e ++ k))) (.case (.searched ws x)) := by
  refine good_kwG hs (fun r _ => by rw [List.append_assoc]; exact blankFirst_notContinued' hw.blank) (by decide +kernel)
    fun r hr hc => ?_
  simp only [List.append_assoc] at hc ⊢
  have hE : Ends [cs!"END"] (k ++ r) := word_ends hk (by simp) hr.1
  have hve : parse cfg ve true (w ++ (e ++ (k ++ r))) = .fail := by
    obtain ⟨k, k', y, h1, h2, e⟩ := hw.start (e ++ (k ++ r))
    rw [e]
    obtain ⟨b, hb, e, h3⟩ := word_split h1 (by decide) (blankFirst_notContinued h2)
    have e' : skip true (k ++ y) = k' ++ y := by rw [e, skip_blanks hb, skip_bare h3.bare]
    have hv : parse cfg venb true (k ++ y) = .fail := by
      rw [e, venb_blanks hb]
      exact venb_fail_kw h3 (by decide +kernel)
    obtain ⟨c, h4, h5⟩ := kwStart_next h3 e'
    rw [ve, parse_nt]
    refine alt_fail (map_fail hv) (map_fail (sc_fail hv ?_ ?_ ?_))
    · rw [e']; exact h3.none (by decide)
    · rw [e']; exact h3.none (by decide)
    · rw [h4]; rintro ⟨⟩; exact absurd h5 (by decide)
  refine case_entry hc (blankFirst_append hw.blank) ((alt_right (map_fail (seqL_fail (seq_fail hve)))).trans ?_)
  exact map_ok (f := fun x : List SearchedWhen × CaseResult => CaseE.searched x.1 x.2)
    (seq_ok (hw.run _ (he.start _ hE)) (seqL_ok (he.run _ hE)
      (seq_ok (andNsSpace_ok (blankFirst_append hk.2)) (kw_ok hk.1 (by decide) hr.1))))

/-! ### ANY and NULL -/

theorem good_any {s t o u c : Str} {p g : Bool} {v : VE} (hs : Kw cs!"ANY" s t) (ho : Tok cs!"(" o) (hu : GoodV cfg p g u v)
    (hc : Tok cs!")" c) : GoodP cfg (s ++ (o ++ (u ++ c))) (.any v) := by
  refine good_kw hs ho (by decide +kernel) fun r hk => ?_
  simp only [List.append_assoc] at hk ⊢
  rw [nullif_entry hk (by decide +kernel), alt_right (map_fail (case_fail hk.bare
    (hk.apart (ws := [cs!"NULLIF"]) (by decide) _ (by simp)) (hk.apart (ws := [cs!"COALESCE"]) (by decide) _ (by simp))
    (hk.apart (ws := [cs!"CASE"]) (by decide) _ (by simp))))]
  exact alt_left (map_ok (seqR_ok (seq_ok (kw_start hk) (sym_ok1 (by decide) ho))
    (seqL_ok (expect_ok (hu.ve (close_v hc))) (expect_ok (sym_ok1 (by decide) hc)))))

/-- Texts that differ are not mistaken for each other. -/
theorem matchLit_diff {t w w' r : Str} (ht : SameCI t w) (h1 : prefixCI w' w = false) (h2 : prefixCI w w' = false) :
    matchLit true w' (t ++ r) = none := by
  rw [matchLit_none]
  intro a z e hl
  have hl := litOK_ci.1 hl
  unfold SameCI at hl ht
  unfold prefixCI at h1 h2
  have e : t.map lowerC ++ r.map lowerC = a.map lowerC ++ z.map lowerC := by rw [← List.map_append, ← List.map_append, e]
  rw [ht, hl] at e
  rcases List.append_eq_append_iff.1 e with ⟨x, h3, -⟩ | ⟨x, h3, -⟩
  · rw [h3, List.isPrefixOf_iff_prefix.2 (List.prefix_append _ _)] at h2; cases h2
  · rw [h3, List.isPrefixOf_iff_prefix.2 (List.prefix_append _ _)] at h1; cases h1

theorem firstLit_diff {t r w : Str} (ht : SameCI t w) : ∀ {ws : List Str},
    w ∈ ws → (ws.all fun w' => w' == w || (!prefixCI w' w && !prefixCI w w')) = true →
    firstLit ws (t ++ r) = some (t, r)
  | [], hm, _ => by cases hm
  | w' :: ws, hm, hw => by
    rw [List.all_cons, Bool.and_eq_true] at hw
    by_cases h : w' = w
    · subst h
      simp only [firstLit, List.findSome?_cons, matchLit_iff.2 ⟨rfl, litOK_ci.2 ht⟩]
    · have h3 := hw.1
      simp only [Bool.or_eq_true, beq_iff_eq, h, false_or, Bool.and_eq_true, Bool.not_eq_true'] at h3
      have ih := firstLit_diff (r := r) ht (ws := ws) (by
        rcases List.mem_cons.1 hm with e | e
        · exact absurd e.symm h
        · exact e) hw.2
      simp only [firstLit, List.findSome?_cons, matchLit_diff ht h3.1 h3.2] at ih ⊢
      exact ih

/-- a typed null value starts with NULL and a colon -/
theorem nullCast_split {s t : Str} (h : KwIn nullCasts s t) : ∃ k n z, Kw cs!"NULL" k n ∧ s = k ++ z ∧ t = n ++ z ∧
    ∃ z', z = ':' :: z' := by
  obtain ⟨w, hw, b, hb, rfl, hs⟩ := h
  have hw' : ∃ w', w = cs!"NULL" ++ (':' :: w') := by
    simp only [nullCasts, List.mem_cons, List.not_mem_nil, or_false] at hw
    rcases hw with rfl | rfl | rfl <;> exact ⟨_, rfl⟩
  obtain ⟨w', rfl⟩ := hw'
  obtain ⟨n, z, rfl, h1, h2⟩ := sameCI_split hs
  refine ⟨b ++ n, n, z, ⟨b, hb, rfl, h1⟩, (List.append_assoc _ _ _).symm, rfl, ?_⟩
  cases z with
  | nil => cases h2
  | cons c z =>
    have h2 : lowerC c = lowerC ':' := (List.cons.inj h2).1
    refine ⟨z, ?_⟩
    have h3 := lowerC_toNat c
    have h4 : lowerC ':' = ':' := by decide
    rw [h2, h4] at h3
    have h5 : (':' : Char).toNat = 58 := rfl
    rw [h5] at h3
    split at h3
    · omega
    · rw [Char.toNat_inj.1 (by rw [← h3]; rfl : c.toNat = (':' : Char).toNat)]

theorem colon_notContinued {z r : Str} (h : ∃ z', z = ':' :: z') : NotContinued (z ++ r) := by
  obtain ⟨z', rfl⟩ := h
  rw [notContinued_iff]
  intro c u e
  cases e; decide

theorem good_nullCast {s t : Str} (h : KwIn nullCasts s t) : GoodP cfg s (.str t) := by
  have h' := h
  obtain ⟨k, n, z, hk, rfl, rfl, hz⟩ := nullCast_split h
  refine good_kwG hk (fun r _ => colon_notContinued hz) (by decide +kernel) fun r hr h => ?_
  rw [nullif_entry h (by decide +kernel),
    alt_right (map_fail (case_fail h.bare (h.apart (ws := [cs!"NULLIF"]) (by decide) _ (by simp))
      (h.apart (ws := [cs!"COALESCE"]) (by decide) _ (by simp)) (h.apart (ws := [cs!"CASE"]) (by decide) _ (by simp)))),
    alt_right (any_fail h.bare (h.apart (ws := [cs!"ANY"]) (by decide) _ (by simp)))]
  refine alt_left (map_ok ?_)
  rw [nullCast, lexeme_bare h.bare]
  simp only [parse, run_anyKw, skip_bare h.bare]
  obtain ⟨w, hw, b, hb, e, hs⟩ := h'
  have hp : (nullCasts.all fun w => nullCasts.all fun w' => w' == w || (!prefixCI w' w && !prefixCI w w')) = true := by
    decide +kernel
  have := firstLit_diff (r := r) hs (ws := nullCasts) hw (all_mem hp hw)
  rw [nullCasts, List.append_assoc] at this
  rw [this]

theorem front_nullCast {s t r : Str} (h : KwIn nullCasts s t) : Front cfg r (s ++ r) := by
  obtain ⟨k, n, z, hk, rfl, rfl, hz⟩ := nullCast_split h
  rw [List.append_assoc]
  exact front_kwF hk (by decide) (by decide +kernel) (colon_notContinued hz)

theorem front_null {s t r : Str} (h : Kw cs!"NULL" s t) (hr : PrimEnd r) : Front cfg r (s ++ r) :=
  front_kwF h (by decide) (by decide +kernel) hr.1

/-! ### Functions -/

/-- A function call that starts with a reserved word. -/
theorem good_fnKw {w s t o z : Str} {f : NumFn} (hs : Kw w s t) (ho : Tok cs!"(" o)
    (hw : (wordShape w && callWords.contains w && offTrig w && offAll fn0 w && offAll fn1 w && offAll fn2 w) = true)
    (h : ∀ r, KwStart w t (o ++ (z ++ r)) → parse cfg (.alt castFunction (.alt geoFunction
      (.alt userDefinedFunction (.map .str sqlNoArgFunction)))) true (t ++ (o ++ (z ++ r))) = .ok f r) :
    GoodF cfg (s ++ (o ++ z)) f := by
  simp only [Bool.and_eq_true, List.contains_iff_mem] at hw
  obtain ⟨⟨⟨⟨⟨h1, h2⟩, h3⟩, h4⟩, h5⟩, h6⟩ := hw
  refine ⟨fun r hr => ?_, fun r hr => ?_⟩ <;> simp only [List.append_assoc] <;>
    obtain ⟨b, hb, rfl, hk⟩ := kw_open (z := z ++ r) hs h1 ho <;> rw [List.append_assoc]
  · exact (lead_kwStart hk (List.mem_cons_of_mem _ h2)).blanks hb
  · rw [nvf_blanks hb, numericValueFunction, alt_right (trig_fail hk.bare (hk.apart h3)),
      alt_right (math_fail hk.bare (hk.apart h4) (hk.apart h5) (hk.apart h6))]
    exact h r hk

theorem len_ok {l n c r : Str} (h : LenT l n) (hc : Tok cs!")" c) :
    parse cfg (optS (seqR (sym cs!"(") (seqL (.expect "unsigned_integer" unsignedInteger) xClose))) true (l ++ (c ++ r)) =
      .ok n (c ++ r) := by
  cases h with
  | none =>
    refine optD_none (seqR_fail (sym_fail ?_))
    rw [List.nil_append, tok_next hc rfl (by decide)]; decide
  | some ho hn hd hc' =>
    simp only [List.append_assoc]
    exact optD_ok (seqR_ok (sym_ok1 (by decide) ho) (seqL_ok (expect_ok (unsignedInteger_ok hn hd
      (notContinued_tok hc' (by decide)))) (expect_ok (sym_ok1 (by decide) hc'))))

theorem len_stop {l n c r : Str} (h : LenT l n) (hc : Tok cs!")" c) : NotContinued (l ++ (c ++ r)) := by
  cases h with
  | none => rw [List.nil_append]; exact notContinued_tok hc (by decide)
  | some ho => simp only [List.append_assoc]; exact notContinued_tok ho (by decide)

theorem good_cast {s t o u a a' k ty l n c : Str} {p g : Bool} {v : VE} (hs : Kw cs!"CAST" s t) (ho : Tok cs!"(" o)
    (hu : GoodV cfg p g u v) (ha : Word cs!"AS" a a') (hk : KwIn castTypes k ty) (hb : BlankFirst k) (hl : LenT l n)
    (hc : Tok cs!")" c) :
    GoodF cfg (s ++ (o ++ (u ++ (a ++ (k ++ (l ++ c)))))) (.cast v ty n) := by
  refine good_fnKw hs ho (by decide +kernel) fun r h => ?_
  simp only [List.append_assoc] at h ⊢
  have h1 : parse cfg castAs true (k ++ (l ++ (c ++ r))) = .ok ty (l ++ (c ++ r)) := by
    obtain ⟨w, hw, hk⟩ := hk
    have hp : (castTypes.all fun w => wordShape w && picks castTypes w) = true := by decide +kernel
    have hp := all_mem hp hw
    rw [Bool.and_eq_true] at hp
    obtain ⟨b, hb, e, hk⟩ := kw_split hk hp.1 (len_stop (r := r) hl hc)
    rw [e, parse_blanks (by simp) (by simp) hb, castAs, lexeme_bare hk.bare]
    exact anyKw_picks (ws := castTypes) hk (by decide +kernel) hp.2
  have hn := blankFirst_notContinued' (r := l ++ (c ++ r)) hb
  exact alt_left (map_ok (f := fun x : VE × Str × Str => NumFn.cast x.1 x.2.1 x.2.2)
    (seqR_ok (seqR_ok (kw_start h) (sym_ok1 (by decide) ho))
      (seq_ok (seqL_ok (hu.ve (word_v ha (by decide) hn)) (seq_ok (andNsSpace_ok (blankFirst_append ha.2))
        (seq_ok (kw_ok ha.1 (by decide) hn) (andNsSpace_ok (blankFirst_append hb)))))
        (seq_ok h1 (seqL_ok (len_ok hl hc) (sym_ok1 (by decide) hc))))))

theorem udfKw_entry {w t o z : Str} (hw : w ∈ fnNames) (h : KwStart w t (o ++ z)) (ho : Tok cs!"(" o) {vs : List VE} {r : Str}
    (ha : parse cfg (seqL (optD [] (sepBy ve (sym cs!","))) (sym cs!")")) true z = .ok vs r) :
    parse cfg (.alt castFunction (.alt geoFunction (.alt userDefinedFunction (.map .str sqlNoArgFunction)))) true
      (t ++ (o ++ z)) = .ok (.udf t vs) r := by
  have hp : (fnNames.all fun w => offAll [cs!"CAST"] w && offAll [cs!"COORD1", cs!"COORD2"] w && offAll [cs!"DISTANCE"] w &&
    reservedB w && offAll (cs!"END" :: missed) w &&
    picks [cs!"RIGHT", cs!"LEFT", cs!"UPPER", cs!"LOWER", cs!"DISTINCT", cs!"TRIM"] w) = true := by decide +kernel
  have hp := all_mem hp hw
  simp only [Bool.and_eq_true] at hp
  obtain ⟨⟨⟨⟨⟨h1, h2⟩, h3⟩, h4⟩, h5⟩, h6⟩ := hp
  rw [alt_right (cast_fail h.bare (h.apart h1 _ (by simp))), alt_right (geo_fail h.bare (h.apart h2) (h.apart h3 _ (by simp)))]
  refine alt_left (map_ok (f := fun x : Str × List VE => NumFn.udf x.1 x.2) (seq_ok (seqL_ok ?_ (sym_ok1 (by decide) ho)) ha))
  rw [udfName, lexeme_bare h.bare, alt_right (h.no_regular (reservedB_iff h4) h5)]
  exact anyKw_picks h (by decide +kernel) h6

theorem fnNames_kw {w : Str} (hw : w ∈ fnNames) :
    (wordShape w && callWords.contains w && offTrig w && offAll fn0 w && offAll fn1 w && offAll fn2 w) = true := by
  have hp : (fnNames.all fun w => (wordShape w && callWords.contains w && offTrig w && offAll fn0 w && offAll fn1 w &&
    offAll fn2 w)) = true := by decide +kernel
  exact all_mem hp hw

theorem good_udfKw0 {s fn o c : Str} (hs : KwIn fnNames s fn) (ho : Tok cs!"(" o) (hc : Tok cs!")" c) :
    GoodF cfg (s ++ (o ++ c)) (.udf fn []) := by
  obtain ⟨w, hw, hs⟩ := hs
  refine good_fnKw hs ho (fnNames_kw hw) fun r h => udfKw_entry hw h ho ?_
  have hve : parse cfg ve true (c ++ r) = .fail := by
    rw [ve]
    apply D_dead
    have : (skip true (c ++ r)).head? = next (c ++ r) := rfl
    rw [this, tok_next hc rfl (by decide)]; decide
  exact seqL_ok (optD_none (map_fail (seq_fail hve))) (sym_ok1 (by decide) hc)

theorem good_udfKw {s fn o u c : Str} {vs : List VE} (hs : KwIn fnNames s fn) (ho : Tok cs!"(" o) (hu : GoodArgs cfg u vs)
    (hc : Tok cs!")" c) : GoodF cfg (s ++ (o ++ (u ++ c))) (.udf fn vs) := by
  obtain ⟨w, hw, hs⟩ := hs
  refine good_fnKw hs ho (fnNames_kw hw) fun r h => ?_
  simp only [List.append_assoc] at h ⊢
  exact udfKw_entry hw h ho (seqL_ok (optD_ok (hu.run _ (close_v hc) (by rw [tok_next hc rfl (by decide)]; decide)))
    (sym_ok1 (by decide) hc))

theorem fnHead_ok2 {w t o z : Str} (h : KwStart w t (o ++ z)) (ho : Tok cs!"(" o) :
    parse cfg (fnHead (.lexeme (kw w))) true (t ++ (o ++ z)) = .ok t z := by
  refine seqL_ok ?_ (expect_ok (sym_ok1 (by decide) ho))
  rw [lexeme_bare h.bare]
  refine seqL_ok ?_ (andNonId_ok h.stop (open_ne_nil ho))
  rw [lexeme_bare h.bare]
  exact kw_start h

theorem good_coord {s fn o u c : Str} {x : PointOrCol} (hs : KwIn [cs!"COORD1", cs!"COORD2"] s fn) (ho : Tok cs!"(" o)
    (hu : PointColT S u x) (hc : Tok cs!")" c) : GoodF cfg (s ++ (o ++ (u ++ c))) (.geo1 fn x) := by
  obtain ⟨w, hw, hs⟩ := hs
  have hp : ([cs!"COORD1", cs!"COORD2"].all fun w => (wordShape w && callWords.contains w && offTrig w && offAll fn0 w &&
    offAll fn1 w && offAll fn2 w) && (offAll [cs!"CAST"] w && picks [cs!"COORD1", cs!"COORD2"] w)) = true := by decide +kernel
  have hp := all_mem hp hw
  rw [Bool.and_eq_true, Bool.and_eq_true (offAll _ _)] at hp
  refine good_fnKw hs ho hp.1 fun r h => ?_
  simp only [List.append_assoc] at h ⊢
  rw [alt_right (cast_fail h.bare (h.apart hp.2.1 _ (by simp)))]
  exact alt_left (alt_left (map_ok (f := fun x : Str × PointOrCol => NumFn.geo1 x.1 x.2)
    (seq_ok (fnHead_ok h (by decide +kernel) hp.2.2 ho)
      (seqL_ok (expect_ok (pointOrColumn_ok hu (coordEnd_tok hc (by simp)))) (expect_ok (sym_ok1 (by decide) hc))))))

theorem good_distance {s fn o u m u' c : Str} {x x' : PointOrCol} (hs : Kw cs!"DISTANCE" s fn) (ho : Tok cs!"(" o)
    (hu : PointColT S u x) (hm : Tok cs!"," m) (hu' : PointColT S u' x') (hc : Tok cs!")" c) :
    GoodF cfg (s ++ (o ++ (u ++ (m ++ (u' ++ c))))) (.geo2 fn x x') := by
  refine good_fnKw hs ho (by decide +kernel) fun r h => ?_
  simp only [List.append_assoc] at h ⊢
  rw [alt_right (cast_fail h.bare (h.apart (ws := [cs!"CAST"]) (by decide +kernel) _ (by simp)))]
  refine alt_left ?_
  rw [geoFunction, alt_right (map_fail (seq_fail (fnHead_fail h.bare (h.apart (by decide +kernel)))))]
  exact map_ok (f := fun x : Str × PointOrCol × PointOrCol => NumFn.geo2 x.1 x.2.1 x.2.2)
    (seq_ok (fnHead_ok2 h ho) (seq_ok (expect_ok (pointOrColumn_ok hu (coordEnd_tok hm (by simp))))
      (seqR_ok (expect_ok (sym_ok1 (by decide) hm)) (seqL_ok (expect_ok (pointOrColumn_ok hu' (coordEnd_tok hc (by simp))))
        (expect_ok (sym_ok1 (by decide) hc))))))

end Adql.Fwd
