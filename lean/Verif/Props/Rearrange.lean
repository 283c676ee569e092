import Verif.Model.RegexBest
import Verif.Props.RoundTrip

/-!
# C28, C42: which text the constructor parses

`Props/Preprocess.lean` describes the form of the rewritten text; here the parts are determined.
-/

namespace Adql

open Spec

/-- There is only one chosen reading. -/
theorem chosen_unique {v L G T L' G' T' : Str} {R R' : Option Str} (h : Chosen v L G R T) (h' : Chosen v L' G' R' T') :
    L = L' ∧ G = G' ∧ R = R' ∧ T = T' := by
  have hl : L.length = L'.length := Nat.le_antisymm (h'.left h.form) (h.left h'.form)
  obtain ⟨w, b1, a, b2, X, e, hw, hL, hb1, ha, hb2, hG, hs, hX⟩ := h.form
  obtain ⟨w', b1', a', b2', X', e', hw', hL', hb1', ha', hb2', hG', hs', hX'⟩ := h'.form
  obtain ⟨-, e1⟩ := sameCI_unique hw hw' (e.symm.trans e')
  obtain ⟨rfl, e2⟩ := List.append_inj e1 hl
  have hg : G.length = G'.length := Nat.le_antisymm (h.geom h'.form) (h'.geom h.form)
  obtain ⟨-, -, e3⟩ := and_unique hb1 hb1' ha ha' e2
  obtain ⟨-, e4⟩ := bl_unique hb2 hb2' (geomPart_first hG) (geomPart_first hG') e3
  obtain ⟨rfl, rfl⟩ := List.append_inj e4 hg
  cases R with
  | none =>
    cases R' with
    | none => exact ⟨rfl, rfl, rfl, hX.1.symm.trans hX'.1⟩
    | some R' =>
      obtain ⟨_, h0, -⟩ := h.right h'.form
      cases h0
  | some R =>
    cases R' with
    | none =>
      obtain ⟨_, h0, -⟩ := h'.right h.form
      cases h0
    | some R' =>
      obtain ⟨R0, h0, hr⟩ := h.right h'.form
      cases h0
      obtain ⟨R0, h0, hr'⟩ := h'.right h.form
      cases h0
      obtain ⟨⟨b3, c, b4, rfl, hb3, hc, hb4, hR, -⟩, -⟩ := hX
      obtain ⟨⟨b3', c', b4', e5, hb3', hc', hb4', hR', -⟩, -⟩ := hX'
      obtain ⟨-, -, e6⟩ := and_unique hb3 hb3' hc hc' e5
      obtain ⟨-, e7⟩ := bl_unique hb4 hb4' (rightPart_first hR) (rightPart_first hR') e6
      obtain ⟨rfl, rfl⟩ := List.append_inj e7 (Nat.le_antisymm hr hr')
      exact ⟨rfl, rfl, rfl, rfl⟩

/-- Every text that has the form has it in a chosen way. -/
theorem chosen_exists {v L G T : Str} {R : Option Str} (h : WhereForm v L G R T) : ∃ L G R T, Chosen v L G R T := by
  have h1 := geomRegex_sem.2 ⟨rfl, L, G, R, T, h, rfl⟩
  have h2 := Re.run_complete geomRegex (k := fun r c => some (r, c)) h1 (by simp)
  cases h3 : geomRegex.run v [] (fun r c => some (r, c)) with
  | none => exact absurd h3 h2
  | some x =>
    obtain ⟨-, L, G, R, T, h4, -⟩ := geomRegex_first h3
    exact ⟨L, G, R, T, h4⟩

theorem search_unfold (p : Re) (pre : Str) (d : Char) (s : Str) : p.search pre (d :: s) =
    (match p.run (d :: s) [] fun r c => some (r, c) with
    | some (r, c) => some ⟨pre, (d :: s).take ((d :: s).length - r.length), r, c⟩
    | none => p.search (pre ++ [d]) s) := rfl

/-- The match that is found. -/
theorem search_chosen {v L G T : Str} {R : Option Str} (h : Chosen v L G R T) : ∀ (P pre : Str),
    (∀ P1 P2, P = P1 ++ P2 → P2 ≠ [] → ¬ ∃ L G R T, WhereForm (P2 ++ v) L G R T) →
    geomRegex.search pre (P ++ v) = some ⟨pre ++ P, v, [], capsOf L G R T⟩
  | [], pre, _ => by
    have hrun : geomRegex.run v [] (fun r c => some (r, c)) = some ([], capsOf L G R T) := by
      have h1 := geomRegex_sem.2 ⟨rfl, L, G, R, T, h.form, rfl⟩
      have h2 := Re.run_complete geomRegex (k := fun r c => some (r, c)) h1 (by simp)
      cases h3 : geomRegex.run v [] (fun r c => some (r, c)) with
      | none => exact absurd h3 h2
      | some x =>
        obtain ⟨r, c⟩ := x
        obtain ⟨rfl, L', G', R', T', h4, rfl⟩ := geomRegex_first h3
        obtain ⟨rfl, rfl, rfl, rfl⟩ := chosen_unique h h4
        rfl
    have hv : v ≠ [] := by
      obtain ⟨w, b1, a, b2, X, e, hw, -⟩ := h.form
      rintro rfl
      have hw : w.map lowerC = _ := hw
      cases w with
      | nil => cases hw
      | cons => cases e
    cases v with
    | nil => exact absurd rfl hv
    | cons d v =>
      rw [List.nil_append, search_unfold, hrun]
      simp
  | d :: P, pre, hl => by
    have hn : geomRegex.run (d :: (P ++ v)) [] (fun r c => some (r, c)) = none := by
      cases h3 : geomRegex.run (d :: (P ++ v)) [] (fun r c => some (r, c)) with
      | none => rfl
      | some x =>
        obtain ⟨r, c⟩ := x
        obtain ⟨-, L', G', R', T', h4, -⟩ := geomRegex_first h3
        exact absurd ⟨L', G', R', T', h4.form⟩ (hl [] (d :: P) rfl (by simp))
    rw [List.cons_append, search_unfold, hn]
    simp only
    rw [search_chosen h P (pre ++ [d]) fun P1 P2 e hP => hl (d :: P1) P2 (by rw [e]; rfl) hP]
    simp

/-- **C28**, the text is determined: at the leftmost place where the text has the form, its chosen
reading is used. -/
theorem C28_exact {P v L G T : Str} {R : Option Str} (h : Chosen v L G R T)
    (hl : ∀ P1 P2, P = P1 ++ P2 → P2 ≠ [] → ¬ ∃ L G R T, WhereForm (P2 ++ v) L G R T) :
    preprocess (P ++ v) = match checkAndAdjustParens L G with
      | .error e => .error e
      | .ok (L', G') => .ok (P ++ fmtExpand ⟨P, v, [], capsOf L G R T⟩ 5 (replacement L' G' (R.getD []))) := by
  unfold preprocess
  rw [search_chosen h P [] hl]
  simp only [tweakInputString, str_one, str_two, str_three, List.nil_append]
  cases checkAndAdjustParens L G with
  | error e => rfl
  | ok x => simp

/-- **C28**, every text is covered: it is left alone, or it has a leftmost place with the form and a
chosen reading there. -/
theorem C28_cases (s : Str) : (¬ Matching s ∧ preprocess s = .ok s) ∨
    ∃ P v L G R T, s = P ++ v ∧ Chosen v L G R T ∧
      ∀ P1 P2, P = P1 ++ P2 → P2 ≠ [] → ¬ ∃ L G R T, WhereForm (P2 ++ v) L G R T := by
  cases hm : geomRegex.search [] s with
  | none => exact .inl ⟨(search_none_iff s).1 hm, C27_unchanged s ((search_none_iff s).1 hm)⟩
  | some m =>
    obtain ⟨P, v, L, G, R, T, hs, hw, -, hl⟩ := search_some hm
    obtain ⟨L, G, R, T, hc⟩ := chosen_exists hw
    exact .inr ⟨P, v, L, G, R, T, hs, hc, hl⟩

/-! ### When the reading is the intended one -/

/-- only one place with the form -/
theorem onlyWhere_leftmost {P w y : Str} (hw : SameCI w cs!"WHERE ") (h : OnlyWhere P w) :
    ∀ P1 P2, P = P1 ++ P2 → P2 ≠ [] → ¬ ∃ L G R T, WhereForm (P2 ++ (w ++ y)) L G R T := by
  rintro P1 P2 rfl hne ⟨L, G, R, T, w1, b1, a, b2, X, e, hw1, -⟩
  have l1 : w1.length = 6 := by simpa using congrArg List.length (show w1.map lowerC = _ from hw1)
  have l2 : w.length = 6 := by simpa using congrArg List.length (show w.map lowerC = _ from hw)
  have hp : w1 <+: P2 ++ w := by
    have a1 : w1 <+: P2 ++ (w ++ y) := ⟨_, e.symm⟩
    have a2 : P2 ++ w <+: P2 ++ (w ++ y) := ⟨y, by simp⟩
    exact List.prefix_of_prefix_length_le a1 a2 (by simp; omega)
  obtain ⟨z, hz⟩ := hp
  have := h P1 w1 z (by rw [hz]; simp) hw1
  subst this
  have := congrArg List.length hz
  have h0 : 0 < P2.length := by
    cases P2 with
    | nil => exact absurd rfl hne
    | cons => simp
  simp only [List.length_append, List.length_nil] at this
  omega

/-- a longer condition on the left is impossible -/
theorem left_longest {L b1 a y L' b1' a' b2' G' X' : Str} (hb1 : Bl b1) (hlast : LastGeometry (a ++ y))
    (e : L ++ (b1 ++ (a ++ y)) = L' ++ (b1' ++ (a' ++ (b2' ++ (G' ++ X'))))) (hL' : LeftPart L') (ha' : SameCI a' cs!"AND")
    (hb2' : Bl b2') (hG' : GeomPart G') : L'.length ≤ L.length := by
  by_cases hl : L.length < L'.length
  · exfalso
    have a1 : L <+: L' := List.prefix_of_prefix_length_le ⟨_, e⟩ ⟨_, rfl⟩ (by omega)
    obtain ⟨y1, rfl⟩ := a1
    have hy1 : y1 ≠ [] := by rintro rfl; simp at hl
    rw [List.append_assoc] at e
    have e := List.append_cancel_left e
    obtain ⟨c, m, d, hL', -, hd, -, -⟩ := hL'
    have hlast1 : ∃ y0, y1 = y0 ++ [d] := by
      have h1 : (L ++ y1).getLast? = some d := by
        rw [hL', show c :: (m ++ [d]) = (c :: m) ++ [d] from rfl, List.getLast?_append]; rfl
      have h2 := List.dropLast_concat_getLast hy1
      rw [List.getLast?_append, List.getLast?_eq_some_getLast hy1] at h1
      cases h1
      exact ⟨_, h2.symm⟩
    obtain ⟨y0, rfl⟩ := hlast1
    have a2 : b1 <+: y0 ++ [d] := by
      by_cases hlen : b1.length ≤ (y0 ++ [d]).length
      · exact List.prefix_of_prefix_length_le ⟨_, e⟩ ⟨_, rfl⟩ hlen
      · have : y0 ++ [d] <+: b1 := List.prefix_of_prefix_length_le ⟨_, e.symm⟩ ⟨_, rfl⟩ (by omega)
        obtain ⟨z, rfl⟩ := this
        exact absurd (hb1 d (by simp)) hd
    obtain ⟨u, hu⟩ := a2
    rw [← hu, List.append_assoc] at e
    have e := List.append_cancel_left e
    have hune : u ≠ [] := by
      rintro rfl
      rw [List.append_nil] at hu
      subst hu
      exact absurd (hb1 d (by simp)) hd
    obtain ⟨f, k, m', rfl, hf, hk, -⟩ := hG'
    have := hlast (u ++ b1') a' b2' f k (m' ++ X') (by rw [e]; simp) ha' hb2' hf hk
    simp at this
    exact hune this.1
  · omega

/-- a shorter part is impossible -/
theorem part_shortest {ws : List Str} {t x t' x' : Str} (h : Undisturbed ws t x) (e : t ++ x = t' ++ x') (hs : StopsAt ws x') :
    t.length ≤ t'.length := by
  by_cases hl : t'.length < t.length
  · exfalso
    obtain ⟨⟨u, d, rfl, hd⟩, hw⟩ := h
    obtain ⟨b, y, rfl, hb, hy⟩ := hs
    -- the blanks end before the last character of the text
    have hlen : t'.length + b.length < (u ++ [d]).length := by
      by_cases hc : t'.length + b.length < (u ++ [d]).length
      · exact hc
      · exfalso
        have a1 : t' <+: u := List.prefix_of_prefix_length_le (l₃ := u ++ [d] ++ x) ⟨b ++ y, e.symm⟩ ⟨[d] ++ x, by simp⟩
          (by simp at hl; omega)
        obtain ⟨z, rfl⟩ := a1
        simp only [List.append_assoc] at e
        have e := List.append_cancel_left e
        have a2 : z ++ [d] <+: b := List.prefix_of_prefix_length_le (l₃ := b ++ y) ⟨x, by rw [← e]; simp⟩ ⟨y, rfl⟩
          (by simp at hc ⊢; omega)
        obtain ⟨z', hz'⟩ := a2
        exact hd (hb d (by rw [← hz']; simp))
    rcases hy with rfl | ⟨w, hwm, k, z, rfl, hk⟩
    · have := congrArg List.length e
      simp at this hlen
      omega
    · have := hw (t' ++ b) w k z (by rw [e]; simp) hwm hk
      simp at this hlen
      omega
  · omega

theorem clean_check {L G L' G' : Str} (hn : (L ++ G).count '(' < 65536) (h : Clean L G L' G') :
    checkAndAdjustParens L G = .ok (L', G') := by
  rw [C25_check _ _ _ _ hn]
  rcases h with ⟨rfl, rfl, h1, h2⟩ | h
  · exact .inl ⟨h1, h2, rfl, rfl⟩
  · exact .inr (.inr h)

theorem stops_weaken {ws ws' : List Str} {x : Str} (h : StopsAt ws x) (hw : ∀ w ∈ ws, w ∈ ws') : StopsAt ws' x := by
  obtain ⟨b, y, e, hb, h⟩ := h
  exact ⟨b, y, e, hb, h.imp id fun ⟨w, hm, h⟩ => ⟨w, hw w hm, h⟩⟩

theorem clean_stripped {L G L' G' : Str} (h : Clean L G L' G') : Stripped L G L' G' := by
  rcases h with ⟨h1, h2, -⟩ | ⟨h1, h2, -⟩
  · exact .inl ⟨h1, h2⟩
  · exact .inr ⟨h1, h2⟩

/-- **C28**, in terms of the texts: the parser gets the rearranged text. -/
theorem C28_rearranged {s t : Str} (h : Rearranged s t) : preprocess s = .ok t := by
  cases h with
  | @two P w L b1 a b2 G T L' G' hw how hL hb1 ha hb2 hG hT hTl hlast hu hn hc hdL hdG =>
    have hch : Chosen (w ++ (L ++ (b1 ++ (a ++ (b2 ++ (G ++ T)))))) L G none T := by
      have unw : ∀ {L' G' R' T'}, WhereForm (w ++ (L ++ (b1 ++ (a ++ (b2 ++ (G ++ T)))))) L' G' R' T' →
          ∃ b1' a' b2' X', L ++ (b1 ++ (a ++ (b2 ++ (G ++ T)))) = L' ++ (b1' ++ (a' ++ (b2' ++ (G' ++ X')))) ∧ LeftPart L' ∧
            Bl b1' ∧ SameCI a' cs!"AND" ∧ Bl b2' ∧ GeomPart G' ∧
            StopsAt [cs!"AND", cs!"HAVING", cs!"GROUP", cs!"ORDER"] X' ∧ AfterGeom X' R' T' := by
        rintro L' G' R' T' ⟨w1, b1', a', b2', X', e, hw1, hL', hb1', ha', hb2', hG', hs', hX'⟩
        obtain ⟨-, e⟩ := sameCI_unique hw hw1 e
        exact ⟨b1', a', b2', X', e, hL', hb1', ha', hb2', hG', hs', hX'⟩
      have sameG : ∀ {G' R' T'}, WhereForm (w ++ (L ++ (b1 ++ (a ++ (b2 ++ (G ++ T)))))) L G' R' T' →
          ∃ X', G ++ T = G' ++ X' ∧ StopsAt [cs!"AND", cs!"HAVING", cs!"GROUP", cs!"ORDER"] X' ∧ AfterGeom X' R' T' := by
        intro G' R' T' hf
        obtain ⟨b1', a', b2', X', e, -, hb1', ha', hb2', hG', hs', hX'⟩ := unw hf
        obtain ⟨-, -, e⟩ := and_unique hb1 hb1' ha ha' (List.append_cancel_left e)
        obtain ⟨-, e⟩ := bl_unique hb2 hb2' (geomPart_first hG) (geomPart_first hG') e
        exact ⟨X', e, hs', hX'⟩
      refine ⟨⟨w, b1, a, b2, T, rfl, hw, hL, hb1, ha, hb2, hG, stops_weaken hT (by decide), rfl, hTl⟩, ?_, ?_, ?_⟩
      · intro L' G' R' T' hf
        obtain ⟨b1', a', b2', X', e, hL', hb1', ha', hb2', hG', hs', hX'⟩ := unw hf
        exact left_longest hb1 hlast e hL' ha' hb2' hG'
      · intro G' R' T' hf
        obtain ⟨X', e, hs', -⟩ := sameG hf
        exact part_shortest hu e hs'
      · intro R' T' hf
        exfalso
        obtain ⟨X', e, -, ⟨b3, a', b4, rfl, hb3, ha', -, -, -⟩, -⟩ := sameG hf
        obtain ⟨b, y, rfl, hb, hy⟩ := hT
        have e := List.append_cancel_left e
        have hA : ∀ c t, a' ++ (b4 ++ (R' ++ T')) = c :: t → lowerC c = 'a' := fun c t e => sameCI_first ha' c t e
        have hAb : ∀ c t, a' ++ (b4 ++ (R' ++ T')) = c :: t → c ≠ ' ' := fun c t e => lowerC_blank (sameCI_first ha' c t e) (by decide)
        rcases hy with rfl | ⟨x, hx, k, z, rfl, hk⟩
        · obtain ⟨-, e⟩ := bl_unique hb hb3 (x := []) (by simp) hAb e
          cases a' with
          | nil => cases ha'
          | cons => cases e
        · have hk1 : ∀ c t, k ++ z = c :: t → lowerC c = 'h' ∨ lowerC c = 'g' ∨ lowerC c = 'o' := by
            intro c t e
            simp only [List.mem_cons, List.not_mem_nil, or_false] at hx
            rcases hx with rfl | rfl | rfl
            · exact .inl (sameCI_first hk c t e)
            · exact .inr (.inl (sameCI_first hk c t e))
            · exact .inr (.inr (sameCI_first hk c t e))
          have hkb : ∀ c t, k ++ z = c :: t → c ≠ ' ' := by
            intro c t e hc
            subst hc
            exact absurd (hk1 _ _ e) (by decide)
          obtain ⟨-, e⟩ := bl_unique hb hb3 hkb hAb e
          cases a' with
          | nil => cases ha'
          | cons c a' =>
            have h1 := hA c _ rfl
            have h2 := hk1 c _ e
            rw [h1] at h2
            exact absurd h2 (by decide)
    rw [C28_exact hch (onlyWhere_leftmost hw how), clean_check hn hc]
    simp only
    rw [fmtExpand_plain _ _ _ (replacement_dollar (clean_stripped hc) hdL hdG (by simp))]
    simp [replacement]
  | @three P w L b1 a b2 G b3 a' b4 R T L' G' hw how hL hb1 ha hb2 hG hb3 ha' hb4 hR hT hTl hlast hu hu' hn hc hdL hdG hdR =>
    have hstop : StopsAt [cs!"AND", cs!"HAVING", cs!"GROUP", cs!"ORDER"] (b3 ++ (a' ++ (b4 ++ (R ++ T)))) :=
      ⟨b3, _, rfl, hb3, .inr ⟨cs!"AND", by simp, a', _, rfl, ha'⟩⟩
    have hch : Chosen (w ++ (L ++ (b1 ++ (a ++ (b2 ++ (G ++ (b3 ++ (a' ++ (b4 ++ (R ++ T)))))))))) L G (some R) T := by
      generalize hX : b3 ++ (a' ++ (b4 ++ (R ++ T))) = X at hstop hlast hu ⊢
      have unw : ∀ {L' G' R' T'}, WhereForm (w ++ (L ++ (b1 ++ (a ++ (b2 ++ (G ++ X)))))) L' G' R' T' →
          ∃ b1' a' b2' X', L ++ (b1 ++ (a ++ (b2 ++ (G ++ X)))) = L' ++ (b1' ++ (a' ++ (b2' ++ (G' ++ X')))) ∧ LeftPart L' ∧
            Bl b1' ∧ SameCI a' cs!"AND" ∧ Bl b2' ∧ GeomPart G' ∧
            StopsAt [cs!"AND", cs!"HAVING", cs!"GROUP", cs!"ORDER"] X' ∧ AfterGeom X' R' T' := by
        rintro L' G' R' T' ⟨w1, b1', a', b2', X', e, hw1, hL', hb1', ha', hb2', hG', hs', hX'⟩
        obtain ⟨-, e⟩ := sameCI_unique hw hw1 e
        exact ⟨b1', a', b2', X', e, hL', hb1', ha', hb2', hG', hs', hX'⟩
      have sameG : ∀ {G' R' T'}, WhereForm (w ++ (L ++ (b1 ++ (a ++ (b2 ++ (G ++ X)))))) L G' R' T' →
          ∃ X', G ++ X = G' ++ X' ∧ StopsAt [cs!"AND", cs!"HAVING", cs!"GROUP", cs!"ORDER"] X' ∧ AfterGeom X' R' T' := by
        intro G' R' T' hf
        obtain ⟨b1', a', b2', X', e, -, hb1', ha', hb2', hG', hs', hX'⟩ := unw hf
        obtain ⟨-, -, e⟩ := and_unique hb1 hb1' ha ha' (List.append_cancel_left e)
        obtain ⟨-, e⟩ := bl_unique hb2 hb2' (geomPart_first hG) (geomPart_first hG') e
        exact ⟨X', e, hs', hX'⟩
      refine ⟨⟨w, b1, a, b2, X, rfl, hw, hL, hb1, ha, hb2, hG, hstop, ⟨b3, a', b4, hX.symm, hb3, ha', hb4, hR, hT⟩, hTl⟩, ?_, ?_, ?_⟩
      · intro L' G' R' T' hf
        obtain ⟨b1', a', b2', X', e, hL', hb1', ha', hb2', hG', hs', hX'⟩ := unw hf
        exact left_longest hb1 hlast e hL' ha' hb2' hG'
      · intro G' R' T' hf
        obtain ⟨X', e, hs', -⟩ := sameG hf
        exact part_shortest hu e hs'
      · intro R' T' hf
        refine ⟨R, rfl, ?_⟩
        obtain ⟨X', e, -, ⟨b3', a'', b4', hX', hb3', ha'', hb4', hR', hs'⟩, -⟩ := sameG hf
        have e := List.append_cancel_left e
        rw [hX', ← hX] at e
        obtain ⟨-, -, e⟩ := and_unique hb3 hb3' ha' ha'' e
        obtain ⟨-, e⟩ := bl_unique hb4 hb4' (rightPart_first hR) (rightPart_first hR') e
        exact part_shortest hu' e hs'
    rw [C28_exact hch (onlyWhere_leftmost hw how), clean_check hn hc]
    simp only
    rw [fmtExpand_plain _ _ _ (replacement_dollar (clean_stripped hc) hdL hdG (by simpa using hdR))]
    obtain ⟨c, m, rfl, -⟩ := hR
    simp [replacement]

/-- **C42.** A query whose WHERE clause has a condition before the geometric constraint is accepted, and its
tree is the tree of the query with the constraint first. -/
theorem C42_moved (cfg : Config) {S : Mode} [Fwd.Fits S cfg] {F : Bool} {s t b : Str} {q : QuerySpec} (hr : Rearranged s (t ++ b)) (hq : QueryT S F t q)
    (hb : Blanks b) : construct cfg s = .ok q := by
  unfold construct
  rw [C28_rearranged hr]
  exact C39_accepts cfg hq hb

/-- **C42**, compared with the text in the other order: both are accepted with the same tree. -/
theorem C42_same (cfg : Config) {S : Mode} [Fwd.Fits S cfg] {F : Bool} {s t : Str} {q : QuerySpec} (hr : Rearranged s t) (hq : QueryT S F t q)
    (hg : ¬ HasGeometryAfterAnd t) : construct cfg s = construct cfg t ∧ construct cfg t = .ok q := by
  have h1 := C42_moved cfg (b := []) (by rw [List.append_nil]; exact hr) hq nofun
  have h2 := C39_construct cfg (b := []) hq nofun (by rw [List.append_nil]; exact hg)
  rw [List.append_nil] at h2
  exact ⟨h1.trans h2.symm, h2⟩

/-! ### Non-trivial cases -/

/-- the word occurs at the end only, by looking at all positions -/
def onlyAtEnd (w : Str) : Str → Bool
  | [] => true
  | c :: t => (!prefixCI w (c :: t) || t.length + 1 == w.length) && onlyAtEnd w t

theorem prefixCI_sameCI {w k z : Str} (h : SameCI k w) : prefixCI w (k ++ z) = true := by
  unfold prefixCI
  rw [List.map_append, show k.map lowerC = w.map lowerC from h, List.isPrefixOf_iff_prefix]
  exact List.prefix_append _ _

theorem onlyAtEnd_spec {w : Str} : ∀ {s u k z : Str}, onlyAtEnd w s = true → s = u ++ (k ++ z) → SameCI k w → z = [] := by
  intro s
  induction s with
  | nil =>
    intro u k z _ e _
    have e := congrArg List.length e
    simp only [List.length_append, List.length_nil] at e
    cases z with
    | nil => rfl
    | cons => simp at e
  | cons c t ih =>
    intro u k z h e hk
    simp only [onlyAtEnd, Bool.and_eq_true, Bool.or_eq_true, Bool.not_eq_true', beq_iff_eq] at h
    cases u with
    | nil =>
      rw [List.nil_append] at e
      have hl := congrArg List.length e
      have hk' := congrArg List.length (show k.map lowerC = _ from hk)
      rw [e, prefixCI_sameCI hk] at h
      rcases h.1 with h1 | h1
      · cases h1
      · simp only [List.length_append, List.length_cons, List.length_map] at hl hk'
        exact List.eq_nil_of_length_eq_zero (by omega)
    | cons d u =>
      injection e with _ e
      exact ih h.2 e hk

/-- none of the words begins inside of the first text, by looking at all positions -/
def noneWithin (ws : List Str) (x : Str) : Str → Bool
  | [] => true
  | c :: t => ws.all (fun w => !prefixCI w (c :: (t ++ x))) && noneWithin ws x t

theorem noneWithin_spec {ws : List Str} {x : Str} : ∀ {t u w k z : Str}, noneWithin ws x t = true → t ++ x = u ++ (k ++ z) →
    w ∈ ws → SameCI k w → t.length ≤ u.length := by
  intro t
  induction t with
  | nil => intros; simp
  | cons c t ih =>
    intro u w k z h e hw hk
    simp only [noneWithin, Bool.and_eq_true, List.all_eq_true, Bool.not_eq_true'] at h
    cases u with
    | nil =>
      have := h.1 w hw
      rw [show c :: (t ++ x) = k ++ z from e, prefixCI_sameCI hk] at this
      cases this
    | cons d u =>
      injection e with _ e
      have := ih h.2 e hw hk
      simp; omega

theorem lastGeometry_of {c : Char} {y : Str} (h : absentAfterAnd (cs!"WHERE " ++ y) = true) : LastGeometry (c :: y) := by
  intro u a b f k z e ha hb hf hk
  cases u with
  | nil => rfl
  | cons d u =>
    injection e with _ e
    exact absurd ⟨[], cs!"WHERE ", u, a, b, f, k, z, by rw [e]; rfl, rfl, ha, hb, hf, hk⟩ (absentAfterAnd_spec h)

/-- **C42**, non-trivial case: both conditions in parentheses, words in small letters, blanks and a grouping at the
end; the tree is the tree of `geomText`. -/
theorem geomText_moved : Rearranged
    cs!"SELECT x FROM t where (Distance(x,POINT('',1,y))<3  and contains(Point('j2000',a.x ,-2.5e1),CIRCLE( 3, 4+1 , .5))= 1) group by x"
    geomText := by
  have ci : ∀ {u v : Str}, u.map lowerC = v.map lowerC → SameCI u v := id
  have hck : checkAndAdjustParens cs!"(Distance(x,POINT('',1,y))<3" cs!"contains(Point('j2000',a.x ,-2.5e1),CIRCLE( 3, 4+1 , .5))= 1)" =
      .ok (cs!"Distance(x,POINT('',1,y))<3", cs!"contains(Point('j2000',a.x ,-2.5e1),CIRCLE( 3, 4+1 , .5))= 1") := by kernel_rfl
  refine .two (P := cs!"SELECT x FROM t ") (w := cs!"where ") (L := cs!"(Distance(x,POINT('',1,y))<3") (b1 := cs!"  ") (a := cs!"and")
    (b2 := cs!" ") (G := cs!"contains(Point('j2000',a.x ,-2.5e1),CIRCLE( 3, 4+1 , .5))= 1)") (T := cs!" group by x")
    (L' := cs!"Distance(x,POINT('',1,y))<3") (G' := cs!"contains(Point('j2000',a.x ,-2.5e1),CIRCLE( 3, 4+1 , .5))= 1")
    (ci rfl) ?_ ⟨'(', cs!"Distance(x,POINT('',1,y))<", '3', rfl, by decide, by decide, by decide, by unfold OneLine; decide⟩
    (by unfold Bl; decide) (ci rfl) (by unfold Bl; decide)
    ⟨[], cs!"contains", cs!"(Point('j2000',a.x ,-2.5e1),CIRCLE( 3, 4+1 , .5))= 1)", rfl, .inl rfl, .inl (ci rfl), by unfold OneLine; decide⟩
    ⟨cs!" ", cs!"group by x", rfl, by unfold Bl; decide, .inr ⟨cs!"GROUP", by decide, cs!"group", cs!" by x", rfl, ci rfl⟩⟩ (by unfold OneLine; decide)
    (lastGeometry_of (by decide +kernel)) ⟨⟨cs!"contains(Point('j2000',a.x ,-2.5e1),CIRCLE( 3, 4+1 , .5))= 1", ')', rfl, by decide⟩,
      fun _ _ _ _ => noneWithin_spec (by decide +kernel)⟩ (by decide +kernel) ?_ (by decide) (by decide)
  · exact fun u k z => onlyAtEnd_spec (by decide +kernel)
  · rcases (C25_check _ _ _ _ (by decide +kernel)).1 hck with ⟨-, -, h, -⟩ | ⟨-, -, -, -, -, h, -⟩ | h
    · exact absurd h (by decide)
    · exact absurd h (by decide)
    · exact .inr h

example (cfg : Config) : construct cfg
    cs!"SELECT x FROM t where (Distance(x,POINT('',1,y))<3  and contains(Point('j2000',a.x ,-2.5e1),CIRCLE( 3, 4+1 , .5))= 1) group by x"
    = .ok geomTree :=
  C42_moved cfg (b := []) (by rw [List.append_nil]; exact geomText_moved) geomText_query nofun

/-- **C28**, non-trivial case with a condition on each side. -/
example : preprocess cs!"SELECT a FROM t WHERE x=1 AND 1 = INTERSECTS(p,q) AND y<2 AND z>3  " =
    .ok cs!"SELECT a FROM t WHERE 1 = INTERSECTS(p,q) AND x=1 AND y<2 AND z>3" := by
  have ci : ∀ {u v : Str}, u.map lowerC = v.map lowerC → SameCI u v := id
  have hck : checkAndAdjustParens cs!"x=1" cs!"1 = INTERSECTS(p,q)" = .ok (cs!"x=1", cs!"1 = INTERSECTS(p,q)") := by kernel_rfl
  refine C28_rearranged (.three (P := cs!"SELECT a FROM t ") (w := cs!"WHERE ") (L := cs!"x=1") (b1 := cs!" ") (a := cs!"AND")
    (b2 := cs!" ") (G := cs!"1 = INTERSECTS(p,q)") (b3 := cs!" ") (a' := cs!"AND") (b4 := cs!" ") (R := cs!"y<2 AND z>3") (T := cs!"  ")
    (L' := cs!"x=1") (G' := cs!"1 = INTERSECTS(p,q)")
    (ci rfl) ?_ ⟨'x', cs!"=", '1', rfl, by decide, by decide, by decide, by unfold OneLine; decide⟩
    (by unfold Bl; decide) (ci rfl) (by unfold Bl; decide)
    ⟨cs!"1 = ", cs!"INTERSECTS", cs!"(p,q)", rfl, .inr ⟨'1', cs!" ", cs!" ", rfl, .inr rfl, by unfold Bl; decide, by unfold Bl; decide⟩, .inr (ci rfl), by unfold OneLine; decide⟩
    (by unfold Bl; decide) (ci rfl) (by unfold Bl; decide) ⟨'y', cs!"<2 AND z>3", rfl, by decide, by decide, by unfold OneLine; decide⟩
    ⟨cs!"  ", [], rfl, by unfold Bl; decide, .inl rfl⟩ (by unfold OneLine; decide)
    (lastGeometry_of (by decide +kernel)) ⟨⟨cs!"1 = INTERSECTS(p,q", ')', rfl, by decide⟩, fun _ _ _ _ => noneWithin_spec (by decide +kernel)⟩
    ⟨⟨cs!"y<2 AND z>", '3', rfl, by decide⟩, fun _ _ _ _ => noneWithin_spec (by decide +kernel)⟩
    (by decide +kernel) ?_ (by decide) (by decide) (by decide))
  · exact fun u k z => onlyAtEnd_spec (by decide +kernel)
  · rcases (C25_check _ _ _ _ (by decide +kernel)).1 hck with ⟨h1, h2, -⟩ | ⟨_, h, -⟩ | ⟨h, -⟩
    · exact .inl ⟨rfl, rfl, h1, h2⟩
    · cases h
    · cases h

/-! ### C43: names that contain a key word -/

instance : DecidablePred IdChar := fun c => by unfold IdChar Letter Digit; infer_instance

/-- no such word, by looking at all positions -/
def noWord (w s : Str) : Bool := (List.range (s.length + 1)).all fun i =>
  !prefixCI w (s.drop i) || (match (s.take i).getLast? with | some c => decide (IdChar c) | none => false)

theorem noWord_spec {w s : Str} (h : noWord w s = true) : ¬ HasWord w s := by
  rintro ⟨u, k, z, rfl, hk, hu, -⟩
  have := List.all_eq_true.1 h u.length (by simp; omega)
  rw [List.drop_left, List.take_left, prefixCI_sameCI hk] at this
  cases hl : u.getLast? with
  | none => simp [hl] at this
  | some c =>
    simp [hl] at this
    obtain ⟨ys, rfl⟩ := List.getLast?_eq_some_iff.1 hl
    exact hu ys c rfl this

/-- the query of the witnesses, with what follows `x=1` in the condition and the second shape -/
def cutTree (y : Str) (c : BF → SC) : QuerySpec :=
  let e (p : Prim) : VENB := .mk (.mk [] (.vep (.mk p []))) []
  .mk With.dflt
    (.mk (.mk (.mk [] (2 ^ 64 - 1) (.items [.nonAsVE (.nb (e (.col (.col cs!"a"))))])) [.tc ⟨cs!"t", []⟩]
      (.mk (.right (.contains (.col (.col cs!"p")) (.col (.col y))) '1')
        (c (.mk [] (.pred (.cmp (e (.col (.col cs!"x"))) cs!"=" (.nb (e (.str cs!"1"))))))))) [])
    [] SC.dflt []

/-- **C43 is violated**: HAVING inside of the name `behaving` cuts the condition on the right; what is left of the name is
read as a condition.  With the constraint written first the same conditions have another tree. -/
theorem C43_violated : ∃ s t q q', (∀ w ∈ [cs!"HAVING", cs!"GROUP", cs!"ORDER"], ¬ HasWord w s) ∧
    s = cs!"SELECT a FROM t WHERE x=1 AND CONTAINS(p,q)=1 AND behaving=1" ∧
    t = cs!"SELECT a FROM t WHERE CONTAINS(p,q)=1 AND x=1 AND behaving=1" ∧
    preprocess s = .ok cs!"SELECT a FROM t WHERE CONTAINS(p,q)=1 AND x=1 AND be" ∧
    construct ⟨fun _ => none, false⟩ s = .ok q ∧ construct ⟨fun _ => none, false⟩ t = .ok q' ∧ q ≠ q' ∧
    q.print id = cs!"SELECT a FROM t WHERE CONTAINS(p,q)=1 AND x = 1 AND be" ∧
    q'.print id = cs!"SELECT a FROM t WHERE CONTAINS(p,q)=1 AND x = 1 AND behaving = 1" := by
  refine ⟨_, _, cutTree cs!"q" fun f => .term f cs!"AND" (.factor (.mk [] (.ve (.mk (.mk [] (.vep (.mk (.col (.col cs!"be")) []))) [])))),
    cutTree cs!"q" fun f => .term f cs!"AND" (.factor (.mk [] (.pred (.cmp (.mk (.mk [] (.vep (.mk (.col (.col cs!"behaving")) []))) []) cs!"="
      (.nb (.mk (.mk [] (.vep (.mk (.str cs!"1") []))) [])))))), ?_, rfl, rfl, by kernel_rfl, by kernel_rfl, by kernel_rfl, ?_, by kernel_rfl, by kernel_rfl⟩
  · intro w hw
    simp only [List.mem_cons, List.not_mem_nil, or_false] at hw
    rcases hw with rfl | rfl | rfl <;> exact noWord_spec (by decide +kernel)
  · intro h
    cases h

/-- **C43 is violated**, the geometry: AND inside of the name `band` cuts it, and the query is refused; with the
constraint written first it is accepted. -/
theorem C43_violated_geometry : ∃ s t q', (∀ w ∈ [cs!"HAVING", cs!"GROUP", cs!"ORDER"], ¬ HasWord w s) ∧
    s = cs!"SELECT a FROM t WHERE x=1 AND CONTAINS(p,band)=1" ∧ t = cs!"SELECT a FROM t WHERE CONTAINS(p,band)=1 AND x=1" ∧
    preprocess s = .ok cs!"SELECT a FROM t WHERE CONTAINS(p,b AND x=1 AND )=1" ∧
    (∃ e, construct ⟨fun _ => none, false⟩ s = .error e) ∧ construct ⟨fun _ => none, false⟩ t = .ok q' := by
  refine ⟨_, _, cutTree cs!"band" .factor, ?_, rfl, rfl, by kernel_rfl, ⟨.expecting "')'" cs!" AND x=1 AND )=1", by kernel_rfl⟩, by kernel_rfl⟩
  intro w hw
  simp only [List.mem_cons, List.not_mem_nil, or_false] at hw
  rcases hw with rfl | rfl | rfl <;> exact noWord_spec (by decide +kernel)

theorem oneLine_append {u v : Str} : OneLine (u ++ v) ↔ OneLine u ∧ OneLine v := by
  unfold OneLine
  constructor
  · exact fun h => ⟨fun c hc => h c (by simp [hc]), fun c hc => h c (by simp [hc])⟩
  · rintro ⟨h1, h2⟩ c hc
    rcases List.mem_append.1 hc with hc | hc
    · exact h1 c hc
    · exact h2 c hc

/-- **C43**, how far it reaches, the condition on the right: none of the words begins inside of what is kept, except in
its first two characters, whatever stands around them. -/
theorem C43_cut_right {v L G R T : Str} (h : Chosen v L G (some R) T) {u w k z : Str} (e : R ++ T = u ++ (k ++ z))
    (hw : w ∈ [cs!"HAVING", cs!" GROUP", cs!" ORDER"]) (hk : SameCI k w) (hu : 2 ≤ u.length) : R.length ≤ u.length := by
  obtain ⟨w0, b1, a, b2, X, hv, hw0, hL, hb1, ha, hb2, hG, hs, ⟨b3, a', b4, hX, hb3, ha', hb4, hR, hT⟩, hTl⟩ := h.form
  obtain ⟨c, m, rfl, hc, hm, hml⟩ := hR
  match u, hu with
  | d :: d' :: u, _ =>
    injection e with e1 e
    subst e1
    have hl : OneLine (m ++ T) := oneLine_append.2 ⟨hml, hTl⟩
    have e' : m ++ T = (d' :: u) ++ (k ++ z) := e
    rw [e', oneLine_append] at hl
    obtain ⟨R0, h0, h1⟩ := h.right (R' := c :: d' :: u) (T' := k ++ z)
      ⟨w0, b1, a, b2, X, hv, hw0, hL, hb1, ha, hb2, hG, hs,
        ⟨b3, a', b4, by rw [hX]; simp [e'], hb3, ha', hb4, ⟨c, d' :: u, rfl, hc, by simp, hl.1⟩, [], k ++ z, rfl, nofun, .inr ⟨w, hw, k, z, rfl, hk⟩⟩, hl.2⟩
    cases h0
    exact h1

/-- **C43**, how far it reaches, the geometry: none of the words begins inside of what is moved after its first word. -/
theorem C43_cut_geometry {v w0 L b1 a b2 f g m X T : Str} {R : Option Str} (h : Chosen v L (f ++ (g ++ m)) R T)
    (hv : v = w0 ++ (L ++ (b1 ++ (a ++ (b2 ++ ((f ++ (g ++ m)) ++ X)))))) (hw0 : SameCI w0 cs!"WHERE ") (hb1 : Bl b1)
    (ha : SameCI a cs!"AND") (hb2 : Bl b2) (hf : GeomFlag f) (hg : SameCI g cs!"CONTAINS" ∨ SameCI g cs!"INTERSECTS")
    (hl : OneLine (m ++ X)) {u w k z : Str} (e : m ++ X = u ++ (k ++ z))
    (hw : w ∈ [cs!"AND", cs!"HAVING", cs!"GROUP", cs!"ORDER"]) (hk : SameCI k w) : m.length ≤ u.length := by
  obtain ⟨-, -, -, -, -, -, -, hL, -⟩ := h.form
  rw [e, oneLine_append] at hl
  have := h.geom (G' := f ++ (g ++ u)) (R' := none) (T' := k ++ z)
    ⟨w0, b1, a, b2, k ++ z, by rw [hv]; simp [e], hw0, hL, hb1, ha, hb2, ⟨f, g, u, rfl, hf, hg, hl.1⟩,
      ⟨[], k ++ z, rfl, nofun, .inr ⟨w, hw, k, z, rfl, hk⟩⟩, rfl, hl.2⟩
  simp only [List.length_append] at this
  omega

end Adql
