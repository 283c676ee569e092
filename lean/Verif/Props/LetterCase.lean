import Verif.Model.FoldRules
import Verif.Props.InputLevel
import Verif.Props.Tree

/-!
# C13: letter case

Two texts that differ only in the case of ASCII letters, and do not use TAP_UPLOAD, have the same
kind of outcome, and the formatted queries differ only in letter case.
-/

namespace Adql

open Spec

/-! ### The regular expression -/

/-- The same kind of optional result. -/
def OptRel {R : Type} (S : R → R → Prop) : Option R → Option R → Prop
  | some a, some b => S a b
  | none, none => True
  | _, _ => False

theorem optRel_cases {R : Type} {S : R → R → Prop} {x y : Option R} (h : OptRel S x y) :
    (∃ a b, x = some a ∧ y = some b ∧ S a b) ∨ (x = none ∧ y = none) := by
  cases x <;> cases y
  · exact .inr ⟨rfl, rfl⟩
  · exact h.elim
  · exact h.elim
  · exact .inl ⟨_, _, rfl, rfl, h⟩

/-- The captured texts differ only in letter case. -/
abbrev CapsRel : Caps → Caps → Prop := ListRel fun x y => x.1 = y.1 ∧ SameCI x.2 y.2

/-- None of the character classes of the expression looks at letter case. -/
def Re.CaseFree : Re → Prop
  | .eps => True
  | .chr f => Adql.CaseFree f
  | .seq p q => p.CaseFree ∧ q.CaseFree
  | .alt p q => p.CaseFree ∧ q.CaseFree
  | .many f => Adql.CaseFree f
  | .manyLazy f => Adql.CaseFree f
  | .grp _ p => p.CaseFree
  | .look p => p.CaseFree
  | .eoi => True

theorem sameCI_take {s t : Str} (h : SameCI s t) (n : Nat) : SameCI (s.take n) (t.take n) := by
  simp only [SameCI, ← List.map_take] at h ⊢; rw [List.map_take, h, ← List.map_take]

theorem sameCI_drop {s t : Str} (h : SameCI s t) (n : Nat) : SameCI (s.drop n) (t.drop n) := by
  simp only [SameCI] at h ⊢; rw [List.map_drop, h, ← List.map_drop]

theorem loopG_fold {R : Type} {S : R → R → Prop} {f : Char → Bool} (hf : CaseFree f)
    {k k' : Str → Option R} (hk : ∀ s t, SameCI s t → OptRel S (k s) (k' t)) :
    ∀ {s t : Str}, SameCI s t → OptRel S (loopG f k s) (loopG f k' t)
  | [], t, h => by rw [sameCI_nil.1 h]; exact hk _ _ rfl
  | c :: s, [], h => by simp [SameCI] at h
  | c :: s, d :: t, h => by
    have hc := sameCI_cons_iff.1 h
    simp only [loopG, hf c d hc.1]
    split
    · rcases optRel_cases (loopG_fold hf hk hc.2) with ⟨a, b, e1, e2, hs⟩ | ⟨e1, e2⟩ <;>
        simp only [e1, e2]
      · exact hs
      · exact hk _ _ h
    · exact hk _ _ h

theorem loopL_fold {R : Type} {S : R → R → Prop} {f : Char → Bool} (hf : CaseFree f)
    {k k' : Str → Option R} (hk : ∀ s t, SameCI s t → OptRel S (k s) (k' t)) :
    ∀ {s t : Str}, SameCI s t → OptRel S (loopL f k s) (loopL f k' t)
  | [], t, h => by rw [sameCI_nil.1 h]; exact hk _ _ rfl
  | c :: s, [], h => by simp [SameCI] at h
  | c :: s, d :: t, h => by
    have hc := sameCI_cons_iff.1 h
    simp only [loopL, hf c d hc.1]
    rcases optRel_cases (hk _ _ h) with ⟨a, b, e1, e2, hs⟩ | ⟨e1, e2⟩ <;> simp only [e1, e2]
    · exact hs
    · split
      · exact loopL_fold hf hk hc.2
      · trivial

theorem re_fold : ∀ (p : Re), p.CaseFree → ∀ {R : Type} {S : R → R → Prop} {s t : Str} {c d : Caps}
    {k k' : Str → Caps → Option R}, SameCI s t → CapsRel c d →
    (∀ s t c d, SameCI s t → CapsRel c d → OptRel S (k s c) (k' t d)) →
    OptRel S (p.run s c k) (p.run t d k')
  | .eps, _, _, _, _, _, _, _, _, _, h, hc, hk => hk _ _ _ _ h hc
  | .chr f, hf, _, _, s, t, _, _, _, _, h, hc, hk => by
    simp only [Re.run]
    cases s with
    | nil => rw [sameCI_nil.1 h]; trivial
    | cons x s =>
      cases t with
      | nil => simp [SameCI] at h
      | cons y t =>
        have hx := sameCI_cons_iff.1 h
        simp only [show f x = f y from hf x y hx.1]
        split
        · exact hk _ _ _ _ hx.2 hc
        · trivial
  | .seq p q, hf, _, _, _, _, _, _, _, _, h, hc, hk =>
    re_fold p hf.1 h hc fun _ _ _ _ h hc => re_fold q hf.2 h hc hk
  | .alt p q, hf, _, _, _, _, _, _, _, _, h, hc, hk => by
    simp only [Re.run]
    rcases optRel_cases (re_fold p hf.1 h hc hk) with ⟨a, b, e1, e2, hs⟩ | ⟨e1, e2⟩ <;> simp only [e1, e2]
    · exact hs
    · exact re_fold q hf.2 h hc hk
  | .many f, hf, _, _, _, _, _, _, _, _, h, hc, hk => loopG_fold hf (fun _ _ h => hk _ _ _ _ h hc) h
  | .manyLazy f, hf, _, _, _, _, _, _, _, _, h, hc, hk => loopL_fold hf (fun _ _ h => hk _ _ _ _ h hc) h
  | .grp i p, hf, _, _, s, t, _, _, _, _, h, hc, hk =>
    re_fold p hf h hc fun r u _ _ h' hc' => hk _ _ _ _ h' (.cons ⟨rfl, by
      rw [len_sameCI h, len_sameCI h']; exact sameCI_take h _⟩ hc')
  | .look p, hf, _, _, _, _, _, _, _, _, h, hc, hk => by
    simp only [Re.run]
    rcases optRel_cases (re_fold p hf (S := fun _ _ => True) (k := fun _ _ => some ())
      (k' := fun _ _ => some ()) h hc fun _ _ _ _ _ _ => trivial) with ⟨a, b, e1, e2, hs⟩ | ⟨e1, e2⟩ <;>
      simp only [e1, e2]
    · exact hk _ _ _ _ h hc
    · trivial
  | .eoi, _, _, _, s, t, _, _, _, _, h, hc, hk => by
    simp only [Re.run]
    cases s with
    | nil => rw [sameCI_nil.1 h]; exact hk _ _ _ _ rfl hc
    | cons x s =>
      cases t with
      | nil => simp [SameCI] at h
      | cons y t => trivial

/-- The parts of the matches differ only in letter case. -/
def MatchRel (m n : Match) : Prop :=
  SameCI m.pre n.pre ∧ SameCI m.whole n.whole ∧ SameCI m.post n.post ∧ CapsRel m.caps n.caps

theorem search_fold {p : Re} (hp : p.CaseFree) : ∀ {s t pre pre' : Str}, SameCI s t → SameCI pre pre' →
    OptRel MatchRel (p.search pre s) (p.search pre' t)
  | [], t, pre, pre', h, h' => by
    rw [sameCI_nil.1 h]
    simp only [Re.search]
    rcases optRel_cases (re_fold p hp (S := fun x y => SameCI x.1 y.1 ∧ CapsRel x.2 y.2) (s := []) (t := [])
      (c := []) (d := []) (k := fun r c => some (r, c)) (k' := fun r c => some (r, c)) rfl .nil
      fun _ _ _ _ h hc => ⟨h, hc⟩) with ⟨a, b, e1, e2, hs⟩ | ⟨e1, e2⟩
    · rw [e1]
      rw [e1] at e2
      obtain rfl : a = b := Option.some.inj e2
      exact ⟨h', rfl, rfl, hs.2⟩
    · rw [e1]; trivial
  | c :: s, [], _, _, h, _ => by simp [SameCI] at h
  | c :: s, d :: t, pre, pre', h, h' => by
    have hc := sameCI_cons_iff.1 h
    simp only [Re.search]
    rcases optRel_cases (re_fold p hp (S := fun x y => SameCI x.1 y.1 ∧ CapsRel x.2 y.2)
      (c := []) (d := []) (k := fun r c => some (r, c)) (k' := fun r c => some (r, c)) h .nil
      fun _ _ _ _ h hc => ⟨h, hc⟩) with ⟨a, b, e1, e2, hs⟩ | ⟨e1, e2⟩
    · rw [e1, e2]
      refine ⟨h', ?_, hs.1, hs.2⟩
      simp only
      rw [len_sameCI h, len_sameCI hs.1]
      exact sameCI_take h _
    · rw [e1, e2]
      exact search_fold hp hc.2 (sameCI_append h' (by simp [SameCI, hc.1]))

theorem caseFree_ci (c : Char) : (Re.ci c).CaseFree := by
  intro x y h; simp only [h]

theorem caseFree_word : ∀ w : Str, (Re.word w).CaseFree
  | [] => trivial
  | c :: w => ⟨caseFree_ci c, caseFree_word w⟩

theorem caseFree_dot : CaseFree reDot := (caseFree_ne (by decide)).and (caseFree_ne (by decide))
theorem caseFree_nonBlank : CaseFree reNonBlank := caseFree_ne (by decide)
theorem caseFree_blanks : Re.blanks.CaseFree := caseFree_eq (by decide)

theorem caseFree_geomRegex : geomRegex.CaseFree := by
  have W := caseFree_word
  have D := caseFree_dot
  have N := caseFree_nonBlank
  have B := caseFree_blanks
  have C := caseFree_ci
  exact ⟨W _, C _, ⟨N, D, D, N⟩, B, W _, B,
    ⟨⟨⟨⟨C _, C _⟩, B, C _, B⟩, trivial⟩, ⟨W _, W _⟩, D, B, W _, W _, W _, W _, trivial⟩,
    ⟨⟨B, W _, B, N, D, D, B, W _, W _, W _, trivial⟩, trivial⟩, D, trivial⟩

/-! ### The preprocessing -/

theorem caps_lookup {c d : Caps} (h : CapsRel c d) (i : Nat) :
    SameCI ((c.lookup i).getD []) ((d.lookup i).getD []) := by
  induction h with
  | nil => rfl
  | @cons a b l m h _ ih =>
    obtain ⟨a1, a2⟩ := a
    obtain ⟨b1, b2⟩ := b
    obtain ⟨rfl, h⟩ := h
    simp only [List.lookup_cons]
    split
    · exact h
    · exact ih

theorem match_str {m n : Match} (h : MatchRel m n) (i : Nat) : SameCI (m.str i) (n.str i) := by
  unfold Match.str
  split
  · exact h.2.1
  · exact caps_lookup h.2.2.2 i

theorem sameCI_plain {c d x : Char} (hx : plainC x = true) (h : lowerC c = lowerC d) : (c = x ↔ d = x) := by
  constructor
  · rintro rfl; exact plainC_eq hx h.symm
  · rintro rfl; exact plainC_eq hx h

theorem digit_sameCI {c d : Char} (h : lowerC c = lowerC d) (hc : c.isDigit = true) : d = c := by
  refine plainC_eq ?_ h.symm
  apply plainC_digit
  simp only [Char.isDigit, Bool.and_eq_true, decide_eq_true_eq] at hc
  simp only [isDigit, Bool.and_eq_true, decide_eq_true_eq]
  exact ⟨hc.1, hc.2⟩

theorem isDigit_sameCI {c d : Char} (h : lowerC c = lowerC d) : c.isDigit = d.isDigit := by
  rw [Bool.eq_iff_iff]
  constructor
  · intro hc; rw [digit_sameCI h hc]; exact hc
  · intro hd; rw [digit_sameCI h.symm hd]; exact hd

theorem sameCI_one {c d : Char} {s t : Str} (h : lowerC c = lowerC d) (hs : SameCI s t) :
    SameCI (c :: s) (d :: t) := sameCI_cons_iff.2 ⟨h, hs⟩

theorem fmtExpand_fold {m n : Match} (hm : MatchRel m n) (size : Nat) : ∀ (k : Nat) {s t : Str},
    s.length ≤ k → SameCI s t → SameCI (fmtExpand m size s) (fmtExpand n size t) := by
  have str : ∀ i, SameCI (if i < size then m.str i else []) (if i < size then n.str i else []) := by
    intro i; split
    · exact match_str hm i
    · rfl
  intro k
  induction k with
  | zero =>
    intro s t hk h
    obtain rfl : s = [] := List.length_eq_zero_iff.1 (by omega)
    rw [sameCI_nil.1 h]
    simp [fmtExpand, SameCI]
  | succ k ih =>
    intro s t hk h
    cases s with
    | nil => rw [sameCI_nil.1 h]; simp [fmtExpand, SameCI]
    | cons c s =>
    cases t with
    | nil => simp [SameCI] at h
    | cons c' t =>
    have hc := sameCI_cons_iff.1 h
    simp only [List.length_cons] at hk
    unfold fmtExpand
    have e0 : (c != '$') = (c' != '$') := caseFree_ne (x := '$') (by decide) c c' hc.1
    simp only [e0]
    split
    · exact sameCI_one hc.1 (ih (by omega) hc.2)
    · cases s with
      | nil => rw [sameCI_nil.1 hc.2]; rfl
      | cons d r =>
      cases t with
      | nil => exact absurd hc.2 (by simp [SameCI])
      | cons d' r' =>
      have hd := sameCI_cons_iff.1 hc.2
      simp only [List.length_cons] at hk
      have e1 : (d == '$') = (d' == '$') := caseFree_eq (x := '$') (by decide) d d' hd.1
      have e2 : (d == '&') = (d' == '&') := caseFree_eq (x := '&') (by decide) d d' hd.1
      have e3 : (d == '`') = (d' == '`') := caseFree_eq (x := '`') (by decide) d d' hd.1
      have e4 : (d == '\'') = (d' == '\'') := caseFree_eq (x := '\'') (by decide) d d' hd.1
      have e5 := isDigit_sameCI hd.1
      have ir := ih (s := r) (t := r') (by omega) hd.2
      simp only [e1, e2, e3, e4, e5]
      split
      · exact sameCI_one rfl ir
      split
      · exact sameCI_append hm.2.1 ir
      split
      · exact sameCI_append hm.1 ir
      split
      · exact sameCI_append hm.2.2.1 ir
      split
      · next hdig =>
        have ed := digit_sameCI hd.1 (e5.trans hdig)
        subst ed
        cases r with
        | nil => rw [sameCI_nil.1 hd.2]; exact str _
        | cons e r =>
        cases r' with
        | nil => exact absurd hd.2 (by simp [SameCI])
        | cons e' r' =>
        have he := sameCI_cons_iff.1 hd.2
        simp only [List.length_cons] at hk
        have e6 := isDigit_sameCI he.1
        simp only [e6]
        split
        · next hdig' =>
          have ee := digit_sameCI he.1 (e6.trans hdig')
          subst ee
          exact sameCI_append (str _) (ih (by omega) he.2)
        · exact sameCI_append (str _) ir
      · exact sameCI_one rfl (ih (by simp; omega) hc.2)

theorem scanLeft_fold : ∀ {s t : Str} (d : Nat) (w : Bool), SameCI s t → scanLeft s d w = scanLeft t d w
  | [], t, _, _, h => by rw [sameCI_nil.1 h]
  | c :: s, [], _, _, h => by simp [SameCI] at h
  | c :: s, c' :: t, d, w, h => by
    have hc := sameCI_cons_iff.1 h
    simp only [scanLeft, sameCI_plain (x := '(') (by decide) hc.1, sameCI_plain (x := ')') (by decide) hc.1]
    split
    · exact scanLeft_fold _ _ hc.2
    · split
      · split
        · rfl
        · exact scanLeft_fold _ _ hc.2
      · exact scanLeft_fold _ _ hc.2

theorem scanGeom_fold (w : Bool) : ∀ {s t : Str} (d : Nat) (cl : Bool), SameCI s t →
    scanGeom w s d cl = scanGeom w t d cl
  | [], t, _, _, h => by rw [sameCI_nil.1 h]
  | c :: s, [], _, _, h => by simp [SameCI] at h
  | c :: s, c' :: t, d, cl, h => by
    have hc := sameCI_cons_iff.1 h
    simp only [scanGeom, sameCI_plain (x := '(') (by decide) hc.1, sameCI_plain (x := ')') (by decide) hc.1]
    split
    · rfl
    · split
      · exact scanGeom_fold w _ _ hc.2
      · split
        · split
          · rfl
          · exact scanGeom_fold w _ _ hc.2
        · exact scanGeom_fold w _ _ hc.2

/-- The two messages are of the same kind and quote texts that differ only in letter case. -/
inductive SameErr : QErr → QErr → Prop
  | same (e : QErr) : SameErr e e
  | expecting (w : String) {r t : Str} : SameCI r t → SameErr (.expecting w r) (.expecting w t)
  | expectingSelect {r t : Str} : SameCI r t → SameErr (.expectingSelect r) (.expectingSelect t)
  | unexpectedEnd {r t : Str} : SameCI r t → SameErr (.unexpectedEnd r) (.unexpectedEnd t)
  | noTable {r t : Str} : SameCI r t → SameErr (.noTable r) (.noTable t)

/-- The same kind of outcome. -/
def QRel {α : Type} (S : α → α → Prop) : QRes α → QRes α → Prop
  | .ok a, .ok b => S a b
  | .error e, .error e' => SameErr e e'
  | _, _ => False

theorem check_fold {l g l' g' : Str} (hl : SameCI l l') (hg : SameCI g g') :
    QRel (fun x y => SameCI x.1 y.1 ∧ SameCI x.2 y.2) (checkAndAdjustParens l g)
      (checkAndAdjustParens l' g') := by
  have hh : (l.head? == some '(') = (l'.head? == some '(') := by
    cases l with
    | nil => rw [sameCI_nil.1 hl]
    | cons c l =>
      cases l' with
      | nil => simp [SameCI] at hl
      | cons d l' =>
        have := sameCI_plain (x := '(') (by decide) (sameCI_cons_iff.1 hl).1
        rw [Bool.eq_iff_iff]; simp [this]
  unfold checkAndAdjustParens
  rw [hh, scanLeft_fold _ _ hl]
  cases scanLeft l' 0 (l'.head? == some '(') with
  | error e => exact .same e
  | ok x =>
    obtain ⟨d, w⟩ := x
    simp only
    split
    · exact .same _
    · rw [scanGeom_fold w _ _ hg]
      cases scanGeom w g' d false with
      | error e => exact .same e
      | ok cl =>
        simp only
        split
        · exact ⟨sameCI_drop hl 1, by rw [len_sameCI hg]; exact sameCI_take hg _⟩
        · exact ⟨hl, hg⟩

/-- Preprocessing two texts that differ only in letter case. -/
theorem preprocess_fold {s t : Str} (h : SameCI s t) : QRel SameCI (preprocess s) (preprocess t) := by
  unfold preprocess
  rcases optRel_cases (search_fold caseFree_geomRegex h (pre := []) (pre' := []) rfl) with
    ⟨m, n, e1, e2, hm⟩ | ⟨e1, e2⟩ <;> rw [e1, e2]
  · simp only [tweakInputString]
    have hc := check_fold (match_str hm 1) (match_str hm 2)
    cases h1 : checkAndAdjustParens (m.str 1) (m.str 2) with
    | error e =>
      cases h2 : checkAndAdjustParens (n.str 1) (n.str 2) with
      | error e' => rw [h1, h2] at hc; exact hc
      | ok y => rw [h1, h2] at hc; exact hc.elim
    | ok x =>
      cases h2 : checkAndAdjustParens (n.str 1) (n.str 2) with
      | error e' => rw [h1, h2] at hc; exact hc.elim
      | ok y =>
        rw [h1, h2] at hc
        refine sameCI_append (sameCI_append hm.1 (fmtExpand_fold hm 5 _ (Nat.le_refl _) ?_)) hm.2.2.1
        have h3 := match_str hm 3
        unfold replacement
        rw [(alikeS h3).2]
        refine sameCI_append (sameCI_append (sameCI_append (sameCI_append rfl hc.2) rfl) hc.1) ?_
        split
        · rfl
        · exact sameCI_append rfl h3
  · exact h

/-! ### C13 -/

/-- **C13**, stated for the text after preprocessing: neither text uses TAP_UPLOAD (in capitals, the
only spelling the code knows). -/
theorem C13_parse (cfg : Config) (fmt : Str → Str) (hfmt : ∀ x y, SameCI x y → SameCI (fmt x) (fmt y))
    {s t : Str} (h : SameCI s t) (hs : NoTap s) (ht : NoTap t) :
    QRel (fun q q' => SameCI (q.print fmt) (q'.print fmt)) (parseIt cfg s) (parseIt cfg t) := by
  unfold parseIt
  rcases resRel_cases (fd_parseQuery hfmt cfg h hs ht) with ⟨a, r, b, u, e1, e2, h3, h4⟩ | ⟨e1, e2⟩ |
    ⟨w, r, u, e1, e2, h3⟩ | ⟨m, n, e1, e2, h3⟩ | ⟨e1, e2⟩
  · rw [e1, e2]
    have h5 : SameCI (r.dropWhile isSpace) (u.dropWhile isSpace) := sameCI_skip (sk := true) h4
    simp only
    cases hr : r.dropWhile isSpace with
    | nil => rw [hr] at h5; rw [sameCI_nil.1 h5]; exact h3.1
    | cons c r' =>
      cases hu : u.dropWhile isSpace with
      | nil => rw [hr, hu] at h5; simp [SameCI] at h5
      | cons d u' => rw [hr, hu] at h5; exact .unexpectedEnd h5
  · rw [e1, e2]; exact .expectingSelect h
  · rw [e1, e2]; exact .expecting w h3
  · rw [e1, e2]; exact .noTable h3
  · rw [e1, e2]; exact .same _


/-- **C13** for the constructor: the preprocessed texts do not use TAP_UPLOAD. -/
theorem C13_construct (cfg : Config) (fmt : Str → Str)
    (hfmt : ∀ x y, SameCI x y → SameCI (fmt x) (fmt y)) {s t : Str} (h : SameCI s t)
    (hs : ∀ s', preprocess s = .ok s' → NoTap s') (ht : ∀ t', preprocess t = .ok t' → NoTap t') :
    QRel (fun q q' => SameCI (q.print fmt) (q'.print fmt)) (construct cfg s) (construct cfg t) := by
  unfold construct
  have hp := preprocess_fold h
  cases h1 : preprocess s with
  | error e =>
    cases h2 : preprocess t with
    | error e' => rw [h1, h2] at hp; exact hp
    | ok t' => rw [h1, h2] at hp; exact hp.elim
  | ok s' =>
    cases h2 : preprocess t with
    | error e' => rw [h1, h2] at hp; exact hp.elim
    | ok t' => rw [h1, h2] at hp; exact C13_parse cfg fmt hfmt hp (hs s' h1) (ht t' h2)

/-- **C13** in terms of the texts given: no `$` and no `TAP_UPLOAD.`. -/
theorem C13_letter_case (cfg : Config) (fmt : Str → Str)
    (hfmt : ∀ x y, SameCI x y → SameCI (fmt x) (fmt y)) {s t : Str} (h : SameCI s t) (hd : '$' ∉ s)
    (hs : ¬ cs!"TAP_UPLOAD." <:+: s) (ht : ¬ cs!"TAP_UPLOAD." <:+: t) :
    QRel (fun q q' => SameCI (q.print fmt) (q'.print fmt)) (construct cfg s) (construct cfg t) := by
  have hd' : '$' ∉ t := by
    intro ht
    apply hd
    have : lowerC '$' ∈ t.map lowerC := List.mem_map_of_mem ht
    rw [← show s.map lowerC = t.map lowerC from h] at this
    obtain ⟨c, hc, e⟩ := List.mem_map.1 this
    rwa [plainC_eq (x := '$') (by decide) e] at hc
  exact C13_construct cfg fmt hfmt h
    (fun _ e w => hs (preprocess_infix e hd (by decide) (by decide) (by decide) (by decide) w))
    (fun _ e w => ht (preprocess_infix e hd' (by decide) (by decide) (by decide) (by decide) w))

/-- **C13**: the query is accepted in one spelling iff it is accepted in the other. -/
theorem C13_accepted (cfg : Config) {s t : Str} (h : SameCI s t) (hd : '$' ∉ s)
    (hs : ¬ cs!"TAP_UPLOAD." <:+: s) (ht : ¬ cs!"TAP_UPLOAD." <:+: t) :
    (∃ q, construct cfg s = .ok q) ↔ ∃ q, construct cfg t = .ok q := by
  have hq := C13_letter_case cfg id (fun _ _ h => h) h hd hs ht
  cases h1 : construct cfg s with
  | error e =>
    cases h2 : construct cfg t with
    | error e' => simp
    | ok q => rw [h1, h2] at hq; exact hq.elim
  | ok q =>
    cases h2 : construct cfg t with
    | error e' => rw [h1, h2] at hq; exact hq.elim
    | ok q' => exact ⟨fun _ => ⟨_, rfl⟩, fun _ => ⟨_, rfl⟩⟩

/-- non-trivial case: a query that is rewritten, accepted in both spellings -/
example : SameCI cs!"Select A From T Where X>1e2 aNd Contains(B,C)=1 Order By a desc"
      cs!"SELECT a FROM t WHERE x>1E2 AND CONTAINS(b,c)=1 ORDER BY A DESC" ∧
    constructPrint oneMap id cs!"Select A From T Where X>1e2 aNd Contains(B,C)=1 Order By a desc" =
      .ok cs!"SELECT A FROM T WHERE CONTAINS(B,C)=1 AND X > 1e2" ∧
    constructPrint oneMap id cs!"SELECT a FROM t WHERE x>1E2 AND CONTAINS(b,c)=1 ORDER BY A DESC" =
      .ok cs!"SELECT a FROM t WHERE CONTAINS(b,c)=1 AND x > 1E2" :=
  ⟨by unfold SameCI; decide +kernel, by kernel_rfl, by kernel_rfl⟩

/-- non-trivial case: refused in both spellings, at the same place -/
example : constructPrint oneMap id cs!"SELECT a FROM t WHERE X IN(1)" = .error (.expecting "space" cs!"(1)") ∧
    constructPrint oneMap id cs!"select A from T where x in(1)" = .error (.expecting "space" cs!"(1)") :=
  ⟨by kernel_rfl, by kernel_rfl⟩

/-- TAP_UPLOAD is an exception: the code knows it only in capitals. -/
theorem C13_tap_upload : SameCI cs!"SELECT a FROM TAP_UPLOAD.up" cs!"SELECT a FROM tap_upload.up" ∧
    constructPrint oneMap id cs!"SELECT a FROM TAP_UPLOAD.up" = .ok cs!"SELECT a FROM real.table" ∧
    constructPrint oneMap id cs!"SELECT a FROM tap_upload.up" =
      .error (.expecting "table reference list" cs!" tap_upload.up") :=
  ⟨by unfold SameCI; decide +kernel, by kernel_rfl, by kernel_rfl⟩

end Adql
