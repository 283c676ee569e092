import Verif.Model.AcceptFn

/-!
# Running the grammar forward: expressions
-/

namespace Adql.Fwd

open P Spec

variable {cfg : Config} {sk : Bool}

theorem all_mem {α : Type} {p : α → Bool} {l : List α} (h : l.all p = true) {x : α} (hx : x ∈ l) :
    p x = true := List.all_eq_true.1 h x hx

/-! ### What follows conditions -/

theorem logEnd_noLetter {r : Str} (h : NoLetter (skip true r)) : LogEnd r := by
  intro w t c y hw hs e
  have e : skip true r = t ++ c :: y := e
  exfalso
  have : startsLetter w = true := by
    have : ([cs!"AND", cs!"OR"].all startsLetter) = true := by decide
    exact all_mem this hw
  have h1 := matchLit_noLetter' this h
  rw [e, matchLit_iff.2 ⟨rfl, litOK_ci.2 hs⟩] at h1
  cases h1

/-- The words with which predicates continue. -/
def predWords : List Str := [cs!"NOT", cs!"BETWEEN", cs!"IN", cs!"IS", cs!"LIKE"]

theorem matchLit_prefixCI {w u : Str} : matchLit true w u = none ↔ prefixCI w u = false := by
  constructor
  · intro h
    cases hp : prefixCI w u with
    | false => rfl
    | true =>
      obtain ⟨t, r, rfl, hs⟩ := prefixCI_iff.1 hp
      rw [matchLit_iff.2 ⟨rfl, litOK_ci.2 hs⟩] at h; cases h
  · intro h
    cases hm : matchLit true w u with
    | none => rfl
    | some p =>
      obtain ⟨t, r⟩ := p
      obtain ⟨h1, h2⟩ := matchLit_iff.1 hm
      rw [prefixCI_iff.2 ⟨t, r, h1, litOK_ci.1 h2⟩] at h; cases h

theorem tok_noLetter {c : Char} {s r : Str} (h : Tok [c] s) (hs : isSpace c = false) (hc : isLetter c = false) :
    NoLetter (skip true (s ++ r)) := by
  have h1 : skip true (s ++ r) = [c] ++ r := tok_drop h rfl hs
  rw [h1]
  intro d u e
  cases e; exact hc

/-- What may follow a condition: with `o`, an expression could be continued. -/
def FEnd (o : Bool) (r : Str) : Prop := ExprEnd r ∧ (o = true → BareEnd r)

/-- What may follow a value of any kind. -/
def VEnd (r : Str) : Prop := ExprEnd r ∧ BareEnd r ∧ LogEnd r

theorem VEnd.fEnd {o : Bool} {r : Str} (h : VEnd r) : FEnd o r := ⟨h.1, fun _ => h.2.1⟩

theorem vEnd_tok {c : Char} {s r : Str} (h : Tok [c] s)
    (hc : (!isSpace c && !isIdChar c && !("(.'\":-[*/+|=!<>".toList.contains c)) = true) (hl : isLetter c = false) :
    VEnd (s ++ r) := by
  have hc' := hc
  simp only [Bool.and_eq_true, Bool.not_eq_true'] at hc
  obtain ⟨⟨h1, h2⟩, h3⟩ := hc
  have hn : NoLetter (skip true (s ++ r)) := tok_noLetter h h1 hl
  have hm : c ∉ "(.'\":-[*/+|=!<>".toList := by
    rw [List.contains_eq_mem, decide_eq_false_iff_not] at h3; exact h3
  refine ⟨exprEnd_tok h ?_, ⟨?_, fun w hm => matchLit_prefixCI.1 (matchLit_noLetter' ?_ hn)⟩, logEnd_noLetter hn⟩
  · rw [h1, h2, Bool.not_false, Bool.true_and, Bool.true_and, Bool.not_eq_true', List.contains_eq_mem, decide_eq_false_iff_not]
    exact fun e => hm ((by decide : ∀ x ∈ "(.'\":-[*/+|".toList, x ∈ "(.'\":-[*/+|=!<>".toList) c e)
  · rw [tok_next h rfl h1]
    intro e
    simp only [List.mem_cons, Option.some.injEq, List.not_mem_nil, or_false] at e
    rcases e with rfl | rfl | rfl | rfl <;> exact hm (by decide)
  · have h1 : (predWords.all startsLetter) = true := by decide
    exact all_mem h1 hm

theorem close_v {s r : Str} (h : Tok cs!")" s) : VEnd (s ++ r) := vEnd_tok h (by decide) (by decide)
theorem comma_v {s r : Str} (h : Tok cs!"," s) : VEnd (s ++ r) := vEnd_tok h (by decide) (by decide)
theorem bracket_v {s r : Str} (h : Tok cs!"]" s) : VEnd (s ++ r) := vEnd_tok h (by decide) (by decide)

theorem close_log {c r : Str} (h : Tok cs!")" c) : LogEnd (c ++ r) := (close_v h).2.2

theorem close_bare {c r : Str} (h : Tok cs!")" c) : BareEnd (c ++ r) := (close_v h).2.1

/-! ### How expressions start -/

/-- the reserved words with which an expression can start -/
def callWords : List Str :=
  trig1 ++ (cs!"ATAN2" :: fn0) ++ fn1 ++ fn2 ++ setFns ++
    [cs!"ARRAY", cs!"NULL", cs!"NULLIF", cs!"COALESCE", cs!"CURRENT_TIMESTAMP", cs!"TRUE", cs!"FALSE",
     cs!"CASE", cs!"ANY", cs!"CAST", cs!"COORD1", cs!"COORD2", cs!"DISTANCE"] ++ fnNames

/-- the keywords with which an expression can start -/
def startWords : List Str := cs!"TAP_UPLOAD" :: callWords

/-- a word with which an expression can start: the name `f` or a keyword -/
def LeadWord (f x : Str) : Prop := (FnName x ∧ f = x) ∨ ∃ w ∈ startWords, SameCI x w

/-- The text starts like an expression: with one of the characters `cs`, with the name `f` or with a keyword. -/
def LeadIn (f cs u : Str) : Prop :=
  (∃ c t, skip true u = c :: t ∧ c ∈ cs) ∨
  (∃ x y, skip true u = x ++ y ∧ IdentShape x ∧ NotContinued y ∧ LeadWord f x)

/-- the other characters with which an operand can start -/
def atomChars : Str := "0123456789.'\"(".toList
/-- the other characters with which an expression can start -/
def exprChars : Str := atomChars ++ ['+', '-']

theorem LeadIn.mono {f cs cs' u : Str} (h : LeadIn f cs u) (hs : ∀ c ∈ cs, c ∈ cs') : LeadIn f cs' u := by
  rcases h with ⟨c, t, h1, h2⟩ | h
  · exact .inl ⟨c, t, h1, hs c h2⟩
  · exact .inr h

theorem LeadIn.blanks {f cs b u : Str} (hb : Blanks b) (h : LeadIn f cs u) : LeadIn f cs (b ++ u) := by
  unfold LeadIn; rw [skip_blanks hb]; exact h

theorem lead_chr {f cs u : Str} {c : Char} {t : Str} (hc : isSpace c = false) (hm : c ∈ cs)
    (hu : u = c :: t) : LeadIn f cs u := by
  subst hu
  exact .inl ⟨c, t, skip_bare (bare_cons hc), hm⟩

theorem lead_word {f cs x y : Str} (hx : IdentShape x) (hy : NotContinued y) (hw : LeadWord f x) :
    LeadIn f cs (x ++ y) := .inr ⟨x, y, skip_bare (identShape_bare hx), hx, hy, hw⟩

theorem startWords_shape : ∀ w ∈ startWords, wordShape w = true := by
  have : (startWords.all wordShape) = true := by decide +kernel
  exact List.all_eq_true.1 this

theorem lead_kwStart {f cs w t y : Str} (h : KwStart w t y) (hw : w ∈ startWords) : LeadIn f cs (t ++ y) :=
  lead_word h.ident h.stop (.inr ⟨w, hw, h.same⟩)

theorem LeadIn.next_mem {f cs u : Str} (h : LeadIn f cs u) :
    ∃ c, next u = some c ∧ (c ∈ cs ∨ isLetter c = true) := by
  have hn : next u = (skip true u).head? := rfl
  rcases h with ⟨c, t, h1, h2⟩ | ⟨x, y, h1, ⟨c, t, rfl, hc, -⟩, -⟩
  · exact ⟨c, by rw [hn, h1]; rfl, .inl h2⟩
  · exact ⟨c, by rw [hn, h1]; rfl, .inr (isLetter_iff.2 hc)⟩

theorem LeadIn.ne {f cs u : Str} (h : LeadIn f cs u) {d : Char} (hd : (!cs.contains d && !isLetter d) = true) :
    next u ≠ some d := by
  obtain ⟨c, h1, h2⟩ := h.next_mem
  rw [h1]
  rintro ⟨⟩
  simp only [Bool.and_eq_true, Bool.not_eq_true'] at hd
  rcases h2 with h2 | h2
  · rw [List.contains_iff_mem.2 h2] at hd; cases hd.1
  · rw [h2] at hd; cases hd.2

/-- A word that no expression starts with. -/
def offStart (w : Str) : Bool :=
  w.all isIdChar && startsLetter w && (takenB w || openWords.contains w) && offAll startWords w

theorem noLetter_of_mem {cs : Str} (h : (cs.all fun c => !isLetter c) = true) {c : Char} (hc : c ∈ cs)
    {t : Str} : NoLetter (c :: t) := by
  intro d u e
  cases e
  simpa using List.all_eq_true.1 h c hc

/-- Keywords that do not start an expression are not found there. -/
theorem LeadIn.apart {f u : Str} (h : LeadIn f exprChars u) {w : Str} (hw : offStart w = true) :
    Apart w (skip true u) := by
  simp only [offStart, Bool.and_eq_true] at hw
  obtain ⟨⟨⟨h1, h2⟩, h3⟩, h4⟩ := hw
  rcases h with ⟨c, t, h5, h6⟩ | ⟨x, y, h5, h6, h7, h8⟩
  · rw [h5]
    exact apart_noLetter h2 (noLetter_of_mem (by decide) h6)
  · rw [h5]
    apply apart_word h1 h6 h7
    intro he
    rcases h8 with ⟨h8, -⟩ | ⟨m, hm, h8⟩
    · simp only [Bool.or_eq_true, List.contains_iff_mem] at h3
      exact plain_other h8 (h3.imp_left takenB_iff) he
    · have h9 := List.all_eq_true.1 h4 m hm
      simp only [Bool.and_eq_true, Bool.not_eq_true', beq_eq_false_iff_ne] at h9
      exact h9.2 (he.symm.trans h8)

/-- the words that are recognised at the beginning of longer words, where an expression may start -/
def headWords : List Str := [cs!"NOT", cs!"EXISTS", cs!"WITH", cs!"SELECT"]

/-- These words are not found at the start of an expression whose first name does not begin with them. -/
theorem LeadIn.none {f u : Str} (h : LeadIn f exprChars u) {w : Str} (hg : w ∈ headWords) (hf : prefixCI w f = false) :
    matchLit true w (skip true u) = none := by
  have hw : w.all isIdChar = true ∧ startsLetter w = true := by
    have : (headWords.all fun w => w.all isIdChar && startsLetter w) = true := by decide +kernel
    have := List.all_eq_true.1 this w hg
    simpa using this
  have hs : (startWords.all fun m => !prefixCI w m) = true := by
    have : (headWords.all fun w => startWords.all fun m => !prefixCI w m) = true := by decide +kernel
    exact all_mem this hg
  rcases h with ⟨c, t, h5, h6⟩ | ⟨x, y, h5, h6, h7, h8⟩
  · rw [h5]
    exact matchLit_noLetter' hw.2 (noLetter_of_mem (by decide) h6)
  · rw [h5]
    refine matchLit_prefix hw.1 h7 ?_
    rcases h8 with ⟨-, rfl⟩ | ⟨m, hm, h8⟩
    · exact hf
    · rw [sameCI_prefixCI h8]
      simpa using List.all_eq_true.1 hs m hm

/-- the words with which a condition can start that does not start like an expression -/
def condWords : List Str := [cs!"NOT", cs!"EXISTS"]

/-- The text starts like a value: like an expression or like a condition. -/
def LeadV (f u : Str) : Prop :=
  LeadIn f exprChars u ∨ ∃ w t y, w ∈ condWords ∧ skip true u = t ++ y ∧ KwStart w t y

theorem leadV_kw {f w s t y : Str} (h : Kw w s t) (hw : w ∈ condWords) (hy : NotContinued y) : LeadV f (s ++ y) := by
  obtain ⟨b, hb, rfl, hs⟩ := h
  have : (condWords.all wordShape) = true := by decide
  have hk : KwStart w t y := ⟨all_mem this hw, hs, hy⟩
  refine .inr ⟨w, t, y, hw, ?_, hk⟩
  rw [List.append_assoc, skip_blanks hb, skip_bare hk.bare]

theorem leadV_open {f s r : Str} (h : Tok cs!"(" s) : LeadV f (s ++ r) :=
  .inl (.inl ⟨'(', r, tok_drop h rfl (by decide), by decide⟩)

theorem LeadV.ne {f u : Str} (h : LeadV f u) {d : Char} (hd : (!exprChars.contains d && !isLetter d) = true) :
    next u ≠ some d := by
  rcases h with h | ⟨w, t, y, -, e, hk⟩
  · exact h.ne hd
  · obtain ⟨c, x, hx, hc, -⟩ := hk.ident
    have hn : next u = some c := by
      show (skip true u).head? = some c
      rw [e, hx]; rfl
    rw [hn]
    rintro ⟨⟩
    simp only [Bool.and_eq_true, Bool.not_eq_true'] at hd
    rw [isLetter_iff.2 hc] at hd; cases hd.2

/-- A word that no value starts with. -/
def offVal (w : Str) : Bool := offStart w && condWords.all fun m => offAll [w] m

theorem LeadV.apart {f u : Str} (h : LeadV f u) {w : Str} (hw : offVal w = true) : Apart w (skip true u) := by
  obtain ⟨h1, h2⟩ := Bool.and_eq_true_iff.1 hw
  rcases h with h | ⟨m, t, y, hm, e, hk⟩
  · exact h.apart h1
  · rw [e]
    exact hk.apart (all_mem h2 hm) _ (by simp)

theorem LeadV.none {f u : Str} (h : LeadV f u) {w : Str} (hg : w ∈ headWords) (hf : prefixCI w f = false)
    (hc : (condWords.all fun m => w.all isIdChar && !prefixCI w m) = true) : matchLit true w (skip true u) = none := by
  rcases h with h | ⟨m, t, y, hm, e, hk⟩
  · exact h.none hg hf
  · rw [e]
    exact hk.none (all_mem hc hm)

/-! ### What is to be shown -/

/-- The text spells the expression `v`. -/
structure GoodE (cfg : Config) (s : Str) (v : VENB) : Prop where
  lead : ∀ r, NotContinued r → LeadIn (firstExpr v) exprChars (s ++ r)
  run : ∀ r, ExprEnd r → parse cfg venb true (s ++ r) = .ok v r

/-- The text spells the value `x`. -/
structure GoodV (cfg : Config) (o g : Bool) (s : Str) (x : VE) : Prop where
  lead : ∀ r, NotContinued r → LeadV (firstVal x) (s ++ r)
  run : ∀ r, FEnd o r → (g = true → LogEnd r) → parse cfg ve true (s ++ r) = .ok x r

/-- The text spells the list of values `vs`. -/
structure GoodArgs (cfg : Config) (s : Str) (vs : List VE) : Prop where
  lead : ∀ r, NotContinued r → LeadV (firstArgs vs) (s ++ r)
  run : ∀ r, VEnd r → next r ≠ some ',' → parse cfg (sepBy ve (sym cs!",")) true (s ++ r) = .ok vs r

/-- The text spells the function call `f`. -/
structure GoodF (cfg : Config) (s : Str) (f : NumFn) : Prop where
  lead : ∀ r, NotContinued r → LeadIn (firstFn f) atomChars (s ++ r)
  run : ∀ r, PrimEnd r → parse cfg numericValueFunction true (s ++ r) = .ok f r

/-- The text spells `p`. -/
structure GoodP (cfg : Config) (s : Str) (p : Prim) : Prop where
  lead : ∀ r, NotContinued r → LeadIn (firstPrim p) atomChars (s ++ r)
  noFn : ∀ r, PrimEnd r → parse cfg numericValueFunction true (s ++ r) = .fail
  run : ∀ r, PrimEnd r → parse cfg primary true (s ++ r) = .ok p r

/-- The same, unless a comment follows a string. -/
structure GoodPrim (cfg : Config) (s : Str) (p : Prim) : Prop where
  lead : ∀ r, NotContinued r → LeadIn (firstPrim p) atomChars (s ++ r)
  noFn : ∀ r, PrimEnd r → parse cfg numericValueFunction true (s ++ r) = .fail
  run : ∀ r, PrimEnd r → (strPrim p = true → NoComment r) → parse cfg primary true (s ++ r) = .ok p r

theorem GoodP.q {s : Str} {p : Prim} (h : GoodP cfg s p) : GoodPrim cfg s p := ⟨h.lead, h.noFn, fun r hr _ => h.run r hr⟩

/-- The text spells the operand `p`. -/
structure GoodA (cfg : Config) (s : Str) (p : NumPrim) : Prop where
  lead : ∀ r, NotContinued r → LeadIn (firstAtom p) atomChars (s ++ r)
  run : ∀ r, AtomEnd r → (strAtom p = true → NoComment r) → parse cfg numericPrimary true (s ++ r) = .ok p r

/-- The text spells the operand with sign `f`. -/
structure GoodS (cfg : Config) (s : Str) (f : Factor) : Prop where
  lead : ∀ r, NotContinued r → LeadIn (firstFactor f) exprChars (s ++ r)
  run : ∀ r, AtomEnd r → (strFactor f = true → NoComment r) → parse cfg factor true (s ++ r) = .ok f r

theorem GoodE.ve {s r : Str} {v : VENB} (h : GoodE cfg s v) (hr : ExprEnd r) :
    parse cfg ve true (s ++ r) = .ok (.nb v) r := by
  rw [Adql.ve, parse_nt]
  exact alt_left (map_ok (h.run r hr))

theorem GoodE.val {s : Str} {v : VENB} (h : GoodE cfg s v) : GoodV cfg false false s (.nb v) :=
  ⟨fun r hr => .inl (h.lead r hr), fun _ hr _ => h.ve hr.1⟩

theorem GoodV.ve {o g : Bool} {s r : Str} {x : VE} (h : GoodV cfg o g s x) (hr : VEnd r) :
    parse cfg ve true (s ++ r) = .ok x r := h.run r hr.fEnd fun _ => hr.2.2

/-! ### Lists -/

theorem sepBy_one {α β : Type} {p : G α} {q : G β} {s r : Str} {a : α}
    (h : parse cfg p true s = .ok a r) (hq : parse cfg q true r = .fail) :
    parse cfg (sepBy p q) true s = .ok [a] r :=
  map_ok (f := fun x : α × List α => x.1 :: x.2) (seq_ok h (star_nil (seqR_fail hq)))

theorem sepBy_inv {α β : Type} {p : G α} {q : G β} {s r : Str} {l : List α}
    (h : parse cfg (sepBy p q) true s = .ok l r) : ∃ a l' r', parse cfg p true s = .ok a r' ∧
      parse cfg (.star (seqR q p)) true r' = .ok l' r ∧ l = a :: l' := by
  simp only [sepBy, parse, run_map, run_seq] at h
  cases h1 : step (D cfg) p true s with
  | ok a r' =>
    rw [h1] at h
    simp only [Res.bind_ok] at h
    cases h2 : step (D cfg) (.star (seqR q p)) true r' with
    | ok l' r'' =>
      rw [h2] at h
      simp only [Res.bind_ok, Res.ok.injEq] at h
      obtain ⟨rfl, rfl⟩ := h
      exact ⟨a, l', r', h1, h2, rfl⟩
    | fail => rw [h2] at h; cases h
    | err => rw [h2] at h; cases h
    | oof => rw [h2] at h; cases h
  | fail => rw [h1] at h; cases h
  | err => rw [h1] at h; cases h
  | oof => rw [h1] at h; cases h

theorem sepBy_cons {α β : Type} {p : G α} {q : G β} (hc : p.consumes = true) {s m t r : Str} {a : α} {b : β}
    {l : List α} (h : parse cfg p true s = .ok a m) (hq : parse cfg q true m = .ok b t)
    (ht : parse cfg (sepBy p q) true t = .ok l r) : parse cfg (sepBy p q) true s = .ok (a :: l) r := by
  obtain ⟨a', l', r', h1, h2, rfl⟩ := sepBy_inv ht
  refine map_ok (f := fun x : α × List α => x.1 :: x.2) (seq_ok h (star_cons ?_ (seqR_ok hq h1) h2))
  simp [seqR, P.consumes, hc]

theorem args_one {o g : Bool} {s : Str} {v : VE} (h : GoodV cfg o g s v) : GoodArgs cfg s [v] :=
  ⟨h.lead, fun _ hr hc => sepBy_one (h.ve hr) (sym_fail hc)⟩

theorem notContinued_tok {c : Char} {w s r : Str} (h : Tok (c :: w) s) (hc : isIdChar c = false) :
    NotContinued (s ++ r) := tok_notContinued h rfl hc

theorem args_cons {p g : Bool} {s m t : Str} {v : VE} {vs : List VE} (h : GoodV cfg p g s v) (hm : Tok cs!"," m)
    (ht : GoodArgs cfg t vs) : GoodArgs cfg (s ++ (m ++ t)) (v :: vs) := by
  refine ⟨fun r hr => ?_, fun r hr hc => ?_⟩
  · rw [List.append_assoc]
    exact h.lead _ (by rw [List.append_assoc]; exact notContinued_tok hm (by decide))
  · simp only [List.append_assoc]
    exact sepBy_cons rfl (h.ve (comma_v hm)) (sym_ok1 (by decide) hm) (ht.run r hr hc)

/-! ### Functions -/

theorem kw_open {w s t o z : Str} (h : Kw w s t) (hs : wordShape w = true) (ho : Tok cs!"(" o) :
    ∃ b, Blanks b ∧ s = b ++ t ∧ KwStart w t (o ++ z) := by
  obtain ⟨b, hb, rfl, hw⟩ := h
  exact ⟨b, hb, rfl, hs, hw, notContinued_tok ho (by decide)⟩

theorem open_ne_nil {o z : Str} (ho : Tok cs!"(" o) : o ++ z ≠ [] := by
  obtain ⟨b, _, rfl⟩ := ho
  cases b <;> simp

theorem fnHead_ok {ws : List Str} {w t o z : Str} (h : KwStart w t (o ++ z))
    (ha : (ws.all fun w' => w'.all isIdChar) = true) (hp : picks ws w = true) (ho : Tok cs!"(" o) :
    parse cfg (fnHead (.lexeme (anyKw ws))) true (t ++ (o ++ z)) = .ok t z := by
  refine seqL_ok ?_ (expect_ok (sym_ok1 (by decide) ho))
  rw [lexeme_bare h.bare]
  refine seqL_ok ?_ (andNonId_ok h.stop (open_ne_nil ho))
  rw [lexeme_bare h.bare]
  exact anyKw_picks h ha hp

theorem fnHead_ok1 {w t o z : Str} (h : KwStart w t (o ++ z)) (ho : Tok cs!"(" o) :
    parse cfg (fnHead (kw w)) true (t ++ (o ++ z)) = .ok t z := by
  refine seqL_ok ?_ (expect_ok (sym_ok1 (by decide) ho))
  rw [lexeme_bare h.bare]
  exact seqL_ok (kw_start h) (andNonId_ok h.stop (open_ne_nil ho))

theorem names_ok {ws : List Str} {w t o z : Str} (h : KwStart w t (o ++ z))
    (ha : (ws.all fun w' => w'.all isIdChar) = true) (hp : picks ws w = true) (ho : Tok cs!"(" o) :
    parse cfg (seqL (.lexeme (anyKw ws)) (sym cs!"(")) true (t ++ (o ++ z)) = .ok t z := by
  refine seqL_ok ?_ (sym_ok1 (by decide) ho)
  rw [lexeme_bare h.bare]
  exact anyKw_picks h ha hp

theorem nvf_blanks {b s : Str} (hb : Blanks b) :
    parse cfg numericValueFunction true (b ++ s) = parse cfg numericValueFunction true s :=
  parse_blanks (by simp) (by simp) hb

theorem good_trig1 {s fn o u c : Str} {p g : Bool} {v : VE} (hs : KwIn trig1 s fn) (ho : Tok cs!"(" o)
    (hu : GoodV cfg p g u v) (hc : Tok cs!")" c) :
    GoodF cfg (s ++ (o ++ (u ++ c))) (.trig1 fn v) := by
  obtain ⟨w, hw, hs⟩ := hs
  have hp : (trig1.all fun w => picks trig1 w && startWords.contains w && wordShape w) = true := by decide +kernel
  have hp := all_mem hp hw
  simp only [Bool.and_eq_true, List.contains_iff_mem] at hp
  refine ⟨fun r hr => ?_, fun r hr => ?_⟩
  · simp only [List.append_assoc]
    obtain ⟨b, hb, rfl, hk⟩ := kw_open (z := u ++ (c ++ r)) hs hp.2 ho
    rw [List.append_assoc]
    exact (lead_kwStart hk hp.1.2).blanks hb
  · simp only [List.append_assoc]
    obtain ⟨b, hb, rfl, hk⟩ := kw_open (z := u ++ (c ++ r)) hs hp.2 ho
    rw [List.append_assoc, nvf_blanks hb]
    exact alt_left (alt_left (map_ok (f := fun x : Str × VE => NumFn.trig1 x.1 x.2)
      (seq_ok (fnHead_ok hk (by decide +kernel) hp.1.1 ho)
        (seqL_ok (expect_ok (hu.ve (close_v hc))) (expect_ok (sym_ok1 (by decide) hc))))))

theorem good_trig2 {s fn o u m u' c : Str} {p g p' g' : Bool} {v v' : VE} (hs : Kw cs!"ATAN2" s fn) (ho : Tok cs!"(" o)
    (hu : GoodV cfg p g u v) (hm : Tok cs!"," m) (hu' : GoodV cfg p' g' u' v') (hc : Tok cs!")" c) :
    GoodF cfg (s ++ (o ++ (u ++ (m ++ (u' ++ c))))) (.trig2 fn v v') := by
  refine ⟨fun r hr => ?_, fun r hr => ?_⟩
  · simp only [List.append_assoc]
    obtain ⟨b, hb, rfl, hk⟩ := kw_open (z := u ++ (m ++ (u' ++ (c ++ r)))) hs (by decide) ho
    rw [List.append_assoc]
    exact (lead_kwStart hk (by decide +kernel)).blanks hb
  · simp only [List.append_assoc]
    obtain ⟨b, hb, rfl, hk⟩ := kw_open (z := u ++ (m ++ (u' ++ (c ++ r)))) hs (by decide) ho
    rw [List.append_assoc, nvf_blanks hb]
    apply alt_left
    have h1 : parse cfg (fnHead trigNames) true (fn ++ (o ++ (u ++ (m ++ (u' ++ (c ++ r)))))) = .fail :=
      fnHead_fail (ws := trig1) hk.bare (hk.apart (by decide +kernel))
    rw [trigFunction, alt_right (map_fail (seq_fail h1))]
    exact map_ok (f := fun x : Str × VE × VE => NumFn.trig2 x.1 x.2.1 x.2.2)
      (seq_ok (fnHead_ok1 hk ho) (seq_ok (expect_ok (hu.ve (comma_v hm)))
        (seqR_ok (expect_ok (sym_ok1 (by decide) hm))
          (seqL_ok (expect_ok (hu'.ve (close_v hc))) (expect_ok (sym_ok1 (by decide) hc))))))

/-- the word is not one of the trigonometric functions -/
def offTrig (w : Str) : Bool := offAll (cs!"ATAN2" :: trig1) w

theorem math_entry {w t y : Str} (h : KwStart w t y) (ho : offTrig w = true) {f : NumFn} {r : Str}
    (hm : parse cfg mathFunction true (t ++ y) = .ok f r) :
    parse cfg numericValueFunction true (t ++ y) = .ok f r := by
  rw [numericValueFunction, alt_right (trig_fail h.bare (h.apart ho))]
  exact alt_left hm

theorem good_math0 {s fn o c : Str} (hs : KwIn fn0 s fn) (ho : Tok cs!"(" o) (hc : Tok cs!")" c) :
    GoodF cfg (s ++ (o ++ c)) (.math0 fn) := by
  obtain ⟨w, hw, hs⟩ := hs
  have hp : (fn0.all fun w => (picks fn0 w && startWords.contains w && wordShape w) && offTrig w) = true := by decide +kernel
  have hp := all_mem hp hw
  simp only [Bool.and_eq_true, List.contains_iff_mem] at hp
  refine ⟨fun r hr => ?_, fun r hr => ?_⟩
  · simp only [List.append_assoc]
    obtain ⟨b, hb, rfl, hk⟩ := kw_open (z := c ++ r) hs hp.1.2 ho
    rw [List.append_assoc]
    exact (lead_kwStart hk hp.1.1.2).blanks hb
  · simp only [List.append_assoc]
    obtain ⟨b, hb, rfl, hk⟩ := kw_open (z := c ++ r) hs hp.1.2 ho
    rw [List.append_assoc, nvf_blanks hb]
    exact math_entry hk hp.2 (alt_left (map_ok (seqL_ok (names_ok hk (by decide +kernel) hp.1.1.1 ho)
      (sym_ok1 (by decide) hc))))

/-- the functions without argument fail when there is one -/
theorem math0_fail {w t o z : Str} (hk : KwStart w t (o ++ z)) (ho : Tok cs!"(" o)
    (hp : (picks fn0 w || offAll fn0 w) = true) {f : Str} (hz : LeadV f z) :
    parse cfg (.map NumFn.math0 (seqL (seqL math0Names (sym cs!"(")) (sym cs!")"))) true (t ++ (o ++ z)) = .fail := by
  apply map_fail
  simp only [Bool.or_eq_true] at hp
  rcases hp with hp | hp
  · exact seqL_fail2 (names_ok hk (by decide +kernel) hp ho) (sym_fail (hz.ne (by decide)))
  · exact seqL_fail (names_fail hk.bare (hk.apart hp))

theorem good_math1 {s fn o u c : Str} {p g : Bool} {v : VE} (hs : KwIn fn1 s fn) (ho : Tok cs!"(" o)
    (hu : GoodV cfg p g u v) (hc : Tok cs!")" c) :
    GoodF cfg (s ++ (o ++ (u ++ c))) (.math1 fn v) := by
  obtain ⟨w, hw, hs⟩ := hs
  have hp : (fn1.all fun w => (picks fn1 w && startWords.contains w && wordShape w) && (offTrig w &&
    (picks fn0 w || offAll fn0 w))) = true := by decide +kernel
  have hp := all_mem hp hw
  rw [Bool.and_eq_true, Bool.and_eq_true, Bool.and_eq_true, Bool.and_eq_true, List.contains_iff_mem] at hp
  refine ⟨fun r hr => ?_, fun r hr => ?_⟩
  · simp only [List.append_assoc]
    obtain ⟨b, hb, rfl, hk⟩ := kw_open (z := u ++ (c ++ r)) hs hp.1.2 ho
    rw [List.append_assoc]
    exact (lead_kwStart hk hp.1.1.2).blanks hb
  · simp only [List.append_assoc]
    obtain ⟨b, hb, rfl, hk⟩ := kw_open (z := u ++ (c ++ r)) hs hp.1.2 ho
    rw [List.append_assoc, nvf_blanks hb]
    apply math_entry hk hp.2.1
    rw [mathFunction, alt_right (math0_fail hk ho hp.2.2 (hu.lead _ (notContinued_tok hc (by decide))))]
    exact alt_left (map_ok (f := fun x : Str × VE => NumFn.math1 x.1 x.2)
      (seq_ok (names_ok hk (by decide +kernel) hp.1.1.1 ho)
        (seqL_ok (hu.ve (close_v hc)) (sym_ok1 (by decide) hc))))

theorem good_math2 {s fn o u m u' c : Str} {p g p' g' : Bool} {v v' : VE} (hs : KwIn fn2 s fn) (ho : Tok cs!"(" o)
    (hu : GoodV cfg p g u v) (hm : Tok cs!"," m) (hu' : GoodV cfg p' g' u' v') (hc : Tok cs!")" c) :
    GoodF cfg (s ++ (o ++ (u ++ (m ++ (u' ++ c))))) (.math2 fn v v') := by
  obtain ⟨w, hw, hs⟩ := hs
  have hp : (fn2.all fun w => (picks fn2 w && startWords.contains w && wordShape w) && (offTrig w &&
    ((picks fn0 w || offAll fn0 w) && (picks fn1 w || offAll fn1 w)))) = true := by decide +kernel
  have hp := all_mem hp hw
  rw [Bool.and_eq_true, Bool.and_eq_true, Bool.and_eq_true, Bool.and_eq_true, List.contains_iff_mem, Bool.and_eq_true] at hp
  refine ⟨fun r hr => ?_, fun r hr => ?_⟩
  · simp only [List.append_assoc]
    obtain ⟨b, hb, rfl, hk⟩ := kw_open (z := u ++ (m ++ (u' ++ (c ++ r)))) hs hp.1.2 ho
    rw [List.append_assoc]
    exact (lead_kwStart hk hp.1.1.2).blanks hb
  · simp only [List.append_assoc]
    obtain ⟨b, hb, rfl, hk⟩ := kw_open (z := u ++ (m ++ (u' ++ (c ++ r)))) hs hp.1.2 ho
    rw [List.append_assoc, nvf_blanks hb]
    apply math_entry hk hp.2.1
    have hv := hu.ve (comma_v (r := u' ++ (c ++ r)) hm)
    have h1 : parse cfg (seqL math1Names (sym cs!"(")) true (fn ++ (o ++ (u ++ (m ++ (u' ++ (c ++ r)))))) = .fail ∨
        parse cfg (seqL math1Names (sym cs!"(")) true (fn ++ (o ++ (u ++ (m ++ (u' ++ (c ++ r)))))) = .ok fn (u ++ (m ++ (u' ++ (c ++ r)))) := by
      have := hp.2.2.2
      simp only [Bool.or_eq_true] at this
      rcases this with this | this
      · exact .inr (names_ok hk (by decide +kernel) this ho)
      · exact .inl (names_fail hk.bare (hk.apart this))
    have h1' : parse cfg (.map (fun x : Str × VE => NumFn.math1 x.1 x.2)
        (.seq (seqL math1Names (sym cs!"(")) (seqL ve (sym cs!")")))) true (fn ++ (o ++ (u ++ (m ++ (u' ++ (c ++ r)))))) = .fail := by
      apply map_fail
      rcases h1 with h1 | h1
      · exact seq_fail h1
      · refine seq_fail2 h1 (seqL_fail2 hv (sym_fail ?_))
        rw [tok_next hm rfl (by decide)]; decide
    rw [mathFunction, alt_right (math0_fail hk ho hp.2.2.1 (hu.lead _ (notContinued_tok hm (by decide)))),
      alt_right h1']
    exact map_ok (f := fun x : Str × VE × VE => NumFn.math2 x.1 x.2.1 x.2.2)
      (seq_ok (names_ok hk (by decide +kernel) hp.1.1.1 ho)
        (seq_ok hv (seqR_ok (sym_ok1 (by decide) hm) (seqL_ok (hu'.ve (close_v hc)) (sym_ok1 (by decide) hc)))))

theorem fnWords_reserved : ∀ w ∈ fnWords, Taken w ∨ w ∈ openWords := by
  have h : (fnWords.all fun w => takenB w || openWords.contains w) = true := by decide +kernel
  intro w hw
  have := all_mem h hw
  simp only [Bool.or_eq_true, List.contains_iff_mem] at this
  exact this.imp_left takenB_iff

theorem plain_fn {x y : Str} (hx : FnName x) (hy : NotContinued y) : ∀ w ∈ fnWords, Apart w (x ++ y) :=
  plain_apart hx hy (by decide +kernel) fnWords_reserved

/-- no function name of the language is found at a plain word -/
theorem udf_entry {x y : Str} (hx : FnName x) (hy : NotContinued y) :
    parse cfg numericValueFunction true (x ++ y) =
      parse cfg (.alt userDefinedFunction (.map .str sqlNoArgFunction)) true (x ++ y) := by
  have hu := identShape_bare (y := y) hx.1
  have h := plain_fn hx hy
  have sub : ∀ (ws : List Str), (ws.all fun w => fnWords.contains w) = true → ∀ w ∈ ws, Apart w (x ++ y) := by
    intro ws hws w hw
    exact h w (List.contains_iff_mem.1 (List.all_eq_true.1 hws w hw))
  rw [numericValueFunction, alt_right (trig_fail hu (sub _ (by decide +kernel))),
    alt_right (math_fail hu (sub _ (by decide +kernel)) (sub _ (by decide +kernel)) (sub _ (by decide +kernel))),
    alt_right (cast_fail hu (sub [cs!"CAST"] (by decide +kernel) _ (by simp))),
    alt_right (geo_fail hu (sub _ (by decide +kernel)) (sub [cs!"DISTANCE"] (by decide +kernel) _ (by simp)))]

theorem udfName_plain {x y : Str} (hx : FnName x) (hy : NotContinued y) :
    parse cfg udfName sk (x ++ y) = .ok x y := by
  rw [udfName, lexeme_bare (identShape_bare hx.1)]
  exact alt_left (regular_word hx.1 hx.2.1 hy)

theorem plain_blanks {s fn : Str} (hs : Tok fn s) (y : Str) : ∃ b, Blanks b ∧ s ++ y = b ++ (fn ++ y) := by
  obtain ⟨b, hb, rfl⟩ := hs
  exact ⟨b, hb, List.append_assoc _ _ _⟩

theorem good_udf0 {s fn o c : Str} (hs : Tok fn s) (hf : FnName fn) (ho : Tok cs!"(" o) (hc : Tok cs!")" c) :
    GoodF cfg (s ++ (o ++ c)) (.udf fn []) := by
  refine ⟨fun r hr => ?_, fun r hr => ?_⟩
  · simp only [List.append_assoc]
    obtain ⟨b, hb, h⟩ := plain_blanks hs (o ++ (c ++ r))
    rw [h]
    exact (lead_word hf.1 (notContinued_tok ho (by decide)) (.inl ⟨hf, rfl⟩)).blanks hb
  · simp only [List.append_assoc]
    obtain ⟨b, hb, h⟩ := plain_blanks hs (o ++ (c ++ r))
    have hy : NotContinued (o ++ (c ++ r)) := notContinued_tok ho (by decide)
    rw [h, nvf_blanks hb, udf_entry hf hy]
    have hve : parse cfg ve true (c ++ r) = .fail := by
      rw [ve]
      apply D_dead
      have : (skip true (c ++ r)).head? = next (c ++ r) := rfl
      rw [this, tok_next hc rfl (by decide)]; decide
    exact alt_left (map_ok (f := fun x : Str × List VE => NumFn.udf x.1 x.2)
      (seq_ok (seqL_ok (udfName_plain hf hy) (sym_ok1 (by decide) ho))
        (seqL_ok (optD_none (map_fail (seq_fail hve))) (sym_ok1 (by decide) hc))))

theorem good_udf {s fn o u c : Str} {vs : List VE} (hs : Tok fn s) (hf : FnName fn) (ho : Tok cs!"(" o)
    (hu : GoodArgs cfg u vs) (hc : Tok cs!")" c) :
    GoodF cfg (s ++ (o ++ (u ++ c))) (.udf fn vs) := by
  refine ⟨fun r hr => ?_, fun r hr => ?_⟩
  · simp only [List.append_assoc]
    obtain ⟨b, hb, h⟩ := plain_blanks hs (o ++ (u ++ (c ++ r)))
    rw [h]
    exact (lead_word hf.1 (notContinued_tok ho (by decide)) (.inl ⟨hf, rfl⟩)).blanks hb
  · simp only [List.append_assoc]
    obtain ⟨b, hb, h⟩ := plain_blanks hs (o ++ (u ++ (c ++ r)))
    have hy : NotContinued (o ++ (u ++ (c ++ r))) := notContinued_tok ho (by decide)
    rw [h, nvf_blanks hb, udf_entry hf hy]
    exact alt_left (map_ok (f := fun x : Str × List VE => NumFn.udf x.1 x.2)
      (seq_ok (seqL_ok (udfName_plain hf hy) (sym_ok1 (by decide) ho))
        (seqL_ok (optD_ok (hu.run _ (close_v hc) (by rw [tok_next hc rfl (by decide)]; decide)))
          (sym_ok1 (by decide) hc))))

theorem good_now {s t : Str} (hs : Kw cs!"CURRENT_TIMESTAMP" s t) : GoodF cfg s (.str t) := by
  obtain ⟨b, hb, rfl, hw⟩ := hs
  have hk : ∀ r, NotContinued r → KwStart cs!"CURRENT_TIMESTAMP" t r := fun r hr => ⟨by decide, hw, hr⟩
  refine ⟨fun r hr => ?_, fun r hr => ?_⟩
  · rw [List.append_assoc]
    exact (lead_kwStart (hk r hr) (by decide +kernel)).blanks hb
  · rw [List.append_assoc, nvf_blanks hb]
    have h := hk r hr.1
    have hu := h.bare
    rw [numericValueFunction, alt_right (trig_fail hu (h.apart (by decide +kernel))),
      alt_right (math_fail hu (h.apart (by decide +kernel)) (h.apart (by decide +kernel)) (h.apart (by decide +kernel))),
      alt_right (cast_fail hu (h.apart (ws := [cs!"CAST"]) (by decide +kernel) _ (by simp))),
      alt_right (geo_fail hu (h.apart (by decide +kernel)) (h.apart (ws := [cs!"DISTANCE"]) (by decide +kernel) _ (by simp))),
      userDefinedFunction, alt_right (map_fail (seq_fail (udf_fail_kw h (reservedB_iff (by decide +kernel)) (by decide +kernel) (by decide +kernel))))]
    apply map_ok
    rw [sqlNoArgFunction, lexeme_bare hu]
    exact kw_start h

end Adql.Fwd
