import Verif.Model.Reading
import Verif.Peg.Closed
import Verif.Props.Clauses

/-!
# The rules of the grammar, read side by side with `operator<<`
-/

namespace Adql

open Spec P

section
variable {I : (n : Rule) → Bool → Str → Attr n → Str → Prop} {α β γ : Type}
  {R S T : List Str → List Str → Prop} {e : Env}

/-! ### Words -/

/-- a word, as a Boolean -/
def wordB : Str → Bool
  | [] => false
  | c :: t => isLetter c && t.all isIdChar

theorem isLetter_lowerC' (c : Char) : isLetter (lowerC c) = isLetter c := by
  rw [Bool.eq_iff_iff, isLetter_toNat, isLetter_toNat, lowerC_toNat]
  split <;> omega

theorem identShape_iff {w : Str} : IdentShape w ↔ wordB w = true := by
  cases w with
  | nil => simp [wordB, IdentShape]
  | cons c t =>
    simp only [wordB, Bool.and_eq_true, List.all_eq_true]
    constructor
    · rintro ⟨d, u, h, h1, h2⟩
      simp only [List.cons.injEq] at h
      obtain ⟨rfl, rfl⟩ := h
      exact ⟨isLetter_iff.2 h1, fun x hx => isIdChar_iff.2 (h2 x hx)⟩
    · rintro ⟨h1, h2⟩
      exact ⟨c, t, rfl, isLetter_iff.1 h1, fun x hx => isIdChar_iff.1 (h2 x hx)⟩

theorem wordB_lower (w : Str) : wordB (w.map lowerC) = wordB w := by
  cases w with
  | nil => rfl
  | cons c t =>
    simp only [List.map_cons, wordB, isLetter_lowerC', List.all_map]
    congr 1
    apply congrArg (fun f => t.all f)
    funext d; simp [isIdChar_lowerC]

theorem sameCI_word {x w : Str} (h : SameCI x w) (hw : wordB w = true) : IdentShape x := by
  rw [identShape_iff, ← wordB_lower, h, wordB_lower, hw]

theorem oneOf_word {ws : List Str} {x : Str} (h : OneOf ws x) (hw : (ws.all wordB) = true) :
    IdentShape x := by
  obtain ⟨w, hm, hx⟩ := h
  exact sameCI_word hx (List.all_eq_true.1 hw w hm)

/-- What follows cannot continue the token in front of it. -/
def HL (I : (n : Rule) → Bool → Str → Attr n → Str → Prop) (q : G β) : Prop :=
  ∀ sk t b r, sem I q sk t b r → headLoose (t ++ r) = true

theorem hl_sym {c : Char} {w : Str} (h : loose c = true) : HL I (sym (c :: w)) := by
  rintro sk t x r ⟨b, rfl, hb, hl⟩
  cases b with
  | nil => rw [litOK_cs.1 hl]; exact h
  | cons d b => exact loose_space (hb.1 d (by simp))

theorem hl_chS {f : Char → Bool} (h : ∀ c, f c = true → loose c = true) : HL I (chS f) := by
  rintro sk t x r ⟨c, rfl, b, rfl, hb, hc⟩
  cases b with
  | nil => exact h c hc
  | cons d b => exact loose_space (hb.1 d (by simp))

theorem hl_andNsSpace : HL I andNsSpace := by
  rintro sk t x r ⟨c, rfl, rfl, t', r', rfl, b, rfl, hb, hc⟩
  rw [blank_false] at hb; subst hb
  exact loose_space hc

theorem hl_andSpace {t r : Str} {x : Unit} (h : sem I andSpace false t x r) :
    headLoose (t ++ r) = true := by
  obtain ⟨c, rfl, rfl, t', r', rfl, b, rfl, hb, hc⟩ := h
  rw [blank_false] at hb; subst hb
  exact loose_space hc

theorem hl_map {q : G β} {f : β → γ} (h : HL I q) : HL I (.map f q) := by
  rintro sk t x r ⟨y, rfl, hy⟩; exact h _ _ _ _ hy

theorem hl_seq {p : G α} {q : G β} (h : HL I p) : HL I (.seq p q) := by
  rintro sk t x r ⟨t₁, t₂, rfl, h1, -⟩
  have := h _ _ _ _ h1
  rwa [← List.append_assoc] at this

theorem hl_seqL {p : G α} {q : G β} (h : HL I p) : HL I (seqL p q) := hl_map (hl_seq h)
theorem hl_seqR {p : G α} {q : G β} (h : HL I p) : HL I (seqR p q) := hl_map (hl_seq h)
theorem hl_cat {p : G Str} {q : G Str} (h : HL I p) : HL I (cat p q) := hl_map (hl_seq h)
theorem hl_expect {p : G α} {w : String} (h : HL I p) : HL I (.expect w p) := h

theorem hl_optL {p : G α} {q : G β} {d : α} (h : HL I p) (h' : HL I q) :
    HL I (seqL (optD d p) q) := by
  rintro sk t x r ⟨y, rfl, t₁, t₂, rfl, h1 | ⟨h1, -⟩, h2⟩
  · have := h _ _ _ _ h1
    rwa [← List.append_assoc] at this
  · rw [h1]; exact h' _ _ _ _ h2

theorem notContinued_of_loose {t : Str} (h : headLoose t = true) : NotContinued t := by
  rintro c v rfl; exact (loose_iff.1 h).1

theorem apart_loose {x t : Str} (h : headLoose t = true) : Apart x t := apart_head h

/-! ### Single tokens -/

/-- the same token -/
def Same (K : Str → Prop) (x y : Str) : Prop := y = x ∧ K x

theorem edit_same {K : Str → Prop} {l l' : List Str} (h : One (Same K) l l') : Edit e l l' := by
  obtain ⟨x, y, rfl, rfl, rfl, -⟩ := h; exact .keep

/-- the keyword `w` -/
def Kw (w x y : Str) : Prop := y = w ∧ SameCI x w

theorem edit_kw {w : Str} (hw : keywords.contains w = true) {l l' : List Str} (h : One (Kw w) l l') :
    Edit e l l' := by
  obtain ⟨x, y, rfl, rfl, rfl, h⟩ := h; exact .case (by simpa using hw) h

/-- `c` is `w` with blanks around it -/
def padded (c w : Str) : Bool :=
  let d := c.dropWhile isSpace
  d.take w.length == w && (d.drop w.length).all isSpace

theorem padded_iff {c w : Str} (h : padded c w = true) :
    ∃ b b', c = b ++ (w ++ b') ∧ Blanks b ∧ Blanks b' := by
  simp only [padded, Bool.and_eq_true, beq_iff_eq] at h
  refine ⟨c.takeWhile isSpace, (c.dropWhile isSpace).drop w.length, ?_, takeWhile_all _ _, ?_⟩
  · have h2 := List.take_append_drop w.length (c.dropWhile isSpace)
    rw [h.1] at h2
    rw [h2, List.takeWhile_append_dropWhile]
  · simpa [Blanks] using h.2

theorem ShowsBy.padded {t u r c : Str} (h : ShowsBy R t u r) (hc : padded c u = true) :
    ShowsBy R t c r := by
  obtain ⟨b, b', rfl, hb, hb'⟩ := padded_iff hc
  exact h.pad hb hb'

theorem sp_tok {p : G Str} {K : Str → Prop} (h1 : L1 I p) (ht : AP I p (fun a => Token a ∧ K a))
    (ha : ∀ sk t a r, sem I p sk t a r → Apart a r ∨ MaySplit a) :
    SP I (One (Same K)) p (fun a => a) := by
  intro sk t a r h
  obtain ⟨b, hb, rfl⟩ := h1 _ _ _ _ h
  exact .tok hb.1 (ht _ _ _ _ h).1 (ha _ _ _ _ h) ⟨rfl, (ht _ _ _ _ h).2⟩

/-- a token with nothing to check about what follows -/
theorem sp_split {p : G Str} {K : Str → Prop} (h1 : L1 I p) (ht : AP I p K)
    (hk : ∀ a, K a → Token a ∧ MaySplit a) : SP I (One (Same K)) p (fun a => a) :=
  sp_tok h1 (ht.imp fun a h => ⟨(hk a h).1, h⟩) fun _ _ _ _ h => .inr (hk _ (ht _ _ _ _ h)).2

theorem sp_tokThen {p : G Str} {q : G β} {K : Str → Prop} {g : β → Str} (h1 : L1 I p)
    (ht : AP I p (fun a => Token a ∧ K a)) (hq : SP I S q g) (hl : HL I q)
    (ha : ∀ a b, K a → Apart a (g b)) :
    SP I (Then (One (Same K)) S) (.seq p q) (fun x => x.1 ++ g x.2) := by
  rintro sk t ⟨x, y⟩ r ⟨t₁, t₂, rfl, hp, hs⟩
  obtain ⟨b, hb, rfl⟩ := h1 _ _ _ _ hp
  exact (ShowsBy.tok hb.1 (ht _ _ _ _ hp).1 (.inl (apart_loose (hl _ _ _ _ hs)))
    ⟨rfl, (ht _ _ _ _ hp).2⟩).append (hq _ _ _ _ hs) (ha _ _ (ht _ _ _ _ hp).2)

theorem sp_kwThen {q : G β} {g : β → Str} (w c : Str) (hw : wordB w = true) (hc : padded c w = true)
    (hq : SP I S q g) (hl : HL I q) (ha : ∀ b, Apart c (g b)) :
    SP I (Then (One (Kw w)) S) (.seq (kw w) q) (fun x => c ++ g x.2) := by
  rintro sk t ⟨x, y⟩ r ⟨t₁, t₂, rfl, hp, hs⟩
  obtain ⟨b, hb, rfl⟩ := l1_lit _ _ _ _ _ _ hp
  have hx : SameCI x w := ap_kw w _ _ _ _ hp
  exact ((ShowsBy.tok hb.1 (.word (sameCI_word hx hw)) (.inl (apart_loose (hl _ _ _ _ hs)))
    (K := Kw w) ⟨rfl, hx⟩).padded hc).append (hq _ _ _ _ hs) (ha _)

theorem se_kwThen {q : G β} {g : β → Str} (w c : Str) (hw : wordB w = true)
    (hk : keywords.contains w = true) (hc : padded c w = true)
    (hq : SE I e q g) (hl : HL I q) (ha : ∀ b, Apart c (g b)) :
    SE I e (.seq (kw w) q) (fun x => c ++ g x.2) :=
  (sp_kwThen w c hw hc hq hl ha).imp fun _ _ ⟨a, b, a', b', h1, h2, h3, h4⟩ =>
    edit_then ⟨a, b, a', b', h1, h2, edit_kw hk h3, h4⟩

theorem sp_sym (w c : Str) (hw : marks.contains w = true) (hl : lastLoose w = true)
    (hc : padded c w = true) : SP I (One (Same (fun x => x = w))) (sym w) (fun _ => c) := by
  rintro sk t a r h
  have ha : a = w := ap_sym w _ _ _ _ h
  obtain ⟨b, hb, rfl⟩ := l1_lit _ _ _ _ _ _ h
  subst ha
  exact (ShowsBy.tok hb.1 (.mark (by simpa using hw)) (.inl (apart_last hl))
    (K := Same (fun x => x = a)) ⟨rfl, rfl⟩).padded hc

theorem se_sym (w c : Str) (hw : marks.contains w = true) (hl : lastLoose w = true)
    (hc : padded c w = true) : SE I e (sym w) (fun _ => c) :=
  (sp_sym w c hw hl hc).imp fun _ _ => edit_same

theorem sp_wordQ {q : G Unit} (hz : Z0 I q)
    (hh : ∀ t x r, sem I q false t x r → headLoose (t ++ r) = true) (w c : Str)
    (hw : wordB w = true) (hc : padded c w = true) :
    SP I (One (Kw w)) (.lexeme (seqL (kw w) q)) (fun _ => c) := by
  rintro sk t a r ⟨b, t', rfl, hb, ⟨x, rfl, t₁, t₂, rfl, hp, hs⟩, -⟩
  have hx : SameCI x.1 w := ap_kw w _ _ _ _ hp
  have h0 := hz _ _ _ hs
  have h1 := (l1_lit true w).to0 _ _ _ hp
  have h2 := hh _ _ _ hs
  subst h0 h1
  simp only [List.append_nil, List.nil_append] at h2 ⊢
  exact (ShowsBy.tok hb.1 (.word (sameCI_word hx hw)) (.inl (apart_loose h2)) (K := Kw w)
    ⟨rfl, hx⟩).padded hc

theorem sp_word (w c : Str) (hw : wordB w = true) (hc : padded c w = true) :
    SP I (One (Kw w)) (word w) (fun _ => c) :=
  sp_wordQ z0_andSpace (fun _ _ _ => hl_andSpace) w c hw hc

theorem sp_wordX (w c : Str) (hw : wordB w = true) (hc : padded c w = true) :
    SP I (One (Kw w)) (wordX w) (fun _ => c) :=
  sp_wordQ (q := .expect "space" andSpace) z0_andSpace (fun _ _ _ => hl_andSpace) w c hw hc

theorem se_word (w c : Str) (hw : wordB w = true) (hk : keywords.contains w = true)
    (hc : padded c w = true) : SE I e (word w) (fun _ => c) :=
  (sp_word w c hw hc).imp fun _ _ => edit_kw hk

theorem se_wordX (w c : Str) (hw : wordB w = true) (hk : keywords.contains w = true)
    (hc : padded c w = true) : SE I e (wordX w) (fun _ => c) :=
  (sp_wordX w c hw hc).imp fun _ _ => edit_kw hk

/-- a word followed by a blank, formatted as written -/
theorem sp_wordKeep {p : G Str} {q : G Unit} {K : Str → Prop} (hz : Z0 I q)
    (hh : ∀ t x r, sem I q false t x r → headLoose (t ++ r) = true) (h1 : L0 I p)
    (hp : AP I p (fun a => Token a ∧ K a)) :
    SP I (One (Same K)) (.lexeme (seqL p q)) (fun a => a) := by
  rintro sk t a r ⟨b, t', rfl, hb, ⟨x, rfl, t₁, t₂, rfl, hp', hs⟩, -⟩
  have h0 := hz _ _ _ hs
  have h1 := h1 _ _ _ hp'
  have h2 := hh _ _ _ hs
  have h3 := hp _ _ _ _ hp'
  subst h0
  rw [h1]
  simp only [List.append_nil, List.nil_append] at h2 ⊢
  exact ShowsBy.tok hb.1 h3.1 (.inl (apart_loose h2)) ⟨rfl, h3.2⟩

/-! ### Names and numbers -/

theorem identifier_at {sk : Bool} {t a r : Str} (h : sem I identifier sk t a r) : IdentAt a r := by
  obtain ⟨b, hb, hh⟩ := l1_identifier _ _ _ _ h
  obtain ⟨b', t', rfl, hb', h1, rec, hr⟩ := h
  have h2 : step rec identifier false (t' ++ r) = .ok a r := hr
  rw [step_identifier rec ⟨fun _ => none, false⟩, identifier_iff] at h2
  obtain ⟨_, _, _, h⟩ := h2
  exact h

theorem apart_identAt {x r : Str} (h : IdentAt x r) : Apart x r := by
  rcases h with ⟨h1, h2, -⟩ | ⟨⟨b, rfl, -⟩, h⟩
  · exact apart_word h1 h2
  · intro u a c v hx hv hg
    have ha : a = '"' := by
      have := List.append_inj' (t₁ := ['"']) (t₂ := [a]) (s₁ := '"' :: b) (by simpa using hx) rfl
      simpa using this.2.symm
    subst ha
    rcases hg with ⟨hg, -⟩ | ⟨rfl, -⟩
    · revert hg; rw [← isIdChar_iff]; decide
    · exact h _ hv

theorem token_name {x : Str} (h : Name x) : Token x := h.elim (fun h => .word h.1) .delimited

theorem sp_identifier : SP I (One (Same Name)) identifier (fun a => a) :=
  sp_tok l1_identifier (ap_identifier.imp fun _ h => ⟨token_name h, h⟩)
    fun _ _ _ _ h => .inl (apart_identAt (identifier_at h))

theorem se_identifier : SE I e identifier (fun a => a) := sp_identifier.imp fun _ _ => edit_same

theorem digits_numLit {x : Str} (h : Digits x) : NumLit x := .exact (.int h)

theorem se_unsignedInteger : SE I e unsignedInteger (fun a => a) :=
  (sp_split l1_unsignedInteger ap_unsignedInteger fun _ h =>
    ⟨.num (digits_numLit h), .inl (digits_numLit h)⟩).imp fun _ _ => edit_same

theorem se_unsignedNumeric : SE I e unsignedNumeric (fun a => a) :=
  (sp_split l1_unsignedNumeric ap_unsignedNumeric fun _ h => ⟨.num h, .inl h⟩).imp
    fun _ _ => edit_same

theorem charString_end {sk : Bool} {t a r : Str} (h : sem I charString sk t a r) :
    NotHead '\'' r := by
  obtain ⟨b', t', rfl, hb', h1, rec, hr⟩ := h
  have h2 : step rec charString false (t' ++ r) = .ok a r := hr
  rw [step_closed (rec' := D ⟨fun _ => none, false⟩) charString (by rfl)] at h2
  obtain ⟨_, _, _, _, h, _⟩ := charString_iff.1 h2
  exact h

theorem apart_quoted {x r : Str} {b : Str} (hx : x = b ++ ['\'']) (h : NotHead '\'' r) : Apart x r := by
  intro u a c v hu hv hg
  have ha : a = '\'' := by
    have := List.append_inj' (t₁ := ['\'']) (t₂ := [a]) (s₁ := b) (by rw [← hx, hu]) rfl
    simpa using this.2.symm
  subst ha
  rcases hg with ⟨hg, -⟩ | ⟨rfl, -⟩
  · revert hg; rw [← isIdChar_iff]; decide
  · exact h _ hv

theorem strTail_last {u : Str} (h : StrTail u) : u = [] ∨ ∃ b, u = b ++ ['\''] := by
  induction h with
  | nil => exact .inl rfl
  | @cons x p t h1 h2 h3 ih =>
    right
    obtain ⟨b, rfl, -⟩ := h2
    rcases ih with rfl | ⟨d, rfl⟩
    · exact ⟨x ++ ('\'' :: b), by simp⟩
    · exact ⟨x ++ (('\'' :: b ++ ['\'']) ++ d), by simp⟩

theorem strLit_last {x : Str} (h : StrLit x) : ∃ b, x = b ++ ['\''] := by
  obtain ⟨p, u, rfl, ⟨b, rfl, -⟩, hu⟩ := h
  rcases strTail_last hu with rfl | ⟨d, rfl⟩
  · exact ⟨'\'' :: b, by simp⟩
  · exact ⟨('\'' :: b ++ ['\'']) ++ d, by simp⟩

theorem se_charString : SE I e charString (fun a => a) :=
  (sp_tok (K := fun _ => True) l1_charString (ap_charString.imp fun _ h => ⟨.str h, trivial⟩)
    fun _ _ _ _ h => .inl (by
      obtain ⟨b, hb⟩ := strLit_last (ap_charString _ _ _ _ h)
      exact apart_quoted hb (charString_end h))).imp fun _ _ => edit_same

theorem se_booleanLiteral : SE I e booleanLiteral (fun a => a) :=
  (sp_split (L0.lexeme (l0_alt (l1_lit _ _).to0 (l1_lit _ _).to0)) ap_booleanLiteral fun _ h =>
    ⟨.word (oneOf_word h (by decide)), .inr (.inr (.inr (OneOf.mono h (by simp))))⟩).imp
      fun _ _ => edit_same

theorem se_unsignedLiteral : SE I e unsignedLiteral (fun a => a) :=
  .lexeme (.alt se_unsignedNumeric (.lexeme (.alt se_charString se_booleanLiteral)))

/-! ### Lists -/

/-- the elements after the first, each with the separator in front of it -/
def sepRest (c : Str) (f : α → Str) : List α → Str
  | [] => []
  | a :: l => c ++ (f a ++ sepRest c f l)

theorem joinSep_cons (c : Str) (f : α → Str) : ∀ (a : α) (l : List α),
    joinSep c ((a :: l).map f) = f a ++ sepRest c f l
  | a, [] => by simp [joinSep, sepRest]
  | a, b :: l => by
    have := joinSep_cons c f b l
    simp only [List.map_cons] at this ⊢
    simp only [joinSep, this, sepRest, List.append_assoc]

theorem sp_sepBy {p : G α} {q : G β} {f : α → Str} {c : Str} (hp : SP I R p f)
    (hq : SP I T q (fun _ => c)) (hc : headLoose c = true) (hc' : lastLoose c = true) (hn : c ≠ [])
    (hR : ∀ l l', Then R (Then T R) l l' → R l l') :
    SP I R (P.sepBy p q) (fun l => joinSep c (l.map f)) := by
  have head : ∀ u v : Str, Apart u (c ++ v) := by
    intro u v; apply apart_head; cases c with
    | nil => exact absurd rfl hn
    | cons d c => exact hc
  rintro sk t l r ⟨⟨a, as⟩, rfl, t₁, t₂, rfl, h1, h2⟩
  replace h1 := hp _ _ _ _ h1
  simp only [sem] at h2
  simp only [joinSep_cons]
  generalize f a = U at h1
  induction h2 generalizing t₁ U with
  | nil => simpa [sepRest] using h1
  | @cons u b v bs r hs _ ih =>
    obtain ⟨⟨x, y⟩, rfl, v₁, v₂, rfl, k1, k2⟩ := hs
    have k0 := ShowsBy.append (hq _ _ _ _ k1) (hp _ _ _ _ k2) (apart_last hc')
    rw [List.append_assoc] at h1
    have := ih _ _ ((ShowsBy.append h1 k0 (head _ _)).imp hR)
    simpa [sepRest] using this

/-! ### More combinators -/

theorem edit_refl : ∀ l : List Str, Edit e l l
  | [] => .nil
  | x :: l => .append (l := [x]) .keep (edit_refl l)

theorem edit_cons {x : Str} {l l' : List Str} (h : Edit e l l') : Edit e (x :: l) (x :: l') :=
  .append (l := [x]) (l' := [x]) .keep h

theorem SP.padL {p : G α} {f : α → Str} (h : SP I R p f) {b : Str} (hb : b.all isSpace = true) :
    SP I R p (fun a => b ++ f a) := by
  have := h.pad hb (b' := []) rfl
  simpa using this

theorem SP.padR {p : G α} {f : α → Str} (h : SP I R p f) {b : Str} (hb : b.all isSpace = true) :
    SP I R p (fun a => f a ++ b) := h.pad (b := []) rfl hb

theorem SP.eq {p : G α} {f g : α → Str} (h : SP I R p f) (hg : ∀ a, f a = g a) : SP I R p g :=
  h.congr (.trivial p) fun a _ => hg a

theorem SP.cat {p q : G Str} {Q Q' : Str → Prop} (h : SP I R p (fun a => a))
    (h' : SP I S q (fun a => a)) (hq : AP I p Q) (hq' : AP I q Q')
    (ha : ∀ a b, Q a → Q' b → Apart a b) : SP I (Then R S) (Adql.cat p q) (fun a => a) :=
  (SP.seqOf h h' hq hq' ha).map fun _ => rfl

/-- `(p k) q` and `p (k q)` -/
theorem SP.assoc {p : G α} {k : G β} {q : G γ} {f : α × γ → Str}
    (h : SP I R (.seq p (P.seqR k q)) f) : SP I R (.seq (P.seqL p k) q) f := by
  rintro sk t ⟨a, c⟩ r ⟨t₁, t₂, rfl, ⟨⟨_, x⟩, rfl, u₁, u₂, rfl, h1, h2⟩, h3⟩
  have := h sk (u₁ ++ (u₂ ++ t₂)) (a, c) r
    ⟨u₁, u₂ ++ t₂, rfl, by simpa using h1, ⟨x, c⟩, rfl, u₂, t₂, rfl, h2, h3⟩
  simpa using this

/-- `(k) q` with both attributes of the key dropped -/
theorem SP.seqR' {k : G α} {q : G β} {f : α × β → Str} {g : β → Str} (h : SP I R (.seq k q) f)
    (hf : ∀ x, f x = g x.2) : SP I R (P.seqR k q) g := h.map hf

theorem SE.optIf {p : G α} {d : α} {f g : α → Str} {Q : α → Prop} (h : SE I e p f) (hq : AP I p Q)
    (hg : ∀ a, Q a → f a = g a) (hd : (g d).all isSpace = true) : SE I e (P.optD d p) g :=
  SE.optD (h.congr hq hg) hd

theorem SE.plus {p : G α} {f : α → Str} {g : List α → Str} (h : SE I e p f)
    (h0 : g [] = []) (hc : ∀ a l, g (a :: l) = f a ++ g l)
    (ha : ∀ a u, Apart (f a) u) : SE I e (P.plus p) g :=
  (SE.seq h (SE.star (g := g) h (.trivial p) h0 hc fun a _ _ _ _ => ha a _) fun a _ => ha a _).map
    fun x => by simp [hc]

/-- a keyword after which the parser does not look for the end of the word -/
theorem sp_kwSplit (w c : Str) (hw : wordB w = true) (hc : padded c w = true)
    (hs : ∀ x, SameCI x w → MaySplit x) : SP I (One (Kw w)) (kw w) (fun _ => c) := by
  intro sk t x r h
  have hx : SameCI x w := ap_kw w _ _ _ _ h
  obtain ⟨b, hb, rfl⟩ := l1_lit _ _ _ _ _ _ h
  exact (ShowsBy.tok hb.1 (.word (sameCI_word hx hw)) (.inr (hs x hx)) (K := Kw w)
    ⟨rfl, hx⟩).padded hc

theorem se_kwSplit (w c : Str) (hw : wordB w = true) (hk : keywords.contains w = true)
    (hc : padded c w = true) (hs : ∀ x, SameCI x w → MaySplit x) : SE I e (kw w) (fun _ => c) :=
  (sp_kwSplit w c hw hc hs).imp fun _ _ => edit_kw hk

theorem sp_tokThenOf {p : G Str} {q : G β} {K : Str → Prop} {g : β → Str} {Q' : β → Prop}
    (h1 : L1 I p) (ht : AP I p (fun a => Token a ∧ K a)) (hq : SP I S q g) (hl : HL I q)
    (hq' : AP I q Q') (ha : ∀ a b, Q' b → Apart a (g b)) :
    SP I (Then (One (Same K)) S) (.seq p q) (fun x => x.1 ++ g x.2) := by
  rintro sk t ⟨x, y⟩ r ⟨t₁, t₂, rfl, hp, hs⟩
  obtain ⟨b, hb, rfl⟩ := h1 _ _ _ _ hp
  exact (ShowsBy.tok hb.1 (ht _ _ _ _ hp).1 (.inl (apart_loose (hl _ _ _ _ hs)))
    ⟨rfl, (ht _ _ _ _ hp).2⟩).append (hq _ _ _ _ hs) (ha _ _ (hq' _ _ _ _ hs))

/-- a token kept as written, in front of something that is not glued to it -/
theorem se_tokThen {p : G Str} {q : G β} {g : β → Str} (h1 : L1 I p) (ht : AP I p Token)
    (hq : SE I e q g) (hl : HL I q) (ha : ∀ b, headLoose (g b) = true) :
    SE I e (.seq p q) (fun x => x.1 ++ g x.2) :=
  (sp_tokThen (K := fun _ => True) h1 (ht.imp fun _ h => ⟨h, trivial⟩) hq hl
    fun a b _ => apart_head (ha b)).imp fun _ _ ⟨a, b, a', b', h1, h2, h3, h4⟩ =>
      edit_then ⟨a, b, a', b', h1, h2, edit_same h3, h4⟩

/-- two alternatives that are laid out in the same way, kept as written -/
theorem l1_wordKeep {p : G Str} {q : G Unit} (hp : L0 I p) (hz : Z0 I q) :
    L1 I (.lexeme (seqL p q)) := L0.lexeme (l0_seqL hp hz)

theorem se_wordKeep {p : G Str} (hp : L0 I p) (ht : AP I p IdentShape) :
    SE I e (.lexeme (seqL p andSpace)) (fun a => a) :=
  (sp_wordKeep (K := fun _ => True) z0_andSpace (fun _ _ _ => hl_andSpace) hp
    (ht.imp fun _ h => ⟨.word h, trivial⟩)).imp fun _ _ => edit_same

theorem se_andNsSpace : SE I e andNsSpace (fun _ => []) := by
  rintro sk t x r ⟨c, rfl, rfl, -⟩
  exact (ShowsBy.nothing blanks_nil).imp fun _ _ => edit_nothing

/-- a keyword followed by a look-ahead for a blank -/
theorem se_kwNs (w c : Str) (hw : wordB w = true) (hk : keywords.contains w = true)
    (hc : padded c w = true) : SE I e (.seq (kw w) andNsSpace) (fun _ => c) :=
  (se_kwThen w c hw hk hc se_andNsSpace hl_andNsSpace fun _ => apart_nil _).eq fun _ => by simp

/-- a keyword followed by a mark -/
theorem se_kwSym (w : Str) (d : Char) (hw : wordB w = true) (hk : keywords.contains w = true)
    (hd : marks.contains [d] = true) (hl : loose d = true) :
    SE I e (.seq (kw w) (sym [d])) (fun _ => w ++ [d]) :=
  se_kwThen w w hw hk (by
    have : ∀ u : Str, u.dropWhile isSpace = u → padded u u = true := by
      intro u hu; simp [padded, hu]
    apply this
    cases w with
    | nil => rfl
    | cons c t =>
      rw [List.dropWhile_cons, if_neg]
      intro hs
      have := loose_space hs
      simp only [wordB, Bool.and_eq_true] at hw
      have h2 := isLetter_isIdChar hw.1
      simp [loose, h2] at this) (se_sym [d] [d] hd (by exact hl) (by
    have hs : isSpace d = false := by
      cases h : isSpace d with
      | false => rfl
      | true =>
        exfalso
        simp only [isSpace, Bool.or_eq_true, beq_iff_eq, Bool.and_eq_true, decide_eq_true_eq] at h
        simp [marks] at hd
        rcases h with rfl | h
        · simp at hd
        · rcases hd with rfl | rfl | rfl | rfl | rfl | rfl | rfl | rfl | rfl | rfl | rfl | rfl | rfl <;>
            revert h <;> decide
    simp [padded, List.dropWhile, hs])) (hl_sym hl) fun _ => apart_head hl

end

end Adql
