import Verif.Spec.Text
import Verif.Model.Parsed
import Verif.Props.Upload

/-!
# Reading the consumed text and the formatted text side by side

`SP I e R p f`: whenever `p` consumes a text and yields `a`, the text reads as some tokens, the
formatted text `f a` consists of some tokens, and the two sequences are related by `R`.
-/

namespace Adql

open Spec P

/-! ### Adjacent characters -/

/-- a character that can stand next to anything -/
def loose (c : Char) : Bool := !isIdChar c && c != '\'' && c != '"'

/-- the text starts with such a character, or is empty -/
def headLoose : Str → Bool
  | [] => true
  | c :: _ => loose c

/-- the text ends with such a character, or is empty -/
def lastLoose : Str → Bool
  | [] => true
  | [c] => loose c
  | _ :: t => lastLoose t

theorem lastLoose_snoc (u : Str) (a : Char) : lastLoose (u ++ [a]) = loose a := by
  induction u with
  | nil => rfl
  | cons c u ih =>
    cases u with
    | nil => rfl
    | cons d u => simp only [List.cons_append, lastLoose] at ih ⊢; exact ih

theorem loose_iff {c : Char} : loose c = true ↔ ¬ IdChar c ∧ c ≠ '\'' ∧ c ≠ '"' := by
  simp only [loose, Bool.and_eq_true, bne_iff_ne, ne_eq, and_assoc, Bool.not_eq_true', ← isIdChar_iff,
    Bool.not_eq_true]

theorem loose_left {a b : Char} (h : loose a = true) : ¬ Glued a b := by
  obtain ⟨h1, h2, h3⟩ := loose_iff.1 h
  rintro (⟨h, -⟩ | ⟨-, h | h⟩)
  · exact h1 h
  · exact h2 h
  · exact h3 h

theorem loose_right {a b : Char} (h : loose b = true) : ¬ Glued a b := by
  obtain ⟨h1, h2, h3⟩ := loose_iff.1 h
  rintro (⟨-, h⟩ | ⟨rfl, h | h⟩)
  · exact h1 h
  · exact h2 h
  · exact h3 h

theorem loose_space {c : Char} (h : isSpace c = true) : loose c = true := by
  simp only [isSpace, Bool.or_eq_true, beq_iff_eq, Bool.and_eq_true, decide_eq_true_eq] at h
  rcases h with rfl | ⟨h1, h2⟩
  · rfl
  · have hc : c.toNat ≤ 13 := h2
    simp only [loose, isIdChar, isDigit, isLetter, Bool.and_eq_true, bne_iff_ne, Bool.not_eq_true',
      Bool.or_eq_false_iff, Bool.and_eq_false_iff, decide_eq_false_iff_not, beq_eq_false_iff_ne]
    refine ⟨⟨⟨⟨?_, ?_, ?_⟩, ?_⟩, ?_⟩, ?_⟩
    · left; omega
    · left; omega
    · left; omega
    all_goals (rintro rfl; revert hc; decide)

theorem apart_nil (x : Str) : Apart x [] := by intro u a b v _ h; simp at h
theorem nil_apart (x : Str) : Apart [] x := by intro u a b v h _; simp at h

theorem apart_head {x t : Str} (h : headLoose t = true) : Apart x t := by
  intro u a b v _ ht; subst ht; exact loose_right h

theorem apart_last {x t : Str} (h : lastLoose x = true) : Apart x t := by
  intro u a b v hx _; subst hx; rw [lastLoose_snoc] at h; exact loose_left h

theorem apart_snoc {x t : Str} {c : Char} (h : loose c = true) : Apart (x ++ [c]) t :=
  apart_last (by rw [lastLoose_snoc]; exact h)

theorem headLoose_blanks {b : Str} (h : Blanks b) : headLoose b = true := by
  cases b with
  | nil => rfl
  | cons c t => exact loose_space (h c (by simp))

/-- `x` then `t`, where `t` is replaced by something longer -/
theorem Spec.Apart.of_append_left {x y t : Str} (h : Apart (x ++ y) t) : Apart y t := by
  intro u a b v hx ht
  exact h (x ++ u) a b v (by rw [hx, List.append_assoc]) ht

theorem Spec.Apart.append_right {x t v : Str} (h : Apart x t) (ht : t ≠ []) : Apart x (t ++ v) := by
  intro u a b w hx hw
  cases t with
  | nil => exact absurd rfl ht
  | cons c t => simp at hw; exact h u a b t hx (by rw [hw.1])

theorem Spec.Apart.append_left {x y t : Str} (h : Apart y t) (hy : y ≠ []) : Apart (x ++ y) t := by
  intro u a b w hx hw
  obtain ⟨y', c, rfl⟩ : ∃ y' c, y = y' ++ [c] := ⟨y.dropLast, y.getLast hy, (List.dropLast_concat_getLast hy).symm⟩
  rw [← List.append_assoc] at hx
  have := List.append_inj' hx rfl
  simp at this
  exact h y' a b w (by rw [this.2]) hw

theorem apart_word {x t : Str} (h : IdentShape x) (ht : NotContinued t) : Apart x t := by
  intro u a b v hx hv hg
  rcases hg with ⟨-, hg⟩ | ⟨rfl, hg⟩
  · exact ht b v hv hg
  · obtain ⟨c, w, rfl, hc, hw⟩ := h
    have hm : a ∈ c :: w := by rw [hx]; simp
    have ha : IdChar a := by
      rcases List.mem_cons.1 hm with rfl | hm
      · exact .inl hc
      · exact hw a hm
    rcases hg with rfl | rfl <;> revert ha <;> rw [← isIdChar_iff] <;> decide

theorem blanks_nil : Blanks [] := by simp [Blanks]
theorem Spec.Blanks.append {a b : Str} (h : Blanks a) (h' : Blanks b) : Blanks (a ++ b) := by
  intro c hc
  rcases List.mem_append.1 hc with hc | hc
  · exact h c hc
  · exact h' c hc

/-! ### Reading and laying out -/

theorem Spec.Reads.blanks {b t : Str} {l : List Str} {r : Str} (hb : Blanks b) (h : Reads t l r) :
    Reads (b ++ t) l r := by
  cases h with
  | nil h => exact .nil (hb.append h)
  | cons h1 h2 h3 h4 => rw [← List.append_assoc]; exact .cons (hb.append h1) h2 h3 h4

theorem Spec.Reads.append {t t' : Str} {l l' : List Str} {r : Str} (h : Reads t l (t' ++ r))
    (h' : Reads t' l' r) : Reads (t ++ t') (l ++ l') r := by
  generalize e : t' ++ r = s at h
  induction h with
  | nil hb => exact h'.blanks hb
  | cons h1 h2 h3 h4 ih =>
    subst e
    have ih := ih rfl
    simp only [List.append_assoc, List.cons_append] at ih ⊢
    exact .cons h1 h2 (by simpa using h3) ih

theorem Spec.Laid.blanks {b t : Str} {l : List Str} (hb : Blanks b) (h : Laid t l) :
    Laid (b ++ t) l := by
  cases h with
  | nil h => exact .nil (hb.append h)
  | cons h1 h2 h3 => rw [← List.append_assoc]; exact .cons (hb.append h1) h2 h3

theorem Spec.Laid.append {t t' : Str} {l l' : List Str} (h : Laid t l)
    (h' : Laid t' l') (ha : Apart t t') : Laid (t ++ t') (l ++ l') := by
  induction h with
  | nil hb => exact h'.blanks hb
  | @cons b x t l h1 h2 h3 ih =>
    have hxt : t ≠ [] → Apart t t' := fun _ =>
      Spec.Apart.of_append_left (x := b ++ x) (by simpa using ha)
    have ih := ih (by
      by_cases hn : t = []
      · subst hn; exact nil_apart _
      · exact hxt hn)
    simp only [List.append_assoc, List.cons_append]
    refine .cons h1 ?_ ih
    by_cases hn : t = []
    · subst hn
      by_cases hx : x = []
      · subst hx; exact nil_apart _
      · simpa using Spec.Apart.of_append_left (x := b) (y := x) (by simpa using ha)
    · exact h2.append_right hn

theorem Spec.Laid.tok (x : Str) : Laid x [x] := by
  have := Laid.cons (b := []) blanks_nil (apart_nil x) (.nil blanks_nil)
  simpa using this

/-- Relations on token sequences, one after the other. -/
def Then (R S : List Str → List Str → Prop) (l l' : List Str) : Prop :=
  ∃ a b a' b', l = a ++ b ∧ l' = a' ++ b' ∧ R a a' ∧ S b b'

/-- `u` says the same as `t`, with differences in `R`. -/
def ShowsBy (R : List Str → List Str → Prop) (t u r : Str) : Prop :=
  ∃ l l', Reads t l r ∧ R l l' ∧ Laid u l'

theorem ShowsBy.imp {R S : List Str → List Str → Prop} {t u r : Str} (h : ShowsBy R t u r)
    (hi : ∀ l l', R l l' → S l l') : ShowsBy S t u r :=
  let ⟨l, l', h1, h2, h3⟩ := h; ⟨l, l', h1, hi _ _ h2, h3⟩

theorem ShowsBy.append {R S : List Str → List Str → Prop} {t u t' u' r : Str}
    (h : ShowsBy R t u (t' ++ r)) (h' : ShowsBy S t' u' r) (ha : Apart u u') :
    ShowsBy (Then R S) (t ++ t') (u ++ u') r :=
  let ⟨l, l', h1, h2, h3⟩ := h
  let ⟨m, m', g1, g2, g3⟩ := h'
  ⟨l ++ m, l' ++ m', h1.append g1, ⟨l, m, l', m', rfl, rfl, h2, g2⟩, h3.append g3 ha⟩

theorem ShowsBy.blanks {R : List Str → List Str → Prop} {t u r b : Str} (hb : Blanks b)
    (h : ShowsBy R t u r) : ShowsBy R (b ++ t) u r :=
  let ⟨l, l', h1, h2, h3⟩ := h; ⟨l, l', h1.blanks hb, h2, h3⟩

theorem ShowsBy.pad {R : List Str → List Str → Prop} {t u r b b' : Str} (hb : Blanks b)
    (hb' : Blanks b') (h : ShowsBy R t u r) : ShowsBy R t (b ++ (u ++ b')) r := by
  obtain ⟨l, l', h1, h2, h3⟩ := h
  refine ⟨l, l', h1, h2, ?_⟩
  have := h3.append (.nil hb') (apart_head (headLoose_blanks hb'))
  simp only [List.append_nil] at this
  exact this.blanks hb

/-- One token for one token. -/
def One (K : Str → Str → Prop) (l l' : List Str) : Prop := ∃ x y, l = [x] ∧ l' = [y] ∧ K x y

theorem ShowsBy.tok {b x y r : Str} {K : Str → Str → Prop} (hb : Blanks b) (hx : Token x)
    (ha : Apart x r ∨ MaySplit x) (hk : K x y) : ShowsBy (One K) (b ++ x) y r := by
  refine ⟨[x], [y], ?_, ⟨x, y, rfl, rfl, hk⟩, .tok y⟩
  have := Reads.cons (t := []) (r := r) hb hx (by simpa using ha) (.nil blanks_nil)
  simpa using this

/-- Nothing for nothing. -/
def Nothing (l l' : List Str) : Prop := l = [] ∧ l' = []

theorem ShowsBy.nothing {u r : Str} (hu : Blanks u) : ShowsBy Nothing [] u r :=
  ⟨[], [], .nil blanks_nil, ⟨rfl, rfl⟩, .nil hu⟩

/-! ### The combinators -/

section
variable {I : (n : Rule) → Bool → Str → Attr n → Str → Prop} {α β γ : Type}
  {R S : List Str → List Str → Prop}

/-- The consumed text and the formatted attribute agree up to `R`. -/
def SP (I : (n : Rule) → Bool → Str → Attr n → Str → Prop) (R : List Str → List Str → Prop)
    (p : G α) (f : α → Str) : Prop :=
  ∀ sk t a r, sem I p sk t a r → ShowsBy R t (f a) r

namespace SP

theorem imp {p : G α} {f : α → Str} (h : SP I R p f) (hi : ∀ l l', R l l' → S l l') :
    SP I S p f := fun sk t a r hs => (h sk t a r hs).imp hi

theorem congr {p : G α} {f g : α → Str} {Q : α → Prop} (h : SP I R p f) (hq : AP I p Q)
    (hg : ∀ a, Q a → f a = g a) : SP I R p g := fun sk t a r hs => by
  rw [← hg a (hq sk t a r hs)]; exact h sk t a r hs

theorem pad {p : G α} {f : α → Str} (h : SP I R p f) {b b' : Str} (hb : b.all isSpace = true)
    (hb' : b'.all isSpace = true) : SP I R p (fun a => b ++ (f a ++ b')) :=
  fun sk t a r hs => (h sk t a r hs).pad (by simpa [Blanks] using hb) (by simpa [Blanks] using hb')

theorem map {p : G α} {g : α → β} {f : α → Str} {f' : β → Str} (h : SP I R p f)
    (hf : ∀ a, f a = f' (g a)) : SP I R (.map g p) f' := by
  rintro sk t a r ⟨x, rfl, hx⟩; rw [← hf]; exact h _ _ _ _ hx

theorem alt {p q : G α} {f : α → Str} (h : SP I R p f) (h' : SP I R q f) : SP I R (.alt p q) f := by
  rintro sk t a r (hs | hs)
  · exact h _ _ _ _ hs
  · exact h' _ _ _ _ hs

theorem seqOf {p : G α} {q : G β} {f : α → Str} {g : β → Str} {Q : α → Prop} {Q' : β → Prop}
    (h : SP I R p f) (h' : SP I S q g) (hq : AP I p Q) (hq' : AP I q Q')
    (ha : ∀ a b, Q a → Q' b → Apart (f a) (g b)) :
    SP I (Then R S) (.seq p q) (fun x => f x.1 ++ g x.2) := by
  rintro sk t x r ⟨t₁, t₂, rfl, h1, h2⟩
  exact (h _ _ _ _ h1).append (h' _ _ _ _ h2) (ha _ _ (hq _ _ _ _ h1) (hq' _ _ _ _ h2))

theorem seq {p : G α} {q : G β} {f : α → Str} {g : β → Str}
    (h : SP I R p f) (h' : SP I S q g) (ha : ∀ a b, Apart (f a) (g b)) :
    SP I (Then R S) (.seq p q) (fun x => f x.1 ++ g x.2) :=
  seqOf h h' (.trivial _) (.trivial _) fun a b _ _ => ha a b

theorem seqR {p : G α} {q : G β} {w : Str} {g : β → Str}
    (h : SP I R p (fun _ => w)) (h' : SP I S q g) (ha : ∀ b, Apart w (g b)) :
    SP I (Then R S) (P.seqR p q) (fun b => w ++ g b) :=
  (seq h h' fun _ b => ha b).map fun _ => rfl

theorem seqL {p : G α} {q : G β} {w : Str} {g : α → Str}
    (h : SP I R p g) (h' : SP I S q (fun _ => w)) (ha : ∀ b, Apart (g b) w) :
    SP I (Then R S) (P.seqL p q) (fun b => g b ++ w) :=
  (seq h h' fun a _ => ha a).map fun _ => rfl

theorem expect {p : G α} {f : α → Str} {w : String} (h : SP I R p f) : SP I R (.expect w p) f := h

theorem lexeme {p : G α} {f : α → Str} (h : SP I R p f) : SP I R (.lexeme p) f := by
  rintro sk t a r ⟨b, t', rfl, hb, h1, -⟩
  exact (h _ _ _ _ h1).blanks hb.1

theorem pure {a : α} {f : α → Str} (ha : (f a).all isSpace = true) :
    SP I Nothing (.pure a) f := by
  rintro sk t x r ⟨rfl, rfl⟩
  exact .nothing (by simpa [Blanks] using ha)

end SP

/-- The edits, at least. -/
theorem edit_then {e : Env} {l l' : List Str} (h : Then (Edit e) (Edit e) l l') : Edit e l l' := by
  obtain ⟨a, b, a', b', rfl, rfl, h1, h2⟩ := h; exact .append h1 h2

theorem edit_nothing {e : Env} {l l' : List Str} (h : Nothing l l') : Edit e l l' := by
  obtain ⟨rfl, rfl⟩ := h; exact .nil

/-- Agreement up to the edits. -/
abbrev SE (I : (n : Rule) → Bool → Str → Attr n → Str → Prop) (e : Env) (p : G α) (f : α → Str) :
    Prop := SP I (Edit e) p f

namespace SE
variable {e : Env}

theorem seqOf {p : G α} {q : G β} {f : α → Str} {g : β → Str} {Q : α → Prop} {Q' : β → Prop}
    (h : SE I e p f) (h' : SE I e q g) (hq : AP I p Q) (hq' : AP I q Q')
    (ha : ∀ a b, Q a → Q' b → Apart (f a) (g b)) :
    SE I e (.seq p q) (fun x => f x.1 ++ g x.2) :=
  (SP.seqOf h h' hq hq' ha).imp fun _ _ => edit_then

theorem seq {p : G α} {q : G β} {f : α → Str} {g : β → Str}
    (h : SE I e p f) (h' : SE I e q g) (ha : ∀ a b, Apart (f a) (g b)) :
    SE I e (.seq p q) (fun x => f x.1 ++ g x.2) := (SP.seq h h' ha).imp fun _ _ => edit_then

theorem seqR {p : G α} {q : G β} {w : Str} {g : β → Str}
    (h : SE I e p (fun _ => w)) (h' : SE I e q g) (ha : ∀ b, Apart w (g b)) :
    SE I e (P.seqR p q) (fun b => w ++ g b) := (SP.seqR h h' ha).imp fun _ _ => edit_then

theorem seqL {p : G α} {q : G β} {w : Str} {g : α → Str}
    (h : SE I e p g) (h' : SE I e q (fun _ => w)) (ha : ∀ b, Apart (g b) w) :
    SE I e (P.seqL p q) (fun b => g b ++ w) := (SP.seqL h h' ha).imp fun _ _ => edit_then

theorem pure {a : α} {f : α → Str} (ha : (f a).all isSpace = true) : SE I e (.pure a) f :=
  (SP.pure ha).imp fun _ _ => edit_nothing

theorem optD {p : G α} {d : α} {f : α → Str} (h : SE I e p f) (hd : (f d).all isSpace = true) :
    SE I e (P.optD d p) f := .alt h (pure hd)

/-- repetition, every element formatted by `f` and `g` gathering the list -/
theorem star {p : G α} {f : α → Str} {g : List α → Str} {Q : α → Prop} (h : SE I e p f)
    (hq : AP I p Q) (h0 : g [] = []) (hc : ∀ a l, g (a :: l) = f a ++ g l)
    (ha : ∀ a b l, Q a → Q b → Apart (f a) (g (b :: l))) : SE I e (.star p) g := by
  intro sk t l r hs
  simp only [sem] at hs
  have hq' : ∀ a ∈ l, Q a := SemStar.all (fun t a r => hq sk t a r) hs
  induction hs with
  | nil => rw [h0]; exact (ShowsBy.nothing blanks_nil).imp fun _ _ => edit_nothing
  | @cons t a u as r h1 h2 ih =>
    rw [hc]
    refine ((h _ _ _ _ h1).append (ih fun x hx => hq' x (by simp [hx])) ?_).imp fun _ _ => edit_then
    cases as with
    | nil => rw [h0]; exact apart_nil _
    | cons b l => exact ha _ _ _ (hq' a (by simp)) (hq' b (by simp))

end SE

/-! ### What a lexeme consumes is its attribute -/

/-- Without skipping, the text consumed is the attribute. -/
def L0 (I : (n : Rule) → Bool → Str → Attr n → Str → Prop) (p : G Str) : Prop :=
  ∀ t a r, sem I p false t a r → t = a

/-- Blanks, then the attribute. -/
def L1 (I : (n : Rule) → Bool → Str → Attr n → Str → Prop) (p : G Str) : Prop :=
  ∀ sk t a r, sem I p sk t a r → ∃ b, Blank sk b ∧ t = b ++ a

theorem L1.to0 {p : G Str} (h : L1 I p) : L0 I p := by
  intro t a r hs
  obtain ⟨b, hb, rfl⟩ := h _ _ _ _ hs
  rw [blank_false] at hb; simp [hb]

theorem L0.lexeme {p : G Str} (h : L0 I p) : L1 I (.lexeme p) := by
  rintro sk t a r ⟨b, t', rfl, hb, h1, -⟩
  exact ⟨b, hb, by rw [h _ _ _ h1]⟩

theorem l1_lit (ci : Bool) (w : Str) : L1 I (.lit ci w) := by
  rintro sk t a r ⟨b, rfl, hb, -⟩; exact ⟨b, hb, rfl⟩

theorem l1_chS (f : Char → Bool) : L1 I (chS f) := by
  rintro sk t a r ⟨c, rfl, b, rfl, hb, -⟩; exact ⟨b, hb, rfl⟩

theorem l1_alt {p q : G Str} (h : L1 I p) (h' : L1 I q) : L1 I (.alt p q) := by
  rintro sk t a r (hs | hs)
  · exact h _ _ _ _ hs
  · exact h' _ _ _ _ hs

theorem l1_anyKw : ∀ ws : List Str, L1 I (anyKw ws)
  | [] => by rintro sk t a r ⟨c, rfl, b, rfl, hb, -⟩; exact ⟨b, hb, rfl⟩
  | w :: ws => l1_alt (l1_lit _ w) (l1_anyKw ws)

theorem l0_alt {p q : G Str} (h : L0 I p) (h' : L0 I q) : L0 I (.alt p q) := by
  rintro t a r (hs | hs)
  · exact h _ _ _ hs
  · exact h' _ _ _ hs

theorem l0_cat {p q : G Str} (h : L0 I p) (h' : L0 I q) : L0 I (cat p q) := by
  rintro t a r ⟨x, rfl, t₁, t₂, rfl, h1, h2⟩
  rw [h _ _ _ h1, h' _ _ _ h2]

theorem l0_pure : L0 I (.pure []) := by rintro t a r ⟨rfl, rfl⟩; rfl

theorem l0_optS {p : G Str} (h : L0 I p) : L0 I (optS p) := l0_alt h l0_pure

theorem l0_manyS {p : G Str} (h : L0 I p) : L0 I (manyS p) := by
  rintro t a r ⟨l, rfl, hs⟩
  simp only [sem] at hs
  induction hs with
  | nil => rfl
  | cons h1 _ ih => rw [List.flatten_cons, ← ih, h _ _ _ h1]

theorem l0_plusS {p : G Str} (h : L0 I p) : L0 I (plusS p) := l0_cat h (l0_manyS h)

/-- a parser that consumes nothing -/
def Z0 (I : (n : Rule) → Bool → Str → Attr n → Str → Prop) (p : G β) : Prop :=
  ∀ t a r, sem I p false t a r → t = []

theorem l0_seqL {p : G Str} {q : G β} (h : L0 I p) (h' : Z0 I q) : L0 I (P.seqL p q) := by
  rintro t a r ⟨x, rfl, t₁, t₂, rfl, h1, h2⟩
  rw [h _ _ _ h1, h' _ _ _ h2]; simp

theorem z0_andSpace : Z0 I andSpace := by rintro t a r ⟨x, rfl, rfl, -⟩; rfl
theorem z0_andNsSpace : Z0 I andNsSpace := by rintro t a r ⟨x, rfl, rfl, -⟩; rfl
theorem z0_andNonId : Z0 I andNonId := by rintro t a r ⟨x, rfl, rfl, -⟩; rfl
theorem z0_notP {p : G α} : Z0 I (.notP p) := by rintro t a r h; exact h

theorem l0_diff {p : G Str} {q : G β} (h : L0 I p) : L0 I (P.diff p q) := by
  rintro t a r ⟨x, rfl, t₁, t₂, rfl, h1, h2⟩
  rw [h _ _ _ h2, z0_notP _ _ _ h1]; simp

theorem l1_identifier : L1 I identifier :=
  L0.lexeme (l0_alt
    (L0.lexeme (l0_diff (L0.lexeme (l0_cat (l1_chS _).to0 (l0_manyS (l1_chS _).to0))).to0)).to0
    (L0.lexeme (l0_cat (l1_chS _).to0 (l0_cat (l0_plusS (L0.lexeme (l0_alt (l1_chS _).to0
      (l1_lit _ _).to0)).to0) (l1_chS _).to0))).to0)

theorem l1_regular : L1 I regularIdentifier :=
  L0.lexeme (l0_diff (L0.lexeme (l0_cat (l1_chS _).to0 (l0_manyS (l1_chS _).to0))).to0)

theorem l1_pq : L1 I pqIdentifier :=
  L0.lexeme (l0_cat (l1_chS _).to0 (l0_manyS (l1_chS _).to0))

theorem l1_period : L1 I period := L0.lexeme (l1_chS _).to0
theorem l1_unsignedInteger : L1 I unsignedInteger := L0.lexeme (l0_plusS (l1_chS _).to0)
theorem l1_sign : L1 I sign := L0.lexeme (l1_chS _).to0
theorem l1_exactNumeric : L1 I exactNumeric :=
  L0.lexeme (l0_alt (l0_cat l1_unsignedInteger.to0 (l0_optS (l0_cat l1_period.to0
    l1_unsignedInteger.to0))) (l0_cat l1_period.to0 l1_unsignedInteger.to0))
theorem l1_unsignedNumeric : L1 I unsignedNumeric :=
  L0.lexeme (l0_alt (L0.lexeme (l0_cat l1_exactNumeric.to0 (l0_cat (l1_chS _).to0
    (L0.lexeme (l0_cat (l0_optS l1_sign.to0) l1_unsignedInteger.to0)).to0))).to0 l1_exactNumeric.to0)
theorem l1_quote : L1 I quote := L0.lexeme (l1_chS _).to0
theorem l1_charRep : L1 I charRep := L0.lexeme (l0_alt (l1_chS _).to0 (l1_lit _ _).to0)
theorem l1_separator : L1 I separator :=
  L0.lexeme (l0_alt (L0.lexeme (l0_cat (l0_cat (l1_chS _).to0 (l0_plusS (l1_chS _).to0))
    (l0_cat (l0_manyS (l1_chS _).to0) (l1_chS _).to0))).to0
      (l0_alt (l1_chS _).to0 (l1_chS _).to0))
theorem l1_charString : L1 I charString :=
  L0.lexeme (l0_cat (l0_cat l1_quote.to0 (l0_cat (l0_manyS l1_charRep.to0) l1_quote.to0))
    (l0_manyS (l0_cat (l0_plusS l1_separator.to0) (l0_cat l1_quote.to0
      (l0_cat (l0_manyS l1_charRep.to0) l1_quote.to0)))))
theorem l1_double : L1 I double := by
  have h : ∀ f, L0 I (chS f) := fun f => (l1_chS f).to0
  have k : ∀ w, L0 I (kw w) := fun w => (l1_lit _ w).to0
  exact L0.lexeme (l0_cat (l0_optS (h _)) (l0_alt (l0_cat (l0_alt (l0_cat (l0_plusS (h _))
    (l0_optS (l0_cat (h _) (l0_manyS (h _))))) (l0_cat (h _) (l0_plusS (h _))))
      (l0_optS (l0_cat (h _) (l0_cat (l0_optS (h _)) (l0_plusS (h _))))))
    (l0_alt (l0_cat (k _) (l0_optS (l0_cat (h _) (l0_cat (l0_manyS (h _)) (h _)))))
      (l0_cat (k _) (l0_optS (k _))))))

theorem l1_word (w : Str) : L1 I (word w) := L0.lexeme (l0_seqL (l1_lit _ _).to0 z0_andSpace)
theorem l1_wordX (w : Str) : L1 I (wordX w) := L0.lexeme (l0_seqL (l1_lit _ _).to0 z0_andSpace)

/-- what is left starts with a blank -/
theorem andSpace_rest {t r : Str} {a : Unit} (h : sem I andSpace false t a r) :
    NotContinued (t ++ r) := by
  obtain ⟨x, rfl, rfl, t', r', rfl, b, rfl, hb, hc⟩ := h
  rw [blank_false] at hb; subst hb
  intro c v hv hi
  simp at hv; rw [hv.1] at hc
  exact (loose_iff.1 (loose_space hc)).1 hi

end

end Adql
