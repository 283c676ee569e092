import Verif.Peg.Sem

/-!
# Postconditions of parser expressions

`AP I p Q`: every attribute that `p` can yield satisfies `Q`, if the recursive rules satisfy `I`.
One lemma per combinator; the lemmas about the rules of the grammar are built from them.
-/

namespace Adql

variable {N : Type} {A : N → Type} {I : (n : N) → Bool → Str → A n → Str → Prop} {α β : Type}

/-- Every attribute of `p` satisfies `Q`. -/
def AP (I : (n : N) → Bool → Str → A n → Str → Prop) (p : P A α) (Q : α → Prop) : Prop :=
  ∀ sk t a r, sem I p sk t a r → Q a

namespace AP

theorem imp {p : P A α} {Q R : α → Prop} (h : AP I p Q) (hi : ∀ a, Q a → R a) : AP I p R :=
  fun sk t a r hs => hi a (h sk t a r hs)

theorem and {p : P A α} {Q R : α → Prop} (h : AP I p Q) (h' : AP I p R) :
    AP I p (fun a => Q a ∧ R a) := fun sk t a r hs => ⟨h sk t a r hs, h' sk t a r hs⟩

theorem trivial (p : P A α) : AP I p (fun _ => True) := fun _ _ _ _ _ => True.intro

theorem pure (a : α) : AP I (P.pure a : P A α) (fun x => x = a) := fun _ _ _ _ h => h.2

theorem chr (f : Char → Bool) : AP I (P.chr f : P A Char) (fun c => f c = true) := by
  rintro sk t a r ⟨b, -, -, h⟩; exact h

theorem lit (ci : Bool) (w : Str) : AP I (P.lit ci w : P A Str) (LitOK ci w) := by
  rintro sk t a r ⟨b, -, -, h⟩; exact h

theorem seq {p : P A α} {q : P A β} {Q : α → Prop} {R : β → Prop} (h : AP I p Q) (h' : AP I q R) :
    AP I (P.seq p q) (fun x => Q x.1 ∧ R x.2) := by
  rintro sk t a r ⟨t₁, t₂, -, h1, h2⟩; exact ⟨h _ _ _ _ h1, h' _ _ _ _ h2⟩

theorem alt {p q : P A α} {Q : α → Prop} (h : AP I p Q) (h' : AP I q Q) : AP I (P.alt p q) Q := by
  rintro sk t a r (h1 | h1)
  · exact h _ _ _ _ h1
  · exact h' _ _ _ _ h1

theorem _root_.Adql.SemStar.all {R : Str → α → Str → Prop} {Q : α → Prop} {t : Str} {l : List α} {r : Str}
    (hR : ∀ t a r, R t a r → Q a) (h : SemStar R t l r) : ∀ a ∈ l, Q a := by
  induction h with
  | nil => simp
  | cons h _ ih => simp only [List.mem_cons, forall_eq_or_imp]; exact ⟨hR _ _ _ h, ih⟩

theorem star {p : P A α} {Q : α → Prop} (h : AP I p Q) : AP I (P.star p) (fun l => ∀ a ∈ l, Q a) :=
  fun sk _ _ _ hs => SemStar.all (fun t a r => h sk t a r) hs

theorem andP {p : P A α} {Q : α → Prop} (h : AP I p Q) : AP I (P.andP p) Q := by
  rintro sk t a r ⟨-, t', r', -, h1⟩; exact h _ _ _ _ h1

theorem expect {p : P A α} {Q : α → Prop} {w : String} (h : AP I p Q) : AP I (P.expect w p) Q := h

theorem map {p : P A α} {f : α → β} {Q : β → Prop} (h : AP I p (fun a => Q (f a))) :
    AP I (P.map f p) Q := by
  rintro sk t a r ⟨x, rfl, h1⟩; exact h _ _ _ _ h1

theorem act {p : P A α} {f : α → Out β} {Q : α → Prop} (h : AP I p Q) :
    AP I (P.act f p) (fun b => ∃ a, f a = .ok b ∧ Q a) := by
  rintro sk t a r ⟨x, hx, h1⟩; exact ⟨x, hx, h _ _ _ _ h1⟩

theorem lexeme {p : P A α} {Q : α → Prop} (h : AP I p Q) : AP I (P.lexeme p) Q := by
  rintro sk t a r ⟨b, t', -, -, h1, -⟩; exact h _ _ _ _ h1

theorem noskip {p : P A α} {Q : α → Prop} (h : AP I p Q) : AP I (P.noskip p) Q :=
  fun _ _ _ _ hs => h _ _ _ _ hs

theorem seqL {p : P A α} {q : P A β} {Q : α → Prop} (h : AP I p Q) : AP I (P.seqL p q) Q :=
  map ((seq h (trivial q)).imp fun _ h => h.1)

theorem seqR {p : P A α} {q : P A β} {Q : β → Prop} (h : AP I q Q) : AP I (P.seqR p q) Q :=
  map ((seq (trivial p) h).imp fun _ h => h.2)

theorem diff {p : P A α} {q : P A β} {Q : α → Prop} (h : AP I p Q) : AP I (P.diff p q) Q := seqR h

theorem optD {p : P A α} {d : α} {Q : α → Prop} (h : AP I p Q) :
    AP I (P.optD d p) (fun a => a = d ∨ Q a) :=
  alt (h.imp fun _ => .inr) ((pure d).imp fun _ => .inl)

theorem plus {p : P A α} {Q : α → Prop} (h : AP I p Q) :
    AP I (P.plus p) (fun l => l ≠ [] ∧ ∀ a ∈ l, Q a) :=
  map ((seq h (star h)).imp fun x hx => by simp; exact hx)

theorem sepBy {p : P A α} {q : P A β} {Q : α → Prop} (h : AP I p Q) :
    AP I (P.sepBy p q) (fun l => l ≠ [] ∧ ∀ a ∈ l, Q a) :=
  map ((seq h (star (seqR h))).imp fun x hx => by simp; exact hx)

end AP

/-- The relational reading is monotone in the assumption on the rules. -/
theorem sem_mono {J : (n : N) → Bool → Str → A n → Str → Prop}
    (hIJ : ∀ n sk t a r, I n sk t a r → J n sk t a r) {α : Type} (p : P A α) :
    ∀ sk t a r, sem I p sk t a r → sem J p sk t a r := by
  induction p with
  | pure a => intro sk t x r h; exact h
  | chr f => intro sk t x r h; exact h
  | lit ci w => intro sk t x r h; exact h
  | seq p q ihp ihq =>
    rintro sk t x r ⟨t₁, t₂, h, h1, h2⟩; exact ⟨t₁, t₂, h, ihp _ _ _ _ h1, ihq _ _ _ _ h2⟩
  | alt p q ihp ihq =>
    rintro sk t x r (h | h)
    · exact .inl (ihp _ _ _ _ h)
    · exact .inr (ihq _ _ _ _ h)
  | star p ih =>
    intro sk t x r h
    simp only [sem] at h ⊢
    induction h with
    | nil => exact .nil
    | cons h _ ih' => exact .cons (ih _ _ _ _ h) ih'
  | notP p ih => intro sk t x r h; exact h
  | andP p ih => rintro sk t x r ⟨h, t', r', h1, h2⟩; exact ⟨h, t', r', h1, ih _ _ _ _ h2⟩
  | expect w p ih => intro sk t x r h; exact ih _ _ _ _ h
  | map f p ih => rintro sk t x r ⟨a, h, h1⟩; exact ⟨a, h, ih _ _ _ _ h1⟩
  | act f p ih => rintro sk t x r ⟨a, h, h1⟩; exact ⟨a, h, ih _ _ _ _ h1⟩
  | lexeme p ih => rintro sk t x r ⟨b, t', h, hb, h1, h2⟩; exact ⟨b, t', h, hb, ih _ _ _ _ h1, h2⟩
  | noskip p ih => intro sk t x r h; exact ih _ _ _ _ h
  | nt n => intro sk t x r h; exact hIJ _ _ _ _ _ h

end Adql
