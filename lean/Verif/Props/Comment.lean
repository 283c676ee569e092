import Verif.Spec.Comment
import Verif.Model.Reprint
import Verif.Props.Accept
import Verif.Props.Tree
import Verif.Props.Faithful

/-!
# C40: formatting does not comment out a part of the query
-/

namespace Adql

open Spec Fwd

/-- The full statement of C40 for one text. -/
def KeepsCode (cfg : Config) (fmt : Str → Str) (s : Str) : Prop :=
  ∀ q, construct cfg s = .ok q → ¬ HasComment s → ¬ HasComment (q.print fmt)

/-! ### The calculus of quotes and minus signs -/

theorem quoteState_append (a b : Str) : quoteState (a ++ b) = b.foldl quoteStep (quoteState a) := by
  simp [quoteState, List.foldl_append]

theorem quoteState_app {a b : Str} (ha : quoteState a = none) : quoteState (a ++ b) = quoteState b := by
  rw [quoteState_append, ha]; rfl

/-- the scanner: `true` when two minus signs are found outside quotes -/
def scan : Option Char → Str → Bool
  | none, '-' :: '-' :: _ => true
  | q, c :: t => scan (quoteStep q c) t
  | _, [] => false

theorem scan_dash (q : Option Char) (c : Char) (t : Str) (h : ¬ (q = none ∧ c = '-' ∧ ∃ u, t = '-' :: u)) :
    scan q (c :: t) = scan (quoteStep q c) t := by
  rw [scan]
  intro u h1 h2 h3
  exact h ⟨h1, h2, u, h3⟩

theorem scan_iff : ∀ (s : Str) (q : Option Char), scan q s = true ↔
    ∃ x y, s = x ++ '-' :: '-' :: y ∧ x.foldl quoteStep q = none := by
  intro s
  induction s with
  | nil => intro q; simp [scan]
  | cons c t ih =>
    intro q
    by_cases h : q = none ∧ c = '-' ∧ ∃ u, t = '-' :: u
    · obtain ⟨rfl, rfl, u, rfl⟩ := h
      exact ⟨fun _ => ⟨[], u, rfl, rfl⟩, fun _ => by simp [scan]⟩
    · rw [scan_dash q c t h, ih]
      constructor
      · rintro ⟨x, y, rfl, hx⟩
        exact ⟨c :: x, y, rfl, hx⟩
      · rintro ⟨x, y, e, hx⟩
        cases x with
        | nil =>
          injection e with e1 e2
          exact absurd ⟨hx, e1, y, e2⟩ h
        | cons d x =>
          injection e with e1 e2
          subst e1
          exact ⟨x, y, e2, hx⟩

theorem scan_comment {s : Str} : HasComment s ↔ scan none s = true := by
  rw [scan_iff]; rfl

/-- **C40 is violated**: a minus sign before a negated operand is formatted without the blank between
the two signs, and for the database the rest of the query is a comment. -/
theorem C40_violated : constructPrint ⟨fun _ => none, false⟩ id cs!"SELECT a - -b FROM t" = .ok cs!"SELECT a--b FROM t" ∧
    HasComment cs!"SELECT a--b FROM t" ∧ ¬ KeepsCode ⟨fun _ => none, false⟩ id cs!"SELECT a - -b FROM t" := by
  have e : constructPrint ⟨fun _ => none, false⟩ id cs!"SELECT a - -b FROM t" = .ok cs!"SELECT a--b FROM t" := by kernel_rfl
  have hc : HasComment cs!"SELECT a--b FROM t" := scan_comment.2 (by decide +kernel)
  refine ⟨e, hc, fun h => ?_⟩
  obtain ⟨q, hq⟩ := accepted_iff.1 (show accepted (construct ⟨fun _ => none, false⟩ cs!"SELECT a - -b FROM t") = true by kernel_rfl)
  unfold constructPrint at e
  rw [hq] at e
  refine h q hq (fun hs => ?_) ?_
  · have := scan_comment.1 hs
    revert this
    decide +kernel
  · rw [show q.print id = cs!"SELECT a--b FROM t" from Except.ok.inj e]
    exact hc

/-! ### The automaton -/

/-- the states: nothing pending, a minus sign (and blanks) before, inside quotes -/
inductive Pend where
  | clean | dash | quote (q : Char)

/-- one character; no result when two minus signs meet -/
def pendStep : Pend → Char → Option Pend
  | .clean, c => some (if c = '\'' ∨ c = '"' then .quote c else if c = '-' then .dash else .clean)
  | .dash, c => if c = '-' then none else
      some (if isSpace c = true then .dash else if c = '\'' ∨ c = '"' then .quote c else .clean)
  | .quote q, c => some (if c = q then .clean else .quote q)

/-- a text -/
def pend : Pend → Str → Option Pend
  | p, [] => some p
  | p, c :: t => (pendStep p c).bind fun p' => pend p' t

/-- not inside quotes -/
def Pend.out : Pend → Prop
  | .quote _ => False
  | _ => True

/-- less is pending -/
def Pend.le (p p' : Pend) : Prop := p = p' ∨ (p = .clean ∧ p' = .dash)

/-- the open quote -/
def Pend.open : Pend → Option Char
  | .quote q => some q
  | _ => none

theorem pend_append (a b : Str) : ∀ p, pend p (a ++ b) = (pend p a).bind fun p' => pend p' b := by
  induction a with
  | nil => intro p; rfl
  | cons c a ih =>
    intro p
    show (pendStep p c).bind _ = ((pendStep p c).bind _).bind _
    cases pendStep p c with
    | none => rfl
    | some p' => exact ih p'

theorem pend_append_some {a b : Str} {p p'' : Pend} : pend p (a ++ b) = some p'' ↔ ∃ p', pend p a = some p' ∧ pend p' b = some p'' := by
  rw [pend_append]
  cases pend p a <;> simp

theorem pendStep_open {p p' : Pend} {c : Char} (h : pendStep p c = some p') : p'.open = quoteStep p.open c := by
  cases p with
  | clean =>
    simp only [pendStep, Option.some.injEq] at h
    subst h
    by_cases hq : c = '\'' ∨ c = '"'
    · simp [hq, Pend.open, quoteStep]
    · by_cases hd : c = '-' <;> simp [hq, hd, Pend.open, quoteStep]
  | dash =>
    simp only [pendStep] at h
    split at h
    · cases h
    · simp only [Option.some.injEq] at h
      subst h
      by_cases hs : isSpace c = true
      · have : ¬ (c = '\'' ∨ c = '"') := by rintro (rfl | rfl) <;> revert hs <;> decide
        simp [hs, this, Pend.open, quoteStep]
      · by_cases hq : c = '\'' ∨ c = '"' <;> simp [hs, hq, Pend.open, quoteStep]
  | quote q =>
    simp only [pendStep, Option.some.injEq] at h
    subst h
    by_cases hq : c = q <;> simp [hq, Pend.open, quoteStep]

theorem pend_open : ∀ (s : Str) {p p' : Pend}, pend p s = some p' → p'.open = s.foldl quoteStep p.open := by
  intro s
  induction s with
  | nil => intro p p' h; cases h; rfl
  | cons c t ih =>
    intro p p' h
    simp only [pend] at h
    cases hc : pendStep p c with
    | none => rw [hc] at h; cases h
    | some p1 =>
      rw [hc] at h
      rw [ih h, pendStep_open hc]
      rfl

theorem out_open {p : Pend} : p.out ↔ p.open = none := by cases p <;> simp [Pend.out, Pend.open]

/-- a comment is found by the automaton -/
theorem pend_comment {s : Str} (h : HasComment s) : pend .clean s = none := by
  obtain ⟨x, y, rfl, hx⟩ := h
  rw [pend_append]
  cases hp : pend .clean x with
  | none => rfl
  | some p =>
    have ho : p.open = none := (pend_open x hp).trans hx
    cases p with
    | quote q => cases ho
    | clean => simp [pend, pendStep]
    | dash => simp [pend, pendStep]

/-- what the automaton finds is a pair of minus signs -/
theorem pend_none : ∀ (s : Str) (p : Pend), pend p s = none →
    (∃ x b y, s = x ++ '-' :: (b ++ '-' :: y) ∧ Blanks b ∧ x.foldl quoteStep p.open = none) ∨
      (p = .dash ∧ ∃ b y, s = b ++ '-' :: y ∧ Blanks b) := by
  intro s
  induction s with
  | nil => intro p h; cases h
  | cons c t ih =>
    intro p h
    simp only [pend] at h
    cases hc : pendStep p c with
    | none =>
      right
      cases p with
      | clean => simp [pendStep] at hc
      | quote q => simp [pendStep] at hc
      | dash =>
        simp only [pendStep] at hc
        split at hc
        · next e => subst e; exact ⟨rfl, [], t, rfl, nofun⟩
        · cases hc
    | some p1 =>
      rw [hc] at h
      have ho := pendStep_open hc
      rcases ih p1 h with ⟨x, b, y, rfl, hb, hx⟩ | ⟨rfl, b, y, rfl, hb⟩
      · left
        exact ⟨c :: x, b, y, rfl, hb, by rw [List.foldl_cons, ← ho]; exact hx⟩
      · cases p with
        | clean =>
          simp only [pendStep, Option.some.injEq] at hc
          split at hc
          · cases hc
          · split at hc
            · next e => subst e; exact .inl ⟨[], b, y, rfl, hb, rfl⟩
            · cases hc
        | quote q =>
          simp only [pendStep, Option.some.injEq] at hc
          split at hc <;> cases hc
        | dash =>
          simp only [pendStep] at hc
          split at hc
          · cases hc
          · simp only [Option.some.injEq] at hc
            split at hc
            · next hs =>
              refine .inr ⟨rfl, c :: b, y, rfl, ?_⟩
              intro d hd
              rcases List.mem_cons.1 hd with rfl | hd
              · exact hs
              · exact hb d hd
            · split at hc <;> cases hc

theorem pend_pair {s : Str} (h : pend .clean s = none) : HasMinusPair s := by
  rcases pend_none s .clean h with h | ⟨h, -⟩
  · exact h
  · cases h

/-! ### Tokens -/

/-- the text does not leave a quote open, unless it has a pair of minus signs -/
def Keeps (x : Str) : Prop := ∀ p : Pend, p.out → ∀ p', pend p x = some p' → p'.out

/-- nothing is pending after the text -/
def Solid (x : Str) : Prop := ∀ p : Pend, p.out → pend p x = some .clean

theorem Solid.keeps {x : Str} (h : Solid x) : Keeps x := by
  intro p hp p' h'
  rw [h p hp] at h'
  cases h'
  trivial

theorem Keeps.append {x y : Str} (h : Keeps x) (h' : Keeps y) : Keeps (x ++ y) := by
  intro p hp p' he
  obtain ⟨p1, h1, h2⟩ := pend_append_some.1 he
  exact h' p1 (h p hp p1 h1) p' h2

theorem Solid.app {x y : Str} (hx : Solid x) (h' : Solid y) : Solid (x ++ y) := by
  intro p hp
  rw [pend_append, hx p hp]
  exact h' .clean trivial

theorem pend_blanks {b : Str} (h : Blanks b) {p : Pend} (hp : p.out) : pend p b = some p := by
  induction b with
  | nil => rfl
  | cons c t ih =>
    have hc : isSpace c = true := h c (by simp)
    have hs : pendStep p c = some p := by
      have hq : ¬ (c = '\'' ∨ c = '"') := by rintro (rfl | rfl) <;> revert hc <;> decide
      have hd : c ≠ '-' := by rintro rfl; revert hc; decide
      cases p with
      | quote q => cases hp
      | clean => simp [pendStep, hq, hd]
      | dash => simp [pendStep, hd, hc]
    simp only [pend, hs, Option.bind_some]
    exact ih fun d hd => h d (by simp [hd])

/-- not a blank, a quote or a minus sign -/
def dull (c : Char) : Bool := !isSpace c && c != '-' && c != '\'' && c != '"'

theorem solid_dull {x : Str} (hne : x ≠ []) (h : ∀ c ∈ x, dull c = true) : Solid x := by
  intro p hp
  induction x generalizing p with
  | nil => exact absurd rfl hne
  | cons c t ih =>
    have hc := h c (by simp)
    simp only [dull, Bool.and_eq_true, Bool.not_eq_true', bne_iff_ne, ne_eq] at hc
    obtain ⟨⟨⟨h1, h2⟩, h3⟩, h4⟩ := hc
    have hs : pendStep p c = some .clean := by
      cases p with
      | quote q => cases hp
      | clean => simp [pendStep, h2, h3, h4]
      | dash => simp [pendStep, h1, h2, h3, h4]
    simp only [pend, hs, Option.bind_some]
    cases t with
    | nil => rfl
    | cons d t => exact ih (by simp) (fun e he => h e (by simp [he])) .clean trivial

theorem dull_id {c : Char} (h : IdChar c) : dull c = true := by
  have h' := isIdChar_iff.2 h
  have hs : isSpace c = false := by
    cases hc : isSpace c with
    | false => rfl
    | true =>
      rw [isSpace_iff] at hc
      rw [isIdChar_toNat] at h'
      omega
  simp only [dull, hs, Bool.not_false, Bool.true_and, Bool.and_eq_true, bne_iff_ne, ne_eq]
  refine ⟨⟨?_, ?_⟩, ?_⟩ <;> (rintro rfl; revert h'; decide)

theorem solid_ci {x w : Str} (h : SameCI x w) (hw : w.all isIdChar = true) (hne : w ≠ []) : Solid x := by
  refine solid_dull ?_ fun c hc => dull_id (isIdChar_iff.1 ?_)
  · rintro rfl
    exact hne (List.length_eq_zero_iff.1 (sameCI_length h).symm)
  · rw [← isIdChar_lowerC]
    have : lowerC c ∈ w.map lowerC := h ▸ List.mem_map.2 ⟨c, hc, rfl⟩
    obtain ⟨d, hd, e⟩ := List.mem_map.1 this
    rw [← e, isIdChar_lowerC]
    exact List.all_eq_true.1 hw d hd

theorem solid_oneOf {ws : List Str} {x : Str} (h : OneOf ws x) (hw : ∀ w ∈ ws, w.all isIdChar = true ∧ w ≠ []) :
    Solid x := by
  obtain ⟨w, hm, hx⟩ := h
  exact solid_ci hx (hw w hm).1 (hw w hm).2

theorem solid_ident {x : Str} (h : IdentShape x) : Solid x := by
  obtain ⟨c, t, rfl, hc, ht⟩ := h
  refine solid_dull (by simp) fun d hd => dull_id ?_
  rcases List.mem_cons.1 hd with rfl | hd
  · exact .inl hc
  · exact ht d hd

theorem solid_pq {x : Str} (h : PQName x) : Solid x := by
  obtain ⟨c, t, rfl, hc, ht⟩ := h
  refine solid_dull (by simp) fun d hd => ?_
  rcases List.mem_cons.1 hd with rfl | hd
  · exact dull_id (.inl hc)
  · rcases ht d hd with h | rfl
    · exact dull_id h
    · decide

theorem solid_digits {x : Str} (h : Digits x) : Solid x :=
  solid_dull h.1 fun c hc => dull_id (.inr (.inl (h.2 c hc)))

theorem pend_quote (q : Char) {p : Pend} (hp : p.out) (hq : q = '\'' ∨ q = '"') :
    pendStep p q = some (.quote q) := by
  have h1 : q ≠ '-' := by rintro rfl; revert hq; decide
  have h2 : isSpace q = false := by rcases hq with rfl | rfl <;> decide
  cases p with
  | quote q => cases hp
  | clean => simp [pendStep, hq]
  | dash => simp [pendStep, hq, h1, h2]

theorem pend_body {q : Char} (hq : q = '\'' ∨ q = '"') {b : Str} (h : QBody q b) :
    pend (.quote q) b = some (.quote q) := by
  induction h with
  | nil => rfl
  | chr hc _ ih => simpa [pend, pendStep, hc] using ih
  | dbl _ ih =>
    have : pendStep .clean q = some (.quote q) := pend_quote q trivial hq
    simp only [pend, pendStep, if_true, Option.bind_some]
    rw [if_pos hq]
    exact ih

theorem solid_quoted {q : Char} (hq : q = '\'' ∨ q = '"') {b : Str} (h : QBody q b) :
    Solid (q :: b ++ [q]) := by
  intro p hp
  show (pendStep p q).bind (fun p' => pend p' (b ++ [q])) = _
  rw [pend_quote q hp hq, Option.bind_some, pend_append, pend_body hq h]
  simp [pend, pendStep]

theorem solid_name {x : Str} (h : Name x) : Solid x := by
  rcases h with h | ⟨b, rfl, -, hb⟩
  · exact solid_ident h.1
  · exact solid_quoted (.inr rfl) hb

/-- without quotes nothing is left open -/
theorem keeps_plain {x : Str} (h : ∀ c ∈ x, c ≠ '\'' ∧ c ≠ '"') : Keeps x := by
  intro p hp p' he
  rw [out_open] at hp ⊢
  rw [pend_open x he, hp]
  clear he
  induction x with
  | nil => rfl
  | cons c t ih =>
    have hc := h c (by simp)
    simp only [List.foldl_cons, quoteStep, hc.1, hc.2, or_self, if_false]
    exact ih fun d hd => h d (by simp [hd])

theorem plain_id {c : Char} (h : IdChar c) : c ≠ '\'' ∧ c ≠ '"' := by
  have h' := isIdChar_iff.2 h
  constructor <;> (rintro rfl; revert h'; decide)

theorem plain_digits {d : Str} (h : Digits d) : ∀ c ∈ d, c ≠ '\'' ∧ c ≠ '"' :=
  fun c hc => plain_id (.inr (.inl (h.2 c hc)))

theorem plain_ci {x w : Str} (h : SameCI x w) (hw : ∀ c ∈ w, c ≠ '\'' ∧ c ≠ '"') :
    ∀ c ∈ x, c ≠ '\'' ∧ c ≠ '"' := by
  intro c hc
  by_cases hi : isIdChar c = true
  · exact plain_id (isIdChar_iff.1 hi)
  · have key : ∀ d, lowerC d = lowerC c → d = c := by
      intro d hd
      have hdi : ¬ isIdChar d = true := by rw [← isIdChar_lowerC, hd, isIdChar_lowerC]; exact hi
      have low : ∀ e, ¬ isIdChar e = true → lowerC e = e := by
        intro e he
        unfold lowerC
        split
        · next h' =>
          refine absurd ?_ he
          simp only [Bool.and_eq_true, decide_eq_true_eq] at h'
          simp [isIdChar, isLetter, h']
        · rfl
      rwa [low d hdi, low c hi] at hd
    have : lowerC c ∈ w.map lowerC := h ▸ List.mem_map.2 ⟨c, hc, rfl⟩
    obtain ⟨d, hd, e⟩ := List.mem_map.1 this
    exact key d e ▸ hw d hd

theorem plain_append {x y : Str} (h : ∀ c ∈ x, c ≠ '\'' ∧ c ≠ '"') (h' : ∀ c ∈ y, c ≠ '\'' ∧ c ≠ '"') :
    ∀ c ∈ x ++ y, c ≠ '\'' ∧ c ≠ '"' := by
  intro c hc
  rcases List.mem_append.1 hc with hc | hc
  · exact h c hc
  · exact h' c hc

theorem plain_cons {a : Char} {y : Str} (h : a ≠ '\'' ∧ a ≠ '"') (h' : ∀ c ∈ y, c ≠ '\'' ∧ c ≠ '"') :
    ∀ c ∈ a :: y, c ≠ '\'' ∧ c ≠ '"' := by
  intro c hc
  rcases List.mem_cons.1 hc with rfl | hc
  · exact h
  · exact h' c hc

theorem plain_expo {x : Str} (h : Expo x) : ∀ c ∈ x, c ≠ '\'' ∧ c ≠ '"' := by
  cases h with
  | mk he hd => exact plain_cons (by rcases he with rfl | rfl <;> decide) (plain_digits hd)
  | signed he hg hd =>
    exact plain_cons (by rcases he with rfl | rfl <;> decide)
      (plain_cons (by rcases hg with rfl | rfl <;> decide) (plain_digits hd))

theorem plain_mantissa {x : Str} (h : Mantissa x) : ∀ c ∈ x, c ≠ '\'' ∧ c ≠ '"' := by
  cases h with
  | int hd => exact plain_digits hd
  | dec hd hf => exact plain_append (plain_digits hd) (plain_cons (by decide) (plain_digits hf))
  | frac hf => exact plain_cons (by decide) (plain_digits hf)

theorem plain_num {x : Str} (h : NumLit x) : ∀ c ∈ x, c ≠ '\'' ∧ c ≠ '"' := by
  cases h with
  | exact h => exact plain_mantissa h
  | approx h h' => exact plain_append (plain_mantissa h) (plain_expo h')

theorem plain_unsigned {x : Str} (h : Unsigned x) : ∀ c ∈ x, c ≠ '\'' ∧ c ≠ '"' := by
  cases h with
  | int hd => exact plain_digits hd
  | dot hd => exact plain_append (plain_digits hd) (by decide)
  | dec hd hf => exact plain_append (plain_digits hd) (plain_cons (by decide) (plain_digits hf))
  | frac hf => exact plain_cons (by decide) (plain_digits hf)

theorem plain_magnitude {x : Str} (h : Magnitude x) (hn : ∀ y, y <:+: x → ¬ SameCI y cs!"nan(") :
    ∀ c ∈ x, c ≠ '\'' ∧ c ≠ '"' := by
  cases h with
  | plain h => exact plain_unsigned h
  | expo h h' => exact plain_append (plain_unsigned h) (plain_expo h')
  | inf h =>
    obtain ⟨w, hm, hx⟩ := h
    refine plain_ci hx ?_
    simp only [List.mem_cons, List.not_mem_nil, or_false] at hm
    rcases hm with rfl | rfl <;> decide
  | nan h => exact plain_ci h (by decide)
  | @nanArg x u h _ =>
    refine absurd ?_ (hn (x ++ cs!"(") ⟨[], u ++ [')'], by simp⟩)
    have : SameCI (x ++ cs!"(") (cs!"nan" ++ cs!"(") := by
      unfold SameCI at h ⊢
      rw [List.map_append, List.map_append, h]
    exact this

theorem plain_number {x : Str} (h : Number x) (hn : ∀ y, y <:+: x → ¬ SameCI y cs!"nan(") :
    ∀ c ∈ x, c ≠ '\'' ∧ c ≠ '"' := by
  cases h with
  | plain h => exact plain_magnitude h hn
  | plus h =>
    exact plain_cons (by decide) (plain_magnitude h fun y hy => hn y (hy.trans (List.suffix_cons _ _).isInfix))
  | minus h =>
    exact plain_cons (by decide) (plain_magnitude h fun y hy => hn y (hy.trans (List.suffix_cons _ _).isInfix))

theorem keeps_part {x : Str} (h : StrPart x) : Solid x := by
  obtain ⟨b, rfl, hb⟩ := h
  exact solid_quoted (.inl rfl) hb

theorem keeps_sep {x : Str} (h : Sep x) : Keeps x := by
  cases h with
  | blank => exact keeps_plain (by decide)
  | newline => exact keeps_plain (by decide)
  | comment h =>
    intro p hp p' he
    cases p with
    | quote q => cases hp
    | clean => simp [pend, pendStep] at he
    | dash => simp [pend, pendStep] at he

theorem keeps_seps {x : Str} (h : Seps x) : Keeps x := by
  induction h with
  | one h => exact keeps_sep h
  | cons h _ ih => exact (keeps_sep h).append ih

theorem keeps_tail {x : Str} (h : StrTail x) : Keeps x := by
  induction h with
  | nil => exact keeps_plain nofun
  | cons h hp _ ih => exact (keeps_seps h).append ((keeps_part hp).keeps.append ih)

theorem keeps_token {x : Str} (h : Token x) (hn : ∀ y, y <:+: x → ¬ SameCI y cs!"nan(") : Keeps x := by
  cases h with
  | word h => exact (solid_ident h).keeps
  | pq h => exact (solid_pq h).keeps
  | delimited h => exact (solid_name (.inr h)).keeps
  | num h => exact keeps_plain (plain_num h)
  | number h => exact keeps_plain (plain_number h hn)
  | str h =>
    obtain ⟨p, u, rfl, hp, hu⟩ := h
    exact (keeps_part hp).keeps.append (keeps_tail hu)
  | mark h =>
    refine keeps_plain ?_
    have : ∀ x ∈ marks, ∀ c ∈ x, c ≠ '\'' ∧ c ≠ '"' := by decide
    exact this x h
  | nullCast h =>
    obtain ⟨w, hm, hx⟩ := h
    refine keeps_plain (plain_ci hx ?_)
    have : ∀ x ∈ nullCasts, ∀ c ∈ x, c ≠ '\'' ∧ c ≠ '"' := by decide
    exact this w hm

/-! ### Lists of tokens -/

theorem keeps_flatten {l : List Str} (h : ∀ x ∈ l, Keeps x) : Keeps l.flatten := by
  induction l with
  | nil => exact keeps_plain nofun
  | cons x l ih => exact (h x (by simp)).append (ih fun y hy => h y (by simp [hy]))

theorem solid_flatten {l : List Str} (hne : l ≠ []) (h : ∀ x ∈ l, Solid x) : Solid l.flatten := by
  induction l with
  | nil => exact absurd rfl hne
  | cons x l ih =>
    cases l with
    | nil => simpa using h x (by simp)
    | cons y l => exact Solid.app (h x (by simp)) (ih (by simp) fun z hz => h z (by simp [hz]))

theorem pend_reads {t : Str} {l : List Str} {r : Str} (h : Reads t l r) (hk : ∀ x ∈ l, Keeps x) :
    ∀ p : Pend, p.out → pend p t = pend p l.flatten := by
  induction h with
  | nil hb => intro p hp; exact pend_blanks hb hp
  | @cons b x t l r hb _ _ _ ih =>
    intro p hp
    rw [pend_append, pend_blanks hb hp, Option.bind_some, List.flatten_cons, pend_append, pend_append]
    cases he : pend p x with
    | none => rfl
    | some p' => exact ih (fun y hy => hk y (by simp [hy])) p' (hk x (by simp) p hp p' he)

theorem pend_laid {t : Str} {l : List Str} (h : Laid t l) (hk : ∀ x ∈ l, Keeps x) :
    ∀ p : Pend, p.out → pend p t = pend p l.flatten := by
  induction h with
  | nil hb => intro p hp; exact pend_blanks hb hp
  | @cons b x t l hb _ _ ih =>
    intro p hp
    rw [pend_append, pend_blanks hb hp, Option.bind_some, List.flatten_cons, pend_append, pend_append]
    cases he : pend p x with
    | none => rfl
    | some p' => exact ih (fun y hy => hk y (by simp [hy])) p' (hk x (by simp) p hp p' he)

theorem le_refl (p : Pend) : p.le p := .inl rfl

theorem clean_le {p : Pend} (h : p.out) : Pend.le .clean p := by
  cases p with
  | clean => exact .inl rfl
  | dash => exact .inr ⟨rfl, rfl⟩
  | quote q => cases h

theorem le_trans {p p' p'' : Pend} (h : p.le p') (h' : p'.le p'') : p.le p'' := by
  rcases h with rfl | ⟨rfl, rfl⟩
  · exact h'
  · rcases h' with rfl | ⟨h, -⟩
    · exact .inr ⟨rfl, rfl⟩
    · cases h

theorem le_out {p p' : Pend} (h : p.le p') (h' : p'.out) : p.out := by
  rcases h with rfl | ⟨rfl, -⟩
  · exact h'
  · trivial

/-- with less pending, less is pending afterwards -/
theorem pend_mono : ∀ (s : Str) {p p' p1 : Pend}, p'.le p → pend p s = some p1 →
    ∃ p2, p2.le p1 ∧ pend p' s = some p2 := by
  intro s
  induction s with
  | nil => intro p p' p1 h he; cases he; exact ⟨p', h, rfl⟩
  | cons c t ih =>
    intro p p' p1 h he
    rcases h with rfl | ⟨rfl, rfl⟩
    · exact ⟨p1, le_refl _, he⟩
    · simp only [pend, pendStep] at he ⊢
      split at he
      · cases he
      · next hd =>
        simp only [Option.bind_some, hd, if_false] at he ⊢
        refine ih ?_ he
        by_cases hs : isSpace c = true
        · have : ¬ (c = '\'' ∨ c = '"') := by rintro (rfl | rfl) <;> revert hs <;> decide
          simp only [hs, this, if_true, if_false]
          exact .inr ⟨rfl, rfl⟩
        · simp only [hs]
          exact le_refl _

/-- `s'` does not bring minus signs together where `s` does not -/
def Rel (s s' : Str) : Prop := ∀ p : Pend, p.out → ∀ p1, pend p s = some p1 → ∃ p', p'.le p1 ∧ pend p s' = some p'

theorem Rel.append {a a' b b' : Str} (ha : Keeps a) (h : Rel a a') (h' : Rel b b') : Rel (a ++ b) (a' ++ b') := by
  intro p hp p2 he
  obtain ⟨p1, h1, h2⟩ := pend_append_some.1 he
  obtain ⟨p1', hl, h3⟩ := h p hp p1 h1
  have ho := ha p hp p1 h1
  obtain ⟨p2', hl2, h4⟩ := h' p1 ho p2 h2
  obtain ⟨p3, hl3, h5⟩ := pend_mono b' hl h4
  exact ⟨p3, le_trans hl3 hl2, pend_append_some.2 ⟨p1', h3, h5⟩⟩

theorem Rel.refl (s : Str) : Rel s s := fun _ _ p1 h => ⟨p1, le_refl _, h⟩

theorem Rel.solid {s s' : Str} (hk : Keeps s) (h : Solid s') : Rel s s' :=
  fun p hp p1 he => ⟨.clean, clean_le (hk p hp p1 he), h p hp⟩

/-! ### The parameters -/

theorem pend_last : ∀ (s : Str) {p : Pend}, pend p s = some .dash → MinusLast s ∨ (p = .dash ∧ Blanks s) := by
  intro s
  induction s with
  | nil => intro p h; cases h; exact .inr ⟨rfl, nofun⟩
  | cons c t ih =>
    intro p h
    simp only [pend] at h
    cases hc : pendStep p c with
    | none => rw [hc] at h; cases h
    | some p1 =>
      rw [hc] at h
      rcases ih h with ⟨u, b, hb, rfl⟩ | ⟨rfl, hb⟩
      · exact .inl ⟨c :: u, b, hb, rfl⟩
      · cases p with
        | clean =>
          simp only [pendStep, Option.some.injEq] at hc
          split at hc
          · cases hc
          · split at hc
            · next e => subst e; exact .inl ⟨[], t, hb, rfl⟩
            · cases hc
        | quote q =>
          simp only [pendStep, Option.some.injEq] at hc
          split at hc <;> cases hc
        | dash =>
          simp only [pendStep] at hc
          split at hc
          · cases hc
          · simp only [Option.some.injEq] at hc
            split at hc
            · next hs =>
              refine .inr ⟨rfl, ?_⟩
              intro d hd
              rcases List.mem_cons.1 hd with rfl | hd
              · exact hs
              · exact hb d hd
            · split at hc <;> cases hc

theorem harmless_clean {y : Str} (h : Harmless y) : pend .clean y = some .clean := by
  cases he : pend .clean y with
  | none => exact absurd (pend_pair he) h.pair
  | some p =>
    have ho : p.open = none := (pend_open y he).trans h.closed
    cases p with
    | quote q => cases ho
    | clean => rfl
    | dash =>
      rcases pend_last y he with hl | ⟨hl, -⟩
      · exact absurd hl h.last
      · cases hl

theorem ink_split : ∀ {y : Str}, ¬ Blanks y → ∃ b c v, y = b ++ c :: v ∧ Blanks b ∧ isSpace c = false
  | [], h => absurd nofun h
  | c :: t, h => by
    cases hc : isSpace c with
    | false => exact ⟨[], c, t, rfl, nofun, hc⟩
    | true =>
      have : ¬ Blanks t := fun ht => h fun d hd => by
        rcases List.mem_cons.1 hd with rfl | hd
        · exact hc
        · exact ht d hd
      obtain ⟨b, d, v, rfl, hb, hd⟩ := ink_split this
      refine ⟨c :: b, d, v, rfl, fun e he => ?_, hd⟩
      rcases List.mem_cons.1 he with rfl | he
      · exact hc
      · exact hb e he

theorem harmless_solid {y : Str} (h : Harmless y) (hf : ¬ MinusFirst y) : Solid y := by
  intro p hp
  have hc := harmless_clean h
  obtain ⟨b, c, v, rfl, hb, hs⟩ := ink_split h.ink
  have hd : c ≠ '-' := by
    rintro rfl
    exact hf ⟨b, v, hb, rfl⟩
  cases p with
  | quote q => cases hp
  | clean => exact hc
  | dash =>
    rw [pend_append, pend_blanks hb (p := .clean) trivial] at hc
    rw [pend_append, pend_blanks hb (p := .dash) trivial]
    simp only [Option.bind_some, pend, pendStep, hd, if_false, hs] at hc ⊢
    exact hc

/-- No not-a-number with an argument. -/
def Spec.NoNan (x : Str) : Prop := ∀ y, y <:+: x → ¬ SameCI y cs!"nan("

/-- The requirements on the parameters of formatting: the names of uploaded tables have no minus signs
at either end, and numerals are formatted with a sign only if they are written with one. -/
structure Spec.Tame (e : Env) : Prop where
  mapped : ∀ x y, e.mapped x y → Harmless y ∧ ¬ MinusFirst y
  fmt : ∀ x, Number x → NoNan x → Harmless (e.fmt x) ∧ (MinusFirst (e.fmt x) → ∃ t, x = '-' :: t)

theorem keeps_fmt {e : Env} (he : Tame e) {x : Str} (h : Number x) (hn : NoNan x) : Keeps (e.fmt x) := by
  intro p hp p' hq
  have hh := (he.fmt x h hn).1
  rw [out_open] at hp ⊢
  rw [pend_open _ hq, hp]
  exact hh.closed

theorem rel_fmt {e : Env} (he : Tame e) {x : Str} (h : Number x) (hn : NoNan x) (hk : Keeps x) : Rel x (e.fmt x) := by
  intro p hp p1 hx
  have hh := he.fmt x h hn
  have ho := clean_le (hk p hp p1 hx)
  cases p with
  | quote q => cases hp
  | clean => exact ⟨.clean, ho, harmless_clean hh.1⟩
  | dash =>
    have hs : Solid (e.fmt x) := harmless_solid hh.1 fun hf => by
      obtain ⟨t, rfl⟩ := hh.2 hf
      simp [pend, pendStep] at hx
    exact ⟨.clean, ho, hs _ hp⟩

/-! ### Differences -/

theorem solid_mark {x : Str} (h : x ∈ [cs!"(", cs!")", cs!",", cs!".", cs!"="]) : Solid x := by
  have : ∀ x ∈ [cs!"(", cs!")", cs!",", cs!".", cs!"="], x ≠ [] ∧ ∀ c ∈ x, dull c = true := by decide
  exact solid_dull (this x h).1 (this x h).2

theorem solid_dotted {l : List Str} (h : Dotted l) : l ≠ [] ∧ ∀ x ∈ l, Solid x := by
  induction h with
  | one h => exact ⟨by simp, by simpa using solid_name h⟩
  | cons h _ ih =>
    refine ⟨by simp, ?_⟩
    simp only [List.mem_cons, forall_eq_or_imp]
    exact ⟨solid_name h, solid_mark (by simp), ih.2⟩

theorem solid_names {l : List Str} (h : NameList l) : ∀ x ∈ l, Solid x := by
  induction h with
  | one h => simpa using solid_name h
  | cons h _ ih =>
    simp only [List.mem_cons, forall_eq_or_imp]
    exact ⟨solid_name h, solid_mark (by simp), ih⟩

theorem solid_col {e : Env} (he : Tame e) {l l' : List Str} (h : ColEdit e l l') : l' ≠ [] ∧ ∀ x ∈ l', Solid x := by
  cases h with
  | keep h => exact solid_dotted h
  | upload hm h =>
    refine ⟨by simp, ?_⟩
    simp only [List.mem_cons, forall_eq_or_imp]
    have := he.mapped _ _ hm
    exact ⟨harmless_solid this.1 this.2, solid_mark (by simp), (solid_dotted h).2⟩

theorem coord_pend {e : Env} (he : Tame e) {l l' : List Str} (h : CoordEdit e l l') (hl : ∀ x ∈ l, Keeps x) (hn : ∀ x ∈ l, NoNan x) :
    Rel l.flatten l'.flatten ∧ ∀ x ∈ l', Keeps x := by
  cases h with
  | col h =>
    have := solid_col he h
    exact ⟨.solid (keeps_flatten hl) (solid_flatten this.1 this.2), fun x hx => (this.2 x hx).keeps⟩
  | num h =>
    simp only [List.mem_cons, List.not_mem_nil, or_false, forall_eq] at hl hn ⊢
    exact ⟨by simpa using rel_fmt he h hn hl, keeps_fmt he h hn⟩
  | op hx hy ho =>
    simp only [List.mem_cons, List.not_mem_nil, or_false, forall_eq_or_imp, forall_eq] at hl hn ⊢
    refine ⟨?_, keeps_fmt he hx hn.1, hl.2.1, keeps_fmt he hy hn.2.2⟩
    simp only [List.flatten_cons, List.flatten_nil, List.append_nil]
    exact .append hl.1 (rel_fmt he hx hn.1 hl.1) (.append hl.2.1 (.refl _) (rel_fmt he hy hn.2.2 hl.2.2))

theorem coords_pend {e : Env} (he : Tame e) {l l' : List Str} (h : CoordsEdit e l l') (hl : ∀ x ∈ l, Keeps x) (hn : ∀ x ∈ l, NoNan x) :
    Rel l.flatten l'.flatten ∧ ∀ x ∈ l', Keeps x := by
  induction h with
  | one h => exact coord_pend he h hl hn
  | cons h _ ih =>
    simp only [List.mem_append, List.mem_cons] at hl hn ⊢
    obtain ⟨h1, h2⟩ := coord_pend he h (fun x hx => hl x (.inl hx)) fun x hx => hn x (.inl hx)
    obtain ⟨h3, h4⟩ := ih (fun x hx => hl x (.inr (.inr hx))) fun x hx => hn x (.inr (.inr hx))
    have hc := hl cs!"," (.inr (.inl rfl))
    refine ⟨?_, ?_⟩
    · simp only [List.flatten_append, List.flatten_cons]
      exact .append (keeps_flatten fun x hx => hl x (.inl hx)) h1 (.append hc (.refl _) h3)
    · rintro x (hx | rfl | hx)
      · exact h2 x hx
      · exact hc
      · exact h4 x hx

theorem pq_noquote {a : Str} (h : PQName a) : '\'' ∉ a := by
  obtain ⟨c, t, rfl, hc, ht⟩ := h
  intro hm
  rcases List.mem_cons.1 hm with rfl | hm
  · exact (plain_id (.inl hc)).1 rfl
  · rcases ht _ hm with h | h
    · exact (plain_id h).1 rfl
    · cases h

theorem solid_args {l l' : List Str} (h : ArgsEdit l l') : ∀ x ∈ l', Solid x := by
  have one : ∀ {a : Str}, PQName a → Solid ('\'' :: (a ++ ['\''])) := fun h =>
    solid_quoted (.inl rfl) (qbody_plain (pq_noquote h))
  induction h with
  | one _ h _ => simpa using one h
  | cons _ h _ _ ih =>
    simp only [List.mem_cons, forall_eq_or_imp]
    exact ⟨one h, solid_mark (by simp), ih⟩

theorem solid_sys {l l' : List Str} (h : SysEdit l l') : l' ≠ [] ∧ ∀ x ∈ l', Solid x := by
  cases h with
  | none =>
    refine ⟨by simp, ?_⟩
    simp only [List.mem_cons, List.not_mem_nil, or_false, forall_eq_or_imp, forall_eq]
    exact ⟨solid_quoted (q := '\'') (b := cs!"ICRS GEOCENTER") (.inl rfl) (qbody_plain (by decide)), solid_mark (by simp)⟩
  | @some x f h =>
    refine ⟨by simp, ?_⟩
    simp only [List.mem_cons, List.not_mem_nil, or_false, forall_eq_or_imp, forall_eq]
    refine ⟨?_, solid_mark (by simp)⟩
    obtain ⟨b₁, y, b₂, p, b₃, -, -, -, -, -, hf⟩ := h
    have hf : ∃ f', f' ∈ [cs!"ICRS", cs!"J2000", cs!"GALACTIC"] ∧ f = f' := by
      rcases hf with ⟨hf, -⟩ | ⟨-, hf⟩
      · exact ⟨_, hf, rfl⟩
      · exact ⟨_, by simp, hf⟩
    obtain ⟨f', hm, rfl⟩ := hf
    simp only [List.mem_cons, List.not_mem_nil, or_false] at hm
    rcases hm with rfl | rfl | rfl
    · exact solid_quoted (q := '\'') (b := cs!"ICRS GEOCENTER") (.inl rfl) (qbody_plain (by decide))
    · exact solid_quoted (q := '\'') (b := cs!"J2000 GEOCENTER") (.inl rfl) (qbody_plain (by decide))
    · exact solid_quoted (q := '\'') (b := cs!"GALACTIC GEOCENTER") (.inl rfl) (qbody_plain (by decide))

theorem solid_flag {f : Str} (h : Flag f) : Solid f := by
  rcases h with rfl | rfl <;> exact solid_dull (by simp) (by decide)

/-- a geometric constraint does not end with a minus sign -/
theorem pend_geometric {g : List Str} (h : Geometric g) (hk : ∀ x ∈ g, Keeps x) {p p' : Pend} (hp : p.out)
    (he : pend p g.flatten = some p') : p' = .clean := by
  have key : ∀ (m : List Str) (z : Str), (∀ x ∈ m, Keeps x) → Solid z →
      pend p (m ++ [z]).flatten = some p' → p' = .clean := by
    intro m z hm hz he
    rw [List.flatten_append] at he
    obtain ⟨p1, h1, h2⟩ := pend_append_some.1 he
    simp only [List.flatten_cons, List.flatten_nil, List.append_nil] at h2
    rw [hz p1 (keeps_flatten hm p hp p1 h1)] at h2
    cases h2
    rfl
  obtain ⟨c, ⟨k, m, rfl, -⟩, h⟩ := h
  have hr : Solid cs!")" := solid_mark (by simp)
  rcases h with rfl | ⟨f, hf, rfl | rfl⟩
  · exact key (k :: cs!"(" :: m) cs!")" (fun x hx => hk x (by simp at hx ⊢; rcases hx with h | h | h <;> simp [h])) hr
      (by simpa using he)
  · exact key (f :: cs!"=" :: k :: cs!"(" :: m) cs!")"
      (fun x hx => hk x (by simp at hx ⊢; rcases hx with h | h | h | h | h <;> simp [h])) hr (by simpa using he)
  · exact key (k :: cs!"(" :: (m ++ [cs!")", cs!"="])) f
      (fun x hx => hk x (by simp at hx ⊢; rcases hx with h | h | h | h | h <;> simp [h])) (solid_flag hf) (by simpa using he)

theorem edit_pend {e : Env} (he : Tame e) {l l' : List Str} (h : Edit e l l') (hl : ∀ x ∈ l, Keeps x) (hn : ∀ x ∈ l, NoNan x) :
    Rel l.flatten l'.flatten ∧ ∀ x ∈ l', Keeps x := by
  have solid : ∀ {m : List Str}, m ≠ [] → (∀ x ∈ m, Solid x) → ∀ {k : List Str}, (∀ x ∈ k, Keeps x) →
      Rel k.flatten m.flatten ∧ ∀ x ∈ m, Keeps x := fun hne hm _ hk =>
    ⟨.solid (keeps_flatten hk) (solid_flatten hne hm), fun x hx => (hm x hx).keeps⟩
  induction h with
  | nil => exact ⟨.refl _, nofun⟩
  | keep => exact ⟨.refl _, hl⟩
  | @case x w hw hx =>
    refine solid (by simp) ?_ hl
    simp only [List.mem_cons, List.not_mem_nil, or_false, forall_eq]
    have : ∀ w ∈ keywords, w.all isIdChar = true ∧ w ≠ [] := by decide +kernel
    exact solid_ci (w := w) rfl (this w hw).1 (this w hw).2
  | append _ _ ih1 ih2 =>
    simp only [List.mem_append] at hl hn ⊢
    obtain ⟨h1, h2⟩ := ih1 (fun x hx => hl x (.inl hx)) fun x hx => hn x (.inl hx)
    obtain ⟨h3, h4⟩ := ih2 (fun x hx => hl x (.inr hx)) fun x hx => hn x (.inr hx)
    refine ⟨?_, ?_⟩
    · rw [List.flatten_append, List.flatten_append]
      exact .append (keeps_flatten fun x hx => hl x (.inl hx)) h1 h3
    · rintro x (hx | hx)
      · exact h2 x hx
      · exact h4 x hx
  | dropAs _ hx =>
    refine solid (by simp) ?_ hl
    simpa using solid_name hx
  | addAs _ hx =>
    refine solid (by simp) ?_ hl
    simp only [List.mem_cons, List.not_mem_nil, or_false, forall_eq_or_imp, forall_eq]
    exact ⟨solid_ci (w := cs!"WITH") rfl (by decide) (by simp), solid_name hx, solid_ci (w := cs!"AS") rfl (by decide) (by simp)⟩
  | addAsCols _ hx hk =>
    refine solid (by simp) ?_ hl
    simp only [List.mem_cons, List.mem_append, List.not_mem_nil, or_false, forall_eq_or_imp]
    refine ⟨solid_ci (w := cs!"WITH") rfl (by decide) (by simp), solid_name hx, solid_mark (by simp), ?_⟩
    rintro y (hy | rfl | rfl)
    · exact solid_names hk y hy
    · exact solid_mark (by simp)
    · exact solid_ci (w := cs!"AS") rfl (by decide) (by simp)
  | top _ _ hd _ _ _ =>
    refine solid (by simp) ?_ hl
    simp only [List.mem_cons, List.not_mem_nil, or_false, forall_eq_or_imp, forall_eq]
    exact ⟨solid_ci (w := cs!"TOP") rfl (by decide) (by simp), solid_digits hd⟩
  | noTop _ hq _ _ _ =>
    refine solid (by simp) ?_ hl
    simp only [List.mem_cons, forall_eq_or_imp]
    refine ⟨solid_ci (w := cs!"SELECT") rfl (by decide) (by simp), ?_⟩
    rcases hq with rfl | ⟨q, hq, rfl⟩
    · nofun
    · simp only [List.mem_cons, List.not_mem_nil, or_false, forall_eq]
      exact solid_oneOf hq (by decide)
  | upload hm =>
    refine solid (by simp) ?_ hl
    have := he.mapped _ _ hm
    simpa using harmless_solid this.1 this.2
  | negate _ hx =>
    refine solid (by simp) ?_ hl
    simp only [List.mem_cons, List.not_mem_nil, or_false, forall_eq]
    exact solid_ci hx (by decide) (by simp)
  | table _ hx ha =>
    refine solid (by simp) ?_ hl
    simp only [List.mem_cons, List.mem_append, List.not_mem_nil, or_false, forall_eq_or_imp]
    refine ⟨solid_ci (w := cs!"table") rfl (by decide) (by simp), solid_mark (by simp), solid_pq hx, solid_mark (by simp), ?_⟩
    rintro y (hy | rfl | rfl)
    · exact solid_args ha y hy
    · exact solid_mark (by simp)
    · exact solid_mark (by simp)
  | table0 _ hx _ =>
    refine solid (by simp) ?_ hl
    simp only [List.mem_cons, List.not_mem_nil, or_false, forall_eq_or_imp, forall_eq]
    exact ⟨solid_ci (w := cs!"table") rfl (by decide) (by simp), solid_mark (by simp), solid_pq hx, solid_mark (by simp),
      solid_mark (by simp), solid_mark (by simp)⟩
  | @shape w w' y y' l l' hw _ hy hc =>
    simp only [List.mem_cons, List.mem_append, List.not_mem_nil, or_false, forall_eq_or_imp] at hl ⊢
    obtain ⟨k1, k2, k3⟩ := hl
    obtain ⟨h1, h2⟩ := coords_pend he hc (fun x hx => k3 x (.inr (.inl hx))) fun x hx => hn x (by simp [hx])
    have hs := solid_sys hy
    have hw' : Solid w' := by
      have : ∀ w ∈ [cs!"POINT", cs!"CIRCLE", cs!"BOX", cs!"ELLIPSE", cs!"POLYGON"], w.all isIdChar = true ∧ w ≠ [] := by
        decide
      exact solid_ci (w := w') rfl (this _ hw).1 (this _ hw).2
    have hky : Keeps y.flatten := keeps_flatten fun x hx => k3 x (.inl hx)
    have hkl : Keeps l.flatten := keeps_flatten fun x hx => k3 x (.inr (.inl hx))
    refine ⟨?_, hw'.keeps, k2, ?_⟩
    · simp only [List.flatten_cons, List.flatten_append, List.flatten_nil, List.append_nil]
      exact .append k1 (.solid k1 hw') (.append k2 (.refl _)
        (.append hky (.solid hky (solid_flatten hs.1 hs.2)) (.append hkl h1 (.refl _))))
    · rintro x (hx | hx | rfl)
      · exact (hs.2 x hx).keeps
      · exact h2 x hx
      · exact (solid_mark (by simp)).keeps
  | @flagLeft w f g g' hw hf _ _ ih =>
    simp only [List.mem_cons, forall_eq_or_imp, List.mem_append, List.not_mem_nil, or_false] at hl ⊢
    obtain ⟨h1, h2⟩ := ih hl.2.2.2 fun x hx => hn x (by simp [hx])
    have hW : Solid cs!"WHERE" := solid_ci (w := cs!"WHERE") rfl (by decide) (by simp)
    have hE : Solid cs!"=" := solid_mark (by simp)
    have hF := solid_flag hf
    refine ⟨?_, hW.keeps, ?_⟩
    · intro p hp p1 hx
      have hx' := hx
      rw [List.flatten_cons, pend_append, solid_ci hw (by decide) (by simp) p hp, Option.bind_some, List.flatten_cons,
        pend_append, hF .clean trivial, Option.bind_some, List.flatten_cons, pend_append, hE .clean trivial,
        Option.bind_some] at hx
      obtain ⟨p', hle, hp'⟩ := h1 .clean trivial p1 hx
      have ho := keeps_flatten hl.2.2.2 .clean trivial p1 hx
      refine ⟨.clean, clean_le ho, ?_⟩
      rw [List.flatten_cons, pend_append, hW p hp, Option.bind_some, List.flatten_append, pend_append, hp', Option.bind_some]
      refine solid_flatten (by simp) ?_ p' (le_out hle ho)
      simp only [List.mem_cons, List.not_mem_nil, or_false, forall_eq_or_imp, forall_eq]
      exact ⟨hE, hF⟩
    · rintro x (hx | rfl | rfl)
      · exact h2 x hx
      · exact hE.keeps
      · exact hF.keeps
  | @flagNone w g g' hw _ _ ih =>
    simp only [List.mem_cons, forall_eq_or_imp, List.mem_append, List.not_mem_nil, or_false] at hl ⊢
    obtain ⟨h1, h2⟩ := ih hl.2 fun x hx => hn x (by simp [hx])
    have hW : Solid cs!"WHERE" := solid_ci (w := cs!"WHERE") rfl (by decide) (by simp)
    have hE : Solid cs!"=" := solid_mark (by simp)
    have hF : Solid cs!"1" := solid_flag (.inr rfl)
    refine ⟨?_, hW.keeps, ?_⟩
    · intro p hp p1 hx
      rw [List.flatten_cons, pend_append, solid_ci hw (by decide) (by simp) p hp, Option.bind_some] at hx
      obtain ⟨p', hle, hp'⟩ := h1 .clean trivial p1 hx
      have ho := keeps_flatten hl.2 .clean trivial p1 hx
      refine ⟨.clean, clean_le ho, ?_⟩
      rw [List.flatten_cons, pend_append, hW p hp, Option.bind_some, List.flatten_append, pend_append, hp', Option.bind_some]
      refine solid_flatten (by simp) ?_ p' (le_out hle ho)
      simp only [List.mem_cons, List.not_mem_nil, or_false, forall_eq_or_imp, forall_eq]
      exact ⟨hE, hF⟩
    · rintro x (hx | rfl | rfl)
      · exact h2 x hx
      · exact hE.keeps
      · exact hF.keeps
  | @geomParen w g g' hw hg _ ih =>
    have hl' : ∀ x ∈ w :: g, Keeps x := fun x hx => hl x (by
      simp only [List.mem_cons, List.mem_append] at hx ⊢
      rcases hx with h | h <;> simp [h])
    obtain ⟨h1, h2⟩ := ih hl' fun x hx => hn x (by
      simp only [List.mem_cons, List.mem_append] at hx ⊢
      rcases hx with h | h <;> simp [h])
    refine ⟨?_, h2⟩
    intro p hp p1 hx
    have hkg : ∀ x ∈ g, Keeps x := fun x hx => hl' x (by simp [hx])
    have hw' := solid_ci hw (by decide) (by simp)
    have hP : Solid cs!"(" := solid_mark (by simp)
    have hQ : Solid cs!")" := solid_mark (by simp)
    rw [List.flatten_cons, pend_append, hw' p hp, Option.bind_some, List.flatten_cons, pend_append, hP .clean trivial,
      Option.bind_some, List.flatten_append] at hx
    obtain ⟨p2, h3, h4⟩ := pend_append_some.1 hx
    obtain rfl := pend_geometric hg hkg (p := .clean) trivial h3
    simp only [List.flatten_cons, List.flatten_nil, List.append_nil] at h4
    rw [hQ .clean trivial] at h4
    cases h4
    refine h1 p hp .clean ?_
    rw [List.flatten_cons, pend_append, hw' p hp, Option.bind_some]
    exact h3

/-! ### C40, C41 -/

/-- **C41**, **C40** for queries without neighbouring minus signs: if no two minus signs outside quotes have
only blanks between them, then the formatted query has no comment.  (A query that has such a
pair can get one, see `C40_violated`.)  The hypotheses on `nan(` and on the parameters: the argument of
a not-a-number may have quotes, and the mapping and the formatting of numerals are not fixed by the
library. -/
theorem C41_no_comment (cfg : Config) (fmt : Str → Str) (hM : ∀ y, cfg.Mapped y → y ≠ [])
    (he : Tame (env cfg fmt)) (input s : Str) (q : QuerySpec) (hs : preprocess input = .ok s)
    (hnan : NoNan s) (h : construct cfg input = .ok q) (hp : ¬ HasMinusPair s) :
    ¬ HasComment (q.print fmt) := by
  obtain ⟨s', t, b, h1, rfl, hb, l, l', hr, hed, hla⟩ := C16_faithful cfg fmt hM input q h
  rw [hs] at h1
  cases h1
  have hn : ∀ x ∈ l, NoNan x := fun x hx y hy => hnan y ((hy.trans (reads_infix hr x hx)).trans ⟨[], b, by simp⟩)
  have hk : ∀ x ∈ l, Keeps x := by
    have tok : ∀ {t l r}, Reads t l r → ∀ x ∈ l, Token x := by
      intro t l r h
      induction h with
      | nil => nofun
      | cons _ hx _ _ ih =>
        intro y hy
        rcases List.mem_cons.1 hy with rfl | hy
        · exact hx
        · exact ih y hy
    exact fun x hx => keeps_token (tok hr x hx) (hn x hx)
  obtain ⟨h2, h3⟩ := edit_pend he hed hk hn
  intro hc
  have h4 := pend_comment hc
  rw [pend_laid hla h3 .clean trivial] at h4
  cases h5 : pend .clean l.flatten with
  | none =>
    refine hp (pend_pair ?_)
    rw [pend_append, pend_reads hr hk .clean trivial, h5]
    rfl
  | some p =>
    obtain ⟨p', -, h6⟩ := h2 .clean trivial p h5
    rw [h6] at h4
    cases h4

/-- a pair of minus signs is found by the automaton -/
theorem pend_hasPair {s : Str} (h : HasMinusPair s) : pend .clean s = none := by
  obtain ⟨x, b, y, rfl, hb, hx⟩ := h
  rw [pend_append]
  cases hp : pend .clean x with
  | none => rfl
  | some p =>
    have ho : p.open = none := (pend_open x hp).trans hx
    have hd : pend .dash (b ++ '-' :: y) = none := by
      rw [pend_append, pend_blanks hb (p := .dash) trivial]
      simp [pend, pendStep]
    cases p with
    | quote q => cases ho
    | clean => simp [pend, pendStep, hd]
    | dash => simp [pend, pendStep]

theorem pend_minusLast {s : Str} (hq : ∀ c ∈ s, c ≠ '\'' ∧ c ≠ '"') (h : MinusLast s) : pend .clean s ≠ some .clean := by
  obtain ⟨u, b, hb, rfl⟩ := h
  intro he
  obtain ⟨p, h0, h1⟩ := pend_append_some.1 he
  have ho : p.out := keeps_plain (fun c hc => hq c (by simp [hc])) .clean trivial p h0
  simp only [pend] at h1
  cases p with
  | clean =>
    simp only [pendStep] at h1
    simp only [Option.bind_some, show ¬ (('-' : Char) = '\'' ∨ ('-' : Char) = '"') by decide, if_false, if_true] at h1
    rw [pend_blanks hb (p := .dash) trivial] at h1
    cases h1
  | dash => simp [pendStep] at h1
  | quote q => cases ho

theorem harmless_of {y : Str} (hq : ∀ c ∈ y, c ≠ '\'' ∧ c ≠ '"') (hb : ¬ Blanks y) (h : pend .clean y = some .clean) :
    Harmless y where
  ink := hb
  closed := (pend_open y h).symm
  pair hp := by rw [pend_hasPair hp] at h; cases h
  last hl := pend_minusLast hq hl h

theorem solid_unsigned {x : Str} (h : Unsigned x) : Solid x := by
  have dg : ∀ {d : Str}, Digits d → ∀ c ∈ d, dull c = true := fun h c hc => dull_id (.inr (.inl (h.2 c hc)))
  cases h with
  | int h => exact solid_digits h
  | dot h => exact Solid.app (solid_digits h) (solid_mark (by simp))
  | dec h h' => exact Solid.app (solid_digits h) (Solid.app (x := cs!".") (solid_mark (by simp)) (solid_digits h'))
  | frac h => exact Solid.app (x := cs!".") (solid_mark (by simp)) (solid_digits h)

theorem pend_signed {m : Str} (h : Solid m) : pend .clean ('-' :: m) = some .clean := by
  have : pendStep .clean '-' = some .dash := rfl
  simp only [pend, this, Option.bind_some]
  exact h .dash trivial

theorem solid_expo {x : Str} (h : Expo x) : Solid x := by
  have he : ∀ {e : Char}, e = 'E' ∨ e = 'e' → Solid [e] := by
    rintro e (rfl | rfl) <;> exact solid_dull (by simp) (by decide)
  cases h with
  | mk h hd => exact Solid.app (x := [_]) (he h) (solid_digits hd)
  | @signed e g d h hg hd =>
    rcases hg with rfl | rfl
    · exact Solid.app (x := [_]) (he h) (Solid.app (x := cs!"+") (solid_dull (by simp) (by decide)) (solid_digits hd))
    · intro p hp
      show pend p ([e] ++ '-' :: d) = _
      rw [pend_append, he h p hp, Option.bind_some]
      exact pend_signed (solid_digits hd)

theorem solid_magnitude {x : Str} (h : Magnitude x) (hn : NoNan x) : Solid x := by
  cases h with
  | plain h => exact solid_unsigned h
  | expo h h' => exact Solid.app (solid_unsigned h) (solid_expo h')
  | inf h => exact solid_oneOf h (by decide)
  | nan h => exact solid_ci h (by decide) (by simp)
  | @nanArg x u h _ =>
    refine absurd ?_ (hn (x ++ cs!"(") ⟨[], u ++ [')'], by simp⟩)
    show SameCI _ (cs!"nan" ++ cs!"(")
    unfold SameCI at h ⊢
    rw [List.map_append, List.map_append, h]

theorem solid_ink {x : Str} (h : Solid x) : ¬ Blanks x := fun hb => by
  have := h .dash trivial
  rw [pend_blanks hb (p := .dash) trivial] at this
  cases this

/-- numerals that are formatted as they are written meet the requirements -/
theorem number_harmless {x : Str} (h : Number x) (hn : NoNan x) : Harmless x ∧ (MinusFirst x → ∃ t, x = '-' :: t) := by
  have hq := plain_number h hn
  have tail : ∀ {c : Char} {m : Str}, NoNan (c :: m) → NoNan m := fun h y hy => h y (hy.trans (List.suffix_cons _ _).isInfix)
  cases h with
  | plain h =>
    have hs := solid_magnitude h hn
    refine ⟨harmless_of hq (solid_ink hs) (hs .clean trivial), ?_⟩
    rintro ⟨b, v, hb, rfl⟩
    have := hs .dash trivial
    rw [pend_append, pend_blanks hb (p := .dash) trivial] at this
    simp [pend, pendStep] at this
  | @plus m h =>
    have hs : Solid ('+' :: m) := Solid.app (x := cs!"+") (solid_dull (by simp) (by decide)) (solid_magnitude h (tail hn))
    refine ⟨harmless_of hq (solid_ink hs) (hs .clean trivial), ?_⟩
    rintro ⟨b, v, hb, e⟩
    have := hs .dash trivial
    rw [e, pend_append, pend_blanks hb (p := .dash) trivial] at this
    simp [pend, pendStep] at this
  | @minus m h =>
    refine ⟨harmless_of hq (fun hb => ?_) (pend_signed (solid_magnitude h (tail hn))), fun _ => ⟨m, rfl⟩⟩
    exact absurd (hb '-' (by simp)) (by decide)

/-- **C41**, the same for inputs without geometric constraints and without uploaded tables, with
numerals that are formatted as they are written: nothing is left to the parameters. -/
theorem C41_plain (r : Bool) (input : Str) (q : QuerySpec)
    (hw : ∀ u k z, input = u ++ (k ++ z) → ¬ SameCI k cs!"CONTAINS" ∧ ¬ SameCI k cs!"INTERSECTS")
    (hnan : NoNan input) (h : construct ⟨fun _ => none, r⟩ input = .ok q) (hp : ¬ HasMinusPair input) :
    ¬ HasComment (q.print id) := by
  refine C41_no_comment _ id ?_ ⟨?_, fun x hx hn => number_harmless hx hn⟩ input input q (C27_no_geometry_word _ hw) hnan h hp
  · rintro y ⟨x, hx⟩; cases hx
  · intro x y hm
    cases hm

/-- **C40**, what is left of it.  Missing: texts with a pair of minus signs that is not adjacent, where
it fails (`C40_violated`). -/
theorem C40_partial (cfg : Config) (fmt : Str → Str) (hM : ∀ y, cfg.Mapped y → y ≠ [])
    (he : Tame (env cfg fmt)) (input : Str) (hnan : ∀ s, preprocess input = .ok s → NoNan s ∧ ¬ HasMinusPair s) :
    KeepsCode cfg fmt input := by
  intro q hq _
  obtain ⟨s, -, -, hs, -⟩ := C16_faithful cfg fmt hM input q hq
  exact C41_no_comment cfg fmt hM he input s q hs (hnan s hs).1 hq (hnan s hs).2

/-- **C40**, the hypothesis is sharp: the violation of `C40_violated` has the pair of minus signs. -/
example : HasMinusPair cs!"SELECT a - -b FROM t" :=
  ⟨cs!"SELECT a ", cs!" ", cs!"b FROM t", rfl, by unfold Blanks; decide, by decide⟩

/-- decides `HasMinusPair` -/
theorem noPair_of {s : Str} (h : (pend .clean s).isSome = true) : ¬ HasMinusPair s := fun hp => by
  rw [pend_hasPair hp] at h
  cases h

/-- an example -/
def signText : Str := cs!"SELECT -a*-b - 1e-5, '--', \"x--\" FROM TAP_UPLOAD.up WHERE NOT (c > -(-1))"

/-- **C41**, non-trivial case: signs, quotes with minus signs inside, exponents and an uploaded table. -/
example : ∃ q, construct oneMap signText = .ok q ∧ ¬ HasComment (q.print id) := by
  obtain ⟨q, hq⟩ := accepted_iff.1 (show accepted (construct oneMap signText) = true by kernel_rfl)
  have hs : preprocess signText = .ok signText := by kernel_rfl
  have hp : ¬ HasMinusPair signText := noPair_of (by kernel_rfl)
  refine ⟨q, hq, C41_no_comment oneMap id oneMap_ne ⟨?_, fun x hx hn => number_harmless hx hn⟩ _ _ q hs ?_ hq hp⟩
  · intro x y h
    simp only [env, oneMap] at h
    split at h
    · cases h
      have : Solid cs!"real.table" := solid_dull (by simp) (by decide)
      refine ⟨harmless_of (by decide) (solid_ink this) (this .clean trivial), ?_⟩
      rintro ⟨b, v, -, e⟩
      have : '-' ∈ cs!"real.table" := by rw [e]; simp
      revert this
      decide
    · cases h
  · exact fun y hy hs => noPart_iff (ws := [cs!"nan("]) (by decide +kernel) y hy ⟨_, by simp, hs⟩

end Adql
